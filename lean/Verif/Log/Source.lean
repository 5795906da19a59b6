import Verif.Log.Model
import Verif.Event.Props
import Mathlib.Data.List.Perm.Basic
set_option linter.unusedSimpArgs false
set_option linter.unusedVariables false
/-! Properties C73 and C74. -/
namespace Verif.Log
open Verif.Event (Table WF insert_spec disconnect_spec connect_some num_le wf_init sinkAt)

/-- The pairs of source and cookie, seen together with the connection tables of the sources. -/
structure Good (cap : Nat) (items : List (Option Nat × Nat)) (f : Nat → Table Snk) : Prop where
  wf : ∀ s, WF cap (f s)
  /-- A cookie that is kept leads to a connection of the logger. -/
  conn : ∀ x ∈ items, x.2 ≠ 0 → ∃ s, x.1 = some s ∧ (f s).sl (x.2 - 1) = some .me
  /-- No connection is kept twice. -/
  once : items.Pairwise fun x y => x.2 ≠ 0 → x ≠ y
  /-- Every connection of the logger is kept. -/
  kept : ∀ s j, (f s).sl j = some .me → (some s, j + 1) ∈ items

theorem once_symm {x y : Option Nat × Nat} (h : x.2 ≠ 0 → x ≠ y) : y.2 ≠ 0 → y ≠ x :=
  fun h1 h2 => h (h2 ▸ h1) h2.symm

theorem Good.perm {cap : Nat} {l l' : List (Option Nat × Nat)} {f : Nat → Table Snk} (h : Good cap l f) (p : l.Perm l') :
    Good cap l' f :=
  ⟨h.wf, fun x hx => h.conn x (p.mem_iff.mpr hx), (p.pairwise_iff once_symm).mp h.once,
    fun s j hj => p.mem_iff.mp (h.kept s j hj)⟩

theorem good_nil (cap : Nat) : Good cap [] fun _ => .init :=
  ⟨fun _ => wf_init, by simp, by simp, fun s j h => by simp [Table.sl, Table.init] at h⟩

theorem upd_self {α : Type} (f : Nat → α) (k : Nat) (v : α) : upd f k v k = v := by simp [upd]
theorem upd_ne {α : Type} (f : Nat → α) {k j : Nat} (v : α) (h : j ≠ k) : upd f k v j = f j := by simp [upd, h]

/-- A pair without cookie may be added, dropped or changed. -/
theorem Good.zero {cap : Nat} {l : List (Option Nat × Nat)} {f : Nat → Table Snk} {o o' : Option Nat}
    (h : Good cap ((o, 0) :: l) f) : Good cap ((o', 0) :: l) f := by
  refine ⟨h.wf, fun x hx hx0 => ?_, ?_, fun s j hj => ?_⟩
  · rcases List.mem_cons.mp hx with e | hx
    · subst e; exact absurd rfl hx0
    · exact h.conn x (by simp [hx]) hx0
  · exact List.pairwise_cons.mpr ⟨fun y _ h0 => absurd rfl h0, (List.pairwise_cons.mp h.once).2⟩
  · rcases List.mem_cons.mp (h.kept s j hj) with e | e
    · simp at e
    · simp [e]

theorem Good.cons {cap : Nat} {l : List (Option Nat × Nat)} {f : Nat → Table Snk} (o : Option Nat)
    (h : Good cap l f) : Good cap ((o, 0) :: l) f := by
  refine ⟨h.wf, fun x hx hx0 => ?_, ?_, fun s j hj => by simp [h.kept s j hj]⟩
  · rcases List.mem_cons.mp hx with e | hx
    · subst e; exact absurd rfl hx0
    · exact h.conn x hx hx0
  · exact List.pairwise_cons.mpr ⟨fun y _ h0 => absurd rfl h0, h.once⟩

/-- Connecting one source. -/
theorem Good.connect {cap : Nat} {l : List (Option Nat × Nat)} {f : Nat → Table Snk} {s : Nat} {k : Nat} {tb : Table Snk}
    (h : Good cap ((some s, 0) :: l) f) (hc : (f s).connect cap (some .me) = .ok (k, tb)) :
    k ≠ 0 ∧ Good cap ((some s, k) :: l) (upd f s tb) := by
  have w := h.wf s
  rw [connect_some w] at hc
  by_cases hn : (f s).num = cap
  · rw [if_pos hn] at hc; cases hc
  rw [if_neg hn] at hc
  have hlt : (f s).num < cap := by have := num_le w; omega
  obtain ⟨i1, -, i3, i4, i5, -⟩ := insert_spec w hlt Snk.me
  cases hi : (f s).insert Snk.me with
  | mk k' tb' =>
    rw [hi] at hc i1 i3 i4 i5
    cases hc
    dsimp only at i1 i3 i4 i5
    refine ⟨i1, fun s' => ?_, fun x hx hx0 => ?_, ?_, fun s' j hj => ?_⟩
    · by_cases e : s' = s
      · subst e; rw [upd_self]; exact i5
      · rw [upd_ne _ _ e]; exact h.wf s'
    · rcases List.mem_cons.mp hx with e | hx
      · subst e
        refine ⟨s, rfl, ?_⟩
        rw [upd_self, i4]
        dsimp only
        rw [if_pos (by omega)]
      · obtain ⟨s', e1, e2⟩ := h.conn x (by simp [hx]) hx0
        refine ⟨s', e1, ?_⟩
        by_cases e : s' = s
        · subst e
          rw [upd_self, i4]
          split
          · rfl
          · exact e2
        · rw [upd_ne _ _ e]; exact e2
    · refine List.pairwise_cons.mpr ⟨fun y hy _ e => ?_, (List.pairwise_cons.mp h.once).2⟩
      subst e
      obtain ⟨s', e1, e2⟩ := h.conn (some s, k) (by simp [hy]) i1
      cases e1
      rw [i3] at e2; cases e2
    · by_cases e : s' = s
      · subst e
        rw [upd_self, i4] at hj
        split at hj
        · rename_i e; rw [e]; simp
        · rcases List.mem_cons.mp (h.kept s' j hj) with e | e
          · simp at e
          · simp [e]
      · rw [upd_ne _ _ e] at hj
        rcases List.mem_cons.mp (h.kept s' j hj) with e | e
        · simp at e
        · simp [e]

/-- Disconnecting one source. -/
theorem Good.disconnect {cap : Nat} (hcap : cap < 2 ^ 32) {l : List (Option Nat × Nat)} {f : Nat → Table Snk} {s k : Nat}
    (h : Good cap ((some s, k) :: l) f) : Good cap ((some s, 0) :: l) (upd f s ((f s).disconnect k)) := by
  have w := h.wf s
  obtain ⟨d1, d2, -, d4⟩ := disconnect_spec w hcap k
  by_cases hk : k = 0
  · subst hk
    have e : upd f s ((f s).disconnect 0) = f := by
      funext j
      by_cases e : j = s
      · subst e; rw [upd_self, d4 (Or.inr rfl)]
      · rw [upd_ne _ _ e]
    rw [e]; exact h
  have hp := List.pairwise_cons.mp h.once
  refine ⟨fun s' => ?_, fun x hx hx0 => ?_, ?_, fun s' j hj => ?_⟩
  · by_cases e : s' = s
    · subst e; rw [upd_self]; exact d2
    · rw [upd_ne _ _ e]; exact h.wf s'
  · rcases List.mem_cons.mp hx with e | hx'
    · subst e; exact absurd rfl hx0
    · obtain ⟨s', e1, e2⟩ := h.conn x (by simp [hx']) hx0
      refine ⟨s', e1, ?_⟩
      by_cases e : s' = s
      · subst e
        rw [upd_self, d1, if_neg]
        · exact e2
        · intro e3
          have := hp.1 x (by assumption) hk
          apply this
          cases x with
          | mk a b => dsimp only at e1 e3 hx0 ⊢; subst e1; rw [show k = b by omega]
      · rw [upd_ne _ _ e]; exact e2
  · exact List.pairwise_cons.mpr ⟨fun y _ h0 => absurd rfl h0, hp.2⟩
  · by_cases e : s' = s
    · subst e
      rw [upd_self, d1] at hj
      split at hj
      · cases hj
      · rename_i e
        rcases List.mem_cons.mp (h.kept s' j hj) with e' | e'
        · simp at e'; omega
        · simp [e']
    · rw [upd_ne _ _ e] at hj
      rcases List.mem_cons.mp (h.kept s' j hj) with e' | e'
      · simp at e'; exact absurd e'.1 e
      · simp [e']

/-- The loop of `Connect`, with the pairs already handled in `pre`. -/
theorem good_connectAll {cap : Nat} : ∀ (l pre : List (Option Nat × Nat)) (f : Nat → Table Snk),
    Good cap (pre ++ l) f → (∀ x ∈ l, x.2 = 0) → (connectAll cap l f).1 = none →
    Good cap (pre ++ (connectAll cap l f).2.1) (connectAll cap l f).2.2 ∧
      (connectAll cap l f).2.1.map (·.1) = l.map (·.1) ∧ ∀ x ∈ (connectAll cap l f).2.1, x.2 ≠ 0 ↔ x.1.isSome
  | [], pre, f, h, _, _ => ⟨h, rfl, by simp [connectAll]⟩
  | (none, c) :: t, pre, f, h, h0, he => by
    have hc : c = 0 := h0 (none, c) (by simp)
    subst hc
    have ih := good_connectAll t (pre ++ [(none, 0)]) f (by simpa using h) (fun x hx => h0 x (by simp [hx])) he
    simp only [connectAll]
    refine ⟨by simpa using ih.1, by simp [ih.2.1], fun x hx => ?_⟩
    rcases List.mem_cons.mp hx with e | hx
    · subst e; simp
    · exact ih.2.2 x hx
  | (some s, c) :: t, pre, f, h, h0, he => by
    have hc : c = 0 := h0 (some s, c) (by simp)
    subst hc
    rw [connectAll] at he ⊢
    cases hcn : (f s).connect cap (some .me) with
    | error e => rw [hcn] at he; cases he
    | ok r =>
      obtain ⟨k, tb⟩ := r
      rw [hcn] at he
      dsimp only at he ⊢
      have p1 : (pre ++ (some s, 0) :: t).Perm ((some s, 0) :: (pre ++ t)) := List.perm_middle
      obtain ⟨hk, g⟩ := (h.perm p1).connect hcn
      have g' := g.perm (List.perm_middle (l₁ := pre) (l₂ := t) (a := (some s, k))).symm
      have ih := good_connectAll t (pre ++ [(some s, k)]) (upd f s tb) (by simpa using g') (fun x hx => h0 x (by simp [hx])) he
      refine ⟨by simpa using ih.1, by simp [ih.2.1], fun x hx => ?_⟩
      rcases List.mem_cons.mp hx with e | hx
      · subst e; simp [hk]
      · exact ih.2.2 x hx

/-- The loop of `Disconnect`. -/
theorem good_disconnectAll {cap : Nat} (hcap : cap < 2 ^ 32) : ∀ (l pre : List (Option Nat × Nat)) (f : Nat → Table Snk),
    Good cap (pre ++ l) f →
    Good cap (pre ++ (disconnectAll l f).1) (disconnectAll l f).2 ∧ (disconnectAll l f).1.map (·.1) = l.map (·.1) ∧
      ∀ x ∈ (disconnectAll l f).1, x.2 = 0
  | [], pre, f, h => ⟨h, rfl, by simp [disconnectAll]⟩
  | (none, c) :: t, pre, f, h => by
    have hc : c = 0 := by
      by_contra hc
      obtain ⟨s, e, -⟩ := h.conn (none, c) (by simp) hc
      cases e
    subst hc
    have ih := good_disconnectAll hcap t (pre ++ [(none, 0)]) f (by simpa using h)
    simp only [disconnectAll]
    refine ⟨by simpa using ih.1, by simp [ih.2.1], fun x hx => ?_⟩
    rcases List.mem_cons.mp hx with e | hx
    · subst e; rfl
    · exact ih.2.2 x hx
  | (some s, c) :: t, pre, f, h => by
    have p1 : (pre ++ (some s, c) :: t).Perm ((some s, c) :: (pre ++ t)) := List.perm_middle
    have g := (h.perm p1).disconnect hcap
    have g' := g.perm (List.perm_middle (l₁ := pre) (l₂ := t) (a := (some s, 0))).symm
    have ih := good_disconnectAll hcap t (pre ++ [(some s, 0)]) _ (by simpa using g')
    simp only [disconnectAll]
    refine ⟨by simpa using ih.1, by simp [ih.2.1], fun x hx => ?_⟩
    rcases List.mem_cons.mp hx with e | hx
    · subst e; rfl
    · exact ih.2.2 x hx

/-- The invariant of a logger none of whose connections failed. -/
structure LInv (cap0 cap : Nat) (l : Logger) : Prop where
  ev : WF cap0 l.ev
  good : Good cap l.items l.srcs
  sink : l.sink = true ↔ l.ev.num ≠ 0
  full : ∀ x ∈ l.items, x.2 ≠ 0 ↔ (x.1.isSome ∧ l.sink = true)

/-- What the history must respect: other parties disconnect only their own connections; a call of `Connect` on the logger while it
has no sink, and a call of `RegisterSource`, raises no exception.  (Specification; no code.) -/
def Respects (cap0 cap : Nat) (l : Logger) (o : LOp) : Prop :=
  match o with
  | .srcDisconnect s c => sinkAt (l.srcs s) c ≠ some .me
  | .connect s => l.ev.num = 0 → (l.connect cap0 cap s).1 = none
  | .register s => (l.register cap s).1 = none
  | _ => True

theorem linv_init (cap0 cap : Nat) : LInv cap0 cap .init :=
  ⟨wf_init, good_nil cap, by simp [Logger.init, Table.init], by simp [Logger.init]⟩

theorem num_insert {cap : Nat} {σ : Type} {t : Table σ} (w : WF cap t) (h : t.num < cap) (s : σ) : (t.insert s).2.num ≠ 0 := by
  obtain ⟨i1, -, i3, i4, i5, -⟩ := insert_spec w h s
  intro e
  have hn := i5.num
  rw [e] at hn
  have hsl := i4 ((t.insert s).1 - 1)
  rw [if_pos (by omega)] at hsl
  have := Event.slots_of_sl hsl
  have hm := List.mem_of_getElem? this
  have := (List.countP_eq_zero.mp hn.symm) _ hm
  simp at this

/-- Connecting a sink to the logger's own event. -/
theorem linv_ev {cap0 cap : Nat} {l : Logger} (hev : WF cap0 l.ev) {s : Option Nat} {k : Nat} {tb : Table Nat}
    (h : l.ev.connect cap0 s = .ok (k, tb)) : WF cap0 tb ∧ tb.num ≠ 0 := by
  cases s with
  | none => cases h
  | some s =>
    rw [connect_some hev] at h
    by_cases hn : l.ev.num = cap0
    · rw [if_pos hn] at h; cases h
    · rw [if_neg hn] at h
      have hlt : l.ev.num < cap0 := by have := num_le hev; omega
      have e : l.ev.insert s = (k, tb) := Except.ok.inj h
      have e2 : tb = (l.ev.insert s).2 := by rw [e]
      rw [e2]
      exact ⟨(insert_spec hev hlt s).2.2.2.2.1, num_insert hev hlt s⟩

theorem slot_spec : ∀ l : List (Option Nat × Nat), slot l ≤ l.length ∧ ∀ x, l[slot l]? = some x → x.1 = none
  | [] => ⟨Nat.le_refl _, by simp [slot]⟩
  | (none, c) :: t => ⟨by simp [slot], by simp [slot]⟩
  | (some s, c) :: t => by
    obtain ⟨h1, h2⟩ := slot_spec t
    exact ⟨by simp [slot, h1], fun x hx => h2 x (by simpa [slot] using hx)⟩

/-- The list of pairs after `Register`. -/
def putAt (l : List (Option Nat × Nat)) (x : Option Nat × Nat) : List (Option Nat × Nat) :=
  if slot l < l.length then l.set (slot l) x else l ++ [x]

theorem put_perm (l : List (Option Nat × Nat)) : ∃ rest, (∀ x, (putAt l x).Perm (x :: rest)) ∧
    (l.Perm rest ∧ slot l = l.length ∨ ∃ c, l.Perm ((none, c) :: rest) ∧ l[slot l]? = some (none, c)) := by
  obtain ⟨h1, h2⟩ := slot_spec l
  by_cases h : slot l < l.length
  · refine ⟨l.eraseIdx (slot l), fun x => ?_, Or.inr ?_⟩
    · rw [putAt, if_pos h]; exact List.set_perm_cons_eraseIdx h x
    · have e := h2 _ (List.getElem?_eq_getElem h)
      refine ⟨l[slot l].2, ?_, ?_⟩
      · have := (List.getElem_cons_eraseIdx_perm h).symm
        rwa [show l[slot l] = (none, l[slot l].2) from Prod.ext e rfl] at this
      · rw [List.getElem?_eq_getElem h]; exact congrArg some (Prod.ext e rfl)
  · refine ⟨l, fun x => ?_, Or.inl ⟨List.Perm.refl _, by omega⟩⟩
    rw [putAt, if_neg h]
    exact List.perm_append_singleton x l

theorem full_perm {l l' : List (Option Nat × Nat)} {p : Option Nat × Nat → Prop} (h : l.Perm l') (hp : ∀ x ∈ l, p x) :
    ∀ x ∈ l', p x := fun x hx => hp x (h.mem_iff.mpr hx)

theorem linv_register {cap0 cap : Nat} {l : Logger} (h : LInv cap0 cap l) (s : Option Nat)
    (he : (l.register cap s).1 = none) : LInv cap0 cap (l.register cap s).2.2 := by
  cases s with
  | none => exact h
  | some s =>
    obtain ⟨rest, p1, p2⟩ := put_perm l.items
    -- the pair without source that is reused carries no cookie
    have hc0 : (l.items[slot l.items]?.map (·.2)).getD 0 = 0 := by
      rcases p2 with ⟨-, e⟩ | ⟨c, pc, e⟩
      · simp [e]
      · rw [e]
        have := (h.full (none, c) (pc.mem_iff.mpr (by simp)))
        simp at this
        simpa using this
    have g : Good cap ((some s, 0) :: rest) l.srcs ∧ ∀ x ∈ rest, x.2 ≠ 0 ↔ (x.1.isSome ∧ l.sink = true) := by
      rcases p2 with ⟨p, -⟩ | ⟨c, p, e⟩
      · exact ⟨(h.good.perm p).cons (some s), full_perm p h.full⟩
      · rw [e] at hc0
        simp at hc0
        subst hc0
        exact ⟨(h.good.perm p).zero, fun x hx => full_perm p h.full x (by simp [hx])⟩
    have ep : ∀ k, (if slot l.items < l.items.length then l.items.set (slot l.items) (some s, k) else l.items ++ [(some s, k)]) =
        putAt l.items (some s, k) := fun k => rfl
    unfold Logger.register at he ⊢
    simp only [hc0, ep] at he ⊢
    by_cases hs : l.sink = true
    · simp only [hs, if_true] at he ⊢
      cases hcn : (l.srcs s).connect cap (some .me) with
      | error e => rw [hcn] at he; cases he
      | ok r =>
        obtain ⟨k, tb⟩ := r
        dsimp only
        obtain ⟨hk, g1⟩ := g.1.connect hcn
        have g2 := g.2
        rw [hs] at g2
        refine ⟨h.ev, g1.perm (p1 (some s, k)).symm, hs ▸ h.sink, ?_⟩
        dsimp only
        refine full_perm (p1 (some s, k)).symm fun x hx => ?_
        rcases List.mem_cons.mp hx with e | hx
        · subst e; simp [hk]
        · exact g2 x hx
    · have hs : l.sink = false := by simpa using hs
      simp only [hs, if_false, Bool.false_eq_true] at he ⊢
      refine ⟨h.ev, g.1.perm (p1 (some s, 0)).symm, hs ▸ h.sink, ?_⟩
      dsimp only
      rw [← hs]
      refine full_perm (p1 (some s, 0)).symm fun x hx => ?_
      rcases List.mem_cons.mp hx with e | hx
      · subst e; simp [hs]
      · exact g.2 x hx

theorem linv_unregister {cap0 cap : Nat} (hcap : cap < 2 ^ 32) {l l' : Logger} (h : LInv cap0 cap l) {c : Nat}
    (he : l.unregister c = some l') : LInv cap0 cap l' := by
  unfold Logger.unregister at he
  by_cases hc : c = 0
  · rw [if_pos hc] at he; cases he; exact h
  rw [if_neg hc] at he
  cases hi : l.items[c - 1]? with
  | none => rw [hi] at he; cases he
  | some x =>
    obtain ⟨o, k⟩ := x
    rw [hi] at he
    simp only [Option.some.injEq] at he
    obtain ⟨hlt, hx⟩ := List.getElem?_eq_some_iff.mp hi
    have p0 := (List.getElem_cons_eraseIdx_perm hlt).symm
    rw [hx] at p0
    have p1 := List.set_perm_cons_eraseIdx hlt ((none, 0) : Option Nat × Nat)
    have g := h.good.perm p0
    subst he
    have hfull : ∀ x ∈ l.items.set (c - 1) (none, 0), x.2 ≠ 0 ↔ (x.1.isSome ∧ l.sink = true) := by
      refine full_perm p1.symm fun x hx => ?_
      rcases List.mem_cons.mp hx with e | hx
      · subst e; simp
      · exact h.full x (p0.mem_iff.mpr (by simp [hx]))
    refine ⟨h.ev, ?_, h.sink, hfull⟩
    dsimp only
    cases o with
    | none =>
      have hk : k = 0 := by
        by_contra hk
        obtain ⟨s, e, -⟩ := g.conn (none, k) (by simp) hk
        cases e
      subst hk
      exact g.perm p1.symm
    | some s =>
      dsimp only
      by_cases hk : k = 0
      · subst hk
        rw [if_neg (by simp)]
        exact (g.zero (o' := none)).perm p1.symm
      · rw [if_pos hk]
        exact ((g.disconnect hcap).zero (o' := none)).perm p1.symm

theorem linv_connect {cap0 cap : Nat} {l : Logger} (h : LInv cap0 cap l) (s : Option Nat)
    (he : l.ev.num = 0 → (l.connect cap0 cap s).1 = none) : LInv cap0 cap (l.connect cap0 cap s).2.2 := by
  unfold Logger.connect at he ⊢
  by_cases hn : l.ev.num = 0
  · have hs : l.sink = false := by
      have := h.sink; cases hx : l.sink <;> simp_all
    have he := he hn
    simp only [if_pos hn, hs, Bool.false_eq_true, if_false] at he ⊢
    have hz : ∀ x ∈ l.items, x.2 = 0 := by
      intro x hx
      by_contra hx0
      have := (h.full x hx).mp hx0
      rw [hs] at this
      simp at this
    cases hc : (connectAll cap l.items l.srcs).1 with
    | some e => simp [hc] at he
    | none =>
      obtain ⟨g1, g2, g3⟩ := good_connectAll l.items [] l.srcs h.good hz hc
      simp only [List.nil_append] at g1
      simp only [hc] at he ⊢
      cases hcn : l.ev.connect cap0 s with
      | error e => rw [hcn] at he; cases he
      | ok r =>
        obtain ⟨k, tb⟩ := r
        dsimp only
        obtain ⟨w, hne⟩ := linv_ev (cap := cap) h.ev hcn
        refine ⟨w, g1, by simp [hne], fun x hx => ?_⟩
        simpa using g3 x hx
  · simp only [if_neg hn]
    cases hcn : l.ev.connect cap0 s with
    | error e => exact h
    | ok r =>
      obtain ⟨k, tb⟩ := r
      dsimp only
      obtain ⟨w, hne⟩ := linv_ev (cap := cap) h.ev hcn
      have hs : l.sink = true := h.sink.mpr hn
      exact ⟨w, h.good, by simp [hne, hs], h.full⟩

theorem linv_disconnect {cap0 cap : Nat} (hcap0 : cap0 < 2 ^ 32) (hcap : cap < 2 ^ 32) {l : Logger} (h : LInv cap0 cap l)
    (c : Nat) : LInv cap0 cap (l.disconnect c) := by
  obtain ⟨d1, d2, -, d4⟩ := disconnect_spec h.ev hcap0 c
  unfold Logger.disconnect
  dsimp only
  by_cases hn : (l.ev.disconnect c).num = 0
  · rw [if_pos hn]
    obtain ⟨g1, g2, g3⟩ := good_disconnectAll hcap l.items [] l.srcs h.good
    exact ⟨d2, by simpa using g1, by simp [hn], fun x hx => by simp [g3 x hx]⟩
  · rw [if_neg hn]
    have : l.ev.num ≠ 0 := by
      intro e
      apply hn
      have hnum := h.ev.num
      rw [e] at hnum
      -- an empty table stays as it is
      have hz : l.ev.sl (c - 1) = none := by
        cases hs : l.ev.sl (c - 1) with
        | none => rfl
        | some y =>
          have := Event.slots_of_sl hs
          have := (List.countP_eq_zero.mp hnum.symm) _ (List.mem_of_getElem? this)
          simp at this
      rw [d4 (Or.inl hz)]; exact e
    exact ⟨d2, h.good, by simp [hn, h.sink.mpr this], h.full⟩

/-- Other parties. -/
theorem good_other {cap : Nat} {items : List (Option Nat × Nat)} {f : Nat → Table Snk} (h : Good cap items f) {s : Nat}
    {tb : Table Snk} (w : WF cap tb) (hme : ∀ j, tb.sl j = some .me ↔ (f s).sl j = some .me) :
    Good cap items (upd f s tb) := by
  refine ⟨fun s' => ?_, fun x hx hx0 => ?_, h.once, fun s' j hj => ?_⟩
  · by_cases e : s' = s
    · subst e; rw [upd_self]; exact w
    · rw [upd_ne _ _ e]; exact h.wf s'
  · obtain ⟨s', e1, e2⟩ := h.conn x hx hx0
    refine ⟨s', e1, ?_⟩
    by_cases e : s' = s
    · subst e; rw [upd_self, hme]; exact e2
    · rw [upd_ne _ _ e]; exact e2
  · by_cases e : s' = s
    · subst e; rw [upd_self, hme] at hj; exact h.kept s' j hj
    · rw [upd_ne _ _ e] at hj; exact h.kept s' j hj

theorem linv_step {cap0 cap : Nat} (hcap0 : cap0 < 2 ^ 32) (hcap : cap < 2 ^ 32) {l : Logger} (h : LInv cap0 cap l) (o : LOp)
    (hr : Respects cap0 cap l o) {e : Option LErr} {k : Nat} {l' : Logger} (hs : l.step cap0 cap o = some (e, k, l')) :
    LInv cap0 cap l' := by
  cases o with
  | connect s => simp only [Logger.step, Option.some.injEq] at hs; have := linv_connect h s hr; rw [hs] at this; exact this
  | disconnect c =>
    simp only [Logger.step, Option.some.injEq, Prod.mk.injEq] at hs
    obtain ⟨-, -, rfl⟩ := hs
    exact linv_disconnect hcap0 hcap h c
  | register s => simp only [Logger.step, Option.some.injEq] at hs; have := linv_register h s hr; rw [hs] at this; exact this
  | unregister c =>
    simp only [Logger.step, Option.map_eq_some_iff, Prod.mk.injEq] at hs
    obtain ⟨l1, hs, -, -, rfl⟩ := hs
    exact linv_unregister hcap h hs
  | srcConnect s k' =>
    simp only [Logger.step, Option.some.injEq] at hs
    have w := h.good.wf s
    rw [connect_some w] at hs
    by_cases hn : (l.srcs s).num = cap
    · rw [if_pos hn] at hs; cases hs; exact h
    · rw [if_neg hn] at hs
      have hlt : (l.srcs s).num < cap := by have := num_le w; omega
      obtain ⟨i1, -, i3, i4, i5, -⟩ := insert_spec w hlt (Snk.other k')
      have e2 : l' = { l with srcs := upd l.srcs s ((l.srcs s).insert (Snk.other k')).2 } := by
        simp only [Prod.mk.injEq] at hs; exact hs.2.2.symm
      rw [e2]
      refine ⟨h.ev, good_other h.good i5 fun j => ?_, h.sink, h.full⟩
      rw [i4]
      split
      · rename_i e
        rw [show j = ((l.srcs s).insert (Snk.other k')).1 - 1 by omega, i3]; simp
      · exact Iff.rfl
  | srcDisconnect s c =>
    simp only [Logger.step, Option.some.injEq, Prod.mk.injEq] at hs
    obtain ⟨-, -, rfl⟩ := hs
    obtain ⟨d1, d2, -, d4⟩ := disconnect_spec (h.good.wf s) hcap c
    refine ⟨h.ev, good_other h.good d2 fun j => ?_, h.sink, h.full⟩
    rw [d1]
    split
    · rename_i e
      subst e
      have hne : (l.srcs s).sl j ≠ some .me := by
        have := hr
        simp only [Respects, Event.sinkAt_eq] at this
        simpa using this
      simp [hne]
    · exact Iff.rfl

/-- States reached by histories that respect the conditions.  (Specification; no code.) -/
inductive LReach (cap0 cap : Nat) : Logger → Prop where
  | init : LReach cap0 cap .init
  | step {l l' : Logger} {o : LOp} {e : Option LErr} {k : Nat} : LReach cap0 cap l → Respects cap0 cap l o →
      l.step cap0 cap o = some (e, k, l') → LReach cap0 cap l'

theorem LReach.inv {cap0 cap : Nat} (hcap0 : cap0 < 2 ^ 32) (hcap : cap < 2 ^ 32) {l : Logger} (h : LReach cap0 cap l) :
    LInv cap0 cap l := by
  induction h with
  | init => exact linv_init cap0 cap
  | step _ hr hs ih => exact linv_step hcap0 hcap ih _ hr hs

/-- The source registered under a cookie of `RegisterSource`.  (Specification; no code.) -/
def regAt (l : Logger) (c : Nat) : Option Nat := if c = 0 then none else (l.items[c - 1]?).bind (·.1)

/-- The cookies under which a source is registered.  (Specification; no code.) -/
def regs (l : Logger) (s : Nat) : List Nat := (List.range' 1 l.items.length).filter fun c => regAt l c = some s

/-- The connections of the logger at a source.  (Specification; no code.) -/
def mine (cap : Nat) (l : Logger) (s : Nat) : List Nat :=
  (Event.liveCookies cap (l.srcs s)).filter fun c => sinkAt (l.srcs s) c = some .me

theorem filterMap_regs (items : List (Option Nat × Nat)) (s : Nat) :
    ((List.range' 1 items.length).filter fun c =>
      (if c = 0 then none else (items[c - 1]?).bind (·.1)) = some s).length = items.countP fun x => x.1 = some s := by
  have : ∀ (k : Nat) (items : List (Option Nat × Nat)),
      ((List.range' k items.length).filter fun c => ((items[c - k]?).bind (·.1)) = some s).length =
        items.countP fun x => x.1 = some s := by
    intro k items
    induction items generalizing k with
    | nil => rfl
    | cons x t ih =>
      simp only [List.length_cons, List.range'_succ, List.filter_cons, List.countP_cons]
      have e : ((List.range' (k + 1) t.length).filter fun c => (((x :: t)[c - k]?).bind (·.1)) = some s) =
          (List.range' (k + 1) t.length).filter fun c => ((t[c - (k + 1)]?).bind (·.1)) = some s := by
        apply List.filter_congr
        intro c hc
        rw [List.mem_range'_1] at hc
        rw [show c - k = (c - (k + 1)) + 1 by omega]
        rfl
      rw [e]
      have := ih (k + 1)
      simp only [Nat.sub_self, List.getElem?_cons_zero, Option.bind_some]
      by_cases h : x.1 = some s
      · simp [h, this]
      · simp [h, this]
  rw [← this 1 items]
  congr 1
  apply List.filter_congr
  intro c hc
  rw [List.mem_range'_1] at hc
  rw [if_neg (by omega)]

/-- At every moment of such a history each source carries as many connections of the logger as it is registered (once, if it is
registered once) if the logger has a sink, and none otherwise. -/
theorem C73_connected_partial {cap0 cap : Nat} (hcap0 : cap0 < 2 ^ 32) (hcap : cap < 2 ^ 32) {l : Logger}
    (h : LReach cap0 cap l) (s : Nat) :
    (mine cap l s).length = if l.ev.getNumSinks = 0 then 0 else (regs l s).length := by
  have inv := h.inv hcap0 hcap
  have w := inv.good.wf s
  -- the kept cookies of the source
  let ks := l.items.filterMap fun x => if x.1 = some s ∧ x.2 ≠ 0 then some x.2 else none
  have hnd : ks.Nodup := by
    have := inv.good.once
    refine List.Pairwise.filterMap (R := fun x y => x.2 ≠ 0 → x ≠ y) _ ?_ this
    intro a b hab x hx y hy hxy
    split at hx <;> simp at hx
    split at hy <;> simp at hy
    rename_i ha hb
    exact hab ha.2 (Prod.ext (ha.1.trans hb.1.symm) (by omega))
  have hnd2 : (mine cap l s).Nodup := by
    have : (Event.liveCookies cap (l.srcs s)).Nodup :=
      (List.nodup_range' (step := 1) (by omega)).sublist List.filter_sublist
    exact this.sublist List.filter_sublist
  have hperm : (mine cap l s).Perm ks := by
    rw [List.perm_ext_iff_of_nodup hnd2 hnd]
    intro c
    have hm : c ∈ mine cap l s ↔ sinkAt (l.srcs s) c = some .me := by
      unfold mine
      rw [List.mem_filter]
      simp only [decide_eq_true_eq, and_iff_right_iff_imp]
      intro hc
      have hc' := hc
      rw [Event.sinkAt_eq] at hc'
      refine List.mem_filter.mpr ⟨?_, by simp [hc]⟩
      by_cases h0 : c = 0
      · simp [h0] at hc'
      · rw [if_neg h0] at hc'
        have := Event.sl_lt (t := l.srcs s) (i := c - 1) (by rw [hc']; rfl)
        have := w.size
        rw [List.mem_range'_1]; omega
    rw [hm, Event.sinkAt_eq]
    simp only [ks, List.mem_filterMap]
    constructor
    · intro hc
      by_cases h0 : c = 0
      · simp [h0] at hc
      · rw [if_neg h0] at hc
        have := inv.good.kept s (c - 1) hc
        rw [show c - 1 + 1 = c by omega] at this
        exact ⟨_, this, by simp [h0]⟩
    · rintro ⟨x, hx, hc⟩
      split at hc
      · rename_i e
        cases hc
        obtain ⟨s', e1, e2⟩ := inv.good.conn x hx e.2
        rw [e.1] at e1; cases e1
        rw [if_neg e.2]; exact e2
      · cases hc
  rw [hperm.length_eq]
  have hcount : ks.length = l.items.countP fun x => decide (x.1 = some s ∧ x.2 ≠ 0) := by
    simp only [ks]
    generalize l.items = items
    induction items with
    | nil => rfl
    | cons x t ih =>
      rw [List.filterMap_cons, List.countP_cons]
      by_cases e : x.1 = some s ∧ x.2 ≠ 0
      · simp only [if_pos e, List.length_cons, ih]; simp [e]
      · simp only [if_neg e, ih]; simp [e]
  rw [hcount, Event.Table.getNumSinks]
  by_cases hn : l.ev.num = 0
  · rw [if_pos hn, List.countP_eq_zero]
    intro x hx
    have := inv.full x hx
    have hs : l.sink = false := by have := inv.sink; cases hx : l.sink <;> simp_all
    rw [hs] at this
    simp at this
    simp [this]
  · rw [if_neg hn]
    have hs := inv.sink.mpr hn
    have := filterMap_regs l.items s
    have e : (regs l s).length = l.items.countP fun x => x.1 = some s := by
      unfold regs regAt; exact this
    rw [e]
    apply List.countP_congr
    intro x hx
    have := inv.full x hx
    rw [hs] at this
    simp only [decide_eq_true_eq]
    constructor
    · exact fun h => h.1
    · intro h1; exact ⟨h1, this.mpr ⟨by simp [h1], rfl⟩⟩

/-- `RegisterSource` returns a new non-zero cookie for the source, `UnregisterSource` drops exactly its cookie, and no other call
changes what is registered. -/
theorem C73_registered {cap0 cap : Nat} (l : Logger) (o : LOp) {e : Option LErr} {k : Nat} {l' : Logger}
    (hs : l.step cap0 cap o = some (e, k, l')) :
    match o with
    | .register (some s) => k ≠ 0 ∧ regAt l k = none ∧ ∀ c, regAt l' c = if c = k then some s else regAt l c
    | .register none => k = 0 ∧ l' = l
    | .unregister c0 => ∀ c, regAt l' c = if c = c0 then none else regAt l c
    | _ => ∀ c, regAt l' c = regAt l c := by
  have map1 : ∀ (a b : List (Option Nat × Nat)), a.map (·.1) = b.map (·.1) → ∀ i : Nat, (a[i]?).bind (·.1) = (b[i]?).bind (·.1) := by
    intro a b h i
    have := congrArg (fun l => l[i]?) h
    simp only [List.getElem?_map] at this
    cases ha : a[i]? <;> cases hb : b[i]? <;> rw [ha, hb] at this <;> simp_all
  have con : ∀ (l : List (Option Nat × Nat)) (f : Nat → Table Snk), (connectAll cap l f).2.1.map (·.1) = l.map (·.1) := by
    intro l
    induction l with
    | nil => intro f; rfl
    | cons x t ih =>
      intro f
      obtain ⟨o, c⟩ := x
      cases o with
      | none => simp [connectAll, ih]
      | some s =>
        rw [connectAll]
        cases (f s).connect cap (some .me) with
        | error e => rfl
        | ok r => simp [ih]
  have dis : ∀ (l : List (Option Nat × Nat)) (f : Nat → Table Snk), (disconnectAll l f).1.map (·.1) = l.map (·.1) := by
    intro l
    induction l with
    | nil => intro f; rfl
    | cons x t ih =>
      intro f
      obtain ⟨o, c⟩ := x
      cases o <;> simp [disconnectAll, ih]
  cases o with
  | connect s =>
    intro c
    simp only [Logger.step, Option.some.injEq] at hs
    unfold regAt
    split
    · rfl
    · apply map1
      have hl : l' = (l.connect cap0 cap s).2.2 := by rw [hs]
      rw [hl]
      unfold Logger.connect
      by_cases hn : l.ev.num = 0
      · simp only [if_pos hn]
        by_cases hk : l.sink = true
        · simp [hk]
        · simp only [hk, if_false, Bool.false_eq_true]
          cases (connectAll cap l.items l.srcs).1 with
          | some e => exact con _ _
          | none =>
            dsimp only
            cases l.ev.connect cap0 s with
            | error e => exact con _ _
            | ok r => exact con _ _
      · simp only [if_neg hn]
        cases l.ev.connect cap0 s <;> rfl
  | disconnect c0 =>
    intro c
    simp only [Logger.step, Option.some.injEq, Prod.mk.injEq] at hs
    obtain ⟨-, -, rfl⟩ := hs
    unfold regAt
    split
    · rfl
    · apply map1
      unfold Logger.disconnect
      dsimp only
      split
      · exact dis _ _
      · rfl
  | register s =>
    cases s with
    | none => simp only [Logger.step, Logger.register, Option.some.injEq, Prod.mk.injEq] at hs; exact ⟨hs.2.1.symm, hs.2.2.symm⟩
    | some s =>
      simp only [Logger.step, Option.some.injEq] at hs
      have h1 : k = slot l.items + 1 ∧ ∃ c, l'.items = putAt l.items (some s, c) := by
        unfold Logger.register at hs
        dsimp only at hs
        split at hs
        · split at hs
          · cases hs; exact ⟨rfl, _, rfl⟩
          · cases hs; exact ⟨rfl, _, rfl⟩
        · cases hs; exact ⟨rfl, _, rfl⟩
      obtain ⟨rfl, c1, h1⟩ := h1
      obtain ⟨sl1, sl2⟩ := slot_spec l.items
      refine ⟨by omega, ?_, fun c => ?_⟩
      · unfold regAt
        rw [if_neg (by omega), Nat.add_sub_cancel]
        cases hx : l.items[slot l.items]? with
        | none => rfl
        | some x => exact sl2 x hx
      · unfold regAt
        rw [h1]
        by_cases h0 : c = 0
        · subst h0; simp
        · rw [if_neg h0, if_neg h0, putAt]
          by_cases hlt : slot l.items < l.items.length
          · rw [if_pos hlt, List.getElem?_set]
            by_cases e : slot l.items = c - 1
            · rw [if_pos e, if_pos hlt, if_pos (by omega)]; rfl
            · rw [if_neg e, if_neg (by omega)]
          · rw [if_neg hlt, List.getElem?_append]
            by_cases e : c = slot l.items + 1
            · rw [if_neg (by omega), if_pos e, show c - 1 - l.items.length = 0 by omega]; rfl
            · rw [if_neg e]
              by_cases e2 : c - 1 < l.items.length
              · rw [if_pos e2]
              · rw [if_neg e2, List.getElem?_eq_none (by simp; omega), List.getElem?_eq_none (by omega)]
  | unregister c0 =>
    intro c
    simp only [Logger.step, Option.map_eq_some_iff, Prod.mk.injEq] at hs
    obtain ⟨l1, hs, -, -, rfl⟩ := hs
    unfold Logger.unregister at hs
    by_cases hc : c0 = 0
    · rw [if_pos hc] at hs; cases hs; subst hc
      by_cases e : c = 0
      · simp [e, regAt]
      · simp [e]
    · rw [if_neg hc] at hs
      cases hi : l.items[c0 - 1]? with
      | none => rw [hi] at hs; cases hs
      | some x =>
        rw [hi] at hs
        have hlt := (List.getElem?_eq_some_iff.mp hi).1
        cases hs
        unfold regAt
        dsimp only
        by_cases h0 : c = 0
        · simp [h0]
        · rw [if_neg h0, if_neg h0, List.getElem?_set]
          by_cases e : c0 - 1 = c - 1
          · rw [if_pos e, if_pos hlt, if_pos (by omega)]; rfl
          · rw [if_neg e, if_neg (by omega)]
  | srcConnect s k' =>
    intro c
    simp only [Logger.step, Option.some.injEq] at hs
    cases hcn : (l.srcs s).connect cap (some (.other k')) with
    | error e => rw [hcn] at hs; cases hs; rfl
    | ok r => rw [hcn] at hs; cases hs; rfl
  | srcDisconnect s c0 =>
    intro c
    simp only [Logger.step, Option.some.injEq, Prod.mk.injEq] at hs
    obtain ⟨-, -, rfl⟩ := hs
    rfl

/-- Run a history, remembering the exceptions.  (A client; no code.) -/
def Logger.runs (cap0 cap : Nat) : Logger → List LOp → Option (List (Option LErr) × Logger)
  | l, [] => some ([], l)
  | l, o :: t => match l.step cap0 cap o with
    | none => none
    | some (e, _, l') => (Logger.runs cap0 cap l' t).map fun r => (e :: r.1, r.2)

/-- Two sources, one of them registered before and one after the sink is connected, another sink in between; a source is
unregistered and the slot is used again. -/
example : ((Logger.runs 8 8 .init [.register (some 5), .srcConnect 5 1, .connect (some 9), .register (some 6), .unregister 1,
      .register (some 6)]).map fun r => (r.1, mine 8 r.2 5, mine 8 r.2 6)) =
    some ([none, none, none, none, none, none], [], [1, 2]) := by decide

/-- With a null sink, `Connect` throws and leaves the registered sources connected although the logger has no sink. -/
theorem C73_null_fails : ∃ l, Logger.runs 8 8 .init [.register (some 5), .connect none] =
      some ([none, some (.event .invalidPointer)], l) ∧ l.ev.getNumSinks = 0 ∧ mine 8 l 5 = [1] := by
  refine ⟨⟨.init, true, [(some 5, 1)], fun j => if j = 5 then ⟨[some .me], 1, 1⟩ else .init⟩, ?_, rfl, by decide⟩
  simp [Logger.runs, Logger.step, Logger.register, Logger.connect, Logger.init, slot, connectAll, Event.Table.connect,
    Event.Table.insert, Event.Table.init, upd]
  funext j; simp [upd]

/-! ### C74 -/

/-- After `Connect` with a null sink has thrown, `Connect` with a valid sink throws as well, and goes on throwing however often it
is tried. -/
theorem C74_fails (n : Nat) : ∃ l, Logger.runs 8 8 .init (.connect none :: List.replicate n (.connect (some 9))) =
    some (some (.event .invalidPointer) :: List.replicate n (some .illegalMethodCall), l) := by
  let l1 : Logger := { Logger.init with sink := true }
  have h : ∀ n, Logger.runs 8 8 l1 (List.replicate n (.connect (some 9))) = some (List.replicate n (some .illegalMethodCall), l1) := by
    intro n
    induction n with
    | zero => rfl
    | succ n ih =>
      have e : l1.step 8 8 (.connect (some 9)) = some (some .illegalMethodCall, 0, l1) := rfl
      rw [List.replicate_succ, Logger.runs, e]
      simp only [ih]
      rfl
  refine ⟨l1, ?_⟩
  have e : Logger.init.step 8 8 (.connect none) = some (some (.event .invalidPointer), 0, l1) := rfl
  rw [Logger.runs, e]
  simp only [h]
  rfl

/-- The claim holds if the logger has a sink when the null sink is passed, and, without sinks, after any call of `Disconnect`.
Missing: without sinks and without such a call. -/
theorem C74_partial {cap0 cap : Nat} (hcap0 : cap0 < 2 ^ 32) (l : Logger) (hw : WF cap0 l.ev) (s : Nat)
    (hroom : l.ev.num < cap0) :
    (l.ev.num ≠ 0 → (l.connect cap0 cap none).1 = some (.event .invalidPointer) ∧
      ((l.connect cap0 cap none).2.2.connect cap0 cap (some s)).1 = none) ∧
    (∀ c, (l.disconnect c).ev.num = 0 → (connectAll cap (l.disconnect c).items (l.disconnect c).srcs).1 = none →
      ((l.disconnect c).connect cap0 cap (some s)).1 = none) := by
  have ok : ∀ t : Table Nat, WF cap0 t → t.num < cap0 → t.connect cap0 (some s) = .ok (t.insert s) := by
    intro t w h
    rw [connect_some w, if_neg (by omega)]
  constructor
  · intro hn
    have e : l.connect cap0 cap none = (some (.event .invalidPointer), 0, l) := by
      simp [Logger.connect, hn, Event.Table.connect]
    rw [e]
    refine ⟨rfl, ?_⟩
    simp only [Logger.connect, if_neg hn, ok l.ev hw hroom]
  · intro c h0 hc
    have hw' : WF cap0 (l.disconnect c).ev := by
      have := (disconnect_spec hw hcap0 c).2.1
      unfold Logger.disconnect
      dsimp only
      split <;> exact this
    have hs : (l.disconnect c).sink = false := by
      unfold Logger.disconnect at h0 ⊢
      dsimp only at h0 ⊢
      split
      · rfl
      · rename_i h; rw [if_neg h] at h0; exact absurd h0 h
    simp only [Logger.connect, if_pos h0, hs, Bool.false_eq_true, if_false, hc]
    rw [ok _ hw' (by rw [h0]; omega)]

/-- The way out: null sink, then `Disconnect(0)`, then a valid sink. -/
example : ((Logger.runs 8 8 .init [.register (some 5), .connect none, .disconnect 0, .connect (some 9)]).map fun r =>
    (r.1, mine 8 r.2 5)) = some ([none, some (.event .invalidPointer), none, none], [1]) := by decide

end Verif.Log
