import Verif.Log.Source
set_option linter.unusedSimpArgs false
set_option linter.unusedVariables false
/-! Loggers some of whose calls threw: histories, the invariant, and lemmas for property C162. -/
namespace Verif.Log
open Verif.Event (Table WF insert_spec disconnect_spec connect_some num_le wf_init sinkAt)

/-- What a client can tell from the calls so far and their exceptions: `stuck` – the last call of `Connect` on the logger while it had
no sinks threw, and no `Disconnect` has since left the logger without sinks; `missed` – the sources whose registration threw since
the logger got its first sink.  (Specification; no code.) -/
structure Told where
  stuck : Bool
  missed : List Nat
deriving DecidableEq, Repr

/-- What the client knows after one more call.  (Specification; no code.) -/
def Told.next (h : Told) (l : Logger) (o : LOp) (e : Option LErr) (l' : Logger) : Told :=
  match o with
  | .connect _ => if l.ev.getNumSinks = 0 then ⟨e.isSome, []⟩ else h
  | .disconnect _ => if l'.ev.getNumSinks = 0 then ⟨false, []⟩ else h
  | .register (some s) => if e.isSome then { h with missed := s :: h.missed } else h
  | _ => h

/-- What other parties must respect: they disconnect only their own connections.  (Specification; no code.) -/
def Own1 (l : Logger) (o : LOp) : Prop :=
  match o with
  | .srcDisconnect s c => sinkAt (l.srcs s) c ≠ some .me
  | _ => True

/-- Every history, calls that throw included.  (Specification; no code.) -/
inductive FReach (cap0 cap : Nat) : Told → Logger → Prop where
  | init : FReach cap0 cap ⟨false, []⟩ .init
  | step {h : Told} {l l' : Logger} {o : LOp} {e : Option LErr} {k : Nat} : FReach cap0 cap h l → Own1 l o →
      l.step cap0 cap o = some (e, k, l') → FReach cap0 cap (h.next l o e l') l'

/-- The invariant. -/
structure FInv (cap0 cap : Nat) (h : Told) (l : Logger) : Prop where
  ev : WF cap0 l.ev
  good : Good cap l.items l.srcs
  on : l.ev.num ≠ 0 → l.sink = true
  off : l.sink = false → ∀ x ∈ l.items, x.2 = 0
  stuck : h.stuck = true ↔ l.sink = true ∧ l.ev.num = 0
  all : l.ev.num ≠ 0 → ∀ x ∈ l.items, ∀ s, x.1 = some s → s ∉ h.missed → x.2 ≠ 0

theorem finv_init (cap0 cap : Nat) : FInv cap0 cap ⟨false, []⟩ .init :=
  ⟨wf_init, good_nil cap, by simp [Logger.init, Table.init], by simp [Logger.init], by simp [Logger.init], by simp [Logger.init]⟩

theorem Good.none_zero {cap : Nat} {l : List (Option Nat × Nat)} {f : Nat → Table Snk} (h : Good cap l f) {c : Nat}
    (hx : (none, c) ∈ l) : c = 0 := by
  by_contra hc
  obtain ⟨s, e, -⟩ := h.conn (none, c) hx hc
  cases e

theorem insert_num {cap : Nat} {σ : Type} {t : Table σ} (w : WF cap t) (h : t.num < cap) (s : σ) :
    (t.insert s).2.num = t.num + 1 := by
  have h1 := (insert_spec w h s).1
  unfold Table.insert at h1 ⊢
  split
  · rename_i h2
    rw [if_pos h2] at h1
    cases hf : Event.findFree t.slots 0 with
    | none => rw [hf] at h1; exact absurd rfl h1
    | some i => rfl
  · rfl

theorem connect_ok {cap : Nat} {σ : Type} {t tb : Table σ} (w : WF cap t) {s : σ} {k : Nat}
    (h : t.connect cap (some s) = .ok (k, tb)) : t.num < cap ∧ tb.num = t.num + 1 := by
  rw [connect_some w] at h
  by_cases hn : t.num = cap
  · rw [if_pos hn] at h; cases h
  · rw [if_neg hn] at h
    have hlt : t.num < cap := by have := num_le w; omega
    have e : t.insert s = (k, tb) := Except.ok.inj h
    have e2 : tb = (t.insert s).2 := by rw [e]
    exact ⟨hlt, e2 ▸ insert_num w hlt s⟩

theorem connect_err {cap : Nat} {σ : Type} {t : Table σ} (w : WF cap t) {s : σ} {e : Event.Err}
    (h : t.connect cap (some s) = .error e) : t.num = cap ∧ e = .connectionLimit := by
  rw [connect_some w] at h
  by_cases hn : t.num = cap
  · rw [if_pos hn] at h; cases h; exact ⟨hn, rfl⟩
  · rw [if_neg hn] at h; cases h

/-- The loop of `Connect`, whether or not it throws; the pairs already handled are in `pre`. -/
theorem good_connectAll_any {cap : Nat} : ∀ (l pre : List (Option Nat × Nat)) (f : Nat → Table Snk),
    Good cap (pre ++ l) f → (∀ x ∈ l, x.2 = 0) →
    Good cap (pre ++ (connectAll cap l f).2.1) (connectAll cap l f).2.2 ∧
      (connectAll cap l f).2.1.map (·.1) = l.map (·.1) ∧
      ∃ i, i ≤ l.length ∧ (∀ j x, (connectAll cap l f).2.1[j]? = some x → (x.2 ≠ 0 ↔ j < i ∧ x.1.isSome)) ∧
        ((connectAll cap l f).1 = none → i = l.length) ∧
        ∀ e, (connectAll cap l f).1 = some e → e = .event .connectionLimit ∧
          ∃ s, (l[i]?.bind (·.1)) = some s ∧ ((connectAll cap l f).2.2 s).num = cap
  | [], pre, f, h, _ => ⟨h, rfl, 0, by simp [connectAll], by simp [connectAll], by simp, by simp [connectAll]⟩
  | (none, c) :: t, pre, f, h, h0 => by
    have hc : c = 0 := h0 (none, c) (by simp)
    subst hc
    obtain ⟨g, m, i, i1, i2, i3, i4⟩ := good_connectAll_any t (pre ++ [(none, 0)]) f (by simpa using h) (fun x hx => h0 x (by simp [hx]))
    simp only [connectAll]
    refine ⟨by simpa using g, by simp [m], i + 1, by simp; omega, fun j x hx => ?_, fun he => by simp [i3 he], fun e he => by simpa using i4 e he⟩
    cases j with
    | zero => simp at hx; subst hx; simp
    | succ j => simp at hx; rw [i2 j x hx]; simp
  | (some s, c) :: t, pre, f, h, h0 => by
    have hc : c = 0 := h0 (some s, c) (by simp)
    subst hc
    rw [connectAll]
    cases hcn : (f s).connect cap (some .me) with
    | error e =>
      dsimp only
      obtain ⟨e1, e2⟩ := connect_err (h.wf s) hcn
      refine ⟨h, rfl, 0, by simp, fun j x hx => ?_, by simp, fun e' he => ?_⟩
      · have := h0 x (List.mem_of_getElem? hx)
        simp [this]
      · cases he; exact ⟨by rw [e2], s, by simp, e1⟩
    | ok r =>
      obtain ⟨k, tb⟩ := r
      dsimp only
      have p1 : (pre ++ (some s, 0) :: t).Perm ((some s, 0) :: (pre ++ t)) := List.perm_middle
      obtain ⟨hk, g⟩ := (h.perm p1).connect hcn
      have g' := g.perm (List.perm_middle (l₁ := pre) (l₂ := t) (a := (some s, k))).symm
      obtain ⟨g, m, i, i1, i2, i3, i4⟩ :=
        good_connectAll_any t (pre ++ [(some s, k)]) (upd f s tb) (by simpa using g') (fun x hx => h0 x (by simp [hx]))
      refine ⟨by simpa using g, by simp [m], i + 1, by simp; omega, fun j x hx => ?_, fun he => by simp [i3 he], fun e he => by simpa using i4 e he⟩
      cases j with
      | zero => simp at hx; subst hx; simp [hk]
      | succ j => simp at hx; rw [i2 j x hx]; simp

/-- The loop of `Connect` throws exactly if some source has not room for all its registrations. -/
theorem connectAll_room {cap : Nat} : ∀ (l : List (Option Nat × Nat)) (f : Nat → Table Snk), (∀ s, WF cap (f s)) →
    ((connectAll cap l f).1 = none ↔ ∀ s, (f s).num + (l.countP fun x => x.1 = some s) ≤ cap)
  | [], f, w => by simp [connectAll]; exact fun s => num_le (w s)
  | (none, c) :: t, f, w => by simp [connectAll, connectAll_room t f w]
  | (some s, c) :: t, f, w => by
    rw [connectAll]
    cases hcn : (f s).connect cap (some .me) with
    | error e =>
      have := (connect_err (w s) hcn).1
      simp only [reduceCtorEq, false_iff, not_forall]
      exact ⟨s, by simp [List.countP_cons]; omega⟩
    | ok r =>
      obtain ⟨k, tb⟩ := r
      obtain ⟨h1, h2⟩ := connect_ok (w s) hcn
      have hw : WF cap tb := by
        rw [connect_some (w s), if_neg (by omega)] at hcn
        have e : (f s).insert Snk.me = (k, tb) := Except.ok.inj hcn
        have e2 : tb = ((f s).insert Snk.me).2 := by rw [e]
        rw [e2]; exact (insert_spec (w s) h1 _).2.2.2.2.1
      have w' : ∀ s', WF cap (upd f s tb s') := by
        intro s'
        by_cases e : s' = s
        · subst e; rw [upd_self]; exact hw
        · rw [upd_ne _ _ e]; exact w s'
      dsimp only
      rw [connectAll_room t (upd f s tb) w']
      refine forall_congr' fun s' => ?_
      by_cases e : s' = s
      · subst e; rw [upd_self, h2]; simp [List.countP_cons]; omega
      · rw [upd_ne _ _ e]
        have : ¬ s = s' := fun e' => e e'.symm
        simp [List.countP_cons, this]

/-- The number of connections of the logger at a source is the number of kept cookies. -/
theorem mine_count {cap : Nat} {l : Logger} (g : Good cap l.items l.srcs) (s : Nat) :
    (mine cap l s).length = l.items.countP fun x => decide (x.1 = some s ∧ x.2 ≠ 0) := by
  have w := g.wf s
  let ks := l.items.filterMap fun x => if x.1 = some s ∧ x.2 ≠ 0 then some x.2 else none
  have hnd : ks.Nodup := by
    refine List.Pairwise.filterMap (R := fun x y => x.2 ≠ 0 → x ≠ y) _ ?_ g.once
    intro a b hab x hx y hy hxy
    split at hx <;> simp at hx
    split at hy <;> simp at hy
    rename_i ha hb
    exact hab ha.2 (Prod.ext (ha.1.trans hb.1.symm) (by omega))
  have hnd2 : (mine cap l s).Nodup := by
    have : (Event.liveCookies cap (l.srcs s)).Nodup :=
      (List.nodup_range' (step := 1) (by omega)).sublist List.filter_sublist
    exact this.sublist List.filter_sublist
  have hperm : (mine cap l s).Perm ks := by
    rw [List.perm_ext_iff_of_nodup hnd2 hnd]
    intro c
    have hm : c ∈ mine cap l s ↔ sinkAt (l.srcs s) c = some .me := by
      unfold mine
      rw [List.mem_filter]
      simp only [decide_eq_true_eq, and_iff_right_iff_imp]
      intro hc
      have hc' := hc
      rw [Event.sinkAt_eq] at hc'
      refine List.mem_filter.mpr ⟨?_, by simp [hc]⟩
      by_cases h0 : c = 0
      · simp [h0] at hc'
      · rw [if_neg h0] at hc'
        have := Event.sl_lt (t := l.srcs s) (i := c - 1) (by rw [hc']; rfl)
        have := w.size
        rw [List.mem_range'_1]; omega
    rw [hm, Event.sinkAt_eq]
    simp only [ks, List.mem_filterMap]
    constructor
    · intro hc
      by_cases h0 : c = 0
      · simp [h0] at hc
      · rw [if_neg h0] at hc
        have := g.kept s (c - 1) hc
        rw [show c - 1 + 1 = c by omega] at this
        exact ⟨_, this, by simp [h0]⟩
    · rintro ⟨x, hx, hc⟩
      split at hc
      · rename_i e
        cases hc
        obtain ⟨s', e1, e2⟩ := g.conn x hx e.2
        rw [e.1] at e1; cases e1
        rw [if_neg e.2]; exact e2
      · cases hc
  rw [hperm.length_eq]
  simp only [ks]
  generalize l.items = items
  induction items with
  | nil => rfl
  | cons x t ih =>
    rw [List.filterMap_cons, List.countP_cons]
    by_cases e : x.1 = some s ∧ x.2 ≠ 0
    · simp only [if_pos e, List.length_cons, ih]; simp [e]
    · simp only [if_neg e, ih]; simp [e]

theorem regs_count (l : Logger) (s : Nat) : (regs l s).length = l.items.countP fun x => x.1 = some s := by
  unfold regs regAt; exact filterMap_regs l.items s

/-- The registrations of a source under the cookies up to `n`. -/
theorem regs_take (l : Logger) (s n : Nat) (hn : n ≤ l.items.length) :
    ((List.range' 1 n).filter fun c => regAt l c = some s).length = (l.items.take n).countP fun x => x.1 = some s := by
  have h := filterMap_regs (l.items.take n) s
  rw [List.length_take, Nat.min_eq_left hn] at h
  rw [← h]
  congr 1
  apply List.filter_congr
  intro c hc
  rw [List.mem_range'_1] at hc
  unfold regAt
  rw [if_neg (by omega), if_neg (by omega), List.getElem?_take, if_pos (by omega)]

theorem all_perm {l l' : List (Option Nat × Nat)} {p : Option Nat × Nat → Prop} (h : l.Perm l') (hp : ∀ x ∈ l, p x) :
    ∀ x ∈ l', p x := full_perm h hp

theorem finv_register {cap0 cap : Nat} {h : Told} {l : Logger} (w : FInv cap0 cap h l) (s : Option Nat) :
    FInv cap0 cap (h.next l (.register s) (l.register cap s).1 (l.register cap s).2.2) (l.register cap s).2.2 := by
  cases s with
  | none => exact w
  | some s =>
    obtain ⟨rest, p1, p2⟩ := put_perm l.items
    have hc0 : (l.items[slot l.items]?.map (·.2)).getD 0 = 0 := by
      rcases p2 with ⟨-, e⟩ | ⟨c, pc, e⟩
      · simp [e]
      · rw [e]
        simpa using w.good.none_zero (pc.mem_iff.mpr (by simp))
    have g : Good cap ((some s, 0) :: rest) l.srcs ∧ ∀ x ∈ rest, x ∈ l.items := by
      rcases p2 with ⟨p, -⟩ | ⟨c, p, e⟩
      · exact ⟨(w.good.perm p).cons (some s), fun x hx => p.mem_iff.mpr hx⟩
      · rw [e] at hc0
        simp at hc0
        subst hc0
        exact ⟨(w.good.perm p).zero, fun x hx => p.mem_iff.mpr (by simp [hx])⟩
    have ep : ∀ k, (if slot l.items < l.items.length then l.items.set (slot l.items) (some s, k) else l.items ++ [(some s, k)]) =
        putAt l.items (some s, k) := fun k => rfl
    unfold Logger.register
    simp only [hc0, ep]
    by_cases hs : l.sink = true
    · simp only [hs, if_true]
      cases hcn : (l.srcs s).connect cap (some .me) with
      | error e =>
        simp only [Told.next, Option.isSome_some, if_true]
        refine ⟨w.ev, g.1.perm (p1 (some s, 0)).symm, fun _ => rfl, by simp, by simpa [hs] using w.stuck, fun hn => ?_⟩
        refine all_perm (p1 (some s, 0)).symm fun x hx s' e1 e2 => ?_
        rcases List.mem_cons.mp hx with e | hx
        · subst e; cases e1; simp at e2
        · exact w.all hn x (g.2 x hx) s' e1 (by simp at e2; exact e2.2)
      | ok r =>
        obtain ⟨k, tb⟩ := r
        simp only [Told.next, Option.isSome_none, Bool.false_eq_true, if_false]
        obtain ⟨hk, g1⟩ := g.1.connect hcn
        refine ⟨w.ev, g1.perm (p1 (some s, k)).symm, fun _ => rfl, by simp, by simpa [hs] using w.stuck, fun hn => ?_⟩
        refine all_perm (p1 (some s, k)).symm fun x hx s' e1 e2 => ?_
        rcases List.mem_cons.mp hx with e | hx
        · subst e; exact hk
        · exact w.all hn x (g.2 x hx) s' e1 e2
    · have hs : l.sink = false := by simpa using hs
      simp only [hs, if_false, Bool.false_eq_true, Told.next, Option.isSome_none]
      have h0 : l.ev.num = 0 := by
        by_contra e; rw [w.on e] at hs; cases hs
      refine ⟨w.ev, g.1.perm (p1 (some s, 0)).symm, fun hn => absurd h0 hn, fun _ => ?_, by simpa [hs] using w.stuck, fun hn => absurd h0 hn⟩
      refine all_perm (p1 (some s, 0)).symm fun x hx => ?_
      rcases List.mem_cons.mp hx with e | hx
      · subst e; rfl
      · exact w.off hs x (g.2 x hx)

theorem finv_unregister {cap0 cap : Nat} (hcap : cap < 2 ^ 32) {h : Told} {l l' : Logger} (w : FInv cap0 cap h l) {c : Nat}
    (he : l.unregister c = some l') : FInv cap0 cap h l' := by
  unfold Logger.unregister at he
  by_cases hc : c = 0
  · rw [if_pos hc] at he; cases he; exact w
  rw [if_neg hc] at he
  cases hi : l.items[c - 1]? with
  | none => rw [hi] at he; cases he
  | some x =>
    obtain ⟨o, k⟩ := x
    rw [hi] at he
    simp only [Option.some.injEq] at he
    obtain ⟨hlt, hx⟩ := List.getElem?_eq_some_iff.mp hi
    have p0 := (List.getElem_cons_eraseIdx_perm hlt).symm
    rw [hx] at p0
    have p1 := List.set_perm_cons_eraseIdx hlt ((none, 0) : Option Nat × Nat)
    have g := w.good.perm p0
    subst he
    refine ⟨w.ev, ?_, w.on, fun hs => ?_, w.stuck, fun hn => ?_⟩
    · dsimp only
      cases o with
      | none =>
        have hk : k = 0 := g.none_zero (by simp)
        subst hk
        exact g.perm p1.symm
      | some s =>
        dsimp only
        by_cases hk : k = 0
        · subst hk
          rw [if_neg (by simp)]
          exact (g.zero (o' := none)).perm p1.symm
        · rw [if_pos hk]
          exact ((g.disconnect hcap).zero (o' := none)).perm p1.symm
    · refine all_perm p1.symm fun x hx => ?_
      rcases List.mem_cons.mp hx with e | hx
      · subst e; rfl
      · exact w.off hs x (p0.mem_iff.mpr (by simp [hx]))
    · refine all_perm p1.symm fun x hx s e1 e2 => ?_
      rcases List.mem_cons.mp hx with e | hx
      · subst e; cases e1
      · exact w.all hn x (p0.mem_iff.mpr (by simp [hx])) s e1 e2

theorem finv_connect {cap0 cap : Nat} {h : Told} {l : Logger} (w : FInv cap0 cap h l) (s : Option Nat) :
    FInv cap0 cap (h.next l (.connect s) (l.connect cap0 cap s).1 (l.connect cap0 cap s).2.2) (l.connect cap0 cap s).2.2 := by
  unfold Logger.connect
  by_cases hn : l.ev.num = 0
  · simp only [if_pos hn, Told.next, Table.getNumSinks]
    by_cases hs : l.sink = true
    · simp only [hs, if_true, Option.isSome_some]
      exact ⟨w.ev, w.good, fun _ => hs, w.off, by simp [hs, hn], fun e => absurd hn e⟩
    · have hs : l.sink = false := by simpa using hs
      simp only [hs, Bool.false_eq_true, if_false]
      obtain ⟨g, m, i, i1, i2, i3, i4⟩ := good_connectAll_any l.items [] l.srcs w.good (w.off hs)
      simp only [List.nil_append] at g
      cases hc : (connectAll cap l.items l.srcs).1 with
      | some e =>
        simp only [Option.isSome_some]
        exact ⟨w.ev, g, fun _ => rfl, by simp, by simp [hn], fun e => absurd hn e⟩
      | none =>
        dsimp only
        cases hcn : l.ev.connect cap0 s with
        | error e =>
          simp only [Option.isSome_some]
          exact ⟨w.ev, g, fun _ => rfl, by simp, by simp [hn], fun e => absurd hn e⟩
        | ok r =>
          obtain ⟨k, tb⟩ := r
          simp only [Option.isSome_none]
          obtain ⟨w1, hne⟩ := linv_ev (cap := cap) w.ev hcn
          refine ⟨w1, g, fun _ => rfl, by simp, by simp [hne], fun _ x hx s' e1 _ => ?_⟩
          obtain ⟨j, hj⟩ := List.getElem?_of_mem hx
          refine (i2 j x hj).mpr ⟨?_, by simp [e1]⟩
          have h1 : j < (connectAll cap l.items l.srcs).2.1.length := (List.getElem?_eq_some_iff.mp hj).1
          have h2 := congrArg List.length m
          simp only [List.length_map] at h2
          have := i3 hc
          omega
  · simp only [if_neg hn, Told.next, Table.getNumSinks]
    cases hcn : l.ev.connect cap0 s with
    | error e => exact w
    | ok r =>
      obtain ⟨k, tb⟩ := r
      dsimp only
      obtain ⟨w1, hne⟩ := linv_ev (cap := cap) w.ev hcn
      have hs : l.sink = true := w.on hn
      have h1 : ¬ h.stuck = true := fun e => hn (w.stuck.mp e).2
      exact ⟨w1, w.good, fun _ => hs, w.off, by simp [hne, h1], fun _ => w.all hn⟩

theorem disconnect_empty {cap : Nat} (hcap : cap < 2 ^ 32) {σ : Type} {t : Table σ} (w : WF cap t) (h : t.num = 0) (c : Nat) :
    t.disconnect c = t := by
  refine (disconnect_spec w hcap c).2.2.2 (Or.inl ?_)
  cases hs : t.sl (c - 1) with
  | none => rfl
  | some y =>
    have hnum := w.num
    rw [h] at hnum
    have := Event.slots_of_sl hs
    have := (List.countP_eq_zero.mp hnum.symm) _ (List.mem_of_getElem? this)
    simp at this

theorem finv_disconnect {cap0 cap : Nat} (hcap0 : cap0 < 2 ^ 32) (hcap : cap < 2 ^ 32) {h : Told} {l : Logger}
    (w : FInv cap0 cap h l) (c : Nat) (e : Option LErr) :
    FInv cap0 cap (h.next l (.disconnect c) e (l.disconnect c)) (l.disconnect c) := by
  obtain ⟨d1, d2, -, d4⟩ := disconnect_spec w.ev hcap0 c
  unfold Logger.disconnect
  dsimp only
  by_cases hn : (l.ev.disconnect c).num = 0
  · rw [if_pos hn]
    obtain ⟨g1, g2, g3⟩ := good_disconnectAll hcap l.items [] l.srcs w.good
    simp only [Told.next, Table.getNumSinks, hn, if_true]
    exact ⟨d2, by simpa using g1, fun e => absurd hn e, fun _ => g3, by simp, fun e => absurd hn e⟩
  · rw [if_neg hn]
    simp only [Told.next, Table.getNumSinks, hn, if_false]
    have h0 : l.ev.num ≠ 0 := fun e => hn (by rw [disconnect_empty hcap0 w.ev e]; exact e)
    have h1 : ¬ h.stuck = true := fun e => h0 (w.stuck.mp e).2
    exact ⟨d2, w.good, fun _ => w.on h0, w.off, by simp [hn, h1], fun _ => w.all h0⟩

theorem finv_step {cap0 cap : Nat} (hcap0 : cap0 < 2 ^ 32) (hcap : cap < 2 ^ 32) {h : Told} {l : Logger} (w : FInv cap0 cap h l)
    (o : LOp) (hr : Own1 l o) {e : Option LErr} {k : Nat} {l' : Logger} (hs : l.step cap0 cap o = some (e, k, l')) :
    FInv cap0 cap (h.next l o e l') l' := by
  cases o with
  | connect s => simp only [Logger.step, Option.some.injEq] at hs; have := finv_connect w s; rw [hs] at this; exact this
  | disconnect c =>
    simp only [Logger.step, Option.some.injEq, Prod.mk.injEq] at hs
    obtain ⟨-, -, rfl⟩ := hs
    exact finv_disconnect hcap0 hcap w c e
  | register s => simp only [Logger.step, Option.some.injEq] at hs; have := finv_register w s; rw [hs] at this; exact this
  | unregister c =>
    simp only [Logger.step, Option.map_eq_some_iff, Prod.mk.injEq] at hs
    obtain ⟨l1, hs, -, -, rfl⟩ := hs
    exact finv_unregister hcap w hs
  | srcConnect s k' =>
    simp only [Logger.step, Option.some.injEq] at hs
    have ww := w.good.wf s
    rw [connect_some ww] at hs
    by_cases hn : (l.srcs s).num = cap
    · rw [if_pos hn] at hs; cases hs; exact w
    · rw [if_neg hn] at hs
      have hlt : (l.srcs s).num < cap := by have := num_le ww; omega
      obtain ⟨i1, -, i3, i4, i5, -⟩ := insert_spec ww hlt (Snk.other k')
      have e2 : l' = { l with srcs := upd l.srcs s ((l.srcs s).insert (Snk.other k')).2 } := by
        simp only [Prod.mk.injEq] at hs; exact hs.2.2.symm
      rw [e2]
      refine ⟨w.ev, good_other w.good i5 fun j => ?_, w.on, w.off, w.stuck, w.all⟩
      rw [i4]
      split
      · rename_i e
        rw [show j = ((l.srcs s).insert (Snk.other k')).1 - 1 by omega, i3]; simp
      · exact Iff.rfl
  | srcDisconnect s c =>
    simp only [Logger.step, Option.some.injEq, Prod.mk.injEq] at hs
    obtain ⟨-, -, rfl⟩ := hs
    obtain ⟨d1, d2, -, d4⟩ := disconnect_spec (w.good.wf s) hcap c
    refine ⟨w.ev, good_other w.good d2 fun j => ?_, w.on, w.off, w.stuck, w.all⟩
    rw [d1]
    split
    · rename_i e
      subst e
      have hne : (l.srcs s).sl j ≠ some .me := by
        have := hr
        simp only [Own1, Event.sinkAt_eq] at this
        simpa using this
      simp [hne]
    · exact Iff.rfl

theorem FReach.inv {cap0 cap : Nat} (hcap0 : cap0 < 2 ^ 32) (hcap : cap < 2 ^ 32) {h : Told} {l : Logger} (r : FReach cap0 cap h l) :
    FInv cap0 cap h l := by
  induction r with
  | init => exact finv_init cap0 cap
  | step _ hr hs ih => exact finv_step hcap0 hcap ih _ hr hs

end Verif.Log
