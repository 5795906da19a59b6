import Verif.Stat.Own
import Verif.Ptr.HeapLemmas
/-! Lemmas for property C166. -/
namespace Verif.Stat.Own

open Verif.Heap hiding Obj

variable {N V : Type} [DecidableEq N]

/-! ### The invariant -/

/-- Which members refer to which classes. -/
def Ty : Role N → Kind → Kind → Prop
  | .item _, a, b => a = .container ∧ b = .probe
  | .conn, a, b => a = .probe ∧ (b = .collector ∨ b = .comp)
  | .kept, a, _ => a = .comp

/-- The reference leads down. -/
def Down (r : Role N) (b : Kind) (c d : Nat) : Prop := (r = .conn → b = .collector) ∧ (r = .kept → b = .comp → d < c)

/-- The name of an item. -/
def name : Role N × Nat → Option N
  | (.item n, _) => some n
  | _ => none

structure Inv (s : State N V) : Prop where
  rc : RInv s.cells (fun c => s.user.count c)
  ty : ∀ c r d, (r, d) ∈ refsAt s.cells c → ∃ a b, kindAt s.cells c = some a ∧ kindAt s.cells d = some b ∧ Ty r a b
  uniq : ∀ c, ((refsAt s.cells c).filterMap name).Nodup

/-- All references lead down. -/
def Downs (s : State N V) : Prop := ∀ c r d b, (r, d) ∈ refsAt s.cells c → kindAt s.cells d = some b → Down r b c d

omit [DecidableEq N] in
theorem Inv.init : Inv (State.init : State N V) :=
  ⟨⟨fun c => by simp [State.init, rcOf, cnt], fun c x h => by simp [State.init] at h⟩, fun c r d h => by simp [State.init, refsAt] at h,
    fun c => by simp [State.init, refsAt]⟩

omit [DecidableEq N] in
theorem Inv.alive_user {s : State N V} (h : Inv s) {c : Nat} (hc : c ∈ s.user) : ∃ x, s.cells[c]? = some (some x) := by
  apply alive_of_rc
  have := h.rc.eq c
  have := List.count_pos_iff.mpr hc
  omega

omit [DecidableEq N] in
theorem Inv.alive_ref {s : State N V} (h : Inv s) {c d : Nat} {r : Role N} (hm : (r, d) ∈ refsAt s.cells c) :
    ∃ x, s.cells[d]? = some (some x) := by
  obtain ⟨a, b, _, hb, _⟩ := h.ty c r d hm
  exact alive_of_kind hb

/-- A step of the references: what every operation is made of.  `p`: new references lead down; `t`: the object whose members change. -/
inductive Move (p : Prop) (t : Option Nat) : State N V → State N V → Prop
  | create (s : State N V) (k : Kind) : Move p t s (s.create k)
  | link {s : State N V} {c d : Nat} {r : Role N} {a b : Kind} {h : List (Option (Obj N))} : t = some c → kindAt s.cells c = some a →
      kindAt s.cells d = some b → Ty r a b → (p → Down r b c d) → (∀ n, r = .item n → item s.cells c n = none) → link c r d s.cells = some h → Move p t s ⟨h, s.user, s.got⟩
  | unlink {s : State N V} {c k : Nat} {h : List (Option (Obj N))} : t = some c → (∃ x, s.cells[c]? = some (some x)) →
      unlink c k s.cells = some h → Move p t s ⟨h, s.user, s.got⟩
  | copy {s : State N V} {c : Nat} {h : List (Option (Obj N))} : (∃ x, s.cells[c]? = some (some x)) → addRef s.cells c = some h →
      Move p t s ⟨h, c :: s.user, s.got⟩
  | drop {s : State N V} {c i : Nat} {h : List (Option (Obj N))} : s.user[i]? = some c → release c s.cells = some h →
      Move p t s ⟨h, s.user.eraseIdx i, s.got⟩
  | call {s : State N V} (g : List (Nat × Nat × V)) : Move p t s ⟨s.cells, s.user, g⟩

/-- What a move leaves: the classes of objects and, but for one object, their members. -/
structure Frame (t : Option Nat) (s s' : State N V) : Prop where
  len : s.cells.length ≤ s'.cells.length
  kind : ∀ e k, e < s.cells.length → kindAt s'.cells e = some k → kindAt s.cells e = some k
  refs : ∀ e k, e < s.cells.length → kindAt s'.cells e = some k → t ≠ some e → refsAt s'.cells e = refsAt s.cells e

omit [DecidableEq N] in
theorem Frame.refl (t : Option Nat) (s : State N V) : Frame t s s := ⟨Nat.le_refl _, fun _ _ _ h => h, fun _ _ _ _ _ => rfl⟩

omit [DecidableEq N] in
theorem Frame.trans {t : Option Nat} {a b c : State N V} (h : Frame t a b) (g : Frame t b c) : Frame t a c :=
  ⟨h.len.trans g.len, fun e k he hk => h.kind e k he (g.kind e k (Nat.lt_of_lt_of_le he h.len) hk),
    fun e k he hk ht => (g.refs e k (Nat.lt_of_lt_of_le he h.len) hk ht).trans
      (h.refs e k he (g.kind e k (Nat.lt_of_lt_of_le he h.len) hk) ht)⟩

omit [DecidableEq N] in
/-- Objects die and references go away. -/
theorem shrink {s : State N V} {h : List (Option (Obj N))} {u : List Nat} {g : List (Nat × Nat × V)} {t : Option Nat} (hI : Inv s)
    (hr : RInv h (fun c => u.count c)) (hl : h.length = s.cells.length)
    (hk : ∀ (e : Nat) (y : Obj N), h[e]? = some (some y) → kindAt s.cells e = some y.kind ∧ y.refs.Sublist (refsAt s.cells e) ∧
      (t ≠ some e → y.refs = refsAt s.cells e)) :
    Inv ⟨h, u, g⟩ ∧ (Downs s → Downs ⟨h, u, g⟩) ∧ Frame t s ⟨h, u, g⟩ := by
  have al : ∀ c r d, (r, d) ∈ refsAt h c → ∃ x, h[d]? = some (some x) := by
    intro c r d hm
    apply alive_of_rc
    have := cnt_pos hm
    have := hr.eq d
    omega
  have old : ∀ c r d, (r, d) ∈ refsAt h c → (r, d) ∈ refsAt s.cells c ∧ kindAt h c = kindAt s.cells c ∧
      kindAt h d = kindAt s.cells d := by
    intro c r d hm
    obtain ⟨y, hy⟩ := alive_of_ref hm
    obtain ⟨z, hz⟩ := al c r d hm
    have h1 := hk c y hy
    have h2 := hk d z hz
    rw [refsAt_some hy] at hm
    exact ⟨h1.2.1.mem hm, (kindAt_some hy).trans h1.1.symm, (kindAt_some hz).trans h2.1.symm⟩
  refine ⟨⟨hr, fun c r d hm => ?_, fun c => ?_⟩, fun hD c r d b hm hb => ?_, ⟨Nat.le_of_eq hl.symm, fun e k _ he => ?_, fun e k _ he ht => ?_⟩⟩
  · obtain ⟨o1, o2, o3⟩ := old c r d hm
    obtain ⟨a, b, h1, h2, h3⟩ := hI.ty c r d o1
    exact ⟨a, b, o2.trans h1, o3.trans h2, h3⟩
  · show ((refsAt h c).filterMap name).Nodup
    cases hy : h[c]? with
    | none => simp [refsAt, hy]
    | some y =>
      cases y with
      | none => simp [refsAt, hy]
      | some y =>
        rw [refsAt_some hy]
        exact ((hk c y hy).2.1.filterMap name).nodup (hI.uniq c)
  · obtain ⟨o1, _, o3⟩ := old c r d hm
    exact hD c r d b o1 (o3.symm.trans hb)
  · obtain ⟨y, hy⟩ := alive_of_kind he
    have he' : kindAt h e = some k := he
    rw [(hk e y hy).1, ← kindAt_some hy, he']
  · obtain ⟨y, hy⟩ := alive_of_kind he
    show refsAt h e = _
    rw [refsAt_some hy, (hk e y hy).2.2 ht]

omit [DecidableEq N] in
theorem name_mem {l : List (Role N × Nat)} {n : N} : n ∈ l.filterMap name ↔ ∃ p, (Role.item n, p) ∈ l := by
  rw [List.mem_filterMap]
  constructor
  · rintro ⟨⟨r, p⟩, hm, he⟩
    cases r with
    | item m => injection he with he; subst he; exact ⟨p, hm⟩
    | conn => cases he
    | kept => cases he
  · rintro ⟨p, hm⟩
    exact ⟨_, hm, rfl⟩

theorem item_none {cells : List (Option (Obj N))} {c : Nat} {n : N} : item cells c n = none ↔ ∀ p, (Role.item n, p) ∉ refsAt cells c := by
  unfold item
  rw [Option.map_eq_none_iff, List.find?_eq_none]
  constructor
  · intro h p hm
    exact h _ hm (by simp)
  · rintro h ⟨r, p⟩ hm he
    have he : r = .item n := eq_of_beq he
    subst he
    exact h p hm

theorem Move.inv {p : Prop} {t : Option Nat} {s s' : State N V} (m : Move p t s s') (h : Inv s) :
    Inv s' ∧ (p → Downs s → Downs s') ∧ Frame t s s' := by
  cases m with
  | create k =>
    obtain ⟨q1, q2, q3⟩ := push_ok (k := k) h.rc
    have hu : (fun d => s.user.count d + if d = s.cells.length then 1 else 0) = fun d => (s.cells.length :: s.user).count d := by
      funext d
      simp only [List.count_cons, beq_iff_eq]
      by_cases g : d = s.cells.length
      · simp [g]
      · have g' : ¬ (s.cells.length = d) := fun h => g h.symm
        simp [g, g']
    rw [hu] at q1
    have hn : ∀ (c : Nat) (a : Kind), kindAt s.cells c = some a → kindAt (s.create k).cells c = some a := by
      intro c a hc
      obtain ⟨x, hx⟩ := alive_of_kind hc
      have := lt_of_get hx
      show kindAt (s.cells ++ _) c = _
      rw [q3, if_neg (by omega)]; exact hc
    have hr : ∀ e, refsAt (s.create k).cells e = refsAt s.cells e := q2
    refine ⟨⟨q1, fun c r d hm => ?_, fun c => ?_⟩, fun _ hD c r d b hm hb => ?_, ⟨by simp [State.create], fun e a he hk => ?_, fun e a _ _ _ => hr e⟩⟩
    · rw [hr] at hm
      obtain ⟨a, b, h1, h2, h3⟩ := h.ty c r d hm
      exact ⟨a, b, hn _ _ h1, hn _ _ h2, h3⟩
    · rw [hr]; exact h.uniq c
    · rw [hr] at hm
      obtain ⟨_, b', _, h2, _⟩ := h.ty c r d hm
      have := hn _ _ h2
      rw [hb] at this
      injection this with this
      subst this
      exact hD c r d b hm h2
    · have hk' : kindAt (s.cells ++ [some ⟨1, k, []⟩]) e = some a := hk
      rw [q3, if_neg (by omega)] at hk'; exact hk'
  | link ht0 hc hd ht hp hn hl =>
    rename_i c d r a b h'
    obtain ⟨h2, e2, i2, l2, k2, r2⟩ := link_ok (r := r) h.rc (alive_of_kind hc) (alive_of_kind hd)
    rw [hl] at e2; injection e2 with e2; subst e2
    have mem : ∀ e r' d', (r', d') ∈ refsAt h' e ↔ (r', d') ∈ refsAt s.cells e ∨ e = c ∧ r' = r ∧ d' = d := by
      intro e r' d'
      rw [r2]
      by_cases g : e = c
      · simp [g]
      · simp [g]
    refine ⟨⟨i2, fun e r' d' hm => ?_, fun e => ?_⟩, fun hpp hD e r' d' b' hm hb => ?_,
      ⟨Nat.le_of_eq l2.symm, fun e k _ hk => (k2 e).symm.trans hk, fun e k _ _ hne => ?_⟩⟩
    · show ∃ a b, kindAt h' e = some a ∧ kindAt h' d' = some b ∧ Ty r' a b
      rw [k2, k2]
      rcases (mem e r' d').mp hm with g | ⟨g1, g2, g3⟩
      · exact h.ty e r' d' g
      · subst g1; subst g2; subst g3; exact ⟨a, b, hc, hd, ht⟩
    · show ((refsAt h' e).filterMap name).Nodup
      rw [r2]
      by_cases g : e = c
      · rw [if_pos g, List.filterMap_append]
        subst g
        have hu := h.uniq e
        cases r with
        | item n =>
          have := item_none.mp (hn n rfl)
          refine List.nodup_append.mpr ⟨hu, by simp [name], fun m hm m' hm' => ?_⟩
          simp only [name, List.filterMap_cons, List.filterMap_nil, List.mem_singleton] at hm'
          subst hm'
          rintro rfl
          obtain ⟨q, hq⟩ := name_mem.mp hm
          exact this q hq
        | conn => show (_ ++ []).Nodup; rw [List.append_nil]; exact hu
        | kept => show (_ ++ []).Nodup; rw [List.append_nil]; exact hu
      · rw [if_neg g]; exact h.uniq e
    · have hb' : kindAt h' d' = some b' := hb
      rw [k2] at hb'
      rcases (mem e r' d').mp hm with g | ⟨g1, g2, g3⟩
      · exact hD e r' d' b' g hb'
      · subst g1; subst g2; subst g3
        rw [hd] at hb'; injection hb' with hb'; subst hb'
        exact hp hpp
    · show refsAt h' e = _
      rw [r2, if_neg]
      rintro rfl
      exact hne ht0
  | unlink ht0 hc hu =>
    rename_i c k h'
    obtain ⟨h2, e2, i2, l2, s2⟩ := unlink_ok (k := k) h.rc hc
    rw [hu] at e2; injection e2 with e2; subst e2
    have res := shrink (u := s.user) (g := s.got) (t := t) h i2 l2.len (fun e y hy => ?_)
    · exact ⟨res.1, fun _ => res.2.1, res.2.2⟩
    · refine ⟨(l2.keep e y hy).1, ?_, fun hne => ?_⟩
      · rw [(l2.keep e y hy).2]
        by_cases g : e = c
        · rw [if_pos g]; exact List.eraseIdx_sublist _ _
        · rw [if_neg g]
      · rw [(l2.keep e y hy).2, if_neg]
        rintro rfl
        exact hne ht0
  | copy hc ha =>
    rename_i c h'
    obtain ⟨h2, e2, i2, l2, k2, r2⟩ := addRef_ok h.rc hc
    rw [ha] at e2; injection e2 with e2; subst e2
    have hu : (fun d => s.user.count d + if d = c then 1 else 0) = fun d => (c :: s.user).count d := by
      funext d
      simp only [List.count_cons, beq_iff_eq]
      by_cases g : d = c
      · simp [g]
      · have g' : ¬ (c = d) := fun h => g h.symm
        simp [g, g']
    rw [hu] at i2
    refine ⟨⟨i2, fun e r d hm => ?_, fun e => by show ((refsAt h' e).filterMap name).Nodup; rw [r2]; exact h.uniq e⟩, fun _ hD e r d b hm hb => ?_,
      ⟨Nat.le_of_eq l2.symm, fun e k _ hk => (k2 e).symm.trans hk, fun e k _ _ _ => r2 e⟩⟩
    · show ∃ a b, kindAt h' e = some a ∧ kindAt h' d = some b ∧ Ty r a b
      have hm' : (r, d) ∈ refsAt h' e := hm
      rw [r2] at hm'
      rw [k2, k2]; exact h.ty e r d hm'
    · have hm' : (r, d) ∈ refsAt h' e := hm
      have hb' : kindAt h' d = some b := hb
      rw [r2] at hm'; rw [k2] at hb'
      exact hD e r d b hm' hb'
  | drop hi hr =>
    rename_i c i h'
    have hI : RInv s.cells (fun d => (s.user.eraseIdx i).count d + if d = c then 1 else 0) := by
      refine ⟨fun d => ?_, h.rc.pos⟩
      have := h.rc.eq d
      rw [count_eraseIdx hi d] at this
      exact this
    obtain ⟨h2, e2, i2, f2, s2⟩ := release_ok hI
    rw [hr] at e2; injection e2 with e2; subst e2
    have kp : ∀ (e : Nat) (y : Obj N), h'[e]? = some (some y) → kindAt s.cells e = some y.kind ∧ refsAt s.cells e = y.refs := by
      intro e y hy
      obtain ⟨x, hx, g1, g2⟩ := f2.keep e y hy
      exact ⟨by rw [kindAt_some hx, g1], by rw [refsAt_some hx, g2]⟩
    have res := shrink (u := s.user.eraseIdx i) (g := s.got) (t := t) h i2 f2.len
      (fun e y hy => ⟨(kp e y hy).1, (kp e y hy).2 ▸ List.Sublist.refl _, fun _ => (kp e y hy).2.symm⟩)
    exact ⟨res.1, fun _ => res.2.1, res.2.2⟩
  | call g => exact ⟨⟨h.rc, h.ty, h.uniq⟩, fun _ h => h, ⟨Nat.le_refl _, fun _ _ _ h => h, fun _ _ _ _ _ => rfl⟩⟩

/-! ### Operations -/

/-- Moves in a row. -/
inductive Moves (p : Prop) (t : Option Nat) : State N V → State N V → Prop
  | none (s : State N V) : Moves p t s s
  | cons {a b c : State N V} : Move p t a b → Moves p t b c → Moves p t a c

theorem Moves.inv {p : Prop} {t : Option Nat} {s s' : State N V} (m : Moves p t s s') (h : Inv s) :
    Inv s' ∧ (p → Downs s → Downs s') ∧ Frame t s s' := by
  induction m with
  | none s => exact ⟨h, fun _ h => h, .refl t s⟩
  | cons m _ ih =>
    obtain ⟨h1, h2, h3⟩ := m.inv h
    obtain ⟨g1, g2, g3⟩ := ih h1
    exact ⟨g1, fun hp hD => g2 hp (h2 hp hD), h3.trans g3⟩

theorem one {p : Prop} {t : Option Nat} {s s' : State N V} (m : Move p t s s') : Moves p t s s' := .cons m (.none _)

theorem link_step {p : Prop} {t : Option Nat} {s : State N V} {c d : Nat} {r : Role N} {a b : Kind} (hI : Inv s) (ht0 : t = some c)
    (hc : kindAt s.cells c = some a) (hd : kindAt s.cells d = some b) (ht : Ty r a b) (hp : p → Down r b c d)
    (hn : ∀ n, r = .item n → item s.cells c n = none) : ∃ s', s.after (link c r d s.cells) = some s' ∧ Moves p t s s' := by
  obtain ⟨h, e, _⟩ := link_ok (r := r) hI.rc (alive_of_kind hc) (alive_of_kind hd)
  exact ⟨⟨h, s.user, s.got⟩, by rw [e]; rfl, one (.link ht0 hc hd ht hp hn e)⟩

theorem unlink_step {p : Prop} {t : Option Nat} {s : State N V} {c k : Nat} (hI : Inv s) (ht0 : t = some c)
    (hc : ∃ x, s.cells[c]? = some (some x)) : ∃ s', s.after (unlink c k s.cells) = some s' ∧ Moves p t s s' := by
  obtain ⟨h, e, _⟩ := unlink_ok (k := k) hI.rc hc
  exact ⟨⟨h, s.user, s.got⟩, by rw [e]; rfl, one (.unlink ht0 hc e)⟩

theorem at?_some {s : State N V} {c k d : Nat} {r : Role N} (h : s.at? c k r = some d) : (refsAt s.cells c)[k]? = some (r, d) := by
  unfold State.at? at h
  split at h
  · rename_i e he
    split at h
    · rename_i g
      injection h with h
      rw [he, ← g, ← h]
    · cases h
  · cases h

theorem item_mem {cells : List (Option (Obj N))} {c p : Nat} {n : N} (h : item cells c n = some p) : (Role.item n, p) ∈ refsAt cells c := by
  unfold item at h
  cases hf : (refsAt cells c).find? fun e => e.1 == .item n with
  | none => rw [hf] at h; cases h
  | some e =>
    rw [hf] at h
    injection h with h
    have h1 := List.find?_some hf
    have h2 := List.mem_of_find?_eq_some hf
    have h3 : e.1 = .item n := eq_of_beq h1
    subst h
    rw [← h3]; exact h2

theorem sink_mem {cells : List (Option (Obj N))} {c d : Nat} : d ∈ sinks cells c ↔ (Role.conn, d) ∈ refsAt cells c := by
  unfold sinks
  constructor
  · intro h
    obtain ⟨e, he, hs⟩ := List.mem_map.mp h
    obtain ⟨h1, h2⟩ := List.mem_filter.mp he
    have h3 : e.1 = .conn := eq_of_beq h2
    rw [← h3, ← hs]; exact h1
  · intro h
    exact List.mem_map.mpr ⟨_, List.mem_filter.mpr ⟨h, by simp⟩, rfl⟩

omit [DecidableEq N] in
theorem calls_ok {cells : List (Option (Obj N))} {c : Nat} {v : V} : ∀ {l : List Nat}, (∀ d ∈ l, ∃ x, cells[d]? = some (some x)) →
    l.mapM (call cells c v) = some (l.map fun d => (d, c, v))
  | [], _ => rfl
  | d :: l, h => by
    obtain ⟨x, hx⟩ := h d (by simp)
    have ih := calls_ok (c := c) (v := v) (l := l) (fun e he => h e (by simp [he]))
    rw [List.mapM_cons, ih]
    simp [call, kindAt_some hx]

theorem loop_ok {p : Prop} {t : Option Nat} {c d : Nat} {f : N → N} (ht0 : t = some c) : ∀ (ns : List N) {s : State N V}, Inv s →
    kindAt s.cells c = some .container → ∃ s', s.after (loop c f d ns s.cells) = some s' ∧ Moves p t s s'
  | [], s, _, _ => ⟨s, rfl, .none s⟩
  | n :: ns, s, hI, hc => by
    unfold loop
    cases hn : item s.cells d n with
    | none => exact ⟨s, rfl, .none s⟩
    | some q =>
      dsimp only
      split
      · obtain ⟨a, b, h1, h2, h3⟩ := hI.ty _ _ _ (item_mem hn)
        obtain ⟨_, hb⟩ := h3
        subst hb
        obtain ⟨h, e, i, l, k, r⟩ := link_ok (r := Role.item (f n)) hI.rc (alive_of_kind hc) (alive_of_kind h2)
        have m : Move p t s ⟨h, s.user, s.got⟩ :=
          .link (r := Role.item (f n)) ht0 hc h2 ⟨rfl, rfl⟩ (fun _ => ⟨fun h => (by cases h), fun h => (by cases h)⟩)
            (fun m hm => by injection hm with hm; subst hm; assumption) e
        obtain ⟨s', e', m'⟩ := loop_ok (p := p) (f := f) (d := d) ht0 ns (m.inv hI).1 ((k c).trans hc)
        exact ⟨s', by rw [e]; exact e', .cons m m'⟩
      · exact loop_ok ht0 ns hI hc

theorem step_ok {s : State N V} (hI : Inv s) (o : Op N V) : ∃ s', s.step o = some s' ∧ Moves (o.plain s) (o.target s) s s' := by
  have mem : ∀ {i c : Nat}, s.user[i]? = some c → c ∈ s.user := fun h => List.mem_of_getElem? h
  have kd : ∀ {c : Nat}, c ∈ s.user → ∃ k, kindAt s.cells c = some k := by
    intro c hc
    obtain ⟨x, hx⟩ := hI.alive_user hc
    exact ⟨_, kindAt_some hx⟩
  have nothing : ∀ {p : Prop} {t : Option Nat}, ∃ s', some s = some s' ∧ Moves p t s s' := ⟨s, rfl, .none s⟩
  cases o with
  | create k =>
    simp only [State.step]
    split
    · exact nothing
    · exact ⟨_, rfl, one (.create s k)⟩
  | add i n =>
    simp only [State.step]
    split
    · rename_i c hi
      split
      · rename_i g
        have m1 : Move (Op.plain s (.add i n)) (Op.target s (.add i n)) s (s.create .probe) := .create s .probe
        have I1 := (m1.inv hI).1
        obtain ⟨q1, q2, q3⟩ := push_ok (k := Kind.probe) hI.rc
        have hc : kindAt (s.create .probe).cells c = some .container := by
          obtain ⟨x, hx⟩ := alive_of_kind g.1
          have := lt_of_get hx
          show kindAt (s.cells ++ _) c = _
          rw [q3, if_neg (by omega)]; exact g.1
        have hn : kindAt (s.create .probe).cells s.cells.length = some .probe := by
          show kindAt (s.cells ++ _) _ = _
          rw [q3, if_pos rfl]
        have ha : ∀ m, Role.item n = Role.item m → item (s.create .probe : State N V).cells c m = none := by
          intro m hm
          injection hm with hm; subst hm
          rw [item_none]
          show ∀ p, _ ∉ refsAt (s.cells ++ _) c
          rw [q2]
          exact item_none.mp g.2
        obtain ⟨s3, e3, m3⟩ := link_step (p := Op.plain s (.add i n)) (t := Op.target s (.add i n)) (r := Role.item n) I1 (c := c) hi hc hn
          ⟨rfl, rfl⟩ (fun _ => ⟨fun h => (by cases h), fun h => (by cases h)⟩) ha
        exact ⟨s3, e3, .cons m1 m3⟩
      · exact nothing
    · exact nothing
  | get i n =>
    simp only [State.step]
    split
    · rename_i c hi
      split
      · rename_i d hd
        have hm := item_mem hd
        obtain ⟨h, e, _⟩ := addRef_ok hI.rc (hI.alive_ref hm)
        exact ⟨_, by rw [e]; rfl, one (.copy (hI.alive_ref hm) e)⟩
      · exact nothing
    · exact nothing
  | erase i n =>
    simp only [State.step]
    split
    · rename_i c hi
      split
      · exact unlink_step hI hi (hI.alive_user (mem hi))
      · exact nothing
    · exact nothing
  | merge i f j names =>
    simp only [State.step]
    split
    · rename_i c d hi hj
      split
      · rename_i g
        exact loop_ok hi names hI g.1
      · exact nothing
    · exact nothing
  | connect i j =>
    simp only [State.step]
    split
    · rename_i c d hi hj
      split
      · rename_i g
        rcases g.2 with q | q
        · exact link_step hI hi g.1 q ⟨rfl, .inl rfl⟩ (fun _ => ⟨fun _ => rfl, fun h => by cases h⟩) (fun _ h => by cases h)
        · exact link_step hI hi g.1 q ⟨rfl, .inr rfl⟩ (fun hp => absurd q (hp d hj)) (fun _ h => by cases h)
      · exact nothing
    · exact nothing
  | disconnect i k =>
    simp only [State.step]
    split
    · rename_i c hi
      split
      · exact unlink_step hI hi (hI.alive_user (mem hi))
      · exact nothing
    · exact nothing
  | fire i v =>
    simp only [State.step]
    split
    · rename_i c hi
      refine ⟨⟨s.cells, s.user, s.got ++ (sinks s.cells c).map fun d => (d, c, v)⟩, ?_, one (.call _)⟩
      rw [calls_ok fun d hd => hI.alive_ref (sink_mem.mp hd)]
      rfl
    · exact nothing
  | keep i j =>
    simp only [State.step]
    split
    · rename_i c d hi hj
      split
      · rename_i g
        obtain ⟨b, hb⟩ := kd (mem hj)
        refine link_step hI hi g hb rfl (fun hp => ⟨fun h => (by cases h), fun _ hbc => ?_⟩) (fun _ h => by cases h)
        subst hbc
        exact hp c d hi hj hb
      · exact nothing
    · exact nothing
  | forget i k =>
    simp only [State.step]
    split
    · rename_i c hi
      split
      · exact unlink_step hI hi (hI.alive_user (mem hi))
      · exact nothing
    · exact nothing
  | copy i =>
    simp only [State.step]
    split
    · rename_i c hi
      obtain ⟨h, e, _⟩ := addRef_ok hI.rc (hI.alive_user (mem hi))
      exact ⟨_, by rw [e]; rfl, one (.copy (hI.alive_user (mem hi)) e)⟩
    · exact nothing
  | drop i =>
    simp only [State.step]
    split
    · rename_i c hi
      have hI' : RInv s.cells (fun d => (s.user.eraseIdx i).count d + if d = c then 1 else 0) := by
        refine ⟨fun d => ?_, hI.rc.pos⟩
        have := hI.rc.eq d
        rw [count_eraseIdx hi d] at this
        exact this
      obtain ⟨h, e, _⟩ := release_ok hI'
      exact ⟨_, by rw [e]; rfl, one (.drop hi e)⟩
    · exact nothing

theorem run_ok {s : State N V} (hI : Inv s) (l : List (Op N V)) : ∃ s', s.run l = some s' ∧ Inv s' := by
  induction l generalizing s with
  | nil => exact ⟨s, rfl, hI⟩
  | cons o l ih =>
    obtain ⟨s1, e1, m1⟩ := step_ok hI o
    obtain ⟨i1, _⟩ := m1.inv hI
    obtain ⟨s2, e2, i2⟩ := ih i1
    exact ⟨s2, by simp only [State.run, e1]; exact e2, i2⟩

end Verif.Stat.Own
