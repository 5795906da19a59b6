import Verif.Sim.Own
import Verif.Ptr.HeapLemmas
/-! Lemmas for property C158. -/
namespace Verif.Sim.Own

open Verif.Heap hiding Obj

/-! ### The invariant -/

/-- Which members refer to which classes. -/
def Ty : Role → Kind → Kind → Prop
  | .scheduler, a, b => a = .sim ∧ b = .sched
  | .clock, a, b => a = .sched ∧ (b = .sim ∨ b = .comp)
  | .event, a, b => a = .sched ∧ b = .handle
  | .sink, a, b => a = .handle ∧ b = .comp
  | .conn, a, b => a = .sim ∧ b = .comp
  | .kept, a, _ => a = .comp

/-- The reference leads down. -/
def Down (r : Role) (b : Kind) (c d : Nat) : Prop := (r = .clock → b = .comp) ∧ (r = .kept → b = .comp ∧ d < c)

structure Inv (s : State) : Prop where
  rc : RInv s.cells (fun c => s.user.count c)
  ty : ∀ c r d, (r, d) ∈ refsAt s.cells c → ∃ a b, kindAt s.cells c = some a ∧ kindAt s.cells d = some b ∧ Ty r a b

/-- All references lead down. -/
def Downs (s : State) : Prop := ∀ c r d b, (r, d) ∈ refsAt s.cells c → kindAt s.cells d = some b → Down r b c d

theorem Inv.init : Inv State.init :=
  ⟨⟨fun c => by simp [State.init, rcOf, cnt], fun c x h => by simp [State.init] at h⟩, fun c r d h => by simp [State.init, refsAt] at h⟩

theorem Inv.alive_user {s : State} (h : Inv s) {c : Nat} (hc : c ∈ s.user) : ∃ x, s.cells[c]? = some (some x) := by
  apply alive_of_rc
  have := h.rc.eq c
  have := List.count_pos_iff.mpr hc
  omega

theorem Inv.alive_ref {s : State} (h : Inv s) {c d : Nat} {r : Role} (hm : (r, d) ∈ refsAt s.cells c) :
    ∃ x, s.cells[d]? = some (some x) := by
  obtain ⟨a, b, _, hb, _⟩ := h.ty c r d hm
  exact alive_of_kind hb

/-- A step of the references: what every operation is made of.  `p`: new references lead down. -/
inductive Move (p : Prop) : State → State → Prop
  | create (s : State) (k : Kind) : Move p s (s.create k)
  | link {s : State} {c d : Nat} {r : Role} {a b : Kind} {h : List (Option Obj)} : kindAt s.cells c = some a →
      kindAt s.cells d = some b → Ty r a b → (p → Down r b c d) → link c r d s.cells = some h → Move p s ⟨h, s.user⟩
  | unlink {s : State} {c k : Nat} {h : List (Option Obj)} : (∃ x, s.cells[c]? = some (some x)) →
      (∀ e, (refsAt s.cells c)[k]? = some e → e.1 ≠ .scheduler ∧ e.1 ≠ .clock) →
      unlink c k s.cells = some h → Move p s ⟨h, s.user⟩
  | copy {s : State} {c : Nat} {h : List (Option Obj)} : (∃ x, s.cells[c]? = some (some x)) → addRef s.cells c = some h →
      Move p s ⟨h, c :: s.user⟩
  | drop {s : State} {c i : Nat} {h : List (Option Obj)} : s.user[i]? = some c → release c s.cells = some h →
      Move p s ⟨h, s.user.eraseIdx i⟩

/-- The simulator and the scheduler refer to each other. -/
def Pair (s : State) (a b : Nat) : Prop := (Role.scheduler, b) ∈ refsAt s.cells a ∧ (Role.clock, a) ∈ refsAt s.cells b

/-- Objects die and references go away. -/
theorem shrink {s : State} {h : List (Option Obj)} {u : List Nat} (hI : Inv s) (hr : RInv h (fun c => u.count c))
    (hk : ∀ (e : Nat) (y : Obj), h[e]? = some (some y) → kindAt s.cells e = some y.kind ∧ ∀ x ∈ y.refs, x ∈ refsAt s.cells e)
    (hp : ∀ (e : Nat) (y : Obj), h[e]? = some (some y) → ∀ r d, (r = Role.scheduler ∨ r = Role.clock) → (r, d) ∈ refsAt s.cells e →
      (r, d) ∈ y.refs)
    (hc : ∀ a b, Pair s a b → Closed h (fun x => x = a ∨ x = b)) :
    Inv ⟨h, u⟩ ∧ (∀ a b, Pair s a b → Pair ⟨h, u⟩ a b) ∧ (Downs s → Downs ⟨h, u⟩) := by
  have al : ∀ c r d, (r, d) ∈ refsAt h c → ∃ x, h[d]? = some (some x) := by
    intro c r d hm
    apply alive_of_rc
    have := cnt_pos hm
    have := hr.eq d
    omega
  have old : ∀ c r d, (r, d) ∈ refsAt h c → (r, d) ∈ refsAt s.cells c ∧ kindAt h c = kindAt s.cells c ∧
      kindAt h d = kindAt s.cells d := by
    intro c r d hm
    obtain ⟨y, hy⟩ := alive_of_ref hm
    obtain ⟨z, hz⟩ := al c r d hm
    have h1 := hk c y hy
    have h2 := hk d z hz
    rw [refsAt_some hy] at hm
    exact ⟨h1.2 _ hm, (kindAt_some hy).trans h1.1.symm, (kindAt_some hz).trans h2.1.symm⟩
  refine ⟨⟨hr, fun c r d hm => ?_⟩, fun a b hab => ?_, fun hD c r d b hm hb => ?_⟩
  · obtain ⟨o1, o2, o3⟩ := old c r d hm
    obtain ⟨a, b, h1, h2, h3⟩ := hI.ty c r d o1
    exact ⟨a, b, o2.trans h1, o3.trans h2, h3⟩
  · have hC := hc a b hab
    obtain ⟨x, hx⟩ := closed_alive hr hC (d := a) (.inl rfl)
    obtain ⟨y, hy⟩ := closed_alive hr hC (d := b) (.inr rfl)
    refine ⟨?_, ?_⟩
    · show _ ∈ refsAt h a
      rw [refsAt_some hx]; exact hp a x hx _ _ (.inl rfl) hab.1
    · show _ ∈ refsAt h b
      rw [refsAt_some hy]; exact hp b y hy _ _ (.inr rfl) hab.2
  · obtain ⟨o1, _, o3⟩ := old c r d hm
    exact hD c r d b o1 (o3.symm.trans hb)

theorem pair_closed {s : State} {a b : Nat} (h : Pair s a b) : Closed s.cells (fun x => x = a ∨ x = b) := by
  intro d hd
  rcases hd with e | e
  · subst e; exact ⟨b, .clock, .inr rfl, h.2⟩
  · subst e; exact ⟨a, .scheduler, .inl rfl, h.1⟩

theorem Move.inv {p : Prop} {s s' : State} (m : Move p s s') (h : Inv s) : Inv s' ∧ (∀ a b, Pair s a b → Pair s' a b) ∧
    (p → Downs s → Downs s') := by
  cases m with
  | create k =>
    have hr : ∀ e, refsAt (s.create k).cells e = refsAt s.cells e := by
      intro e
      unfold refsAt State.create
      simp only
      rw [getElem?_push]
      by_cases g : e = s.cells.length
      · subst g; simp
      · rw [if_neg g]
    have hn : ∀ (c : Nat) (a : Kind), kindAt s.cells c = some a → kindAt (s.create k).cells c = some a := by
      intro c a hc
      obtain ⟨x, hx⟩ := alive_of_kind hc
      have := lt_of_get hx
      unfold kindAt State.create at *
      simp only
      rw [getElem?_push, if_neg (by omega)]; exact hc
    refine ⟨⟨⟨fun c => ?_, fun c x hx => ?_⟩, fun c r d hm => ?_⟩, fun a b hab => ?_, fun _ hD c r d b hm hb => ?_⟩
    · have h1 := h.rc.eq c
      have h2 : cnt (s.create k).cells c = cnt s.cells c := by simp [State.create, cnt, refsOf]
      have h3 : rcOf (s.create k).cells c = if c = s.cells.length then 1 else rcOf s.cells c := by
        unfold rcOf State.create
        simp only
        rw [getElem?_push]
        by_cases g : c = s.cells.length
        · simp [g]
        · simp [g]
      have h4 : (s.create k).user.count c = s.user.count c + if c = s.cells.length then 1 else 0 := by
        simp only [State.create, List.count_cons, beq_iff_eq]
        by_cases g : c = s.cells.length
        · simp [g]
        · have g' : ¬ (s.cells.length = c) := fun h => g h.symm
          simp [g, g']
      rw [h2, h3, h4]
      by_cases g : c = s.cells.length
      · have : rcOf s.cells c = 0 := by subst g; simp [rcOf]
        simp only [g, if_true] at *
        omega
      · simp only [g, if_false]; omega
    · have hx' : (s.cells ++ [some (⟨1, k, []⟩ : Obj)])[c]? = some (some x) := hx
      rw [getElem?_push] at hx'
      by_cases g : c = s.cells.length
      · rw [if_pos g] at hx'; injection hx' with hx'; injection hx' with hx'; subst hx'; exact Nat.one_pos
      · rw [if_neg g] at hx'; exact h.rc.pos c x hx'
    · rw [hr] at hm
      obtain ⟨a, b, h1, h2, h3⟩ := h.ty c r d hm
      exact ⟨a, b, hn _ _ h1, hn _ _ h2, h3⟩
    · unfold Pair; rw [hr, hr]; exact hab
    · rw [hr] at hm
      obtain ⟨_, b', _, h2, _⟩ := h.ty c r d hm
      have := hn _ _ h2
      rw [hb] at this
      injection this with this
      subst this
      exact hD c r d b hm h2
  | link hc hd ht hp hl =>
    rename_i c d r a b h'
    obtain ⟨h2, e2, i2, l2, k2, r2⟩ := link_ok (r := r) h.rc (alive_of_kind hc) (alive_of_kind hd)
    rw [hl] at e2; injection e2 with e2; subst e2
    have mem : ∀ e r' d', (r', d') ∈ refsAt h' e ↔ (r', d') ∈ refsAt s.cells e ∨ e = c ∧ r' = r ∧ d' = d := by
      intro e r' d'
      rw [r2]
      by_cases g : e = c
      · simp [g]
      · simp [g]
    refine ⟨⟨i2, fun e r' d' hm => ?_⟩, fun a b hab => ⟨(mem _ _ _).mpr (.inl hab.1), (mem _ _ _).mpr (.inl hab.2)⟩,
      fun hpp hD e r' d' b' hm hb => ?_⟩
    · show ∃ a b, kindAt h' e = some a ∧ kindAt h' d' = some b ∧ Ty r' a b
      rw [k2, k2]
      rcases (mem e r' d').mp hm with g | ⟨g1, g2, g3⟩
      · exact h.ty e r' d' g
      · subst g1; subst g2; subst g3; exact ⟨a, b, hc, hd, ht⟩
    · have hb' : kindAt h' d' = some b' := hb
      rw [k2] at hb'
      rcases (mem e r' d').mp hm with g | ⟨g1, g2, g3⟩
      · exact hD e r' d' b' g hb'
      · subst g1; subst g2; subst g3
        rw [hd] at hb'; injection hb' with hb'; subst hb'
        exact hp hpp
  | unlink hc hk hu =>
    rename_i c k h'
    obtain ⟨h2, e2, i2, l2, s2⟩ := unlink_ok (k := k) h.rc hc
    rw [hu] at e2; injection e2 with e2; subst e2
    have fixed : ∀ (e : Nat) (r : Role) (d : Nat), (r = .scheduler ∨ r = .clock) → (r, d) ∈ refsAt s.cells e →
        (r, d) ∈ if e = c then (refsAt s.cells e).eraseIdx k else refsAt s.cells e := by
      intro e r d hr hm
      by_cases g : e = c
      · subst g
        rw [if_pos rfl]
        refine mem_eraseIdx_of hm fun hx => ?_
        have := hk _ hx
        rcases hr with q | q
        · exact this.1 q
        · exact this.2 q
      · rw [if_neg g]; exact hm
    have res := shrink (u := s.user) h i2 (fun e y hy => ?_) (fun e y hy r d hr hm => ?_) (fun a b hab => ?_)
    · exact ⟨res.1, res.2.1, fun _ => res.2.2⟩
    · refine ⟨(l2.keep e y hy).1, fun x hx => ?_⟩
      rw [(l2.keep e y hy).2] at hx
      by_cases g : e = c
      · rw [if_pos g] at hx; exact List.mem_of_mem_eraseIdx hx
      · rw [if_neg g] at hx; exact hx
    · rw [(l2.keep e y hy).2]; exact fixed e r d hr hm
    · apply s2
      intro d hd
      rcases hd with e | e
      · subst e; exact ⟨b, .clock, .inr rfl, fixed _ _ _ (.inr rfl) hab.2⟩
      · subst e; exact ⟨a, .scheduler, .inl rfl, fixed _ _ _ (.inl rfl) hab.1⟩
  | copy hc ha =>
    rename_i c h'
    obtain ⟨h2, e2, i2, l2, k2, r2⟩ := addRef_ok h.rc hc
    rw [ha] at e2; injection e2 with e2; subst e2
    have hu : (fun d => s.user.count d + if d = c then 1 else 0) = fun d => (c :: s.user).count d := by
      funext d
      simp only [List.count_cons, beq_iff_eq]
      by_cases g : d = c
      · simp [g]
      · have g' : ¬ (c = d) := fun h => g h.symm
        simp [g, g']
    rw [hu] at i2
    refine ⟨⟨i2, fun e r d hm => ?_⟩, fun a b hab => ⟨?_, ?_⟩, fun _ hD e r d b hm hb => ?_⟩
    · show ∃ a b, kindAt h' e = some a ∧ kindAt h' d = some b ∧ Ty r a b
      have hm' : (r, d) ∈ refsAt h' e := hm
      rw [r2] at hm'
      rw [k2, k2]; exact h.ty e r d hm'
    · show _ ∈ refsAt h' a
      rw [r2]; exact hab.1
    · show _ ∈ refsAt h' b
      rw [r2]; exact hab.2
    · have hm' : (r, d) ∈ refsAt h' e := hm
      have hb' : kindAt h' d = some b := hb
      rw [r2] at hm'; rw [k2] at hb'
      exact hD e r d b hm' hb'
  | drop hi hr =>
    rename_i c i h'
    have hI : RInv s.cells (fun d => (s.user.eraseIdx i).count d + if d = c then 1 else 0) := by
      refine ⟨fun d => ?_, h.rc.pos⟩
      have := h.rc.eq d
      rw [count_eraseIdx hi d] at this
      exact this
    obtain ⟨h2, e2, i2, f2, s2⟩ := release_ok hI
    rw [hr] at e2; injection e2 with e2; subst e2
    have kp : ∀ (e : Nat) (y : Obj), h'[e]? = some (some y) → kindAt s.cells e = some y.kind ∧ refsAt s.cells e = y.refs := by
      intro e y hy
      obtain ⟨x, hx, g1, g2⟩ := f2.keep e y hy
      exact ⟨by rw [kindAt_some hx, g1], by rw [refsAt_some hx, g2]⟩
    have res := shrink (u := s.user.eraseIdx i) h i2 (fun e y hy => ⟨(kp e y hy).1, fun x hx => (kp e y hy).2 ▸ hx⟩)
      (fun e y hy r d _ hm => (kp e y hy).2 ▸ hm) (fun a b hab => s2 _ (pair_closed hab))
    exact ⟨res.1, res.2.1, fun _ => res.2.2⟩

/-! ### Operations -/

/-- Moves in a row. -/
inductive Moves (p : Prop) : State → State → Prop
  | none (s : State) : Moves p s s
  | cons {a b c : State} : Move p a b → Moves p b c → Moves p a c

theorem Moves.inv {p : Prop} {s s' : State} (m : Moves p s s') (h : Inv s) : Inv s' ∧ (∀ a b, Pair s a b → Pair s' a b) ∧
    (p → Downs s → Downs s') := by
  induction m with
  | none s => exact ⟨h, fun _ _ h => h, fun _ h => h⟩
  | cons m _ ih =>
    obtain ⟨h1, h2, h3⟩ := m.inv h
    obtain ⟨g1, g2, g3⟩ := ih h1
    exact ⟨g1, fun a b hab => g2 a b (h2 a b hab), fun hp hD => g3 hp (h3 hp hD)⟩

theorem one {p : Prop} {s s' : State} (m : Move p s s') : Moves p s s' := .cons m (.none _)

theorem link_step {p : Prop} {s : State} {c d : Nat} {r : Role} {a b : Kind} (hI : Inv s) (hc : kindAt s.cells c = some a)
    (hd : kindAt s.cells d = some b) (ht : Ty r a b) (hp : p → Down r b c d) :
    ∃ s', ((link c r d s.cells).map fun h => (⟨h, s.user⟩ : State)) = some s' ∧ Moves p s s' := by
  obtain ⟨h, e, _⟩ := link_ok (r := r) hI.rc (alive_of_kind hc) (alive_of_kind hd)
  exact ⟨⟨h, s.user⟩, by rw [e]; rfl, one (.link hc hd ht hp e)⟩

theorem unlink_step {p : Prop} {s : State} {c k : Nat} (hI : Inv s) (hc : ∃ x, s.cells[c]? = some (some x))
    (hk : ∀ e, (refsAt s.cells c)[k]? = some e → e.1 ≠ .scheduler ∧ e.1 ≠ .clock) :
    ∃ s', ((unlink c k s.cells).map fun h => (⟨h, s.user⟩ : State)) = some s' ∧ Moves p s s' := by
  obtain ⟨h, e, _⟩ := unlink_ok (k := k) hI.rc hc
  exact ⟨⟨h, s.user⟩, by rw [e]; rfl, one (.unlink hc hk e)⟩

theorem at?_some {s : State} {c k d : Nat} {r : Role} (h : s.at? c k r = some d) : (refsAt s.cells c)[k]? = some (r, d) := by
  unfold State.at? at h
  split at h
  · rename_i e he
    split at h
    · rename_i g
      injection h with h
      rw [he, ← g, ← h]
    · cases h
  · cases h

theorem pos_role {s : State} {c : Nat} {r : Role} {e : Role × Nat} (h : (refsAt s.cells c)[s.pos c r]? = some e) : e.1 = r := by
  have hl := lt_of_get h
  have := List.findIdx_getElem (w := hl)
  rw [List.getElem?_eq_getElem hl] at h
  injection h with h
  have h2 : (refsAt s.cells c)[s.pos c r].1 == r := this
  rw [h] at h2
  exact eq_of_beq h2

theorem step_ok {s : State} (hI : Inv s) (o : Op) : ∃ s', s.step o = some s' ∧ Moves (o.plain s) s s' := by
  have mem : ∀ {i c : Nat}, s.user[i]? = some c → c ∈ s.user := fun h => List.mem_of_getElem? h
  have kd : ∀ {c : Nat}, c ∈ s.user → ∃ k, kindAt s.cells c = some k := by
    intro c hc
    obtain ⟨x, hx⟩ := hI.alive_user hc
    exact ⟨_, kindAt_some hx⟩
  have nothing : ∀ {p : Prop}, ∃ s', some s = some s' ∧ Moves p s s' := ⟨s, rfl, .none s⟩
  cases o with
  | create k =>
    simp only [State.step]
    split
    · exact nothing
    · exact ⟨_, rfl, one (.create s k)⟩
  | simUse i j =>
    simp only [State.step]
    split
    · rename_i c d hi hj
      split
      · rename_i g
        exact link_step hI g.1 g.2.1 ⟨rfl, rfl⟩ (fun _ => ⟨fun h => (by cases h), fun h => (by cases h)⟩)
      · exact nothing
    · exact nothing
  | schedUse i j =>
    simp only [State.step]
    split
    · rename_i c d hi hj
      split
      · rename_i g
        rcases g.2.1 with q | q
        · exact link_step hI g.1 q ⟨rfl, .inl rfl⟩ (fun hp => absurd q (hp d hj))
        · exact link_step hI g.1 q ⟨rfl, .inr rfl⟩ (fun _ => ⟨fun _ => rfl, fun h => by cases h⟩)
      · exact nothing
    · exact nothing
  | schedule i j =>
    simp only [State.step]
    split
    · rename_i c d hi hj
      split
      · rename_i g
        have m1 : Move (Op.plain s (.schedule i j)) s (s.create .handle) := .create s .handle
        have I1 := (m1.inv hI).1
        have keep : ∀ (e : Nat) (a : Kind), kindAt s.cells e = some a → kindAt (s.create .handle).cells e = some a := by
          intro e a he
          obtain ⟨x, hx⟩ := alive_of_kind he
          have := lt_of_get hx
          unfold kindAt State.create at *
          simp only
          rw [getElem?_push, if_neg (by omega)]; exact he
        have new : kindAt (s.create .handle).cells s.cells.length = some .handle := by
          unfold kindAt State.create; simp
        obtain ⟨h2, e2, i2, l2, k2, r2⟩ := link_ok (r := .sink) I1.rc (alive_of_kind new) (alive_of_kind (keep d _ g.2.1))
        have m2 : Move (Op.plain s (.schedule i j)) (s.create .handle) ⟨h2, (s.create .handle).user⟩ :=
          .link (r := .sink) new (keep d _ g.2.1) ⟨rfl, rfl⟩ (fun _ => ⟨fun h => (by cases h), fun h => (by cases h)⟩) e2
        have I2 := (m2.inv I1).1
        obtain ⟨s3, e3, m3⟩ := link_step (p := Op.plain s (.schedule i j)) (r := .event) I2 (c := c) (d := s.cells.length) (a := .sched)
          (b := .handle) ((k2 c).trans (keep c _ g.1)) ((k2 _).trans new) ⟨rfl, rfl⟩
          (fun _ => ⟨fun h => (by cases h), fun h => (by cases h)⟩)
        exact ⟨s3, by rw [e2]; exact e3, .cons m1 (.cons m2 m3)⟩
      · exact nothing
    · exact nothing
  | next i k =>
    simp only [State.step]
    split
    · rename_i c hi
      split
      · rename_i d hd
        have hm := List.mem_of_getElem? (at?_some hd)
        obtain ⟨h, e, _⟩ := addRef_ok hI.rc (hI.alive_ref hm)
        exact ⟨_, by rw [e]; rfl, one (.copy (hI.alive_ref hm) e)⟩
      · exact nothing
    · exact nothing
  | cancel i =>
    simp only [State.step]
    split
    · rename_i c hi
      split
      · refine unlink_step hI (hI.alive_user (mem hi)) fun e he => ?_
        rw [pos_role he]; exact ⟨by simp, by simp⟩
      · exact nothing
    · exact nothing
  | fire i k =>
    simp only [State.step]
    split
    · rename_i c hi
      split
      · rename_i d hd
        have hg := at?_some hd
        have hm := List.mem_of_getElem? hg
        have ha := hI.alive_ref hm
        obtain ⟨h, e, _, ls, _⟩ := unlink_ok (k := s.pos d .sink) hI.rc ha
        have m1 : Move (Op.plain s (.fire i k)) s ⟨h, s.user⟩ :=
          .unlink ha (fun e he => by rw [pos_role he]; exact ⟨by simp, by simp⟩) e
        have I1 := (m1.inv hI).1
        have hc := I1.alive_user (show c ∈ (⟨h, s.user⟩ : State).user from mem hi)
        have ne : c ≠ d := by
          rintro rfl
          obtain ⟨a, b, h1, h2, h3⟩ := hI.ty _ _ _ hm
          rw [h1] at h2
          injection h2 with h2
          rw [h3.1, h3.2] at h2
          cases h2
        obtain ⟨s2, e2, m2⟩ := unlink_step (p := Op.plain s (.fire i k)) I1 (c := c) (k := k) hc (fun e' he' => by
          obtain ⟨y, hy⟩ := hc
          have hr := (ls.keep c y hy).2
          rw [if_neg ne] at hr
          have : refsAt (⟨h, s.user⟩ : State).cells c = refsAt s.cells c := (refsAt_some hy).trans hr
          rw [this, hg] at he'
          injection he' with he'
          subst he'
          exact ⟨by simp, by simp⟩)
        exact ⟨s2, by rw [e]; exact e2, .cons m1 m2⟩
      · exact nothing
    · exact nothing
  | connect i j =>
    simp only [State.step]
    split
    · rename_i c d hi hj
      split
      · rename_i g
        exact link_step hI g.1 g.2 ⟨rfl, rfl⟩ (fun _ => ⟨fun h => (by cases h), fun h => (by cases h)⟩)
      · exact nothing
    · exact nothing
  | disconnect i k =>
    simp only [State.step]
    split
    · rename_i c hi
      split
      · rename_i d hd
        refine unlink_step hI (hI.alive_user (mem hi)) fun e he => ?_
        rw [at?_some hd] at he
        injection he with he
        subst he; exact ⟨by simp, by simp⟩
      · exact nothing
    · exact nothing
  | keep i j =>
    simp only [State.step]
    split
    · rename_i c d hi hj
      split
      · rename_i g
        obtain ⟨b, hb⟩ := kd (mem hj)
        refine link_step hI g hb rfl (fun hp => ⟨fun h => (by cases h), fun _ => ?_⟩)
        have := hp c d hi hj
        rw [hb] at this
        exact ⟨Option.some.inj this.1, this.2⟩
      · exact nothing
    · exact nothing
  | forget i k =>
    simp only [State.step]
    split
    · rename_i c hi
      split
      · rename_i d hd
        refine unlink_step hI (hI.alive_user (mem hi)) fun e he => ?_
        rw [at?_some hd] at he
        injection he with he
        subst he; exact ⟨by simp, by simp⟩
      · exact nothing
    · exact nothing
  | copy i =>
    simp only [State.step]
    split
    · rename_i c hi
      obtain ⟨h, e, _⟩ := addRef_ok hI.rc (hI.alive_user (mem hi))
      exact ⟨_, by rw [e]; rfl, one (.copy (hI.alive_user (mem hi)) e)⟩
    · exact nothing
  | drop i =>
    simp only [State.step]
    split
    · rename_i c hi
      have hI' : RInv s.cells (fun d => (s.user.eraseIdx i).count d + if d = c then 1 else 0) := by
        refine ⟨fun d => ?_, hI.rc.pos⟩
        have := hI.rc.eq d
        rw [count_eraseIdx hi d] at this
        exact this
      obtain ⟨h, e, _⟩ := release_ok hI'
      exact ⟨_, by rw [e]; rfl, one (.drop hi e)⟩
    · exact nothing

theorem run_ok {s : State} (hI : Inv s) (l : List Op) : ∃ s', s.run l = some s' ∧ Inv s' ∧ ∀ a b, Pair s a b → Pair s' a b := by
  induction l generalizing s with
  | nil => exact ⟨s, rfl, hI, fun _ _ h => h⟩
  | cons o l ih =>
    obtain ⟨s1, e1, m1⟩ := step_ok hI o
    obtain ⟨i1, p1, _⟩ := m1.inv hI
    obtain ⟨s2, e2, i2, p2⟩ := ih i1
    exact ⟨s2, by simp only [State.run, e1]; exact e2, i2, fun a b h => p2 a b (p1 a b h)⟩

end Verif.Sim.Own
