import Verif.Sim.OwnLemmas
import Mathlib.Data.Fintype.Pigeonhole
/-! Property C158: a simulation that its user has released is destroyed. -/
namespace Verif.Sim.Own

open Verif.Heap hiding Obj

/-- What a user can get to.  (Specification; no code.) -/
def Reach (s : State) : Prop := ∃ l, State.init.run l = some s

theorem Reach.inv {s : State} (h : Reach s) : Inv s := by
  obtain ⟨l, hl⟩ := h
  obtain ⟨s', e, i, _⟩ := run_ok Inv.init l
  rw [hl] at e; injection e with e; subst e
  exact i

theorem refers_iff {s : State} {c d : Nat} : Refers s c d ↔ ∃ r, (r, d) ∈ refsAt s.cells c := by
  constructor
  · rintro ⟨x, hx, hd⟩
    obtain ⟨e, he, hs⟩ := List.mem_map.mp hd
    exact ⟨e.1, by rw [refsAt_some hx, ← hs]; exact he⟩
  · rintro ⟨r, hm⟩
    obtain ⟨x, hx⟩ := alive_of_ref hm
    rw [refsAt_some hx] at hm
    exact ⟨x, hx, List.mem_map.mpr ⟨_, hm, rfl⟩⟩

/-- **C158.** Whatever a user does, no object is used after its destruction. -/
theorem own_defined (l : List Op) : ∃ s, State.init.run l = some s := by
  obtain ⟨s, e, _⟩ := run_ok Inv.init l
  exact ⟨s, e⟩

/-- **C158.** What a pointer of the user leads to exists. -/
theorem own_held {s : State} (h : Reach s) {c : Nat} (hc : Held s c) : Alive s c := by
  have hI := h.inv
  cases hc with
  | user hm => exact hI.alive_user hm
  | via _ hr =>
    obtain ⟨r, hm⟩ := refers_iff.mp hr
    exact hI.alive_ref hm

theorem holder {s : State} (h : Inv s) {c : Nat} (hc : Alive s c) : c ∈ s.user ∨ ∃ b, Refers s b c := by
  obtain ⟨x, hx⟩ := hc
  have h1 := h.rc.eq c
  have h2 := h.rc.pos c x hx
  rw [rcOf_some hx] at h1
  by_cases g : 0 < s.user.count c
  · exact .inl (List.count_pos_iff.mp g)
  · obtain ⟨b, y, hy, hm⟩ := cnt_mem (d := c) (cells := s.cells) (by omega)
    exact .inr ⟨b, y, hy, hm⟩

/-- **C158, exactly.** An object exists only if a pointer of the user leads to it or a cycle of references does. -/
theorem own_exact {s : State} (h : Reach s) {c : Nat} (hc : Alive s c) :
    Held s c ∨ ∃ d, Relation.TransGen (Refers s) d d ∧ Relation.ReflTransGen (Refers s) d c := by
  have hI := h.inv
  by_cases hh : Held s c
  · exact .inl hh
  right
  -- walk backwards from `c`
  have back : ∀ n : Nat, ∃ f : Nat → Nat, f 0 = c ∧ (∀ i, i < n → Refers s (f (i + 1)) (f i)) ∧ ∀ i, i ≤ n → Alive s (f i) ∧ ¬ Held s (f i) := by
    intro n
    induction n with
    | zero => exact ⟨fun _ => c, rfl, fun i hi => absurd hi (Nat.not_lt_zero _), fun i _ => ⟨hc, hh⟩⟩
    | succ n ih =>
      obtain ⟨f, f0, f1, f2⟩ := ih
      obtain ⟨ha, hn⟩ := f2 n (Nat.le_refl _)
      rcases holder hI ha with g | ⟨b, hb⟩
      · exact absurd (Held.user g) hn
      · refine ⟨fun i => if i = n + 1 then b else f i, by simp [f0], fun i hi => ?_, fun i hi => ?_⟩
        · by_cases e : i = n
          · subst e; simpa using hb
          · have : i < n := by omega
            simp only [show ¬ (i + 1 = n + 1) by omega, show ¬ (i = n + 1) by omega, if_false]
            exact f1 i this
        · by_cases e : i = n + 1
          · simp only [e, if_true]
            have hb' := hb
            obtain ⟨x, hx, _⟩ := hb
            exact ⟨⟨x, hx⟩, fun hB => hn (Held.via hB hb')⟩
          · simp only [e, if_false]; exact f2 i (by omega)
  obtain ⟨f, f0, f1, f2⟩ := back s.cells.length
  -- two of the objects are the same
  have lt : ∀ i : Fin (s.cells.length + 1), f i < s.cells.length := by
    intro i
    obtain ⟨⟨x, hx⟩, _⟩ := f2 i (by omega)
    exact lt_of_get hx
  have path : ∀ n i : Nat, i + n ≤ s.cells.length → Relation.ReflTransGen (Refers s) (f (i + n)) (f i) := by
    intro n
    induction n with
    | zero => intro i _; exact .refl
    | succ n ih =>
      intro i hi
      exact Relation.ReflTransGen.head (f1 (i + n) (by omega)) (ih i (by omega))
  have loop : ∀ i j : Nat, i < j → j ≤ s.cells.length → f i = f j → ∃ d, Relation.TransGen (Refers s) d d ∧
      Relation.ReflTransGen (Refers s) d c := by
    intro i j hij hj he
    refine ⟨f j, ?_, ?_⟩
    · obtain ⟨n, rfl⟩ : ∃ n, j = i + n + 1 := ⟨j - i - 1, by omega⟩
      have := Relation.TransGen.head' (f1 (i + n) (by omega)) (path n i (by omega))
      rw [he] at this
      exact this
    · have := path j 0 (by omega)
      rw [Nat.zero_add, f0] at this
      exact this
  obtain ⟨i, j, hne, he⟩ := Fintype.exists_ne_map_eq_of_card_lt (fun i : Fin (s.cells.length + 1) => (⟨f i, lt i⟩ : Fin s.cells.length))
    (by simp)
  have he' : f i = f j := congrArg Fin.val he
  rcases Nat.lt_or_gt_of_ne (fun h => hne (Fin.ext h) : (i : Nat) ≠ j) with g | g
  · exact loop i j g (by omega) he'
  · exact loop j i g (by omega) he'.symm

/-- **C158 (partial).** When the user has no pointers left and no objects refer to each other in a cycle, every object has been destroyed.

Missing: cycles, for which the claim is false (`own_wired_fails`). -/
theorem own_no_leak_partial {s : State} (h : Reach s) (hu : s.user = []) (hac : ∀ d, ¬ Relation.TransGen (Refers s) d d) (c : Nat) :
    ¬ Alive s c := by
  intro hc
  rcases own_exact h hc with g | ⟨d, hd, _⟩
  · have : ∀ c, ¬ Held s c := by
      intro c hc
      induction hc with
      | user hm => rw [hu] at hm; cases hm
      | via _ _ ih => exact ih
    exact this c g
  · exact hac d hd

/-- Height of the classes in a history that closes no cycles. -/
def height : Kind → Nat
  | .sim => 3
  | .sched => 2
  | .handle => 1
  | .comp => 0

theorem plain_acyclic {s : State} (hI : Inv s) (hD : Downs s) (d : Nat) : ¬ Relation.TransGen (Refers s) d d := by
  let f : Nat → Nat × Nat := fun c => (match kindAt s.cells c with | some k => height k | none => 0, c)
  have step : ∀ c d, Refers s c d → (f d).1 < (f c).1 ∨ ((f d).1 = (f c).1 ∧ d < c) := by
    intro c d hr
    obtain ⟨r, hm⟩ := refers_iff.mp hr
    obtain ⟨a, b, ha, hb, ht⟩ := hI.ty c r d hm
    have hd := hD c r d b hm hb
    simp only [f, ha, hb]
    cases r with
    | scheduler => obtain ⟨rfl, rfl⟩ := ht; left; decide
    | clock => obtain ⟨rfl, _⟩ := ht; have := hd.1 rfl; subst this; left; decide
    | event => obtain ⟨rfl, rfl⟩ := ht; left; decide
    | sink => obtain ⟨rfl, rfl⟩ := ht; left; decide
    | conn => obtain ⟨rfl, rfl⟩ := ht; left; decide
    | kept =>
      have e : a = .comp := ht
      obtain ⟨q1, q2⟩ := hd.2 rfl
      subst e; subst q1
      exact .inr ⟨rfl, q2⟩
  have : ∀ c d, Relation.TransGen (Refers s) c d → (f d).1 < (f c).1 ∨ ((f d).1 = (f c).1 ∧ d < c) := by
    intro c d h
    induction h with
    | single h => exact step _ _ h
    | tail _ h ih =>
      have := step _ _ h
      omega
  intro h
  have := this d d h
  omega

/-- A history of operations that close no cycles: schedulers are given clocks that are not simulators, and components keep only components
that were created before them.  (Specification; no code.) -/
inductive Plain : State → List Op → Prop
  | nil (s : State) : Plain s []
  | cons {s s' : State} {o : Op} {l : List Op} : o.plain s → s.step o = some s' → Plain s' l → Plain s (o :: l)

/-- **C158** for histories without cycles: an object exists exactly while a pointer of the user leads to it. -/
theorem own_plain {l : List Op} {s : State} (hp : Plain State.init l) (hr : State.init.run l = some s) (c : Nat) : Alive s c ↔ Held s c := by
  have gen : ∀ (l : List Op) (a : State), Inv a → Downs a → Plain a l → a.run l = some s → Inv s ∧ Downs s := by
    intro l
    induction l with
    | nil => intro a hI hD _ h; injection h with h; subst h; exact ⟨hI, hD⟩
    | cons o l ih =>
      intro a hI hD hP h
      cases hP with
      | cons h1 h2 h3 =>
        obtain ⟨s1, e1, m1⟩ := step_ok hI o
        rw [h2] at e1; injection e1 with e1; subst e1
        obtain ⟨i1, _, d1⟩ := m1.inv hI
        simp only [State.run, h2] at h
        exact ih _ i1 (d1 h1 hD) h3 h
  obtain ⟨hI, hD⟩ := gen l State.init Inv.init (fun c r d b hm => by simp [State.init, refsAt] at hm) hp hr
  refine ⟨fun hc => ?_, own_held ⟨l, hr⟩⟩
  rcases own_exact ⟨l, hr⟩ hc with g | ⟨d, hd, _⟩
  · exact g
  · exact absurd hd (plain_acyclic hI hD d)

/-- **C158 fails for every simulation:** once a simulator uses a scheduler that uses the simulator as its clock, neither of them is ever
destroyed, whatever the user does and lets go. -/
theorem own_wired_fails {s t : State} {l : List Op} {i j c d : Nat} (h : Reach s) (hi : s.user[i]? = some c) (hj : s.user[j]? = some d)
    (hc : kindAt s.cells c = some .sim) (hd : kindAt s.cells d = some .sched) (h1 : s.has c .scheduler = false) (h2 : s.has d .clock = false)
    (hr : s.run (.simUse i j :: .schedUse j i :: l) = some t) : Alive t c ∧ Alive t d := by
  have hI := h.inv
  obtain ⟨a, ea, ia, la, ka, ra⟩ := link_ok (r := .scheduler) hI.rc (alive_of_kind hc) (alive_of_kind hd)
  have s1 : s.step (.simUse i j) = some ⟨a, s.user⟩ := by
    simp only [State.step, hi, hj]
    rw [if_pos ⟨hc, hd, h1⟩, ea]; rfl
  obtain ⟨s', e', m'⟩ := step_ok hI (.simUse i j)
  rw [s1] at e'; injection e' with e'; subst e'
  have I1 := (m'.inv hI).1
  have ne : d ≠ c := by rintro rfl; rw [hc] at hd; cases hd
  have h2' : (⟨a, s.user⟩ : State).has d .clock = false := by
    unfold State.has at h2 ⊢
    rw [ra, if_neg ne]; exact h2
  obtain ⟨b, eb, ib, lb, kb, rb⟩ := link_ok (r := .clock) I1.rc (alive_of_kind ((ka d).trans hd)) (alive_of_kind ((ka c).trans hc))
  have s2 : (⟨a, s.user⟩ : State).step (.schedUse j i) = some ⟨b, s.user⟩ := by
    simp only [State.step, hi, hj]
    rw [if_pos ⟨(ka d).trans hd, .inl ((ka c).trans hc), h2'⟩, eb]; rfl
  obtain ⟨s', e', m'⟩ := step_ok I1 (.schedUse j i)
  rw [s2] at e'; injection e' with e'; subst e'
  have I2 := (m'.inv I1).1
  have hp : Pair ⟨b, s.user⟩ c d := by
    constructor
    · show _ ∈ refsAt b c
      rw [rb, if_neg ne.symm]
      show _ ∈ refsAt a c
      rw [ra, if_pos rfl]; simp
    · show _ ∈ refsAt b d
      rw [rb, if_pos rfl]; simp
  obtain ⟨t', et, _, pt⟩ := run_ok I2 l
  simp only [State.run, s1, s2] at hr
  rw [hr] at et; injection et with et; subst et
  have := pt c d hp
  exact ⟨alive_of_ref this.1, alive_of_ref this.2⟩

/-- **C158.** A scheduled event is held by its scheduler and holds its sink; the user gets a pointer to it. -/
theorem own_schedule {s : State} {i j c d : Nat} (h : Reach s) (hi : s.user[i]? = some c) (hj : s.user[j]? = some d)
    (hc : kindAt s.cells c = some .sched) (hd : kindAt s.cells d = some .comp) (hk : s.has c .clock = true) :
    ∃ s', s.step (.schedule i j) = some s' ∧ ∃ n, ¬ Alive s n ∧ s'.user = n :: s.user ∧ refsAt s'.cells n = [(.sink, d)] ∧
      (refsAt s'.cells c) = refsAt s.cells c ++ [(.event, n)] ∧ ∀ e, e ≠ n → e ≠ c → refsAt s'.cells e = refsAt s.cells e := by
  have hI := h.inv
  have m1 : Move True s (s.create .handle) := .create s .handle
  have I1 := (m1.inv hI).1
  have lt : ∀ (e : Nat) (a : Kind), kindAt s.cells e = some a → e < s.cells.length := by
    intro e a he
    obtain ⟨x, hx⟩ := alive_of_kind he
    exact lt_of_get hx
  have keep : ∀ (e : Nat) (a : Kind), kindAt s.cells e = some a → kindAt (s.create .handle).cells e = some a := by
    intro e a he
    have := lt e a he
    unfold kindAt State.create at *
    simp only
    rw [getElem?_push, if_neg (by omega)]; exact he
  have rk : ∀ e, refsAt (s.create .handle).cells e = refsAt s.cells e := by
    intro e
    unfold refsAt State.create
    simp only
    rw [getElem?_push]
    by_cases g : e = s.cells.length
    · subst g; simp
    · rw [if_neg g]
  have new : kindAt (s.create .handle).cells s.cells.length = some .handle := by
    unfold kindAt State.create; simp
  obtain ⟨h2, e2, i2, l2, k2, r2⟩ := link_ok (r := .sink) I1.rc (alive_of_kind new) (alive_of_kind (keep d _ hd))
  obtain ⟨h3, e3, i3, l3, k3, r3⟩ := link_ok (r := .event) (c := c) (d := s.cells.length) i2 (alive_of_kind ((k2 c).trans (keep c _ hc)))
    (alive_of_kind ((k2 _).trans new))
  have ne : c ≠ s.cells.length := Nat.ne_of_lt (lt c _ hc)
  refine ⟨⟨h3, (s.create .handle).user⟩, ?_, s.cells.length, ?_, rfl, ?_, ?_, ?_⟩
  · simp only [State.step, hi, hj]
    rw [if_pos ⟨hc, hd, hk⟩, e2]
    simp only [e3]; rfl
  · rintro ⟨x, hx⟩
    exact Nat.lt_irrefl _ (lt_of_get hx)
  · show refsAt h3 _ = _
    rw [r3, if_neg ne.symm, r2, if_pos rfl, rk]
    unfold refsAt; simp
  · show refsAt h3 _ = _
    rw [r3, if_pos rfl, r2, if_neg ne, rk]
  · intro e h1 h2'
    show refsAt h3 _ = _
    rw [r3, if_neg h2', r2, if_neg h1, rk]

/-- **C158.** A fired event is no longer held by its scheduler, and it does not hold its sink any more; what else exists afterwards has the
members it had. -/
theorem own_fire {s : State} {i k c n d : Nat} (h : Reach s) (hi : s.user[i]? = some c) (hk : (refsAt s.cells c)[k]? = some (.event, n))
    (hn : refsAt s.cells n = [(.sink, d)]) :
    ∃ s', s.step (.fire i k) = some s' ∧ s'.user = s.user ∧ refsAt s'.cells c = (refsAt s.cells c).eraseIdx k ∧
      refsAt s'.cells n = [] ∧ ∀ e, Alive s' e → e ≠ n → e ≠ c → refsAt s'.cells e = refsAt s.cells e := by
  have hI := h.inv
  have hm := List.mem_of_getElem? hk
  have ha := hI.alive_ref hm
  have ne : c ≠ n := by
    rintro rfl
    rw [hn] at hk
    cases k <;> simp at hk
  have hp : s.pos n .sink = 0 := by unfold State.pos; rw [hn]; rfl
  obtain ⟨h1, e1, i1, l1, _⟩ := unlink_ok (k := s.pos n .sink) hI.rc ha
  have m1 : Move True s ⟨h1, s.user⟩ :=
    .unlink ha (fun e he => by rw [pos_role he]; exact ⟨by simp, by simp⟩) e1
  have I1 := (m1.inv hI).1
  obtain ⟨y, hy⟩ := I1.alive_user (show c ∈ (⟨h1, s.user⟩ : State).user from List.mem_of_getElem? hi)
  obtain ⟨h2, e2, i2, l2, _⟩ := unlink_ok (c := c) (k := k) i1 ⟨y, hy⟩
  have m2 : Move True (⟨h1, s.user⟩ : State) ⟨h2, s.user⟩ := .unlink ⟨y, hy⟩ (fun e' he' => by
    have hr := (l1.keep c y hy).2
    rw [if_neg ne] at hr
    have : refsAt (⟨h1, s.user⟩ : State).cells c = refsAt s.cells c := (refsAt_some hy).trans hr
    rw [this, hk] at he'
    injection he' with he'
    subst he'
    exact ⟨by simp, by simp⟩) e2
  have I2 := (m2.inv I1).1
  have alive1 : ∀ (e : Nat) (z : Obj), h2[e]? = some (some z) → ∃ y, h1[e]? = some (some y) := fun e z hz => alive_of_kind (l2.keep e z hz).1
  refine ⟨⟨h2, s.user⟩, ?_, rfl, ?_, ?_, ?_⟩
  · have : s.at? c k .event = some n := by unfold State.at?; rw [hk]; simp
    simp only [State.step, hi, this]
    rw [e1]
    simp only [e2]; rfl
  · obtain ⟨z, hz⟩ := I2.alive_user (show c ∈ (⟨h2, s.user⟩ : State).user from List.mem_of_getElem? hi)
    show refsAt h2 c = _
    have q := (l2.keep c z hz).2
    rw [if_pos rfl, refsAt_some hy, (l1.keep c y hy).2, if_neg ne] at q
    exact (refsAt_some hz).trans q
  · show refsAt h2 n = []
    by_cases g : ∃ z, h2[n]? = some (some z)
    · obtain ⟨z, hz⟩ := g
      obtain ⟨y, hy⟩ := alive1 n z hz
      have q := (l2.keep n z hz).2
      rw [if_neg ne.symm, refsAt_some hy, (l1.keep n y hy).2, if_pos rfl, hn, hp] at q
      exact (refsAt_some hz).trans q
    · unfold refsAt
      split
      · rename_i z hz; exact absurd ⟨z, hz⟩ g
      · rfl
  · rintro e ⟨z, hz⟩ h1' h2'
    obtain ⟨y, hy⟩ := alive1 e z hz
    have q := (l2.keep e z hz).2
    rw [if_neg h2', refsAt_some hy, (l1.keep e y hy).2, if_neg h1'] at q
    exact (refsAt_some hz).trans q

/-- A simulation: simulator, scheduler and sink, connected as /repo/tests/simulation/test-simulator.cpp 140-156 does. -/
def wiring : List Op := [.create .comp, .create .sched, .create .sim, .simUse 0 1, .schedUse 1 0, .schedule 1 2]

/-- **C158 fails**, the whole simulation: the user runs it and lets go of everything; simulator and scheduler remain.  A sink whose event was
not fired remains too. -/
theorem own_simulation_fails :
    (State.init.run (wiring ++ [.fire 2 1, .drop 0, .drop 0, .drop 0, .drop 0])).map (fun s => (s.user, s.cells.map Option.isSome)) =
      some ([], [false, true, true, false]) ∧
    (State.init.run (wiring ++ [.drop 0, .drop 0, .drop 0, .drop 0])).map (fun s => (s.user, s.cells.map Option.isSome)) =
      some ([], [true, true, true, true]) := by
  decide +kernel

/-- A scheduler with a clock of its own, a cycle of a pending event whose sink keeps the scheduler: it is gone when the event has been fired,
and everything is destroyed. -/
example :
    let l : List Op := [.create .comp, .create .comp, .create .sched, .schedUse 0 1, .schedule 0 2, .keep 3 1]
    ((State.init.run (l ++ [.drop 0, .drop 0, .drop 0, .drop 0])).map fun s => (s.user, s.cells.map Option.isSome)) =
      some ([], [true, true, true, true]) ∧
    ((State.init.run (l ++ [.fire 1 1, .drop 0, .drop 0, .drop 0, .drop 0])).map fun s => (s.user, s.cells.map Option.isSome)) =
      some ([], [false, false, false, false]) := by
  decide +kernel

/-- A history that closes no cycle: a simulator uses a scheduler with another clock; a component keeps an older one and is a sink of the
simulator and of two events, one of which is cancelled. -/
example : ∃ s, Plain State.init [.create .comp, .create .comp, .keep 0 1, .create .sched, .schedUse 0 1, .create .sim, .simUse 0 1,
      .connect 0 3, .schedule 1 3, .schedule 2 4, .cancel 0, .drop 5] ∧
    State.init.run [.create .comp, .create .comp, .keep 0 1, .create .sched, .schedUse 0 1, .create .sim, .simUse 0 1,
      .connect 0 3, .schedule 1 3, .schedule 2 4, .cancel 0, .drop 5] = some s ∧ s.cells.map (Option.map Obj.rc) =
      [some 3, some 2, some 2, some 1, some 2, some 2] := by
  refine ⟨_, ?_, rfl, by decide +kernel⟩
  refine .cons trivial rfl (.cons trivial rfl (.cons ?_ rfl (.cons trivial rfl (.cons ?_ rfl (.cons trivial rfl (.cons trivial rfl
    (.cons trivial rfl (.cons trivial rfl (.cons trivial rfl (.cons trivial rfl (.cons trivial rfl (.nil _))))))))))))
  · intro c d hc hd
    cases hc; cases hd
    exact ⟨rfl, by decide⟩
  · intro d hd
    cases hd
    decide

end Verif.Sim.Own
