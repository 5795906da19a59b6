import Verif.Sim.WordLemmas
import Verif.Sim.Props

/-!
Property C142: simulated time in 64 bits.

Vocabulary: `World.execsW I P fuel (World.init I) os` is a history as in `Verif.Sim.Props`, but the
sums of `ScheduleIn` and `RunFor` are sums of 64-bit counts.  `World.execs` is the same history over
the integers.
-/
set_option linter.unusedVariables false
namespace Verif.Sim

open Verif.Chrono (i64Min i64Max I64)

section
variable {σ C : Type}

/-- `ScheduleIn` with a non-negative delay never schedules at a wrong time: the event is scheduled
exactly at the current time plus the delay, or that time is beyond the range and the call throws. -/
theorem C142_scheduleIn (I : Impl C) (w : World σ C) (dt : Int) (s : σ) (hc : w.clocked = true)
    (hn : I64 w.view.now) (hd : I64 dt) (h0 : 0 ≤ dt) :
    (w.view.now + dt ≤ i64Max →
      ∃ w', w.scheduleInW I dt (some s) = .ok (w.view.handles.length, w') ∧
        w'.queue = I.insert ⟨w.view.now + dt, w.view.handles.length⟩ w.queue ∧
        w'.view.handles = w.view.handles ++ [⟨w.view.now + dt, some s, false⟩]) ∧
    (i64Max < w.view.now + dt → w.scheduleInW I dt (some s) = .error .invalidArgument) := by
  unfold World.scheduleInW World.scheduleAt
  simp only [hc, Bool.not_true, Bool.false_eq_true, if_false]
  unfold I64 i64Min i64Max at *
  have hw := wadd_cases (a := w.view.now) (b := dt) (by unfold I64 i64Min i64Max; omega)
    (by unfold I64 i64Min i64Max; omega)
  unfold I64 i64Min i64Max at hw
  constructor
  · intro h
    have e : wadd w.view.now dt = w.view.now + dt := by omega
    rw [e, if_neg (by omega)]
    exact ⟨_, rfl, rfl, rfl⟩
  · intro h
    rw [if_pos (by omega)]

/-- With a negative delay it throws, except when the sum is below the range: then an event is
scheduled 2^64 ticks too late. -/
theorem C142_scheduleIn_negative (I : Impl C) (w : World σ C) (dt : Int) (s : σ) (hc : w.clocked = true)
    (hn : I64 w.view.now) (hd : I64 dt) (h0 : dt < 0) :
    (i64Min ≤ w.view.now + dt → w.scheduleInW I dt (some s) = .error .invalidArgument) ∧
    (w.view.now + dt < i64Min →
      ∃ w', w.scheduleInW I dt (some s) = .ok (w.view.handles.length, w') ∧
        w'.queue = I.insert ⟨w.view.now + dt + 2 ^ 64, w.view.handles.length⟩ w.queue) := by
  unfold World.scheduleInW World.scheduleAt
  simp only [hc, Bool.not_true, Bool.false_eq_true, if_false]
  unfold I64 i64Min i64Max at *
  have hw := wadd_cases (a := w.view.now) (b := dt) (by unfold I64 i64Min i64Max; omega)
    (by unfold I64 i64Min i64Max; omega)
  unfold I64 i64Min i64Max at hw
  constructor
  · intro h
    rw [if_pos (by omega)]
  · intro h
    have e : wadd w.view.now dt = w.view.now + dt + 2 ^ 64 := by omega
    rw [e, if_neg (by omega)]
    exact ⟨_, rfl, rfl⟩

/-- All times stay in range: whatever the program does, if the time points it names are counts of 64
bits, then so are the clock, the times of all events and all moments of the history. -/
theorem range {I : Impl C} (F : Refine I) (P : Prog σ) (fuel : Nat) (os : List (Op σ))
    (hP : P.Typed) (ho : ∀ o ∈ os, o.typed) :
    let v := (World.execsW I P fuel (World.init I) os).1.view
    I64 v.now ∧ (∀ h ∈ v.handles, I64 h.t) ∧ ∀ e ∈ v.trace, I64 e.1 := by
  have h0 : Ranged (World.init specImpl : World σ (List Key)) :=
    ⟨by simp only [World.init]; decide, by simp [World.init, specImpl], by simp [World.init], by simp [World.init]⟩
  have h1 := rel_execs F P.word fuel (World.words I P fuel (World.init I) os) (rel_init (σ := σ) F).1
    (rel_init (σ := σ) F).2
  have h2 := ranged_execs (lit_word hP) fuel (World.words I P fuel (World.init I) os) _ h0
    (lit_words (P := P) I fuel os (World.init I) ho)
  dsimp only
  rw [execsW_word, h1.1.view]
  exact ⟨h2.now, h2.handles, h2.trace⟩

theorem C142_range_heap (A : HeapAlg) (P : Prog σ) (fuel : Nat) (os : List (Op σ))
    (hP : P.Typed) (ho : ∀ o ∈ os, o.typed) :
    let v := (World.execsW (heapImpl A) P fuel (World.init (heapImpl A)) os).1.view
    I64 v.now ∧ (∀ h ∈ v.handles, I64 h.t) ∧ ∀ e ∈ v.trace, I64 e.1 :=
  range (heapRefine A) P fuel os hP ho

theorem C142_range_list (P : Prog σ) (fuel : Nat) (os : List (Op σ))
    (hP : P.Typed) (ho : ∀ o ∈ os, o.typed) :
    let v := (World.execsW listImpl P fuel (World.init listImpl) os).1.view
    I64 v.now ∧ (∀ h ∈ v.handles, I64 h.t) ∧ ∀ e ∈ v.trace, I64 e.1 :=
  range listRefine P fuel os hP ho

theorem C142_range_set (P : Prog σ) (fuel : Nat) (os : List (Op σ))
    (hP : P.Typed) (ho : ∀ o ∈ os, o.typed) :
    let v := (World.execsW setImpl P fuel (World.init setImpl) os).1.view
    I64 v.now ∧ (∀ h ∈ v.handles, I64 h.t) ∧ ∀ e ∈ v.trace, I64 e.1 :=
  range setRefine P fuel os hP ho

/-- The 64-bit simulation is the simulation over the integers, with any scheduler, as long as no delay
exceeds `D` and the latter simulation stays `D` away from the ends of the range at every moment. -/
theorem C142_exact_partial (I : Impl C) (P : Prog σ) (fuel : Nat) (os : List (Op σ)) (D : Int)
    (hD : D ≤ i64Max) (hP : P.Within D) (ho : ∀ o ∈ os, o.within D)
    (hr : ∀ e ∈ (World.execs I P fuel (World.init I) os).1.view.trace, i64Min + D ≤ e.1 ∧ e.1 ≤ i64Max - D) :
    World.execsW I P fuel (World.init I) os = World.execs I P fuel (World.init I) os :=
  execsW_eq I hP fuel ⟨by unfold i64Min i64Max at *; omega, by unfold i64Max at *; omega⟩ os _ ho
    (.inl rfl) hr

/-- In 64 bits, too, the three schedulers are interchangeable, even when sums overflow. -/
theorem C142_interchangeable (A : HeapAlg) (P : Prog σ) (fuel : Nat) (os : List (Op σ)) :
    let l := World.execsW listImpl P fuel (World.init listImpl) os
    let s := World.execsW setImpl P fuel (World.init setImpl) os
    let h := World.execsW (heapImpl A) P fuel (World.init (heapImpl A)) os
    (l.1.view = s.1.view ∧ l.2 = s.2 ∧ listImpl.front l.1.queue = setImpl.front s.1.queue) ∧
    (l.1.view = h.1.view ∧ l.2 = h.2 ∧
      listImpl.front l.1.queue = (heapImpl A).front h.1.queue) := by
  have e1 := words_eq listRefine P fuel os (rel_init (σ := σ) listRefine).1 (rel_init (σ := σ) listRefine).2
  have e2 := words_eq setRefine P fuel os (rel_init (σ := σ) setRefine).1 (rel_init (σ := σ) setRefine).2
  have e3 := words_eq (heapRefine A) P fuel os (rel_init (σ := σ) (heapRefine A)).1
    (rel_init (σ := σ) (heapRefine A)).2
  simp only [execsW_word, e1, e2, e3]
  exact C22_interchangeable A P.word fuel _

/-- In 64 bits, too, no event is fired twice or after it was cancelled, and when no event is left each
event that was not cancelled was fired exactly once, even when sums overflow. -/
theorem C142_exactly_once (A : HeapAlg) (P : Prog σ) (fuel : Nat) (os : List (Op σ)) :
    let w := (World.execsW (heapImpl A) P fuel (World.init (heapImpl A)) os).1
    (∀ id, (w.view.trace.filter (isFire id)).length ≤ 1) ∧
    (∀ pre n id t post, w.view.trace = pre ++ (n, .fire id t) :: post →
      ∀ m, (m, Entry.cancel id) ∉ pre) ∧
    ((heapImpl A).front w.queue = none → ∀ m id t, (m, Entry.sched id t) ∈ w.view.trace →
      (∀ n, (n, Entry.cancel id) ∉ w.view.trace) →
      (w.view.trace.filter (isFire id)).length = 1) := by
  dsimp only; rw [execsW_word]
  exact C25_exactly_once A P.word fuel _

theorem C142_exactly_once_list (P : Prog σ) (fuel : Nat) (os : List (Op σ)) :
    let w := (World.execsW listImpl P fuel (World.init listImpl) os).1
    (∀ id, (w.view.trace.filter (isFire id)).length ≤ 1) ∧
    (∀ pre n id t post, w.view.trace = pre ++ (n, .fire id t) :: post →
      ∀ m, (m, Entry.cancel id) ∉ pre) ∧
    (listImpl.front w.queue = none → ∀ m id t, (m, Entry.sched id t) ∈ w.view.trace →
      (∀ n, (n, Entry.cancel id) ∉ w.view.trace) →
      (w.view.trace.filter (isFire id)).length = 1) := by
  dsimp only; rw [execsW_word]
  exact C25_exactly_once_list P.word fuel _

theorem C142_exactly_once_set (P : Prog σ) (fuel : Nat) (os : List (Op σ)) :
    let w := (World.execsW setImpl P fuel (World.init setImpl) os).1
    (∀ id, (w.view.trace.filter (isFire id)).length ≤ 1) ∧
    (∀ pre n id t post, w.view.trace = pre ++ (n, .fire id t) :: post →
      ∀ m, (m, Entry.cancel id) ∉ pre) ∧
    (setImpl.front w.queue = none → ∀ m id t, (m, Entry.sched id t) ∈ w.view.trace →
      (∀ n, (n, Entry.cancel id) ∉ w.view.trace) →
      (w.view.trace.filter (isFire id)).length = 1) := by
  dsimp only; rw [execsW_word]
  exact C25_exactly_once_set P.word fuel _

/-- The user does not run the simulator into the past: no `RunUntil` to an earlier time, no `RunFor` a
negative time or beyond the range. -/
def ForwardW (I : Impl C) (P : Prog σ) (fuel : Nat) : World σ C → List (Op σ) → Prop
  | _, [] => True
  | w, o :: os =>
    (match o with
      | .runUntil t => w.view.now ≤ t
      | .runFor dt => 0 ≤ dt ∧ I64 (w.view.now + dt)
      | _ => True) ∧ ForwardW I P fuel (w.execW I P fuel o).1 os

theorem forward_words (I : Impl C) (P : Prog σ) (fuel : Nat) (os : List (Op σ)) : ∀ w : World σ C,
    ForwardW I P fuel w os → Forward I P.word fuel w (World.words I P fuel w os) := by
  induction os with
  | nil => intro w _; trivial
  | cons o os ih =>
    intro w h
    obtain ⟨h1, h2⟩ := h
    refine ⟨?_, ?_⟩
    · cases o with
      | act a => trivial
      | run => trivial
      | runUntil t => exact h1
      | runFor dt =>
        show w.view.now ≤ wadd w.view.now dt
        rw [wadd_exact h1.2]; have := h1.1; omega
    · rw [← execW_word]; exact ih _ h2

/-- In 64 bits, too, events are fired in the order of their times and in scheduling order for equal
times: what `ScheduleIn` does on overflow never breaks the order. -/
theorem C142_order (A : HeapAlg) (P : Prog σ) (fuel : Nat) (os : List (Op σ))
    (hf : ForwardW (heapImpl A) P fuel (World.init (heapImpl A) : World σ _) os) :
    (fires (World.execsW (heapImpl A) P fuel (World.init (heapImpl A)) os).1.view.trace).Pairwise
      (fun a b => a.t < b.t ∨ (a.t = b.t ∧ a.id < b.id)) := by
  rw [execsW_word]
  exact fired_sorted (heapRefine A) P.word fuel _ (forward_words _ P fuel os _ hf)

theorem C142_order_list (P : Prog σ) (fuel : Nat) (os : List (Op σ))
    (hf : ForwardW listImpl P fuel (World.init listImpl : World σ _) os) :
    (fires (World.execsW listImpl P fuel (World.init listImpl) os).1.view.trace).Pairwise
      (fun a b => a.t < b.t ∨ (a.t = b.t ∧ a.id < b.id)) := by
  rw [execsW_word]
  exact fired_sorted listRefine P.word fuel _ (forward_words _ P fuel os _ hf)

theorem C142_order_set (P : Prog σ) (fuel : Nat) (os : List (Op σ))
    (hf : ForwardW setImpl P fuel (World.init setImpl : World σ _) os) :
    (fires (World.execsW setImpl P fuel (World.init setImpl) os).1.view.trace).Pairwise
      (fun a b => a.t < b.t ∨ (a.t = b.t ∧ a.id < b.id)) := by
  rw [execsW_word]
  exact fired_sorted setRefine P.word fuel _ (forward_words _ P fuel os _ hf)

/-- `RunFor` with a positive duration can move the clock backwards: asking for the longest duration
after the clock has moved takes it to the far past, with an event left that was due. -/
theorem C142_runFor_fails : ∃ (os : List (Op Nat)) (dt : Int), 0 < dt ∧ I64 dt ∧
    let w := (World.execsW listImpl demo 9 (World.init listImpl) os).1
    let w' := (World.execW listImpl demo 9 w (.runFor dt)).1
    w.view.now = 5 ∧ w'.view.now = i64Min + 4 ∧ listImpl.front w'.queue = some ⟨7, 1⟩ :=
  ⟨[.act (.at 5 (some 0)), .act (.at 7 (some 0)), .runUntil 5], i64Max, by decide, by decide, by decide⟩

/-- `ScheduleIn` with a negative delay can succeed, with an event in the far future. -/
theorem C142_scheduleIn_fails : ∃ (os : List (Op Nat)) (dt : Int), dt < 0 ∧ I64 dt ∧
    let w := (World.execsW listImpl demo 9 (World.init listImpl) os).1
    let w' := w.performW listImpl (.in dt (some 0))
    w.view.now = -5 ∧ w'.view.trace = w.view.trace ++ [(-5, .sched 1 (i64Max - 4))] :=
  ⟨[.act (.at 7 (some 0)), .runUntil (-5)], i64Min, by decide, by decide, by decide⟩

end

/-! ### The hypotheses are met -/

theorem demo_within : demo.Within 5 := by
  refine ⟨?_, ?_, ?_, ?_, ?_⟩
  · intro s v a ha
    simp only [demo] at ha
    split at ha <;> simp at ha
    · rcases ha with rfl | rfl | rfl <;> simp [Action.within]
    · subst ha; simp [Action.within]
    · subst ha; simp [Action.within]
    · subst ha; simp [Action.within]
  all_goals intro v a ha; simp [demo] at ha

theorem demo_typed : demo.Typed := by
  refine ⟨?_, ?_, ?_, ?_, ?_⟩
  · intro s v a ha
    simp only [demo] at ha
    split at ha <;> simp at ha
    · rcases ha with rfl | rfl | rfl <;> simp [Action.typed]
    · subst ha; simp [Action.typed]
    · subst ha; simp [Action.typed]
    · subst ha; simp [Action.typed]
  all_goals intro v a ha; simp [demo] at ha

/-- A history with events, delays and a run near the end of the range. -/
def late : List (Op Nat) :=
  [.act (.at (i64Max - 12) (some 1)), .act (.at 4 (some 1)), .act (.in 3 (some 2)), .runFor 5, .run]

example : ∀ o ∈ late, o.typed := by
  intro o ho; simp only [late, List.mem_cons, List.not_mem_nil, or_false] at ho
  rcases ho with rfl | rfl | rfl | rfl | rfl <;> first | trivial | (show I64 _; decide)

example : ∀ o ∈ late, o.within 5 := by
  intro o ho; simp only [late, List.mem_cons, List.not_mem_nil, or_false] at ho
  rcases ho with rfl | rfl | rfl | rfl | rfl <;> simp [Op.within, Action.within]

example : (World.execs (heapImpl sortAlg) demo 9 (World.init (heapImpl sortAlg)) late).1.view.now = i64Max - 7 ∧
    ((World.execs (heapImpl sortAlg) demo 9 (World.init (heapImpl sortAlg)) late).1.view.trace.all
      fun e => decide (i64Min + 5 ≤ e.1) && decide (e.1 ≤ i64Max - 5)) = true := by decide

example : ForwardW (heapImpl sortAlg) demo 9 (World.init (heapImpl sortAlg)) late := by
  refine ⟨trivial, trivial, trivial, ⟨by decide, by decide⟩, trivial, trivial⟩

end Verif.Sim
