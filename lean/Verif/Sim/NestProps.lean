import Verif.Sim.NestLemmas

/-!
C137: sinks that run the simulator.

Vocabulary: `execN I P os n` is the state of a new simulator after `n` steps of the user's program `os`, where the sinks of `P` may call
`Run`, `RunUntil` and `RunFor` as the user does.  Its first component are the calls under way (none: the program has ended), its second
component is the simulator with its scheduler.  In the trace, `fire` is the call of a sink and `done` is its return.
-/
set_option linter.unusedVariables false
namespace Verif.Sim
section
variable {σ : Type}

/-- If no sink runs the simulator, a history that ends is what it is in C21-C33. -/
theorem C137_agrees {C : Type} (I : Impl C) (P : Prog σ) (fuel : Nat) (os : List (Op σ))
    (h : (World.execs I P fuel (World.init I) os).2 = true) :
    ∃ n, execN I (NProg.flat P) os n = ([], (World.execs I P fuel (World.init I) os).1) := by
  have := execs_flat P fuel os (World.init I) (World.execs I P fuel (World.init I) os).1 (Prod.ext rfl h)
  exact this

/-- With a heap scheduler, whatever the sinks run and at any moment: the sink of an event is called at most once; no sink is called after
its event was cancelled; each event that was scheduled is still in the scheduler, or its sink has been called, or it was cancelled; the
sink of an event in the scheduler has not been called; and a sink is called when the clock shows the time its event was scheduled for. -/
theorem C137_heap_partial (A : HeapAlg) (P : NProg σ) (os : List (Op σ)) (n : Nat) :
    let w := (execN (heapImpl A) P os n).2
    (∀ id, (w.view.trace.filter fun e => match e.2 with | .fire i _ => i == id | _ => false).length ≤ 1) ∧
    (w.view.trace.Pairwise fun a b => ∀ id t, b.2 = .fire id t → a.2 ≠ .cancel id) ∧
    (∀ m id t, (m, Entry.sched id t) ∈ w.view.trace → (⟨t, id⟩ : Key) ∈ w.queue ∨ (∃ m t, (m, .fire id t) ∈ w.view.trace) ∨
      ∃ m, (m, .cancel id) ∈ w.view.trace) ∧
    (∀ k ∈ w.queue, ∀ m t, (m, Entry.fire k.id t) ∉ w.view.trace) ∧
    (∀ m id t, (m, Entry.fire id t) ∈ w.view.trace → m = t ∧ ∃ m', (m', .sched id t) ∈ w.view.trace) := by
  have h := execN_keeps A P os n
  have j := h.1.2
  refine ⟨fun id => ?_, j.order, ?_, ?_, fun m id t hm => h.2.time _ hm id t rfl⟩
  · refine Nat.le_trans (Nat.le_of_eq (congrArg _ (List.filter_congr ?_))) (j.once id)
    intro e _
    rcases e with ⟨m, e⟩
    cases e <;> rfl
  · intro m id t hm
    obtain ⟨h, e1, e2⟩ := (j.known _ hm).1 id t rfl
    rcases j.kept id h e1 with x | x | x
    · rw [e2] at x; exact .inl x
    · exact .inr (.inl (hit_fire x))
    · exact .inr (.inr x)
  · intro k hk m t hm
    have := j.fresh k hk _ hm
    simp [isFireOf] at this

/-- When the program has ended and the heap is empty, the sink of each event that was not cancelled has been called exactly once. -/
theorem C137_completed (A : HeapAlg) (P : NProg σ) (os : List (Op σ)) (n : Nat) :
    let w := (execN (heapImpl A) P os n).2
    w.queue = [] → ∀ m id t, (m, Entry.sched id t) ∈ w.view.trace → (∀ m, (m, Entry.cancel id) ∉ w.view.trace) →
      (w.view.trace.filter fun e => match e.2 with | .fire i _ => i == id | _ => false).length = 1 := by
  intro w hq m id t hm hc
  obtain ⟨h1, -, h3, -, -⟩ := C137_heap_partial A P os n
  refine lone (h1 id) ?_
  rcases h3 m id t hm with x | ⟨n, t', x⟩ | ⟨n, x⟩
  · have hq' : (execN (heapImpl A) P os n).2.queue = [] := hq
    rw [hq'] at x; cases x
  · exact ⟨_, x, by simp⟩
  · exact absurd x (hc n)

/-- With a heap scheduler, if neither the user nor a sink ever asks for a time in the past, the clock does not go back, neither from one
step to a later one nor in the trace; and no event in the scheduler is overdue. -/
theorem C137_clock (A : HeapAlg) (P : NProg σ) (os : List (Op σ)) (n : Nat)
    (hf : ∀ m, m < n → ForwardN (execN (heapImpl A) P os m)) :
    (∀ m, m ≤ n → (execN (heapImpl A) P os m).2.view.now ≤ (execN (heapImpl A) P os n).2.view.now) ∧
    ((execN (heapImpl A) P os n).2.view.trace.Pairwise fun a b => a.1 ≤ b.1) ∧
    (∀ k ∈ (execN (heapImpl A) P os n).2.queue, (execN (heapImpl A) P os n).2.view.now ≤ k.t) := by
  obtain ⟨h1, -, h3⟩ := execN_clock A P os n hf
  exact ⟨h3, h1.2.1.mono, h1.2.1.ahead⟩

/-- The number of calls of sinks so far. -/
def View.calls {σ : Type} (v : View σ) : Nat := (v.trace.filter fun e => match e.2 with | .fire _ _ => true | _ => false).length

/-- Sink 0 runs the simulator and then schedules sink 2, sink 4 runs it for two units and then runs it again; the other sinks do nothing.
Only the first call of a sink does anything, and nothing happens at the simulator's own events. -/
def runner : NProg Nat where
  sink s v := if v.calls = 1 then
      (if s = 0 then [.run, .act (.at 9 (some 2))] else if s = 4 then [.runFor 2, .run] else [])
    else []
  own := ⟨fun _ _ => [], fun _ => [], fun _ => [], fun _ => [], fun _ => []⟩

/-- With the list scheduler, a sink that runs the simulator is called a second time by that run; and an event that was scheduled,
and neither fired nor cancelled, is gone. -/
theorem C137_list_fails : ∃ (P : NProg Nat) (os : List (Op Nat)) (n : Nat),
    let s := execN listImpl P os n
    s.1 = [] ∧ (s.2.view.trace.filter fun e => match e.2 with | .fire i _ => i == 0 | _ => false).length = 2 ∧
    (5, Entry.sched 1 9) ∈ s.2.view.trace ∧ (⟨9, 1⟩ : Key) ∉ s.2.queue ∧
    (∀ e ∈ s.2.view.trace, e.2 ≠ .cancel 1 ∧ ∀ t, e.2 ≠ .fire 1 t) := by
  refine ⟨runner, [.act (.at 5 (some 0)), .run], 20, ?_⟩
  have e : (execN listImpl runner [.act (.at 5 (some 0)), .run] 20).2.view.trace =
      [(0, .sched 0 5), (0, .begin), (0, .run), (5, .fire 0 5), (5, .run), (5, .fire 0 5), (5, .done 0), (5, .pause), (5, .finish),
       (5, .sched 1 9), (5, .done 0), (5, .pause), (5, .finish)] := by decide
  have l : (execN listImpl runner [.act (.at 5 (some 0)), .run] 20).1.length = 0 := by decide
  refine ⟨List.eq_nil_of_length_eq_zero l, ?_, ?_, by decide, ?_⟩
  · rw [e]; decide
  · rw [e]; decide
  · rw [e]; simp

/-- With the set scheduler, a sink that runs the simulator is called a second time by that run. -/
theorem C137_set_fails : ∃ (P : NProg Nat) (os : List (Op Nat)) (n : Nat),
    ((execN setImpl P os n).2.view.trace.filter fun e => match e.2 with | .fire i _ => i == 0 | _ => false).length = 2 :=
  ⟨runner, [.act (.at 5 (some 0)), .run], 9, by decide⟩

/-- With the heap scheduler, `Run` called by the user comes back although there is an event in the scheduler and nobody has paused the
simulator, because the end of a run in a sink is taken for a pause. -/
theorem C137_run_fails : ∃ (P : NProg Nat) (os : List (Op Nat)) (n : Nat),
    let s := execN (heapImpl sortAlg) P (os ++ [.run]) n
    s.1.length = 0 ∧ s.2.queue ≠ [] ∧ ∀ e ∈ s.2.view.trace, e.2 ≠ .pauseReq := by
  refine ⟨runner, [.act (.at 5 (some 0)), .act (.at 6 (some 1))], 20, by decide, by decide, ?_⟩
  have e : (execN (heapImpl sortAlg) runner ([.act (.at 5 (some 0)), .act (.at 6 (some 1))] ++ [.run]) 20).2.view.trace =
      [(0, .sched 0 5), (0, .sched 1 6), (0, .begin), (0, .run), (5, .fire 0 5), (5, .run), (6, .fire 1 6), (6, .done 1), (6, .pause),
       (6, .finish), (6, .sched 2 9), (6, .done 0), (6, .pause)] := by decide
  rw [e]; simp

/-! Sink 4 runs for two units, in which event 1 is fired, and then to the end.  The program ends with the heap empty, as `C137_completed`
asks for, and never asks for a time in the past, as `C137_clock` does. -/
example : (execN (heapImpl sortAlg) runner [.act (.at 5 (some 4)), .act (.at 6 (some 1)), .act (.at 8 (some 1)), .act (.at 9 (some 1)),
      .act (.cancel 3), .run] 40).2.view.trace =
    [(0, .sched 0 5), (0, .sched 1 6), (0, .sched 2 8), (0, .sched 3 9), (0, .cancel 3), (0, .begin), (0, .run), (5, .fire 0 5), (5, .run),
     (6, .fire 1 6), (6, .done 1), (7, .pause), (7, .run), (8, .fire 2 8), (8, .done 2), (9, .pause), (9, .finish), (9, .done 0),
     (9, .pause), (9, .finish)] := by decide

instance {w : World σ (List Key)} (o : Op σ) : Decidable (o.forward w) := by
  cases o <;> unfold Op.forward <;> infer_instance

instance {s : NState σ (List Key)} : Decidable (ForwardN s) := by
  unfold ForwardN; split <;> infer_instance

example : ∀ m, m < 40 → ForwardN (execN (heapImpl sortAlg) runner [.act (.at 5 (some 4)), .act (.at 6 (some 1)), .act (.at 8 (some 1)),
    .act (.at 9 (some 1)), .act (.cancel 3), .run] m) := by decide

/-- `C137_agrees` applies to the program of C21 that schedules from its sinks. -/
example : (World.execs listImpl demo 9 (World.init listImpl) [.act (.at 5 (some 0)), .run]).2 = true := by decide

end
end Verif.Sim
