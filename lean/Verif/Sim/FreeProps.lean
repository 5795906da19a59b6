import Verif.Sim.FreeLemmas

/-!
C155: a simulator in which every sink may do everything.

Vocabulary: `execF I P u n` is the state of a new simulator after `n` steps of the user's program `u`, where the sinks of events and the
sinks of the simulator's own begin, run, pause and end events, and the destructors of the sinks of events, do what `P` says: schedule,
cancel, pause, call `Run`, `RunUntil` and `RunFor`, with or without catching exceptions, and throw.  The first component of the state are the calls under way (none: the program has
ended, perhaps by an exception that nobody caught), the second component is the simulator with its scheduler.  In the trace, `fire` is the
call of the sink of an event, and `begin`, `run`, `pause` and `finish` are the calls of the sinks of the simulator's own events.
-/
set_option linter.unusedVariables false
namespace Verif.Sim
section
variable {σ C : Type}

/-- If sinks of events catch the exceptions of runs, and the sinks of the simulator's own events neither run the simulator nor throw, and
destructors do nothing, then all that happens is what happens in C137, and the program ends in the same state. -/
theorem C155_agrees (I : Impl C) (P : NProg σ) (os : List (Op σ)) (n : Nat) :
    ∃ m, (execF I P.free (scriptOf (os.map Op.free)) m).2 = (execN I P os n).2 ∧
      ((execN I P os n).1 = [] → (execF I P.free (scriptOf (os.map Op.free)) m).1 = []) := by
  obtain ⟨gs, ⟨m, a⟩, b⟩ := exec_free (I := I) P os n
  refine ⟨m, ?_, fun e => ?_⟩
  · exact congrArg Prod.snd a
  · rw [e] at b
    cases b
    exact congrArg Prod.fst a

/-- With a heap scheduler, whatever the sinks and their destructors do and at any moment: the sink of an event is called at most once; no
sink is called after its event was cancelled; each event that was scheduled is still in the scheduler, or its sink has been called, or it
was cancelled; the sink of an event in the scheduler has not been called; and a sink is called when the clock shows the time its event was
scheduled for. -/
theorem C155_heap_partial (A : HeapAlg) (P : FProg σ) (u : Script σ) (n : Nat) :
    let w := (execF (heapImpl A) P u n).2
    (∀ id, (w.view.trace.filter fun e => match e.2 with | .fire i _ => i == id | _ => false).length ≤ 1) ∧
    (w.view.trace.Pairwise fun a b => ∀ id t, b.2 = .fire id t → a.2 ≠ .cancel id) ∧
    (∀ m id t, (m, Entry.sched id t) ∈ w.view.trace → (⟨t, id⟩ : Key) ∈ w.queue ∨ (∃ m t, (m, .fire id t) ∈ w.view.trace) ∨
      ∃ m, (m, .cancel id) ∈ w.view.trace) ∧
    (∀ k ∈ w.queue, ∀ m t, (m, Entry.fire k.id t) ∉ w.view.trace) ∧
    (∀ m id t, (m, Entry.fire id t) ∈ w.view.trace → m = t ∧ ∃ m', (m', .sched id t) ∈ w.view.trace) := by
  have h := execF_keeps A P u n
  have j := h.1.2
  refine ⟨fun id => ?_, j.order, ?_, ?_, fun m id t hm => h.2.time _ hm id t rfl⟩
  · refine Nat.le_trans (Nat.le_of_eq (congrArg _ (List.filter_congr ?_))) (j.once id)
    intro e _
    rcases e with ⟨m, e⟩
    cases e <;> rfl
  · intro m id t hm
    obtain ⟨h, e1, e2⟩ := (j.known _ hm).1 id t rfl
    rcases j.kept id h e1 with x | x | x
    · rw [e2] at x; exact .inl x
    · exact .inr (.inl (hit_fire x))
    · exact .inr (.inr x)
  · intro k hk m t hm
    have := j.fresh k hk _ hm
    simp [isFireOf] at this

/-- Whenever the heap is empty, the sink of each event that was not cancelled has been called exactly once: no exception loses an event. -/
theorem C155_completed (A : HeapAlg) (P : FProg σ) (u : Script σ) (n : Nat) :
    let w := (execF (heapImpl A) P u n).2
    w.queue = [] → ∀ m id t, (m, Entry.sched id t) ∈ w.view.trace → (∀ m, (m, Entry.cancel id) ∉ w.view.trace) →
      (w.view.trace.filter fun e => match e.2 with | .fire i _ => i == id | _ => false).length = 1 := by
  intro w hq m id t hm hc
  obtain ⟨h1, -, h3, -, -⟩ := C155_heap_partial A P u n
  refine lone (h1 id) ?_
  rcases h3 m id t hm with x | ⟨n, t', x⟩ | ⟨n, x⟩
  · have hq' : (execF (heapImpl A) P u n).2.queue = [] := hq
    rw [hq'] at x; cases x
  · exact ⟨_, x, by simp⟩
  · exact absurd x (hc n)

/-- With any scheduler: the begin event is fired at most once; and whenever the run event was fired, or the sink of an event was called,
the begin event had been fired before. -/
theorem C155_begin (I : Impl C) (P : FProg σ) (u : Script σ) (n : Nat) :
    let tr := (execF I P u n).2.view.trace
    (tr.filter fun e => e.2 == .begin).length ≤ 1 ∧
    ∀ l m e r, tr = l ++ (m, e) :: r → (e = .run ∨ ∃ id t, e = .fire id t) → ∃ m', (m', Entry.begin) ∈ l := by
  intro tr
  have h := (execF_begin I P u n).begun
  refine ⟨?_, ?_⟩
  · have := h.count
    rw [show (tr.filter fun e => e.2 == .begin).length = _ from this]
    split <;> omega
  · intro l m e r e1 he
    have lt : e.late = true := by
      rcases he with rfl | ⟨id, t, rfl⟩ <;> rfl
    have hs : (execF I P u n).2.view.started = true := by
      cases hs : (execF I P u n).2.view.started with
      | true => rfl
      | false =>
        have := h.still hs (m, e) (by rw [show (execF I P u n).2.view.trace = _ from e1]; simp)
        rw [show (m, e).2.late = e.late from rfl, lt] at this; cases this
    have hc := h.count
    rw [hs, if_pos rfl] at hc
    obtain ⟨x, hx⟩ : ∃ x, x ∈ tr.filter fun e => e.2 == .begin := by
      cases hf : tr.filter fun e => e.2 == .begin with
      | nil => rw [show (execF I P u n).2.view.trace = tr from rfl, hf] at hc; cases hc
      | cons x xs => exact ⟨x, List.mem_cons_self⟩
    obtain ⟨xm, xe⟩ := List.mem_filter.mp hx
    obtain ⟨x1, x2⟩ := x
    have xe' : x2 = Entry.begin := by simpa using xe
    subst xe'
    rw [e1] at xm
    rcases List.mem_append.mp xm with m1 | m1
    · exact ⟨_, m1⟩
    · rcases List.mem_cons.mp m1 with m2 | m2
      · cases m2; cases lt
      · have p := h.first
        rw [show (execF I P u n).2.view.trace = _ from e1] at p
        have := (List.pairwise_cons.mp (List.pairwise_append.mp p).2.1).1 _ m2 rfl
        rw [show ((m, e) : Int × Entry).2.late = e.late from rfl, lt] at this; cases this

/-- The next operation does not run the simulator to a time in the past. -/
def AheadF (s : FState σ C) : Prop :=
  match s.1 with
  | .body _ sc n :: _ =>
    match sc n s.2.view with
    | some (.run _ (some t)) => s.2.view.now ≤ t
    | some (.runFor _ dt) => 0 ≤ dt
    | _ => True
  | _ => True

/-- The next operation does not run the simulator while the begin event is being fired. -/
def QuietF (s : FState σ C) : Prop :=
  match s.1 with
  | .body _ sc n :: fs =>
    match sc n s.2.view with
    | some (.run _ _) => ∀ f ∈ fs, ¬ f.isMid
    | some (.runFor _ _) => ∀ f ∈ fs, ¬ f.isMid
    | _ => True
  | _ => True

/-- If the next operation is an exception, or a run that is refused, the exception is caught before it leaves a run, or by a function
that no run has called, or not at all. -/
def SafeF (I : Impl C) (s : FState σ C) : Prop :=
  match s.1 with
  | .body _ sc n :: fs =>
    match sc n s.2.view with
    | some (.run c _) => s.2.wired = false ∨ I.size s.2.queue = 0 → Safe (guarded c fs)
    | some (.runFor c _) => s.2.wired = false ∨ I.size s.2.queue = 0 → Safe (guarded c fs)
    | some .throw => Safe fs
    | _ => True
  | _ => True

theorem forwardF_of {I : Impl C} {s : FState σ C} (h1 : AheadF s) (h2 : QuietF s) (h3 : SafeF I s) : ForwardF I s := by
  unfold ForwardF CalmRun
  unfold AheadF at h1
  unfold QuietF at h2
  unfold SafeF at h3
  cases h : s.1 with
  | nil => trivial
  | cons f fs =>
    rw [h] at h1 h2 h3
    cases f with
    | body who sc n =>
      dsimp only at h1 h2 h3 ⊢
      cases ho : sc n s.2.view with
      | none => trivial
      | some o =>
        rw [ho] at h1 h2 h3
        cases o with
        | act a => trivial
        | throw => exact h3
        | runFor c dt => exact ⟨h1, h2, h3⟩
        | run c t =>
          refine ⟨?_, h2, h3⟩
          intro t' e
          subst e
          exact h1
    | mid t => trivial
    | loop t => trivial
    | last => trivial
    | guard => trivial
    | cancelled id => trivial
    | fired k => trivial
    | dead => trivial

/-- With a heap scheduler: if nobody asks for a time in the past, the simulator is not run by the sinks of its begin event, and no sink
called by a run catches an exception that has left another run, then the clock does not go back, neither from one step to a later one nor
in the trace; and no event in the scheduler is overdue. -/
theorem C155_clock_partial (A : HeapAlg) (P : FProg σ) (u : Script σ) (n : Nat)
    (h1 : ∀ m, m < n → AheadF (execF (heapImpl A) P u m)) (h2 : ∀ m, m < n → QuietF (execF (heapImpl A) P u m))
    (h3 : ∀ m, m < n → SafeF (heapImpl A) (execF (heapImpl A) P u m)) :
    (∀ m, m ≤ n → (execF (heapImpl A) P u m).2.view.now ≤ (execF (heapImpl A) P u n).2.view.now) ∧
    ((execF (heapImpl A) P u n).2.view.trace.Pairwise fun a b => a.1 ≤ b.1) ∧
    (∀ k ∈ (execF (heapImpl A) P u n).2.queue, (execF (heapImpl A) P u n).2.view.now ≤ k.t) := by
  obtain ⟨x, y⟩ := execF_clock A P u n (fun m hm => forwardF_of (h1 m hm) (h2 m hm) (h3 m hm))
  exact ⟨y, x.clock.2.1.mono, x.clock.2.1.ahead⟩

/-! ### Concrete programs -/

/-- A sink numbered `s` runs the simulator (0), runs it and catches the exceptions (1), throws (2), schedules itself later and runs the
simulator for two units (3), or does nothing. -/
def jumble : Nat → List (FOp Nat)
  | 0 => [.run false none]
  | 1 => [.run true none]
  | 2 => [.throw]
  | 3 => [.act (.in 4 (some 5)), .runFor true 2, .act (.in 1 (some 2))]
  | _ => []

/-- Its own events: as `own` says. -/
def jumbled (own : Entry → List (FOp Nat)) : FProg Nat := ⟨fun s _ => scriptOf (jumble s), fun e _ => scriptOf (own e), fun _ _ _ => scriptOf []⟩

instance : ∀ f : FFrame σ, Decidable f.isMid := fun f => by cases f <;> unfold FFrame.isMid <;> infer_instance

instance : ∀ f : FFrame σ, Decidable f.isBody := fun f => by cases f <;> unfold FFrame.isBody <;> infer_instance

instance decSafe : ∀ fs : List (FFrame σ), Decidable (Safe fs)
  | [] => .isTrue trivial
  | .guard :: _ => .isTrue trivial
  | .body _ _ _ :: fs => decSafe fs
  | .last :: fs => decSafe fs
  | .mid _ :: fs => inferInstanceAs (Decidable (∀ f ∈ unwind fs, f.isBody))
  | .loop _ :: fs => inferInstanceAs (Decidable (∀ f ∈ unwind fs, f.isBody))
  | .cancelled _ :: _ => .isTrue trivial
  | .fired _ :: _ => .isTrue trivial
  | .dead :: _ => .isTrue trivial

instance (s : FState σ C) : Decidable (AheadF s) := by
  unfold AheadF; split
  · split <;> infer_instance
  · infer_instance

instance (s : FState σ C) : Decidable (QuietF s) := by
  unfold QuietF; split
  · split <;> infer_instance
  · infer_instance

instance (I : Impl C) (s : FState σ C) : Decidable (SafeF I s) := by
  unfold SafeF; split
  · split <;> infer_instance
  · infer_instance

/-- The clock goes back when a sink runs the simulator and catches the exception that ends that run: nobody asks for a time in the past,
and no run is started while the begin event is being fired. -/
theorem C155_clock_throw_fails : ∃ (P : FProg Nat) (u : Script Nat) (m n : Nat), m ≤ n ∧
    (∀ m, m < n → AheadF (execF (heapImpl sortAlg) P u m)) ∧ (∀ m, m < n → QuietF (execF (heapImpl sortAlg) P u m)) ∧
    (execF (heapImpl sortAlg) P u n).2.view.now < (execF (heapImpl sortAlg) P u m).2.view.now :=
  ⟨jumbled fun _ => [], scriptOf [.act (.at 3 (some 1)), .act (.at 9 (some 2)), .run true (some 5)], 12, 20,
    by decide, by decide, by decide, by decide⟩

/-- The clock goes back when a sink of the begin event runs the simulator: nobody asks for a time in the past, and nothing is thrown. -/
theorem C155_clock_begin_fails : ∃ (P : FProg Nat) (u : Script Nat) (m n : Nat), m ≤ n ∧
    (∀ m, m < n → AheadF (execF (heapImpl sortAlg) P u m)) ∧
    (∀ m, m < n → SafeF (heapImpl sortAlg) (execF (heapImpl sortAlg) P u m)) ∧
    (execF (heapImpl sortAlg) P u n).2.view.now < (execF (heapImpl sortAlg) P u m).2.view.now :=
  ⟨jumbled fun e => if e = .begin then [.run false none] else [], scriptOf [.act (.at 9 (some 7)), .run true (some 5)], 12, 20,
    by decide, by decide, by decide, by decide⟩

/-- A program for the examples: the sinks of the pause event run the simulator, and let the exception escape when that is refused. -/
def jumbler : Script Nat := scriptOf [.act (.at 3 (some 0)), .act (.at 5 (some 7)), .act (.at 8 (some 2)), .act (.at 10 (some 7)),
  .run true none, .act (.at 12 (some 7)), .run true none]

example : (execF (heapImpl sortAlg) (jumbled fun e => if e = .pause then [.run false none] else []) jumbler 60).2.view.trace =
    [(0, .sched 0 3), (0, .sched 1 5), (0, .sched 2 8), (0, .sched 3 10), (0, .begin), (0, .run), (3, .fire 0 3), (3, .run), (5, .fire 1 5),
     (5, .done 1), (8, .fire 2 8), (8, .sched 4 12), (8, .run), (10, .fire 3 10), (10, .done 3), (12, .fire 4 12), (12, .done 4),
     (12, .pause)] := by decide

/-! It meets the hypotheses of `C155_clock_partial`, and ends with the heap empty, as `C155_completed` asks for. -/
example : let s := fun m => execF (heapImpl sortAlg) (jumbled fun e => if e = .pause then [.run false none] else []) jumbler m
    (∀ m, m < 60 → AheadF (s m)) ∧ (∀ m, m < 60 → QuietF (s m)) ∧ (∀ m, m < 60 → SafeF (heapImpl sortAlg) (s m)) ∧
      (s 60).1.length = 0 ∧ (s 60).2.queue = [] := by
  refine ⟨by decide, by decide, by decide, by decide, by decide⟩

end
end Verif.Sim
