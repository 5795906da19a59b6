import Verif.Sim.ThrowSch

/-!
C133: sinks that throw.

Vocabulary: `World.execsT I P fuel (World.init I) os` is a history as in `Props`, except that the sinks of `P` may throw after what they
do, which sends the exception through `FireAndRemoveNextEvent` and `Run` to the user, who catches it and goes on with the next operation.
In the trace, `fire` is the call of a sink and `done` is its return; a sink that throws does not return.
-/
set_option linter.unusedVariables false
namespace Verif.Sim
section
variable {σ : Type}

/-- If no sink throws, a history is what it is in C21-C33. -/
theorem C133_agrees {C : Type} (I : Impl C) (P : TProg σ) (fuel : Nat) (os : List (Op σ)) (hP : ∀ s v, P.throws s v = false) :
    (World.execsT I P fuel (World.init I) os).1 = (World.execs I P.prog fuel (World.init I) os).1 ∧
    ((World.execsT I P fuel (World.init I) os).2 = .ended ↔ (World.execs I P.prog fuel (World.init I) os).2 = true) ∧
    (World.execsT I P fuel (World.init I) os).2 ≠ .thrown := by
  rw [execsT_never hP]
  refine ⟨rfl, ?_, ?_⟩ <;> cases (World.execs I P.prog fuel (World.init I) os).2 <;> simp [Outcome.of]

theorem lone {α : Type} {p : α → Bool} {l : List α} (h1 : (l.filter p).length ≤ 1) (h2 : ∃ x ∈ l, p x = true) : (l.filter p).length = 1 := by
  obtain ⟨x, m, e⟩ := h2
  have : x ∈ l.filter p := List.mem_filter.mpr ⟨m, e⟩
  have := List.length_pos_of_mem this
  omega

theorem hit_done {v : View σ} {id : Nat} (h : Hit isDoneOf v id) : ∃ m, (m, Entry.done id) ∈ v.trace := by
  obtain ⟨⟨m, e⟩, he, h⟩ := h
  cases e <;> simp only [isDoneOf] at h <;> try cases h
  rename_i i
  have : i = id := by simpa using h
  subst this
  exact ⟨m, he⟩

theorem hit_fire {v : View σ} {id : Nat} (h : Hit isFireOf v id) : ∃ m t, (m, Entry.fire id t) ∈ v.trace := by
  obtain ⟨⟨m, e⟩, he, h⟩ := h
  cases e <;> simp only [isFireOf] at h <;> try cases h
  rename_i i t
  have : i = id := by simpa using h
  subst this
  exact ⟨m, t, he⟩

/-- In a history with a list or set scheduler in which sinks may throw, the sink of an event returns at most once; no sink is called after
its event was cancelled; each event that was scheduled is still in the scheduler, or its sink has returned, or it was cancelled; and the
sink of an event in the scheduler has not returned. -/
structure Returns (w : World σ (List Key)) : Prop where
  once : ∀ id, (w.view.trace.filter fun e => e.2 == .done id).length ≤ 1
  order : w.view.trace.Pairwise fun a b => ∀ id t, b.2 = .fire id t → a.2 ≠ .cancel id
  kept : ∀ m id t, (m, Entry.sched id t) ∈ w.view.trace → (⟨t, id⟩ : Key) ∈ w.queue ∨ (∃ m, (m, .done id) ∈ w.view.trace) ∨
    ∃ m, (m, .cancel id) ∈ w.view.trace
  fresh : ∀ k ∈ w.queue, ∀ m, (m, Entry.done k.id) ∉ w.view.trace

theorem returns {I : Impl (List Key)} (S : Sch I isDoneOf) (P : TProg σ) (fuel : Nat) (os : List (Op σ)) :
    Returns (World.execsT I P fuel (World.init I) os).1 := by
  have j := (S.reach P fuel os).2
  refine ⟨fun id => ?_, j.order, ?_, ?_⟩
  · refine Nat.le_trans (Nat.le_of_eq (congrArg _ (List.filter_congr ?_))) (j.once id)
    intro e _
    rcases e with ⟨m, e⟩
    cases e <;> first | rfl | (simp only [isDoneOf]; rw [Bool.eq_iff_iff]; simp)
  · intro m id t hm
    obtain ⟨h, e1, e2⟩ := (j.known _ hm).1 id t rfl
    rcases j.kept id h e1 with x | x | x
    · rw [e2] at x; exact .inl x
    · exact .inr (.inl (hit_done x))
    · exact .inr (.inr x)
  · intro k hk m hm
    have := j.fresh k hk _ hm
    simp [isDoneOf] at this

theorem C133_list_partial (P : TProg σ) (fuel : Nat) (os : List (Op σ)) : Returns (World.execsT listImpl P fuel (World.init listImpl) os).1 :=
  returns listSch P fuel os

theorem C133_set_partial (P : TProg σ) (fuel : Nat) (os : List (Op σ)) : Returns (World.execsT setImpl P fuel (World.init setImpl) os).1 :=
  returns setSch P fuel os

/-- With a heap scheduler, the sink of an event is called at most once, whether it throws or not; no sink is called after its event was
cancelled; each event that was scheduled is still in the scheduler, or its sink has been called, or it was cancelled; and the sink of an
event in the scheduler has not been called. -/
theorem C133_heap_partial (A : HeapAlg) (P : TProg σ) (fuel : Nat) (os : List (Op σ)) :
    let w := (World.execsT (heapImpl A) P fuel (World.init (heapImpl A)) os).1
    (∀ id, (w.view.trace.filter fun e => match e.2 with | .fire i _ => i == id | _ => false).length ≤ 1) ∧
    (w.view.trace.Pairwise fun a b => ∀ id t, b.2 = .fire id t → a.2 ≠ .cancel id) ∧
    (∀ m id t, (m, Entry.sched id t) ∈ w.view.trace → (⟨t, id⟩ : Key) ∈ w.queue ∨ (∃ m t, (m, .fire id t) ∈ w.view.trace) ∨
      ∃ m, (m, .cancel id) ∈ w.view.trace) ∧
    (∀ k ∈ w.queue, ∀ m t, (m, Entry.fire k.id t) ∉ w.view.trace) := by
  have j := ((heapSch A).reach P fuel os).2
  refine ⟨fun id => ?_, j.order, ?_, ?_⟩
  · refine Nat.le_trans (Nat.le_of_eq (congrArg _ (List.filter_congr ?_))) (j.once id)
    intro e _
    rcases e with ⟨m, e⟩
    cases e <;> rfl
  · intro m id t hm
    obtain ⟨h, e1, e2⟩ := (j.known _ hm).1 id t rfl
    rcases j.kept id h e1 with x | x | x
    · rw [e2] at x; exact .inl x
    · exact .inr (.inl (hit_fire x))
    · exact .inr (.inr x)
  · intro k hk m t hm
    have := j.fresh k hk _ hm
    simp [isFireOf] at this

/-- When all events of a list or set scheduler are gone, the sink of each event that was not cancelled has returned exactly once, however
many exceptions there were on the way. -/
theorem C133_completed (P : TProg σ) (fuel : Nat) (os : List (Op σ)) :
    (let w := (World.execsT listImpl P fuel (World.init listImpl) os).1
     w.queue = [] → ∀ m id t, (m, Entry.sched id t) ∈ w.view.trace → (∀ m, (m, Entry.cancel id) ∉ w.view.trace) →
      (w.view.trace.filter fun e => e.2 == .done id).length = 1) ∧
    (let w := (World.execsT setImpl P fuel (World.init setImpl) os).1
     w.queue = [] → ∀ m id t, (m, Entry.sched id t) ∈ w.view.trace → (∀ m, (m, Entry.cancel id) ∉ w.view.trace) →
      (w.view.trace.filter fun e => e.2 == .done id).length = 1) := by
  have H : ∀ w : World σ (List Key), Returns w → w.queue = [] → ∀ m id t, (m, Entry.sched id t) ∈ w.view.trace →
      (∀ m, (m, Entry.cancel id) ∉ w.view.trace) → (w.view.trace.filter fun e => e.2 == .done id).length = 1 := by
    intro w r hq m id t hm hc
    refine lone (r.once id) ?_
    rcases r.kept m id t hm with x | ⟨n, x⟩ | ⟨n, x⟩
    · rw [hq] at x; cases x
    · exact ⟨_, x, by simp⟩
    · exact absurd x (hc n)
  exact ⟨H _ (C133_list_partial P fuel os), H _ (C133_set_partial P fuel os)⟩

/-- What an exception leaves behind (any history, then the next event is fired at its time and its sink throws).  The list and set
schedulers have the same event as next event, so the next run fires it again; the heap scheduler does not have it any more.  With all
three, the handle of the event says that it is running, unless the event was cancelled, although nothing is running. -/
theorem C133_after_throw (A : HeapAlg) (P : TProg σ) (fuel : Nat) (os : List (Op σ)) (k : Key) :
    (let w := (World.execsT listImpl P fuel (World.init listImpl) os).1.setNow k.t
     let w' := (w.fireAndRemoveT listImpl P).1
     listImpl.front w.queue = some k → (w.fireAndRemoveT listImpl P).2 = true →
      listImpl.front w'.queue = some k ∧
      ((∀ m, (m, Entry.cancel k.id) ∉ w'.view.trace) → ∃ h, w'.view.handles[k.id]? = some h ∧ h.isRunning = true)) ∧
    (let w := (World.execsT setImpl P fuel (World.init setImpl) os).1.setNow k.t
     let w' := (w.fireAndRemoveT setImpl P).1
     setImpl.front w.queue = some k → (w.fireAndRemoveT setImpl P).2 = true →
      setImpl.front w'.queue = some k ∧
      ((∀ m, (m, Entry.cancel k.id) ∉ w'.view.trace) → ∃ h, w'.view.handles[k.id]? = some h ∧ h.isRunning = true)) ∧
    (let w := (World.execsT (heapImpl A) P fuel (World.init (heapImpl A)) os).1.setNow k.t
     let w' := (w.fireAndRemoveT (heapImpl A) P).1
     (heapImpl A).front w.queue = some k → (w.fireAndRemoveT (heapImpl A) P).2 = true →
      k ∉ w'.queue ∧
      ((∀ m, (m, Entry.cancel k.id) ∉ w'.view.trace) → ∃ h, w'.view.handles[k.id]? = some h ∧ h.isRunning = true)) := by
  have R : ∀ {I : Impl (List Key)} {E : Nat → Entry → Bool} (S : Sch I E) (w : World σ (List Key)), S.J w → I.front w.queue = some k →
      (w.fireAndRemoveT I P).2 = true → (∀ m, (m, Entry.cancel k.id) ∉ (w.fireAndRemoveT I P).1.view.trace) →
      ∃ h, (w.fireAndRemoveT I P).1.view.handles[k.id]? = some h ∧ h.isRunning = true := by
    intro I E S w j hk ht hc
    obtain ⟨_, hd, e1, e2, e3⟩ := thrown_handle S P hk j ht
    refine ⟨hd, e1, ?_⟩
    rcases e3 with e3 | ⟨m, e3⟩
    · simp [Handle.isRunning, e2, e3]
    · exact absurd e3 (hc m)
  have T : ∀ {I : Impl (List Key)} {E : Nat → Entry → Bool} (S : Sch I E),
      S.J ((World.execsT I P fuel (World.init I) os).1.setNow k.t) := by
    intro I E S
    have h := S.reach P fuel os
    exact ⟨h.1, h.2.flags _ _ _⟩
  refine ⟨?_, ?_, ?_⟩
  · intro w w' hk ht
    exact ⟨thrown_front listSch rfl (fun _ => rfl) (fun _ _ h => h.1) P hk rfl (T listSch) ht, R listSch w (T listSch) hk ht⟩
  · intro w w' hk ht
    exact ⟨thrown_front setSch rfl (fun _ => rfl) (fun _ _ h => h.1) P hk rfl (T setSch) ht, R setSch w (T setSch) hk ht⟩
  · intro w w' hk ht
    refine ⟨?_, R (heapSch A) w (T (heapSch A)) hk ht⟩
    have j := T (heapSch A)
    intro m
    obtain ⟨t, s, r, e, c, e2⟩ := thrown hk ht
    have h1 : (heapSch A).J (({ w with queue := (heapImpl A).pre w.queue } : World σ (List Key)).fireBegin k) :=
      (heapSch A).during P hk j e []
    obtain ⟨b1, b2, -, -, -⟩ := performs_queue (heapSch A)
      (P.prog.sink s (({ w with queue := (heapImpl A).pre w.queue } : World σ (List Key)).fireBegin k).view) _ h1
    have m2 : k ∈ w'.queue := m
    rw [show w' = _ from e2] at m2
    rcases b2 k m2 with y | ⟨y, _⟩
    · rcases (heapSch A).pre_gone _ _ k j.1 hk with ⟨f, _⟩ | ⟨_, f⟩
      · have := f k.id; simp [isFireOf] at this
      · exact f y
    · have := (heapSch A).bound _ _ j.1 k ((heapSch A).front_mem _ _ hk)
      have y : w.view.handles.length ≤ k.id := by simpa [World.fireBegin, View.log] using y
      exact absurd this (Nat.not_lt.mpr y)

/-- Sink 0 throws when it is called for the first time; other sinks and later calls do as in `demo`. -/
def flaky : TProg Nat where
  prog := demo
  throws s v := s == 0 && (v.trace.filter fun e => match e.2 with | .fire _ _ => true | _ => false).length == 1

/-- The event whose sink threw is fired a second time with the list and the set schedulers. -/
theorem C133_list_fails : ∃ (P : TProg Nat) (os : List (Op Nat)) (fuel id : Nat),
    ((World.execsT listImpl P fuel (World.init listImpl) os).1.view.trace.filter
      fun e => match e.2 with | .fire i _ => i == id | _ => false).length = 2 :=
  ⟨flaky, [.act (.at 5 (some 0)), .run, .run], 9, 0, by decide⟩

theorem C133_set_fails : ∃ (P : TProg Nat) (os : List (Op Nat)) (fuel id : Nat),
    ((World.execsT setImpl P fuel (World.init setImpl) os).1.view.trace.filter
      fun e => match e.2 with | .fire i _ => i == id | _ => false).length = 2 :=
  ⟨flaky, [.act (.at 5 (some 0)), .run, .run], 9, 0, by decide⟩

/-- With the heap scheduler, the simulation comes to its end, with the clock beyond the event whose sink threw, and the handle of that
event still says that it is running. -/
theorem C133_heap_fails : ∃ (P : TProg Nat) (os : List (Op Nat)) (fuel : Nat) (h : Handle Nat),
    let r := World.execsT (heapImpl sortAlg) P fuel (World.init (heapImpl sortAlg)) os
    r.2 = .ended ∧ r.1.queue = [] ∧ r.1.view.handles[0]? = some h ∧ h.isRunning = true ∧ h.t < r.1.view.now :=
  ⟨flaky, [.act (.at 5 (some 0)), .act (.at 6 (some 1)), .run, .run], 9, ⟨5, some 0, true⟩, by decide⟩

/-- So, with sinks that throw, the schedulers are not interchangeable (cf. C22). -/
theorem C133_interchangeable_fails : ∃ (P : TProg Nat) (os : List (Op Nat)) (fuel : Nat),
    (World.execsT listImpl P fuel (World.init listImpl) os).1.view.trace ≠
      (World.execsT (heapImpl sortAlg) P fuel (World.init (heapImpl sortAlg)) os).1.view.trace :=
  ⟨flaky, [.act (.at 5 (some 0)), .run, .run], 9, by decide⟩

/-! A history with an exception, an event that survives it, and a cancellation afterwards. -/
example : (World.execsT listImpl flaky 9 (World.init listImpl)
      [.act (.at 5 (some 0)), .act (.at 6 (some 0)), .act (.at 7 (some 0)), .run, .act (.cancel 2), .run]).1.view.trace =
    [(0, .sched 0 5), (0, .sched 1 6), (0, .sched 2 7), (0, .begin), (0, .run), (5, .fire 0 5), (5, .cancel 2), (5, .run),
     (5, .fire 0 5), (5, .done 0), (6, .fire 1 6), (6, .done 1), (7, .pause), (7, .finish)] := by decide

example : (World.execsT (heapImpl sortAlg) flaky 9 (World.init (heapImpl sortAlg))
      [.act (.at 5 (some 0)), .act (.at 6 (some 0)), .run, .run]).1.view.trace =
    [(0, .sched 0 5), (0, .sched 1 6), (0, .begin), (0, .run), (5, .fire 0 5), (5, .run), (6, .fire 1 6), (6, .done 1), (6, .pause),
     (6, .finish)] := by decide

/-- The hypotheses of `C133_after_throw` are met. -/
example : (let w := (World.execsT listImpl flaky 9 (World.init listImpl) [.act (.at 5 (some 0))]).1.setNow 5
    listImpl.front w.queue = some ⟨5, 0⟩ ∧ (w.fireAndRemoveT listImpl flaky).2 = true) ∧
    (let w := (World.execsT (heapImpl sortAlg) flaky 9 (World.init (heapImpl sortAlg)) [.act (.at 5 (some 0))]).1.setNow 5
    (heapImpl sortAlg).front w.queue = some ⟨5, 0⟩ ∧ (w.fireAndRemoveT (heapImpl sortAlg) flaky).2 = true) := by decide

end
end Verif.Sim
