import Verif.Sim.DropLemmas
import Verif.Sim.FreeProps

/-!
C156: destructors of sinks that use the simulator.

Vocabulary: as in C155.  A sink of an event is destroyed when its event is cancelled or has been fired, and its destructor may do all that
a sink may do.  A program is dead once it has called or released a sink that is being destroyed, or an exception has left a destructor.
-/
set_option linter.unusedVariables false
namespace Verif.Sim
section
variable {σ C : Type}

/-- The program has done something undefined, or was terminated. -/
def DeadF (s : FState σ C) : Prop := ∃ f ∈ s.1, f.isDead

/-- The next operation does not cancel an event whose sink is being destroyed. -/
def OnceF (s : FState σ C) : Prop :=
  match s.1 with
  | .body _ sc n :: fs =>
    match sc n s.2.view with
    | some (.act (.cancel id)) => id ∉ dying fs
    | _ => True
  | _ => True

/-- The next operation does not run the simulator while the sink of an event that is being cancelled is being destroyed. -/
def IdleF (s : FState σ C) : Prop :=
  match s.1 with
  | .body _ sc n :: fs =>
    match sc n s.2.view with
    | some (.run _ _) => ∀ f ∈ fs, ¬ f.isCancelled
    | some (.runFor _ _) => ∀ f ∈ fs, ¬ f.isCancelled
    | _ => True
  | _ => True

/-- If the next operation is an exception, or a run that is refused, the exception is caught before it leaves a destructor. -/
def HeldF (I : Impl C) (s : FState σ C) : Prop :=
  match s.1 with
  | .body _ sc n :: fs =>
    match sc n s.2.view with
    | some (.run c _) => s.2.wired = false ∨ I.size s.2.queue = 0 → Lets (guarded c fs)
    | some (.runFor c _) => s.2.wired = false ∨ I.size s.2.queue = 0 → Lets (guarded c fs)
    | some .throw => Lets fs
    | _ => True
  | _ => True

theorem gentleF_of {I : Impl C} {s : FState σ C} (h1 : OnceF s) (h2 : IdleF s) (h3 : HeldF I s) : GentleF I s := by
  unfold GentleF
  unfold OnceF at h1
  unfold IdleF at h2
  unfold HeldF at h3
  cases h : s.1 with
  | nil => trivial
  | cons f fs =>
    rw [h] at h1 h2 h3
    cases f with
    | body who sc n =>
      dsimp only at h1 h2 h3 ⊢
      cases ho : sc n s.2.view with
      | none => trivial
      | some o =>
        rw [ho] at h1 h2 h3
        cases o with
        | act a =>
          cases a with
          | cancel id => exact h1
          | _ => trivial
        | throw => exact h3
        | runFor c dt => exact ⟨h2, h3⟩
        | run c t => exact ⟨h2, h3⟩
    | _ => trivial

/-- With a heap scheduler, whatever else sinks and their destructors do: if nobody cancels an event whose sink is being destroyed, nobody
runs the simulator while the sink of an event that is being cancelled is being destroyed, and no exception leaves a destructor, then no
sink is called or released while it is being destroyed. -/
theorem C156_alive_partial (A : HeapAlg) (P : FProg σ) (u : Script σ) (n : Nat)
    (h1 : ∀ m, m < n → OnceF (execF (heapImpl A) P u m)) (h2 : ∀ m, m < n → IdleF (execF (heapImpl A) P u m))
    (h3 : ∀ m, m < n → HeldF (heapImpl A) (execF (heapImpl A) P u m)) : ¬ DeadF (execF (heapImpl A) P u n) := by
  rintro ⟨f, m, d⟩
  exact (execF_alive A P u n fun m hm => gentleF_of (h1 m hm) (h2 m hm) (h3 m hm)).alive f m d

/-! ### Concrete programs -/

/-- The sinks of events do as in C155; their destructors do as `d` says. -/
def crumbled (d : Nat → List (FOp Nat)) : FProg Nat :=
  ⟨fun s _ => scriptOf (jumble s), fun _ _ => scriptOf [], fun _ s _ => scriptOf (d s)⟩

instance : ∀ f : FFrame σ, Decidable f.isDead := fun f => by cases f <;> unfold FFrame.isDead <;> infer_instance

instance : ∀ f : FFrame σ, Decidable f.isCancelled := fun f => by cases f <;> unfold FFrame.isCancelled <;> infer_instance

instance (s : FState σ C) : Decidable (DeadF s) := inferInstanceAs (Decidable (∃ f ∈ s.1, f.isDead))

instance decLets : ∀ fs : List (FFrame σ), Decidable (Lets fs)
  | [] => .isTrue trivial
  | .guard :: _ => .isTrue trivial
  | .body _ _ _ :: fs => decLets fs
  | .last :: fs => decLets fs
  | .mid _ :: fs => decLets fs
  | .loop _ :: fs => decLets fs
  | .cancelled _ :: _ => .isFalse (fun x => x)
  | .fired _ :: _ => .isFalse (fun x => x)
  | .dead :: _ => .isFalse (fun x => x)

instance (s : FState σ C) : Decidable (OnceF s) := by
  unfold OnceF; split
  · split <;> infer_instance
  · infer_instance

instance (s : FState σ C) : Decidable (IdleF s) := by
  unfold IdleF; split
  · split <;> infer_instance
  · infer_instance

instance (I : Impl C) (s : FState σ C) : Decidable (HeldF I s) := by
  unfold HeldF; split
  · split <;> infer_instance
  · infer_instance

/-- A destructor that cancels the event of its sink, while the event is being cancelled or after it was fired, releases the sink again:
nobody runs the simulator in a destructor, and nothing is thrown. -/
theorem C156_cancel_fails : ∃ (P : FProg Nat) (u u' : Script Nat) (n n' : Nat),
    (∀ m, m < n → IdleF (execF (heapImpl sortAlg) P u m) ∧ HeldF (heapImpl sortAlg) (execF (heapImpl sortAlg) P u m)) ∧
    (∀ m, m < n' → IdleF (execF (heapImpl sortAlg) P u' m) ∧ HeldF (heapImpl sortAlg) (execF (heapImpl sortAlg) P u' m)) ∧
    DeadF (execF (heapImpl sortAlg) P u n) ∧ DeadF (execF (heapImpl sortAlg) P u' n') :=
  ⟨crumbled fun _ => [.act (.cancel 0)], scriptOf [.act (.at 3 (some 7)), .act (.cancel 0)],
    scriptOf [.act (.at 3 (some 7)), .run true none], 10, 20, by decide, by decide, by decide, by decide⟩

/-- The destructor of the sink of an event that is being cancelled runs the simulator, and the sink is called while it is being
destroyed: nobody cancels an event twice, and nothing is thrown. -/
theorem C156_run_fails : ∃ (P : FProg Nat) (u : Script Nat) (n : Nat),
    (∀ m, m < n → OnceF (execF (heapImpl sortAlg) P u m) ∧ HeldF (heapImpl sortAlg) (execF (heapImpl sortAlg) P u m)) ∧
    DeadF (execF (heapImpl sortAlg) P u n) :=
  ⟨crumbled fun _ => [.run true none], scriptOf [.act (.at 3 (some 7)), .act (.cancel 0)], 20, by decide, by decide⟩

/-- The destructor of a sink that was called runs the simulator and does not catch the exception that says there is no event: nothing is
cancelled, and nobody throws anything but the simulator. -/
theorem C156_throw_fails : ∃ (P : FProg Nat) (u : Script Nat) (n : Nat),
    (∀ m, m < n → OnceF (execF (heapImpl sortAlg) P u m) ∧ IdleF (execF (heapImpl sortAlg) P u m)) ∧
    DeadF (execF (heapImpl sortAlg) P u n) :=
  ⟨crumbled fun _ => [.run false none], scriptOf [.act (.at 3 (some 7)), .run true none], 20, by decide, by decide⟩

/-- With a list scheduler, if the destructor of a sink that was called runs the simulator, the sink is called again while it is being
destroyed: nothing is cancelled, and nothing is thrown. -/
theorem C156_list_fails : ∃ (P : FProg Nat) (u : Script Nat) (n : Nat),
    (∀ m, m < n → OnceF (execF listImpl P u m) ∧ IdleF (execF listImpl P u m) ∧ HeldF listImpl (execF listImpl P u m)) ∧
    DeadF (execF listImpl P u n) :=
  ⟨crumbled fun _ => [.run true none], scriptOf [.act (.at 3 (some 7)), .run true none], 20, by decide, by decide⟩

/-- To the destructor of a sink that was called, the event looks pending: `IsPending` is true of an event whose sink has been called and
has returned, and which is no longer in the scheduler. -/
theorem C156_pending_fails : ∃ (P : FProg Nat) (u : Script Nat) (n id : Nat) (t : Int),
    let w := (execF (heapImpl sortAlg) P u n).2
    (t, Entry.fire id t) ∈ w.view.trace ∧ (t, Entry.done id) ∈ w.view.trace ∧ (∀ k ∈ w.queue, k.id ≠ id) ∧
      (w.view.handles[id]?.map Handle.isPending) = some true ∧ ¬ DeadF (execF (heapImpl sortAlg) P u n) :=
  ⟨crumbled fun _ => [.act .pause], scriptOf [.act (.at 3 (some 7)), .run true none], 8, 0, 3,
    by decide, by decide, by decide, by decide, by decide⟩

/-- Destructors for the examples: one runs the simulator, one cancels another event, one schedules an event. -/
def crumble : Nat → List (FOp Nat)
  | 4 => [.run true none]
  | 5 => [.act (.cancel 2)]
  | 6 => [.act (.in 3 (some 7))]
  | _ => []

/-- A program for the examples. -/
def crumbler : Script Nat := scriptOf [.act (.at 3 (some 4)), .act (.at 5 (some 5)), .act (.at 8 (some 6)), .act (.at 10 (some 4)),
  .run true none]

/-! It meets the hypotheses of `C156_alive_partial`, and all destructors run. -/
example : (execF (heapImpl sortAlg) (crumbled crumble) crumbler 60).2.view.trace =
    [(0, .sched 0 3), (0, .sched 1 5), (0, .sched 2 8), (0, .sched 3 10), (0, .begin), (0, .run), (3, .fire 0 3), (3, .done 0), (3, .run),
     (5, .fire 1 5), (5, .done 1), (5, .sched 4 8), (5, .cancel 2), (8, .fire 4 8), (8, .done 4), (10, .fire 3 10), (10, .done 3),
     (10, .pause), (10, .finish), (10, .pause), (10, .finish)] ∧
    let s := fun m => execF (heapImpl sortAlg) (crumbled crumble) crumbler m
    (∀ m, m < 60 → OnceF (s m)) ∧ (∀ m, m < 60 → IdleF (s m)) ∧ (∀ m, m < 60 → HeldF (heapImpl sortAlg) (s m)) ∧ (s 60).1.length = 0 := by
  refine ⟨by decide, by decide, by decide, by decide, by decide⟩

end
end Verif.Sim
