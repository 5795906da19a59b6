import Verif.Ptr.Heap
/-!
Model of who owns whom in a simulation: the simulator, schedulers, event handles, and the user's components (sinks, clocks), as objects
with reference counts (/repo/simulation/simulator.h, heap-scheduler.h, list-scheduler.h, set-scheduler.h, event-handle.h,
/repo/component/object.h, ptr.h), for property C158.

Each `Ptr` that is a member of an object is a reference of that object.  Simplifications: sinks do nothing when they are called (C135, C136,
C145, C156 and C157 are about sinks that act); which event is the next one is given by the caller, so the theorems hold for every order of
events; the times are left out and arguments are valid; the destruction of an object releases its members in the order in which they were
set; `refcount_t` does not overflow and there is memory.
-/
namespace Verif.Sim.Own

open Verif.Heap hiding Obj

/-! ### Model -/

/-- The class of an object: `Simulator`, a scheduler, `EventHandle`, or a component of the user, that may be a sink and a clock and keep
pointers; /repo/simulation/simulator.h 62, heap-scheduler.h 50, list-scheduler.h 49, set-scheduler.h 49, event-handle.h 39. -/
inductive Kind where
  | sim
  | sched
  | handle
  | comp
deriving DecidableEq

/-- The member that refers to another object: `scheduler_` (/repo/simulation/simulator.h 249); `clock_` and an item of `events_`, `list_` or
`set_` (heap-scheduler.h 202, 204, list-scheduler.h 193, 195, set-scheduler.h 174, 176); `sink_` (event-handle.h 166); a connection of
one of the simulator's events (/repo/event/event.h 306, simulator.h 254-257); a pointer that a component keeps. -/
inductive Role where
  | scheduler
  | clock
  | event
  | sink
  | conn
  | kept
deriving DecidableEq

/-- An object of a simulation.  (See `Heap.Obj`; /repo/component/object.h 354.) -/
abbrev Obj := Heap.Obj Kind Role

/-- The objects, destroyed ones as `none`; the objects that the smart pointers of the user's functions refer to
(/repo/component/ptr.h 65-191). -/
structure State where
  cells : List (Option Obj)
  user : List Nat
deriving DecidableEq

/-- A program before it creates anything; no code. -/
def State.init : State := ⟨[], []⟩

/-- A member is set: `initialized_`, or a pointer that is not null; /repo/simulation/simulator.h 85, list-scheduler.h 68,
event-handle.h 105. -/
def State.has (s : State) (c : Nat) (r : Role) : Bool := (refsAt s.cells c).any fun e => e.1 == r

/-- What the user does; the numbers are positions of the user's pointers, `k` the position of a reference of the object. -/
inductive Op where
  /-- `CreateObject<...>(...)`, and `new Object<...>` for components; /repo/component/object.h 311-314 -/
  | create (kind : Kind)
  /-- `simulator->Use(scheduler)`; simulator.h 83-97 -/
  | simUse (i j : Nat)
  /-- `scheduler->Use(clock)`; heap-scheduler.h 85-99, list-scheduler.h 66-80, set-scheduler.h 66-80 -/
  | schedUse (i j : Nat)
  /-- `scheduler->ScheduleAt(t, sink)`, the handle is kept; heap-scheduler.h 116-143, list-scheduler.h 97-143, set-scheduler.h 97-122 -/
  | schedule (i j : Nat)
  /-- `scheduler->GetNextEvent()`, the handle is kept; heap-scheduler.h 150-158, list-scheduler.h 150-158, set-scheduler.h 129-138 -/
  | next (i k : Nat)
  /-- `handle->Cancel()`; event-handle.h 85-88 -/
  | cancel (i : Nat)
  /-- `scheduler->FireAndRemoveNextEvent()`, also by the simulator; heap-scheduler.h 160-173, list-scheduler.h 160-168,
  set-scheduler.h 140-149, event-handle.h 103-112, simulator.h 126-137, 157-176 -/
  | fire (i k : Nat)
  /-- `Connect` of one of the simulator's events; /repo/event/event.h 125-141, simulator.h 241-244 -/
  | connect (i j : Nat)
  /-- `Disconnect` of one of the simulator's events; /repo/event/event.h 143-157, simulator.h 241-244 -/
  | disconnect (i k : Nat)
  /-- A component keeps a pointer. -/
  | keep (i j : Nat)
  /-- A component gives up a pointer. -/
  | forget (i k : Nat)
  /-- A copy of a pointer; /repo/component/ptr.h 70-77 -/
  | copy (i : Nat)
  /-- The end of a pointer; /repo/component/ptr.h 178-191 -/
  | drop (i : Nat)
deriving DecidableEq

/-- A new object and the user's pointer to it.  (`CreateObject`, /repo/component/object.h 311-314, ptr.h 70-77.) -/
def State.create (s : State) (kind : Kind) : State := ⟨s.cells ++ [some ⟨1, kind, []⟩], s.cells.length :: s.user⟩

/-- Position `k` of the references of `c` has the role `r`.  (See `Role`.) -/
def State.at? (s : State) (c k : Nat) (r : Role) : Option Nat :=
  match (refsAt s.cells c)[k]? with
  | some e => if e.1 = r then some e.2 else none
  | none => none

/-- The position of a member.  (See `Role`.) -/
def State.pos (s : State) (c : Nat) (r : Role) : Nat := (refsAt s.cells c).findIdx fun e => e.1 == r

/-- One operation: `none` if an object is used that does not exist; a call that the types of the pointers do not allow, or that throws, is
nothing.  (The lines are cited at `Op`.) -/
def State.step (s : State) : Op → Option State
  | .create k => some (if k = .handle then s else s.create k)
  | .simUse i j =>
    match s.user[i]?, s.user[j]? with
    | some c, some d =>
      if kindAt s.cells c = some .sim ∧ kindAt s.cells d = some .sched ∧ s.has c .scheduler = false then
        (link c .scheduler d s.cells).map fun h => ⟨h, s.user⟩
      else some s
    | _, _ => some s
  | .schedUse i j =>
    match s.user[i]?, s.user[j]? with
    | some c, some d =>
      if kindAt s.cells c = some .sched ∧ (kindAt s.cells d = some .sim ∨ kindAt s.cells d = some .comp) ∧ s.has c .clock = false then
        (link c .clock d s.cells).map fun h => ⟨h, s.user⟩
      else some s
    | _, _ => some s
  | .schedule i j =>
    match s.user[i]?, s.user[j]? with
    | some c, some d =>
      if kindAt s.cells c = some .sched ∧ kindAt s.cells d = some .comp ∧ s.has c .clock = true then
        -- the handle, with the pointer that is returned; its sink; the scheduler's pointer
        let s1 := s.create .handle
        match link s.cells.length .sink d s1.cells with
        | none => none
        | some h => (link c .event s.cells.length h).map fun h => ⟨h, s1.user⟩
      else some s
    | _, _ => some s
  | .next i k =>
    match s.user[i]? with
    | some c =>
      match s.at? c k .event with
      | some d => (addRef s.cells d).map fun h => ⟨h, d :: s.user⟩
      | none => some s
    | none => some s
  | .cancel i =>
    match s.user[i]? with
    | some c => if kindAt s.cells c = some .handle then (unlink c (s.pos c .sink) s.cells).map fun h => ⟨h, s.user⟩ else some s
    | none => some s
  | .fire i k =>
    match s.user[i]? with
    | some c =>
      match s.at? c k .event with
      | some d =>
        match unlink d (s.pos d .sink) s.cells with
        | none => none
        | some h => (unlink c k h).map fun h => ⟨h, s.user⟩
      | none => some s
    | none => some s
  | .connect i j =>
    match s.user[i]?, s.user[j]? with
    | some c, some d =>
      if kindAt s.cells c = some .sim ∧ kindAt s.cells d = some .comp then (link c .conn d s.cells).map fun h => ⟨h, s.user⟩ else some s
    | _, _ => some s
  | .disconnect i k =>
    match s.user[i]? with
    | some c =>
      match s.at? c k .conn with
      | some _ => (unlink c k s.cells).map fun h => ⟨h, s.user⟩
      | none => some s
    | none => some s
  | .keep i j =>
    match s.user[i]?, s.user[j]? with
    | some c, some d => if kindAt s.cells c = some .comp then (link c .kept d s.cells).map fun h => ⟨h, s.user⟩ else some s
    | _, _ => some s
  | .forget i k =>
    match s.user[i]? with
    | some c =>
      match s.at? c k .kept with
      | some _ => (unlink c k s.cells).map fun h => ⟨h, s.user⟩
      | none => some s
    | none => some s
  | .copy i =>
    match s.user[i]? with
    | some c => (addRef s.cells c).map fun h => ⟨h, c :: s.user⟩
    | none => some s
  | .drop i =>
    match s.user[i]? with
    | some c => (release c s.cells).map fun h => ⟨h, s.user.eraseIdx i⟩
    | none => some s

/-- A history.  (A user; no code.) -/
def State.run (s : State) : List Op → Option State
  | [] => some s
  | o :: l =>
    match s.step o with
    | none => none
    | some s' => s'.run l

/-! ### What the properties say -/

/-- The object exists.  (Specification; no code.) -/
def Alive (s : State) (c : Nat) : Prop := ∃ x, s.cells[c]? = some (some x)

/-- An existing object refers to another.  (Specification; no code.) -/
def Refers (s : State) (c d : Nat) : Prop := ∃ x, s.cells[c]? = some (some x) ∧ d ∈ x.refs.map Prod.snd

/-- A pointer of the user leads to the object.  (Specification; no code.) -/
inductive Held (s : State) : Nat → Prop
  | user {c : Nat} : c ∈ s.user → Held s c
  | via {c d : Nat} : Held s c → Refers s c d → Held s d

/-- The operation cannot close a cycle: a scheduler is given a clock that is not a simulator, and a component keeps only components created
before it.  (Specification; no code.) -/
def Op.plain (s : State) : Op → Prop
  | .schedUse _ j => ∀ d, s.user[j]? = some d → kindAt s.cells d ≠ some .sim
  | .keep i j => ∀ c d, s.user[i]? = some c → s.user[j]? = some d → kindAt s.cells d = some .comp ∧ d < c
  | _ => True

end Verif.Sim.Own
