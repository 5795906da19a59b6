import Verif.Sim.Model

/-!
Model of the life times of event handles (/repo/simulation/event-handle.h): reference counts, who holds handles, and their destruction.

A handle is named by the number of handles created before it.  Simplifications: which event is the next one is not computed but given by
the caller as a position (C21 and C31 say which one it is), so the theorems hold for every order of events; the same for the event that
`pop_front` removes.  Handles are all that is allocated, and the node of the container; sinks are not modelled (C136, C156), nor
the times (C21-C33).  `refcount_t` does not overflow.
-/
namespace Verif.Sim

/-- The scheduler; /repo/simulation/heap-scheduler.h 50-205, list-scheduler.h 49-197, set-scheduler.h 49-178. -/
inductive HKind where
  | heap
  | list
  | set
deriving DecidableEq

/-- A call of `FireAndRemoveNextEvent` under way: the handle that is fired; whether the simulator's loop holds it, or the scheduler was
called directly (/repo/simulation/simulator.h 128, 159; list-scheduler.h 164, set-scheduler.h 145, heap-scheduler.h 165). -/
structure HFrame where
  id : Nat
  sim : Bool
deriving DecidableEq

/-- `cells`: the reference counts of the handles (/repo/component/object.h 354), `none` once destroyed; `queue`: the handles in the
scheduler (list-scheduler.h 195, set-scheduler.h 176, heap-scheduler.h 204); `user`: the handles that the client's smart pointers hold;
`frames`: the calls under way; `up`: the scheduler has not been destroyed; `bad`: a destroyed handle was used, a node of the set was erased
twice, or an empty list popped. -/
structure HSt where
  cells : List (Option Nat)
  queue : List Nat
  user : List Nat
  frames : List HFrame
  up : Bool
  bad : Bool
deriving DecidableEq

/-- A new scheduler; /repo/simulation/list-scheduler.h 57-60, set-scheduler.h 57-60, heap-scheduler.h 70-73. -/
def HSt.init : HSt := ⟨[], [], [], [], true, false⟩

/-- Using a handle: it must not have been destroyed.  (The C++ language; no code.) -/
def HSt.touch (id : Nat) (s : HSt) : HSt :=
  match s.cells[id]? with
  | some (some _) => s
  | _ => { s with bad := true }

/-- `AddRef()`; /repo/component/object.h 321-325, 457-461. -/
def HSt.addRef (id : Nat) (s : HSt) : HSt :=
  match s.cells[id]? with
  | some (some n) => { s with cells := s.cells.set id (some (n + 1)) }
  | _ => { s with bad := true }

/-- `Release()`: destroys the handle when the count becomes zero; /repo/component/object.h 327-331, 464-472. -/
def HSt.release (id : Nat) (s : HSt) : HSt :=
  match s.cells[id]? with
  | some (some (n + 1)) => { s with cells := s.cells.set id (if n = 0 then none else some n) }
  | _ => { s with bad := true }

/-- `new Object<EventHandle>`: the count is zero; /repo/component/object.h 311-314. -/
def HSt.create (s : HSt) : HSt := { s with cells := s.cells ++ [some 0] }

/-- What memory there is when an event is scheduled: enough; none for the handle; none for the node of the container.
(The environment; no code.) -/
inductive HMem where
  | ok
  | noHandle
  | noNode
deriving DecidableEq

/-- `ScheduleAt()` with valid arguments; the client keeps the handle; /repo/simulation/heap-scheduler.h 136-142, list-scheduler.h 117-142,
set-scheduler.h 117-121. -/
def HSt.schedule (K : HKind) (m : HMem) (s : HSt) : HSt :=
  let id := s.cells.length
  match m with
  | .noHandle => s
  | .ok =>
    match K with
    | .heap =>
      -- `AddRef`, `push_back`, `push_heap`, and the `Ptr` that is returned
      let s := s.create.addRef id
      let s := HSt.addRef id { s with queue := id :: s.queue }
      { s with user := id :: s.user }
    | _ =>
      -- the local `Ptr`, the one in the container, and `Detach`
      let s := HSt.addRef id (s.create.addRef id)
      { s with queue := id :: s.queue, user := id :: s.user }
  | .noNode =>
    match K with
    | .heap => s.create.addRef id
    | _ => (s.create.addRef id).release id

/-- `FireAndRemoveNextEvent()` up to the call of `Fire`, for the handle at position `i`; `sim`: by the simulator, which holds the handle;
/repo/simulation/simulator.h 128, 136, 159, 175; heap-scheduler.h 160-169, list-scheduler.h 160-164, set-scheduler.h 140-145. -/
def HSt.fire (K : HKind) (i : Nat) (sim : Bool) (s : HSt) : HSt :=
  match s.queue[i]? with
  | none => s
  | some id =>
    let s := if sim then s.addRef id else s
    let s := match K with
      | .heap => { s with queue := s.queue.eraseIdx i }
      | _ => s
    { s.touch id with frames := ⟨id, sim⟩ :: s.frames }

/-- The end of the loop's body, where the simulator's `Ptr` is destroyed; /repo/simulation/simulator.h 137, 176. -/
def HSt.endLoop (f : HFrame) (s : HSt) : HSt := if f.sim then s.release f.id else s

/-- The sink returns: the rest of `Fire()` (/repo/simulation/event-handle.h 109-110) and of `FireAndRemoveNextEvent()`; `j`, modulo
the number of pending events: the position of the event that `pop_front` removes, which the list must have (heap-scheduler.h 170, list-scheduler.h 165, set-scheduler.h 146). -/
def HSt.ret (K : HKind) (j : Nat) (s : HSt) : HSt :=
  match s.frames with
  | [] => s
  | f :: fs =>
    let s := HSt.touch f.id { s with frames := fs }
    let s := match K with
      | .heap => s.release f.id
      | .list =>
        match s.queue[j % s.queue.length]? with
        | some id => HSt.release id { s with queue := s.queue.eraseIdx (j % s.queue.length) }
        | none => { s with bad := true }
      | .set => if f.id ∈ s.queue then HSt.release f.id { s with queue := s.queue.erase f.id } else { s with bad := true }
    s.endLoop f

/-- The sink throws: nothing is caught; /repo/simulation/event-handle.h 108, heap-scheduler.h 169, list-scheduler.h 164,
set-scheduler.h 145, simulator.h 136-137, 175-176. -/
def HSt.throw (s : HSt) : HSt :=
  match s.frames with
  | [] => s
  | f :: fs => HSt.endLoop f { s with frames := fs }

/-- The destructor of the scheduler, when no call is under way; /repo/simulation/heap-scheduler.h 75-81, list-scheduler.h 62, 195,
set-scheduler.h 62, 176. -/
def HSt.destroy (s : HSt) : HSt :=
  if s.frames = [] then { s.queue.foldl (fun s id => s.release id) s with queue := [], up := false } else s

/-- What a client, a sink or the simulator does.  `use i`: any method of the handle that the client's pointer `i` holds
(/repo/simulation/event-handle.h 65-93); `copy i`, `drop i`: its copy and destruction (/repo/component/ptr.h 178-191);
`next i`: `GetNextEvent` (heap-scheduler.h 150-158, list-scheduler.h 150-158, set-scheduler.h 129-138). -/
inductive HOp where
  | schedule (m : HMem)
  | next (i : Nat)
  | use (i : Nat)
  | copy (i : Nat)
  | drop (i : Nat)
  | fire (i : Nat) (sim : Bool)
  | ret (j : Nat)
  | throw
  | destroy
deriving DecidableEq

/-- One operation; operations on pointers that do not exist, or on a scheduler that was destroyed, are not done.
(A client; the methods are cited at the functions above and at `HOp`.) -/
def HSt.step (K : HKind) (s : HSt) : HOp → HSt
  | .schedule m => if s.up then s.schedule K m else s
  | .next i =>
    match s.queue[i]? with
    | some id => { s.addRef id with user := id :: s.user }
    | none => s
  | .use i =>
    match s.user[i]? with
    | some id => s.touch id
    | none => s
  | .copy i =>
    match s.user[i]? with
    | some id => { s.addRef id with user := id :: s.user }
    | none => s
  | .drop i =>
    match s.user[i]? with
    | some id => HSt.release id { s with user := s.user.eraseIdx i }
    | none => s
  | .fire i sim => s.fire K i sim
  | .ret j => s.ret K j
  | .throw => s.throw
  | .destroy => s.destroy

/-- A history from a new scheduler.  (A client; no code.) -/
def HSt.run (K : HKind) (ops : List HOp) : HSt := ops.foldl (HSt.step K) HSt.init

end Verif.Sim
