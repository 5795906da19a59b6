/-!
Model of the event schedulers and the simulator: /repo/simulation/event-handle.h,
/repo/simulation/list-scheduler.h, /repo/simulation/set-scheduler.h,
/repo/simulation/heap-scheduler.h and /repo/simulation/simulator.h.

Simplifications.
* Time points and durations are unbounded integers (see `Word` for 64 bits).  The event counter is an unbounded `Nat` (fewer than 2^64 schedules).
* A handle is identified with its identity: the i-th scheduled event is handle `i`, and `handles`
  is the table of all handles ever created, whether the scheduler still holds them or not.
* The containers hold the keys `(time, identity)` of the handles; these never change.
* A sink is a name of type `σ`; a program `Prog` says what the sink does when it is called.  It
  may depend on everything the program has seen so far (the whole `View`, which contains the whole
  history) except on `GetNumEvents` and `GetNextEvent`.  It may schedule, cancel and pause; it does
  not call `Run`, `RunUntil` (see `Nest`) or `FireAndRemoveNextEvent`, and does not let exceptions
  escape (see `Throw`).
* `trace` is a ghost variable: the history of what happened, with the clock at each moment.
-/
namespace Verif.Sim

/-- The part of an event handle that never changes: `t_` and `id_`;
/repo/simulation/event-handle.h 160-166. -/
structure Key where
  t : Int
  id : Nat
deriving Repr, DecidableEq

/-- `EventHandle::operator<`; /repo/simulation/event-handle.h 127-135. -/
def Key.lt (a b : Key) : Bool := decide (a.t < b.t) || (decide (a.t = b.t) && decide (a.id < b.id))

/-- The part of an event handle that changes: `sink_` and `running_`, with its time;
/repo/simulation/event-handle.h 160-167. -/
structure Handle (σ : Type) where
  t : Int
  sink : Option σ
  running : Bool
deriving Repr, DecidableEq

/-- `IsPending()`; /repo/simulation/event-handle.h 70-73. -/
def Handle.isPending {σ : Type} (h : Handle σ) : Bool := h.sink.isSome && !h.running

/-- `IsRunning()`; /repo/simulation/event-handle.h 75-78. -/
def Handle.isRunning {σ : Type} (h : Handle σ) : Bool := h.sink.isSome && h.running

/-- `IsValid()`; /repo/simulation/event-handle.h 80-83. -/
def Handle.isValid {σ : Type} (h : Handle σ) : Bool := h.sink.isSome

/-- `Cancel()`; /repo/simulation/event-handle.h 85-88. -/
def Handle.cancel {σ : Type} (h : Handle σ) : Handle σ := { h with sink := none }

/-- `running_ = true` in `Fire()`; /repo/simulation/event-handle.h 107. -/
def Handle.fireBegin {σ : Type} (h : Handle σ) : Handle σ := { h with running := true }

/-- `running_ = false; sink_ = nullptr` in `Fire()`; /repo/simulation/event-handle.h 109-110. -/
def Handle.fireEnd {σ : Type} (h : Handle σ) : Handle σ := { h with running := false, sink := none }

/-- What the ghost history records.  (Ghost; no code.) -/
inductive Entry where
  | begin | run | pause | finish
  | sched (id : Nat) (t : Int)
  | cancel (id : Nat)
  | fire (id : Nat) (t : Int)
  | done (id : Nat)
  | pauseReq
deriving Repr, DecidableEq

/-- Everything except the scheduler's container: `now_`, `started_`, `paused_`
(/repo/simulation/simulator.h 246-250), the handles, and the ghost history. -/
structure View (σ : Type) where
  now : Int
  started : Bool
  paused : Bool
  handles : List (Handle σ)
  trace : List (Int × Entry)

/-- A simulator together with its scheduler.  `clocked` is `initialized_` of the scheduler
(/repo/simulation/list-scheduler.h 191-195), `wired` is `initialized_` of the simulator
(/repo/simulation/simulator.h 248). -/
structure World (σ C : Type) where
  view : View σ
  queue : C
  clocked : Bool
  wired : Bool

/-- The container of a scheduler.  `insert` is what `ScheduleAt` does to it, `size` is
`GetNumEvents`, `front` is `GetNextEvent`, `pre` and `post` are what `FireAndRemoveNextEvent` does
to it before and after firing.  (/repo/simulation/list-scheduler.h 97-168, set-scheduler.h 97-149, heap-scheduler.h 116-173.) -/
structure Impl (C : Type) where
  empty : C
  insert : Key → C → C
  size : C → Nat
  front : C → Option Key
  pre : C → C
  post : Key → C → C

/-- The loop in `ListScheduler::ScheduleAt`: before the first handle with a later time, else at the
end; /repo/simulation/list-scheduler.h 118-141. -/
def listInsert (k : Key) : List Key → List Key
  | [] => [k]
  | h :: rest => if h.t > k.t then k :: h :: rest else h :: listInsert k rest

/-- `ListScheduler`; /repo/simulation/list-scheduler.h 97-168.  The front is fired while it is still
in the list, then the list is popped at the front. -/
def listImpl : Impl (List Key) where
  empty := []
  insert := listInsert
  size := List.length
  front := List.head?
  pre := id
  post _ l := l.tail

/-- `std::set::insert` with `operator<` of handles (event-handle.h 186-190): an equivalent
element is kept, otherwise the new one is placed in order; used at
/repo/simulation/set-scheduler.h 119. -/
def setInsert (k : Key) : List Key → List Key
  | [] => [k]
  | h :: rest => if h.lt k then h :: setInsert k rest else if k.lt h then k :: h :: rest
      else h :: rest

/-- `SetScheduler`; /repo/simulation/set-scheduler.h 97-149.  The iterator obtained before firing
is erased after firing. -/
def setImpl : Impl (List Key) where
  empty := []
  insert := setInsert
  size := List.length
  front := List.head?
  pre := id
  post k l := l.filter (· ≠ k)

/-- A heap in the sense of the C++ standard for `HeapLessThan` (heap-scheduler.h 58-67): no element
is `HeapLessThan`-greater than its parent, i.e. no element is earlier than its parent. -/
def IsHeap (l : List Key) : Prop :=
  ∀ i a b, 0 < i → l[(i - 1) / 2]? = some a → l[i]? = some b → b.lt a = false

/-- The contract of `std::push_heap` and `std::pop_heap` (C++ standard, [alg.heap.operations]), used
at /repo/simulation/heap-scheduler.h 140 and 164.  The theorems hold for every implementation that
satisfies it. -/
structure HeapAlg where
  push : List Key → List Key
  pop : List Key → List Key
  push_perm : ∀ l, (push l).Perm l
  push_heap : ∀ l k, IsHeap l → IsHeap (push (l ++ [k]))
  pop_perm : ∀ l, (pop l).Perm l
  pop_last : ∀ k l, IsHeap (k :: l) → (pop (k :: l)).getLast? = some k
  pop_heap : ∀ l, IsHeap l → IsHeap (pop l).dropLast

/-- `HeapScheduler`; /repo/simulation/heap-scheduler.h 116-173.  The event is removed before it is
fired. -/
def heapImpl (A : HeapAlg) : Impl (List Key) where
  empty := []
  insert k l := A.push (l ++ [k])
  size := List.length
  front := List.head?
  pre l := (A.pop l).dropLast
  post _ l := l

/-- The exceptions of `ScheduleAt`, `Run` and `RunUntil`, and the null dereference in
`ScheduleNow`/`ScheduleIn`.  (/repo/simulation/list-scheduler.h 86-116, simulator.h 113-160.) -/
inductive Err where
  | uninitialized | invalidPointer | invalidArgument | noScheduledEvent
  | nullDeref
deriving Repr, DecidableEq

section
variable {σ C : Type}

/-- Append to the ghost history.  (Ghost; no code.) -/
def View.log (v : View σ) (e : Entry) : View σ := { v with trace := v.trace ++ [(v.now, e)] }

/-- `ScheduleAt`; /repo/simulation/list-scheduler.h 97-143, set-scheduler.h 97-122,
heap-scheduler.h 116-143. -/
def World.scheduleAt (I : Impl C) (w : World σ C) (t : Int) (sink : Option σ) :
    Except Err (Nat × World σ C) :=
  if !w.clocked then .error .uninitialized
  else match sink with
    | none => .error .invalidPointer
    | some s =>
      if t < w.view.now then .error .invalidArgument
      else
        let id := w.view.handles.length
        .ok (id, { w with
          view := { w.view.log (.sched id t) with
            handles := w.view.handles ++ [⟨t, some s, false⟩] },
          queue := I.insert ⟨t, id⟩ w.queue })

/-- `ScheduleNow`; /repo/simulation/list-scheduler.h 86-89, set-scheduler.h 86-89,
heap-scheduler.h 105-108: the clock is dereferenced before any check. -/
def World.scheduleNow (I : Impl C) (w : World σ C) (sink : Option σ) :
    Except Err (Nat × World σ C) :=
  if !w.clocked then .error .nullDeref else w.scheduleAt I w.view.now sink

/-- `ScheduleIn`; /repo/simulation/list-scheduler.h 91-95, set-scheduler.h 91-95,
heap-scheduler.h 110-114. -/
def World.scheduleIn (I : Impl C) (w : World σ C) (dt : Int) (sink : Option σ) :
    Except Err (Nat × World σ C) :=
  if !w.clocked then .error .nullDeref else w.scheduleAt I (w.view.now + dt) sink

/-- What a sink (or the user between two runs) may do.
(The client's; the methods are /repo/simulation/list-scheduler.h 86-143, event-handle.h 85-88, simulator.h 187-190.) -/
inductive Action (σ : Type) where
  | at (t : Int) (sink : Option σ)
  | now (sink : Option σ)
  | in (dt : Int) (sink : Option σ)
  | cancel (id : Nat)
  | pause

/-- Keep the old state when an exception was thrown.  (The sink catches the exception; no code.) -/
def World.orKeep (w : World σ C) : Except Err (Nat × World σ C) → World σ C
  | .ok (_, w') => w'
  | .error _ => w

/-- Perform one action: `ScheduleAt/Now/In`, `IEventHandle::Cancel` (event-handle.h 85-88) on an
existing handle, or `Simulator::Pause` (/repo/simulation/simulator.h 187-190). -/
def World.perform (I : Impl C) (w : World σ C) : Action σ → World σ C
  | .at t s => w.orKeep (w.scheduleAt I t s)
  | .now s => w.orKeep (w.scheduleNow I s)
  | .in dt s => w.orKeep (w.scheduleIn I dt s)
  | .cancel id =>
    if id < w.view.handles.length then
      { w with view := { w.view.log (.cancel id) with
          handles := w.view.handles.modify id Handle.cancel } }
    else w
  | .pause => { w with view := { w.view.log .pauseReq with paused := true } }

/-- Perform actions one after another.  (The client's; no code.) -/
def World.performs (I : Impl C) (w : World σ C) (as : List (Action σ)) : World σ C :=
  as.foldl (World.perform I) w

/-- A simulation program: what each sink does, and what the sinks connected to the begin, run, pause
and end events of the simulator do (all of them together, in order).  (The client's; no code.) -/
structure Prog (σ : Type) where
  sink : σ → View σ → List (Action σ)
  onBegin : View σ → List (Action σ)
  onRun : View σ → List (Action σ)
  onPause : View σ → List (Action σ)
  onEnd : View σ → List (Action σ)

/-- The state in which the sink of event `k` is called; /repo/simulation/event-handle.h 105-107. -/
def World.fireBegin (w : World σ C) (k : Key) : World σ C :=
  { w with view := { w.view.log (.fire k.id k.t) with
      handles := w.view.handles.modify k.id Handle.fireBegin } }

/-- The state after the sink of event `k` returned; /repo/simulation/event-handle.h 109-110. -/
def World.fireEnd (w : World σ C) (k : Key) : World σ C :=
  { w with view := { w.view.log (.done k.id) with
      handles := w.view.handles.modify k.id Handle.fireEnd } }

/-- `EventHandle::Fire()`; /repo/simulation/event-handle.h 103-112. -/
def World.fire (I : Impl C) (P : Prog σ) (k : Key) (w : World σ C) : World σ C :=
  match w.view.handles[k.id]? with
  | some ⟨_, some s, _⟩ =>
    let w1 := w.fireBegin k
    (w1.performs I (P.sink s w1.view)).fireEnd k
  | _ => w

/-- `FireAndRemoveNextEvent()`; /repo/simulation/list-scheduler.h 160-168, set-scheduler.h 140-149,
heap-scheduler.h 160-173. -/
def World.fireAndRemove (I : Impl C) (P : Prog σ) (w : World σ C) : World σ C :=
  match I.front w.queue with
  | none => w
  | some k =>
    let w1 := { w with queue := I.pre w.queue }
    let w2 := w1.fire I P k
    { w2 with queue := I.post k w2.queue }

/-- Assign `now_`.  (/repo/simulation/simulator.h 134, 163, 170, 173.) -/
def World.setNow (w : World σ C) (t : Int) : World σ C := { w with view := { w.view with now := t } }

/-- The loop of `Run()`; /repo/simulation/simulator.h 126-137.  The `Bool` says whether the loop
ended within the given number of iterations. -/
def World.runLoop (I : Impl C) (P : Prog σ) : Nat → World σ C → World σ C × Bool
  | 0, w => (w, false)
  | n + 1, w =>
    if w.view.paused then (w, true)
    else match I.front w.queue with
      | none => (w, true)
      | some k => World.runLoop I P n ((w.setNow k.t).fireAndRemove I P)

/-- The loop of `RunUntil()`; /repo/simulation/simulator.h 157-176. -/
def World.untilLoop (I : Impl C) (P : Prog σ) (t : Int) : Nat → World σ C → World σ C × Bool
  | 0, w => (w, false)
  | n + 1, w =>
    if w.view.paused then (w, true)
    else match I.front w.queue with
      | none => (w.setNow t, true)
      | some k =>
        if k.t > t then (w.setNow t, true)
        else World.untilLoop I P t n ((w.setNow k.t).fireAndRemove I P)

/-- Fire one of the simulator's own events; /repo/simulation/simulator.h 213-231. -/
def World.notify (I : Impl C) (w : World σ C) (e : Entry) (f : View σ → List (Action σ)) :
    World σ C :=
  let w1 := { w with view := w.view.log e }
  w1.performs I (f w1.view)

/-- `CheckBeginOfSimulation()`; /repo/simulation/simulator.h 193-200. -/
def World.checkBegin (I : Impl C) (P : Prog σ) (w : World σ C) : World σ C :=
  if w.view.started then w
  else { w with view := { w.view with started := true } }.notify I .begin P.onBegin

/-- `CheckEndOfSimulation()`; /repo/simulation/simulator.h 202-208. -/
def World.checkEnd (I : Impl C) (P : Prog σ) (w : World σ C) : World σ C :=
  if I.size w.queue = 0 then w.notify I .finish P.onEnd else w

/-- `paused_ = b`; /repo/simulation/simulator.h 123, 138. -/
def World.setPaused (w : World σ C) (b : Bool) : World σ C :=
  { w with view := { w.view with paused := b } }

/-- The part of `Run()`/`RunUntil()` before the loop; /repo/simulation/simulator.h 122-124,
153-155. -/
def World.prologue (I : Impl C) (P : Prog σ) (w : World σ C) : World σ C :=
  ((w.checkBegin I P).setPaused false).notify I .run P.onRun

/-- The part of `Run()`/`RunUntil()` after the loop; /repo/simulation/simulator.h 138-140,
177-179. -/
def World.epilogue (I : Impl C) (P : Prog σ) (w : World σ C) : World σ C :=
  ((w.setPaused true).notify I .pause P.onPause).checkEnd I P

/-- A run whose loop is still going on has not reached the epilogue.  (/repo/simulation/simulator.h 126-185.) -/
def World.close (I : Impl C) (P : Prog σ) (r : World σ C × Bool) : World σ C × Bool :=
  if r.2 then (r.1.epilogue I P, true) else r

/-- `Run()`; /repo/simulation/simulator.h 112-141. -/
def World.run (I : Impl C) (P : Prog σ) (fuel : Nat) (w : World σ C) :
    Except Err (World σ C × Bool) :=
  if !w.wired then .error .uninitialized
  else if I.size w.queue = 0 then .error .noScheduledEvent
  else .ok (World.close I P (World.runLoop I P fuel (w.prologue I P)))

/-- `RunUntil()`; /repo/simulation/simulator.h 143-180. -/
def World.runUntil (I : Impl C) (P : Prog σ) (fuel : Nat) (w : World σ C) (t : Int) :
    Except Err (World σ C × Bool) :=
  if !w.wired then .error .uninitialized
  else if I.size w.queue = 0 then .error .noScheduledEvent
  else .ok (World.close I P (World.untilLoop I P t fuel (w.prologue I P)))

/-- `RunFor()`; /repo/simulation/simulator.h 182-185. -/
def World.runFor (I : Impl C) (P : Prog σ) (fuel : Nat) (w : World σ C) (dt : Int) :
    Except Err (World σ C × Bool) :=
  w.runUntil I P fuel (w.view.now + dt)

/-- What the user of a simulator does.  (The client's; the methods are /repo/simulation/simulator.h 95-190.) -/
inductive Op (σ : Type) where
  | act (a : Action σ)
  | run
  | runUntil (t : Int)
  | runFor (dt : Int)

/-- Keep the old state when an exception was thrown.  (The user catches the exception; no code.) -/
def World.orStay (w : World σ C) : Except Err (World σ C × Bool) → World σ C × Bool
  | .ok r => r
  | .error _ => (w, true)

/-- One user operation.  (/repo/simulation/simulator.h 95-190.) -/
def World.exec (I : Impl C) (P : Prog σ) (fuel : Nat) (w : World σ C) : Op σ → World σ C × Bool
  | .act a => (w.perform I a, true)
  | .run => w.orStay (w.run I P fuel)
  | .runUntil t => w.orStay (w.runUntil I P fuel t)
  | .runFor dt => w.orStay (w.runFor I P fuel dt)

/-- A history of user operations.  It stops at the first run that is still going on.  (A client; no code.) -/
def World.execs (I : Impl C) (P : Prog σ) (fuel : Nat) : World σ C → List (Op σ) → World σ C × Bool
  | w, [] => (w, true)
  | w, o :: os =>
    match w.exec I P fuel o with
    | (w', true) => World.execs I P fuel w' os
    | (w', false) => (w', false)

/-- A new simulator and a new scheduler, wired to each other with both `Use` functions;
/repo/simulation/simulator.h 69-97, /repo/simulation/list-scheduler.h 57-80. -/
def World.init (I : Impl C) : World σ C :=
  ⟨⟨0, false, true, [], []⟩, I.empty, true, true⟩

end
end Verif.Sim
