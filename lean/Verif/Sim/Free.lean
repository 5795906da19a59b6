import Verif.Sim.Nest

/-!
Model of a simulator in which every sink may do everything: the sinks of events and of the simulator's own begin, run, pause and end
events (/repo/simulation/simulator.h 193-231) schedule, cancel, pause, run the simulator, and let exceptions escape, to any depth; and
what they do next may depend on all that has happened.  So may the destructors of the sinks of events, which run where an event handle
releases its sink: in `Cancel` (event-handle.h 85-88) and at the end of `Fire` (event-handle.h 110).  `Ptr::Reset` releases before it
forgets the pointer (/repo/component/ptr.h 183-190), so the handle still has its sink then.  No function of simulator.h, event-handle.h,
event.h or the schedulers catches anything, so an exception skips what is left of all calls up to the innermost one whose caller catches
it.

The calls under way are kept on a stack, and one step is one operation of the innermost one.

Simplifications: as in `Model`; the sinks of one of the simulator's own events are one sink (an exception skips those behind it:
event.h 248-262).  A sink that is being called is not destroyed when its event is cancelled or a second call of it returns: somebody else
holds it (if not, see C136).  A program whose sinks outlive their events, or whose destructors do nothing, has empty destructors.  Sinks
of events whose handles go away before the event was fired or cancelled are not destroyed in the model.  Nothing is said about what a
program does once it is `dead`.  `pop_front()` of an empty list (list-scheduler.h 165) is modelled as leaving it empty.
-/
namespace Verif.Sim
section
variable {σ C : Type}

/-- One operation of the user or of a sink.  `run caught t`: `Run` (`none`) or `RunUntil` (`some t`); `runFor` likewise; `caught`:
exceptions of the call are caught by the caller.  `throw`: an exception.
(The client's; the methods are /repo/simulation/simulator.h 112-190.) -/
inductive FOp (σ : Type) where
  | act (a : Action σ)
  | run (caught : Bool) (t : Option Int)
  | runFor (caught : Bool) (dt : Int)
  | throw

/-- What a function of the client does: its next operation, from the number of operations it has done and from all that has happened;
`none`: it returns.  (The client's; no code.) -/
abbrev Script (σ : Type) := Nat → View σ → Option (FOp σ)

/-- A program: the sinks of events, the sinks of the simulator's own events, and the destructors of the sinks of events (of the event with
a given number).  All may look at what has happened when they are called.  (The client's; no code.) -/
structure FProg (σ : Type) where
  sink : σ → View σ → Script σ
  own : Entry → View σ → Script σ
  dtor : Nat → σ → View σ → Script σ

/-- Who runs a script: the user, a sink of the simulator's own events, or a destructor; or the sink of an event.
(The callers are /repo/simulation/simulator.h 213-231 and /repo/simulation/event-handle.h 103-112.) -/
inductive Who where
  | client
  | sink (k : Key)
deriving DecidableEq

/-- A call under way: a script after `n` operations; `Run` or `RunUntil` after the begin event, in the loop, and after the pause event
(/repo/simulation/simulator.h 123, 126-137, 140; 154, 157-176, 179); a `try` block of the client; `Cancel` and `Fire` of an event handle
after the release of the sink (/repo/simulation/event-handle.h 87, 110).  `dead`: the program has called a sink that is being destroyed,
released it again, or let an exception escape from a destructor. -/
inductive FFrame (σ : Type) where
  | body (who : Who) (s : Script σ) (n : Nat)
  | mid (t : Option Int)
  | loop (t : Option Int)
  | last
  | guard
  | cancelled (id : Nat)
  | fired (k : Key)
  | dead

/-- The calls under way, innermost first, and the simulator.  No calls: the program has ended.
(The call stack: /repo/simulation/simulator.h 113-231.) -/
abbrev FState (σ C : Type) := List (FFrame σ) × World σ C

/-- The events whose sinks are being called.  (Ghost: the call stack of /repo/simulation/event-handle.h 108.) -/
def calling : List (FFrame σ) → List Nat
  | [] => []
  | .body (.sink k) _ _ :: fs => k.id :: calling fs
  | _ :: fs => calling fs

/-- The events whose sinks are being destroyed.  (Ghost: the call stack of /repo/simulation/event-handle.h 87, 110.) -/
def dying : List (FFrame σ) → List Nat
  | [] => []
  | .cancelled id :: fs => id :: dying fs
  | .fired k :: fs => k.id :: dying fs
  | _ :: fs => dying fs

/-- An exception leaves all calls up to the innermost `try` block.  Destructors do not let exceptions pass.
(The C++ language; no code.) -/
def unwind : List (FFrame σ) → List (FFrame σ)
  | [] => []
  | .guard :: fs => fs
  | .body _ _ _ :: fs => unwind fs
  | .mid _ :: fs => unwind fs
  | .loop _ :: fs => unwind fs
  | .last :: fs => unwind fs
  | .cancelled _ :: _ => [.dead]
  | .fired _ :: _ => [.dead]
  | .dead :: fs => .dead :: fs

/-- Fire one of the simulator's own events; /repo/simulation/simulator.h 213-231. -/
def World.ownF (P : FProg σ) (e : Entry) (fs : List (FFrame σ)) (w : World σ C) : FState σ C :=
  (.body .client (P.own e (w.view.log e)) 0 :: fs, { w with view := w.view.log e })

/-- `Run()` and `RunUntil()` up to the end of `CheckBeginOfSimulation`; /repo/simulation/simulator.h 112-122, 143-153, 193-200. -/
def World.enterF (I : Impl C) (P : FProg σ) (t : Option Int) (fs : List (FFrame σ)) (w : World σ C) : FState σ C :=
  if !w.wired then (unwind fs, w)
  else if I.size w.queue = 0 then (unwind fs, w)
  else if w.view.started then (.mid t :: fs, w)
  else World.ownF P .begin (.mid t :: fs) { w with view := { w.view with started := true } }

/-- The `try` block around a call, if there is one.  (The client's; no code.) -/
def guarded (caught : Bool) (fs : List (FFrame σ)) : List (FFrame σ) := if caught then .guard :: fs else fs

/-- `Cancel()`, up to the release of the sink; /repo/simulation/event-handle.h 85-88, /repo/component/ptr.h 183-190,
524-528. -/
def World.cancelF (I : Impl C) (P : FProg σ) (id : Nat) (fs : List (FFrame σ)) (w : World σ C) : FState σ C :=
  match w.view.handles[id]? with
  | some ⟨_, some s, _⟩ =>
    if id ∈ dying fs then (.dead :: fs, w)
    else if id ∈ calling fs then (fs, w.perform I (.cancel id))
    else (.body .client (P.dtor id s w.view) 0 :: .cancelled id :: fs, w)
  | _ => (fs, w.perform I (.cancel id))

/-- One operation; /repo/simulation/simulator.h 112-190. -/
def World.opF (I : Impl C) (P : FProg σ) (fs : List (FFrame σ)) (w : World σ C) : FOp σ → FState σ C
  | .act (.cancel id) => w.cancelF I P id fs
  | .act a => (fs, w.perform I a)
  | .run c t => w.enterF I P t (guarded c fs)
  | .runFor c dt => w.enterF I P (some (w.view.now + dt)) (guarded c fs)
  | .throw => (unwind fs, w)

/-- `FireAndRemoveNextEvent()` up to the call of the sink; /repo/simulation/list-scheduler.h 160-168, set-scheduler.h 140-149,
heap-scheduler.h 160-173; /repo/simulation/event-handle.h 103-107. -/
def World.callF (I : Impl C) (P : FProg σ) (k : Key) (fs : List (FFrame σ)) (w : World σ C) : FState σ C :=
  let w1 : World σ C := { w with queue := I.pre w.queue }
  match w1.view.handles[k.id]? with
  | some ⟨_, some s, _⟩ =>
    if k.id ∈ dying fs then (.dead :: fs, w)
    else (.body (.sink k) (P.sink s (w1.fireBegin k).view) 0 :: fs, w1.fireBegin k)
  | _ => (fs, { w1 with queue := I.post k w1.queue })

/-- `running_ = false` in `Fire()`; /repo/simulation/event-handle.h 109. -/
def Handle.stopped (h : Handle σ) : Handle σ := { h with running := false }

/-- The sink of event `k` returns: the rest of `Fire()` up to the release of the sink, and the rest of `FireAndRemoveNextEvent()` if the
sink is not destroyed; /repo/simulation/event-handle.h 109-110, list-scheduler.h 165, set-scheduler.h 146, heap-scheduler.h 170. -/
def World.returnF (I : Impl C) (P : FProg σ) (k : Key) (fs : List (FFrame σ)) (w : World σ C) : FState σ C :=
  match w.view.handles[k.id]? with
  | some ⟨_, some s, _⟩ =>
    if k.id ∈ calling fs then (fs, { w.fireEnd k with queue := I.post k w.queue })
    else
      let w1 : World σ C := { w with view := { w.view.log (.done k.id) with handles := w.view.handles.modify k.id Handle.stopped } }
      (.body .client (P.dtor k.id s w1.view) 0 :: .fired k :: fs, w1)
  | _ => (fs, { w.fireEnd k with queue := I.post k w.queue })

/-- What follows the loop, up to the end of the pause event; /repo/simulation/simulator.h 138-139, 177-178. -/
def World.leaveF (P : FProg σ) (fs : List (FFrame σ)) (w : World σ C) : FState σ C :=
  World.ownF P .pause (.last :: fs) (w.setPaused true)

/-- One iteration of the loop of `Run` or `RunUntil`; /repo/simulation/simulator.h 126-137, 157-176. -/
def World.loopF (I : Impl C) (P : FProg σ) (t : Option Int) (fs : List (FFrame σ)) (w : World σ C) : FState σ C :=
  if w.view.paused then w.leaveF P fs
  else match I.front w.queue with
    | none => (w.lateN t).leaveF P fs
    | some k =>
      if pastN t k then (w.lateN t).leaveF P fs
      else (w.setNow k.t).callF I P k (.loop t :: fs)

/-- One step.  (/repo/simulation/simulator.h 113-231; the definitions that are called cite the lines.) -/
def stepF (I : Impl C) (P : FProg σ) : FState σ C → FState σ C
  | ([], w) => ([], w)
  | (.body who s n :: fs, w) =>
    match s n w.view with
    | some o => w.opF I P (.body who s (n + 1) :: fs) o
    | none =>
      match who with
      | .client => (fs, w)
      | .sink k => w.returnF I P k fs
  | (.mid t :: fs, w) => World.ownF P .run (.loop t :: fs) (w.setPaused false)
  | (.loop t :: fs, w) => w.loopF I P t fs
  | (.last :: fs, w) => if I.size w.queue = 0 then World.ownF P .finish fs w else (fs, w)
  | (.guard :: fs, w) => (fs, w)
  -- `sink_ = nullptr` after the release: event-handle.h 87, 110, and the rest of `FireAndRemoveNextEvent`
  | (.cancelled id :: fs, w) => (fs, w.perform I (.cancel id))
  | (.fired k :: fs, w) =>
    (fs, { w with view := { w.view with handles := w.view.handles.modify k.id Handle.cancel }, queue := I.post k w.queue })
  | (.dead :: fs, w) => (.dead :: fs, w)

/-- The state after `n` steps.  (A client; no code.) -/
def stepsF (I : Impl C) (P : FProg σ) : Nat → FState σ C → FState σ C
  | 0, s => s
  | n + 1, s => stepsF I P n (stepF I P s)

/-- The user's program `u` from a new simulator, after `n` steps.  (A client; no code.) -/
def execF (I : Impl C) (P : FProg σ) (u : Script σ) (n : Nat) : FState σ C := stepsF I P n ([.body .client u 0], World.init I)

/-- An operation of a program whose sinks catch everything.  (The client's; no code.) -/
def Op.free : Op σ → FOp σ
  | .act a => .act a
  | .run => .run true none
  | .runUntil t => .run true (some t)
  | .runFor dt => .runFor true dt

/-- A function that does `os`.  (The client's; no code.) -/
def scriptOf (os : List (FOp σ)) : Script σ := fun n _ => os[n]?

/-- The sinks of the simulator's own events of `P`.  (The client's; no code.) -/
def Prog.ownOf (P : Prog σ) (e : Entry) (v : View σ) : List (Action σ) :=
  match e with
  | .begin => P.onBegin v
  | .run => P.onRun v
  | .pause => P.onPause v
  | .finish => P.onEnd v
  | _ => []

/-- A program of C137 as a program of this model.  (The client's; no code.) -/
def NProg.free (P : NProg σ) : FProg σ where
  sink s v := scriptOf ((P.sink s v).map Op.free)
  own e v := scriptOf ((P.own.ownOf e v).map .act)
  dtor _ _ _ := scriptOf []

end
end Verif.Sim
