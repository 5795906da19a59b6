import Verif.Sim.Direct

/-!
Model of sinks that run the simulator: `Run()`, `RunUntil()` and `RunFor()` (/repo/simulation/simulator.h 112-185) called from the sink of
an event, which was itself called by one of these functions, to any depth.  Nothing in simulator.h or in the schedulers refuses that.

The calls under way are kept on a stack, and one step is one operation of the innermost one, or one iteration of its loop.

Simplifications: as in `Model`; sinks catch the exceptions of `Run` and `RunUntil`; the sinks of the simulator's own events do not run the
simulator.  `pop_front()` of an empty list (list-scheduler.h 165) is modelled as leaving it empty.
-/
namespace Verif.Sim
section
variable {σ C : Type}

/-- A program whose sinks may do whatever the user may do.  `own` says what the sinks of the simulator's own events do (its sinks of
events are not used).  No file: the program is the user's. -/
structure NProg (σ : Type) where
  sink : σ → View σ → List (Op σ)
  own : Prog σ

/-- A call under way: the user's program, the sink of an event, or the loop of `Run` (`none`) or `RunUntil` (`some t`);
/repo/simulation/simulator.h 126-137, 157-176. -/
inductive NFrame (σ : Type) where
  | user (rest : List (Op σ))
  | sink (k : Key) (rest : List (Op σ))
  | loop (t : Option Int)

/-- The calls under way, innermost first, and the simulator.  No calls: the program has ended.
(The call stack: /repo/simulation/simulator.h 113-185.) -/
abbrev NState (σ C : Type) := List (NFrame σ) × World σ C

/-- `Run()` and `RunUntil()` up to the loop; /repo/simulation/simulator.h 112-124, 143-155. -/
def World.enterN (I : Impl C) (P : NProg σ) (t : Option Int) (fs : List (NFrame σ)) (w : World σ C) : NState σ C :=
  if !w.wired then (fs, w)
  else if I.size w.queue = 0 then (fs, w)
  else (.loop t :: fs, w.prologue I P.own)

/-- One operation of the user or of a sink; /repo/simulation/simulator.h 112-190. -/
def World.opN (I : Impl C) (P : NProg σ) (fs : List (NFrame σ)) (w : World σ C) : Op σ → NState σ C
  | .act a => (fs, w.perform I a)
  | .run => w.enterN I P none fs
  | .runUntil t => w.enterN I P (some t) fs
  | .runFor dt => w.enterN I P (some (w.view.now + dt)) fs

/-- `now_ = t` where `RunUntil()` leaves its loop, nothing in `Run()`; /repo/simulation/simulator.h 130-134, 161-172. -/
def World.lateN (w : World σ C) : Option Int → World σ C
  | none => w
  | some t => w.setNow t

/-- `t0 > t` in `RunUntil()`, nothing in `Run()`; /repo/simulation/simulator.h 166-167. -/
def pastN : Option Int → Key → Bool
  | none, _ => false
  | some t, k => decide (k.t > t)

/-- `FireAndRemoveNextEvent()` up to the call of the sink; /repo/simulation/list-scheduler.h 160-168, set-scheduler.h 140-149,
heap-scheduler.h 160-173; /repo/simulation/event-handle.h 103-107. -/
def World.callN (I : Impl C) (P : NProg σ) (k : Key) (fs : List (NFrame σ)) (w : World σ C) : NState σ C :=
  let w1 : World σ C := { w with queue := I.pre w.queue }
  match w1.view.handles[k.id]? with
  | some ⟨_, some s, _⟩ => (.sink k (P.sink s (w1.fireBegin k).view) :: fs, w1.fireBegin k)
  | _ => (fs, { w1 with queue := I.post k w1.queue })

/-- One iteration of the loop of `Run` or `RunUntil`, and what follows the loop; /repo/simulation/simulator.h 126-140, 157-179. -/
def World.loopN (I : Impl C) (P : NProg σ) (t : Option Int) (fs : List (NFrame σ)) (w : World σ C) : NState σ C :=
  if w.view.paused then (fs, w.epilogue I P.own)
  else match I.front w.queue with
    | none => (fs, (w.lateN t).epilogue I P.own)
    | some k =>
      if pastN t k then (fs, (w.lateN t).epilogue I P.own)
      else (w.setNow k.t).callN I P k (.loop t :: fs)

/-- One step.  (/repo/simulation/simulator.h 113-185; the definitions that are called cite the lines.) -/
def stepN (I : Impl C) (P : NProg σ) : NState σ C → NState σ C
  | ([], w) => ([], w)
  | (.user [] :: fs, w) => (fs, w)
  | (.user (o :: r) :: fs, w) => w.opN I P (.user r :: fs) o
  | (.sink k [] :: fs, w) =>
    -- the sink returns: event-handle.h 109-110, and the rest of `FireAndRemoveNextEvent`
    (fs, { w.fireEnd k with queue := I.post k w.queue })
  | (.sink k (o :: r) :: fs, w) => w.opN I P (.sink k r :: fs) o
  | (.loop t :: fs, w) => w.loopN I P t fs

/-- The state after `n` steps.  (A client; no code.) -/
def stepsN (I : Impl C) (P : NProg σ) : Nat → NState σ C → NState σ C
  | 0, s => s
  | n + 1, s => stepsN I P n (stepN I P s)

/-- The user's program `os` from a new simulator, after `n` steps.  (A client; no code.) -/
def execN (I : Impl C) (P : NProg σ) (os : List (Op σ)) (n : Nat) : NState σ C :=
  stepsN I P n ([.user os], World.init I)

/-- A program whose sinks do not run the simulator.  (The client's; no code.) -/
def NProg.flat (P : Prog σ) : NProg σ := ⟨fun s v => (P.sink s v).map .act, P⟩

end
end Verif.Sim
