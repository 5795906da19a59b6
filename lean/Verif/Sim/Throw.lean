import Verif.Sim.Direct

/-!
Model of sinks that let exceptions escape: /repo/simulation/event-handle.h 103-112, the `FireAndRemoveNextEvent` of the three schedulers,
and `Run`/`RunUntil` of /repo/simulation/simulator.h.  None of these functions catches anything, so an exception of a sink skips all that
follows the call of the sink, up to the caller of `Run`, who may go on using the simulator.

Simplifications: as in `Model`; the sinks of the simulator's own begin, run, pause and end events do not throw; reference counts are not
modelled (the heap scheduler skips `Release()`, so the handle of the event is never freed).
-/
namespace Verif.Sim
section
variable {σ C : Type}

/-- A program whose sinks may throw after what they do; what a sink does and whether it throws may depend on everything seen so far.
No file: the program is the user's. -/
structure TProg (σ : Type) where
  prog : Prog σ
  throws : σ → View σ → Bool

/-- `EventHandle::Fire()`; /repo/simulation/event-handle.h 103-112.  If the sink throws, `running_` and `sink_` are left as they are.
The `Bool` says whether an exception escapes. -/
def World.fireT (I : Impl C) (P : TProg σ) (k : Key) (w : World σ C) : World σ C × Bool :=
  match w.view.handles[k.id]? with
  | some ⟨_, some s, _⟩ =>
    let w1 := w.fireBegin k
    let w2 := w1.performs I (P.prog.sink s w1.view)
    if P.throws s w1.view then (w2, true) else (w2.fireEnd k, false)
  | _ => (w, false)

/-- `FireAndRemoveNextEvent()`; /repo/simulation/list-scheduler.h 160-168, set-scheduler.h 140-149, heap-scheduler.h 160-173.  An
exception skips what is done to the container after firing. -/
def World.fireAndRemoveT (I : Impl C) (P : TProg σ) (w : World σ C) : World σ C × Bool :=
  match I.front w.queue with
  | none => (w, false)
  | some k =>
    match ({ w with queue := I.pre w.queue }).fireT I P k with
    | (w2, true) => (w2, true)
    | (w2, false) => ({ w2 with queue := I.post k w2.queue }, false)

/-- How a run stands: still going on, ended, or left by an exception of a sink; /repo/simulation/simulator.h 112-180. -/
inductive Outcome where
  | going | ended | thrown
deriving DecidableEq, Repr

/-- The loop of `Run()`; /repo/simulation/simulator.h 126-137. -/
def World.runLoopT (I : Impl C) (P : TProg σ) : Nat → World σ C → World σ C × Outcome
  | 0, w => (w, .going)
  | n + 1, w =>
    if w.view.paused then (w, .ended)
    else match I.front w.queue with
      | none => (w, .ended)
      | some k =>
        match (w.setNow k.t).fireAndRemoveT I P with
        | (w1, true) => (w1, .thrown)
        | (w1, false) => World.runLoopT I P n w1

/-- The loop of `RunUntil()`; /repo/simulation/simulator.h 157-176. -/
def World.untilLoopT (I : Impl C) (P : TProg σ) (t : Int) : Nat → World σ C → World σ C × Outcome
  | 0, w => (w, .going)
  | n + 1, w =>
    if w.view.paused then (w, .ended)
    else match I.front w.queue with
      | none => (w.setNow t, .ended)
      | some k =>
        if k.t > t then (w.setNow t, .ended)
        else match (w.setNow k.t).fireAndRemoveT I P with
          | (w1, true) => (w1, .thrown)
          | (w1, false) => World.untilLoopT I P t n w1

/-- What follows the loop is skipped by an exception; /repo/simulation/simulator.h 138-140, 177-179. -/
def World.closeT (I : Impl C) (P : TProg σ) (r : World σ C × Outcome) : World σ C × Outcome :=
  match r.2 with
  | .ended => (r.1.epilogue I P.prog, .ended)
  | _ => r

/-- `Run()`; /repo/simulation/simulator.h 112-141. -/
def World.runT (I : Impl C) (P : TProg σ) (fuel : Nat) (w : World σ C) : Except Err (World σ C × Outcome) :=
  if !w.wired then .error .uninitialized
  else if I.size w.queue = 0 then .error .noScheduledEvent
  else .ok (World.closeT I P (World.runLoopT I P fuel (w.prologue I P.prog)))

/-- `RunUntil()`; /repo/simulation/simulator.h 143-180. -/
def World.runUntilT (I : Impl C) (P : TProg σ) (fuel : Nat) (w : World σ C) (t : Int) : Except Err (World σ C × Outcome) :=
  if !w.wired then .error .uninitialized
  else if I.size w.queue = 0 then .error .noScheduledEvent
  else .ok (World.closeT I P (World.untilLoopT I P t fuel (w.prologue I P.prog)))

/-- Keep the old state when `Run()` or `RunUntil()` refused; /repo/simulation/simulator.h 114-121, 145-152. -/
def World.orStayT (w : World σ C) : Except Err (World σ C × Outcome) → World σ C × Outcome
  | .ok r => r
  | .error _ => (w, .ended)

/-- One user operation; the functions cited above, `RunFor()`: /repo/simulation/simulator.h 182-185. -/
def World.execT (I : Impl C) (P : TProg σ) (fuel : Nat) (w : World σ C) : Op σ → World σ C × Outcome
  | .act a => (w.perform I a, .ended)
  | .run => w.orStayT (w.runT I P fuel)
  | .runUntil t => w.orStayT (w.runUntilT I P fuel t)
  | .runFor dt => w.orStayT (w.runUntilT I P fuel (w.view.now + dt))

/-- A history of user operations.  The user catches the exceptions of sinks and goes on; the history stops at the first run that is still
going on.  No file: the user's program. -/
def World.execsT (I : Impl C) (P : TProg σ) (fuel : Nat) : World σ C → List (Op σ) → World σ C × Outcome
  | w, [] => (w, .ended)
  | w, o :: os =>
    match w.execT I P fuel o with
    | (w', .going) => (w', .going)
    | (w', _) => World.execsT I P fuel w' os

end
end Verif.Sim
