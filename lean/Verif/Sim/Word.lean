import Verif.Chrono.Model
import Verif.Sim.Exec

/-!
Simulated time in 64 bits: /repo/simulation/simulator.h, /repo/simulation/list-scheduler.h,
/repo/simulation/set-scheduler.h and /repo/simulation/heap-scheduler.h over the counts of
/repo/chrono/config.h.

`Verif.Sim.Model` takes time points and durations as unbounded integers.  The only arithmetic the
schedulers and the simulator do with them is one addition in `ScheduleIn` and one in `RunFor`; here
both are additions of signed 64-bit counts.  The language leaves an overflow undefined; the model
takes the result that two's complement hardware gives, the most benign of the possible outcomes.
-/
namespace Verif.Sim

open Verif.Chrono (i64Min i64Max I64)

section
variable {σ C : Type}

/-- The sum of two counts of type `int64_t` (/repo/chrono/config.h 102) as `operator+` of a time point
and a duration of the same resolution (/repo/simulation/config.h 39-40) computes it;
/repo/chrono/virtual-time-point.h 239-243, /repo/chrono/duration.h 925-932. -/
def wadd (a b : Int) : Int := Int.bmod (a + b) (2 ^ 64)

/-- `ScheduleIn` in 64 bits; /repo/simulation/list-scheduler.h 91-95, set-scheduler.h 91-95,
heap-scheduler.h 110-114. -/
def World.scheduleInW (I : Impl C) (w : World σ C) (dt : Int) (sink : Option σ) :
    Except Err (Nat × World σ C) :=
  if !w.clocked then .error .nullDeref else w.scheduleAt I (wadd w.view.now dt) sink

/-- One action of a sink or of the user, with `ScheduleIn` in 64 bits; as `World.perform`
(/repo/simulation/event-handle.h 85-88, /repo/simulation/simulator.h 187-190). -/
def World.performW (I : Impl C) (w : World σ C) : Action σ → World σ C
  | .in dt s => w.orKeep (w.scheduleInW I dt s)
  | a => w.perform I a

/-- Actions one after another; as `World.performs` (/repo/simulation/event-handle.h 105-108). -/
def World.performsW (I : Impl C) (w : World σ C) (as : List (Action σ)) : World σ C :=
  as.foldl (World.performW I) w

/-- `EventHandle::Fire()`; /repo/simulation/event-handle.h 103-112. -/
def World.fireW (I : Impl C) (P : Prog σ) (k : Key) (w : World σ C) : World σ C :=
  match w.view.handles[k.id]? with
  | some ⟨_, some s, _⟩ =>
    let w1 := w.fireBegin k
    (w1.performsW I (P.sink s w1.view)).fireEnd k
  | _ => w

/-- `FireAndRemoveNextEvent()`; /repo/simulation/list-scheduler.h 160-168, set-scheduler.h 140-149,
heap-scheduler.h 160-173. -/
def World.fireAndRemoveW (I : Impl C) (P : Prog σ) (w : World σ C) : World σ C :=
  match I.front w.queue with
  | none => w
  | some k =>
    let w1 := { w with queue := I.pre w.queue }
    let w2 := w1.fireW I P k
    { w2 with queue := I.post k w2.queue }

/-- The loop of `Run()`; /repo/simulation/simulator.h 126-137. -/
def World.runLoopW (I : Impl C) (P : Prog σ) : Nat → World σ C → World σ C × Bool
  | 0, w => (w, false)
  | n + 1, w =>
    if w.view.paused then (w, true)
    else match I.front w.queue with
      | none => (w, true)
      | some k => World.runLoopW I P n ((w.setNow k.t).fireAndRemoveW I P)

/-- The loop of `RunUntil()`; /repo/simulation/simulator.h 157-176. -/
def World.untilLoopW (I : Impl C) (P : Prog σ) (t : Int) : Nat → World σ C → World σ C × Bool
  | 0, w => (w, false)
  | n + 1, w =>
    if w.view.paused then (w, true)
    else match I.front w.queue with
      | none => (w.setNow t, true)
      | some k =>
        if k.t > t then (w.setNow t, true)
        else World.untilLoopW I P t n ((w.setNow k.t).fireAndRemoveW I P)

/-- Fire one of the simulator's own events; /repo/simulation/simulator.h 213-231. -/
def World.notifyW (I : Impl C) (w : World σ C) (e : Entry) (f : View σ → List (Action σ)) :
    World σ C :=
  let w1 := { w with view := w.view.log e }
  w1.performsW I (f w1.view)

/-- `CheckBeginOfSimulation()`; /repo/simulation/simulator.h 193-200. -/
def World.checkBeginW (I : Impl C) (P : Prog σ) (w : World σ C) : World σ C :=
  if w.view.started then w
  else { w with view := { w.view with started := true } }.notifyW I .begin P.onBegin

/-- `CheckEndOfSimulation()`; /repo/simulation/simulator.h 202-208. -/
def World.checkEndW (I : Impl C) (P : Prog σ) (w : World σ C) : World σ C :=
  if I.size w.queue = 0 then w.notifyW I .finish P.onEnd else w

/-- The part of `Run()`/`RunUntil()` before the loop; /repo/simulation/simulator.h 122-124,
153-155. -/
def World.prologueW (I : Impl C) (P : Prog σ) (w : World σ C) : World σ C :=
  ((w.checkBeginW I P).setPaused false).notifyW I .run P.onRun

/-- The part of `Run()`/`RunUntil()` after the loop; /repo/simulation/simulator.h 138-140,
177-179. -/
def World.epilogueW (I : Impl C) (P : Prog σ) (w : World σ C) : World σ C :=
  ((w.setPaused true).notifyW I .pause P.onPause).checkEndW I P

/-- A run whose loop is still going on has not reached the epilogue;
/repo/simulation/simulator.h 138-140, 177-179. -/
def World.closeW (I : Impl C) (P : Prog σ) (r : World σ C × Bool) : World σ C × Bool :=
  if r.2 then (r.1.epilogueW I P, true) else r

/-- `Run()`; /repo/simulation/simulator.h 112-141. -/
def World.runW (I : Impl C) (P : Prog σ) (fuel : Nat) (w : World σ C) :
    Except Err (World σ C × Bool) :=
  if !w.wired then .error .uninitialized
  else if I.size w.queue = 0 then .error .noScheduledEvent
  else .ok (World.closeW I P (World.runLoopW I P fuel (w.prologueW I P)))

/-- `RunUntil()`; /repo/simulation/simulator.h 143-180. -/
def World.runUntilW (I : Impl C) (P : Prog σ) (fuel : Nat) (w : World σ C) (t : Int) :
    Except Err (World σ C × Bool) :=
  if !w.wired then .error .uninitialized
  else if I.size w.queue = 0 then .error .noScheduledEvent
  else .ok (World.closeW I P (World.untilLoopW I P t fuel (w.prologueW I P)))

/-- `RunFor()` in 64 bits; /repo/simulation/simulator.h 182-185. -/
def World.runForW (I : Impl C) (P : Prog σ) (fuel : Nat) (w : World σ C) (dt : Int) :
    Except Err (World σ C × Bool) :=
  w.runUntilW I P fuel (wadd w.view.now dt)

/-- One user operation; /repo/simulation/simulator.h 112-190. -/
def World.execW (I : Impl C) (P : Prog σ) (fuel : Nat) (w : World σ C) : Op σ → World σ C × Bool
  | .act a => (w.performW I a, true)
  | .run => w.orStay (w.runW I P fuel)
  | .runUntil t => w.orStay (w.runUntilW I P fuel t)
  | .runFor dt => w.orStay (w.runForW I P fuel dt)

/-- A history of user operations in 64 bits; as `World.execs` (/repo/simulation/simulator.h 112-190).
It stops at the first run that is still going on. -/
def World.execsW (I : Impl C) (P : Prog σ) (fuel : Nat) : World σ C → List (Op σ) → World σ C × Bool
  | w, [] => (w, true)
  | w, o :: os =>
    match w.execW I P fuel o with
    | (w', true) => World.execsW I P fuel w' os
    | (w', false) => (w', false)

/-! ## The same simulation with all times given absolutely -/

/-- `ScheduleIn` read as `ScheduleAt`; ghost, used to relate the two models
(/repo/simulation/list-scheduler.h 91-95). -/
def Action.word (now : Int) : Action σ → Action σ
  | .in dt s => .at (wadd now dt) s
  | a => a

/-- The program whose sinks compute the times themselves; ghost
(/repo/simulation/list-scheduler.h 91-95). -/
def Prog.word (P : Prog σ) : Prog σ where
  sink s v := (P.sink s v).map (Action.word v.now)
  onBegin v := (P.onBegin v).map (Action.word v.now)
  onRun v := (P.onRun v).map (Action.word v.now)
  onPause v := (P.onPause v).map (Action.word v.now)
  onEnd v := (P.onEnd v).map (Action.word v.now)

/-- The user operation with its time given absolutely; ghost (/repo/simulation/simulator.h 182-185). -/
def Op.word (now : Int) : Op σ → Op σ
  | .act a => .act (a.word now)
  | .runFor dt => .runUntil (wadd now dt)
  | o => o

theorem performW_word (I : Impl C) (w : World σ C) (a : Action σ) :
    w.performW I a = w.perform I (a.word w.view.now) := by
  cases a with
  | «in» dt s =>
    simp only [World.performW, Action.word, World.perform, World.scheduleInW]
    cases hc : w.clocked with
    | true => rfl
    | false => simp [World.orKeep, World.scheduleAt, hc]
  | _ => rfl

theorem performsW_word (I : Impl C) (as : List (Action σ)) : ∀ w : World σ C,
    w.performsW I as = w.performs I (as.map (Action.word w.view.now)) := by
  induction as with
  | nil => intro w; rfl
  | cons a as ih =>
    intro w
    have h1 : w.performsW I (a :: as) = (w.performW I a).performsW I as := rfl
    have hn : (w.perform I (a.word w.view.now)).view.now = w.view.now :=
      performs_now I [a.word w.view.now] w
    rw [h1, ih, performW_word, hn]; rfl

theorem fireW_word (I : Impl C) (P : Prog σ) (k : Key) (w : World σ C) :
    w.fireW I P k = w.fire I P.word k := by
  unfold World.fireW World.fire
  cases h : w.view.handles[k.id]? with
  | none => rfl
  | some x =>
    obtain ⟨t, s, r⟩ := x
    cases s with
    | none => rfl
    | some s => dsimp only; rw [performsW_word]; rfl

theorem fireAndRemoveW_word (I : Impl C) (P : Prog σ) (w : World σ C) :
    w.fireAndRemoveW I P = w.fireAndRemove I P.word := by
  unfold World.fireAndRemoveW World.fireAndRemove
  cases h : I.front w.queue with
  | none => rfl
  | some k => dsimp only; rw [fireW_word]

theorem runLoopW_word (I : Impl C) (P : Prog σ) (n : Nat) : ∀ w : World σ C,
    World.runLoopW I P n w = World.runLoop I P.word n w := by
  induction n with
  | zero => intro w; rfl
  | succ n ih =>
    intro w
    simp only [World.runLoopW, World.runLoop]
    split
    · rfl
    · cases hk : I.front w.queue with
      | none => rfl
      | some k => dsimp only; rw [fireAndRemoveW_word, ih]

theorem untilLoopW_word (I : Impl C) (P : Prog σ) (t : Int) (n : Nat) : ∀ w : World σ C,
    World.untilLoopW I P t n w = World.untilLoop I P.word t n w := by
  induction n with
  | zero => intro w; rfl
  | succ n ih =>
    intro w
    simp only [World.untilLoopW, World.untilLoop]
    split
    · rfl
    · cases hk : I.front w.queue with
      | none => rfl
      | some k => dsimp only; rw [fireAndRemoveW_word, ih]

theorem notifyW_word (I : Impl C) (w : World σ C) (e : Entry) (f : View σ → List (Action σ)) :
    w.notifyW I e f = w.notify I e (fun v => (f v).map (Action.word v.now)) := by
  unfold World.notifyW World.notify
  dsimp only; rw [performsW_word]

theorem prologueW_word (I : Impl C) (P : Prog σ) (w : World σ C) :
    w.prologueW I P = w.prologue I P.word := by
  unfold World.prologueW World.prologue World.checkBeginW World.checkBegin
  simp only [notifyW_word]; rfl

theorem closeW_word (I : Impl C) (P : Prog σ) (r : World σ C × Bool) :
    World.closeW I P r = World.close I P.word r := by
  unfold World.closeW World.close World.epilogueW World.epilogue World.checkEndW World.checkEnd
  simp only [notifyW_word]; rfl

theorem runUntilW_word (I : Impl C) (P : Prog σ) (fuel : Nat) (w : World σ C) (t : Int) :
    w.runUntilW I P fuel t = w.runUntil I P.word fuel t := by
  unfold World.runUntilW World.runUntil
  rw [closeW_word, untilLoopW_word, prologueW_word]

theorem execW_word (I : Impl C) (P : Prog σ) (fuel : Nat) (w : World σ C) (o : Op σ) :
    w.execW I P fuel o = w.exec I P.word fuel (o.word w.view.now) := by
  cases o with
  | act a => simp only [World.execW, World.exec, Op.word, performW_word]
  | run =>
    simp only [World.execW, World.exec, Op.word, World.runW, World.run, closeW_word, runLoopW_word,
      prologueW_word]
  | runUntil t => simp only [World.execW, World.exec, Op.word, runUntilW_word]
  | runFor dt => simp only [World.execW, World.exec, Op.word, World.runForW, runUntilW_word]

/-- The user's operations with all times given absolutely; ghost (/repo/simulation/simulator.h
182-185). -/
def World.words (I : Impl C) (P : Prog σ) (fuel : Nat) : World σ C → List (Op σ) → List (Op σ)
  | _, [] => []
  | w, o :: os => o.word w.view.now :: World.words I P fuel (w.execW I P fuel o).1 os

theorem execsW_word (I : Impl C) (P : Prog σ) (fuel : Nat) (os : List (Op σ)) : ∀ w : World σ C,
    World.execsW I P fuel w os = World.execs I P.word fuel w (World.words I P fuel w os) := by
  induction os with
  | nil => intro w; rfl
  | cons o os ih =>
    intro w
    simp only [World.execsW, World.words, World.execs, execW_word]
    cases h : w.exec I P.word fuel (o.word w.view.now) with
    | mk w' b => cases b with
      | false => rfl
      | true => exact ih w'

/-- The absolute times do not depend on the kind of the scheduler. -/
theorem words_eq {I : Impl C} (F : Refine I) (P : Prog σ) (fuel : Nat) (os : List (Op σ)) :
    ∀ {w : World σ C} {w' : World σ (List Key)}, Rel F none w w' → Light none w' →
    World.words I P fuel w os = World.words specImpl P fuel w' os := by
  induction os with
  | nil => intro w w' _ _; rfl
  | cons o os ih =>
    intro w w' h hL
    simp only [World.words, execW_word]
    have hv : w.view.now = w'.view.now := by rw [h.view]
    have h1 := rel_exec F P.word fuel h hL (o.word w'.view.now)
    rw [hv, ih h1.1 h1.2.1]

end
end Verif.Sim
