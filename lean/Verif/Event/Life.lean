import Verif.Event.Lemmas
/-!
Model of the life time of sinks that are being called.

A sink is a reference counted object (/repo/component/ptr.h, /repo/component/object.h): it is
destroyed when the last `Ptr` to it goes away.  `Event`, `Event<..., 1>` and `EventHandle` keep one
`Ptr` per connection and call the sink through that very `Ptr`, without taking another one:
`sinks_[i]->Fire()` (/repo/event/event.h 257, 283, 287), `sink_->Fire()` (/repo/event/event.h 392,
401) and `sink_->Fire()` (/repo/simulation/event-handle.h 108).  `Disconnect()` and `Cancel()`
reset that `Ptr`.

The three classes are described by a `Source` and run by one small-step machine, so that sinks may
connect, disconnect, hold and release sinks, and fire the source again, to any depth.

Simplifications: an object is a number, given out by `create`; the other `Ptr`s to it are counted in
`held`.  Whoever holds or connects a sink must have a pointer to it, so that these do nothing for a
sink that does not exist.  A call uses its sink each time it does something (it runs in the sink's
functor), and not when it returns.  The destructors of sinks do nothing.
-/
namespace Verif.Event

/-- What the loop of `Fire` does next.  (/repo/event/event.h 248-289, 386-402; /repo/simulation/event-handle.h 100-112.) -/
inductive Next
  | stop
  | skip
  | call (c s : Nat)
  /-- the call after the loop of /repo/event/event.h 287 -/
  | callLast (c s : Nat)
  | null
deriving Repr, DecidableEq

/-- Something that keeps sinks and calls them: `Event`, `Event<..., 1>`, or the events of a
scheduler (/repo/event/event.h 100-418, /repo/simulation/event-handle.h 36-146). -/
structure Source (τ : Type) where
  init : τ
  /-- The `Ptr` kept under `c`. -/
  look : τ → Nat → Option Nat
  /-- The `Ptr`s kept. -/
  kept : τ → List Nat
  connect : τ → Nat → τ
  disconnect : τ → Nat → τ
  /-- `next t k i`: firing `k`, at the index `i` of the loop. -/
  next : τ → Nat → Nat → Next
  /-- What happens to `c` when the call of its sink has returned. -/
  finish : τ → Nat → τ

/-- `Event<IEventName, cap>` with `Fire(void)`; /repo/event/event.h 125-198, 248-262. -/
def voidEvent (cap : Nat) : Source (Table Nat) where
  init := Table.init
  look t c := if c = 0 then none else t.sl (c - 1)
  kept t := t.slots.filterMap id
  connect t s := t.apply cap (.connect (some s))
  disconnect t c := t.apply cap (.disconnect c)
  next t _ i :=
    if i < t.last then
      match t.slots[i]? with
      | none => .null
      | some none => .skip
      | some (some s) => .call (i + 1) s
    else .stop
  finish t _ := t

/-- `Event<IEventName, cap>` with `Fire(args...)`; /repo/event/event.h 125-198, 274-289. -/
def argsEvent (cap : Nat) : Source (Table Nat) where
  init := Table.init
  look t c := if c = 0 then none else t.sl (c - 1)
  kept t := t.slots.filterMap id
  connect t s := t.apply cap (.connect (some s))
  disconnect t c := t.apply cap (.disconnect c)
  next t _ i :=
    if i = 0 ∧ t.last = 0 then .stop
    else if i < dec32 t.last then
      match t.slots[i]? with
      | none => .null
      | some none => .skip
      | some (some s) => .call (i + 1) s
    else
      match t.slots[i]? with
      | some (some s) => .callLast (i + 1) s
      | _ => .null
  finish t _ := t

/-- `Event<IEventName, 1>`; /repo/event/event.h 327-347, 385-405. -/
def oneEvent : Source (One Nat) where
  init := ⟨none⟩
  look t c := if c = 1 then t.sink else none
  kept t := t.sink.toList
  connect t s := match t.connect (some s) with
    | .ok r => r.2
    | .error _ => t
  disconnect t c := t.disconnect c
  next t _ i :=
    if i = 0 then
      match t.sink with
      | some s => .callLast 1 s
      | none => .stop
    else .stop
  finish t _ := t

/-- Event handles, numbered in the order of their creation: the constructors, `Cancel()` and
`Fire()`; /repo/simulation/event-handle.h 40-58, 83-86, 103-112.  `sink_ = nullptr` after the call
is `finish`. -/
def handles : Source (List (Option Nat)) where
  init := []
  look t c := (t[c]?).join
  kept t := t.filterMap id
  connect t s := t ++ [some s]
  disconnect t c := t.set c none
  next t k i :=
    if i = 0 then
      match (t[k]?).join with
      | some s => .callLast k s
      | none => .stop
    else .stop
  finish t c := t.set c none

/-- What the program, or a sink that is being called, can do: make a sink object and keep a `Ptr` to
it; copy a `Ptr`; let go of one; `Connect` (or `ScheduleAt`); `Disconnect` (or `Cancel`); `Fire`.
(The client's; the methods are /repo/event/event.h 125-157 and 248-289, /repo/component/ptr.h 60-200.) -/
inductive Act
  | create
  | hold (s : Nat)
  | release (s : Nat)
  | connect (s : Nat)
  | disconnect (c : Nat)
  | fire (k : Nat)
deriving Repr, DecidableEq

/-- The source, the `Ptr`s kept elsewhere, the number of sinks made, and the calls made so far
(connection and sink).  (/repo/event/event.h 303-307 and the client's `Ptr`s.) -/
structure World (τ : Type) where
  t : τ
  held : List Nat
  made : Nat
  calls : List (Nat × Nat)
deriving Repr, DecidableEq

/-- A sink exists as long as there is a `Ptr` to it; /repo/component/object.h (`Release`). -/
def World.alive {τ : Type} (S : Source τ) (w : World τ) (s : Nat) : Bool :=
  w.held.contains s || (S.kept w.t).contains s

/-- One act other than `fire`.  (/repo/event/event.h 125-157; /repo/component/ptr.h 60-200.) -/
def World.act {τ : Type} (S : Source τ) (w : World τ) : Act → World τ
  | .create => { w with held := w.held ++ [w.made], made := w.made + 1 }
  | .hold s => if w.alive S s then { w with held := w.held ++ [s] } else w
  | .release s => { w with held := w.held.erase s }
  | .connect s => if w.alive S s then { w with t := S.connect w.t s } else w
  | .disconnect c => { w with t := S.disconnect w.t c }
  | .fire _ => w

/-- What is under way: the program itself, a call of the sink `s` of the connection `c`, or the loop
of `Fire`, with the remaining acts.
(The call stack: /repo/event/event.h 248-289, 386-402; /repo/simulation/event-handle.h 100-112.) -/
inductive Frame
  | user (rest : List Act)
  | call (c s : Nat) (rest : List Act)
  | loop (k i : Nat)
deriving Repr, DecidableEq

/-- The acts that remain in a frame.  (The call stack; see `Frame`, /repo/event/event.h 248-289.) -/
def Frame.rest : Frame → List Act
  | .user r => r
  | .call _ _ r => r
  | .loop _ _ => []

/-- A running program: the frames under way, innermost first; or it has ended; or it has called
through a null pointer; or a sink that has been destroyed is used.
(The call stack; see `Frame`, /repo/event/event.h 248-289.) -/
inductive State (τ : Type)
  | run (stack : List Frame) (w : World τ)
  | done (w : World τ)
  | null
  | dead
deriving Repr, DecidableEq

/-- The program of the sinks: what the sink `s` does in a call, given the calls before.  (The client's; no code.) -/
abbrev Prog := List (Nat × Nat) → Nat → List Act

/-- One act of the innermost frame `f`, whose remaining acts are `r`.  (/repo/event/event.h 125-157, 248-289.) -/
def doAct {τ : Type} (S : Source τ) (a : Act) (f : Frame) (fs : List Frame) (w : World τ) : State τ :=
  match a with
  | .fire k => .run (.loop k 0 :: f :: fs) w
  | a => .run (f :: fs) (w.act S a)

/-- One step.  (/repo/event/event.h 248-289, 386-402; /repo/simulation/event-handle.h 100-112.) -/
def step {τ : Type} (S : Source τ) (P : Prog) : State τ → State τ
  | .run [] w => .done w
  | .run (.user [] :: fs) w => .run fs w
  | .run (.user (a :: r) :: fs) w => doAct S a (.user r) fs w
  | .run (.call c _ [] :: fs) w => .run fs { w with t := S.finish w.t c }
  | .run (.call c s (a :: r) :: fs) w =>
    if w.alive S s then doAct S a (.call c s r) fs w else .dead
  | .run (.loop k i :: fs) w =>
    match S.next w.t k i with
    | .stop => .run fs w
    | .skip => .run (.loop k (i + 1) :: fs) w
    | .call c s =>
      .run (.call c s (P w.calls s) :: .loop k (i + 1) :: fs) { w with calls := w.calls ++ [(c, s)] }
    | .callLast c s => .run (.call c s (P w.calls s) :: fs) { w with calls := w.calls ++ [(c, s)] }
    | .null => .null
  | .done w => .done w
  | .null => .null
  | .dead => .dead

/-- The state after `n` steps of the program `script`.  (A client; no code.) -/
def exec {τ : Type} (S : Source τ) (P : Prog) (script : List Act) : Nat → State τ
  | 0 => .run [.user script] ⟨S.init, [], 0, []⟩
  | n + 1 => step S P (exec S P script n)

end Verif.Event
