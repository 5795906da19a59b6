import Verif.Event.Model
import Verif.Stat.Model
/-!
Model of the log component: /repo/log/log-record.h, /repo/log/log-value.h, /repo/log/make-log-value.h,
/repo/log/detail/log-pending-value-pool.h, /repo/log/detail/log-source-pool.h, /repo/log/logger.h and
/repo/log/log-stream-sink.h.

Simplifications: names are values of a type `N`; a hash map is a list of pairs with distinct names, and the order in which a loop
over a hash map sees them is a parameter.  Reference counts of record bodies and values are not modelled (a body that no record
refers to cannot be observed).  Filters and formatters are functions that only read the record.  The connection table is the one
of `Verif.Event`.
-/
namespace Verif.Log
open Verif.Stat (Items look)

/-! ### Log values -/

/-- A log value; log-value.h 36-138 and make-log-value.h 42-133.  `E` is the state of the program that a functor may read when the
value is asked for; `leaf ty f` is a value of the type number `ty`; `nest f` is a value of the type `LogValue`. -/
inductive LV (E : Type) where
  | leaf (ty : Nat) (f : E → Nat)
  | nest (f : E → LV E)

/-- The exceptions of a record; log-record.h 117-132, log-value.h 123-138. -/
inductive RErr | notFound | typeMismatch
deriving DecidableEq, Repr

variable {E N : Type} [DecidableEq N]

/-- `LogValue::Get<T>()` for a `T` that is not `LogValue`; log-value.h 123-138. -/
def LV.get (e : E) (ty : Nat) : LV E → Except RErr Nat
  | .leaf ty' f => if ty' ≠ ty then .error .typeMismatch else .ok (f e)
  | .nest _ => .error .typeMismatch

/-- `LogValue::Get<LogValue>()`; log-value.h 123-138. -/
def LV.getValue (e : E) : LV E → Except RErr (LV E)
  | .leaf _ _ => .error .typeMismatch
  | .nest f => .ok (f e)

/-- `NormalizeLogValue()`; log-pending-value-pool.h 94-101. -/
def LV.normalize : LV E → LV E
  | .leaf ty f => .nest fun _ => .leaf ty f
  | .nest f => .nest f

/-! ### Record bodies -/

/-- `LogRecordImpl::Add`; log-record.h 96-100. -/
def bodyAdd (b : Items N (LV E)) (n : N) (v : LV E) : Bool × Items N (LV E) :=
  match look b n with
  | some _ => (false, b)
  | none => (true, b ++ [(n, v)])

/-- The assignment `it->second = value` at a key that is present.  (log-record.h 105-108, log-pending-value-pool.h 74-77.) -/
def setKey (b : Items N (LV E)) (n : N) (v : LV E) : Items N (LV E) := b.map fun e => if e.1 = n then (n, v) else e

/-- `LogRecordImpl::Update`; log-record.h 102-110; `LogPendingValuePool::Update` (after normalisation);
log-pending-value-pool.h 70-79. -/
def bodyUpdate (b : Items N (LV E)) (n : N) (v : LV E) : Items N (LV E) :=
  match look b n with
  | some _ => setKey b n v
  | none => b ++ [(n, v)]

/-- `LogRecordImpl::Exists`; log-record.h 112-115. -/
def bodyExists (b : Items N (LV E)) (n : N) : Bool := Stat.has b n

/-- `LogRecordImpl::Get`; log-record.h 117-132. -/
def bodyGet (b : Items N (LV E)) (n : N) : Except RErr (LV E) :=
  match look b n with
  | some v => .ok v
  | none => .error .notFound

/-! ### Records -/

/-- All record bodies, and for each record object the number of its body (`impl_`, log-record.h 258). -/
structure Recs (N E : Type) where
  bodies : List (Items N (LV E))
  recs : List Nat

/-- The body of a record.  (`*impl_`, log-record.h 258.) -/
def Recs.body (s : Recs N E) (r : Nat) : Option (Items N (LV E)) := s.recs[r]?.bind fun i => s.bodies[i]?

/-- Calls on records.  (log-record.h 145-230.) -/
inductive ROp (N E : Type) where
  /-- Default constructor; log-record.h 264-267. -/
  | new
  /-- Copy and move constructor; 274-277, 288-291 (`std::move` of a constant pointer copies it). -/
  | copy (r : Nat)
  /-- Copy and move assignment `q = r`; 279-286, 293-300. -/
  | assign (q r : Nat)
  /-- `Copy()`; 228-231, 269-272. -/
  | deep (r : Nat)
  /-- `Add()`; 302-305. -/
  | add (r : Nat) (n : N) (v : LV E)
  /-- `Update()`; 307-310. -/
  | update (r : Nat) (n : N) (v : LV E)

/-- One call; `none` when a record that does not exist is named.  The Boolean is the result of `Add`.
(log-record.h 264-310.) -/
def Recs.step (s : Recs N E) : ROp N E → Option (Bool × Recs N E)
  | .new => some (true, ⟨s.bodies ++ [[]], s.recs ++ [s.bodies.length]⟩)
  | .copy r => s.recs[r]?.map fun i => (true, { s with recs := s.recs ++ [i] })
  | .assign q r => if q < s.recs.length then s.recs[r]?.map fun i => (true, { s with recs := s.recs.set q i }) else none
  | .deep r => (s.body r).map fun b => (true, ⟨s.bodies ++ [b], s.recs ++ [s.bodies.length]⟩)
  | .add r n v => s.recs[r]?.bind fun i => s.bodies[i]?.map fun b =>
      ((bodyAdd b n v).1, { s with bodies := s.bodies.set i (bodyAdd b n v).2 })
  | .update r n v => s.recs[r]?.bind fun i => s.bodies[i]?.map fun b =>
      (true, { s with bodies := s.bodies.set i (bodyUpdate b n v) })

/-- A history of calls.  (A client; no code.) -/
def Recs.run (s : Recs N E) : List (ROp N E) → Option (Recs N E)
  | [] => some s
  | o :: t => match s.step o with
    | none => none
    | some r => r.2.run t

/-- `LogRecord::Get<T>()`; log-record.h 317-322. -/
def Recs.get (e : E) (s : Recs N E) (r : Nat) (n : N) (ty : Nat) : Option (Except RErr Nat) :=
  (s.body r).map fun b => match bodyGet b n with
    | .ok v => v.get e ty
    | .error x => .error x

/-- `LogRecord::Exists()`; log-record.h 312-315. -/
def Recs.hasName (s : Recs N E) (r : Nat) (n : N) : Option Bool := (s.body r).map fun b => bodyExists b n

/-! ### Pending values -/

/-- Calls on the pending values; logger.h 162-175, log-stream-sink.h 145-158. -/
inductive POp (N E : Type) where
  | add (n : N) (v : LV E)
  | update (n : N) (v : LV E)
  | remove (n : N)

/-- log-pending-value-pool.h 63-84. -/
def poolStep (p : Items N (LV E)) : POp N E → Items N (LV E)
  | .add n v => (bodyAdd p n v.normalize).2
  | .update n v => bodyUpdate p n v.normalize
  | .remove n => Stat.erase p n

/-- A history of calls on the pending values of a new logger (log-pending-value-pool.h 63-84). -/
def poolRun (os : List (POp N E)) : Items N (LV E) := os.foldl poolStep []

/-- `Apply()`; log-pending-value-pool.h 86-92.  The first argument is the pool in the order of the loop. -/
def apply (e : E) : Items N (LV E) → Items N (LV E) → Except RErr (Items N (LV E))
  | [], b => .ok b
  | (n, v) :: t, b => match v.getValue e with
    | .error x => .error x
    | .ok w => apply e t (bodyAdd b n w).2

/-- `Logger::Fire()`; logger.h 130-145, on the record `r`.  The record passed by value is a further record with the same body
(log-record.h 274-277).  The result tells whether the record is handed to the event's `Fire`. -/
def fire (e : E) (pool : Items N (LV E)) (filter : Option (E → Items N (LV E) → Bool)) (s : Recs N E) (r : Nat) :
    Option (Except RErr (Bool × Recs N E)) :=
  s.recs[r]?.bind fun i => s.bodies[i]?.map fun b => match apply e pool b with
    | .error x => .error x
    | .ok b' => .ok ((match filter with | some f => f e b' | none => true), { s with bodies := s.bodies.set i b' })

/-! ### Sources -/

/-- The sinks of a source: the logger, or another sink.  (The elements of `sinks_` of a source, /repo/event/event.h 303-307.) -/
inductive Snk | me | other (k : Nat)
deriving DecidableEq, Repr

/-- The exceptions of a logger.  (log-source-pool.h 66-140, /repo/event/event.h 125-141.) -/
inductive LErr | illegalMethodCall | event (e : Event.Err)
deriving DecidableEq, Repr

/-- A logger and the log sources; logger.h 88-100, log-source-pool.h 56-62.  `items` are the pairs of source and cookie,
`sink` tells whether `sink_` is set, `srcs` are the connection tables of the sources. -/
structure Logger where
  ev : Event.Table Nat
  sink : Bool
  items : List (Option Nat × Nat)
  srcs : Nat → Event.Table Snk

/-- A new logger without sinks and sources; logger.h 107-110, log-source-pool.h 56-65. -/
def Logger.init : Logger := ⟨.init, false, [], fun _ => .init⟩

/-- Assignment to one source of all.  (The sources are separate objects; no code.) -/
def upd {α : Type} (f : Nat → α) (k : Nat) (v : α) : Nat → α := fun j => if j = k then v else f j

/-- The loop of `Connect()`; log-source-pool.h 131-139.  `cap` is the connection limit of the sources. -/
def connectAll (cap : Nat) : List (Option Nat × Nat) → (Nat → Event.Table Snk) →
    Option LErr × List (Option Nat × Nat) × (Nat → Event.Table Snk)
  | [], f => (none, [], f)
  | (none, c) :: t, f => let r := connectAll cap t f; (r.1, (none, c) :: r.2.1, r.2.2)
  | (some s, c) :: t, f => match (f s).connect cap (some .me) with
    | .error e => (some (.event e), (some s, c) :: t, f)
    | .ok (k, tb) => let r := connectAll cap t (upd f s tb); (r.1, (some s, k) :: r.2.1, r.2.2)

/-- The loop of `Disconnect()`; log-source-pool.h 144-154. -/
def disconnectAll : List (Option Nat × Nat) → (Nat → Event.Table Snk) → List (Option Nat × Nat) × (Nat → Event.Table Snk)
  | [], f => ([], f)
  | (none, c) :: t, f => let r := disconnectAll t f; ((none, c) :: r.1, r.2)
  | (some s, c) :: t, f => let r := disconnectAll t (upd f s ((f s).disconnect c)); ((some s, 0) :: r.1, r.2)

/-- The scan of `Register()`; log-source-pool.h 72-84: the index of the first pair without source, or the end. -/
def slot : List (Option Nat × Nat) → Nat
  | [] => 0
  | (none, _) :: _ => 0
  | (some _, _) :: t => slot t + 1

/-- `Register()`; log-source-pool.h 66-101.  The result is the exception, if any, and the cookie. -/
def Logger.register (cap : Nat) (l : Logger) : Option Nat → Option LErr × Nat × Logger
  | none => (none, 0, l)
  | some s =>
    let i := slot l.items
    let c := (l.items[i]?.map (·.2)).getD 0
    let put (k : Nat) : List (Option Nat × Nat) := if i < l.items.length then l.items.set i (some s, k) else l.items ++ [(some s, k)]
    if l.sink then
      match (l.srcs s).connect cap (some .me) with
      | .error e => (some (.event e), i + 1, { l with items := put c })
      | .ok (k, tb) => (none, i + 1, { l with items := put k, srcs := upd l.srcs s tb })
    else (none, i + 1, { l with items := put c })

/-- `Unregister()`; log-source-pool.h 103-119; `none` if the assertion of line 105 fails. -/
def Logger.unregister (l : Logger) (cookie : Nat) : Option Logger :=
  if cookie = 0 then some l
  else match l.items[cookie - 1]? with
    | none => none
    | some (o, k) => some { l with
        items := l.items.set (cookie - 1) (none, 0)
        srcs := match o with
          | some s => if k ≠ 0 then upd l.srcs s ((l.srcs s).disconnect k) else l.srcs
          | none => l.srcs }

/-- `Logger::Connect()`; logger.h 112-119 and log-source-pool.h 121-140.  `cap0` is the connection limit of the logger. -/
def Logger.connect (cap0 cap : Nat) (l : Logger) (s : Option Nat) : Option LErr × Nat × Logger :=
  let r : Option LErr × Logger :=
    if l.ev.num = 0 then
      if l.sink then (some .illegalMethodCall, l)
      else let q := connectAll cap l.items l.srcs; (q.1, { l with sink := true, items := q.2.1, srcs := q.2.2 })
    else (none, l)
  match r with
  | (some e, l') => (some e, 0, l')
  | (none, l') => match l'.ev.connect cap0 s with
    | .error e => (some (.event e), 0, l')
    | .ok (k, tb) => (none, k, { l' with ev := tb })

/-- `Logger::Disconnect()`; logger.h 121-128 and log-source-pool.h 142-156. -/
def Logger.disconnect (l : Logger) (cookie : Nat) : Logger :=
  let ev := l.ev.disconnect cookie
  if ev.num = 0 then
    let q := disconnectAll l.items l.srcs
    ⟨ev, false, q.1, q.2⟩
  else { l with ev := ev }

/-- Calls on a logger, and calls of other parties on the sources.  (logger.h 64-71; /repo/event/event.h 125-157.) -/
inductive LOp where
  | connect (s : Option Nat)
  | disconnect (cookie : Nat)
  | register (s : Option Nat)
  | unregister (cookie : Nat)
  | srcConnect (s k : Nat)
  | srcDisconnect (s cookie : Nat)
deriving DecidableEq, Repr

/-- One call: the exception, the cookie it returns, and the new state.  (logger.h 112-155; /repo/event/event.h 125-157.) -/
def Logger.step (cap0 cap : Nat) (l : Logger) : LOp → Option (Option LErr × Nat × Logger)
  | .connect s => some (l.connect cap0 cap s)
  | .disconnect c => some (none, 0, l.disconnect c)
  | .register s => some (l.register cap s)
  | .unregister c => (l.unregister c).map fun l' => (none, 0, l')
  | .srcConnect s k => some (match (l.srcs s).connect cap (some (.other k)) with
    | .error e => (some (.event e), 0, l)
    | .ok (c, tb) => (none, c, { l with srcs := upd l.srcs s tb }))
  | .srcDisconnect s c => some (none, 0, { l with srcs := upd l.srcs s ((l.srcs s).disconnect c) })

/-! ### Stream sink -/

/-- A pointer in `ostreams_`: to a stream of the user, or to an element of `files_` as it was allocated.
(log-stream-sink.h 98-100, 165-188.) -/
inductive StreamPtr | user (k : Nat) | file (gen i : Nat)
deriving DecidableEq, Repr

/-- log-stream-sink.h 98-100: `ostreams_`, the size and capacity of `files_`, and the number of its present allocation. -/
structure Streams where
  ptrs : List StreamPtr
  files : Nat
  cap : Nat
  gen : Nat
deriving DecidableEq, Repr

/-- A new sink; log-stream-sink.h 107-109. -/
def Streams.init : Streams := ⟨[], 0, 0, 0⟩

/-- The calls; a stream or file that cannot be used makes the call throw without effect.  (log-stream-sink.h 165-188.) -/
inductive StOp | addStream (k : Nat) | addFile
deriving DecidableEq, Repr

/-- `AddStream` and `AddFile`; log-stream-sink.h 165-188.  `grow` is the growth policy of `std::vector`: when the vector is full the
elements move to a new allocation. -/
def Streams.step (grow : Nat → Nat) (s : Streams) : StOp → Streams
  | .addStream k => { s with ptrs := s.ptrs ++ [.user k] }
  | .addFile =>
    if s.files < s.cap then { s with ptrs := s.ptrs ++ [.file s.gen s.files], files := s.files + 1 }
    else ⟨s.ptrs ++ [.file (s.gen + 1) s.files], s.files + 1, max (s.files + 1) (grow s.cap), s.gen + 1⟩

/-- A history of calls on a new sink.  (A client; no code.) -/
def Streams.run (grow : Nat → Nat) (os : List StOp) : Streams := os.foldl (Streams.step grow) .init

/-- The loop of `Fire()`; log-stream-sink.h 136-140: the streams written to (`Sum.inr i` is the file number `i`), or `none` when a
pointer into a former allocation is used. -/
def Streams.write (s : Streams) : List StreamPtr → Option (List (Nat ⊕ Nat))
  | [] => some []
  | .user k :: t => (s.write t).map (.inl k :: ·)
  | .file g i :: t => if g = s.gen ∧ i < s.files then (s.write t).map (.inr i :: ·) else none

end Verif.Log
