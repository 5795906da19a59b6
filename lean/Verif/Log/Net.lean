import Verif.Log.Model
import Verif.Event.Props
set_option linter.unusedSimpArgs false
set_option linter.unusedVariables false
/-!
Model of networks of loggers: loggers that register other loggers as their sources (/repo/log/logger.h,
/repo/log/detail/log-source-pool.h, /repo/log/i-log.h 64-108).

Simplifications: the pointers that are handed over are not null (null pointers are in `Verif.Log.Model`, C73 and C74).  The model
stops at the first exception (the state of a logger after one is in C73 and C74).  A plain log source is a logger that is never given a
source or a filter.  Whether the filter of a logger accepts the record is a parameter (what it sees is in C75).  Reference counts are not
modelled.
-/
namespace Verif.Log.Net
open Verif.Event (Table Reachable sinkAt liveCookies)

/-- A sink of a logger: another logger (through `sink_`, log-source-pool.h 61) or a sink of the user. -/
inductive Snk | logger (i : Nat) | user (k : Nat)
deriving DecidableEq, Repr

/-- A logger; logger.h 88-100, log-source-pool.h 56-62: its event, whether `sink_` is set, the registered sources with the cookies of
the connections. -/
structure Node where
  ev : Table Snk
  sink : Bool
  items : List (Option Nat × Nat)
deriving DecidableEq, Repr

/-- logger.h 107-110. -/
def Node.init : Node := ⟨.init, false, []⟩

/-- All loggers (`Logger` objects, logger.h 51-101) of a program. -/
abbrev Loggers := Nat → Node

/-- Exceptions: of `LogSourcePool::Connect` (log-source-pool.h 123-128), of an event (event.h 125-141), and a recursion that is deeper
than the stack. -/
inductive Err | illegalMethodCall | event (e : Event.Err) | stack
deriving DecidableEq, Repr

/-- `it->first = ...; it->second = ...` for the item `a` of logger `j`; log-source-pool.h 87-97, 117-118, 137, 151. -/
def Loggers.setItem (net : Loggers) (j a : Nat) (x : Option Nat × Nat) : Loggers :=
  upd net j { net j with items := (net j).items.set a x }

/-- The loop of `LogSourcePool::Connect()`; log-source-pool.h 131-139, with `n` items to go from the item `a` of logger `j`.
`conn` is `Connect()` of the sources. -/
def connLoop (conn : Loggers → Nat → Snk → Except Err (Nat × Loggers)) (j : Nat) : Nat → Nat → Loggers → Except Err Loggers
  | 0, _, net => .ok net
  | n + 1, a, net => match (net j).items[a]? with
    | some (some s, _) => match conn net s (.logger j) with
      | .error e => .error e
      | .ok (k, net') => connLoop conn j n (a + 1) (net'.setItem j a (some s, k))
    | _ => connLoop conn j n (a + 1) net

/-- `Logger::Connect()`; logger.h 112-119 with log-source-pool.h 121-140.  The first number bounds the depth of the recursion. -/
def connect (cap : Nat) : Nat → Loggers → Nat → Snk → Except Err (Nat × Loggers)
  | 0, _, _, _ => .error .stack
  | f + 1, net, i, s =>
    match (if (net i).ev.num = 0 then
        if (net i).sink then .error .illegalMethodCall
        else connLoop (connect cap f) i (net i).items.length 0 (upd net i { net i with sink := true })
      else .ok net : Except Err Loggers) with
    | .error e => .error e
    | .ok net' => match (net' i).ev.connect cap (some s) with
      | .error e => .error (.event e)
      | .ok (k, tb) => .ok (k, upd net' i { net' i with ev := tb })

/-- The loop of `LogSourcePool::Disconnect()`; log-source-pool.h 144-154. -/
def discLoop (disc : Loggers → Nat → Nat → Except Err Loggers) (j : Nat) : Nat → Nat → Loggers → Except Err Loggers
  | 0, _, net => .ok net
  | n + 1, a, net => match (net j).items[a]? with
    | some (some s, c) => match disc net s c with
      | .error e => .error e
      | .ok net' => discLoop disc j n (a + 1) (net'.setItem j a (some s, 0))
    | _ => discLoop disc j n (a + 1) net

/-- `Logger::Disconnect()`; logger.h 121-128 with log-source-pool.h 142-156. -/
def disconnect : Nat → Loggers → Nat → Nat → Except Err Loggers
  | 0, _, _, _ => .error .stack
  | f + 1, net, i, c =>
    let net1 := upd net i { net i with ev := (net i).ev.disconnect c }
    if (net1 i).ev.num = 0 then
      match discLoop (disconnect f) i (net i).items.length 0 net1 with
      | .error e => .error e
      | .ok net2 => .ok (upd net2 i { net2 i with sink := false })
    else .ok net1

/-- `Logger::RegisterSource()`; logger.h 147-150 with log-source-pool.h 66-101.  The result is the cookie of the registration. -/
def register (cap f : Nat) (net : Loggers) (j s : Nat) : Except Err (Nat × Loggers) :=
  let a := slot (net j).items
  let c := ((net j).items[a]?.map (·.2)).getD 0
  let net1 : Loggers := if a < (net j).items.length then net.setItem j a (some s, c)
    else upd net j { net j with items := (net j).items ++ [(some s, 0)] }
  if (net1 j).sink then
    match connect cap f net1 s (.logger j) with
    | .error e => .error e
    | .ok (k, net2) => .ok (a + 1, net2.setItem j a (some s, k))
  else .ok (a + 1, net1)

/-- `Logger::UnregisterSource()`; logger.h 152-155 with log-source-pool.h 103-119.  `none` if the assertion of line 105 fails. -/
def unregister (f : Nat) (net : Loggers) (j c : Nat) : Option (Except Err Loggers) :=
  if c = 0 then some (.ok net)
  else match (net j).items[c - 1]? with
    | none => none
    | some (some s, k) =>
      if k ≠ 0 then some (match disconnect f net s k with
        | .error e => .error e
        | .ok net' => .ok (net'.setItem j (c - 1) (none, 0)))
      else some (.ok (net.setItem j (c - 1) (none, 0)))
    | some (none, _) => some (.ok (net.setItem j (c - 1) (none, 0)))

/-- Calls of the user; logger.h 61-71. -/
inductive Op
  | connect (i k : Nat)
  | disconnect (i c : Nat)
  | register (j s : Nat)
  | unregister (j c : Nat)
deriving DecidableEq, Repr

/-- One call (logger.h 112-155) and the cookie it returns (0 if it returns nothing). -/
def step (cap f : Nat) (net : Loggers) : Op → Option (Except Err (Nat × Loggers))
  | .connect i k => some (connect cap f net i (.user k))
  | .disconnect i c => some ((disconnect f net i c).map fun n => (0, n))
  | .register j s => some (register cap f net j s)
  | .unregister j c => (unregister f net j c).map fun r => r.map fun n => (0, n)

/-- `Logger::IsEnabled()`; logger.h 157-160. -/
def isEnabled (net : Loggers) (i : Nat) : Bool := (net i).ev.num ≠ 0

/-- `Logger::Fire()`; logger.h 130-145, on a record that the filter of logger `i` accepts if `acc i`: the user's sinks that are called, as
logger, cookie and sink.  `none` if the recursion is deeper than the stack or the event fails. -/
def fire (cap : Nat) (acc : Nat → Bool) : Nat → Loggers → Nat → Option (List (Nat × Nat × Nat))
  | 0, _, _ => none
  | f + 1, net, i =>
    if acc i then
      match Event.fireArgs cap (fun _ _ => []) (cap + 1) (net i).ev with
      | .done cs _ => (cs.mapM fun c => match sinkAt (net i).ev c with
          | some (.logger j) => fire cap acc f net j
          | some (.user k) => some [(i, c, k)]
          | none => some []).map List.flatten
      | _ => none
    else some []

/-! ### The view of the user -/

/-- The calls so far and the cookies they returned.  (Specification; no code.) -/
abbrev Trace := List (Op × Nat)

/-- The sink that the user connected to logger `i` and that got the cookie `c`, unless it was disconnected.
(Specification; no code.) -/
def connected (i c : Nat) (tr : Trace) : Option Nat := tr.foldl (fun o e => match e with
  | (.connect i' k, c') => if i' = i ∧ c' = c then some k else o
  | (.disconnect i' c', _) => if i' = i ∧ c' = c then none else o
  | _ => o) none

/-- The source that the user registered with logger `j` under the cookie `c`, unless it was unregistered.
(Specification; no code.) -/
def registered (j c : Nat) (tr : Trace) : Option Nat := tr.foldl (fun o e => match e with
  | (.register j' s, c') => if j' = j ∧ c' = c then some s else o
  | (.unregister j' c', _) => if j' = j ∧ c' = c then none else o
  | _ => o) none

/-- What the user takes care of: only own connections and registrations are undone, and no logger becomes, directly or through others,
its own source: each has a level, and sources are of a lower level.  (Specification; no code.) -/
def Ok (rk : Nat → Nat) (tr : Trace) : Op → Prop
  | .connect _ _ => True
  | .disconnect i c => (connected i c tr).isSome
  | .register j s => rk s < rk j
  | .unregister j c => (registered j c tr).isSome

/-- The networks that the user can build, with the calls so far.  (Specification; no code.) -/
inductive Reach (cap f : Nat) (rk : Nat → Nat) : Loggers → Trace → Prop
  | init : Reach cap f rk (fun _ => .init) []
  | step {net net' : Loggers} {tr : Trace} {o : Op} {c : Nat} : Reach cap f rk net tr → Ok rk tr o →
      step cap f net o = some (.ok (c, net')) → Reach cap f rk net' (tr ++ [(o, c)])

end Verif.Log.Net
