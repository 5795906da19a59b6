import Verif.Stat.Probe
/-
Model of statistics and their collectors: `statistics/statistic.h` 42-105, `statistics/i-statistic.h` 42-135,
`statistics/statistics-container.h` 192-257, joined by `event/event.h` 125-289 and the conversion of smart pointers, `component/ptr.h` 79-110.

Any number of containers, statistics and collectors.  A statistic has a kind, the event interface of which it is made (`IStat0` to
`IStat6`, or the client's own); a collector is an object that provides the sink interfaces of any number of kinds.  `Connect` takes any
object and asks it for the sink interface.

Simplifications: a statistic or a collector is a number, given out in the order of creation; both are kept by their clients to the end.
Collectors do nothing but remember the call.  The values of a call are one value `V`, since their number and types are fixed by the kind.
Memory is C164.
-/
namespace Verif.Stat.Typed
open Verif.Event (Table fireVoid fireArgs Outcome)
open Verif.Stat.Feed (sinkOf)

/-- A statistic: the kind of its event and the event's table (statistic.h 65-66, 102). -/
structure Statistic where
  kind : Nat
  tab : Table Nat

/-- The statistics, the containers (`items_`, statistics-container.h 94-95), for each collector the kinds for which it has the sink interface
(the interface map of the collector, i-statistic.h 79-135), and the calls that collectors got: collector, kind, values. -/
structure Net (N V : Type) where
  stats : List Statistic
  conts : Nat → Items N Nat
  cols : List (List Nat)
  got : List (Nat × Nat × V)

/-- The calls: `StatisticsContainer::Add`, `erase`, `MergeFrom` (statistics-container.h 167-170, 218-257), the creation of a collector,
`Connect` and `Disconnect` by name (204-216) with a collector or a null pointer, and `Fire` of the event that `Add` returned
(statistic.h 101-104, event.h 248-289). -/
inductive Op (N V : Type)
  | add (c : Nat) (n : N) (kind : Nat)
  | erase (c : Nat) (n : N)
  | merge (c : Nat) (f : N → N) (d : Nat) (names : List N)
  | collector (kinds : List Nat)
  | connect (c : Nat) (n : N) (j : Option Nat)
  | disconnect (c : Nat) (n : N) (k : Nat)
  | fire (p : Nat) (v : V)

/-- What a call returns.  `made p`: the new statistic; `cookie p k`: connected to `p` under the cookie `k`; `dropped p`, `fired p`: the
statistic called.  The exceptions are `StatisticNotRegistered` or `StatisticAlreadyRegistered`, `InvalidPointer`, `NoInterface` and
`ConnectionLimit`.  `fault`: a null pointer is used in `Fire`.  (statistics-container.h 192-233, event.h 125-141, ptr.h 92-97.) -/
inductive Res
  | ok
  | made (p : Nat)
  | cookie (p k : Nat)
  | dropped (p : Nat)
  | fired (p : Nat)
  | refused
  | invalidPointer
  | noInterface
  | limit
  | fault
deriving DecidableEq, Repr

variable {N V : Type} [DecidableEq N]

/-- Nothing made yet: statistics-container.h 176-179. -/
def Net.init : Net N V := ⟨[], fun _ => [], [], []⟩

/-- `Ptr<IEventSinkType>` from `Ptr<IObject>`: null stays null; otherwise the object is asked for the interface;
/repo/component/ptr.h 79-97; statistic.h 88-92. -/
def convert (cols : List (List Nat)) (kind : Nat) : Option Nat → Res ⊕ Option Nat
  | none => .inr none
  | some j => if kind ∈ cols.getD j [] then .inr (some j) else .inl .noInterface

/-- `Connect`; statistic.h 88-92, event.h 125-141. -/
def Statistic.connect (cap : Nat) (t : Statistic) (cols : List (List Nat)) (p : Nat) (j : Option Nat) : Res × Statistic :=
  match convert cols t.kind j with
  | .inl r => (r, t)
  | .inr q =>
    match t.tab.connect cap q with
    | .ok r => (.cookie p r.1, { t with tab := r.2 })
    | .error _ => (if q = none then .invalidPointer else .limit, t)

/-- `Fire`: the event of `IStat0` has no arguments (kind `0`); event.h 248-262, 274-289. -/
def Statistic.fire (cap : Nat) (t : Statistic) : Outcome Nat :=
  if t.kind = 0 then fireVoid cap (fun _ _ => []) (cap + 1) t.tab else fireArgs cap (fun _ _ => []) (cap + 1) t.tab

/-- One call.  `cap` is the greatest number of connections of a statistic (event.h 100-107).  (statistics-container.h 167-170, 192-257;
statistic.h 88-104; event.h 125-157, 248-289.) -/
def Net.step (cap : Nat) (s : Net N V) : Op N V → Res × Net N V
  | .add c n kind =>
    match look (s.conts c) n with
    | some _ => (.refused, s)
    | none => (.made s.stats.length,
        { s with stats := s.stats ++ [⟨kind, Table.init⟩],
                 conts := Function.update s.conts c (Verif.Stat.add (s.conts c) n s.stats.length).2 })
  | .erase c n => (.ok, { s with conts := Function.update s.conts c (Verif.Stat.erase (s.conts c) n) })
  | .merge c f d names =>
    match mergeLoop f (s.conts d) names (s.conts c) with
    | none => (.refused, s)
    | some items => (.ok, { s with conts := Function.update s.conts c items })
  | .collector kinds => (.ok, { s with cols := s.cols ++ [kinds] })
  | .connect c n j =>
    match get (s.conts c) n with
    | none => (.refused, s)
    | some p =>
      match s.stats[p]? with
      | none => (.fault, s)
      | some t => let r := t.connect cap s.cols p j; (r.1, { s with stats := s.stats.set p r.2 })
  | .disconnect c n k =>
    match get (s.conts c) n with
    | none => (.refused, s)
    | some p =>
      match s.stats[p]? with
      | none => (.fault, s)
      | some t => (.dropped p, { s with stats := s.stats.set p { t with tab := t.tab.disconnect k } })
  | .fire p v =>
    match s.stats[p]? with
    | none => (.refused, s)
    | some t =>
      match t.fire cap with
      | .done called t' => (.fired p, ⟨s.stats.set p { t with tab := t' }, s.conts, s.cols,
          s.got ++ (called.filterMap (sinkOf t.tab)).map fun j => (j, t.kind, v)⟩)
      | _ => (.fault, s)

end Verif.Stat.Typed
