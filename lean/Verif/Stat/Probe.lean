import Verif.Stat.Model
import Verif.Event.Model
import Mathlib.Logic.Function.Basic
/-
Model of probes that feed summaries: `statistics/probe/probe.h` 40-83, `statistics/probe/probe-container.h` 179-238 and
`statistics/summary/summary.h` 49-188, joined by `event/event.h` 125-289.

Any number of probes, probe containers and summaries.  A probe is used through the `Ptr<Probe>` that `Add` returned
(`Via.held`) or through a name in a container (`Via.named`); after `MergeFrom` one probe has several names.

Simplifications: a probe or a summary is a number, given out in the order of creation; probes and summaries are kept by their
clients to the end.  Sinks other than summaries are left out.  Doubles are elements of an ordered field, as in `Verif.Stat.Model`.
Allocation does not fail.
-/
namespace Verif.Stat.Feed
open Verif.Event (Table fireArgs Outcome)

/-- The containers, probes and summaries of a program: `probeEvent_` of each probe (probe.h 66), `items_` of each container
(probe-container.h 81-82), the members of each summary (summary.h 81-85). -/
structure Net (N K : Type) where
  probes : List (Table Nat)
  conts : Nat → Items N Nat
  sums : List (Summary K)

/-- How a client reaches a probe: with the pointer `Add` returned (probe-container.h 202-215) or by a name (179-200). -/
inductive Via (N : Type)
  | held (p : Nat)
  | named (c : Nat) (n : N)
deriving DecidableEq

/-- The calls: `ProbeContainer::Add`, `erase`, `MergeFrom` (probe-container.h 154-157, 202-238), the constructor of `Summary`
(summary.h 92-101), `Connect` and `Disconnect` (probe-container.h 191-200, event.h 125-157), `Probe::Fire` (probe.h 80-83),
`Summary::Reset` (summary.h 158-165). -/
inductive Op (N K : Type)
  | add (c : Nat) (n : N)
  | erase (c : Nat) (n : N)
  | merge (c : Nat) (f : N → N) (d : Nat) (names : List N)
  | summary
  | connect (v : Via N) (j : Nat)
  | disconnect (v : Via N) (k : Nat)
  | fire (v : Via N) (x : K)
  | reset (j : Nat)

/-- What a call returns.  `made p`: the new probe; `cookie p k`: connected to the probe `p` under the cookie `k`; `dropped p`,
`fired p`: the probe called; `refused`: an exception (`ProbeNotRegistered`, `ProbeAlreadyRegistered`, `InvalidPointer`,
`ConnectionLimit`); `fault`: a null pointer is used inside `Fire`.  (probe-container.h 179-215, event.h 125-141, 274-289.) -/
inductive Res
  | ok
  | made (p : Nat)
  | cookie (p k : Nat)
  | dropped (p : Nat)
  | fired (p : Nat)
  | refused
  | fault
deriving DecidableEq, Repr

variable {N K : Type} [DecidableEq N] [Field K] [LinearOrder K]

/-- Nothing made yet: probe.h 71-74, probe-container.h 165-167. -/
def Net.init : Net N K := ⟨[], fun _ => [], []⟩

/-- The probe that a client means: `GetProbe`, probe-container.h 179-189. -/
def Net.find (s : Net N K) : Via N → Option Nat
  | .held p => if p < s.probes.length then some p else none
  | .named c n => get (s.conts c) n

/-- The table of a probe.  (probe.h 66.) -/
def Net.tab (s : Net N K) (p : Nat) : Table Nat := s.probes.getD p Table.init

/-- `OnProbe(x)` of the summary `j`; summary.h 68, 76-79, 167-188. -/
def feed (x : K) (sums : List (Summary K)) (j : Nat) : List (Summary K) := sums.modify j fun s => s.onProbe x

/-- The sink of a cookie that `Fire` has called; event.h 283, 287. -/
def sinkOf (t : Table Nat) (k : Nat) : Option Nat :=
  match t.getSink k with
  | .ok j => some j
  | .error _ => none

/-- One call.  `cap` is the greatest number of connections of a probe (event.h 100-107).  (probe-container.h 154-157, 179-238;
probe.h 80-83; event.h 125-157, 274-289; summary.h 92-101, 158-188.) -/
def Net.step (cap : Nat) (s : Net N K) : Op N K → Res × Net N K
  | .add c n =>
    match look (s.conts c) n with
    | some _ => (.refused, s)
    | none => (.made s.probes.length,
        ⟨s.probes ++ [Table.init], Function.update s.conts c (Verif.Stat.add (s.conts c) n s.probes.length).2, s.sums⟩)
  | .erase c n => (.ok, ⟨s.probes, Function.update s.conts c (Verif.Stat.erase (s.conts c) n), s.sums⟩)
  | .merge c f d names =>
    match mergeLoop f (s.conts d) names (s.conts c) with
    | none => (.refused, s)
    | some items => (.ok, ⟨s.probes, Function.update s.conts c items, s.sums⟩)
  | .summary => (.ok, ⟨s.probes, s.conts, s.sums ++ [Summary.init]⟩)
  | .connect v j =>
    match s.find v with
    | none => (.refused, s)
    | some p =>
      match (s.tab p).connect cap (if j < s.sums.length then some j else none) with
      | .error _ => (.refused, s)
      | .ok r => (.cookie p r.1, ⟨s.probes.set p r.2, s.conts, s.sums⟩)
  | .disconnect v k =>
    match s.find v with
    | none => (.refused, s)
    | some p => (.dropped p, ⟨s.probes.set p ((s.tab p).disconnect k), s.conts, s.sums⟩)
  | .fire v x =>
    match s.find v with
    | none => (.refused, s)
    | some p =>
      match fireArgs cap (fun _ _ => []) (cap + 1) (s.tab p) with
      | .done called t => (.fired p, ⟨s.probes.set p t, s.conts, (called.filterMap (sinkOf (s.tab p))).foldl (feed x) s.sums⟩)
      | _ => (.fault, s)
  | .reset j => (.ok, ⟨s.probes, s.conts, s.sums.modify j fun _ => Summary.init⟩)

/-- A history of calls with their results.  (A client; no code.) -/
def Net.run (cap : Nat) (s : Net N K) : List (Op N K) → List (Op N K × Res) × Net N K
  | [] => ([], s)
  | o :: os =>
    let r := s.step cap o
    let rest := Net.run cap r.2 os
    ((o, r.1) :: rest.1, rest.2)

end Verif.Stat.Feed
