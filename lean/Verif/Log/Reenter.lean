import Verif.Event.Throw
import Verif.Event.Props
/-!
Model of a logger whose pending values, filter and sinks use the logger while it calls them: /repo/log/logger.h 130-181,
/repo/log/detail/log-pending-value-pool.h 63-101, /repo/log/log-value.h 123-138, /repo/event/event.h 125-198, 274-289.

A logger calls three kinds of foreign code while it handles a record: the functors of pending values (in `Apply`), the filter (in `Decide`)
and the sinks (in `Fire`).  Each may add, update and remove pending values, set the filter, connect and disconnect sinks and fire
further records at the same logger, to any depth.

Simplifications: names, values, filters and sinks are numbers; a record is the list of its names and values, and nobody but `Apply` adds to a
record (records that share a body are in `Verif.Log.Model`).  The order in which the loop over the hash map of pending values sees them
is the order of a list, to which new names are appended.  Log sources (`Verif.Log.Source`, `Verif.Log.Net`) are left out, and somebody
holds the logger itself.  Exceptions of `Connect` are caught by the caller.
-/
namespace Verif.Log.Re
open Verif.Event (Table)

/-- What a logger calls: the functor of a pending value (log-pending-value-pool.h 90), the filter (logger.h 137), a sink
(/repo/event/event.h 283, 287). -/
inductive Who
  | value (v : Nat)
  | filter (f : Nat)
  | sink (s : Nat)
deriving DecidableEq, Repr

/-- A logger; logger.h 88-100.  `pend` are the pending values, `filter` is `filter_`, `ev` the connections of `logEvent_`.  `ins` counts the
insertions into the hash map of pending values and `cuts` are the names erased from it: an insertion may rehash the map, which invalidates
all iterators, and erasing invalidates the iterators of the name (the rules of `unordered_map`, for log-pending-value-pool.h 36). -/
structure Lg where
  pend : List (Nat × Nat)
  ins : Nat
  cuts : List Nat
  filter : Option Nat
  ev : Table Nat
deriving DecidableEq, Repr

/-- A new logger; logger.h 107-110. -/
def Lg.init : Lg := ⟨[], 0, [], none, .init⟩

/-- Calls on a logger other than `Fire`; logger.h 114-128, 162-181. -/
inductive Act
  | add (n v : Nat)
  | update (n v : Nat)
  | remove (n : Nat)
  | setFilter (f : Option Nat)
  | connect (s : Option Nat)
  | disconnect (c : Nat)
deriving DecidableEq, Repr

/-- Whether a name is in the hash map.  (`emplace`, log-pending-value-pool.h 66, 73.) -/
def has (p : List (Nat × Nat)) (n : Nat) : Bool := p.any fun e => e.1 = n

/-- One call; logger.h 114-128, 162-181 with log-pending-value-pool.h 63-84 and /repo/event/event.h 125-198. -/
def Lg.act (cap : Nat) (l : Lg) : Act → Lg
  | .add n v => if has l.pend n then l else { l with pend := l.pend ++ [(n, v)], ins := l.ins + 1 }
  | .update n v =>
    if has l.pend n then { l with pend := l.pend.map fun e => if e.1 = n then (n, v) else e }
    else { l with pend := l.pend ++ [(n, v)], ins := l.ins + 1 }
  | .remove n => { l with pend := l.pend.filter fun e => e.1 ≠ n, cuts := l.cuts ++ [n] }
  | .setFilter f => { l with filter := f }
  | .connect s => { l with ev := l.ev.apply cap (.connect s) }
  | .disconnect c => { l with ev := l.ev.disconnect c }

/-- Calls one after the other.  (A client; logger.h 114-128, 162-181.) -/
def Lg.acts (cap : Nat) (l : Lg) (as : List Act) : Lg := as.foldl (Lg.act cap) l

/-- Whether an object exists: a client holds it (`own`), or the logger does (`values_`, log-pending-value-pool.h 58-59; `filter_`, logger.h 95;
`sinks_`, /repo/event/event.h 306). -/
def alive (own : Who → Bool) (l : Lg) (x : Who) : Bool :=
  own x || match x with
    | .value v => l.pend.any fun e => e.2 = v
    | .filter f => l.filter = some f
    | .sink s => l.ev.slots.any fun e => e = some s

/-- The values of a record; /repo/log/log-record.h 258. -/
abbrev Rec := List (Nat × Nat)

/-- `LogRecord::Add`; /repo/log/log-record.h 96-100, 302-305. -/
def recAdd (r : Rec) (n x : Nat) : Rec := if has r n then r else r ++ [(n, x)]

/-- What a callee does: it returns a result (the value of a functor, the decision of a filter), throws, calls the logger, or fires a record at
it and is told whether that succeeded.  (The client's; the methods are logger.h 114-181.) -/
inductive Script
  | ret (x : Nat)
  | throw
  | act (a : Act) (k : Script)
  | fire (r : Rec) (k : Bool → Script)

/-- What happens: a call of the logger; the logger calls somebody (in a `Fire` of depth `d`; `c` is the name of the pending value, 0 for the
filter, the cookie of the sink; `r` is the record that is passed), and the callee returns (`none`: throws).
(Observations of logger.h 130-145.) -/
inductive Ev
  | act (a : Act)
  | call (d : Nat) (x : Who) (c : Nat) (r : Rec)
  | ret (d : Nat) (x : Who) (c : Nat) (out : Option Nat)
deriving DecidableEq, Repr

/-- The programs of the callees, given what happened before.  (The client's; no code.) -/
abbrev Progs := List Ev → Who → Rec → Script

/-- Outcomes: it has ended, with a result or (`none`) by an exception; an invalid iterator or a null pointer has been used; the callee `x` has
been destroyed during its call, by the call `a` of the logger; or it has not ended within the given fuel.
(Outcomes of logger.h 130-145.) -/
inductive Res (α : Type)
  | ended (out : Option α) (tr : List Ev) (l : Lg)
  | fault
  | dead (x : Who) (a : Act)
  | running
deriving DecidableEq

/-- The pairs that a loop over the hash map has before it when it comes from the name `prev`.  (`++it`, log-pending-value-pool.h 88.) -/
def rest : Option Nat → List (Nat × Nat) → List (Nat × Nat)
  | none, p => p
  | some m, p => (p.dropWhile fun e => e.1 ≠ m).drop 1

variable (cap : Nat) (own : Who → Bool) (P : Progs)

mutual
/-- A callee runs; `stk` are all callees that are running.  (The client's; logger.h 114-181 are the methods it calls.) -/
def run : Nat → Nat → List Who → Script → List Ev → Lg → Res Nat
  | 0, _, _, _, _, _ => .running
  | _ + 1, _, _, .ret x, tr, l => .ended (some x) tr l
  | _ + 1, _, _, .throw, tr, l => .ended none tr l
  | n + 1, d, stk, .act a k, tr, l =>
    match stk.find? fun x => !alive own (l.act cap a) x with
    | some x => .dead x a
    | none => run n d stk k (tr ++ [.act a]) (l.act cap a)
  | n + 1, d, stk, .fire r k, tr, l =>
    match fire n (d + 1) stk r tr l with
    | .ended o tr' l' => run n d stk (k o.isSome) tr' l'
    | .fault => .fault
    | .dead x a => .dead x a
    | .running => .running

/-- The loop of `Apply()`, coming from the name `prev`; log-pending-value-pool.h 86-92.  The functor is called by `Get<LogValue>()`
(/repo/log/log-value.h 123-138); afterwards the iterator must still be valid. -/
def applyLoop : Nat → Nat → List Who → Option Nat → Rec → List Ev → Lg → Res Rec
  | 0, _, _, _, _, _, _ => .running
  | n + 1, d, stk, prev, r, tr, l =>
    match (rest prev l.pend).head? with
    | none => .ended (some r) tr l
    | some (nm, v) =>
      match run n d (.value v :: stk) (P tr (.value v) []) (tr ++ [.call d (.value v) nm []]) l with
      | .ended none tr' l' => .ended none (tr' ++ [.ret d (.value v) nm none]) l'
      | .ended (some x) tr' l' =>
        if l'.ins = l.ins ∧ l'.cuts.count nm = l.cuts.count nm then
          applyLoop n d stk (some nm) (recAdd r nm x) (tr' ++ [.ret d (.value v) nm (some x)]) l'
        else .fault
      | .fault => .fault
      | .dead x a => .dead x a
      | .running => .running

/-- The loop of `Event::Fire(args...)` from index `i`; /repo/event/event.h 274-289. -/
def sinkLoop : Nat → Nat → List Who → Nat → Rec → List Ev → Lg → Res Unit
  | 0, _, _, _, _, _, _ => .running
  | n + 1, d, stk, i, r, tr, l =>
    match l.ev.next true i with
    | .stop => .ended (some ()) tr l
    | .null => .fault
    | .skip => sinkLoop n d stk (i + 1) r tr l
    | .call s =>
      match run n d (.sink s :: stk) (P tr (.sink s) r) (tr ++ [.call d (.sink s) (i + 1) r]) l with
      | .ended none tr' l' => .ended none (tr' ++ [.ret d (.sink s) (i + 1) none]) l'
      | .ended (some x) tr' l' => sinkLoop n d stk (i + 1) r (tr' ++ [.ret d (.sink s) (i + 1) (some x)]) l'
      | .fault => .fault
      | .dead x a => .dead x a
      | .running => .running
    | .callLast s =>
      match run n d (.sink s :: stk) (P tr (.sink s) r) (tr ++ [.call d (.sink s) (i + 1) r]) l with
      | .ended o tr' l' => .ended (o.map fun _ => ()) (tr' ++ [.ret d (.sink s) (i + 1) o]) l'
      | .fault => .fault
      | .dead x a => .dead x a
      | .running => .running

/-- `Logger::Fire()`; logger.h 130-145: a `Fire` of depth `d` of the record `r`.  `LOG_ACCEPT` is 1 (/repo/log/i-log-filter.h 34-45). -/
def fire : Nat → Nat → List Who → Rec → List Ev → Lg → Res Unit
  | 0, _, _, _, _, _ => .running
  | n + 1, d, stk, r, tr, l =>
    match applyLoop n d stk none r tr l with
    | .fault => .fault
    | .dead x a => .dead x a
    | .running => .running
    | .ended none tr' l' => .ended none tr' l'
    | .ended (some r') tr' l' =>
      match l'.filter with
      | none => sinkLoop n d stk 0 r' tr' l'
      | some f =>
        match run n d (.filter f :: stk) (P tr' (.filter f) r') (tr' ++ [.call d (.filter f) 0 r']) l' with
        | .fault => .fault
        | .dead x a => .dead x a
        | .running => .running
        | .ended none tr2 l2 => .ended none (tr2 ++ [.ret d (.filter f) 0 none]) l2
        | .ended (some x) tr2 l2 =>
          if x = 1 then sinkLoop n d stk 0 r' (tr2 ++ [.ret d (.filter f) 0 (some x)]) l2
          else .ended (some ()) (tr2 ++ [.ret d (.filter f) 0 (some x)]) l2
end

/-! ## Specification -/

/-- The calls of the logger that happened.  (Specification; no code.) -/
def actsOf (tr : List Ev) : List Act := tr.filterMap fun e => match e with
  | .act a => some a
  | _ => none

/-- Whom a `Fire` of depth `d` called: the callee, the name or cookie, and the record.  (Specification; no code.) -/
def callsAt (d : Nat) (tr : List Ev) : List (Who × Nat × Rec) := tr.filterMap fun e => match e with
  | .call d' x c r => if d' = d then some (x, c, r) else none
  | _ => none

/-- What came back to a `Fire` of depth `d`: the callee, the name or cookie, and the result.  (Specification; no code.) -/
def retsAt (d : Nat) (tr : List Ev) : List (Who × Nat × Option Nat) := tr.filterMap fun e => match e with
  | .ret d' x c o => if d' = d then some (x, c, o) else none
  | _ => none

/-- Whether a call of the logger concerns the pending values.  (Specification; no code.) -/
def Act.onValues : Act → Bool
  | .add _ _ => true
  | .update _ _ => true
  | .remove _ => true
  | _ => false

/-- A call of the logger that adds no pending value and removes none, if the names in `S` are pending.  (Specification; no code.) -/
def Act.onKnown (S : Nat → Prop) : Act → Prop
  | .add n _ => S n
  | .update n _ => S n
  | .remove _ => False
  | _ => True

/-- Whether a call of the logger may give up the logger's reference to an object.  (Specification; no code.) -/
def Act.releases : Act → Who → Bool
  | .update _ _, .value _ => true
  | .remove _, .value _ => true
  | .setFilter _, .filter _ => true
  | .disconnect _, .sink _ => true
  | _, _ => false

/-- Every call that a program may make satisfies `p`, in whatever way it goes.  (Specification; no code.) -/
def Script.All (p : Act → Prop) : Script → Prop
  | .ret _ => True
  | .throw => True
  | .act a k => p a ∧ k.All p
  | .fire _ k => ∀ b, (k b).All p

/-- The program does not fire records.  (Specification; no code.) -/
def Script.Flat : Script → Prop
  | .ret _ => True
  | .throw => True
  | .act _ k => k.Flat
  | .fire _ _ => False

/-- The `Fire` of depth `d` ended with the exception of a callee.  (Specification; no code.) -/
def Threw (d : Nat) (new : List Ev) : Prop := ∃ x c, new.getLast? = some (.ret d x c none)

/-- `Apply` during `new`: the pending values `vs` (name, value, result) were called, one after the other, and their results added to the
record, where they did not replace values of the record.  Those were all the pending values, up to what the functors themselves removed or
updated.  (Specification; no code.) -/
structure Applied (cap d : Nat) (l : Lg) (r : Rec) (new : List Ev) (vs : List (Nat × Nat × Nat)) (r' : Rec) : Prop where
  calls : callsAt d new = vs.map fun v => (.value v.2.1, v.1, [])
  rets : retsAt d new = vs.map fun v => (.value v.2.1, v.1, some v.2.2)
  record : ∀ n, r'.lookup n = (r.lookup n).or ((vs.map fun v => (v.1, v.2.2)).lookup n)
  names : (vs.map (·.1)).Sublist (l.pend.map (·.1))
  all : ∀ e ∈ (l.acts cap (actsOf new)).pend, e.1 ∈ vs.map (·.1)
  same : (∀ a ∈ actsOf new, a.onValues = false) → vs.map (fun v => (v.1, v.2.1)) = l.pend

/-- `Event::Fire` during `new`: the sinks `cs` (cookie, sink) were called in the order of their cookies, each with the record `r`, and every sink
that was connected and not disconnected meanwhile was called (or, if a sink threw, is behind the last one called); without connecting no
others are called.  (Specification; no code.) -/
structure Delivered (cap d : Nat) (l : Lg) (r : Rec) (threw : Bool) (new : List Ev) (cs : List (Nat × Nat)) : Prop where
  calls : callsAt d new = cs.map fun e => (.sink e.2, e.1, r)
  order : (cs.map (·.1)).Pairwise (· < ·)
  cookies : ∀ e ∈ cs, e.1 ≠ 0 ∧ e.1 ≤ cap
  all : ∀ c s, Event.sinkAt l.ev c = some s → Act.disconnect c ∉ actsOf new → (c, s) ∈ cs ∨ threw = true ∧ ∀ e ∈ cs, e.1 < c
  only : (∀ s, Act.connect s ∉ actsOf new) → ∀ e ∈ cs, Event.sinkAt l.ev e.1 = some e.2

end Verif.Log.Re
