import Verif.Log.ReenterLemmas
/-!
Model of a stream sink whose pending values, filter and formatter use the sink while it calls them: /repo/log/log-stream-sink.h 88-174,
/repo/log/detail/log-pending-value-pool.h 63-101, /repo/log/log-value.h 123-138.

A stream sink calls three kinds of foreign code while it handles a record: the functors of pending values (in `Apply`), the filter (in `Decide`)
and the formatter, once for each stream (in `Format`).  Each may add, update and remove pending values, set the filter, use another
formatter, add streams and fire further records at the same sink, to any depth.

Simplifications: names, values, filters, formatters and streams are numbers; a record is the list of its names and values, and nobody but
`Apply` adds to a record.  The order in which the loop over the hash map of pending values sees them is the order of a list, to which new
names are appended.  Files are left out (`Verif.Log.Model`, `Streams`), the streams outlive the sink, and somebody holds the sink itself.
Exceptions of `Use` and `AddStream` are caught by the caller.  The names `has`, `rest`, `Rec`, `recAdd` are those of the logger
(`Verif.Log.Reenter`), which has the same pool of pending values.
-/
namespace Verif.Log.Ss
open Verif.Log.Re (has rest Rec recAdd)

/-- What a stream sink calls: the functor of a pending value (log-pending-value-pool.h 90), the filter (log-stream-sink.h 131), the formatter
(log-stream-sink.h 139). -/
inductive Who
  | value (v : Nat)
  | filter (f : Nat)
  | formatter (f : Nat)
deriving DecidableEq, Repr

/-- A stream sink; log-stream-sink.h 88-100.  `pend` are the pending values, `filter` is `filter_`, `fmt` is `formatter_`, `strs` is `ostreams_`.
`ins` counts the insertions into the hash map of pending values and `cuts` are the names erased from it, as for a logger.  `room` is the
capacity of `ostreams_` and `moves` counts its reallocations, each of which invalidates all iterators (the rules of `std::vector`). -/
structure Sk where
  pend : List (Nat × Nat)
  ins : Nat
  cuts : List Nat
  filter : Option Nat
  fmt : Option Nat
  strs : List Nat
  room : Nat
  moves : Nat
deriving DecidableEq, Repr

/-- A new sink; log-stream-sink.h 107-109. -/
def Sk.init : Sk := ⟨[], 0, [], none, none, [], 0, 0⟩

/-- Calls on a sink other than `Fire`; log-stream-sink.h 111-118, 145-174.  `none` for `Use` is a null pointer and for `AddStream` a stream that
cannot be used. -/
inductive Act
  | add (n v : Nat)
  | update (n v : Nat)
  | remove (n : Nat)
  | setFilter (f : Option Nat)
  | use (f : Option Nat)
  | addStream (k : Option Nat)
deriving DecidableEq, Repr

/-- One call; log-stream-sink.h 111-118, 145-174 with log-pending-value-pool.h 63-84.  `grow` is the growth policy of `std::vector`: when the
vector is full the elements move to a new allocation. -/
def Sk.act (grow : Nat → Nat) (l : Sk) : Act → Sk
  | .add n v => if has l.pend n then l else { l with pend := l.pend ++ [(n, v)], ins := l.ins + 1 }
  | .update n v =>
    if has l.pend n then { l with pend := l.pend.map fun e => if e.1 = n then (n, v) else e }
    else { l with pend := l.pend ++ [(n, v)], ins := l.ins + 1 }
  | .remove n => { l with pend := l.pend.filter fun e => e.1 ≠ n, cuts := l.cuts ++ [n] }
  | .setFilter f => { l with filter := f }
  | .use none => l
  | .use (some f) => { l with fmt := some f }
  | .addStream none => l
  | .addStream (some k) =>
    if l.strs.length < l.room then { l with strs := l.strs ++ [k] }
    else { l with strs := l.strs ++ [k], room := max (l.strs.length + 1) (grow l.room), moves := l.moves + 1 }

/-- Calls one after the other.  (A client; log-stream-sink.h 111-118, 145-174.) -/
def Sk.acts (grow : Nat → Nat) (l : Sk) (as : List Act) : Sk := as.foldl (Sk.act grow) l

/-- Whether an object exists: a client holds it (`own`), or the sink does (`values_`, log-pending-value-pool.h 58-59; `filter_`, `formatter_`,
log-stream-sink.h 90, 96). -/
def alive (own : Who → Bool) (l : Sk) (x : Who) : Bool :=
  own x || match x with
    | .value v => l.pend.any fun e => e.2 = v
    | .filter f => l.filter = some f
    | .formatter f => l.fmt = some f

/-- What a callee does: it returns a result (the value of a functor, the decision of a filter; that of a formatter does not matter), throws,
calls the sink, or fires a record at it and is told whether that succeeded.  (The client's; the methods are log-stream-sink.h 111-174.) -/
inductive Script
  | ret (x : Nat)
  | throw
  | act (a : Act) (k : Script)
  | fire (r : Rec) (k : Bool → Script)

/-- What happens: a call of the sink; the sink calls somebody (in a `Fire` of depth `d`; `c` is the name of the pending value, 0 for the filter,
the stream for the formatter; `r` is the record that is passed), and the callee returns (`none`: throws).
(Observations of log-stream-sink.h 120-143.) -/
inductive Ev
  | act (a : Act)
  | call (d : Nat) (x : Who) (c : Nat) (r : Rec)
  | ret (d : Nat) (x : Who) (c : Nat) (out : Option Nat)
deriving DecidableEq, Repr

/-- The programs of the callees, given what happened before, the name or stream, and the record.  (The client's; no code.) -/
abbrev Progs := List Ev → Who → Nat → Rec → Script

/-- Outcomes: it has ended, with a result or (`none`) by an exception; an invalid iterator or a null pointer has been used; the callee `x` has
been destroyed during its call, by the call `a` of the sink; or it has not ended within the given fuel.
(Outcomes of log-stream-sink.h 120-143.) -/
inductive Res (α : Type)
  | ended (out : Option α) (tr : List Ev) (l : Sk)
  | fault
  | dead (x : Who) (a : Act)
  | running
deriving DecidableEq

variable (grow : Nat → Nat) (own : Who → Bool) (P : Progs)

mutual
/-- A callee runs; `stk` are all callees that are running.  (The client's; log-stream-sink.h 111-174 are the methods it calls.) -/
def run : Nat → Nat → List Who → Script → List Ev → Sk → Res Nat
  | 0, _, _, _, _, _ => .running
  | _ + 1, _, _, .ret x, tr, l => .ended (some x) tr l
  | _ + 1, _, _, .throw, tr, l => .ended none tr l
  | n + 1, d, stk, .act a k, tr, l =>
    match stk.find? fun x => !alive own (l.act grow a) x with
    | some x => .dead x a
    | none => run n d stk k (tr ++ [.act a]) (l.act grow a)
  | n + 1, d, stk, .fire r k, tr, l =>
    match fire n (d + 1) stk r tr l with
    | .ended o tr' l' => run n d stk (k o.isSome) tr' l'
    | .fault => .fault
    | .dead x a => .dead x a
    | .running => .running

/-- The loop of `Apply()`, coming from the name `prev`; log-pending-value-pool.h 86-92.  The functor is called by `Get<LogValue>()`
(/repo/log/log-value.h 123-138); afterwards the iterator must still be valid. -/
def applyLoop : Nat → Nat → List Who → Option Nat → Rec → List Ev → Sk → Res Rec
  | 0, _, _, _, _, _, _ => .running
  | n + 1, d, stk, prev, r, tr, l =>
    match (rest prev l.pend).head? with
    | none => .ended (some r) tr l
    | some (nm, v) =>
      match run n d (.value v :: stk) (P tr (.value v) nm []) (tr ++ [.call d (.value v) nm []]) l with
      | .ended none tr' l' => .ended none (tr' ++ [.ret d (.value v) nm none]) l'
      | .ended (some x) tr' l' =>
        if l'.ins = l.ins ∧ l'.cuts.count nm = l.cuts.count nm then
          applyLoop n d stk (some nm) (recAdd r nm x) (tr' ++ [.ret d (.value v) nm (some x)]) l'
        else .fault
      | .fault => .fault
      | .dead x a => .dead x a
      | .running => .running

/-- The loop over the streams from index `i`; log-stream-sink.h 136-140.  The end and the formatter are looked up anew for each stream;
after the call the iterator must still be valid. -/
def streamLoop : Nat → Nat → List Who → Nat → Rec → List Ev → Sk → Res Unit
  | 0, _, _, _, _, _, _ => .running
  | n + 1, d, stk, i, r, tr, l =>
    match l.strs[i]? with
    | none => .ended (some ()) tr l
    | some k =>
      match l.fmt with
      | none => .fault
      | some f =>
        match run n d (.formatter f :: stk) (P tr (.formatter f) k r) (tr ++ [.call d (.formatter f) k r]) l with
        | .ended none tr' l' => .ended none (tr' ++ [.ret d (.formatter f) k none]) l'
        | .ended (some x) tr' l' =>
          if l'.moves = l.moves then streamLoop n d stk (i + 1) r (tr' ++ [.ret d (.formatter f) k (some x)]) l'
          else .fault
        | .fault => .fault
        | .dead x a => .dead x a
        | .running => .running

/-- `LogStreamSink::Fire()`; log-stream-sink.h 120-143: a `Fire` of depth `d` of the record `r`.  `LOG_ACCEPT` is 1
(/repo/log/i-log-filter.h 34-45). -/
def fire : Nat → Nat → List Who → Rec → List Ev → Sk → Res Unit
  | 0, _, _, _, _, _ => .running
  | n + 1, d, stk, r, tr, l =>
    match l.fmt with
    | none => .ended none tr l
    | some _ =>
      match applyLoop n d stk none r tr l with
      | .fault => .fault
      | .dead x a => .dead x a
      | .running => .running
      | .ended none tr' l' => .ended none tr' l'
      | .ended (some r') tr' l' =>
        match l'.filter with
        | none => streamLoop n d stk 0 r' tr' l'
        | some f =>
          match run n d (.filter f :: stk) (P tr' (.filter f) 0 r') (tr' ++ [.call d (.filter f) 0 r']) l' with
          | .fault => .fault
          | .dead x a => .dead x a
          | .running => .running
          | .ended none tr2 l2 => .ended none (tr2 ++ [.ret d (.filter f) 0 none]) l2
          | .ended (some x) tr2 l2 =>
            if x = 1 then streamLoop n d stk 0 r' (tr2 ++ [.ret d (.filter f) 0 (some x)]) l2
            else .ended (some ()) (tr2 ++ [.ret d (.filter f) 0 (some x)]) l2
end

/-! ## Specification -/

/-- The calls of the sink that happened.  (Specification; no code.) -/
def actsOf (tr : List Ev) : List Act := tr.filterMap fun e => match e with
  | .act a => some a
  | _ => none

/-- Whom a `Fire` of depth `d` called: the callee, the name or stream, and the record.  (Specification; no code.) -/
def callsAt (d : Nat) (tr : List Ev) : List (Who × Nat × Rec) := tr.filterMap fun e => match e with
  | .call d' x c r => if d' = d then some (x, c, r) else none
  | _ => none

/-- What came back to a `Fire` of depth `d`: the callee, the name or stream, and the result.  (Specification; no code.) -/
def retsAt (d : Nat) (tr : List Ev) : List (Who × Nat × Option Nat) := tr.filterMap fun e => match e with
  | .ret d' x c o => if d' = d then some (x, c, o) else none
  | _ => none

/-- Whether a call of the sink concerns the pending values.  (Specification; no code.) -/
def Act.onValues : Act → Bool
  | .add _ _ => true
  | .update _ _ => true
  | .remove _ => true
  | _ => false

/-- A call of the sink that adds no pending value and removes none, if the names in `S` are pending.  (Specification; no code.) -/
def Act.onKnown (S : Nat → Prop) : Act → Prop
  | .add n _ => S n
  | .update n _ => S n
  | .remove _ => False
  | _ => True

/-- Whether a call of the sink may give up the sink's reference to an object.  (Specification; no code.) -/
def Act.releases : Act → Who → Bool
  | .update _ _, .value _ => true
  | .remove _, .value _ => true
  | .setFilter _, .filter _ => true
  | .use _, .formatter _ => true
  | _, _ => false

/-- Every call that a program may make satisfies `p`, in whatever way it goes.  (Specification; no code.) -/
def Script.All (p : Act → Prop) : Script → Prop
  | .ret _ => True
  | .throw => True
  | .act a k => p a ∧ k.All p
  | .fire _ k => ∀ b, (k b).All p

/-- The program does not fire records.  (Specification; no code.) -/
def Script.Flat : Script → Prop
  | .ret _ => True
  | .throw => True
  | .act _ k => k.Flat
  | .fire _ _ => False

/-- The `Fire` of depth `d` ended with the exception of a callee.  (Specification; no code.) -/
def Threw (d : Nat) (new : List Ev) : Prop := ∃ x c, new.getLast? = some (.ret d x c none)

/-- `Apply` during `new`, as for a logger.  (Specification; no code.) -/
structure Applied (grow : Nat → Nat) (d : Nat) (l : Sk) (r : Rec) (new : List Ev) (vs : List (Nat × Nat × Nat)) (r' : Rec) : Prop where
  calls : callsAt d new = vs.map fun v => (.value v.2.1, v.1, [])
  rets : retsAt d new = vs.map fun v => (.value v.2.1, v.1, some v.2.2)
  record : ∀ n, r'.lookup n = (r.lookup n).or ((vs.map fun v => (v.1, v.2.2)).lookup n)
  names : (vs.map (·.1)).Sublist (l.pend.map (·.1))
  all : ∀ e ∈ (l.acts grow (actsOf new)).pend, e.1 ∈ vs.map (·.1)
  same : (∀ a ∈ actsOf new, a.onValues = false) → vs.map (fun v => (v.1, v.2.1)) = l.pend

/-- The record `r` is written during `new`: formatters are called with the record for streams, `ks` says which formatter for which stream.
The streams are exactly those that the sink has at the end, in the order in which they were added, or, if a formatter threw, some first of
them, but at least one.  (Specification; no code.) -/
structure Written (grow : Nat → Nat) (d : Nat) (l : Sk) (r : Rec) (threw : Bool) (new : List Ev) (ks : List (Nat × Nat)) : Prop where
  calls : callsAt d new = ks.map fun e => (.formatter e.1, e.2, r)
  rets : (retsAt d new).map (fun e => (e.1, e.2.1)) = ks.map fun e => (.formatter e.1, e.2)
  streams : if threw then ks ≠ [] ∧ ks.map (·.2) <+: (l.acts grow (actsOf new)).strs
    else ks.map (·.2) = (l.acts grow (actsOf new)).strs

/-- Every call goes to an object that the sink has at that moment: the value to the pending value of that name, the filter and the formatter to
those that are set, the stream is one of the sink's.  (Specification; no code.) -/
def Current (grow : Nat → Nat) : Sk → List Ev → Prop
  | _, [] => True
  | l, .act a :: t => Current grow (l.act grow a) t
  | l, .ret _ _ _ _ :: t => Current grow l t
  | l, .call _ (.value v) c _ :: t => (c, v) ∈ l.pend ∧ Current grow l t
  | l, .call _ (.filter f) _ _ :: t => l.filter = some f ∧ Current grow l t
  | l, .call _ (.formatter f) k _ :: t => l.fmt = some f ∧ k ∈ l.strs ∧ Current grow l t

end Verif.Log.Ss
