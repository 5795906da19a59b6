/-!
Model of `nsfx::Event` (/repo/event/event.h) and `nsfx::Portainer` (/repo/event/portainer.h).

Simplifications: a sink (or a portainer item) is an opaque value of a type `σ`; `none` is the null
pointer.  Allocation failure (`bad_alloc`, event.h 176-196) and sinks that throw are modelled in
`Verif.Event.Throw`, destructors of sinks that use the event in `Verif.Event.Destroy`.  Sinks that are called
may connect and disconnect sinks of the same event; the exceptions `Connect` may throw inside a
sink are assumed to be caught by that sink.  The life time of the sink objects themselves is
modelled in `Verif.Event.Life`.
-/
namespace Verif.Event

/-- The connection table; /repo/event/event.h 303-307 (`numSinks_`, `last_`, `sinks_`) and
/repo/event/portainer.h 259-263 (`size_`, `last_`, `items_`). -/
structure Table (σ : Type) where
  slots : List (Option σ)
  num : Nat
  last : Nat
deriving Repr, DecidableEq

/-- The exceptions thrown by an event; /repo/event/event.h 125-141, 214-226. -/
inductive Err | invalidPointer | connectionLimit | noConnection
deriving Repr, DecidableEq

/-- Constructor; /repo/event/event.h 115-118, /repo/event/portainer.h 130-134. -/
def Table.init {σ : Type} : Table σ := ⟨[], 0, 0⟩

/-- The scan for a free slot; the `for` loop of /repo/event/event.h 163-178 and
/repo/event/portainer.h 180-195.  The result is the first index that holds no sink. -/
def findFree {σ : Type} : List (Option σ) → Nat → Option Nat
  | [], _ => none
  | none :: _, i => some i
  | some _ :: rest, i => findFree rest (i + 1)

/-- `Insert()`; /repo/event/event.h 160-198 and `InternalAdd()`; /repo/event/portainer.h 177-216. -/
def Table.insert {σ : Type} (t : Table σ) (s : σ) : Nat × Table σ :=
  if t.num < t.slots.length then
    match findFree t.slots 0 with
    | some i => (i + 1, ⟨t.slots.set i (some s), t.num + 1, max t.last (i + 1)⟩)
    | none => (0, t)
  else
    (t.num + 1, ⟨t.slots ++ [some s], t.num + 1, t.num + 1⟩)

/-- The loop `while (last_ && !sinks_[last_-1]) --last_;` of /repo/event/event.h 143-157 and
/repo/event/portainer.h 159-173. -/
def shrink {σ : Type} (slots : List (Option σ)) : Nat → Nat
  | 0 => 0
  | l + 1 => match slots[l]? with
    | some (some _) => l + 1
    | _ => shrink slots l

/-- `--cookie` on a `uint32_t`; /repo/event/config.h 45. -/
def dec32 (c : Nat) : Nat := if c = 0 then 2 ^ 32 - 1 else c - 1

/-- `Disconnect()`; /repo/event/event.h 143-157 and `Remove()`; /repo/event/portainer.h 159-173. -/
def Table.disconnect {σ : Type} (t : Table σ) (cookie : Nat) : Table σ :=
  let c := dec32 cookie
  if c < t.slots.length then
    match t.slots[c]? with
    | some (some _) =>
      let slots := t.slots.set c none
      ⟨slots, t.num - 1, shrink slots t.last⟩
    | _ => t
  else t

/-- `Event::Connect()`; /repo/event/event.h 125-141.  `cap` is the template parameter. -/
def Table.connect {σ : Type} (cap : Nat) (t : Table σ) : Option σ → Except Err (Nat × Table σ)
  | none => .error .invalidPointer
  | some s =>
    if t.num = cap then .error .connectionLimit
    else
      let r := t.insert s
      if r.1 = 0 then .error .connectionLimit else .ok r

/-- `Event::GetNumSinks()`; /repo/event/event.h 209. -/
def Table.getNumSinks {σ : Type} (t : Table σ) : Nat := t.num

/-- `Event::GetSink()`; /repo/event/event.h 214-226. -/
def Table.getSink {σ : Type} (t : Table σ) (cookie : Nat) : Except Err σ :=
  if cookie ≠ 0 ∧ cookie ≤ t.slots.length then
    match t.slots[cookie - 1]? with
    | some (some s) => .ok s
    | _ => .error .noConnection
  else .error .noConnection

/-- `Event::Visit()`; /repo/event/event.h 235-246: the sinks handed to the visitor, in order. -/
def visitLoop {σ : Type} (slots : List (Option σ)) (last : Nat) : Nat → List σ
  | 0 => []
  | n + 1 =>
    match slots[last - (n + 1)]? with
    | some (some s) => s :: visitLoop slots last n
    | _ => visitLoop slots last n

/-- `Event::Visit()`; /repo/event/event.h 235-246; `Portainer::Visit()`; /repo/event/portainer.h
246-257. -/
def Table.visit {σ : Type} (t : Table σ) : List σ := visitLoop t.slots t.last t.last

/-- What a sink may do to the event while it is being fired.  (/repo/event/event.h 125-157.) -/
inductive Op (σ : Type)
  | connect (s : Option σ)
  | disconnect (cookie : Nat)
deriving Repr, DecidableEq

/-- One operation; a failed `Connect` leaves the table unchanged (/repo/event/event.h 125-157). -/
def Table.apply {σ : Type} (cap : Nat) (t : Table σ) : Op σ → Table σ
  | .connect s => match t.connect cap s with
    | .ok r => r.2
    | .error _ => t
  | .disconnect c => t.disconnect c

/-- A history of operations, starting from `t`.  (A client; no code.) -/
def Table.run {σ : Type} (cap : Nat) (t : Table σ) (ops : List (Op σ)) : Table σ :=
  ops.foldl (Table.apply cap) t

/-- The behaviour of the sinks: what the sink does when it is called, given the cookies called
before it.  (The client's; no code.) -/
abbrev Behaviour (σ : Type) := List Nat → σ → List (Op σ)

/-- The outcome of `Fire`: the cookies called, in order, and the final table; or the use of a null
or out-of-range pointer; or (`running`) the loop has not finished within the given fuel.  (/repo/event/event.h 248-289.) -/
inductive Outcome (σ : Type)
  | done (called : List Nat) (t : Table σ)
  | fault
  | running
deriving Repr, DecidableEq

/-- `Event::Fire(void)`; /repo/event/event.h 248-262: the loop from index `i`. -/
def fireVoidLoop {σ : Type} (cap : Nat) (cb : Behaviour σ) : Nat → Table σ → Nat → List Nat → Outcome σ
  | 0, _, _, _ => .running
  | fuel + 1, t, i, called =>
    if i < t.last then
      match t.slots[i]? with
      | none => .fault
      | some none => fireVoidLoop cap cb fuel t (i + 1) called
      | some (some s) =>
        fireVoidLoop cap cb fuel (t.run cap (cb called s)) (i + 1) (called ++ [i + 1])
    else .done called t

/-- `Event::Fire(void)`; /repo/event/event.h 248-262. -/
def fireVoid {σ : Type} (cap : Nat) (cb : Behaviour σ) (fuel : Nat) (t : Table σ) : Outcome σ :=
  fireVoidLoop cap cb fuel t 0 []

/-- `Event::Fire(args...)`; /repo/event/event.h 274-289: the loop from index `i`, and the call
after the loop.  `last_ - 1` is computed on `uint32_t`. -/
def fireArgsLoop {σ : Type} (cap : Nat) (cb : Behaviour σ) : Nat → Table σ → Nat → List Nat → Outcome σ
  | 0, _, _, _ => .running
  | fuel + 1, t, i, called =>
    if i < dec32 t.last then
      match t.slots[i]? with
      | none => .fault
      | some none => fireArgsLoop cap cb fuel t (i + 1) called
      | some (some s) =>
        fireArgsLoop cap cb fuel (t.run cap (cb called s)) (i + 1) (called ++ [i + 1])
    else
      match t.slots[i]? with
      | some (some s) => .done (called ++ [i + 1]) (t.run cap (cb called s))
      | _ => .fault

/-- `Event::Fire(args...)`; /repo/event/event.h 274-289. -/
def fireArgs {σ : Type} (cap : Nat) (cb : Behaviour σ) (fuel : Nat) (t : Table σ) : Outcome σ :=
  if t.last = 0 then .done [] t else fireArgsLoop cap cb fuel t 0 []

/-! ### Portainer -/

/-- `Portainer::Add()`; /repo/event/portainer.h 137-157.  The cookie `0` means "full".  The code
asserts that the item is not null. -/
def Table.add {σ : Type} (cap : Nat) (t : Table σ) (x : σ) : Nat × Table σ :=
  if t.num < cap then t.insert x else (0, t)

/-- `Portainer::GetSize()`; /repo/event/portainer.h 222-225. -/
def Table.getSize {σ : Type} (t : Table σ) : Nat := t.num

/-- `Portainer::Get()`; /repo/event/portainer.h 227-232; `none` is the null item `T()`. -/
def Table.get {σ : Type} (t : Table σ) (cookie : Nat) : Option σ :=
  if cookie ≠ 0 ∧ cookie ≤ t.slots.length then
    match t.slots[cookie - 1]? with
    | some x => x
    | none => none
  else none

/-- Operations on a portainer.  (/repo/event/portainer.h 134-171.) -/
inductive POp (σ : Type)
  | add (x : σ)
  | remove (cookie : Nat)
deriving Repr, DecidableEq

/-- One operation on a portainer; /repo/event/portainer.h 137-173. -/
def Table.papply {σ : Type} (cap : Nat) (t : Table σ) : POp σ → Table σ
  | .add x => (t.add cap x).2
  | .remove c => t.disconnect c

/-- A history of operations on a portainer.  (A client; no code.) -/
def Table.prun {σ : Type} (cap : Nat) (t : Table σ) (ops : List (POp σ)) : Table σ :=
  ops.foldl (Table.papply cap) t

/-! ### The specialisations for capacity one -/

/-- `Event<..., 1>`; /repo/event/event.h 313-418 (member `sink_`) and `Portainer<T, 1>`;
/repo/event/portainer.h 268-349 (member `item_`). -/
structure One (σ : Type) where
  sink : Option σ
deriving Repr, DecidableEq

/-- `Connect()`; /repo/event/event.h 327-339. -/
def One.connect {σ : Type} (t : One σ) : Option σ → Except Err (Nat × One σ)
  | none => .error .invalidPointer
  | some s => if t.sink.isSome then .error .connectionLimit else .ok (1, ⟨some s⟩)

/-- `Disconnect()`; /repo/event/event.h 341-347; `Remove()`; /repo/event/portainer.h 301-307. -/
def One.disconnect {σ : Type} (t : One σ) (cookie : Nat) : One σ :=
  if cookie = 1 then ⟨none⟩ else t

/-- `GetNumSinks()`; /repo/event/event.h 357; `GetSize()`; /repo/event/portainer.h 313. -/
def One.getNumSinks {σ : Type} (t : One σ) : Nat := if t.sink.isSome then 1 else 0

/-- `GetSink()`; /repo/event/event.h 362-369. -/
def One.getSink {σ : Type} (t : One σ) (cookie : Nat) : Except Err σ :=
  match t.sink with
  | some s => if cookie = 1 then .ok s else .error .noConnection
  | none => .error .noConnection

/-- `Visit()`; /repo/event/event.h 372-380; /repo/event/portainer.h 337-345. -/
def One.visit {σ : Type} (t : One σ) : List σ :=
  match t.sink with
  | some s => [s]
  | none => []

/-- `Fire()`; /repo/event/event.h 385-405: the sinks called. -/
def One.fire {σ : Type} (t : One σ) : List σ :=
  match t.sink with
  | some s => [s]
  | none => []

/-- `Add()`; /repo/event/portainer.h 277-299. -/
def One.add {σ : Type} (t : One σ) (x : σ) : Nat × One σ :=
  if t.sink.isNone then (1, ⟨some x⟩) else (0, t)

/-- `Get()`; /repo/event/portainer.h 318-323. -/
def One.get {σ : Type} (t : One σ) (cookie : Nat) : Option σ :=
  if cookie = 1 then t.sink else none

end Verif.Event
