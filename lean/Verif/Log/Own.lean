import Verif.Ptr.Heap
/-!
Model of who owns whom among loggers, log sources, and the user's components (sinks, filters), as objects with reference counts
(/repo/log/logger.h, /repo/log/detail/log-source-pool.h, /repo/event/event.h, /repo/component/object.h, ptr.h), for property C161.

Each `Ptr` that is a member of an object is a reference of that object; the logger's pool of sources and its event are members of the logger,
and what they refer to is what the logger refers to.  Simplifications: sinks, filters and sources do nothing when they are called or destroyed;
cookies are left out (the connection that the pool of a logger made is a `feed`, one that the user made is a `conn`, and the user disconnects
only connections of their own; C146 is about cookies); a logger is registered only with loggers of a greater rank, a number that is chosen
when the logger is created, so loggers are not sources of each other (DESIGN.md, item 37, is about cycles of loggers); sources and sinks are
not null (item 16); there is no limit to connections.
-/
namespace Verif.Log.Own

open Verif.Heap hiding Obj

/-! ### Model -/

/-- The class of an object: `Logger` (/repo/log/logger.h 53-101) with the rank that the user gives it, a component that provides
`Event<ILogEvent>` (/repo/event/event.h 102-308), or another component of the user, that may be a sink or a filter. -/
inductive Kind where
  | logger (rank : Nat)
  | source
  | comp
deriving DecidableEq

/-- The member that refers to another object: `sourcePool_.sink_`, an item of `sourcePool_.items_`
(/repo/log/detail/log-source-pool.h 58, 61, /repo/log/logger.h 90); a connection of the object's `Event<ILogEvent>`, made by the user or by the
pool of a logger (/repo/event/event.h 306, /repo/log/logger.h 99-100); `filter_` (logger.h 96); a pointer that a component keeps. -/
inductive Role where
  | self
  | source
  | conn
  | feed
  | filter
  | kept
deriving DecidableEq

/-- An object.  (See `Heap.Obj`; /repo/component/object.h 354.) -/
abbrev Obj := Heap.Obj Kind Role

/-- The objects, destroyed ones as `none`.  (No code.) -/
abbrev Cells := List (Option Obj)

/-- The objects, and those that the smart pointers of the user's functions refer to (/repo/component/ptr.h 65-191). -/
structure State where
  cells : Cells
  user : List Nat
deriving DecidableEq

/-- A program before it creates anything; no code. -/
def State.init : State := ⟨[], []⟩

/-- The depth to which connecting goes: loggers call their sources.  (For termination of the model; no code.) -/
def Kind.depth : Kind → Nat
  | .logger n => n + 1
  | _ => 0

/-- See `Kind.depth`. -/
def depth (cells : Cells) (c : Nat) : Nat :=
  match kindAt cells c with
  | some k => k.depth
  | none => 0

/-- The object is a logger.  (The dynamic type of the object, /repo/log/logger.h 53.) -/
def isLogger (cells : Cells) (c : Nat) : Bool :=
  match kindAt cells c with
  | some (.logger _) => true
  | _ => false

/-- `GetNumSinks()` is not zero; /repo/event/event.h 209-212, /repo/log/logger.h 114, 124, 157-160. -/
def hasSinks (cells : Cells) (c : Nat) : Bool := (refsAt cells c).any fun e => e.1 == .conn || e.1 == .feed

/-- `sink_` of the pool is set; /repo/log/detail/log-source-pool.h 94, 123. -/
def attached (cells : Cells) (c : Nat) : Bool := (refsAt cells c).any fun e => e.1 == .self

/-- The sources of the pool; /repo/log/detail/log-source-pool.h 131-139, 144-154. -/
def sources (cells : Cells) (c : Nat) : List Nat := ((refsAt cells c).filter fun e => e.1 == .source).map Prod.snd

/-- A reference of an object is cleared; /repo/component/ptr.h 178-191. -/
def clear (c : Nat) (e : Role × Nat) (cells : Cells) : Option Cells := unlink c ((refsAt cells c).idxOf e) cells

/-- `Connect(sink)` of a log source or a logger; a logger without sinks attaches to its sources first; `none` if the pool has a sink already
(the call would throw), or an object does not exist; /repo/log/logger.h 112-119, /repo/log/detail/log-source-pool.h 121-140,
/repo/event/event.h 125-141.  `n` bounds the depth. -/
def connect : Nat → Nat → Role → Nat → Cells → Option Cells
  | 0, _, _, _, _ => none
  | n + 1, c, r, d, cells =>
    if isLogger cells c = true ∧ hasSinks cells c = false then
      if attached cells c = true then none
      else
        match link c .self c cells with
        | none => none
        | some h =>
          match (sources h c).foldlM (fun h s => connect n s .feed c h) h with
          | none => none
          | some h => link c r d h
    else link c r d cells

/-- `Disconnect(cookie)` of a log source or a logger, where the connection is the reference `e`; a logger without sinks detaches from its
sources; `none` if an object does not exist; /repo/log/logger.h 121-128, /repo/log/detail/log-source-pool.h 142-156,
/repo/event/event.h 143-157.  `n` bounds the depth. -/
def disconnect : Nat → Nat → Role × Nat → Cells → Option Cells
  | 0, _, _, _ => none
  | n + 1, c, e, cells =>
    match clear c e cells with
    | none => none
    | some h =>
      if isLogger h c = true ∧ hasSinks h c = false then
        match (sources h c).foldlM (fun h s => disconnect n s (.feed, c) h) h with
        | none => none
        | some h => clear c (.self, c) h
      else some h

/-- `RegisterSource(source)`; /repo/log/logger.h 147-150, /repo/log/detail/log-source-pool.h 66-101. -/
def register (c d : Nat) (cells : Cells) : Option Cells :=
  match link c .source d cells with
  | none => none
  | some h => if attached h c = true then connect (depth h d + 1) d .feed c h else some h

/-- `UnregisterSource(cookie)`; /repo/log/logger.h 152-155, /repo/log/detail/log-source-pool.h 103-119. -/
def unregister (c d : Nat) (cells : Cells) : Option Cells :=
  match (if attached cells c = true then disconnect (depth cells d + 1) d (.feed, c) cells else some cells) with
  | none => none
  | some h => clear c (.source, d) h

/-- `filter_` gives up the filter that it had; /repo/log/logger.h 179. -/
def clearFilter (c : Nat) (cells : Cells) : Option Cells :=
  match (refsAt cells c).find? fun e => e.1 == .filter with
  | none => some cells
  | some e => clear c e cells

/-- `SetFilter(filter)`; /repo/log/logger.h 177-180.  The user has a pointer to the new filter, so the order does not matter. -/
def setFilter (c : Nat) (d : Option Nat) (cells : Cells) : Option Cells :=
  match clearFilter c cells with
  | none => none
  | some h =>
    match d with
    | none => some h
    | some d => link c .filter d h

/-- What the user does; the numbers are positions of the user's pointers, `k` the position of a reference of the object. -/
inductive Op where
  /-- `CreateObject<Logger>("edu.uestc.nsfx.Logger")`, `new Object<...>`; /repo/component/object.h 311-314 -/
  | create (kind : Kind)
  /-- `Connect(sink)` of a log source or a logger -/
  | connect (i j : Nat)
  /-- `Disconnect(cookie)` of a log source or a logger -/
  | disconnect (i k : Nat)
  /-- `RegisterSource(source)` -/
  | register (i j : Nat)
  /-- `UnregisterSource(cookie)` -/
  | unregister (i k : Nat)
  /-- `SetFilter(filter)` -/
  | setFilter (i : Nat) (j : Option Nat)
  /-- A component keeps a pointer. -/
  | keep (i j : Nat)
  /-- A component gives up a pointer. -/
  | forget (i k : Nat)
  /-- A copy of a pointer; /repo/component/ptr.h 70-77 -/
  | copy (i : Nat)
  /-- The end of a pointer; /repo/component/ptr.h 178-191 -/
  | drop (i : Nat)
deriving DecidableEq

/-- A new object and the user's pointer to it.  (`CreateObject`, /repo/component/object.h 311-314, ptr.h 70-77.) -/
def State.create (s : State) (kind : Kind) : State := ⟨s.cells ++ [some ⟨1, kind, []⟩], s.cells.length :: s.user⟩

/-- Position `k` of the references of `c` has the role `r`.  (See `Role`.) -/
def State.at? (s : State) (c k : Nat) (r : Role) : Option Nat :=
  match (refsAt s.cells c)[k]? with
  | some e => if e.1 = r then some e.2 else none
  | none => none

/-- The user's function has its pointers, and the objects are others.  (No code.) -/
def State.after (s : State) (h : Option Cells) : Option State := h.map fun h => ⟨h, s.user⟩

/-- The object is a log source that can be registered with the logger; see the head of this file. -/
def fits (cells : Cells) (c d : Nat) : Bool :=
  match kindAt cells c, kindAt cells d with
  | some (.logger n), some (.logger m) => m < n
  | some (.logger _), some .source => true
  | _, _ => false

/-- One operation: `none` if an object is used that does not exist, or an exception is thrown; a call that the types of the pointers do not
allow is nothing.  (The lines are cited at `Op` and at the functions.) -/
def State.step (s : State) : Op → Option State
  | .create k => some (s.create k)
  | .connect i j =>
    match s.user[i]?, s.user[j]? with
    | some c, some d =>
      if kindAt s.cells c ≠ some .comp ∧ kindAt s.cells d ≠ some .source then s.after (Own.connect (depth s.cells c + 1) c .conn d s.cells)
      else some s
    | _, _ => some s
  | .disconnect i k =>
    match s.user[i]? with
    | some c =>
      match s.at? c k .conn with
      | some d => s.after (Own.disconnect (depth s.cells c + 1) c (.conn, d) s.cells)
      | none => some s
    | none => some s
  | .register i j =>
    match s.user[i]?, s.user[j]? with
    | some c, some d => if fits s.cells c d = true then s.after (Own.register c d s.cells) else some s
    | _, _ => some s
  | .unregister i k =>
    match s.user[i]? with
    | some c =>
      match s.at? c k .source with
      | some d => s.after (Own.unregister c d s.cells)
      | none => some s
    | none => some s
  | .setFilter i none =>
    match s.user[i]? with
    | some c => if isLogger s.cells c = true then s.after (Own.setFilter c none s.cells) else some s
    | none => some s
  | .setFilter i (some j) =>
    match s.user[i]?, s.user[j]? with
    | some c, some d =>
      if isLogger s.cells c = true ∧ kindAt s.cells d = some .comp then s.after (Own.setFilter c (some d) s.cells) else some s
    | _, _ => some s
  | .keep i j =>
    match s.user[i]?, s.user[j]? with
    | some c, some d => if isLogger s.cells c = false then s.after (link c .kept d s.cells) else some s
    | _, _ => some s
  | .forget i k =>
    match s.user[i]? with
    | some c =>
      match s.at? c k .kept with
      | some d => s.after (clear c (.kept, d) s.cells)
      | none => some s
    | none => some s
  | .copy i =>
    match s.user[i]? with
    | some c => (addRef s.cells c).map fun h => ⟨h, c :: s.user⟩
    | none => some s
  | .drop i =>
    match s.user[i]? with
    | some c => (release c s.cells).map fun h => ⟨h, s.user.eraseIdx i⟩
    | none => some s

/-- A history.  (A user; no code.) -/
def State.run (s : State) : List Op → Option State
  | [] => some s
  | o :: l =>
    match s.step o with
    | none => none
    | some s' => s'.run l

/-! ### What the properties say -/

/-- The object exists.  (Specification; no code.) -/
def Alive (s : State) (c : Nat) : Prop := ∃ x, s.cells[c]? = some (some x)

/-- An existing object refers to another.  (Specification; no code.) -/
def Refers (s : State) (c d : Nat) : Prop := ∃ x, s.cells[c]? = some (some x) ∧ d ∈ x.refs.map Prod.snd

/-- A pointer of the user leads to the object.  (Specification; no code.) -/
inductive Held (s : State) : Nat → Prop
  | user {c : Nat} : c ∈ s.user → Held s c
  | via {c d : Nat} : Held s c → Refers s c d → Held s d

/-- The operation disconnects no sink and unregisters no source.  (Specification; no code.) -/
def Op.keeps : Op → Prop
  | .disconnect _ _ => False
  | .unregister _ _ => False
  | _ => True

/-- The operation closes no cycle: the user connects only components, and components keep only components, the newer the older.
(Specification; no code.) -/
def Op.plain (s : State) : Op → Prop
  | .connect _ j => ∀ d, s.user[j]? = some d → kindAt s.cells d = some .comp
  | .keep i j => ∀ c d, s.user[i]? = some c → s.user[j]? = some d → kindAt s.cells d = some .comp ∧ (kindAt s.cells c = some .comp → d < c)
  | _ => True

/-- The reference that the operation asks for: of which object, as what, to which.  (Specification; no code.) -/
def Op.adds (s : State) : Op → Option (Nat × Role × Nat)
  | .connect i j =>
    match s.user[i]?, s.user[j]? with
    | some c, some d => if kindAt s.cells c ≠ some .comp ∧ kindAt s.cells d ≠ some .source then some (c, .conn, d) else none
    | _, _ => none
  | .register i j =>
    match s.user[i]?, s.user[j]? with
    | some c, some d => if fits s.cells c d = true then some (c, .source, d) else none
    | _, _ => none
  | .setFilter i (some j) =>
    match s.user[i]?, s.user[j]? with
    | some c, some d => if isLogger s.cells c = true ∧ kindAt s.cells d = some .comp then some (c, .filter, d) else none
    | _, _ => none
  | .keep i j =>
    match s.user[i]?, s.user[j]? with
    | some c, some d => if isLogger s.cells c = false then some (c, .kept, d) else none
    | _, _ => none
  | _ => none

/-- The reference that the operation withdraws.  (Specification; no code.) -/
def Op.cuts (s : State) : Op → Option (Nat × Role × Nat)
  | .disconnect i k =>
    match s.user[i]? with
    | some c => (s.at? c k .conn).map fun d => (c, .conn, d)
    | none => none
  | .unregister i k =>
    match s.user[i]? with
    | some c => (s.at? c k .source).map fun d => (c, .source, d)
    | none => none
  | .forget i k =>
    match s.user[i]? with
    | some c => (s.at? c k .kept).map fun d => (c, .kept, d)
    | none => none
  | .setFilter i none =>
    match s.user[i]? with
    | some c => if isLogger s.cells c = true then ((refsAt s.cells c).find? fun e => e.1 == .filter).map fun e => (c, e) else none
    | none => none
  | .setFilter i (some j) =>
    match s.user[i]?, s.user[j]? with
    | some c, some d =>
      if isLogger s.cells c = true ∧ kindAt s.cells d = some .comp then
        ((refsAt s.cells c).find? fun e => e.1 == .filter).map fun e => (c, e)
      else none
    | _, _ => none
  | _ => none

end Verif.Log.Own
