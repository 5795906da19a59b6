import Verif.Ptr.Heap
/-!
Model of who owns whom among containers of probes, probes, collectors of samples and the user's components, as objects with reference counts
(/repo/statistics/probe/probe-container.h, probe.h, /repo/statistics/summary/summary.h, /repo/event/event.h, /repo/component/object.h, ptr.h),
for property C166.  Containers of statistics and statistics (/repo/statistics/statistics-container.h, statistic.h) have the same members.

Each `Ptr` that is a member of an object, or of an object inside it, is a reference of that object; the event of a probe is a member of the
probe and counts its references as the probe's (/repo/component/object.h 625-633).  Simplifications: collectors do nothing but remember the
samples; cookies are left out (a connection is a position in the list of the probe's references; C35 is about cookies and the order of calls);
pointers are not null and there is memory (C164).  Enumerators have copies of the names and no pointers (C71), so they are left out.
-/
namespace Verif.Stat.Own

open Verif.Heap hiding Obj

/-! ### Model -/

/-- The class of an object: `ProbeContainer` (/repo/statistics/probe/probe-container.h 42), `Probe` (probe.h 43), a collector that keeps no
pointers, as `Summary` (/repo/statistics/summary/summary.h 48), and another component of the user, that may be a sink and keep pointers. -/
inductive Kind where
  | container
  | probe
  | collector
  | comp
deriving DecidableEq

/-- The member that refers to another object: an item of `items_` under its name (/repo/statistics/probe/probe-container.h 81-82); a connection
of the probe's event (probe.h 66, /repo/event/event.h 306); a pointer that a component keeps. -/
inductive Role (N : Type) where
  | item (n : N)
  | conn
  | kept
deriving DecidableEq

/-- An object.  (See `Heap.Obj`; /repo/component/object.h 354.) -/
abbrev Obj (N : Type) := Heap.Obj Kind (Role N)

/-- The objects, destroyed ones as `none`; those that the smart pointers of the user's functions refer to (/repo/component/ptr.h 65-191); the
samples that were delivered: sink, probe, value. -/
structure State (N V : Type) where
  cells : List (Option (Obj N))
  user : List Nat
  got : List (Nat × Nat × V)

variable {N V : Type} [DecidableEq N]

/-- A program before it creates anything; no code. -/
def State.init : State N V := ⟨[], [], []⟩

/-- What the user does; the numbers are positions of the user's pointers, `k` the position of a reference of the object. -/
inductive Op (N V : Type) where
  /-- `new Object<...>` of a container, a collector or another component; /repo/component/object.h 311-314 -/
  | create (kind : Kind)
  /-- `Add(name)`, the pointer is kept; /repo/statistics/probe/probe-container.h 202-215 -/
  | add (i : Nat) (n : N)
  /-- `GetProbe(name)`, the pointer is kept; probe-container.h 179-189 -/
  | get (i : Nat) (n : N)
  /-- `erase(it)`, where `it` is at the name; probe-container.h 154-157 -/
  | erase (i : Nat) (n : N)
  /-- `MergeFrom(prefix, merged)`, with the names in the order in which the enumerator gives them; probe-container.h 222-238 -/
  | merge (i : Nat) (f : N → N) (j : Nat) (names : List N)
  /-- `Connect(sink)` of a probe; /repo/event/event.h 125-141 -/
  | connect (i j : Nat)
  /-- `Disconnect(cookie)` of a probe; /repo/event/event.h 143-157 -/
  | disconnect (i k : Nat)
  /-- `Fire(value)` of a probe; /repo/statistics/probe/probe.h 80-83, /repo/event/event.h 263-289 -/
  | fire (i : Nat) (v : V)
  /-- A component keeps a pointer. -/
  | keep (i j : Nat)
  /-- A component gives up a pointer. -/
  | forget (i k : Nat)
  /-- A copy of a pointer; /repo/component/ptr.h 70-77 -/
  | copy (i : Nat)
  /-- The end of a pointer; /repo/component/ptr.h 178-191 -/
  | drop (i : Nat)

/-- A new object and the user's pointer to it.  (/repo/component/object.h 311-314, ptr.h 70-77.) -/
def State.create (s : State N V) (kind : Kind) : State N V := ⟨s.cells ++ [some ⟨1, kind, []⟩], s.cells.length :: s.user, s.got⟩

/-- Position `k` of the references of `c` has the role `r`.  (See `Role`.) -/
def State.at? (s : State N V) (c k : Nat) (r : Role N) : Option Nat :=
  match (refsAt s.cells c)[k]? with
  | some e => if e.1 = r then some e.2 else none
  | none => none

/-- `items_.find(name)`; /repo/statistics/probe/probe-container.h 181, 219. -/
def item (cells : List (Option (Obj N))) (c : Nat) (n : N) : Option Nat :=
  ((refsAt cells c).find? fun e => e.1 == .item n).map Prod.snd

/-- The loop of `MergeFrom`; a name that is gone ends it with an exception; `none` if an object does not exist;
/repo/statistics/probe/probe-container.h 225-237. -/
def loop (c : Nat) (f : N → N) (d : Nat) : List N → List (Option (Obj N)) → Option (List (Option (Obj N)))
  | [], cells => some cells
  | n :: ns, cells =>
    match item cells d n with
    | none => some cells
    | some p =>
      if item cells c (f n) = none then
        match link c (.item (f n)) p cells with
        | none => none
        | some h => loop c f d ns h
      else loop c f d ns cells

/-- The sinks of a probe.  (See `Role`.) -/
def sinks (cells : List (Option (Obj N))) (c : Nat) : List Nat := ((refsAt cells c).filter fun e => e.1 == .conn).map Prod.snd

/-- The sink is called: it must exist; /repo/event/event.h 281-284. -/
def call (cells : List (Option (Obj N))) (p : Nat) (v : V) (d : Nat) : Option (Nat × Nat × V) := (kindAt cells d).map fun _ => (d, p, v)

/-- The objects are others, and the user has the pointers they had.  (No code.) -/
def State.after (s : State N V) (h : Option (List (Option (Obj N)))) : Option (State N V) := h.map fun h => ⟨h, s.user, s.got⟩

/-- One operation: `none` if an object is used that does not exist; a call that the types of the pointers do not allow, or that throws at once,
is nothing.  (The lines are cited at `Op`.) -/
def State.step (s : State N V) : Op N V → Option (State N V)
  | .create k => some (if k = .probe then s else s.create k)
  | .add i n =>
    match s.user[i]? with
    | some c =>
      if kindAt s.cells c = some .container ∧ item s.cells c n = none then
        -- the probe, with the pointer that is returned; the item
        (link c (.item n) s.cells.length (s.create .probe).cells).map fun h => ⟨h, (s.create .probe).user, s.got⟩
      else some s
    | none => some s
  | .get i n =>
    match s.user[i]? with
    | some c =>
      match item s.cells c n with
      | some d => (addRef s.cells d).map fun h => ⟨h, d :: s.user, s.got⟩
      | none => some s
    | none => some s
  | .erase i n =>
    match s.user[i]? with
    | some c => if (item s.cells c n).isSome then s.after (unlink c ((refsAt s.cells c).findIdx fun e => e.1 == .item n) s.cells) else some s
    | none => some s
  | .merge i f j names =>
    match s.user[i]?, s.user[j]? with
    | some c, some d =>
      if kindAt s.cells c = some .container ∧ kindAt s.cells d = some .container then s.after (loop c f d names s.cells) else some s
    | _, _ => some s
  | .connect i j =>
    match s.user[i]?, s.user[j]? with
    | some c, some d =>
      if kindAt s.cells c = some .probe ∧ (kindAt s.cells d = some .collector ∨ kindAt s.cells d = some .comp) then
        s.after (link c .conn d s.cells)
      else some s
    | _, _ => some s
  | .disconnect i k =>
    match s.user[i]? with
    | some c =>
      match s.at? c k .conn with
      | some _ => s.after (unlink c k s.cells)
      | none => some s
    | none => some s
  | .fire i v =>
    match s.user[i]? with
    | some c => ((sinks s.cells c).mapM (call s.cells c v)).map fun l => ⟨s.cells, s.user, s.got ++ l⟩
    | none => some s
  | .keep i j =>
    match s.user[i]?, s.user[j]? with
    | some c, some d => if kindAt s.cells c = some .comp then s.after (link c .kept d s.cells) else some s
    | _, _ => some s
  | .forget i k =>
    match s.user[i]? with
    | some c =>
      match s.at? c k .kept with
      | some _ => s.after (unlink c k s.cells)
      | none => some s
    | none => some s
  | .copy i =>
    match s.user[i]? with
    | some c => (addRef s.cells c).map fun h => ⟨h, c :: s.user, s.got⟩
    | none => some s
  | .drop i =>
    match s.user[i]? with
    | some c => (release c s.cells).map fun h => ⟨h, s.user.eraseIdx i, s.got⟩
    | none => some s

/-- A history.  (A user; no code.) -/
def State.run (s : State N V) : List (Op N V) → Option (State N V)
  | [] => some s
  | o :: l =>
    match s.step o with
    | none => none
    | some s' => s'.run l

/-! ### What the properties say -/

/-- The object exists.  (Specification; no code.) -/
def Alive (s : State N V) (c : Nat) : Prop := ∃ x, s.cells[c]? = some (some x)

/-- An existing object refers to another.  (Specification; no code.) -/
def Refers (s : State N V) (c d : Nat) : Prop := ∃ x, s.cells[c]? = some (some x) ∧ d ∈ x.refs.map Prod.snd

/-- A pointer of the user leads to the object.  (Specification; no code.) -/
inductive Held (s : State N V) : Nat → Prop
  | user {c : Nat} : c ∈ s.user → Held s c
  | via {c d : Nat} : Held s c → Refers s c d → Held s d

/-- The operation cannot close a cycle: sinks are collectors that keep no pointers, and a component keeps only components created before it,
containers, probes and collectors.  (Specification; no code.) -/
def Op.plain (s : State N V) : Op N V → Prop
  | .connect _ j => ∀ d, s.user[j]? = some d → kindAt s.cells d ≠ some .comp
  | .keep i j => ∀ c d, s.user[i]? = some c → s.user[j]? = some d → kindAt s.cells d = some .comp → d < c
  | _ => True

/-- The object whose members the operation may change.  (Specification; no code.) -/
def Op.target (s : State N V) : Op N V → Option Nat
  | .add i _ | .erase i _ | .merge i _ _ _ | .connect i _ | .disconnect i _ | .keep i _ | .forget i _ => s.user[i]?
  | _ => none

end Verif.Stat.Own
