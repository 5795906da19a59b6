import Verif.Event.Props
/-!
Model of `Portainer::Visit` with visitors that use the portainer; /repo/event/portainer.h 245-257.

The visitor is given a reference to the item in the vector.  While it runs it may add and remove items, read the item through its
reference and visit the portainer again, to any depth.

Simplifications: the vector is a block of memory (a number) with room for a number of items; when an item is appended to a full vector
the items move to a new block, and references into the old one dangle.  How much room a new block has is a parameter.  Allocation does
not fail.  An item is an opaque value.
-/
namespace Verif.Event.Visit

variable {σ : Type}

/-- What a visitor, or the program outside of any visit, does; `read` reads the item through the reference that the visitor was given.
(The client's; the methods are /repo/event/portainer.h 137-173, 245-257.) -/
inductive Act (σ : Type)
  | add (x : σ)
  | remove (c : Nat)
  | read
  | visit
deriving Repr, DecidableEq

/-- The members, and the memory of the vector; /repo/event/portainer.h 259-263. -/
structure Mem (σ : Type) where
  tbl : Table σ
  block : Nat
  room : Nat
deriving Repr, DecidableEq

/-- Constructor; /repo/event/portainer.h 130-134. -/
def Mem.init : Mem σ := ⟨Table.init, 0, 0⟩

/-- `Add()`; /repo/event/portainer.h 137-157 with 177-216.  `grow n` is the room of a new block that has to hold `n` items. -/
def Mem.add (grow : Nat → Nat) (cap : Nat) (m : Mem σ) (x : σ) : Mem σ :=
  if m.tbl.num < cap ∧ m.tbl.slots.length ≤ m.tbl.num ∧ m.room ≤ m.tbl.slots.length then
    ⟨(m.tbl.add cap x).2, m.block + 1, grow (m.tbl.slots.length + 1)⟩
  else ⟨(m.tbl.add cap x).2, m.block, m.room⟩

/-- `Remove()`; /repo/event/portainer.h 159-173. -/
def Mem.remove (m : Mem σ) (c : Nat) : Mem σ := ⟨m.tbl.disconnect c, m.block, m.room⟩

/-- What is running: a loop of `Visit()` at the index `i` (with the table it began with and the cookies and items visited, which the
code does not have), a visitor that was given the item `i` in the block `b`, or the program outside of any visit.
(/repo/event/portainer.h 245-257.) -/
inductive Frame (σ : Type)
  | loop (i : Nat) (from_ : Table σ) (seen : List (Nat × σ))
  | call (b i : Nat) (x : σ) (acts : List (Act σ))
  | main (acts : List (Act σ))
deriving Repr, DecidableEq

/-- The memory, what is running (innermost first), what was read (cookie, item visited, what the reference gave), the finished
visits (the table when they began, what they visited), and all that was visited, in all visits.  (/repo/event/portainer.h 245-263.) -/
structure Cfg (σ : Type) where
  mem : Mem σ
  stack : List (Frame σ)
  reads : List (Nat × σ × Option σ)
  visits : List (Table σ × List (Nat × σ))
  trace : List (Nat × σ)
deriving Repr, DecidableEq

/-- `dangling`: a reference into a block that is gone is read.  `range`: `items_[i]` beyond the end.  (/repo/event/portainer.h 245-257.) -/
inductive Res (σ : Type)
  | go (c : Cfg σ)
  | dangling
  | range
deriving Repr, DecidableEq

/-- The visitor: what it does with an item, given what was visited before, in all visits.  (The client's; no code.) -/
abbrev Visitor (σ : Type) := List (Nat × σ) → σ → List (Act σ)

/-- One step; /repo/event/portainer.h 137-173, 245-257. -/
def step (grow : Nat → Nat) (cap : Nat) (P : Visitor σ) (c : Cfg σ) : Res σ :=
  match c.stack with
  | [] => .go c
  | .main [] :: st => .go { c with stack := st }
  | .main (a :: as) :: st =>
    match a with
    | .add x => .go { c with mem := c.mem.add grow cap x, stack := .main as :: st }
    | .remove k => .go { c with mem := c.mem.remove k, stack := .main as :: st }
    | .read => .go { c with stack := .main as :: st }
    | .visit => .go { c with stack := .loop 0 c.mem.tbl [] :: .main as :: st }
  | .call _ _ _ [] :: st => .go { c with stack := st }
  | .call b i x (a :: as) :: st =>
    match a with
    | .add y => .go { c with mem := c.mem.add grow cap y, stack := .call b i x as :: st }
    | .remove k => .go { c with mem := c.mem.remove k, stack := .call b i x as :: st }
    | .read =>
      if b = c.mem.block then
        .go { c with stack := .call b i x as :: st, reads := (i + 1, x, (c.mem.tbl.slots[i]?).join) :: c.reads }
      else .dangling
    | .visit => .go { c with stack := .loop 0 c.mem.tbl [] :: .call b i x as :: st }
  | .loop i t0 seen :: st =>
    if i < c.mem.tbl.last then
      match c.mem.tbl.slots[i]? with
      | none => .range
      | some none => .go { c with stack := .loop (i + 1) t0 seen :: st }
      | some (some x) =>
        .go ⟨c.mem, .call c.mem.block i x (P c.trace x) :: .loop (i + 1) t0 (seen ++ [(i + 1, x)]) :: st, c.reads, c.visits,
          c.trace ++ [(i + 1, x)]⟩
    else .go { c with stack := st, visits := (t0, seen) :: c.visits }

/-- `n` steps of a program that uses a portainer.  (A client; no code.) -/
def exec (grow : Nat → Nat) (cap : Nat) (P : Visitor σ) (script : List (Act σ)) : Nat → Res σ
  | 0 => .go ⟨Mem.init, [.main script], [], [], []⟩
  | n + 1 =>
    match exec grow cap P script n with
    | .go c => step grow cap P c
    | r => r

end Verif.Event.Visit
