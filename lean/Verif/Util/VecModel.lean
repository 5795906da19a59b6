/-!
Model of `nsfx::BiVector` (/repo/utility/bi-vector.h, /repo/utility/array-tool.h).

A block of memory is a list of cells; a cell without an object is `none`, a freed block is `none`.  Elements are objects whose
life time matters (the not-POD branches of array-tool.h): constructing outside the block or over a live object (which would be
lost), destroying a cell without an object and using a freed block are undefined behaviour or a leak, outcome `none` of the
operation, as are failed assertions.  What a freed block still held is remembered, so that objects lost that way can be seen.  Sizes are unbounded
natural numbers; allocation failure and exceptions of element constructors are not modelled.
-/
namespace Verif.Util

variable {T : Type}

/-- bi-vector.h 44-49. -/
structure Vec where
  cap : Nat
  size : Nat
  data : Option Nat
deriving Repr, DecidableEq

/-- The memory blocks, the vector objects (`none` after the destructor), and (ghost) the cells of every block at the time it was
freed.  (The storage that bi-vector.h 62-142 allocates, and the objects of a client.) -/
structure Mem (T : Type) where
  blocks : List (Option (List (Option T)))
  vecs : List (Option Vec)
  gone : List (List (Option T))

/-- The cells at a pointer; the null pointer has none.  (What `data_` points to, bi-vector.h 44-49.) -/
def Mem.cells (m : Mem T) : Option Nat → Option (List (Option T))
  | none => some []
  | some b => (m.blocks[b]?).join

/-- Store cells.  (Placement new, destructor and assignment through `data_`, bi-vector.h 62-258.) -/
def Mem.put (m : Mem T) (p : Option Nat) (l : List (Option T)) : Mem T :=
  match p with
  | none => m
  | some b => { m with blocks := m.blocks.set b (some l) }

/-- The constructing loops; array-tool.h 54-74, 123-132, 177-180. -/
def construct : List (Option T) → Nat → List T → Option (List (Option T))
  | l, _, [] => some l
  | l, p, v :: vs => match l[p]? with
    | some none => construct (l.set p (some v)) (p + 1) vs
    | _ => none

/-- The destroying loop; array-tool.h 189-198. -/
def destroyN : List (Option T) → Nat → Nat → Option (List (Option T))
  | l, _, 0 => some l
  | l, p, n + 1 => match l[p]? with
    | some (some _) => destroyN (l.set p none) (p + 1) n
    | _ => none

/-- The copying loop reads `n` elements; array-tool.h 134-164. -/
def readN : List (Option T) → Nat → Nat → Option (List T)
  | _, _, 0 => some []
  | l, p, n + 1 => match l[p]? with
    | some (some v) => (readN l (p + 1) n).map (v :: ·)
    | _ => none

/-- `bi_vector_init(vt, capacity)`; bi-vector.h 62-75. -/
def Mem.alloc (m : Mem T) (cap : Nat) : Vec × Mem T :=
  if cap = 0 then (⟨0, 0, none⟩, m)
  else (⟨cap, 0, some m.blocks.length⟩, { m with blocks := m.blocks ++ [some (List.replicate cap none)] })

/-- `bi_vector_destroy`; bi-vector.h 109-116. -/
def Mem.free (m : Mem T) (v : Vec) : Option (Mem T) :=
  match m.cells v.data with
  | none => none
  | some l => match destroyN l 0 v.size with
    | none => none
    | some l' => some (match v.data with
      | none => m
      | some b => { m with blocks := m.blocks.set b none, gone := m.gone ++ [l'] })

/-- `bi_vector_init(vt, capacity, size, v)`; bi-vector.h 89-99, and the body of `bi_vector_copy`; 129-142. -/
def Mem.allocWith (m : Mem T) (cap : Nat) (vs : List T) : Option (Vec × Mem T) :=
  let r := m.alloc cap
  match r.2.cells r.1.data with
  | none => none
  | some l => match construct l 0 vs with
    | none => none
    | some l' => some ({ r.1 with size := vs.length }, r.2.put r.1.data l')

/-- A vector object.  (`vt_`, bi-vector.h 1039.) -/
def Mem.vec (m : Mem T) (r : Nat) : Option Vec := (m.vecs[r]?).join

/-- The copy of the elements of a vector.  (What `begin()` to `end()` reads, bi-vector.h 265-280.) -/
def Mem.elems (m : Mem T) (v : Vec) : Option (List T) := (m.cells v.data).bind fun l => readN l 0 v.size

/-- Change size and cells of one vector.  (A method of bi-vector.h 758-1040 that changes the object in place.) -/
def Mem.edit (m : Mem T) (r : Nat) (f : Vec → List (Option T) → Option (Nat × List (Option T))) : Option (Mem T) :=
  match m.vec r with
  | none => none
  | some v => match m.cells v.data with
    | none => none
    | some l => match f v l with
      | none => none
      | some (n, l') => some { m.put v.data l' with vecs := m.vecs.set r (some { v with size := n }) }

/-- Calls.  Vectors are numbered in the order of their construction.  (The client's; the methods of bi-vector.h 758-1040.) -/
inductive VOp (T : Type) where
  /-- 781-794 -/
  | new (cap : Nat)
  /-- 803-806 -/
  | newFill (cap n : Nat) (v : T)
  /-- 813-816 -/
  | copy (r : Nat)
  /-- 818-826 -/
  | copyAssign (q r : Nat)
  /-- 828-832 -/
  | move (r : Nat)
  /-- 834-843 -/
  | moveAssign (q r : Nat)
  /-- 967-972 -/
  | swap (q r : Nat)
  /-- 808-811 -/
  | destroy (r : Nat)
  /-- `at(i) = v`, 158-164, 875-903 -/
  | set (r i : Nat) (v : T)
  /-- 182-197 -/
  | assign (r n : Nat) (v : T)
  /-- 182-197, with the value `at(i)` of the same vector, passed by reference -/
  | assignOwn (r n i : Nat)
  /-- 199-218; the range lies outside the vector -/
  | assignRange (r : Nat) (vs : List T)
  /-- 220-238 -/
  | push (r : Nat) (v : T)
  /-- 240-248 -/
  | pop (r : Nat)
  /-- 250-256 -/
  | clear (r : Nat)

/-- `bi_vector_assign`; 182-218: destroy, set the size, construct. -/
def assignCells (vs : List T) (v : Vec) (l : List (Option T)) : Option (Nat × List (Option T)) :=
  let n := vs.length
  if n ≤ v.cap then
    match destroyN l 0 (if v.size < n then v.size else n) with
    | none => none
    | some l1 => match construct l1 0 vs with
      | none => none
      | some l2 => some (if v.size < n then n else v.size, l2)
  else none

/-- One call; `I` is the index of the first element.
(Each case calls the definition for its method, which cites the lines in bi-vector.h.) -/
def Mem.step (I : Nat) (m : Mem T) : VOp T → Option (Mem T)
  | .new cap => let r := m.alloc cap; some { r.2 with vecs := r.2.vecs ++ [some r.1] }
  | .newFill cap n v => (m.allocWith cap (List.replicate n v)).map fun r => { r.2 with vecs := r.2.vecs ++ [some r.1] }
  | .copy r => (m.vec r).bind fun v => (m.elems v).bind fun vs =>
      (m.allocWith v.cap vs).map fun r => { r.2 with vecs := r.2.vecs ++ [some r.1] }
  | .copyAssign q r =>
    if q = r then (m.vec q).map fun _ => m
    else (m.vec q).bind fun w => (m.vec r).bind fun v => (m.free w).bind fun m1 => (m1.elems v).bind fun vs =>
      (m1.allocWith v.cap vs).map fun x => { x.2 with vecs := x.2.vecs.set q (some x.1) }
  | .move r => (m.vec r).map fun v => { m with vecs := m.vecs.set r (some ⟨0, 0, none⟩) ++ [some v] }
  | .moveAssign q r =>
    if q = r then (m.vec q).map fun _ => m
    else (m.vec q).bind fun w => (m.vec r).bind fun v => (m.free w).map fun m1 =>
      { m1 with vecs := (m1.vecs.set q (some v)).set r (some ⟨0, 0, none⟩) }
  | .swap q r => (m.vec q).bind fun w => (m.vec r).map fun v => { m with vecs := (m.vecs.set q (some v)).set r (some w) }
  | .destroy r => (m.vec r).bind fun v => (m.free v).map fun m1 => { m1 with vecs := m1.vecs.set r none }
  | .set r i v => m.edit r fun w l => if I ≤ i ∧ i < I + w.size then
      match l[i - I]? with
      | some (some _) => some (w.size, l.set (i - I) (some v))
      | _ => none
    else none
  | .assign r n v => m.edit r (assignCells (List.replicate n v))
  | .assignOwn r n i => m.edit r fun w l =>
      if I ≤ i ∧ i < I + w.size ∧ n ≤ w.cap then
        -- the referenced element is read after the destruction
        match destroyN l 0 (if w.size < n then w.size else n) with
        | none => none
        | some l1 => match l1[i - I]? with
          | some (some v) => (construct l1 0 (List.replicate n v)).map fun l2 => (if w.size < n then n else w.size, l2)
          | _ => if n = 0 then some (w.size, l1) else none
      else none
  | .assignRange r vs => m.edit r (assignCells vs)
  | .push r v => m.edit r fun w l => if w.size < w.cap then (construct l w.size [v]).map fun l' => (w.size + 1, l') else none
  | .pop r => m.edit r fun w l => if w.size ≠ 0 then (destroyN l (w.size - 1) 1).map fun l' => (w.size - 1, l') else none
  | .clear r => m.edit r fun w l => (destroyN l 0 w.size).map fun l' => (0, l')

/-- A history.  (A client; no code.) -/
def Mem.run (I : Nat) (m : Mem T) : List (VOp T) → Option (Mem T)
  | [] => some m
  | o :: t => (m.step I o).bind fun m' => m'.run I t

/-- `at(i)`; bi-vector.h 158-164. -/
def Mem.at (I : Nat) (m : Mem T) (r i : Nat) : Option T :=
  (m.vec r).bind fun v => if I ≤ i ∧ i < I + v.size then (m.cells v.data).bind fun l => (l[i - I]?).join else none

end Verif.Util
