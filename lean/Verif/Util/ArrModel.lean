import Verif.Util.VecModel

/-!
Model of `nsfx::BiArray` (/repo/utility/bi-array.h, /repo/utility/array-tool.h) over the same memory as `BiVector`
(Util/VecModel.lean): blocks of cells that hold an object or not, undefined behaviour and lost objects are outcome `none`.

An array has no capacity field; its record is a `Vec` whose `cap` repeats the size and is never read.  Simplifications: as for `BiVector`; the
move constructor swaps with a record that is not initialised yet and then overwrites what it swapped out (756-760), of which the
model keeps the result.
-/
namespace Verif.Util

variable {T : Type}

/-- The record `bi_array`; bi-array.h 44-49. -/
def arr (size : Nat) (data : Option Nat) : Vec := ⟨size, size, data⟩

/-- Allocation of the block: none for size 0; bi-array.h 67-73, 96-101, 139-143. -/
def Mem.ablock (m : Mem T) (size : Nat) : Option Nat × Mem T :=
  if size = 0 then (none, m)
  else (some m.blocks.length, { m with blocks := m.blocks ++ [some (List.replicate size none)] })

/-- `bi_array_init` with and without a value (63-102) and the body of `bi_array_copy` (132-146): the elements `vs` are
constructed one behind the other. -/
def Mem.ainit (m : Mem T) (vs : List T) : Option (Vec × Mem T) :=
  let r := m.ablock vs.length
  match r.2.cells r.1 with
  | none => none
  | some l => match construct l 0 vs with
    | none => none
    | some l' => some (arr vs.length r.1, r.2.put r.1 l')

/-- `bi_array_destroy`; 112-118. -/
def Mem.afree (m : Mem T) (v : Vec) : Option (Mem T) :=
  match m.cells v.data with
  | none => none
  | some l => match destroyN l 0 v.size with
    | none => none
    | some l' => some (match v.data with
      | none => m
      | some b => { m with blocks := m.blocks.set b none, gone := m.gone ++ [l'] })

/-- The assigning loop of `bi_array_fill`; 179-189. -/
def fillN (v : T) : List (Option T) → Nat → Nat → Option (List (Option T))
  | l, _, 0 => some l
  | l, p, n + 1 => match l[p]? with
    | some (some _) => fillN v (l.set p (some v)) (p + 1) n
    | _ => none

/-- `bi_array_at`; 155-161: the cell of index `i`, asserted to be in range. -/
def aindex (I : Nat) (v : Vec) (i : Nat) : Option Nat := if I ≤ i ∧ i < I + v.size then some (i - I) else none

/-- The element in a cell of an array.  (What `*p` of bi-array.h 155-196 needs to be defined.) -/
def Mem.deref (m : Mem T) (v : Vec) (p : Nat) : Option T := (m.cells v.data).bind fun l => (l[p]?).join

/-- `at(i)`, `operator[]`, `operator()`; 155-161, 795-823. -/
def Mem.aat (I : Nat) (m : Mem T) (r i : Nat) : Option T :=
  (m.vec r).bind fun v => (aindex I v i).bind fun p => m.deref v p

/-- `front()`; 163-169. -/
def Mem.afront (m : Mem T) (r : Nat) : Option T := (m.vec r).bind fun v => if v.size ≠ 0 then m.deref v 0 else none

/-- `back()`; 171-177. -/
def Mem.aback (m : Mem T) (r : Nat) : Option T := (m.vec r).bind fun v => if v.size ≠ 0 then m.deref v (v.size - 1) else none

/-- A loop from `begin()` to `end()`; 198-210, 869-897, the iterators 243-610. -/
def Mem.awalk (m : Mem T) (r : Nat) : Option (List T) :=
  (m.vec r).bind fun v => (m.cells v.data).bind fun l => readN l 0 v.size

/-- A loop from `rbegin()` to `rend()`: `std::reverse_iterator` dereferences one before its base; 901-929. -/
def Mem.arwalk (m : Mem T) (r : Nat) : Option (List T) :=
  (m.vec r).bind fun v => (List.range v.size).mapM fun k => m.deref v (v.size - k - 1)

/-- Calls.  Arrays are numbered in the order of their construction; `dflt` is the value of `T()`.
(The client's; the methods of bi-array.h 691-933.) -/
inductive AOp (T : Type) where
  /-- 714-729 -/
  | new (n : Nat) (dflt : T)
  /-- 731-734 -/
  | newFill (n : Nat) (v : T)
  /-- 741-744 -/
  | copy (r : Nat)
  /-- 746-754 -/
  | copyAssign (q r : Nat)
  /-- 756-760 -/
  | move (r : Nat)
  /-- 762-771 -/
  | moveAssign (q r : Nat)
  /-- 860-865 -/
  | swap (q r : Nat)
  /-- 736-739 -/
  | destroy (r : Nat)
  /-- `at(i) = v`; 155-161 -/
  | set (r i : Nat) (v : T)
  /-- 179-189, 855-858 -/
  | fill (r : Nat) (v : T)
  /-- `fill(at(i))`: the argument is a reference to an own element; 179-189 -/
  | fillOwn (r i : Nat)

/-- Append a constructed array.  (The end of a constructor of bi-array.h 714-760.) -/
def Mem.apush (x : Vec × Mem T) : Mem T := { x.2 with vecs := x.2.vecs ++ [some x.1] }

/-- Change the cells of one array.  (A method of bi-array.h 691-933 that changes the object in place.) -/
def Mem.aedit (m : Mem T) (r : Nat) (f : Vec → List (Option T) → Option (List (Option T))) : Option (Mem T) :=
  (m.vec r).bind fun v => (m.cells v.data).bind fun l => (f v l).map fun l' => m.put v.data l'

/-- The loop of `bi_array_fill` when the value is a reference to the own cell `q`: each round reads it again.
(bi-array.h 179-190, `v` being an element of the array.) -/
def fillOwnN (q : Nat) : List (Option T) → Nat → Nat → Option (List (Option T))
  | l, _, 0 => some l
  | l, p, n + 1 => match l[p]?, l[q]? with
    | some (some _), some (some v) => fillOwnN q (l.set p (some v)) (p + 1) n
    | _, _ => none

/-- One call; `I` is the index of the first element.
(Each case calls the definition for its method, which cites the lines in bi-array.h.) -/
def Mem.astep (I : Nat) (m : Mem T) : AOp T → Option (Mem T)
  | .new n d => (m.ainit (List.replicate n d)).map Mem.apush
  | .newFill n v => (m.ainit (List.replicate n v)).map Mem.apush
  | .copy r => (m.awalk r).bind fun vs => (m.ainit vs).map Mem.apush
  | .copyAssign q r =>
    if q = r then (m.vec q).map fun _ => m
    else (m.vec q).bind fun w => (m.afree w).bind fun m1 => (m1.awalk r).bind fun vs =>
      (m1.ainit vs).map fun x => { x.2 with vecs := x.2.vecs.set q (some x.1) }
  | .move r => (m.vec r).map fun v => { m with vecs := m.vecs.set r (some (arr 0 none)) ++ [some v] }
  | .moveAssign q r =>
    if q = r then (m.vec q).map fun _ => m
    else (m.vec q).bind fun w => (m.vec r).bind fun v => (m.afree w).map fun m1 =>
      { m1 with vecs := (m1.vecs.set q (some v)).set r (some (arr 0 none)) }
  | .swap q r => (m.vec q).bind fun w => (m.vec r).map fun v => { m with vecs := (m.vecs.set q (some v)).set r (some w) }
  | .destroy r => (m.vec r).bind fun v => (m.afree v).map fun m1 => { m1 with vecs := m1.vecs.set r none }
  | .set r i v => m.aedit r fun w l => (aindex I w i).bind fun p => match l[p]? with
      | some (some _) => some (l.set p (some v))
      | _ => none
  | .fill r v => m.aedit r fun w l => fillN v l 0 w.size
  | .fillOwn r i => m.aedit r fun w l => (aindex I w i).bind fun p => fillOwnN p l 0 w.size

/-- A history.  (A client; no code.) -/
def Mem.arun (I : Nat) (m : Mem T) : List (AOp T) → Option (Mem T)
  | [] => some m
  | o :: t => (m.astep I o).bind fun m' => m'.arun I t

end Verif.Util
