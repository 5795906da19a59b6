import Verif.Util.ArrModel
import Verif.Util.MatModel

/-!
Model of the life cycle of `nsfx::BiMatrix` (/repo/utility/bi-matrix.h): construction, copies, moves, `swap`, assignment and destruction of
any number of matrices over one memory, with blocks of cells that hold an object or not, as for `BiVector` and `BiArray`
(Util/VecModel.lean, Util/ArrModel.lean).  Undefined behaviour, lost objects and failed assertions are outcome `none`.

The number of cells is computed in `size_t`; the number of bytes (318, 351, 392) is not modelled.  Exceptions and allocation
failure are in Util/ArrThrow.lean.
-/
namespace Verif.Util

variable {T : Type}

/-- `bi_matrix`; bi-matrix.h 62-67. -/
structure Mx where
  size1 : Nat
  size2 : Nat
  data : Option Nat
deriving Repr, DecidableEq

/-- `size1_ * size2_` in `size_t`; bi-matrix.h 311, 344, 362, 384, 411-416. -/
def Mx.size (x : Mx) : Nat := x.size1 * x.size2 % sizeMod

/-- The memory blocks, the matrices (`none` after the destructor), and (ghost) the cells of every block at the time it was freed.
(bi-matrix.h 62-67 and the objects of a client.) -/
structure MMem (T : Type) where
  blocks : List (Option (List (Option T)))
  mxs : List (Option Mx)
  gone : List (List (Option T))

/-- No matrix yet.  (A client before it constructs any; no code.) -/
def MMem.init : MMem T := ⟨[], [], []⟩

/-- The memory without the matrices.  (No code: how this model reuses the memory of `VecModel`.) -/
def MMem.mem (m : MMem T) : Mem T := ⟨m.blocks, [], m.gone⟩

/-- Back.  (No code: how this model reuses the memory of `VecModel`.) -/
def MMem.back (m : MMem T) (w : Mem T) : MMem T := { m with blocks := w.blocks, gone := w.gone }

/-- A matrix.  (`mx_`, bi-matrix.h 3287.) -/
def MMem.mx (m : MMem T) (r : Nat) : Option Mx := (m.mxs[r]?).join

/-- `bi_matrix_init` with and without a value, bi-matrix.h 306-355, and the allocating branch of `bi_matrix_copy`, 390-406: the elements
`vs` are constructed one behind the other, if there are any. -/
def MMem.minit (m : MMem T) (rows cols : Nat) (vs : List T) : Option (Mx × MMem T) :=
  (m.mem.ainit vs).map fun x => (⟨rows, cols, x.1.data⟩, m.back x.2)

/-- `bi_matrix_destroy`; bi-matrix.h 357-364. -/
def MMem.mfree (m : MMem T) (x : Mx) : Option (MMem T) := (m.mem.afree (arr x.size x.data)).map m.back

/-- `bi_matrix_copy`; bi-matrix.h 379-408. -/
def MMem.mcopy (m : MMem T) (x : Mx) : Option (Mx × MMem T) :=
  if x.size = 0 then some (x, m)
  else (m.mem.cells x.data).bind fun l => (readN l 0 x.size).bind fun vs => m.minit x.size1 x.size2 vs

/-- The strided loops of `fill1` and `fill2`; bi-matrix.h 518-522, 533-537. -/
def strideN (v : T) (stride : Nat) : List (Option T) → Nat → Nat → Option (List (Option T))
  | l, _, 0 => some l
  | l, p, n + 1 => match l[p]? with
    | some (some _) => strideN v stride (l.set p (some v)) (p + stride) n
    | _ => none

/-- `bi_matrix_at(mx, i, j)`; bi-matrix.h 442-458: the cell, asserted to be in range. -/
def Mx.index (L : Layout) (I J : Nat) (x : Mx) (i j : Nat) : Option Nat :=
  if I ≤ i ∧ i < I + x.size1 then
    if J ≤ j ∧ j < J + x.size2 then
      match L with
      | .rowMajor => some ((i - I) * x.size2 + (j - J))
      | .colMajor => some ((j - J) * x.size1 + (i - I))
    else none
  else none

/-- `bi_matrix_fill1`; bi-matrix.h 495-523. -/
def Mx.fill1 (L : Layout) (I : Nat) (x : Mx) (i : Nat) (v : T) (l : List (Option T)) : Option (List (Option T)) :=
  if I ≤ i ∧ i < I + x.size1 then
    match L with
    | .rowMajor => fillN v l ((i - I) * x.size2) x.size2
    | .colMajor => strideN v x.size1 l (i - I) x.size2
  else none

/-- `bi_matrix_fill2`; bi-matrix.h 525-553: the assertion compares the column with the number of rows. -/
def Mx.fill2 (L : Layout) (J : Nat) (x : Mx) (j : Nat) (v : T) (l : List (Option T)) : Option (List (Option T)) :=
  if J ≤ j ∧ j < J + x.size1 then
    match L with
    | .rowMajor => strideN v x.size2 l (j - J) x.size1
    | .colMajor => fillN v l ((j - J) * x.size1) x.size1
  else none

/-- `max_size1()`, `max_size2()`; bi-matrix.h 2876-2889. -/
def maxSize : Nat := (sizeMod - 1) / 2

/-- Calls.  Matrices are numbered in the order of their construction; `d` is the value of `T()`.
(The client's; the methods of bi-matrix.h 2743-3290.) -/
inductive MOp (T : Type) where
  /-- 2793-2798; with equal sizes 2780-2785; with zeros 2770-2773 -/
  | new (rows cols : Nat) (d : T)
  /-- 2805-2810 -/
  | newFill (rows cols : Nat) (v : T)
  /-- 2817-2820 -/
  | copy (r : Nat)
  /-- 2822-2830 -/
  | copyAssign (q r : Nat)
  /-- 2832-2836 -/
  | move (r : Nat)
  /-- 2838-2847 -/
  | moveAssign (q r : Nat)
  /-- 3070-3078 -/
  | swap (q r : Nat)
  /-- 2812-2815 -/
  | destroy (r : Nat)
  /-- `at(i, j) = v`; 442-458 -/
  | set (r i j : Nat) (v : T)
  /-- 483-493, 3041-3044 -/
  | fill (r : Nat) (v : T)
  /-- 3053-3056 -/
  | fill1 (r i : Nat) (v : T)
  /-- 3065-3068 -/
  | fill2 (r j : Nat) (v : T)

/-- Append a constructed matrix.  (The end of a constructor of bi-matrix.h 2743-2900.) -/
def MMem.push (x : Mx × MMem T) : MMem T := { x.2 with mxs := x.2.mxs ++ [some x.1] }

/-- Change the cells of one matrix.  (A method of bi-matrix.h 2743-3290 that changes the object in place.) -/
def MMem.edit (m : MMem T) (r : Nat) (f : Mx → List (Option T) → Option (List (Option T))) : Option (MMem T) :=
  (m.mx r).bind fun x => (m.mem.cells x.data).bind fun l => (f x l).map fun l' => m.back (m.mem.put x.data l')

/-- One call on matrices of one type: layout `L`, first indices `I` and `J`.
(Each case calls the definition for its method, which cites the lines in bi-matrix.h.) -/
def MMem.step (L : Layout) (I J : Nat) (m : MMem T) : MOp T → Option (MMem T)
  | .new rows cols d | .newFill rows cols d =>
    if rows ≤ maxSize ∧ cols ≤ maxSize then (m.minit rows cols (List.replicate (rows * cols % sizeMod) d)).map MMem.push
    else none
  | .copy r => (m.mx r).bind fun x => (m.mcopy x).map MMem.push
  | .copyAssign q r =>
    if q = r then (m.mx q).map fun _ => m
    else (m.mx q).bind fun y => (m.mx r).bind fun x => (m.mfree y).bind fun m1 =>
      (m1.mcopy x).map fun z => { z.2 with mxs := z.2.mxs.set q (some z.1) }
  | .move r => (m.mx r).map fun x => { m with mxs := m.mxs.set r (some ⟨0, 0, none⟩) ++ [some x] }
  | .moveAssign q r =>
    if q = r then (m.mx q).map fun _ => m
    else (m.mx q).bind fun y => (m.mx r).bind fun x => (m.mfree y).map fun m1 =>
      { m1 with mxs := (m1.mxs.set q (some x)).set r (some ⟨0, 0, none⟩) }
  | .swap q r => (m.mx q).bind fun y => (m.mx r).map fun x => { m with mxs := (m.mxs.set q (some x)).set r (some y) }
  | .destroy r => (m.mx r).bind fun x => (m.mfree x).map fun m1 => { m1 with mxs := m1.mxs.set r none }
  | .set r i j v => m.edit r fun x l => (x.index L I J i j).bind fun p => match l[p]? with
      | some (some _) => some (l.set p (some v))
      | _ => none
  | .fill r v => m.edit r fun x l => fillN v l 0 x.size
  | .fill1 r i v => m.edit r fun x l => x.fill1 L I i v l
  | .fill2 r j v => m.edit r fun x l => x.fill2 L J j v l

/-- A history.  (A client; no code.) -/
def MMem.run (L : Layout) (I J : Nat) (m : MMem T) : List (MOp T) → Option (MMem T)
  | [] => some m
  | o :: t => (m.step L I J o).bind fun m' => m'.run L I J t

/-- `at(i, j)`, `operator()(i, j)`; bi-matrix.h 442-458, 2932-2988. -/
def MMem.at (L : Layout) (I J : Nat) (m : MMem T) (r i j : Nat) : Option T :=
  (m.mx r).bind fun x => (x.index L I J i j).bind fun p => (m.mem.cells x.data).bind fun l => (l[p]?).join

/-- `front()`; bi-matrix.h 460-466. -/
def MMem.front (m : MMem T) (r : Nat) : Option T :=
  (m.mx r).bind fun x => if x.size1 ≠ 0 ∧ x.size2 ≠ 0 then (m.mem.cells x.data).bind fun l => (l[0]?).join else none

/-- `back()`; bi-matrix.h 468-474. -/
def MMem.last (m : MMem T) (r : Nat) : Option T :=
  (m.mx r).bind fun x => if x.size1 ≠ 0 ∧ x.size2 ≠ 0 then (m.mem.cells x.data).bind fun l => (l[x.size - 1]?).join else none

end Verif.Util
