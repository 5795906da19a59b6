import Verif.Util.ArrModel
import Verif.Util.MatLife

/-!
Model of calls of `nsfx::BiArray` (/repo/utility/bi-array.h) and `nsfx::BiMatrix` (/repo/utility/bi-matrix.h) that are left by an exception: the
allocation of memory fails, or the constructor or the assignment operator of an element throws.

Nothing in bi-array.h, bi-matrix.h or array-tool.h catches, so the exception leaves the call where it is: what is constructed or assigned stays so, and
a constructor of `BiArray` or `BiMatrix` that is left this way does not make an object (its destructor will not run).  An element whose assignment
operator throws keeps its value.  A call that would not throw at the point given is outcome `none`.
-/
namespace Verif.Util

variable {T : Type}

/-- Where a call is left: `operator new` fails (`none`), or the element `j` cannot be constructed (`some j`).
(The `new` and the copies of elements in bi-array.h 63-148 and bi-matrix.h 306-410.) -/
abbrev Fault := Option Nat

/-! ### Arrays -/

/-- `bi_array_init` (bi-array.h 63-102) and `bi_array_copy` (132-146) up to the exception: `size_` is set before the allocation, `data_` is null
until then. -/
def Mem.ainitPart (m : Mem T) (vs : List T) : Fault → Option (Vec × Mem T)
  | none => if vs.length = 0 then none else some (arr vs.length none, m)
  | some j =>
    if j < vs.length then
      let r := m.ablock vs.length
      match r.2.cells r.1 with
      | none => none
      | some l => match construct l 0 (vs.take j) with
        | none => none
        | some l' => some (arr vs.length r.1, r.2.put r.1 l')
    else none

/-- Calls that throw, and calls that do not.  (A client; the operations are those of bi-array.h 691-933.) -/
inductive ATOp (T : Type) where
  | ok (o : AOp T)
  /-- bi-array.h 719-729 -/
  | new (n : Nat) (dflt : T) (k : Fault)
  /-- 731-734 -/
  | newFill (n : Nat) (v : T) (k : Fault)
  /-- 741-744 -/
  | copy (r : Nat) (k : Fault)
  /-- 746-754 -/
  | copyAssign (q r : Nat) (k : Fault)
  /-- `at(i) = v`; 155-161 -/
  | set (r i : Nat) (v : T)
  /-- 179-189: the assignment to the element `j` throws -/
  | fill (r : Nat) (v : T) (j : Nat)

/-- One call; the lines are given with the constructors of `ATOp`. -/
def Mem.astepT (I : Nat) (m : Mem T) : ATOp T → Option (Mem T)
  | .ok o => m.astep I o
  | .new n d k => (m.ainitPart (List.replicate n d) k).map fun x => x.2
  | .newFill n v k => (m.ainitPart (List.replicate n v) k).map fun x => x.2
  | .copy r k => (m.awalk r).bind fun vs => (m.ainitPart vs k).map fun x => x.2
  | .copyAssign q r k =>
    if q = r then none
    else (m.vec q).bind fun w => (m.afree w).bind fun m1 => (m1.awalk r).bind fun vs =>
      (m1.ainitPart vs k).map fun x => { x.2 with vecs := x.2.vecs.set q (some x.1) }
  | .set r i _ => m.aedit r fun w l => (aindex I w i).bind fun p => match l[p]? with
      | some (some _) => some l
      | _ => none
  | .fill r v j => m.aedit r fun w l => if j < w.size then fillN v l 0 j else none

/-- A history; the caller catches the exceptions.  (A client; no code.) -/
def Mem.arunT (I : Nat) (m : Mem T) : List (ATOp T) → Option (Mem T)
  | [] => some m
  | o :: t => (m.astepT I o).bind fun m' => m'.arunT I t

/-! ### Matrices -/

/-- `bi_matrix_init` up to the exception; bi-matrix.h 306-355. -/
def MMem.minitPart (m : MMem T) (rows cols : Nat) (vs : List T) (k : Fault) : Option (Mx × MMem T) :=
  (m.mem.ainitPart vs k).map fun x => (⟨rows, cols, x.1.data⟩, m.back x.2)

/-- `bi_matrix_copy` up to the exception; bi-matrix.h 379-408: before the allocation the destination has the `data_` of the source. -/
def MMem.mcopyPart (m : MMem T) (x : Mx) : Fault → Option (Mx × MMem T)
  | none => if x.size = 0 then none else some (x, m)
  | some j => (m.mem.cells x.data).bind fun l => (readN l 0 x.size).bind fun vs => m.minitPart x.size1 x.size2 vs (some j)

/-- `bi_matrix_fill1` up to the assignment `k`; bi-matrix.h 495-523. -/
def Mx.fill1Part (L : Layout) (I : Nat) (x : Mx) (i : Nat) (v : T) (k : Nat) (l : List (Option T)) : Option (List (Option T)) :=
  if (I ≤ i ∧ i < I + x.size1) ∧ k < x.size2 then
    match L with
    | .rowMajor => fillN v l ((i - I) * x.size2) k
    | .colMajor => strideN v x.size1 l (i - I) k
  else none

/-- `bi_matrix_fill2` up to the assignment `k`; bi-matrix.h 525-553. -/
def Mx.fill2Part (L : Layout) (J : Nat) (x : Mx) (j : Nat) (v : T) (k : Nat) (l : List (Option T)) : Option (List (Option T)) :=
  if (J ≤ j ∧ j < J + x.size1) ∧ k < x.size1 then
    match L with
    | .rowMajor => strideN v x.size2 l (j - J) k
    | .colMajor => fillN v l ((j - J) * x.size1) k
  else none

/-- Calls that throw, and calls that do not.  (A client; the operations are those of bi-matrix.h 2743-3290.) -/
inductive MTOp (T : Type) where
  | ok (o : MOp T)
  /-- bi-matrix.h 2780-2798 -/
  | new (rows cols : Nat) (d : T) (k : Fault)
  /-- 2805-2810 -/
  | newFill (rows cols : Nat) (v : T) (k : Fault)
  /-- 2817-2820 -/
  | copy (r : Nat) (k : Fault)
  /-- 2822-2830 -/
  | copyAssign (q r : Nat) (k : Fault)
  /-- `at(i, j) = v`; 442-458 -/
  | set (r i j : Nat) (v : T)
  /-- 483-493: the assignment `k` throws -/
  | fill (r : Nat) (v : T) (k : Nat)
  /-- 495-523 -/
  | fill1 (r i : Nat) (v : T) (k : Nat)
  /-- 525-553 -/
  | fill2 (r j : Nat) (v : T) (k : Nat)

/-- One call; the lines are given with the constructors of `MTOp`. -/
def MMem.stepT (L : Layout) (I J : Nat) (m : MMem T) : MTOp T → Option (MMem T)
  | .ok o => m.step L I J o
  | .new rows cols d k | .newFill rows cols d k =>
    if rows ≤ maxSize ∧ cols ≤ maxSize then
      (m.minitPart rows cols (List.replicate (rows * cols % sizeMod) d) k).map fun x => x.2
    else none
  | .copy r k => (m.mx r).bind fun x => (m.mcopyPart x k).map fun z => z.2
  | .copyAssign q r k =>
    if q = r then none
    else (m.mx q).bind fun y => (m.mx r).bind fun x => (m.mfree y).bind fun m1 =>
      (m1.mcopyPart x k).map fun z => { z.2 with mxs := z.2.mxs.set q (some z.1) }
  | .set r i j _ => m.edit r fun x l => (x.index L I J i j).bind fun p => match l[p]? with
      | some (some _) => some l
      | _ => none
  | .fill r v k => m.edit r fun x l => if k < x.size then fillN v l 0 k else none
  | .fill1 r i v k => m.edit r fun x l => x.fill1Part L I i v k l
  | .fill2 r j v k => m.edit r fun x l => x.fill2Part L J j v k l

/-- A history; the caller catches the exceptions.  (A client; no code.) -/
def MMem.runT (L : Layout) (I J : Nat) (m : MMem T) : List (MTOp T) → Option (MMem T)
  | [] => some m
  | o :: t => (m.stepT L I J o).bind fun m' => m'.runT L I J t

end Verif.Util
