import Verif.Util.VecModel

/-!
Model of calls of `nsfx::BiVector` (/repo/utility/bi-vector.h) in which the copy constructor of an element throws.

Nothing in bi-vector.h or array-tool.h catches, so the exception leaves the call where it is: what is constructed stays constructed, and a
constructor of `BiVector` that is left this way does not make a vector (its destructor will not run).  `j` is the number of elements
constructed before the exception.  A call with a `j` that is not less than the number of elements to construct does not throw: outcome `none`.
-/
namespace Verif.Util

variable {T : Type}

/-- Calls that throw, and calls that do not.  (A client; the operations are those of bi-vector.h 758-1040.) -/
inductive TOp (T : Type) where
  | ok (o : VOp T)
  /-- bi-vector.h 803-806 -/
  | newFill (cap n : Nat) (v : T) (j : Nat)
  /-- 813-816 -/
  | copy (r j : Nat)
  /-- 818-826 -/
  | copyAssign (q r j : Nat)
  /-- 182-218, both overloads; the values are not elements of the vector -/
  | assign (r : Nat) (vs : List T) (j : Nat)
  /-- 220-238, both overloads -/
  | push (r : Nat) (v : T)

/-- `bi_vector_init(vt, capacity)` followed by the constructing loop up to the exception; `size_` is set before the loop.
bi-vector.h 89-99, 129-142; array-tool.h 65-74, 123-132. -/
def Mem.allocPart (m : Mem T) (cap : Nat) (vs : List T) (j : Nat) : Option (Vec × Mem T) :=
  if j < vs.length then
    (m.allocWith cap (vs.take j)).map fun x => ({ x.1 with size := vs.length }, x.2)
  else none

/-- `bi_vector_assign` up to the exception; bi-vector.h 182-218. -/
def assignPart (vs : List T) (j : Nat) (v : Vec) (l : List (Option T)) : Option (Nat × List (Option T)) :=
  let n := vs.length
  if n ≤ v.cap ∧ j < n then
    match destroyN l 0 (if v.size < n then v.size else n) with
    | none => none
    | some l1 => match construct l1 0 (vs.take j) with
      | none => none
      | some l2 => some (if v.size < n then n else v.size, l2)
  else none

/-- One call; the lines are given with the constructors of `TOp`. -/
def Mem.stepT (I : Nat) (m : Mem T) : TOp T → Option (Mem T)
  | .ok o => m.step I o
  | .newFill cap n v j => (m.allocPart cap (List.replicate n v) j).map fun x => x.2
  | .copy r j => (m.vec r).bind fun v => (m.elems v).bind fun vs => (m.allocPart v.cap vs j).map fun x => x.2
  | .copyAssign q r j =>
    if q = r then none
    else (m.vec q).bind fun w => (m.vec r).bind fun v => (m.free w).bind fun m1 => (m1.elems v).bind fun vs =>
      (m1.allocPart v.cap vs j).map fun x => { x.2 with vecs := x.2.vecs.set q (some x.1) }
  | .assign r vs j => m.edit r (assignPart vs j)
  | .push r _ => m.edit r fun w l => if w.size < w.cap then some (w.size, l) else none

/-- A history; the caller catches the exceptions.  (A client; no code.) -/
def Mem.runT (I : Nat) (m : Mem T) : List (TOp T) → Option (Mem T)
  | [] => some m
  | o :: t => (m.stepT I o).bind fun m' => m'.runT I t

end Verif.Util
