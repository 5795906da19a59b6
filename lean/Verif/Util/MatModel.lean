/-!
Model of `nsfx::BiMatrix` (/repo/utility/bi-matrix.h).

The storage is a list of cells, pointers into it are offsets.  A failed assertion is the outcome `abort`; dereferencing an offset
outside the storage (or never reaching the end iterator) is `ub`.  Forming an out-of-range pointer without dereferencing it, as the
strided end iterators do, is not treated as an error.
-/
namespace Verif.Util

variable {T : Type}

/-- Outcome of a call.  (No code: assertions as in bi-matrix.h 438-455, undefined behaviour of C++.) -/
inductive Out (α : Type) where
  | ok (a : α)
  | abort
  | ub
deriving Repr, DecidableEq

/-- `bi_matrix_layout_t`; bi-matrix.h 36-40. -/
inductive Layout where
  | rowMajor
  | colMajor
deriving Repr, DecidableEq

/-- `bi_matrix`; bi-matrix.h 62-67. -/
structure Mat (T : Type) where
  rows : Nat
  cols : Nat
  data : List T
deriving Repr, DecidableEq

/-- The modulus of `size_t`.  (`size_t` of bi-matrix.h 62-67.) -/
def sizeMod : Nat := 2 ^ 64

/-- `bi_matrix_init(mx, rows, columns, v)`; bi-matrix.h 338-355: the product is computed in `size_t`. -/
def Mat.mk' (rows cols : Nat) (v : T) : Mat T := ⟨rows, cols, List.replicate (rows * cols % sizeMod) v⟩

/-- `bi_matrix_at(mx, i, j)`, the offset; bi-matrix.h 442-458. -/
def Mat.offset (m : Mat T) (L : Layout) (I J i j : Nat) : Out Nat :=
  if I ≤ i ∧ i < I + m.rows then
    if J ≤ j ∧ j < J + m.cols then
      match L with
      | .rowMajor => .ok ((i - I) * m.cols + (j - J))
      | .colMajor => .ok ((j - J) * m.rows + (i - I))
    else .abort
  else .abort

/-- Read a cell.  (The `*` before `bi_matrix_at`, bi-matrix.h 2932-2988.) -/
def Mat.read (m : Mat T) (p : Nat) : Out T :=
  match m.data[p]? with
  | some v => .ok v
  | none => .ub

/-- `at(i, j)`, `operator()(i, j)`; bi-matrix.h 2932-2988. -/
def Mat.at (m : Mat T) (L : Layout) (I J i j : Nat) : Out T :=
  match m.offset L I J i j with
  | .ok p => m.read p
  | .abort => .abort
  | .ub => .ub

/-- `while (p != last) *(p++) = v;`; bi-matrix.h 487-492, 503-507, 548-552. -/
def runFill (v : T) (data : List T) (p last : Nat) : Out (List T) :=
  if p = last then .ok data
  else if h : p < data.length then runFill v (data.set p v) (p + 1) last
  else .ub
termination_by data.length - p
decreasing_by simp; omega

/-- `for (k = 0; k < n; ++k) { *p = v; p += stride; }`; bi-matrix.h 518-522, 533-537. -/
def strideFill (v : T) (stride : Nat) : List T → Nat → Nat → Out (List T)
  | data, _, 0 => .ok data
  | data, p, n + 1 => if p < data.length then strideFill v stride (data.set p v) (p + stride) n else .ub

/-- Put the changed cells back.  (The cells that bi-matrix.h 483-555 writes through a pointer.) -/
def Mat.with (m : Mat T) : Out (List T) → Out (Mat T)
  | .ok d => .ok { m with data := d }
  | .abort => .abort
  | .ub => .ub

/-- `fill`; bi-matrix.h 483-493. -/
def Mat.fill (m : Mat T) (v : T) : Out (Mat T) := m.with (runFill v m.data 0 (m.rows * m.cols % sizeMod))

/-- `fill1`; bi-matrix.h 496-523. -/
def Mat.fill1 (m : Mat T) (L : Layout) (I i : Nat) (v : T) : Out (Mat T) :=
  if I ≤ i ∧ i < I + m.rows then
    m.with (match L with
      | .rowMajor => runFill v m.data ((i - I) * m.cols) ((i - I) * m.cols + m.cols)
      | .colMajor => strideFill v m.rows m.data (i - I) m.cols)
  else .abort

/-- `fill2`; bi-matrix.h 526-553: the assertion compares the column with the number of rows. -/
def Mat.fill2 (m : Mat T) (L : Layout) (J j : Nat) (v : T) : Out (Mat T) :=
  if J ≤ j ∧ j < J + m.rows then
    m.with (match L with
      | .rowMajor => strideFill v m.cols m.data (j - J) m.rows
      | .colMajor => runFill v m.data ((j - J) * m.rows) ((j - J) * m.rows + m.rows))
  else .abort

/-- An iterator: pointer and stride; bi-matrix.h 617-792 (stride 1), 1066-1245, 1439-1618, 1906-2085, 2291-2470. -/
structure It where
  p : Nat
  stride : Nat
deriving Repr, DecidableEq

/-- `it + n`; bi-matrix.h 731-734, 1556-1559, 2023-2026. -/
def It.add (a : It) (n : Nat) : It := { a with p := a.p + n * a.stride }

/-- `a - b`; bi-matrix.h 741-744, 1566-1569, 2033-2036: difference of the pointers divided by the stride, towards zero. -/
def It.sub (a b : It) : Int := ((a.p : Int) - b.p).tdiv a.stride

/-- `begin`, `end`; bi-matrix.h 3083-3094. -/
def Mat.begin : It := ⟨0, 1⟩
/-- `end`; bi-matrix.h 3091-3094. -/
def Mat.end (m : Mat T) : It := ⟨m.rows * m.cols % sizeMod, 1⟩

/-- `begin1(i)`; bi-matrix.h 3132-3162. -/
def Mat.begin1 (m : Mat T) (L : Layout) (I i : Nat) : Out It :=
  if I ≤ i ∧ i < I + m.rows then
    match L with
    | .rowMajor => .ok ⟨(i - I) * m.cols, 1⟩
    | .colMajor => .ok ⟨i - I, m.rows⟩
  else .abort

/-- `begin2(j)`; bi-matrix.h 3165-3195. -/
def Mat.begin2 (m : Mat T) (L : Layout) (J j : Nat) : Out It :=
  if J ≤ j ∧ j < J + m.cols then
    match L with
    | .rowMajor => .ok ⟨j - J, m.cols⟩
    | .colMajor => .ok ⟨(j - J) * m.rows, 1⟩
  else .abort

/-- `end1(i)`; bi-matrix.h 3215-3218. -/
def Mat.end1 (m : Mat T) (L : Layout) (I i : Nat) : Out It :=
  match m.begin1 L I i with
  | .ok a => .ok (a.add m.cols)
  | .abort => .abort
  | .ub => .ub

/-- `end2(j)`; bi-matrix.h 3259-3262. -/
def Mat.end2 (m : Mat T) (L : Layout) (J j : Nat) : Out It :=
  match m.begin2 L J j with
  | .ok a => .ok (a.add m.rows)
  | .abort => .abort
  | .ub => .ub

/-- `for (it = a; it != b; ++it) visit(*it);` with the operators of the iterators; bi-matrix.h 656-691, 1481-1510, 1948-1977.
The values in the order of the visits. -/
def Mat.walk (m : Mat T) (p stride last : Nat) : Out (List T) :=
  if p = last then .ok []
  else if h : p < m.data.length ∧ 0 < stride then
    match Mat.walk m (p + stride) stride last with
    | .ok vs => .ok (m.data[p]'h.1 :: vs)
    | .abort => .abort
    | .ub => .ub
  else .ub
termination_by m.data.length - p

/-- Visit from one iterator to another.  (The client's loops over iterators of bi-matrix.h 618-2640.) -/
def Mat.visit (m : Mat T) : Out It → Out It → Out (List T)
  | .ok a, .ok b => m.walk a.p a.stride b.p
  | _, _ => .abort

end Verif.Util
