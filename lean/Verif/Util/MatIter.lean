import Verif.Util.MatModel
/-!
Model of the iterators of `nsfx::BiMatrix` as random access iterators (/repo/utility/bi-matrix.h 617-2715), of the pointers they hold, and of
the plain functions on matrices in `nsfx::detail` (bi-matrix.h 70-286, 555-570).

An iterator of a row or a column holds a pointer, and the number of elements between two elements of the line unless they are
neighbours.  The numbers that iterators are moved by are `ptrdiff_t`; multiplied with that number, which is a `size_t`, they become
unsigned.  Two readings of pointers are modelled: `flat`, addresses modulo `2 ^ 64`, which is what compilers make of them;
`strict`, the rules of C++, in which a pointer may only move from one element of the storage to another or behind the last.

The iterators to `const` elements have the same text and are not modelled twice.
-/
namespace Verif.Util.MatIt
open Verif.Util (Layout)

/-- The modulus of addresses and of `size_t`.  (`size_t` of bi-matrix.h 62-67.) -/
abbrev M : Int := 2 ^ 64

/-- A row or a column, counted from zero; `begin1(i)`, `begin2(j)`, bi-matrix.h 3132-3195. -/
inductive Line
  | row (a : Nat)
  | col (b : Nat)
deriving DecidableEq, Repr

/-- The offset of the first element; bi-matrix.h 3132-3195. -/
def Line.start (L : Layout) (rows cols : Nat) : Line → Nat
  | .row a => match L with
    | .rowMajor => a * cols
    | .colMajor => a
  | .col b => match L with
    | .rowMajor => b
    | .colMajor => b * rows

/-- `size1_` or `size2_` of the iterator, if it has one; bi-matrix.h 1066-1245, 1439-1618, 1906-2085, 2291-2470. -/
def Line.stride (L : Layout) (rows cols : Nat) : Line → Option Nat
  | .row _ => match L with
    | .rowMajor => none
    | .colMajor => some rows
  | .col _ => match L with
    | .rowMajor => some cols
    | .colMajor => none

/-- The number of elements; bi-matrix.h 3215-3218, 3259-3262. -/
def Line.count (rows cols : Nat) : Line → Nat
  | .row _ => cols
  | .col _ => rows

/-- The assertion of `begin1` and `begin2`; bi-matrix.h 3135, 3168. -/
def Line.Ok (rows cols : Nat) : Line → Prop
  | .row a => a < rows
  | .col b => b < cols

/-- `n` or `n * size1_` or `n * size2_` (in `size_t`); bi-matrix.h 731-739, 1556-1564, 2023-2031. -/
def delta (s : Option Nat) (n : Int) : Int := match s with
  | none => n
  | some s => (n * s) % M

/-- The increment of `++` and `--`; bi-matrix.h 657-668, 714-725, 1481-1492, 1539-1550, 1948-1959, 2006-2017. -/
def one (s : Option Nat) : Int := match s with
  | none => 1
  | some s => s

/-- Moves of an iterator: `++it`, `--it`, `it += n` (or `it + n`, `n + it`), `it -= n` (or `it - n`); bi-matrix.h 657-668, 714-739,
771-781, 796-803. -/
inductive Move
  | inc
  | dec
  | add (n : Int)
  | sub (n : Int)
deriving DecidableEq, Repr

/-! ### Flat addresses -/

/-- An iterator: address and stride; bi-matrix.h 790-791, 1615-1617. -/
structure It where
  addr : Int
  stride : Option Nat
deriving DecidableEq, Repr

/-- `begin1(i)`, `begin2(j)` of a matrix at the address `base` with elements of `w` bytes; bi-matrix.h 3132-3195. -/
def begin (base w : Nat) (L : Layout) (rows cols : Nat) (l : Line) : It :=
  ⟨(base + w * (l.start L rows cols : Int)) % M, l.stride L rows cols⟩

/-- One move; bi-matrix.h 657-668, 714-739, 771-781, 1481-1492, 1539-1564, 1596-1606, 1948-1959, 2006-2031, 2063-2073. -/
def It.move (w : Nat) (it : It) : Move → It
  | .inc => { it with addr := (it.addr + w * one it.stride) % M }
  | .dec => { it with addr := (it.addr - w * one it.stride) % M }
  | .add n => { it with addr := (it.addr + w * delta it.stride n) % M }
  | .sub n => { it with addr := (it.addr - w * delta it.stride n) % M }

/-- Moves one after the other.  (A client; bi-matrix.h 657-781.) -/
def It.moves (w : Nat) (it : It) (ms : List Move) : It := ms.foldl (It.move w) it

/-- The address of `it[n]`; bi-matrix.h 785-788, 1610-1613, 2077-2080. -/
def It.at (w : Nat) (it : It) (n : Int) : Int := (it.addr + w * delta it.stride n) % M

/-- `a - b`; bi-matrix.h 741-744, 1566-1569, 2033-2036: the difference of pointers is that of the addresses as a signed number, divided by the
size of an element. -/
def It.dist (w : Nat) (a b : It) : Int :=
  let d := (Int.bmod (a.addr - b.addr) (2 ^ 64)).tdiv w
  match a.stride with
  | none => d
  | some s => d.tdiv s

/-- `a < b`; bi-matrix.h 749-752, 1574-1577, 2041-2044. -/
def It.lt (a b : It) : Bool := decide (a.addr < b.addr)

/-- `a == b`; bi-matrix.h 672-675, 1496-1499, 1963-1966. -/
def It.eq (a b : It) : Bool := decide (a.addr = b.addr)

/-! ### Strict pointers -/

/-- A pointer into a storage of `len` elements, or behind its end: an offset; none: undefined behaviour.
(The rules of C++ for the pointers of bi-matrix.h 1481-1606.) -/
def inside (len : Nat) (p : Int) : Option Int := if 0 ≤ p ∧ p ≤ len then some p else none

/-- One move of an iterator whose pointer has the offset `p`; bi-matrix.h 657-668, 714-739, 1481-1492, 1539-1564, 1948-1959, 2006-2031. -/
def moveS (len : Nat) (s : Option Nat) (p : Int) : Move → Option Int
  | .inc => inside len (p + one s)
  | .dec => inside len (p - one s)
  | .add n => inside len (p + delta s n)
  | .sub n => inside len (p - delta s n)

/-! ### The plain functions -/

/-- `bi_matrix_row_iterator` for matrices stored by columns; bi-matrix.h 80-85.  The pointer as an offset. -/
structure Plain where
  item : Int
  size1 : Nat
deriving DecidableEq, Repr

/-- `bi_matrix_row_iterator_inc`, `_dec`, `_plus`, `_minus` for matrices stored by columns; bi-matrix.h 130-169: the initializer gives no value
for `size1_`, which thus is zero. -/
def Plain.move (it : Plain) : Move → Plain
  | .inc => ⟨it.item + it.size1, 0⟩
  | .dec => ⟨it.item - it.size1, 0⟩
  | .add n => ⟨it.item + n * it.size1, 0⟩
  | .sub n => ⟨it.item - n * it.size1, 0⟩

/-- The offset of `bi_matrix_end`; bi-matrix.h 563-569. -/
def plainEnd (rows cols : Nat) : Nat := rows + cols

/-! ## Specification -/

/-- Where the moves lead to, counted in elements.  (Specification; no code.) -/
def net : List Move → Int
  | [] => 0
  | .inc :: t => 1 + net t
  | .dec :: t => -1 + net t
  | .add n :: t => n + net t
  | .sub n :: t => -n + net t

/-- The row and the column of the `k`-th element of a line.  (Specification; no code.) -/
def Line.cell : Line → Nat → Nat × Nat
  | .row a, k => (a, k)
  | .col b, k => (k, b)

/-- Where the element in row `a` and column `b` is stored; bi-matrix.h 442-458 (`bi_matrix_at`). -/
def place (L : Layout) (rows cols : Nat) (c : Nat × Nat) : Nat := match L with
  | .rowMajor => c.1 * cols + c.2
  | .colMajor => c.2 * rows + c.1

end Verif.Util.MatIt
