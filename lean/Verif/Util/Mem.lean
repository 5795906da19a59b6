/-! The memory of `BiArray`, `BiVector` and `BiMatrix`: bytes asked for, addresses of elements, and iterators as machine addresses.
/repo/utility/bi-array.h, bi-vector.h, bi-matrix.h, array-tool.h.  Addresses are numbers below 2^64; elements are `z` bytes each.
A pointer outside the block is an error when it is dereferenced, not when it is formed. -/
namespace Verif.Util.Mem

/-- Number of addresses and of values of `size_t`.  (64-bit platform; no code.) -/
def W : Nat := 2 ^ 64

/-- A block of memory: its address and its size in bytes.  (The result of `::operator new`, bi-array.h 73.) -/
structure Blk where
  base : Nat
  size : Nat
deriving DecidableEq, Repr

/-- `z` bytes at address `a` lie in the block.  (No code.) -/
def Blk.has (b : Blk) (z a : Nat) : Prop := b.base ≤ a ∧ a + z ≤ b.base + b.size

instance (b : Blk) (z a : Nat) : Decidable (b.has z a) := by unfold Blk.has; infer_instance

/-- How the elements are made: `memset`, one after the other, not at all, or with `memcpy`; array-tool.h 37-41 and 43-74 and 135-145,
bi-vector.h 62-75, bi-matrix.h 392-406. -/
inductive How | zeroed | each | raw | copied
deriving DecidableEq, Repr

/-- What becomes of a construction.  (No code.) -/
inductive Made
  | badAlloc
  | undefined
  | ok (b : Blk) (writes : List Nat)
deriving DecidableEq, Repr

/-- `while (p != last) { new (p) T(v); ++p; }`; array-tool.h 43-74, 123-132; the addresses of the elements made.  After as many rounds as
there are elements `p` is `last` again, so that many rounds are enough; `none` if an element is made outside the block. -/
def loop (b : Blk) (z last : Nat) : Nat → Nat → Option (List Nat)
  | 0, _ => some []
  | n + 1, p => if p = last then some [] else
      if b.has z p then (loop b z last n ((p + z) % W)).map (p :: ·) else none

/-- The number of bytes asked for; `size * sizeof (T)`, and `rows * columns` for `size`: bi-array.h 73, 99, 143, bi-vector.h 73,
bi-matrix.h 311, 318, 345, 352, 384, 392.  `m` is the number of elements the user may name. -/
def bytes (m z : Nat) : Nat := m % W * z % W

/-- `bi_array_init`, `bi_array_copy`, `bi_vector_init`, `bi_vector_copy`, `bi_matrix_init`, `bi_matrix_copy`; bi-array.h 63-102, 132-146,
bi-vector.h 62-100, 129-143, bi-matrix.h 306-355, 379-408.  `alloc` is `::operator new`: the address for a number of bytes, or nothing when
it throws.  Without elements there is no block. -/
def make (alloc : Nat → Option Nat) (h : How) (m z : Nat) : Made :=
  if m % W = 0 then .ok ⟨0, 0⟩ []
  else match alloc (bytes m z) with
    | none => .badAlloc
    | some base =>
      let b : Blk := ⟨base, bytes m z⟩
      match h with
      | .each => match loop b z ((base + m % W * z) % W) (m % W) base with
        | none => .undefined
        | some ws => .ok b ws
      | _ => .ok b []

/-- `data_ + i`; the element with number `i`, counted from zero: bi-array.h 155-160, bi-vector.h 158-164, bi-matrix.h 434-458. -/
def addr (b : Blk) (z i : Nat) : Nat := (b.base + i * z) % W

/-- The assertion of `at()`: `I <= i && i < I + size_`; bi-array.h 159, bi-vector.h 162, bi-matrix.h 446-447, 455-456. -/
def accepts (I n i : Nat) : Bool := I ≤ i && i < (I + n) % W

/-! ### Iterators -/

/-- An iterator: `p_`, and the stride `size1_` or `size2_` (one for the others); bi-array.h 243-611, bi-vector.h 310-678,
bi-matrix.h 617-2675. -/
structure It where
  p : BitVec 64
  stride : BitVec 64
deriving DecidableEq, Repr

/-- Moves of an iterator.  (A client; the operators of bi-array.h 279-405, bi-matrix.h 1479-1606.) -/
inductive Move
  | inc
  | dec
  | add (n : Int)
  | sub (n : Int)
deriving DecidableEq, Repr

/-- `++it`, `--it`, `it += n` or `it + n`, `it -= n` or `it - n`; bi-matrix.h 1481-1492, 1539-1550, 1556-1564, 1596-1606 (strides), 657-668,
714-739, 771-781 (no stride), bi-array.h 281-292, 338-363, 395-405.  `n * size1_` is a product of unsigned numbers, and the compiler multiplies it by the size of an element. -/
def It.move (z : BitVec 64) (a : It) : Move → It
  | .inc => { a with p := a.p + a.stride * z }
  | .dec => { a with p := a.p - a.stride * z }
  | .add n => { a with p := a.p + BitVec.ofInt 64 n * a.stride * z }
  | .sub n => { a with p := a.p - BitVec.ofInt 64 n * a.stride * z }

/-- `a - b`; bi-matrix.h 1566-1569, 741-744: the distance in elements, divided by the stride, both signed and towards zero. -/
def It.diff (z : BitVec 64) (a b : It) : Int := (((a.p - b.p).toInt).tdiv z.toInt).tdiv a.stride.toInt

/-- `a == b`; bi-matrix.h 1496-1499. -/
def It.eq (a b : It) : Bool := a.p == b.p
/-- `a != b`; bi-matrix.h 1501-1504. -/
def It.ne (a b : It) : Bool := a.p != b.p
/-- `a < b`; bi-matrix.h 1574-1577. -/
def It.lt (a b : It) : Bool := a.p.toNat < b.p.toNat
/-- `a > b`; bi-matrix.h 1579-1582. -/
def It.gt (a b : It) : Bool := b.p.toNat < a.p.toNat
/-- `a <= b`; bi-matrix.h 1584-1587. -/
def It.le (a b : It) : Bool := a.p.toNat ≤ b.p.toNat
/-- `a >= b`; bi-matrix.h 1589-1592. -/
def It.ge (a b : It) : Bool := b.p.toNat ≤ a.p.toNat

/-- The address of `it[n]`; bi-matrix.h 1610-1613, 785-788. -/
def It.index (z : BitVec 64) (a : It) (n : Int) : BitVec 64 := a.p + BitVec.ofInt 64 n * a.stride * z

end Verif.Util.Mem
