import Verif.Iter.Model
/-
Model of `utility/circular-sequence-number.h` and `utility/lollipop-sequence-number.h`.
`bits` (1..64) and `start` are the template parameters.  A value is a natural number; every
operation below stays within `ValueType` (the smallest of the 8/16/32/64-bit unsigned types with
at least `bits` bits) because its operands are at most `2^bits - 1`.
-/
namespace Verif.SeqNum
open Verif.Iter

/-- `MAX_VALUE`; circular-sequence-number.h 52-54, lollipop-sequence-number.h 47-49. -/
def maxValue (bits : Nat) : Nat := 2 ^ bits - 1

/-- The constructor from a value, which clamps; circular 171-179, lollipop 234-242. -/
def mk (bits v : Nat) : Nat := if v ≤ maxValue bits then v else maxValue bits

/-! ### Circular sequence numbers -/

/-- `GAP_VALUE`; circular-sequence-number.h 57. -/
def gap (bits : Nat) : Nat := maxValue bits / 2

/-- `circular_sequence_number_inc`; 68-82 (and `operator++`, 204-215). -/
def inc (bits sn : Nat) : Nat := if sn < maxValue bits then sn + 1 else 0

/-- `circular_sequence_number_less_than`; 86-94 for one bit, 96-113 otherwise
(`operator<`, 219-225; `operator>` swaps the arguments, 245-251). -/
def lt (bits lhs rhs : Nat) : Bool :=
  if bits = 1 then lhs ≠ rhs
  else if lhs < rhs then rhs - lhs ≤ gap bits
  else lhs - rhs > gap bits

/-- `circular_sequence_number_less_equal`; 117-125 for one bit, 127-144 otherwise
(`operator<=`, 227-233). -/
def le (bits lhs rhs : Nat) : Bool :=
  if bits = 1 then true
  else if lhs ≤ rhs then rhs - lhs ≤ gap bits
  else lhs - rhs > gap bits

/-! ### Lollipop sequence numbers -/

/-- `GAP_VALUE`; lollipop-sequence-number.h 56. -/
def lgap (bits start : Nat) : Nat := (maxValue bits - start) / 2

/-- `CIRCULAR_SPACE`; lollipop-sequence-number.h 58-64. -/
def circularSpace (bits start : Nat) : Nat :=
  if maxValue bits = start then 1 else if maxValue bits = start + 1 then 2 else 3

/-- The default circle start; lollipop-sequence-number.h 223-225. -/
def defaultStart (bits : Nat) : Nat := maxValue bits / 2 + 1

/-- `lollipop_sequence_number_inc`; 77-92 (and `operator++`, 267-278). -/
def linc (bits start sn : Nat) : Nat := if sn < maxValue bits then sn + 1 else start

/-- `lollipop_sequence_number_less_than`; 96-105 (one number in the circle), 107-122 (two),
124-147 (three or more). -/
def llt (bits start lhs rhs : Nat) : Bool :=
  if circularSpace bits start = 1 then lhs < rhs
  else if circularSpace bits start = 2 then
    if rhs < start then lhs < rhs else true
  else
    if lhs < start then lhs < rhs
    else if lhs < rhs then rhs - lhs ≤ lgap bits start
    else if rhs ≥ start then lhs - rhs > lgap bits start
    else false

/-- `lollipop_sequence_number_less_equal`; 151-160, 162-177, 179-202. -/
def lle (bits start lhs rhs : Nat) : Bool :=
  if circularSpace bits start = 1 then lhs ≤ rhs
  else if circularSpace bits start = 2 then
    if rhs < start then lhs ≤ rhs else true
  else
    if lhs < start then lhs ≤ rhs
    else if lhs ≤ rhs then rhs - lhs ≤ lgap bits start
    else if rhs ≥ start then lhs - rhs > lgap bits start
    else false

/-! ### Buffer input and output -/

/-- `sizeof (ValueType)` with `ValueType = boost::uint_t<bits>::least`; circular 49. -/
def valueSize (bits : Nat) : Nat :=
  if bits ≤ 8 then 1 else if bits ≤ 16 then 2 else if bits ≤ 32 then 4 else 8

/-- `bits_endian_traits<ValueType, bits>::size`; endian.h 323-346. -/
def wireSize (bits : Nat) : Nat := (bits + 7) / 8

/-- `bits_endian_traits<ValueType, bits>::offset`; endian.h 323-346. -/
def wireOffset (h : Host) (bits : Nat) : Nat :=
  match h with
  | .little => 0
  | .big    => valueSize bits - wireSize bits

/-- `Write`/`WriteL`/`WriteB`; circular 272-291, lollipop 335-354. -/
def write (h : Host) (e : Order) (bits v : Nat) (it : It) (data : List Byte) :
    Option (It × List Byte) :=
  writeBytes h e (((image h (valueSize bits) v).drop (wireOffset h bits)).take (wireSize bits))
    it data

/-- `Read`/`ReadL`/`ReadB`; circular 293-312, lollipop 356-375.  Only the bytes
`[offset, offset + size)` of the object are overwritten; `old` is the number it held. -/
def read (h : Host) (e : Order) (bits old : Nat) (it : It) (data : List Byte) :
    Option (It × Nat) :=
  match readBytes h e (wireSize bits) it data with
  | none           => none
  | some (it', bs) =>
    let obj := image h (valueSize bits) old
    some (it', unimage h (obj.take (wireOffset h bits) ++ bs
      ++ obj.drop (wireOffset h bits + wireSize bits)))

end Verif.SeqNum
