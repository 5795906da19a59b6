import Verif.Base.Bytes
/-
Model of `network/buffer/iterator/buffer-iterator.h` (class `BufferIterator`, i.e.
`BasicBufferIterator<false, false>`).  `ConstBufferIterator` forwards every call to a
`BufferIterator`, so it is the same model restricted to moves and reads.

The storage bytes an iterator points to (`bytes_`, lines 335-355) are passed as a list.
An access outside that list is undefined behaviour in C++; a failed `BOOST_ASSERT` aborts.
Both are the outcome `none`.
-/
namespace Verif.Iter

/-- `size_t` is 64 bits wide.  (The type of `start_`, `end_` and `cursor_`, buffer-iterator.h 335-355.) -/
def sizeMod : Nat := 2 ^ 64

/-- `size_t` addition, which wraps.  (Every sum of offsets in buffer-iterator.h 360-1025.) -/
def szAdd (a b : Nat) : Nat := (a + b) % sizeMod

/-- `size_t` subtraction, which wraps.  (Every difference of offsets in buffer-iterator.h 360-1025.) -/
def szSub (a b : Nat) : Nat := (a + (sizeMod - b % sizeMod)) % sizeMod

/-- Fields of the iterator other than the pointer; buffer-iterator.h 335-355. -/
structure It where
  start  : Nat
  stop   : Nat
  cursor : Nat
deriving DecidableEq, Repr

/-- Byte orders a caller can name; endian.h 38-58 (`big_endian_t`, `little_endian_t`,
`native_endian_t`). -/
inductive Order where
  | native
  | little
  | big
deriving DecidableEq, Repr

/-- `endian_traits<...>::is_native` on host `h`; endian.h 72-114. -/
def isNative (h : Host) (e : Order) : Bool :=
  match e, h with
  | .native, _       => true
  | .little, .little => true
  | .little, .big    => false
  | .big,    .big    => true
  | .big,    .little => false

/-- Widths `sizeof (T)` for which `InternalWrite`/`InternalRead` are overloaded
(`uint8_t`, `uint16_t`, `uint32_t`/`float`, `uint64_t`/`double`).  (buffer-iterator.h 461-697.) -/
inductive Width where
  | w1 | w2 | w4 | w8
deriving DecidableEq, Repr

/-- `sizeof (T)`.  (buffer-iterator.h 461-697.) -/
def Width.n : Width → Nat
  | .w1 => 1
  | .w2 => 2
  | .w4 => 4
  | .w8 => 8

/-- `bytes_[off] = b`; out of the storage is undefined behaviour.  (buffer-iterator.h 461-697.) -/
def store (data : List Byte) (off : Nat) (b : Byte) : Option (List Byte) :=
  if off < data.length then some (data.set off b) else none

/-- The sequence `data[offset++] = ...` of one `InternalWrite`.  (buffer-iterator.h 461-697.) -/
def storeSeq : List Byte → Nat → List Byte → Option (List Byte)
  | data, _,   []      => some data
  | data, off, b :: bs =>
    match store data off b with
    | none       => none
    | some data' => storeSeq data' (off + 1) bs

/-- `... = bytes_[off]`; out of the storage is undefined behaviour.
(The overloads of `InternalRead` in buffer-iterator.h 757-1000.) -/
def load (data : List Byte) (off : Nat) : Option Byte := data[off]?

/-- The sequence `... = data[offset++]` of one `InternalRead`.
(The overloads of `InternalRead` in buffer-iterator.h 757-1000.) -/
def loadSeq : List Byte → Nat → Nat → Option (List Byte)
  | _,    _,   0     => some []
  | data, off, n + 1 =>
    match load data off, loadSeq data (off + 1) n with
    | some b, some bs => some (b :: bs)
    | _,      _       => none

/-- `CanMoveForward`; 1027-1031.  The addition is a `size_t` addition. -/
def canMoveForward (it : It) (n : Nat) : Bool := szAdd it.cursor n ≤ it.stop

/-- `CanMoveBackward`; 1033-1037. -/
def canMoveBackward (it : It) (n : Nat) : Bool := szAdd it.start n ≤ it.cursor

/-- `MoveForward`; 426-431, check 1039-1044. -/
def moveForward (it : It) (n : Nat) : Option It :=
  if canMoveForward it n then some { it with cursor := szAdd it.cursor n } else none

/-- `MoveBackward`; 433-438, check 1046-1051. -/
def moveBackward (it : It) (n : Nat) : Option It :=
  if canMoveBackward it n then some { it with cursor := szSub it.cursor n } else none

/-- Bytes of the union in the order in which `InternalWrite(..., KeepEndianTag)` stores them;
474-573. -/
def keepOrder (w : Width) (b : List Byte) : List Byte :=
  match w with
  | .w1 => [b[0]!]
  | .w2 => [b[0]!, b[1]!]
  | .w4 => [b[0]!, b[1]!, b[2]!, b[3]!]
  | .w8 => [b[0]!, b[1]!, b[2]!, b[3]!, b[4]!, b[5]!, b[6]!, b[7]!]

/-- Bytes of the union in the order in which `InternalWrite(..., ReverseEndianTag)` stores them;
575-674. -/
def reverseOrder (w : Width) (b : List Byte) : List Byte :=
  match w with
  | .w1 => [b[0]!]
  | .w2 => [b[1]!, b[0]!]
  | .w4 => [b[3]!, b[2]!, b[1]!, b[0]!]
  | .w8 => [b[7]!, b[6]!, b[5]!, b[4]!, b[3]!, b[2]!, b[1]!, b[0]!]

/-- `WriteInOrder<T>(data, endian)`; 461-472, with `Write`/`WriteL`/`WriteB` 440-459.
`v` is the bit pattern of the value (`static_cast` to the unsigned type of the same width, or
the object representation of a `float`/`double`). -/
def writeVal (h : Host) (e : Order) (w : Width) (v : Nat) (it : It) (data : List Byte) :
    Option (It × List Byte) :=
  if canMoveForward it w.n then
    let b := image h w.n v
    match storeSeq data it.cursor (if isNative h e then keepOrder w b else reverseOrder w b) with
    | some data' => some ({ it with cursor := it.cursor + w.n }, data')
    | none       => none
  else none

/-- `ReadInOrder<T>(endian)`; 759-771, `Read`/`ReadL`/`ReadB` 738-757, `InternalRead` Keep
773-874 and Reverse 876-977.  Returns the bit pattern of the value. -/
def readVal (h : Host) (e : Order) (w : Width) (it : It) (data : List Byte) :
    Option (It × Nat) :=
  if canMoveForward it w.n then
    match loadSeq data it.cursor w.n with
    | some d =>
      let b := if isNative h e then keepOrder w d else reverseOrder w d
      some ({ it with cursor := it.cursor + w.n }, unimage h b)
    | none   => none
  else none

/-- `WriteInOrder(bytes, size, endian)`; 694-722, with `Write`/`WriteL`/`WriteB` 676-692. -/
def writeBytes (h : Host) (e : Order) (bs : List Byte) (it : It) (data : List Byte) :
    Option (It × List Byte) :=
  if canMoveForward it bs.length then
    match storeSeq data it.cursor (if isNative h e then bs else bs.reverse) with
    | some data' => some ({ it with cursor := it.cursor + bs.length }, data')
    | none       => none
  else none

/-- `ReadInOrder(bytes, size, endian)`; 997-1025, with `Read`/`ReadL`/`ReadB` 979-995. -/
def readBytes (h : Host) (e : Order) (n : Nat) (it : It) (data : List Byte) :
    Option (It × List Byte) :=
  if canMoveForward it n then
    match loadSeq data it.cursor n with
    | some d => some ({ it with cursor := it.cursor + n }, if isNative h e then d else d.reverse)
    | none   => none
  else none

/-- `operator-(lhs, rhs)`: the `size_t` difference converted to `ptrdiff_t`; 1183-1191. -/
def diff (lhs rhs : It) : Int :=
  let d := szSub lhs.cursor rhs.cursor
  if d < 2 ^ 63 then (d : Int) else (d : Int) - 2 ^ 64

/-- `Fill(v, size)`; 724-736. -/
def fill (v : Byte) (n : Nat) (it : It) (data : List Byte) : Option (It × List Byte) :=
  if canMoveForward it n then
    match storeSeq data it.cursor (List.replicate n v) with
    | some data' => some ({ it with cursor := it.cursor + n }, data')
    | none       => none
  else none

end Verif.Iter
