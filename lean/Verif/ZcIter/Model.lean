import Verif.Iter.Model

/-!
Model of `network/buffer/iterator/zc-buffer-iterator.h` (class `ZcBufferIterator`).  `ConstZcBufferIterator`
forwards every call to a `ZcBufferIterator`.

The storage bytes an iterator points to (`bytes_`) are passed as a list; a buffer without a storage has the
empty list.  An access outside the list is undefined behaviour and a failed `BOOST_ASSERT` aborts; both are
`none`.  Reading or writing zero bytes through a null `bytes_` is taken to be harmless.
-/
namespace Verif.ZcIter
open Verif Verif.Iter

/-- Fields other than the pointer; `zc-buffer-iterator.h:373-410`. -/
structure ZIt where
  start  : Nat
  zs     : Nat
  ze     : Nat
  en     : Nat
  cursor : Nat
deriving DecidableEq, Repr

/-- `CanMoveForward`; 1353-1357.  The addition is a `size_t` addition. -/
def canMoveForward (it : ZIt) (n : Nat) : Bool := szAdd it.cursor n ≤ it.en

/-- `CanMoveBackward`; 1359-1363. -/
def canMoveBackward (it : ZIt) (n : Nat) : Bool := szAdd it.start n ≤ it.cursor

/-- `MoveForward`; 484-489, check 1365-1370. -/
def moveForward (it : ZIt) (n : Nat) : Option ZIt :=
  if canMoveForward it n then some { it with cursor := szAdd it.cursor n } else none

/-- `MoveBackward`; 491-496, check 1372-1377. -/
def moveBackward (it : ZIt) (n : Nat) : Option ZIt :=
  if canMoveBackward it n then some { it with cursor := szSub it.cursor n } else none

/-- `operator-(lhs, rhs)`: the `size_t` difference converted to `ptrdiff_t`; 1525-1533. -/
def diff (lhs rhs : ZIt) : Int :=
  let d := szSub lhs.cursor rhs.cursor
  if d < 2 ^ 63 then (d : Int) else (d : Int) - 2 ^ 64

/-- `InZeroArea`; 1394-1398. -/
def inZeroArea (it : ZIt) : Bool := it.zs ≤ it.cursor ∧ it.cursor < it.ze

/-- `CrossZeroArea`; 1400-1406. -/
def crossZeroArea (it : ZIt) (n : Nat) : Bool :=
  (it.cursor < it.zs ∧ it.zs < szAdd it.cursor n) ∨ (it.cursor < it.ze ∧ it.ze < szAdd it.cursor n)

/-- `CursorToOffset`; 498-514. -/
def cursorToOffset (it : ZIt) : Option Nat :=
  if inZeroArea it then none
  else some (if it.cursor < it.zs then it.cursor else it.cursor - (it.ze - it.zs))

/-- The common part of all writes: `WritableCheck` (1379-1386), `CursorToOffset`, the stores, and the cursor. -/
def storeAt (bs : List Byte) (it : ZIt) (data : List Byte) : Option (ZIt × List Byte) :=
  if canMoveForward it bs.length && !crossZeroArea it bs.length then
    match cursorToOffset it with
    | none => none
    | some off =>
      match storeSeq data off bs with
      | none => none
      | some data' => some ({ it with cursor := it.cursor + bs.length }, data')
  else none

/-- `WriteInOrder<T>(data, endian)`; 537-548, with `Write`/`WriteL`/`WriteB` 516-535 and `InternalWrite` Keep
550-648, Reverse 650-750.  `v` is the bit pattern of the value. -/
def writeVal (h : Host) (e : Order) (w : Width) (v : Nat) (it : ZIt) (data : List Byte) :
    Option (ZIt × List Byte) :=
  let b := image h w.n v
  storeAt (if isNative h e then keepOrder w b else reverseOrder w b) it data

/-- `WriteInOrder(bytes, size, endian)`; 770-798, with `Write`/`WriteL`/`WriteB` 752-768. -/
def writeBytes (h : Host) (e : Order) (bs : List Byte) (it : ZIt) (data : List Byte) :
    Option (ZIt × List Byte) :=
  storeAt (if isNative h e then bs else bs.reverse) it data

/-- `Fill(v, size)`; 800-812. -/
def fill (v : Byte) (n : Nat) (it : ZIt) (data : List Byte) : Option (ZIt × List Byte) :=
  storeAt (List.replicate n v) it data

/-- `InternalRead(ReadTag<uint8_t, CheckAreaTag>)`: one byte, zero inside the zero area; 1075-1086. -/
def readChecked (it : ZIt) (data : List Byte) : Option (ZIt × Byte) :=
  if inZeroArea it then some ({ it with cursor := it.cursor + 1 }, 0)
  else match cursorToOffset it with
    | none => none
    | some off =>
      match load data off with
      | none => none
      | some b => some ({ it with cursor := it.cursor + 1 }, b)

/-- Byte after byte across the boundaries; the sequences of 1088-1265 and the loops of 1333-1351. -/
def crossSeq : Nat → ZIt → List Byte → Option (ZIt × List Byte)
  | 0, it, _ => some (it, [])
  | n + 1, it, data =>
    match readChecked it data with
    | none => none
    | some (it1, b) =>
      match crossSeq n it1 data with
      | none => none
      | some (it2, bs) => some (it2, b :: bs)

/-- `InternalRead(ReadTag<V, CrossZeroAreaTag>)`: Keep 1088-1176, Reverse 1178-1265.  The one-byte overloads
return 0, and the reversing one forgets to advance the cursor (1178-1182). -/
def readCross (h : Host) (keep : Bool) (w : Width) (it : ZIt) (data : List Byte) : Option (ZIt × Nat) :=
  match w with
  | .w1 => if keep then some ({ it with cursor := it.cursor + 1 }, 0) else some (it, 0)
  | _ =>
    match crossSeq w.n it data with
    | none => none
    | some (it', d) => some (it', unimage h (if keep then keepOrder w d else reverseOrder w d))

/-- `InternalRead(offset, ReadTag<V, InSolidAreaTag>)`: Keep 871-971, Reverse 973-1073. -/
def readSolid (h : Host) (keep : Bool) (w : Width) (off : Nat) (it : ZIt) (data : List Byte) :
    Option (ZIt × Nat) :=
  match loadSeq data off w.n with
  | none => none
  | some d => some ({ it with cursor := it.cursor + w.n },
      unimage h (if keep then keepOrder w d else reverseOrder w d))

/-- `ReadInOrder<T>(endian)`; 835-869, with `Read`/`ReadL`/`ReadB` 814-833 and `ReadableCheck` 1388-1392.
Returns the bit pattern of the value. -/
def readVal (h : Host) (e : Order) (w : Width) (it : ZIt) (data : List Byte) : Option (ZIt × Nat) :=
  if canMoveForward it w.n then
    if szAdd it.cursor w.n ≤ it.zs then readSolid h (isNative h e) w it.cursor it data
    else if it.ze ≤ it.cursor then readSolid h (isNative h e) w (it.cursor - (it.ze - it.zs)) it data
    else if it.zs ≤ it.cursor ∧ szAdd it.cursor w.n ≤ it.ze then
      some ({ it with cursor := it.cursor + w.n }, 0)
    else readCross h (isNative h e) w it data
  else none

/-- `ReadInOrder(bytes, size, endian)`; 1285-1314, with `Read`/`ReadL`/`ReadB` 1267-1283, solid 1315-1331. -/
def readBytes (h : Host) (e : Order) (n : Nat) (it : ZIt) (data : List Byte) : Option (ZIt × List Byte) :=
  let order := fun d : List Byte => if isNative h e then d else d.reverse
  if canMoveForward it n then
    if szAdd it.cursor n ≤ it.zs then
      match loadSeq data it.cursor n with
      | none => none
      | some d => some ({ it with cursor := it.cursor + n }, order d)
    else if it.ze ≤ it.cursor then
      match loadSeq data (it.cursor - (it.ze - it.zs)) n with
      | none => none
      | some d => some ({ it with cursor := it.cursor + n }, order d)
    else if it.zs ≤ it.cursor ∧ szAdd it.cursor n ≤ it.ze then
      some ({ it with cursor := it.cursor + n }, List.replicate n 0)
    else
      match crossSeq n it data with
      | none => none
      | some (it', d) => some (it', order d)
  else none

end Verif.ZcIter
