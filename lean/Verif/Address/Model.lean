import Verif.Base.Bytes
/-
Model of `network/address/address-little-endian.h`: fixed-width addresses.

An address of `bits` bits is an array of unsigned words (`data_.v_`), least significant word first: one 32-bit word up to 32 bits,
one 64-bit word up to 64 bits, and 32-bit words above.  The model is the list of the words, each as a number.  Unsigned
arithmetic wraps explicitly.  Undefined behaviour (access outside of the array, shift by the word width, signed overflow) is
`none`.  The machine is little-endian (`169-171`).
-/
namespace Verif.Address
open Verif

/-- `V_BITS` (`54-58`, `79-83`, `104-108`). -/
def vb (bits : Nat) : Nat := if (bits + 31) / 32 = 2 then 64 else 32

/-- `NUM_VALUES` (`66`, `91`, `116`).  (/repo/network/address/address-little-endian.h.) -/
def nv (bits : Nat) : Nat := if (bits + 31) / 32 = 2 then (bits + 63) / 64 else (bits + 31) / 32

/-- `NUM_BYTES` (`61`, `86`, `111`).  (/repo/network/address/address-little-endian.h.) -/
def nb (bits : Nat) : Nat := (bits + 7) / 8

/-- `MSV_MASK` (`70-71`, `95-96`, `120-121`). -/
def msv (bits : Nat) : Nat := (2 ^ vb bits - 1) >>> (vb bits * nv bits - bits)

/-- `V_MASK` of 32-bit words (`68`).
(/repo/network/address/address-little-endian.h 68; `93` and `118` for the other widths.) -/
def vmask : Nat := 2 ^ 32 - 1

/-- The words `data_.v_`, least significant first (/repo/network/address/address-little-endian.h 1584-1588). -/
abbrev Limbs := List Nat

/-- `data_.v_[NV-1] &= MSV_MASK`.  (`689`, `702`, `717`, `730`, `767`, `1040-1220`.) -/
def maskTop (bits : Nat) (l : Limbs) : Limbs := l.set (nv bits - 1) (l.getD (nv bits - 1) 0 &&& msv bits)

/-- `Assign0` (`669-675`), the default constructor (`209-212`). -/
def zero (bits : Nat) : Limbs := List.replicate (nv bits) 0

/-- An assignment to `data_.v_[0]`.  (`1023-1025`, `1045-1047`, `1068-1070`, `1108-1110`, `1151-1152`.) -/
def onWord (f : Nat → Nat) : Limbs → Limbs
  | [] => []
  | v :: t => f v :: t

/-! ### Comparison -/

/-- `Equal` (`950-967`). -/
def equal : Limbs → Limbs → Bool
  | a :: s, b :: t => if a ≠ b then false else equal s t
  | _, _ => true

/-- The loop of `LessThan` (`974-992`) from the most significant word. -/
def ltTop : List Nat → List Nat → Bool
  | a :: s, b :: t => if a > b then false else if a < b then true else ltTop s t
  | _, _ => false

/-- The loop of `LessEqual` (`999-1017`). -/
def leTop : List Nat → List Nat → Bool
  | a :: s, b :: t => if a < b then true else if a > b then false else leTop s t
  | _, _ => true

/-- `LessThan` (`969-992`); the loop for one word is the single comparison. -/
def lessThan (a b : Limbs) : Bool := ltTop a.reverse b.reverse

/-- `LessEqual` (`994-1017`). -/
def lessEqual (a b : Limbs) : Bool := leTop a.reverse b.reverse

/-- The comparison operators (`440-468`). -/
def eqOp (a b : Limbs) : Bool := equal a b
/-- `operator!=` (`440-468`). -/
def neOp (a b : Limbs) : Bool := !equal a b
/-- `operator<` (`440-468`). -/
def ltOp (a b : Limbs) : Bool := lessThan a b
/-- `operator<=` (`440-468`). -/
def leOp (a b : Limbs) : Bool := lessEqual a b
/-- `operator>` (`440-468`). -/
def gtOp (a b : Limbs) : Bool := !lessEqual a b
/-- `operator>=` (`440-468`). -/
def geOp (a b : Limbs) : Bool := !lessThan a b

/-! ### Arithmetic -/

/-- The loop of `Increment` (`1028-1041`). -/
def incLoop : Limbs → Limbs
  | [] => []
  | v :: t =>
    let x := (v + 1) % 2 ^ 32
    if ¬ x < 1 then x :: t else x :: incLoop t

/-- `Increment` (`1021-1041`). -/
def increment (bits : Nat) (l : Limbs) : Limbs :=
  if nv bits = 1 then onWord (fun v => (v + 1) % 2 ^ vb bits &&& msv bits) l else maskTop bits (incLoop l)

/-- The loop of `Decrement` (`1050-1063`). -/
def decLoop : Limbs → Limbs
  | [] => []
  | v :: t =>
    let x := (v + vmask) % 2 ^ 32
    if x < vmask then x :: t else x :: decLoop t

/-- `Decrement` (`1043-1063`). -/
def decrement (bits : Nat) (l : Limbs) : Limbs :=
  if nv bits = 1 then onWord (fun v => (v + (2 ^ vb bits - 1)) % 2 ^ vb bits &&& msv bits) l else maskTop bits (decLoop l)

/-- The words from the third on in `Plus` and `Minus` (`1095-1101`, `1136-1142`); the arguments are `ex` and `carry`.
(`& V_MASK` of an unsigned number is written as remainder, `>>= V_BITS` as quotient.) -/
def addEx (ex : Nat) : Nat → Limbs → Limbs
  | _, [] => []
  | carry, v :: t =>
    let c := (carry / 2 ^ 32 + ex + v) % 2 ^ 64
    c % 2 ^ 32 :: addEx ex c t

/-- The addition of the low word `lo`, the high word `hi` and the extension `ex` (`1084-1101`, `1125-1142`). -/
def addWords (lo hi ex : Nat) : Limbs → Limbs
  | v0 :: v1 :: t =>
    let c0 := (lo + v0) % 2 ^ 64
    let c1 := (c0 / 2 ^ 32 + hi + v1) % 2 ^ 64
    c0 % 2 ^ 32 :: c1 % 2 ^ 32 :: addEx ex c1 t
  | l => l

/-- `Plus` (`1066-1104`) of a signed 64-bit number. -/
def plus (bits : Nat) (l : Limbs) (n : Int) : Limbs :=
  if nv bits = 1 then onWord (fun v => (v + (n % 2 ^ vb bits).toNat) % 2 ^ vb bits &&& msv bits) l
  else maskTop bits (addWords (n % 2 ^ 32).toNat (n / 2 ^ 32 % 2 ^ 32).toNat (if n ≥ 0 then 0 else vmask) l)

/-- `Minus` (`1106-1145`).  Negating the smallest 64-bit number is a signed overflow. -/
def minus (bits : Nat) (l : Limbs) (n : Int) : Option Limbs :=
  if n = -2 ^ 63 then none
  else if nv bits = 1 then some (onWord (fun v => (v + (-n % 2 ^ vb bits).toNat) % 2 ^ vb bits &&& msv bits) l)
  else
    let neg := (-n % 2 ^ 64).toNat
    some (maskTop bits (addWords (neg % 2 ^ 32) (neg / 2 ^ 32 % 2 ^ 32) (if n ≤ 0 then 0 else vmask) l))

/-- The inner loop of `MultiplyPlus` (`1192-1198`): adds `x * m` to the words `d`, which begin at index `i`.  Going beyond the
last word of `d` is an access outside of the array. -/
def mulRow (x : Nat) : Nat → List Nat → List Nat → Option (List Nat)
  | _, [], d => some d
  | _, _ :: _, [] => none
  | carry, m :: ms, v :: d =>
    let c := (carry + x * m + v) % 2 ^ 64
    (mulRow x (c / 2 ^ 32) ms d).map (c % 2 ^ 32 :: ·)

/-- `MultiplyPlus` (`1185-1203`) without the mask.  `d` is the memory that begins with the words of `*this`. -/
def mulMem (m : Limbs) (n : Nat) (d : List Nat) : Option (List Nat) :=
  match mulRow (n % 2 ^ 32) 0 m d with
  | some (v :: t) => (mulRow (n / 2 ^ 32 % 2 ^ 32) 0 m t).map (v :: ·)
  | _ => none

/-- `MultiplyPlus` (`1185-1203`). -/
def multiplyPlus (bits : Nat) (l m : Limbs) (n : Nat) : Option Limbs := (mulMem m n l).map (maskTop bits)

/-- `MultiplyAssign` (`1149-1166`). -/
def multiplyAssign (bits : Nat) (l : Limbs) (n : Nat) : Option Limbs :=
  if nv bits = 1 then some (onWord (fun v => v * (n % 2 ^ vb bits) % 2 ^ vb bits &&& msv bits) l)
  else if n = 0 then some (zero bits)
  else if n > 1 then multiplyPlus bits l l (n - 1)
  else some l

/-- `Multiply` (`1168-1181`). -/
def multiply (bits : Nat) (l : Limbs) (n : Nat) : Option Limbs :=
  if nv bits = 1 then some (onWord (fun v => v * n % 2 ^ 64 % 2 ^ vb bits &&& msv bits) l)
  else multiplyPlus bits (zero bits) l n

/-! ### Bits -/

/-- `BitwiseNot` (`1213-1221`).  It changes the operand, also when called by `operator~` (`574-578`). -/
def bitNot (bits : Nat) (l : Limbs) : Limbs := maskTop bits (l.map fun v => (2 ^ vb bits - 1) ^^^ v)

/-- `Negate` (`1207-1211`); changes the operand of unary minus (`504-508`). -/
def negate (bits : Nat) (l : Limbs) : Limbs := increment bits (bitNot bits l)

/-- `BitwiseAnd`, `BitwiseOr`, `BitwiseXor` (`1223-1245`). -/
def bitAnd (a b : Limbs) : Limbs := List.zipWith (· &&& ·) a b
/-- `BitwiseOr` (`1231-1237`). -/
def bitOr (a b : Limbs) : Limbs := List.zipWith (· ||| ·) a b
/-- `BitwiseXor` (`1239-1245`). -/
def bitXor (a b : Limbs) : Limbs := List.zipWith (· ^^^ ·) a b

/-- `v << s` of a 32-bit word; undefined from the width on.  (`1287`, `1292`, `1343`.) -/
def shl32 (v s : Nat) : Option Nat := if s < 32 then some ((v <<< s) % 2 ^ 32) else none

/-- `v >> s` of a 32-bit word.  (`1288`, `1342`, `1347`.) -/
def shr32 (v s : Nat) : Option Nat := if s < 32 then some (v >>> s) else none

/-- The first loop of `LeftShift` (`1282-1290`), from index `i` down. -/
def shlLoop (z s : Nat) : Nat → Limbs → Option Limbs
  | 0, l => some l
  | i + 1, l =>
    if i + 1 > z then
      match shl32 (l.getD (i + 1 - z) 0) s, shr32 (l.getD (i + 1 - z - 1) 0) (32 - s) with
      | some x, some y => shlLoop z s i (l.set (i + 1) (x ||| y))
      | _, _ => none
    else some l

/-- The second loop of `LeftShift` (`1293-1297`): the words below index `i` become zero. -/
def zeroBelow : Nat → Limbs → Limbs
  | 0, l => l
  | i + 1, l => zeroBelow i (l.set i 0)

/-- `LeftShift` (`1247-1302`). -/
def leftShift (bits : Nat) (l : Limbs) (n : Nat) : Option Limbs :=
  if nv bits = 1 then
    if n < vb bits then some (onWord (fun v => (v <<< n) % 2 ^ vb bits &&& msv bits) l)
    else some (onWord (fun _ => 0) l)
  else if n > 0 then
    let z := n / 32
    if z ≥ nv bits then some (zero bits)
    else
      let s := n % 32
      match shlLoop z s (nv bits - 1) l with
      | none => none
      | some l1 =>
        match shl32 (l1.getD 0 0) s with
        | none => none
        | some x => some (maskTop bits (zeroBelow z (l1.set z x)))
  else some l

/-- The first loop of `RightShift` (`1337-1345`), with `k` turns left, at index `i`. -/
def shrLoop (z s : Nat) : Nat → Nat → Limbs → Option Limbs
  | 0, _, l => some l
  | k + 1, i, l =>
    match shr32 (l.getD (i + z) 0) s, shl32 (l.getD (i + z + 1) 0) (32 - s) with
    | some x, some y => shrLoop z s k (i + 1) (l.set i (x ||| y))
    | _, _ => none

/-- The second loop of `RightShift` (`1348-1351`): `k` words from index `i` on become zero. -/
def zeroFrom : Nat → Nat → Limbs → Limbs
  | 0, _, l => l
  | k + 1, i, l => zeroFrom k (i + 1) (l.set i 0)

/-- `RightShift` (`1304-1354`). -/
def rightShift (bits : Nat) (l : Limbs) (n : Nat) : Option Limbs :=
  if nv bits = 1 then
    if n ≥ vb bits then some (onWord (fun _ => 0) l) else some (onWord (fun v => v >>> n) l)
  else if n > 0 then
    let z := n / 32
    if z ≥ nv bits then some (zero bits)
    else
      let s := n % 32
      let i := nv bits - 1 - z
      match shrLoop z s i 0 l with
      | none => none
      | some l1 =>
        match shr32 (l1.getD (nv bits - 1) 0) s with
        | none => none
        | some x => some (zeroFrom (nv bits - 1 - i) (i + 1) (l1.set i x))
  else some l

/-- `IsZero` (`1358-1381`). -/
def isZero : Limbs → Bool
  | [] => true
  | v :: t => if v ≠ 0 then false else isZero t

/-- `operator bool` (`647-650`). -/
def toBool (l : Limbs) : Bool := isZero l

/-- `operator!` (`662-665`). -/
def notOp (l : Limbs) : Bool := isZero l

/-! ### Difference -/

/-- An unsigned 64-bit number as a signed one.  (the cast of the difference, `1383-1420`.) -/
def int64 (v : Nat) : Int := if v < 2 ^ 63 then v else v - 2 ^ 64

/-- The loop of `Difference` (`1394-1400`). -/
def diffLoop : Nat → Limbs → Limbs → Limbs
  | borrow, a :: s, b :: t =>
    let bo := borrow + b
    let x := (a + 2 ^ 64 - bo) % 2 ^ 64
    x % 2 ^ 32 :: diffLoop (if a < bo then 1 else 0) s t
  | _, _, _ => []

/-- `ToInt64` (`1405-1455`); the loops `while (--i > 2)` look at the words from index 3 on. -/
def toInt64 (bits : Nat) (l : Limbs) : Int :=
  let d := int64 (l.getD 0 0 + 2 ^ 32 * l.getD 1 0)
  if l.getD (nv bits - 1) 0 ≤ vmask / 2 then
    if d < 0 then 2 ^ 63 - 1
    else if (l.drop 3).any (· ≠ 0) then 2 ^ 63 - 1
    else d
  else
    if d ≥ 0 then -2 ^ 63
    else if (l.drop 3).any (· ≠ vmask) then -2 ^ 63
    else d

/-- `Difference` (`1385-1403`).  For one word the unsigned difference is converted to a signed 64-bit number. -/
def difference (bits : Nat) (a b : Limbs) : Int :=
  if nv bits = 1 then int64 ((a.getD 0 0 + 2 ^ vb bits - b.getD 0 0) % 2 ^ vb bits)
  else toInt64 bits (diffLoop 0 a b)

/-! ### Bytes -/

/-- The bytes of the words (the union `1584-1588`). -/
def toBytes (bits : Nat) (l : Limbs) : List Byte := l.flatMap (leBytes (vb bits / 8))

/-- The `count` words in bytes.  (the union of `b_` and `v_`, `1584-1588`.) -/
def ofBytes (k : Nat) : Nat → List Byte → Limbs
  | 0, _ => []
  | c + 1, bs => leVal (bs.take k) :: ofBytes k c (bs.drop k)

/-- The words of a byte array of `DB` bytes.  (the union of `b_` and `v_`, `1584-1588`.) -/
def words (bits : Nat) (bs : List Byte) : Limbs := ofBytes (vb bits / 8) (nv bits) bs

/-- Overwrite the first bytes of `b_`.  (the copying loops of `Assign`, `677-770`.) -/
def overlay (bits : Nat) (bs : List Byte) (l : Limbs) : Limbs := words bits (bs ++ (toBytes bits l).drop bs.length)

/-- `AssignBytes` in little-endian (`679-690`, `707-718`). -/
def assignBytesL (bits : Nat) (bs : List Byte) : Limbs := maskTop bits (overlay bits (bs.take (nb bits)) (zero bits))

/-- `AssignBytes` in big-endian (`692-703`, `720-731`): `b_[i] = bytes[size-1-i]`. -/
def assignBytesB (bits : Nat) (bs : List Byte) : Limbs := maskTop bits (overlay bits (bs.reverse.take (nb bits)) (zero bits))

/-- `AssignValue` of an `m`-byte integer (`735-769`). -/
def assignValue (bits m : Nat) (signed : Bool) (v : Int) : Limbs :=
  let l := assignBytesL bits (leBytes m (v % 256 ^ m).toNat)
  if signed = true ∧ m < nb bits ∧ v < 0 then
    maskTop bits (overlay bits ((toBytes bits l).take m ++ List.replicate (nb bits - m) 0xff) l)
  else l

/-- `NT` (`787-788`). -/
def nt (bits m : Nat) : Nat := (bits + 8 * m - 1) / (8 * m)

/-- `AssignValues` of `m`-byte integers in little-endian (`773-780`, `803-808`). -/
def assignValuesL (bits m : Nat) (vs : List Nat) : Limbs := assignBytesL bits (vs.flatMap (leBytes m))

/-- `AssignValues` in big-endian of an array (`782-801`). -/
def assignValuesB (bits m : Nat) (vs : List Nat) : Limbs :=
  assignBytesL bits ((vs.reverse.take (nt bits m)).flatMap (leBytes m))

/-- `AssignValues` in big-endian of a pointer and a count (`810-836`): the remaining values are zero. -/
def assignValuesBPtr (bits m : Nat) (vs : List Nat) : Limbs :=
  assignBytesL bits (((vs.reverse.take (nt bits m)) ++ List.replicate (nt bits m - vs.length) 0).flatMap (leBytes m))

/-- `AssignValues` of a pack of values in little-endian (`1701-1731`): the first `K` values. -/
def assignPackL (bits m : Nat) (vs : List Nat) : Limbs :=
  assignBytesL bits ((vs.take (nt bits m)).flatMap (leBytes m))

/-- `AssignValues` of a pack of values in big-endian (`1736-1766`): `t[M-1-n] = v_n` where that is within the array. -/
def assignPackB (bits m : Nat) (vs : List Nat) : Limbs :=
  assignBytesL bits ((vs.reverse.take (nt bits m)).flatMap (leBytes m))

/-- The bytes that are written to a buffer (`1530-1546`), and `GetData()`. -/
def outBytes (bits : Nat) (l : Limbs) : List Byte := (toBytes bits l).take (nb bits)

/-- `Read` of bytes (`1548-1567`) into an address that is `l`. -/
def readIn (bits : Nat) (l : Limbs) (bs : List Byte) : Limbs := maskTop bits (overlay bits bs l)

/-- `Mask()` (`1507-1511`). -/
def mask (bits : Nat) : Limbs := assignValue bits 8 true (-1)

/-- `ToString` (`1515-1526`): two hexadecimal digits per byte, most significant byte first; digits as numbers. -/
def toHex (bits : Nat) (l : Limbs) : List Nat :=
  (outBytes bits l).reverse.flatMap fun b => [b.toNat / 16, b.toNat % 16]

end Verif.Address
