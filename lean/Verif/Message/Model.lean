import Verif.SeqNum.Model
import Verif.Address.Model
import Verif.ZcIter.Model
import Verif.Chrono.ArithModel

/-!
Model of `network/buffer/io/*.h`: the free functions `Write`, `WriteL`, `WriteB`, `Read`, `ReadL`, `ReadB`
for arithmetic values, arrays, durations, time points and addresses, and of messages made of such fields
written one behind the other.  Sequence numbers write themselves (`utility/circular-sequence-number.h`,
`utility/lollipop-sequence-number.h`).  The functions are templates over the kind of iterator
(`BasicBufferIterator<readOnly, zcAware>`), so the model is over any iterator type.
-/
namespace Verif.Message
open Verif Verif.Iter

/-- The operations of `BasicBufferIterator` that the functions use;
`network/buffer/iterator/basic-buffer-iterator.h:33-105`. -/
structure Stream (ι : Type) where
  writeVal   : Host → Order → Width → Nat → ι → List Byte → Option (ι × List Byte)
  readVal    : Host → Order → Width → ι → List Byte → Option (ι × Nat)
  writeBytes : Host → Order → List Byte → ι → List Byte → Option (ι × List Byte)
  readBytes  : Host → Order → Nat → ι → List Byte → Option (ι × List Byte)

/-- `BufferIterator`; `network/buffer/iterator/buffer-iterator.h:438-1025`. -/
def plain : Stream It := ⟨Iter.writeVal, Iter.readVal, Iter.writeBytes, Iter.readBytes⟩

/-- `ZcBufferIterator`; `network/buffer/iterator/zc-buffer-iterator.h:516-1351`. -/
def compressed : Stream ZcIter.ZIt := ⟨ZcIter.writeVal, ZcIter.readVal, ZcIter.writeBytes, ZcIter.readBytes⟩

/-- A value that a program writes.  Arithmetic values are given by their bit patterns.
(The arguments of the functions of `network/buffer/io/*.h` that `writeField` cites.) -/
inductive Field where
  | arith (w : Width) (v : Nat)
  | array (w : Width) (vs : List Nat)
  | duration (count : Int)
  | timePoint (t : Chrono.TP)
  | seq (bits v : Nat)
  | addr (bits : Nat) (a : Address.Limbs)
deriving DecidableEq

/-- The variable a program reads into: its type and, where a read keeps part of it, its value.
(The arguments of the functions of `network/buffer/io/*.h` that `readField` cites.) -/
inductive Var where
  | arith (w : Width)
  | array (w : Width) (n : Nat)
  | duration
  | timePoint
  | seq (bits old : Nat)
  | addr (bits : Nat) (old : Address.Limbs)

/-- `static_cast<uint64_t>` of a `count_t` (`chrono/config.h:102`, `int64_t`). -/
def pattern (c : Int) : Nat := (c % 2 ^ 64).toNat

/-- The `count_t` with a bit pattern.  (`static_cast<count_t>` of what `duration-io.h:51-76` reads.) -/
def ofPattern (n : Nat) : Int := if n < 2 ^ 63 then n else (n : Int) - 2 ^ 64

variable {ι : Type}

/-- The loops over arrays; `arithmetic-io.h:79-107`, `141-169`. -/
def writeArray (S : Stream ι) (h : Host) (e : Order) (w : Width) : List Nat → ι → List Byte → Option (ι × List Byte)
  | [], it, d => some (it, d)
  | v :: vs, it, d =>
    match S.writeVal h e w v it d with
    | none => none
    | some (it1, d1) => writeArray S h e w vs it1 d1

/-- The loops over arrays; `arithmetic-io.h:110-138`, `172-200`. -/
def readArray (S : Stream ι) (h : Host) (e : Order) (w : Width) : Nat → ι → List Byte → Option (ι × List Nat)
  | 0, it, _ => some (it, [])
  | n + 1, it, d =>
    match S.readVal h e w it d with
    | none => none
    | some (it1, v) =>
      match readArray S h e w n it1 d with
      | none => none
      | some (it2, vs) => some (it2, v :: vs)

/-- `Write`/`WriteL`/`WriteB` of one value; `arithmetic-io.h:28-48` (scalars), the loops,
`duration-io.h:29-48`, `time-point-io.h:29-48`, `circular-sequence-number.h:272-291`,
`address-io.h:29-48` with `address-little-endian.h:1529-1546` (addresses exist for little-endian hosts only,
where their bytes are in order of significance). -/
def writeField (S : Stream ι) (h : Host) (e : Order) (f : Field) (it : ι) (d : List Byte) : Option (ι × List Byte) :=
  match f with
  | .arith w v => S.writeVal h e w v it d
  | .array w vs => writeArray S h e w vs it d
  | .duration c => S.writeVal h e .w8 (pattern c) it d
  | .timePoint t => S.writeVal h e .w8 (pattern t.getDuration.count) it d
  | .seq bits v =>
    S.writeBytes h e (((image h (SeqNum.valueSize bits) v).drop (SeqNum.wireOffset h bits)).take (SeqNum.wireSize bits)) it d
  | .addr bits a => S.writeBytes h e (Address.outBytes bits a) it d

/-- `Read`/`ReadL`/`ReadB` into one variable; `arithmetic-io.h:51-75` (scalars), the loops, `duration-io.h:51-76`,
`time-point-io.h:51-76`, `circular-sequence-number.h:293-312`, `address-io.h:51-73` with
`address-little-endian.h:1548-1567`. -/
def readField (S : Stream ι) (h : Host) (e : Order) (x : Var) (it : ι) (d : List Byte) : Option (ι × Field) :=
  match x with
  | .arith w => (S.readVal h e w it d).map fun p => (p.1, .arith w p.2)
  | .array w n => (readArray S h e w n it d).map fun p => (p.1, .array w p.2)
  | .duration => (S.readVal h e .w8 it d).map fun p => (p.1, .duration (ofPattern p.2))
  | .timePoint =>
    match S.readVal h e .w8 it d with
    | none => none
    | some (it1, n) => (Chrono.TP.ofDuration ⟨Chrono.tenthNano, ofPattern n⟩).map fun t => (it1, .timePoint t)
  | .seq bits old =>
    (S.readBytes h e (SeqNum.wireSize bits) it d).map fun p =>
      let obj := image h (SeqNum.valueSize bits) old
      (p.1, .seq bits (unimage h (obj.take (SeqNum.wireOffset h bits) ++ p.2
        ++ obj.drop (SeqNum.wireOffset h bits + SeqNum.wireSize bits))))
  | .addr bits old =>
    (S.readBytes h e (Address.nb bits) it d).map fun p => (p.1, .addr bits (Address.readIn bits old p.2))

/-- A program that writes fields one behind the other.  (A client; no code.) -/
def writeAll (S : Stream ι) (h : Host) : List (Order × Field) → ι → List Byte → Option (ι × List Byte)
  | [], it, d => some (it, d)
  | (e, f) :: fs, it, d =>
    match writeField S h e f it d with
    | none => none
    | some (it1, d1) => writeAll S h fs it1 d1

/-- A program that reads variables one behind the other.  (A client; no code.) -/
def readAll (S : Stream ι) (h : Host) : List (Order × Var) → ι → List Byte → Option (ι × List Field)
  | [], it, _ => some (it, [])
  | (e, x) :: xs, it, d =>
    match readField S h e x it d with
    | none => none
    | some (it1, f) =>
      match readAll S h xs it1 d with
      | none => none
      | some (it2, fs) => some (it2, f :: fs)

end Verif.Message
