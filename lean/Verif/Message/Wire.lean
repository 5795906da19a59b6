import Verif.Message.Props

/-!
Property C104: the format of messages on the wire.
-/
set_option linter.unusedSimpArgs false
set_option linter.unusedVariables false
namespace Verif.Message
open Verif Verif.Iter

/-- The numbers of a field, with their widths in bytes: the value, the elements of an array in order, the count of a
duration, the count of tenths of nanoseconds of a time point, the sequence number, the address.  (Specification; no code.) -/
def numbers : Field → List (Nat × Int)
  | .arith w v => [(w.n, (v : Int))]
  | .array w vs => vs.map fun (v : Nat) => (w.n, (v : Int))
  | .duration c => [(8, c)]
  | .timePoint t => [(8, t.dt)]
  | .seq bits v => [((bits + 7) / 8, (v : Int))]
  | .addr bits a => [((bits + 7) / 8, (Address.num bits a : Int))]

/-- The bytes of a number of `n` bytes, the least significant first; two's complement if negative.  (Specification; no code.) -/
def lowFirst (n : Nat) (v : Int) : List Byte := (List.range n).map fun k => BitVec.ofInt 8 (v / 256 ^ k)

/-- The bytes of a number in an order, on a host.  (Specification; no code.) -/
def ordered (h : Host) (e : Order) (n : Nat) (v : Int) : List Byte :=
  match e, h with
  | .little, _ => lowFirst n v
  | .big, _ => (lowFirst n v).reverse
  | .native, .little => lowFirst n v
  | .native, .big => (lowFirst n v).reverse

/-- The bytes of a message.  (Specification; no code.) -/
def format (h : Host) (fs : List (Order × Field)) : List Byte :=
  fs.flatMap fun p => (numbers p.2).flatMap fun q => ordered h p.1 q.1 q.2

theorem leBytes_low (n v : Nat) : leBytes n v = lowFirst n v := by
  induction n generalizing v with
  | zero => rfl
  | succ n ih =>
    simp only [leBytes, lowFirst, List.range_succ_eq_map, List.map_cons, List.map_map]
    congr 1
    · apply BitVec.eq_of_toNat_eq
      rw [BitVec.toNat_ofNat, BitVec.toNat_ofInt]
      simp only [Int.pow_zero, Int.ediv_one]
      omega
    · rw [ih]
      unfold lowFirst
      apply List.map_congr_left
      intro k _
      simp only [Function.comp]
      congr 1
      rw [Int.natCast_ediv, Int.ediv_ediv_of_nonneg (by omega)]
      congr 1
      show (256 : Int) * 256 ^ k = 256 ^ (k + 1)
      rw [Int.pow_succ, Int.mul_comm]

theorem low_pattern (c : Int) : lowFirst 8 (pattern c) = lowFirst 8 c := by
  unfold lowFirst
  apply List.map_congr_left
  intro k hk
  rw [List.mem_range] at hk
  apply BitVec.eq_of_toNat_eq
  rw [BitVec.toNat_ofInt, BitVec.toNat_ofInt]
  congr 1
  have hp : ((pattern c : Nat) : Int) = c % 2 ^ 64 := by
    unfold pattern
    have : (0 : Int) ≤ c % 2 ^ 64 := Int.emod_nonneg _ (by decide)
    omega
  rw [hp]
  rcases (show k = 0 ∨ k = 1 ∨ k = 2 ∨ k = 3 ∨ k = 4 ∨ k = 5 ∨ k = 6 ∨ k = 7 by omega) with
    rfl | rfl | rfl | rfl | rfl | rfl | rfl | rfl <;> simp <;> omega

theorem wire_ordered (h : Host) (e : Order) (n v : Nat) : wire h e n v = ordered h e n v := by
  unfold wire ordered
  cases e <;> cases h <;> simp [isNative, image, leBytes_low]

theorem wires_format (h : Host) (e : Order) (f : Field) :
    wires h e (words f) = (numbers f).flatMap fun q => ordered h e q.1 q.2 := by
  have one : ∀ c, ordered h e 8 (pattern c) = ordered h e 8 c := by
    intro c; unfold ordered; rw [low_pattern]
  cases f with
  | array w vs =>
    simp only [words, numbers]
    induction vs with
    | nil => rfl
    | cons v vs ih => simp only [List.map_cons, wires, List.flatMap_cons, ih, wire_ordered]
  | arith w v => simp [words, numbers, wires, wire_ordered]
  | duration c => simp [words, numbers, wires, wire_ordered, one]
  | timePoint t => simp [words, numbers, wires, wire_ordered, one]
  | seq bits v => simp [words, numbers, wires, wire_ordered, SeqNum.wireSize]
  | addr bits a => simp [words, numbers, wires, wire_ordered, Address.nb]

theorem bytesOf_format (h : Host) (fs : List (Order × Field)) : bytesOf h fs = format h fs := by
  induction fs with
  | nil => rfl
  | cons p fs ih => obtain ⟨e, f⟩ := p; simp only [bytesOf, format, List.flatMap_cons, wires_format, ih]

theorem splice_mid {L bs : List Byte} {p : Nat} (h : p + bs.length ≤ L.length) : ((splice L p bs).drop p).take bs.length = bs := by
  unfold splice
  rw [List.append_assoc, List.drop_append_of_le_length (by simp; omega), List.drop_take]
  simp

/-- **C104.** The bytes a message leaves in a plain buffer, from the cursor on, are the bytes of the numbers of its fields in the
order of the fields: least significant byte first for little-endian, most significant first for big-endian, as on the host for
native; negative counts in two's complement; sequence numbers and addresses in as many bytes as their bits need. -/
theorem C104_wire {h : Host} {fs : List (Order × Field)} (hok : ∀ p ∈ fs, p.2.Ok h) {it it' : It} {d d' : List Byte}
    (hr : Iter.Room it d 0) (hw : writeAll plain h fs it d = some (it', d')) :
    (d'.drop it.cursor).take (it'.cursor - it.cursor) = format h fs := by
  have ef := eff_all plainView hok hr hw
  have hi : it' = { it with cursor := it.cursor + (bytesOf h fs).length } := ef.iter
  have hR : Iter.Room it d (bytesOf h fs).length := ef.room
  have hb : part it d' = splice (part it d) (it.cursor - it.start) (bytesOf h fs) := ef.bytes
  have l1 := hR.lower; have l2 := hR.upper; have l3 := hR.inside
  have hlen : d'.length = d.length := ef.len
  rw [hi, ← bytesOf_format]
  show (d'.drop it.cursor).take (it.cursor + (bytesOf h fs).length - it.cursor) = _
  rw [show it.cursor + (bytesOf h fs).length - it.cursor = (bytesOf h fs).length by omega,
    ← part_slice (it := it) (d := d') l1 l2, hb]
  exact splice_mid (by rw [part_len l3]; omega)

/-- **C104** on a zero-compressed buffer. -/
theorem C104_wire_compressed {h : Host} {fs : List (Order × Field)} (hok : ∀ p ∈ fs, p.2.Ok h) {it it' : ZcIter.ZIt}
    {d d' : List Byte} (hr : ZRoom it d 0) (hw : writeAll compressed h fs it d = some (it', d')) :
    ((ZcIter.logical it d').drop (it.cursor - it.start)).take (it'.cursor - it.cursor) = format h fs := by
  have ef := eff_all zcView hok hr hw
  have hi : it' = { it with cursor := it.cursor + (bytesOf h fs).length } := ef.iter
  have hR : ZRoom it d (bytesOf h fs).length := ef.room
  have hb : ZcIter.logical it d' = splice (ZcIter.logical it d) (it.cursor - it.start) (bytesOf h fs) := ef.bytes
  have l1 := hR.room.lower; have l2 := hR.room.upper
  rw [hi, ← bytesOf_format, hb]
  show (_ : List Byte).take (it.cursor + (bytesOf h fs).length - it.cursor) = _
  rw [show it.cursor + (bytesOf h fs).length - it.cursor = (bytesOf h fs).length by omega]
  exact splice_mid (by rw [ZcIter.logical_length hR.room]; omega)

/-- The sample message of C102, byte by byte, on a little-endian host. -/
example : format .little sample =
    [0xab, 0xcd, 1, 0, 0, 0, 0xfe, 0xff, 0xff, 0xff, 0xfb, 0xff, 0xff, 0xff, 0xff, 0xff, 0xff, 0xff,
     0, 0, 0, 0, 0, 0, 0, 7, 0x0a, 0xbc, 0xde, 0xbc, 0x0a] := by decide

/-- On a plain iterator the sequence numbers are those of the model of sequence numbers. -/
example (h : Host) (e : Order) (bits v : Nat) (it : It) (d : List Byte) :
    writeField plain h e (.seq bits v) it d = SeqNum.write h e bits v it d := rfl

end Verif.Message
