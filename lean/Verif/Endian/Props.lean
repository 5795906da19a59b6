import Verif.Endian.Model
import Verif.Iter.Lemmas
/-
Property C79: byte-order conversion.
-/
namespace Verif.Endian
open Verif.Iter (Order isNative)

/-- Byte `i` (least significant first) of a bit vector. -/
def byteOf {w : Nat} (v : BitVec w) (i : Nat) : Byte := v.extractLsb' (8 * i) 8

theorem leBytes_toNat {w : Nat} (n : Nat) : ∀ (v : BitVec w) (k : Nat),
    leBytes n (v.toNat / 256 ^ k) = (List.range n).map fun i => byteOf v (k + i) := by
  induction n with
  | zero => intros; rfl
  | succ n ih =>
    intro v k
    rw [leBytes, Nat.div_div_eq_div_mul, ← Nat.pow_succ, ih v (k + 1), List.range_succ_eq_map]
    simp only [List.map_cons, List.map_map, Nat.add_zero, List.cons.injEq]
    constructor
    · apply BitVec.eq_of_toNat_eq
      simp [byteOf, Nat.shiftRight_eq_div_pow, Nat.pow_mul]
    · apply List.map_congr_left
      intro i _
      simp only [Function.comp, byteOf]
      congr 2
      omega

theorem byteOf_ext {n : Nat} {a b : BitVec (8 * n)} (h : ∀ i, i < n → byteOf a i = byteOf b i) :
    a = b := by
  apply BitVec.eq_of_getLsbD_eq
  intro i hi
  have h1 := h (i / 8) (by omega)
  have h2 := congrArg (fun v => v.getLsbD (i % 8)) h1
  simp only [byteOf, BitVec.getLsbD_extractLsb'] at h2
  rw [Nat.div_add_mod] at h2
  simpa [show i % 8 < 8 by omega] using h2

theorem byteOf_reorder16 (v : BitVec 16) :
    byteOf (reorder16 v) 0 = byteOf v 1 ∧ byteOf (reorder16 v) 1 = byteOf v 0 := by
  constructor <;> (
    apply BitVec.eq_of_getLsbD_eq
    intro j hj
    simp [byteOf, reorder16]
    grind)

theorem ff32 (i : Nat) : (0xff#32).getLsbD i = decide (i < 8) := by
  rw [show (0xff#32) = (BitVec.allOnes 8).setWidth 32 from by decide]
  simp only [BitVec.getLsbD_setWidth, BitVec.getLsbD_allOnes]
  grind

theorem ff64 (i : Nat) : (0xff#64).getLsbD i = decide (i < 8) := by
  rw [show (0xff#64) = (BitVec.allOnes 8).setWidth 64 from by decide]
  simp only [BitVec.getLsbD_setWidth, BitVec.getLsbD_allOnes]
  grind

theorem byteOf_reorder32 (v : BitVec 32) (i : Nat) (hi : i < 4) :
    byteOf (reorder32 v) i = byteOf v (3 - i) := by
  apply BitVec.eq_of_getLsbD_eq
  intro j hj
  unfold byteOf reorder32
  rw [show (0x0000ff00#32) = 0xff#32 <<< 8 from by decide,
    show (0x00ff0000#32) = 0xff#32 <<< 16 from by decide,
    show (0xff000000#32) = 0xff#32 <<< 24 from by decide,
    show (0x000000ff#32) = 0xff#32 from by decide]
  simp only [BitVec.getLsbD_extractLsb', BitVec.getLsbD_or, BitVec.getLsbD_and,
    BitVec.getLsbD_shiftLeft, BitVec.getLsbD_ushiftRight, ff32]
  grind

theorem byteOf_reorder64 (v : BitVec 64) (i : Nat) (hi : i < 8) :
    byteOf (reorder64 v) i = byteOf v (7 - i) := by
  apply BitVec.eq_of_getLsbD_eq
  intro j hj
  unfold byteOf reorder64
  rw [show (0x000000000000ff00#64) = 0xff#64 <<< 8 from by decide,
    show (0x0000000000ff0000#64) = 0xff#64 <<< 16 from by decide,
    show (0x00000000ff000000#64) = 0xff#64 <<< 24 from by decide,
    show (0x000000ff00000000#64) = 0xff#64 <<< 32 from by decide,
    show (0x0000ff0000000000#64) = 0xff#64 <<< 40 from by decide,
    show (0x00ff000000000000#64) = 0xff#64 <<< 48 from by decide,
    show (0xff00000000000000#64) = 0xff#64 <<< 56 from by decide,
    show (0x00000000000000ff#64) = 0xff#64 from by decide]
  simp only [BitVec.getLsbD_extractLsb', BitVec.getLsbD_or, BitVec.getLsbD_and,
    BitVec.getLsbD_shiftLeft, BitVec.getLsbD_ushiftRight, ff64]
  grind

theorem range_reverse_map {β : Type} (n : Nat) (f : Nat → β) :
    ((List.range n).map f).reverse = (List.range n).map fun i => f (n - 1 - i) := by
  apply List.ext_getElem
  · simp
  · intro i h1 h2
    simp at h1 ⊢

theorem leBytes_eq_map {w : Nat} (n : Nat) (v : BitVec w) :
    leBytes n v.toNat = (List.range n).map (byteOf v) := by
  have := leBytes_toNat n v 0
  simpa using this

/-- `rev` turns the little-endian byte string of every `n`-byte value around. -/
def ReversesBytes (n : Nat) (rev : BitVec (8 * n) → BitVec (8 * n)) : Prop :=
  ∀ v, leBytes n (rev v).toNat = (leBytes n v.toNat).reverse

theorem reverses_of_byteOf {n : Nat} {rev : BitVec (8 * n) → BitVec (8 * n)}
    (h : ∀ v i, i < n → byteOf (rev v) i = byteOf v (n - 1 - i)) : ReversesBytes n rev := by
  intro v
  rw [leBytes_eq_map, leBytes_eq_map, range_reverse_map]
  apply List.map_congr_left
  intro i hi
  exact h v i (by simpa using hi)

/-- **C79.** Each `ReorderBytes` overload reverses the bytes of every value. -/
theorem C79_reorder_reverses :
    ReversesBytes 1 reorder8 ∧ ReversesBytes 2 reorder16 ∧
    ReversesBytes 4 reorder32 ∧ ReversesBytes 8 reorder64 := by
  refine ⟨?_, ?_, ?_, ?_⟩
  · intro v; rfl
  · apply reverses_of_byteOf
    intro v i hi
    have hi' : i = 0 ∨ i = 1 := by omega
    rcases hi' with rfl | rfl
    · exact (byteOf_reorder16 v).1
    · exact (byteOf_reorder16 v).2
  · exact reverses_of_byteOf fun v i hi => byteOf_reorder32 v i hi
  · exact reverses_of_byteOf fun v i hi => byteOf_reorder64 v i hi

theorem toNat_of_leBytes {n : Nat} {a b : BitVec (8 * n)}
    (h : leBytes n a.toNat = leBytes n b.toNat) : a = b := by
  have h' := congrArg leVal h
  rw [leVal_leBytes, leVal_leBytes] at h'
  have e : (256 : Nat) ^ n = 2 ^ (8 * n) := by rw [Nat.pow_mul]
  rw [e, Nat.mod_eq_of_lt a.isLt, Nat.mod_eq_of_lt b.isLt] at h'
  exact BitVec.eq_of_toNat_eq h'

theorem involutive_of_reverses {n : Nat} {rev : BitVec (8 * n) → BitVec (8 * n)}
    (h : ReversesBytes n rev) (v : BitVec (8 * n)) : rev (rev v) = v := by
  apply toNat_of_leBytes
  rw [h, h, List.reverse_reverse]

/-- **C79.** Reordering twice is the identity, at every width. -/
theorem C79_reorder_twice :
    (∀ v, reorder8 (reorder8 v) = v) ∧ (∀ v, reorder16 (reorder16 v) = v) ∧
    (∀ v, reorder32 (reorder32 v) = v) ∧ (∀ v, reorder64 (reorder64 v) = v) :=
  let ⟨a, b, c, d⟩ := C79_reorder_reverses
  ⟨involutive_of_reverses (n := 1) a, involutive_of_reverses (n := 2) b,
    involutive_of_reverses (n := 4) c, involutive_of_reverses (n := 8) d⟩

/-- **C79.** For every overload and on either host, the memory image of `NativeToLittleEndian(v)`
is the little-endian byte string of `v`, that of `NativeToBigEndian(v)` the big-endian one, the
conversions back restore the value, and `LittleToBigEndian` turns the first into the second. -/
theorem C79_conversions (h : Host) {n : Nat} {rev : BitVec (8 * n) → BitVec (8 * n)}
    (hrev : ReversesBytes n rev) (v : BitVec (8 * n)) :
    image h n (convert h .little rev v).toNat = leBytes n v.toNat ∧
    image h n (convert h .big rev v).toNat = (leBytes n v.toNat).reverse ∧
    convert h .little rev (convert h .little rev v) = v ∧
    convert h .big rev (convert h .big rev v) = v ∧
    swapEnds rev (convert h .little rev v) = convert h .big rev v ∧
    swapEnds rev (convert h .big rev v) = convert h .little rev v := by
  have inv := involutive_of_reverses hrev
  cases h <;> simp [convert, differs, isNative, image, swapEnds, hrev v, inv]

/-- The hypothesis of `C79_conversions` holds at each of the four widths the code has. -/
example (h : Host) (v : BitVec 32) :
    image h 4 (convert h .big reorder32 v).toNat = (leBytes 4 v.toNat).reverse :=
  (C79_conversions (n := 4) h C79_reorder_reverses.2.2.1 v).2.1

/-- A concrete value. -/
example : reorder32 0x01020304#32 = 0x04030201#32 := by decide

end Verif.Endian
