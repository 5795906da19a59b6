/-
Bytes and memory images of unsigned integers.  Shared vocabulary of the byte-level models
(`utility/endian.h`, buffer iterators, sequence numbers, addresses).
-/
namespace Verif

/-- `uint8_t`.  (the elements of /repo/network/buffer/storage/basic-buffer-storage.h 91.) -/
abbrev Byte := BitVec 8

/-- The `w` low-order bytes of `v`, least significant byte first.
(Used to describe the unions of /repo/network/buffer/iterator/buffer-iterator.h.) -/
def leBytes : Nat → Nat → List Byte
  | 0,     _ => []
  | w + 1, v => BitVec.ofNat 8 v :: leBytes w (v / 256)

/-- The unsigned number whose little-endian byte string is the argument.
(Used to describe the unions of /repo/network/buffer/iterator/buffer-iterator.h.) -/
def leVal : List Byte → Nat
  | []      => 0
  | b :: bs => b.toNat + 256 * leVal bs

/-- The unsigned number whose big-endian byte string is the argument.
(Used to describe the unions of /repo/network/buffer/iterator/buffer-iterator.h.) -/
def beVal (bs : List Byte) : Nat := leVal bs.reverse

/-- Byte order of the machine the library is compiled for
(`utility/endian.h` 72-114: `BOOST_ENDIAN_BIG_BYTE` / `BOOST_ENDIAN_LITTLE_BYTE`). -/
inductive Host where
  | little
  | big
deriving DecidableEq, Repr

/-- Memory image of a `w`-byte unsigned integer on host `h`
(what the `union { uint8_t b[w]; uintN_t v; }` of the iterators exposes). -/
def image (h : Host) (w v : Nat) : List Byte :=
  match h with
  | .little => leBytes w v
  | .big    => (leBytes w v).reverse

/-- Integer whose memory image on host `h` is the argument. -/
def unimage (h : Host) (bs : List Byte) : Nat :=
  match h with
  | .little => leVal bs
  | .big    => beVal bs

@[simp] theorem leBytes_length (w v : Nat) : (leBytes w v).length = w := by
  induction w generalizing v with
  | zero => rfl
  | succ w ih => simp [leBytes, ih]

@[simp] theorem image_length (h : Host) (w v : Nat) : (image h w v).length = w := by
  cases h <;> simp [image]

theorem leVal_lt (bs : List Byte) : leVal bs < 256 ^ bs.length := by
  induction bs with
  | nil => simp [leVal]
  | cons b bs ih =>
    have hb : b.toNat < 256 := b.isLt
    simp only [leVal, List.length_cons, Nat.pow_succ]
    omega

theorem leVal_leBytes (w v : Nat) : leVal (leBytes w v) = v % 256 ^ w := by
  induction w generalizing v with
  | zero => simp [leBytes, leVal, Nat.mod_one]
  | succ w ih =>
    have e : (256 : Nat) ^ (w + 1) = 256 * 256 ^ w := by rw [Nat.pow_succ, Nat.mul_comm]
    rw [leBytes, leVal, ih, BitVec.toNat_ofNat, e, Nat.mod_mul]

theorem leBytes_leVal (bs : List Byte) : leBytes bs.length (leVal bs) = bs := by
  induction bs with
  | nil => rfl
  | cons b bs ih =>
    have hb : b.toNat < 256 := b.isLt
    simp only [List.length_cons, leBytes, leVal]
    rw [show (b.toNat + 256 * leVal bs) / 256 = leVal bs by omega, ih]
    congr 1
    apply BitVec.eq_of_toNat_eq
    simp only [BitVec.toNat_ofNat]
    omega

theorem leBytes_mod (w v : Nat) : leBytes w (v % 256 ^ w) = leBytes w v := by
  have h := leBytes_leVal (leBytes w v)
  rwa [leBytes_length, leVal_leBytes] at h

theorem leVal_append (as bs : List Byte) : leVal (as ++ bs) = leVal as + 256 ^ as.length * leVal bs := by
  induction as with
  | nil => simp [leVal]
  | cons a as ih =>
    simp only [List.cons_append, leVal, ih, List.length_cons, Nat.pow_succ]
    rw [Nat.mul_add, ← Nat.mul_assoc, Nat.mul_comm 256 (256 ^ as.length)]
    omega

theorem leVal_replicate_zero (n : Nat) : leVal (List.replicate n (0 : Byte)) = 0 := by
  induction n with
  | zero => rfl
  | succ n ih => rw [List.replicate_succ, leVal, ih]; rfl

theorem unimage_image (h : Host) (w v : Nat) : unimage h (image h w v) = v % 256 ^ w := by
  cases h <;> simp [image, unimage, beVal, leVal_leBytes]

theorem image_unimage (h : Host) (bs : List Byte) : image h bs.length (unimage h bs) = bs := by
  cases h with
  | little => exact leBytes_leVal bs
  | big =>
    have := leBytes_leVal bs.reverse
    simp only [List.length_reverse] at this
    simp [image, unimage, beVal, this]

theorem unimage_lt (h : Host) (bs : List Byte) : unimage h bs < 256 ^ bs.length := by
  cases h with
  | little => exact leVal_lt bs
  | big => simpa [unimage, beVal] using leVal_lt bs.reverse

end Verif
