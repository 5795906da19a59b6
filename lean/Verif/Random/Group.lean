import Verif.Random.Model
import Verif.Random.Linear

/-!
The states of the engines as additive groups: addition is the exclusive or of the words, and the state transitions are
additive.  Numbers stand for states, one bit for each bit of the state.
-/
set_option linter.unusedSimpArgs false
set_option linter.unusedVariables false
namespace Verif.Random

theorem rotl_xor {w : Nat} (x y : BitVec w) (k : Nat) : rotl (x ^^^ y) k = rotl x k ^^^ rotl y k := by
  unfold rotl
  apply BitVec.eq_of_getLsbD_eq
  intro i hi
  simp only [BitVec.getLsbD_or, BitVec.getLsbD_shiftLeft, BitVec.getLsbD_ushiftRight, BitVec.getLsbD_xor, hi, decide_true,
    Bool.true_and]
  by_cases h : i < k
  · simp [h]
  · by_cases hk : k ≤ w
    · have e : ∀ z : BitVec w, z.getLsbD (w - k + i) = false := fun z => BitVec.getLsbD_of_ge _ _ (by omega)
      simp [h, e]
    · omega

theorem rotl_zero {w k : Nat} : rotl (0#w) k = 0#w := by simp [rotl]

/-! ### Two words -/

instance : Add (S2 w) := ⟨fun a b => ⟨a.s0 ^^^ b.s0, a.s1 ^^^ b.s1⟩⟩
instance : Zero (S2 w) := ⟨⟨0, 0⟩⟩
instance : Neg (S2 w) := ⟨id⟩

theorem S2.add_def (a b : S2 w) : a + b = ⟨a.s0 ^^^ b.s0, a.s1 ^^^ b.s1⟩ := rfl
theorem S2.zero_def : (0 : S2 w) = ⟨0, 0⟩ := rfl

instance : AddCommGroup (S2 w) where
  add_assoc a b c := by simp only [S2.add_def, BitVec.xor_assoc]
  zero_add a := by simp [S2.add_def, S2.zero_def]
  add_zero a := by simp [S2.add_def, S2.zero_def]
  add_comm a b := by simp only [S2.add_def, BitVec.xor_comm]
  neg_add_cancel a := by show a + a = 0; simp [S2.add_def, S2.zero_def]
  nsmul := nsmulRec
  zsmul := zsmulRec

theorem S2.two (a : S2 w) : a + a = 0 := by simp [S2.add_def, S2.zero_def]

/-- The transition of the two-word engines as an additive map. -/
def lin2 (w a b c : Nat) : AddMonoid.End (S2 w) where
  toFun := transform2 a b c
  map_zero' := by simp [transform2, S2.zero_def, rotl_zero]
  map_add' x y := by
    simp only [transform2, S2.add_def, rotl_xor, BitVec.shiftLeft_xor_distrib, S2.mk.injEq]
    constructor <;> ac_rfl

/-- The state with the given bits. -/
def unp2 (w n : Nat) : S2 w := ⟨BitVec.ofNat w n, BitVec.ofNat w (n / 2 ^ w)⟩
/-- The bits of a state. -/
def pack2 (s : S2 w) : Nat := s.s0.toNat + s.s1.toNat * 2 ^ w

theorem ofNat_div_xor {w k : Nat} (a b : Nat) :
    BitVec.ofNat w ((a ^^^ b) / 2 ^ k) = BitVec.ofNat w (a / 2 ^ k) ^^^ BitVec.ofNat w (b / 2 ^ k) := by
  rw [Nat.xor_div_two_pow, BitVec.ofNat_xor]

theorem unp2_xor (w a b : Nat) : unp2 w (a ^^^ b) = unp2 w a + unp2 w b := by
  simp only [unp2, S2.add_def, BitVec.ofNat_xor, ofNat_div_xor]
theorem unp2_zero (w : Nat) : unp2 w 0 = 0 := by simp [unp2, S2.zero_def]

theorem unp_word {w : Nat} (x : BitVec w) (n m : Nat) (h : n = x.toNat + m * 2 ^ w) :
    BitVec.ofNat w n = x ∧ n / 2 ^ w = m := by
  subst h
  constructor
  · apply BitVec.eq_of_toNat_eq
    rw [BitVec.toNat_ofNat, Nat.add_mul_mod_self_right, Nat.mod_eq_of_lt x.isLt]
  · rw [Nat.add_mul_div_right _ _ (Nat.two_pow_pos w), Nat.div_eq_of_lt x.isLt, Nat.zero_add]

theorem pack_lt {w k : Nat} (x : BitVec w) (m : Nat) (h : m < 2 ^ k) : x.toNat + m * 2 ^ w < 2 ^ (k + w) := by
  have := x.isLt
  have h2 : (m + 1) * 2 ^ w ≤ 2 ^ k * 2 ^ w := Nat.mul_le_mul_right _ h
  rw [Nat.add_mul, Nat.one_mul] at h2
  rw [Nat.pow_add]
  omega

theorem unp_pack2 (s : S2 w) : unp2 w (pack2 s) = s := by
  have h1 := unp_word s.s0 (pack2 s) s.s1.toNat rfl
  simp only [unp2, h1.1, h1.2, BitVec.ofNat_toNat, BitVec.setWidth_eq]
theorem pack2_lt (s : S2 w) : pack2 s < 2 ^ (w + w) := pack_lt s.s0 _ s.s1.isLt

/-! ### Four words -/

instance : Add (S4 w) := ⟨fun a b => ⟨a.s0 ^^^ b.s0, a.s1 ^^^ b.s1, a.s2 ^^^ b.s2, a.s3 ^^^ b.s3⟩⟩
instance : Zero (S4 w) := ⟨⟨0, 0, 0, 0⟩⟩
instance : Neg (S4 w) := ⟨id⟩

theorem S4.add_def (a b : S4 w) : a + b = ⟨a.s0 ^^^ b.s0, a.s1 ^^^ b.s1, a.s2 ^^^ b.s2, a.s3 ^^^ b.s3⟩ := rfl
theorem S4.zero_def : (0 : S4 w) = ⟨0, 0, 0, 0⟩ := rfl

instance : AddCommGroup (S4 w) where
  add_assoc a b c := by simp only [S4.add_def, BitVec.xor_assoc]
  zero_add a := by simp [S4.add_def, S4.zero_def]
  add_zero a := by simp [S4.add_def, S4.zero_def]
  add_comm a b := by simp only [S4.add_def, BitVec.xor_comm]
  neg_add_cancel a := by show a + a = 0; simp [S4.add_def, S4.zero_def]
  nsmul := nsmulRec
  zsmul := zsmulRec

theorem S4.two (a : S4 w) : a + a = 0 := by simp [S4.add_def, S4.zero_def]

/-- The transition of the four-word engines as an additive map. -/
def lin4 (w a b : Nat) : AddMonoid.End (S4 w) where
  toFun := transform4 a b
  map_zero' := by simp [transform4, S4.zero_def, rotl_zero]
  map_add' x y := by
    simp only [transform4, S4.add_def, rotl_xor, BitVec.shiftLeft_xor_distrib, S4.mk.injEq]
    refine ⟨?_, ?_, ?_, ?_⟩ <;> ac_rfl

/-- The state with the given bits. -/
def unp4 (w n : Nat) : S4 w :=
  ⟨BitVec.ofNat w n, BitVec.ofNat w (n / 2 ^ w), BitVec.ofNat w (n / 2 ^ w / 2 ^ w), BitVec.ofNat w (n / 2 ^ w / 2 ^ w / 2 ^ w)⟩
/-- The bits of a state. -/
def pack4 (s : S4 w) : Nat := s.s0.toNat + (s.s1.toNat + (s.s2.toNat + s.s3.toNat * 2 ^ w) * 2 ^ w) * 2 ^ w

theorem unp4_xor (w a b : Nat) : unp4 w (a ^^^ b) = unp4 w a + unp4 w b := by
  simp only [unp4, S4.add_def, BitVec.ofNat_xor, Nat.xor_div_two_pow]
theorem unp4_zero (w : Nat) : unp4 w 0 = 0 := by simp [unp4, S4.zero_def]

theorem unp_pack4 (s : S4 w) : unp4 w (pack4 s) = s := by
  have h0 := unp_word s.s0 (pack4 s) _ rfl
  have h1 := unp_word s.s1 _ _ (Eq.refl (s.s1.toNat + (s.s2.toNat + s.s3.toNat * 2 ^ w) * 2 ^ w))
  have h2 := unp_word s.s2 _ _ (Eq.refl (s.s2.toNat + s.s3.toNat * 2 ^ w))
  simp only [unp4, h0.1, h0.2, h1.1, h1.2, h2.1, h2.2, BitVec.ofNat_toNat, BitVec.setWidth_eq]
theorem pack4_lt (s : S4 w) : pack4 s < 2 ^ (w + w + w + w) :=
  pack_lt s.s0 _ (pack_lt s.s1 _ (pack_lt s.s2 _ s.s3.isLt))

/-! ### Eight words -/

instance : Add (S8 w) := ⟨fun a b => ⟨a.s0 ^^^ b.s0, a.s1 ^^^ b.s1, a.s2 ^^^ b.s2, a.s3 ^^^ b.s3, a.s4 ^^^ b.s4,
  a.s5 ^^^ b.s5, a.s6 ^^^ b.s6, a.s7 ^^^ b.s7⟩⟩
instance : Zero (S8 w) := ⟨⟨0, 0, 0, 0, 0, 0, 0, 0⟩⟩
instance : Neg (S8 w) := ⟨id⟩

theorem S8.add_def (a b : S8 w) : a + b = ⟨a.s0 ^^^ b.s0, a.s1 ^^^ b.s1, a.s2 ^^^ b.s2, a.s3 ^^^ b.s3, a.s4 ^^^ b.s4,
  a.s5 ^^^ b.s5, a.s6 ^^^ b.s6, a.s7 ^^^ b.s7⟩ := rfl
theorem S8.zero_def : (0 : S8 w) = ⟨0, 0, 0, 0, 0, 0, 0, 0⟩ := rfl

instance : AddCommGroup (S8 w) where
  add_assoc a b c := by simp only [S8.add_def, BitVec.xor_assoc]
  zero_add a := by simp [S8.add_def, S8.zero_def]
  add_zero a := by simp [S8.add_def, S8.zero_def]
  add_comm a b := by simp only [S8.add_def, BitVec.xor_comm]
  neg_add_cancel a := by show a + a = 0; simp [S8.add_def, S8.zero_def]
  nsmul := nsmulRec
  zsmul := zsmulRec

theorem S8.two (a : S8 w) : a + a = 0 := by simp [S8.add_def, S8.zero_def]

/-- The transition of the eight-word engines as an additive map. -/
def lin8 (w a b : Nat) : AddMonoid.End (S8 w) where
  toFun := transform8 a b
  map_zero' := by simp [transform8, S8.zero_def, rotl_zero]
  map_add' x y := by
    simp only [transform8, S8.add_def, rotl_xor, BitVec.shiftLeft_xor_distrib, S8.mk.injEq]
    refine ⟨?_, ?_, ?_, ?_, ?_, ?_, ?_, ?_⟩ <;> ac_rfl

/-- The state with the given bits. -/
def unp8 (w n : Nat) : S8 w :=
  let n1 := n / 2 ^ w
  let n2 := n1 / 2 ^ w
  let n3 := n2 / 2 ^ w
  let n4 := n3 / 2 ^ w
  let n5 := n4 / 2 ^ w
  let n6 := n5 / 2 ^ w
  let n7 := n6 / 2 ^ w
  ⟨BitVec.ofNat w n, BitVec.ofNat w n1, BitVec.ofNat w n2, BitVec.ofNat w n3, BitVec.ofNat w n4, BitVec.ofNat w n5,
    BitVec.ofNat w n6, BitVec.ofNat w n7⟩
/-- The bits of a state. -/
def pack8 (s : S8 w) : Nat :=
  s.s0.toNat + (s.s1.toNat + (s.s2.toNat + (s.s3.toNat + (s.s4.toNat + (s.s5.toNat + (s.s6.toNat + s.s7.toNat * 2 ^ w)
    * 2 ^ w) * 2 ^ w) * 2 ^ w) * 2 ^ w) * 2 ^ w) * 2 ^ w

theorem unp8_xor (w a b : Nat) : unp8 w (a ^^^ b) = unp8 w a + unp8 w b := by
  simp only [unp8, S8.add_def, BitVec.ofNat_xor, Nat.xor_div_two_pow]
theorem unp8_zero (w : Nat) : unp8 w 0 = 0 := by simp [unp8, S8.zero_def]

theorem unp_pack8 (s : S8 w) : unp8 w (pack8 s) = s := by
  have h0 := unp_word s.s0 (pack8 s) _ rfl
  have h1 := unp_word s.s1 _ _ (Eq.refl (s.s1.toNat + (s.s2.toNat + (s.s3.toNat + (s.s4.toNat + (s.s5.toNat + (s.s6.toNat +
    s.s7.toNat * 2 ^ w) * 2 ^ w) * 2 ^ w) * 2 ^ w) * 2 ^ w) * 2 ^ w))
  have h2 := unp_word s.s2 _ _ (Eq.refl (s.s2.toNat + (s.s3.toNat + (s.s4.toNat + (s.s5.toNat + (s.s6.toNat +
    s.s7.toNat * 2 ^ w) * 2 ^ w) * 2 ^ w) * 2 ^ w) * 2 ^ w))
  have h3 := unp_word s.s3 _ _ (Eq.refl (s.s3.toNat + (s.s4.toNat + (s.s5.toNat + (s.s6.toNat +
    s.s7.toNat * 2 ^ w) * 2 ^ w) * 2 ^ w) * 2 ^ w))
  have h4 := unp_word s.s4 _ _ (Eq.refl (s.s4.toNat + (s.s5.toNat + (s.s6.toNat + s.s7.toNat * 2 ^ w) * 2 ^ w) * 2 ^ w))
  have h5 := unp_word s.s5 _ _ (Eq.refl (s.s5.toNat + (s.s6.toNat + s.s7.toNat * 2 ^ w) * 2 ^ w))
  have h6 := unp_word s.s6 _ _ (Eq.refl (s.s6.toNat + s.s7.toNat * 2 ^ w))
  simp only [unp8, h0.1, h0.2, h1.1, h1.2, h2.1, h2.2, h3.1, h3.2, h4.1, h4.2, h5.1, h5.2, h6.1, h6.2, BitVec.ofNat_toNat,
    BitVec.setWidth_eq]
theorem pack8_lt (s : S8 w) : pack8 s < 2 ^ (w + w + w + w + w + w + w + w) :=
  pack_lt s.s0 _ (pack_lt s.s1 _ (pack_lt s.s2 _ (pack_lt s.s3 _ (pack_lt s.s4 _ (pack_lt s.s5 _ (pack_lt s.s6 _ s.s7.isLt))))))

end Verif.Random
