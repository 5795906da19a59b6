import Verif.Random.Props
import Verif.Random.Group
import Mathlib.SetTheory.Cardinal.Finite
import Mathlib.SetTheory.Cardinal.NatCard
import Mathlib.Logic.Equiv.Prod

/-!
How many states give an output.
-/
set_option linter.unusedSimpArgs false
namespace Verif.Random

theorem card_bv (w : Nat) : Nat.card (BitVec w) = 2 ^ w := by
  have e : BitVec w ≃ Fin (2 ^ w) := ⟨BitVec.toFin, BitVec.ofFin, fun _ => rfl, fun _ => rfl⟩
  rw [Nat.card_congr e, Nat.card_eq_fintype_card, Fintype.card_fin]

theorem finite_bv (w : Nat) : Finite (BitVec w) :=
  Finite.of_injective (fun v : BitVec w => v.toFin) (fun _ _ h => BitVec.toFin_inj.1 h)

/-- The output is one of two independent parts of the state, the other one has `m` bits. -/
def Bal {V : Type} {w : Nat} (out : V → BitVec w) (m : Nat) : Prop :=
  ∃ (F : Type) (e : V ≃ BitVec w × F), Nat.card F = 2 ^ m ∧ ∀ v, (e v).1 = out v

theorem Bal.card {V : Type} {w m : Nat} {out : V → BitVec w} (h : Bal out m) (P : BitVec w → Prop) :
    Nat.card {v : V // P (out v)} = Nat.card {x // P x} * 2 ^ m := by
  obtain ⟨F, e, hF, he⟩ := h
  rw [← hF, ← Nat.card_prod]
  refine Nat.card_congr ((Equiv.subtypeEquiv e (q := fun p => P p.1) fun v => by rw [he]).trans ?_)
  exact ⟨fun p => ⟨⟨p.1.1, p.2⟩, p.1.2⟩, fun p => ⟨⟨p.1.1, p.2⟩, p.1.2⟩, fun _ => rfl, fun _ => rfl⟩

/-- The zero state does not count. -/
theorem card_nonzero {V : Type} [Zero V] (P : V → Prop) [Decidable (P 0)] (hf : Nat.card {v : V // P v} ≠ 0) :
    Nat.card {v : V // v ≠ 0 ∧ P v} = Nat.card {v : V // P v} - if P 0 then 1 else 0 := by
  classical
  have := Nat.finite_of_card_ne_zero hf
  split
  · rename_i h0
    have e : {v : V // P v} ≃ Option {v : V // v ≠ 0 ∧ P v} := {
      toFun := fun v => if h : v.1 = 0 then none else some ⟨v.1, h, v.2⟩
      invFun := fun o => match o with
        | none => ⟨0, h0⟩
        | some v => ⟨v.1, v.2.2⟩
      left_inv := fun v => by
        by_cases h : v.1 = 0
        · simp only [h, dif_pos]; exact Subtype.ext h.symm
        · simp only [h, dif_neg, not_false_eq_true]
      right_inv := fun o => by
        cases o with
        | none => simp
        | some v => simp [v.2.1] }
    have hfo : Finite (Option {v : V // v ≠ 0 ∧ P v}) := Finite.of_equiv _ e
    have : Finite {v : V // v ≠ 0 ∧ P v} := Finite.of_injective _ (Option.some_injective _)
    rw [Nat.card_congr e, Finite.card_option, Nat.add_sub_cancel]
  · rename_i h0
    rw [Nat.sub_zero]
    exact Nat.card_congr (Equiv.subtypeEquivRight fun v => ⟨fun h => h.2, fun h => ⟨fun e => h0 (e ▸ h), h⟩⟩)

/-- The words with given upper bits. -/
theorem card_upper {w t y : Nat} (ht : t ≤ w) (hy : y < 2 ^ (w - t)) : Nat.card {x : BitVec w // (x >>> t).toNat = y} = 2 ^ t := by
  have hlt : ∀ i < 2 ^ t, y * 2 ^ t + i < 2 ^ w := by
    intro i hi
    have h1 : (y + 1) * 2 ^ t ≤ 2 ^ (w - t) * 2 ^ t := Nat.mul_le_mul_right _ hy
    rw [← Nat.pow_add, Nat.sub_add_cancel ht, Nat.add_mul] at h1
    omega
  have e : {x : BitVec w // (x >>> t).toNat = y} ≃ Fin (2 ^ t) := {
    toFun := fun x => ⟨x.1.toNat % 2 ^ t, Nat.mod_lt _ (Nat.two_pow_pos t)⟩
    invFun := fun i => ⟨BitVec.ofNat w (y * 2 ^ t + i.val), by
      rw [BitVec.toNat_ushiftRight, BitVec.toNat_ofNat, Nat.mod_eq_of_lt (hlt _ i.isLt), Nat.shiftRight_eq_div_pow,
        Nat.mul_comm, Nat.mul_add_div (Nat.two_pow_pos t), Nat.div_eq_of_lt i.isLt, Nat.add_zero]⟩
    left_inv := fun x => by
      apply Subtype.ext
      apply BitVec.eq_of_toNat_eq
      have h := x.2
      rw [BitVec.toNat_ushiftRight, Nat.shiftRight_eq_div_pow] at h
      have := Nat.div_add_mod x.1.toNat (2 ^ t)
      rw [h, Nat.mul_comm] at this
      rw [BitVec.toNat_ofNat, this, Nat.mod_eq_of_lt x.1.isLt]
    right_inv := fun i => by
      apply Fin.ext
      simp only [BitVec.toNat_ofNat, Nat.mod_eq_of_lt (hlt _ i.isLt)]
      rw [Nat.mul_comm, Nat.mul_add_mod, Nat.mod_eq_of_lt i.isLt] }
  rw [Nat.card_congr e, Nat.card_eq_fintype_card, Fintype.card_fin]

/-! ### The scramblers -/

/-- An injective function of one part of the state. -/
theorem bal_of_inj {V : Type} {w m : Nat} {F : Type} (e : V ≃ BitVec w × F) (hF : Nat.card F = 2 ^ m) (g : BitVec w → BitVec w)
    (hg : ∀ x y, g x = g y → x = y) (out : V → BitVec w) (ho : ∀ v, out v = g (e v).1) : Bal out m := by
  have := finite_bv w
  have hb : Function.Bijective g := Finite.injective_iff_bijective.mp fun x y h => hg x y h
  exact ⟨F, e.trans (Equiv.prodCongr (Equiv.ofBijective g hb) (Equiv.refl F)), hF, fun v => (ho v).symm⟩

/-- The sum of two words. -/
theorem bal_of_add {V : Type} {w m : Nat} {F : Type} (e : V ≃ BitVec w × F) (hF : Nat.card F = 2 ^ m) (y : F → BitVec w)
    (out : V → BitVec w) (ho : ∀ v, out v = (e v).1 + y (e v).2) : Bal out m := by
  refine ⟨F, e.trans ⟨fun p => (p.1 + y p.2, p.2), fun p => (p.1 - y p.2, p.2), fun p => ?_, fun p => ?_⟩, hF, fun v => ?_⟩
  · simp [BitVec.add_sub_cancel]
  · simp [BitVec.sub_add_cancel]
  · exact (ho v).symm

theorem card_bv2 (w : Nat) : Nat.card (BitVec w × BitVec w) = 2 ^ (w + w) := by
  rw [Nat.card_prod, card_bv, ← Nat.pow_add]
theorem card_bv3 (w : Nat) : Nat.card (BitVec w × BitVec w × BitVec w) = 2 ^ (w + (w + w)) := by
  rw [Nat.card_prod, card_bv, card_bv2, ← Nat.pow_add]
theorem card_bv7 (w : Nat) :
    Nat.card (BitVec w × BitVec w × BitVec w × BitVec w × BitVec w × BitVec w × BitVec w) = 2 ^ (w + (w + (w + (w + (w + (w + w)))))) := by
  rw [Nat.card_prod, Nat.card_prod, Nat.card_prod, Nat.card_prod, Nat.card_prod, Nat.card_prod, card_bv]
  simp only [← Nat.pow_add]

/-- The words of a two-word state. -/
def e2 (w : Nat) : S2 w ≃ BitVec w × BitVec w :=
  ⟨fun s => (s.s0, s.s1), fun p => ⟨p.1, p.2⟩, fun _ => rfl, fun _ => rfl⟩
/-- The words of a four-word state. -/
def e4 (w : Nat) : S4 w ≃ BitVec w × BitVec w × BitVec w × BitVec w :=
  ⟨fun s => (s.s0, s.s1, s.s2, s.s3), fun p => ⟨p.1, p.2.1, p.2.2.1, p.2.2.2⟩, fun _ => rfl, fun _ => rfl⟩
/-- The words of a four-word state, word one first. -/
def e4' (w : Nat) : S4 w ≃ BitVec w × BitVec w × BitVec w × BitVec w :=
  ⟨fun s => (s.s1, s.s0, s.s2, s.s3), fun p => ⟨p.2.1, p.1, p.2.2.1, p.2.2.2⟩, fun _ => rfl, fun _ => rfl⟩
/-- The words of an eight-word state. -/
def e8 (w : Nat) : S8 w ≃ BitVec w × BitVec w × BitVec w × BitVec w × BitVec w × BitVec w × BitVec w × BitVec w :=
  ⟨fun s => (s.s0, s.s1, s.s2, s.s3, s.s4, s.s5, s.s6, s.s7),
    fun p => ⟨p.1, p.2.1, p.2.2.1, p.2.2.2.1, p.2.2.2.2.1, p.2.2.2.2.2.1, p.2.2.2.2.2.2.1, p.2.2.2.2.2.2.2⟩, fun _ => rfl, fun _ => rfl⟩
/-- The words of an eight-word state, word one first. -/
def e8' (w : Nat) : S8 w ≃ BitVec w × BitVec w × BitVec w × BitVec w × BitVec w × BitVec w × BitVec w × BitVec w :=
  ⟨fun s => (s.s1, s.s0, s.s2, s.s3, s.s4, s.s5, s.s6, s.s7),
    fun p => ⟨p.2.1, p.1, p.2.2.1, p.2.2.2.1, p.2.2.2.2.1, p.2.2.2.2.2.1, p.2.2.2.2.2.2.1, p.2.2.2.2.2.2.2⟩, fun _ => rfl, fun _ => rfl⟩

theorem bal_64star : Bal scr64star 32 := bal_of_inj (e2 32) (card_bv 32) _ C84_scramblers.1 _ fun _ => rfl
theorem bal_64starstar : Bal scr64starstar 32 := bal_of_inj (e2 32) (card_bv 32) _ C84_scramblers.2.2.2.1 _ fun _ => rfl
theorem bal_2starstar : Bal scr2starstar 64 := bal_of_inj (e2 64) (card_bv 64) _ C84_scramblers.2.2.2.2.1 _ fun _ => rfl
theorem bal_2plus : Bal scr2plus 64 := bal_of_add (e2 64) (card_bv 64) id _ fun _ => rfl
theorem bal_128starstar : Bal scr128starstar 96 := bal_of_inj (e4 32) (card_bv3 32) _ C84_scramblers.2.2.1 _ fun _ => rfl
theorem bal_256starstar : Bal scr256starstar 192 := bal_of_inj (e4' 64) (card_bv3 64) _ C84_scramblers.2.2.2.2.1 _ fun _ => rfl
theorem bal_128plus : Bal (scr4plus (w := 32)) 96 := bal_of_add (e4 32) (card_bv3 32) (·.2.2) _ fun _ => rfl
theorem bal_256plus : Bal (scr4plus (w := 64)) 192 := bal_of_add (e4 64) (card_bv3 64) (·.2.2) _ fun _ => rfl
theorem bal_512starstar : Bal scr512starstar 448 := bal_of_inj (e8' 64) (card_bv7 64) _ C84_scramblers.2.2.2.2.1 _ fun _ => rfl
theorem bal_8plus : Bal scr8plus 448 := bal_of_add (e8 64) (card_bv7 64) (·.2.1) _ fun _ => rfl

end Verif.Random
