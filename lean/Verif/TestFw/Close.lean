set_option linter.unusedSimpArgs false
set_option linter.unusedVariables false
/-!
Property C107: the closeness assertions `NSFX_TEST_EXPECT_AC`, `NSFX_TEST_EXPECT_RC` and their `ASSERT` variants
(/repo/test/tool.h 825-853) on values of one arithmetic type.

Simplifications: the three operands have the same type, an integer type at least as wide as `int` (narrower ones are promoted to
`int`) or a floating-point type; floating-point arithmetic is exact except for NaN, and infinities are left out.
-/
namespace Verif.TestFw.Close

/-! ### Model -/

/-- What the checkers use of a type; `none` is undefined behaviour (signed overflow).
(The operators used in tool.h 825-853.) -/
structure Arith (α : Type) where
  zero : α
  sub : α → α → Option α
  mul : α → α → Option α
  neg : α → Option α
  lt : α → α → Bool

/-- A signed integer type of `b` bits.  (Integer types of C++; no code.) -/
def InS (b : Nat) (v : Int) : Prop := -(2 ^ (b - 1) : Int) ≤ v ∧ v < 2 ^ (b - 1)

instance (b : Nat) (v : Int) : Decidable (InS b v) := by unfold InS; infer_instance

/-- A result of a signed operation, if it is in range.  (Integer types of C++; no code.) -/
def ckS (b : Nat) (v : Int) : Option Int := if InS b v then some v else none

/-- Signed integers of `b` bits.  (Integer types of C++; no code.) -/
def signed (b : Nat) : Arith Int := ⟨0, fun x y => ckS b (x - y), fun x y => ckS b (x * y), fun x => ckS b (-x), fun x y => x < y⟩

/-- Unsigned integers of `b` bits: arithmetic wraps.  (Integer types of C++; no code.) -/
def unsigned (b : Nat) : Arith Int :=
  ⟨0, fun x y => some ((x - y) % 2 ^ b), fun x y => some (x * y % 2 ^ b), fun x => some (-x % 2 ^ b), fun x y => x < y⟩

/-- Floating-point numbers, `none` being NaN: it propagates, and it is not less than anything nor is anything less than it.
(Floating-point types of C++; no code.) -/
def float : Arith (Option Rat) :=
  ⟨some 0, fun x y => some (x.bind fun x => y.map fun y => x - y), fun x y => some (x.bind fun x => y.map fun y => x * y),
    fun x => some (x.map fun x => -x),
    fun x y => match x, y with
      | some x, some y => x < y
      | _, _ => false⟩

variable {α : Type}

/-- The condition `(tol < actual - limit) || (tol < limit - actual)` of a failure; tool.h 830, 842.  The right operand is evaluated only
if the left one is false. -/
def apart (A : Arith α) (actual limit tol : α) : Option Bool :=
  match A.sub actual limit with
  | none => none
  | some d => if A.lt tol d then some true else
    match A.sub limit actual with
    | none => none
    | some e => some (A.lt tol e)

/-- Absolute closeness: does the assertion pass?  tool.h 829-835, 849-852. -/
def passAC (A : Arith α) (actual limit tol : α) : Option Bool := (apart A actual limit tol).map (!·)

/-- Relative closeness; tool.h 836-852. -/
def passRC (A : Arith α) (actual limit tol : α) : Option Bool :=
  match A.mul limit tol with
  | none => none
  | some t =>
    match (if A.lt t A.zero then A.neg t else some t) with
    | none => none
    | some t2 => (apart A actual limit t2).map (!·)

/-! ### Theorems -/

/-- The distance of two integers. -/
def dist (a b : Int) : Int := (a - b).natAbs

/-- **C107 (partial).** On signed integers whose differences do not overflow, absolute closeness passes exactly when the distance of
the operands is at most the tolerance.

Missing: unsigned integers and NaN, where the claim is false (`C107_unsigned_fails`, `C107_nan_fails`). -/
theorem C107_signed_partial (b : Nat) (a l t : Int) (h1 : InS b (a - l)) (h2 : InS b (l - a)) :
    passAC (signed b) a l t = some (decide (dist a l ≤ t)) := by
  simp only [passAC, apart, signed, ckS, h1, h2, if_true, decide_eq_true_eq]
  unfold dist
  by_cases g : t < a - l
  · simp only [g, if_true, Option.map_some, Bool.not_true]
    congr 1; symm; rw [decide_eq_false_iff_not]; omega
  · simp only [g, if_false, Option.map_some]
    congr 1
    by_cases k : t < l - a
    · simp only [k, decide_true, Bool.not_true]; symm; rw [decide_eq_false_iff_not]; omega
    · simp only [k, decide_false, Bool.not_false]; symm; rw [decide_eq_true_eq]; omega

/-- **C107 (partial), relative closeness** on signed integers without overflow: the tolerance is a multiple of the limit. -/
theorem C107_signed_relative_partial (b : Nat) (a l t : Int) (h1 : InS b (a - l)) (h2 : InS b (l - a)) (h3 : InS b (l * t))
    (h4 : InS b (-(l * t))) : passRC (signed b) a l t = some (decide (dist a l ≤ (l * t).natAbs)) := by
  have key := C107_signed_partial b a l ((l * t).natAbs : Int) h1 h2
  rw [← key]
  unfold passRC passAC
  have hm : (signed b).mul l t = some (l * t) := by simp [signed, ckS, h3]
  have hn : (signed b).neg (l * t) = some (-(l * t)) := by simp [signed, ckS, h4]
  rw [hm]
  simp only [hn]
  by_cases g : l * t < 0
  · have : (signed b).lt (l * t) (signed b).zero = true := by simp [signed, g]
    simp only [this, if_true]
    rw [show -(l * t) = ((l * t).natAbs : Int) by omega]
  · have : (signed b).lt (l * t) (signed b).zero = false := by simp [signed]; omega
    simp only [this, Bool.false_eq_true, if_false]
    rw [show ((l * t).natAbs : Int) = l * t by omega]

theorem rat_lt (x y : Rat) : (decide (x < y) = true) ↔ x < y := decide_eq_true_iff

/-- **C107 (partial), exact floating-point numbers:** absolute closeness passes exactly when the operands differ by at most the
tolerance in both directions, that is `|actual - limit| ≤ tolerance`. -/
theorem C107_float_partial (a l t : Rat) :
    passAC float (some a) (some l) (some t) = some (decide (a - l ≤ t ∧ l - a ≤ t)) := by
  simp only [passAC, apart, float, Option.bind_some, Option.map_some, decide_eq_true_eq]
  by_cases g : t < a - l
  · have : ¬ (a - l ≤ t) := fun h => absurd g (Rat.not_lt.mpr h)
    simp [g, this]
  · have h1 : a - l ≤ t := Rat.not_lt.mp g
    by_cases k : t < l - a
    · have : ¬ (l - a ≤ t) := fun h => absurd k (Rat.not_lt.mpr h)
      simp [g, k, this]
    · have h2 : l - a ≤ t := Rat.not_lt.mp k
      simp [g, k, h1, h2]

/-- **C107 (partial), relative closeness of exact floating-point numbers:** the tolerance is scaled by the limit, without its sign. -/
theorem C107_float_relative_partial (a l t : Rat) :
    passRC float (some a) (some l) (some t) =
      some (decide (a - l ≤ (if l * t < 0 then -(l * t) else l * t) ∧ l - a ≤ (if l * t < 0 then -(l * t) else l * t))) := by
  rw [← C107_float_partial]
  unfold passRC passAC
  by_cases g : l * t < 0
  · simp [float, g]
  · simp [float, g]

/-- **C107 on unsigned integers, exactly:** one of the two differences wraps, so absolute closeness passes only for equal operands, or
when the tolerance is also at least `2^b` less the distance. -/
theorem C107_unsigned_exact (b : Nat) (a l t : Int) (ha : 0 ≤ a ∧ a < 2 ^ b) (hl : 0 ≤ l ∧ l < 2 ^ b) (ht : 0 ≤ t) :
    passAC (unsigned b) a l t = some (decide (a = l ∨ (dist a l ≤ t ∧ 2 ^ b - dist a l ≤ t))) := by
  have key : ∀ x y : Int, 0 ≤ x ∧ x < 2 ^ b → 0 ≤ y ∧ y < 2 ^ b → (x - y) % 2 ^ b = if y ≤ x then x - y else x - y + 2 ^ b := by
    intro x y hx hy
    split
    · exact Int.emod_eq_of_lt (by omega) (by omega)
    · rw [← Int.add_emod_right, Int.emod_eq_of_lt (by omega) (by omega)]
  simp only [passAC, apart, unsigned, key a l ha hl, key l a hl ha, decide_eq_true_eq]
  unfold dist
  generalize (2 : Int) ^ b = N at *
  rcases Int.lt_trichotomy a l with g | g | g
  · rw [if_neg (show ¬ l ≤ a by omega), if_pos (show a ≤ l by omega)]
    by_cases k1 : t < a - l + N <;> by_cases k2 : t < l - a <;> simp only [k1, k2, if_true, if_false, Option.map_some, decide_true,
      decide_false, Bool.not_true, Bool.not_false] <;> congr 1 <;> symm <;> simp only [decide_eq_true_eq, decide_eq_false_iff_not] <;> omega
  · subst g
    simp only [Int.le_refl, if_true, Int.sub_self]
    rw [if_neg (by omega), Option.map_some]
    simp; omega
  · rw [if_pos (show l ≤ a by omega), if_neg (show ¬ a ≤ l by omega)]
    by_cases k1 : t < a - l <;> by_cases k2 : t < l - a + N <;> simp only [k1, k2, if_true, if_false, Option.map_some, decide_true,
      decide_false, Bool.not_true, Bool.not_false] <;> congr 1 <;> symm <;> simp only [decide_eq_true_eq, decide_eq_false_iff_not] <;> omega

/-- **C107 fails on unsigned integers:** with a tolerance of at most half the range, an assertion about two different values never
passes, however close they are. -/
theorem C107_unsigned_fails (b : Nat) (a l t : Int) (ha : 0 ≤ a ∧ a < 2 ^ b) (hl : 0 ≤ l ∧ l < 2 ^ b) (ht : 0 ≤ t)
    (hd : a ≠ l) (hh : 2 * t < 2 ^ b) : passAC (unsigned b) a l t = some false := by
  rw [C107_unsigned_exact b a l t ha hl ht]
  congr 1
  rw [decide_eq_false_iff_not]
  omega

/-- **C107 fails on NaN:** NaN is absolutely and relatively close to everything. -/
theorem C107_nan_fails (l t : Option Rat) :
    passAC float none l t = some true ∧ passAC float l none t = some true ∧ passRC float none l t = some true ∧
      passRC float l none t = some true := by
  have h : ∀ x y z : Option Rat, (x = none ∨ y = none) → apart float x y z = some false := by
    intro x y z h
    rcases h with h | h <;> subst h
    · cases z <;> cases y <;> simp [apart, float]
    · cases z <;> cases x <;> simp [apart, float]
  have hr : ∀ x y : Option Rat, (x = none ∨ y = none) → passRC float x y t = some true := by
    intro x y hxy
    unfold passRC
    have hm : ∃ u, float.mul y t = some u := ⟨_, rfl⟩
    obtain ⟨u, hu⟩ := hm
    rw [hu]
    simp only
    by_cases g : float.lt u float.zero
    · simp only [g, if_true]
      have : ∃ w, float.neg u = some w := ⟨_, rfl⟩
      obtain ⟨w, hw⟩ := this
      simp only [hw, h x y w hxy]; rfl
    · simp only [g, if_false, Bool.false_eq_true, h x y u hxy]; rfl
  refine ⟨?_, ?_, hr _ _ (Or.inl rfl), hr _ _ (Or.inr rfl)⟩
  · simp only [passAC, h none l t (Or.inl rfl)]; rfl
  · simp only [passAC, h l none t (Or.inr rfl)]; rfl

/-- Five and four within one: signed integers pass, unsigned ones do not; a relative tolerance loses its sign. -/
example : passAC (signed 32) 5 4 1 = some true ∧ passAC (unsigned 32) 5 4 1 = some false ∧
    passAC (signed 32) (-5) 4 8 = some false ∧ passRC (signed 32) (-5) (-4) (-1) = some true := by decide

end Verif.TestFw.Close
