import Verif.TestFw.Close
import Verif.Stat.Near
import Verif.Stat.Special
import Mathlib.Tactic.Linarith
import Mathlib.Tactic.Positivity

/-!
C107 in double precision: the closeness assertions on `double`s, with rounding, overflow, infinities and NaN.

The checkers are `passAC` and `passRC` of `Verif.TestFw.Close`; here they compute with the `double`s of `Verif.Stat.Special`, whose
simplifications apply (one zero; subnormal results are rounded like others).
-/
namespace Verif.TestFw.Close
open Verif.Stat

/-- `double`: the difference is the sum with the negated operand.  (The operators used in /repo/test/tool.h 825-853; IEEE 754.) -/
def double (F : FpX) : Arith Dbl :=
  ⟨.num 0, fun x y => some (F.add x y.opp), fun x y => some (F.mul x y), fun x => some x.opp, Dbl.lt⟩

/-- What IEEE 754 asks of rounding to nearest besides `Fp`: it keeps the order and is symmetric.
(No code.) -/
structure Faithful (F : FpX) : Prop where
  mono : ∀ {x y : ℚ}, x ≤ y → F.rnd x ≤ F.rnd y
  odd : ∀ x : ℚ, F.rnd (-x) = -F.rnd x

/-! ### Lemmas -/

theorem passAC_eq (F : FpX) (a l t : Dbl) :
    passAC (double F) a l t = some (!(t.lt (F.add a l.opp) || t.lt (F.add l a.opp))) := by
  by_cases c : t.lt (F.add a l.opp) = true
  · simp [passAC, apart, double, c]
  · simp [passAC, apart, double, c]

/-- The tolerance of a relative assertion; /repo/test/tool.h 837-841. -/
def scaled (F : FpX) (l t : Dbl) : Dbl := if (F.mul l t).lt (.num 0) then (F.mul l t).opp else F.mul l t

theorem passRC_eq (F : FpX) (a l t : Dbl) : passRC (double F) a l t = passAC (double F) a l (scaled F l t) := by
  unfold scaled
  by_cases c : (F.mul l t).lt (.num 0) = true
  · rw [if_pos c]
    simp [passRC, passAC, double, c]
  · rw [if_neg c]
    simp [passRC, passAC, double, c]

theorem sub_num (F : FpX) (a l : ℚ) : F.add (.num a) (Dbl.num l).opp = F.fit (a - l) := by
  simp only [Dbl.opp, FpX.add, sub_eq_add_neg]

/-- A number is less than a rounded result. -/
theorem lt_fit (F : FpX) (t x : ℚ) (ht : |t| ≤ F.big) : (Dbl.num t).lt (F.fit x) = decide (t < F.rnd x) := by
  have h := abs_le.mp ht
  unfold FpX.fit
  split
  · rename_i c
    simp only [Dbl.lt]
    exact (decide_eq_true (lt_of_le_of_lt h.2 c)).symm
  · split
    · rename_i c
      simp only [Dbl.lt]
      exact (decide_eq_false (by linarith)).symm
    · simp only [Dbl.lt]

theorem pass_num (F : FpX) (a l t : ℚ) (ht : |t| ≤ F.big) :
    passAC (double F) (.num a) (.num l) (.num t) = some (decide (F.rnd (a - l) ≤ t ∧ F.rnd (l - a) ≤ t)) := by
  rw [passAC_eq, sub_num, sub_num, lt_fit F t _ ht, lt_fit F t _ ht]
  congr 1
  rw [Bool.not_or, ← decide_not, ← decide_not, ← Bool.decide_and]
  simp only [not_lt]

theorem ulp_pos : 0 < ulp := by unfold ulp; positivity

theorem rnd_lower (F : FpX) (x : ℚ) : (1 - ulp) * |x| ≤ |F.rnd x| := by
  have h := F.close x
  have := abs_sub_abs_le_abs_sub x (F.rnd x)
  rw [abs_sub_comm] at this
  linarith

theorem rnd_upper (F : FpX) (x : ℚ) : |F.rnd x| ≤ (1 + ulp) * |x| := by
  have h := F.close x
  have := abs_sub_abs_le_abs_sub (F.rnd x) x
  linarith

theorem rnd_nonneg (F : FpX) {x : ℚ} (hx : 0 ≤ x) : 0 ≤ F.rnd x := by
  have h := abs_le.mp (F.close x)
  rw [abs_of_nonneg hx] at h
  have : ulp ≤ 1 := by norm_num [ulp]
  nlinarith [h.1, h.2]

/-- The tolerance of a relative assertion that does not overflow. -/
theorem scaled_num (F : FpX) (hF : Faithful F) (l t : ℚ) (hb : F.rnd |l * t| ≤ F.big) : scaled F (.num l) (.num t) = .num (F.rnd |l * t|) := by
  have hm : F.mul (.num l) (.num t) = .num (F.rnd (l * t)) := by
    simp only [FpX.mul, FpX.fit]
    rcases le_or_gt 0 (l * t) with c | c
    · rw [abs_of_nonneg c] at hb
      have := rnd_nonneg F c
      have hw := F.wide
      rw [if_neg (not_lt.mpr hb), if_neg (by linarith [show (0 : ℚ) ≤ 2 ^ 53 by positivity])]
    · rw [abs_of_neg c, hF.odd] at hb
      have : 0 ≤ F.rnd (-(l * t)) := rnd_nonneg F (by linarith)
      rw [hF.odd] at this
      have hw := F.wide
      rw [if_neg (by linarith [show (0 : ℚ) ≤ 2 ^ 53 by positivity]), if_neg (by linarith)]
  unfold scaled
  rw [hm]
  simp only [Dbl.lt, Dbl.opp, decide_eq_true_eq]
  rcases le_or_gt 0 (l * t) with c | c
  · rw [abs_of_nonneg c, if_neg (not_lt.mpr (rnd_nonneg F c))]
  · rw [abs_of_neg c, hF.odd]
    have h0 : 0 ≤ F.rnd (-(l * t)) := rnd_nonneg F (by linarith)
    rw [hF.odd] at h0
    split
    · rfl
    · have : F.rnd (l * t) = 0 := by linarith
      rw [this, neg_zero]

/-- The tolerance of a relative assertion that overflows. -/
theorem scaled_over (F : FpX) (hF : Faithful F) (l t : ℚ) (hb : F.big < F.rnd |l * t|) : scaled F (.num l) (.num t) = .pos := by
  have hw := F.wide
  have h53 : (0 : ℚ) ≤ 2 ^ 53 := by positivity
  unfold scaled
  rcases le_or_gt 0 (l * t) with c | c
  · rw [abs_of_nonneg c] at hb
    have hm : F.mul (.num l) (.num t) = .pos := by simp only [FpX.mul, FpX.fit]; rw [if_pos hb]
    rw [hm]; rfl
  · rw [abs_of_neg c, hF.odd] at hb
    have hm : F.mul (.num l) (.num t) = .neg := by
      simp only [FpX.mul, FpX.fit]; rw [if_neg (by linarith), if_pos (by linarith)]
    rw [hm]; rfl

theorem pass_pos (F : FpX) (a l : Dbl) : passAC (double F) a l .pos = some true := by
  have h : ∀ x : Dbl, Dbl.pos.lt x = false := by intro x; cases x <;> rfl
  rw [passAC_eq, h, h]; rfl

/-- A `double` that is a number: a significand of 53 bits.  (IEEE 754; no code.) -/
def IsDouble (x : ℚ) : Prop := ∃ (k g : ℤ), |k| ≤ 2 ^ 53 ∧ x = k * 2 ^ g

/-- Rounding to nearest, ties to even, any greatest `double`.  (IEEE 754; no code.) -/
def nearX (big : ℚ) (h : 2 ^ 53 ≤ big) : FpX := { binary64 with big := big, wide := h }

theorem nearX_faithful (big : ℚ) (h : 2 ^ 53 ≤ big) : Faithful (nearX big h) := ⟨near_mono, near_neg⟩

theorem sub_exact {a l : ℚ} (ha : IsDouble a) (hl : IsDouble l) (h1 : |a - l| ≤ |a|) (h2 : |a - l| ≤ |l|) : near (a - l) = a - l := by
  obtain ⟨m, e, hm, rfl⟩ := ha
  obtain ⟨n, f, hn, rfl⟩ := hl
  -- the difference is a multiple of the smaller unit
  have core : ∀ (m n e f : ℤ), |m| ≤ 2 ^ 53 → |n| ≤ 2 ^ 53 → e ≤ f → |(m : ℚ) * 2 ^ e - n * 2 ^ f| ≤ |(m : ℚ) * 2 ^ e| →
      ∃ k : ℤ, |k| ≤ 2 ^ 53 ∧ (m : ℚ) * 2 ^ e - n * 2 ^ f = k * 2 ^ e := by
    intro m n e f hm hn hef h
    obtain ⟨d, hd⟩ := Int.eq_ofNat_of_zero_le (show 0 ≤ f - e by omega)
    have hp : (0 : ℚ) < 2 ^ e := zpow_pos (by norm_num) _
    have heq : (m : ℚ) * 2 ^ e - n * 2 ^ f = ((m - n * 2 ^ d : ℤ) : ℚ) * 2 ^ e := by
      rw [show f = (d : ℤ) + e by omega, zpow_add₀ (by norm_num), zpow_natCast]
      push_cast; ring
    refine ⟨m - n * 2 ^ d, ?_, heq⟩
    rw [heq, abs_mul, abs_mul, abs_of_pos hp] at h
    have := le_of_mul_le_mul_right h hp
    have : |m - n * 2 ^ d| ≤ |m| := by exact_mod_cast this
    exact this.trans hm
  rcases le_total e f with c | c
  · obtain ⟨k, hk, he⟩ := core m n e f hm hn c h1
    rw [he, near_exact k hk]
  · obtain ⟨k, hk, he⟩ := core n m f e hn hm c (by rw [abs_sub_comm]; exact h2)
    have : (m : ℚ) * 2 ^ e - n * 2 ^ f = ((-k : ℤ) : ℚ) * 2 ^ f := by push_cast; linarith
    rw [this, near_exact (-k) (by rwa [abs_neg])]

end Verif.TestFw.Close
