import Verif.TestFw.CloseDouble
import Verif.Stat.SpecialProps
import Mathlib.Tactic.Linarith
import Mathlib.Tactic.Positivity

/-!
Property C107 in double precision: the closeness assertions on `double`s (/repo/test/tool.h 825-853).
-/
namespace Verif.TestFw.Close
open Verif.Stat

/-- **C107 in double precision.** An assertion about values that are close does not fail: absolute closeness, when the tolerance is a
`double`; relative closeness, always. -/
theorem C107_double_close (F : FpX) (hF : Faithful F) (a l t : ℚ) :
    (F.rnd t = t → |t| ≤ F.big → |a - l| ≤ t → passAC (double F) (.num a) (.num l) (.num t) = some true) ∧
    (|a - l| ≤ |l * t| → passRC (double F) (.num a) (.num l) (.num t) = some true) := by
  constructor
  · intro hr hb h
    have h' := abs_le.mp h
    rw [pass_num F a l t hb]
    congr 1
    apply decide_eq_true
    refine ⟨?_, ?_⟩
    · have := hF.mono h'.2; rw [hr] at this; exact this
    · have := hF.mono (show l - a ≤ t by linarith [h'.1]); rw [hr] at this; exact this
  · intro h
    have h' := abs_le.mp h
    rw [passRC_eq]
    rcases le_or_gt (F.rnd |l * t|) F.big with c | c
    · rw [scaled_num F hF l t c]
      have h0 := rnd_nonneg F (abs_nonneg (l * t))
      rw [pass_num F a l _ (by rw [abs_of_nonneg h0]; exact c)]
      congr 1
      apply decide_eq_true
      exact ⟨hF.mono h'.2, hF.mono (by linarith [h'.1])⟩
    · rw [scaled_over F hF l t c]
      exact pass_pos F _ _

/-- If an assertion about finite numbers passes, the values are close up to rounding: one part in `2^53` for absolute closeness, two for
relative closeness, when its tolerance does not overflow. -/
theorem C107_double_pass_partial (F : FpX) (hF : Faithful F) (a l t : ℚ) :
    (|t| ≤ F.big → passAC (double F) (.num a) (.num l) (.num t) = some true → (1 - 1 / 2 ^ 53) * |a - l| ≤ t) ∧
    (F.rnd |l * t| ≤ F.big → passRC (double F) (.num a) (.num l) (.num t) = some true →
      (1 - 1 / 2 ^ 53) * |a - l| ≤ (1 + 1 / 2 ^ 53) * |l * t|) := by
  have key : ∀ t : ℚ, |t| ≤ F.big → passAC (double F) (.num a) (.num l) (.num t) = some true → (1 - ulp) * |a - l| ≤ t := by
    intro t hb h
    rw [pass_num F a l t hb] at h
    simp only [Option.some.injEq, decide_eq_true_eq] at h
    refine (rnd_lower F (a - l)).trans (abs_le.mpr ⟨?_, h.1⟩)
    have := hF.odd (a - l)
    rw [neg_sub] at this
    linarith [h.2]
  refine ⟨key t, fun hb h => ?_⟩
  rw [passRC_eq, scaled_num F hF l t hb] at h
  have h0 := rnd_nonneg F (abs_nonneg (l * t))
  have := key _ (by rw [abs_of_nonneg h0]; exact hb) h
  refine this.trans ?_
  have u := rnd_upper F |l * t|
  rw [abs_of_nonneg h0, abs_abs] at u
  exact u

/-- Values of one sign within a factor of two of each other: the assertions decide exactly, with the tolerance as rounded. -/
theorem C107_double_exact (big : ℚ) (hb : 2 ^ 53 ≤ big) (a l t : ℚ) (ha : IsDouble a) (hl : IsDouble l)
    (h1 : |a - l| ≤ |a|) (h2 : |a - l| ≤ |l|) :
    (|t| ≤ big → passAC (double (nearX big hb)) (.num a) (.num l) (.num t) = some (decide (|a - l| ≤ t))) ∧
    (near |l * t| ≤ big → passRC (double (nearX big hb)) (.num a) (.num l) (.num t) = some (decide (|a - l| ≤ near |l * t|))) := by
  have e1 := sub_exact ha hl h1 h2
  have e2 : near (l - a) = l - a := by rw [← neg_sub, near_neg, e1]
  have key : ∀ t : ℚ, |t| ≤ big →
      passAC (double (nearX big hb)) (.num a) (.num l) (.num t) = some (decide (|a - l| ≤ t)) := by
    intro t ht
    rw [pass_num (nearX big hb) a l t ht]
    have r1 : (nearX big hb).rnd (a - l) = a - l := e1
    have r2 : (nearX big hb).rnd (l - a) = l - a := e2
    rw [r1, r2]
    congr 1
    apply decide_eq_decide.mpr
    rw [abs_le]
    constructor
    · rintro ⟨x, y⟩; constructor <;> linarith
    · rintro ⟨x, y⟩; constructor <;> linarith
  refine ⟨key t, fun h => ?_⟩
  rw [passRC_eq, scaled_num _ (nearX_faithful big hb) l t h]
  have h0 : |(near |l * t|)| ≤ big := by rw [abs_of_nonneg (near_nonneg (abs_nonneg _))]; exact h
  exact key _ h0

/-- Infinities.  Equal infinities are absolutely close; an infinity and anything else but NaN are close exactly when the tolerance is
infinite or NaN. -/
theorem C107_double_infinite (F : FpX) (s : Bool) (b t : Dbl) :
    let i : Dbl := if s then .pos else .neg
    passAC (double F) i i t = some true ∧
    (b ≠ i → b ≠ .nan → (passAC (double F) i b t = some true ↔ t = .pos ∨ t = .nan) ∧
      (passAC (double F) b i t = some true ↔ t = .pos ∨ t = .nan)) := by
  simp only [passAC_eq]
  cases s <;> cases b <;> cases t <;> simp [FpX.add, Dbl.opp, Dbl.lt]

/-- Everything is relatively close to an infinite limit. -/
theorem C107_double_infinite_limit (F : FpX) (s : Bool) (a t : Dbl) :
    passRC (double F) a (if s then .pos else .neg) t = some true := by
  rw [passRC_eq, passAC_eq]
  cases s <;> cases t with
  | num x =>
    simp only [scaled, FpX.mul, Dbl.signed]
    rcases lt_trichotomy x 0 with c | c | c
    · cases a <;> simp [c, not_lt.mpr c.le, Dbl.lt, Dbl.opp, FpX.add]
    · subst c; cases a <;> simp [Dbl.lt, Dbl.opp, FpX.add]
    · cases a <;> simp [c, not_lt.mpr c.le, Dbl.lt, Dbl.opp, FpX.add]
  | pos => cases a <;> rfl
  | neg => cases a <;> rfl
  | nan => cases a <;> rfl

/-- **C107 fails on NaN**, in double precision: an assertion in which an operand is NaN passes. -/
theorem C107_double_nan_fails (F : FpX) (x y : Dbl) :
    passAC (double F) .nan x y = some true ∧ passAC (double F) x .nan y = some true ∧ passAC (double F) x y .nan = some true ∧
    passRC (double F) .nan x y = some true ∧ passRC (double F) x .nan y = some true ∧ passRC (double F) x y .nan = some true := by
  have n1 : ∀ z : Dbl, F.add .nan z = .nan := by intro z; cases z <;> rfl
  have n2 : ∀ z : Dbl, F.add z .nan = .nan := by intro z; cases z <;> rfl
  have n3 : ∀ z : Dbl, z.lt .nan = false := by intro z; cases z <;> rfl
  have n4 : ∀ z : Dbl, Dbl.nan.lt z = false := by intro z; cases z <;> rfl
  have n5 : ∀ z : Dbl, F.mul z .nan = .nan := by intro z; cases z <;> rfl
  have n6 : (Dbl.nan).opp = .nan := rfl
  have a1 : ∀ x y, passAC (double F) .nan x y = some true := by intro x y; rw [passAC_eq, n1, n6, n2, n3]; rfl
  have a2 : ∀ x y, passAC (double F) x .nan y = some true := by intro x y; rw [passAC_eq, n1, n6, n2, n3]; rfl
  have a3 : ∀ x y, passAC (double F) x y .nan = some true := by intro x y; rw [passAC_eq, n4, n4]; rfl
  refine ⟨a1 x y, a2 x y, a3 x y, ?_, ?_, ?_⟩
  · rw [passRC_eq]; exact a1 _ _
  · rw [passRC_eq]; exact a2 _ _
  · rw [passRC_eq, show scaled F y .nan = .nan by simp only [scaled, n5, n4]; rfl]; exact a3 _ _

/-- **C107 fails by rounding:** 1 and `-2^-54` are absolutely close within 1, though they differ by more. -/
theorem C107_double_fails (big : ℚ) (hb : 2 ^ 53 ≤ big) : ∃ a l t : ℚ, IsDouble a ∧ IsDouble l ∧ IsDouble t ∧ t < |a - l| ∧
    passAC (double (nearX big hb)) (.num a) (.num l) (.num t) = some true := by
  refine ⟨1, -(1 / 2 ^ 54), 1, ⟨1, 0, by norm_num, by norm_num⟩, ⟨-1, -54, by norm_num, by norm_num⟩, ⟨1, 0, by norm_num, by norm_num⟩,
    by norm_num [abs_of_pos], ?_⟩
  rw [pass_num _ _ _ _ (by rw [abs_one]; exact le_trans (by norm_num) hb)]
  have h1 : near (1 - -(1 / 2 ^ 54)) = 1 := by decide +kernel
  have h2 : near (-(1 / 2 ^ 54) - 1) = -1 := by decide +kernel
  have r1 : (nearX big hb).rnd (1 - -(1 / 2 ^ 54)) = 1 := h1
  have r2 : (nearX big hb).rnd (-(1 / 2 ^ 54) - 1) = -1 := h2
  rw [r1, r2]
  norm_num

/-- **C107 fails by overflow:** with a limit of the greatest `double` and a tolerance of 1.5, everything is relatively close, also its
opposite, which is twice as far away as the limit. -/
theorem C107_double_overflow_fails (big : ℚ) (hb : 2 ^ 53 ≤ big) : |-big - big| > |big * (3 / 2)| ∧
    passRC (double (nearX big hb)) (.num (-big)) (.num big) (.num (3 / 2)) = some true := by
  have hp : 0 < big := lt_of_lt_of_le (by positivity) hb
  constructor
  · rw [abs_of_neg (by linarith), abs_of_pos (by linarith)]; linarith
  · rw [passRC_eq, scaled_over _ (nearX_faithful big hb)]
    · exact pass_pos _ _ _
    · have h := rnd_lower (nearX big hb) |big * (3 / 2)|
      have h0 := rnd_nonneg (nearX big hb) (abs_nonneg (big * (3 / 2)))
      rw [abs_of_nonneg h0, abs_abs, abs_of_pos (show (0 : ℚ) < big * (3 / 2) by linarith)] at h
      rw [abs_of_pos (show (0 : ℚ) < big * (3 / 2) by linarith)]
      have : (nearX big hb).big = big := rfl
      rw [this]
      refine lt_of_lt_of_le ?_ h
      norm_num [ulp]
      linarith

/-- The hypotheses hold of IEEE 754 binary64, of 0.1 + 0.2 and 0.3 as `double`s, which differ, and which are close within `2^-54` and not
within `2^-55`. -/
example :
    let a : ℚ := 5404319552844596 / 2 ^ 54
    let l : ℚ := 5404319552844595 / 2 ^ 54
    near (near (1 / 10) + near (1 / 5)) = a ∧ near (3 / 10) = l ∧ IsDouble a ∧ IsDouble l ∧ |a - l| ≤ |a| ∧ |a - l| ≤ |l| ∧
    passAC (double binary64X) (.num a) (.num l) (.num (1 / 2 ^ 54)) = some true ∧
    passAC (double binary64X) (.num a) (.num l) (.num (1 / 2 ^ 55)) = some false := by
  refine ⟨by decide +kernel, by decide +kernel, ⟨5404319552844596, -54, by norm_num, by norm_num⟩, ⟨5404319552844595, -54, by norm_num,
    by norm_num⟩, by norm_num [abs_of_pos], by norm_num [abs_of_pos], by decide +kernel, by decide +kernel⟩

end Verif.TestFw.Close
