import Verif.Stat.Model
import Mathlib.Algebra.Order.Ring.Rat
import Mathlib.Algebra.Order.Floor.Ring
import Mathlib.Data.Rat.Floor
import Mathlib.Tactic.FieldSimp
import Mathlib.Tactic.Ring
import Mathlib.Tactic.Linarith
import Mathlib.Tactic.Positivity
import Mathlib.Tactic.NormNum

/-!
`statistics/summary/summary.h` in double precision.

`Verif.Stat.Model` computes in an ordered field.  Here every operation on `double`s is followed by a
rounding.  What is used of the rounding is stated in `Fp`; every IEEE 754 binary64 implementation that
rounds to nearest, ties to even, and evaluates without extra precision satisfies it as long as no
result overflows or is subnormal.  `near` is such a rounding.  Overflow, subnormal results,
infinities and NaN samples are not modelled.
-/
namespace Verif.Stat

/-- Half a unit in the last place of 1, for `double` (a significand of 53 bits).  (IEEE 754 `double`; no code.) -/
def ulp : ℚ := 1 / 2 ^ 53

/-- The arithmetic of `double` used in /repo/statistics/summary/summary.h 127-188: the exact result of an
operation is replaced by `rnd` of it (IEEE 754, round to nearest, ties to even). -/
structure Fp where
  rnd : ℚ → ℚ
  /-- The error is at most half a unit in the last place. -/
  close : ∀ x, |rnd x - x| ≤ ulp * |x|
  /-- Integers of 53 bits are represented exactly. -/
  int : ∀ n : ℤ, |n| ≤ 2 ^ 53 → rnd n = n
  /-- The first integer that is not. -/
  tie : rnd (2 ^ 53 + 1) = 2 ^ 53

/-- `OnProbe`; /repo/statistics/summary/summary.h 167-188.  Comparisons with NaN are false. -/
def Summary.onProbeF (F : Fp) (s : Summary ℚ) (x : ℚ) : Summary ℚ :=
  let mn := if s.count = 0 then some x else match s.min with
    | some m => if m > x then some x else some m
    | none => none
  let mx := if s.count = 0 then some x else match s.max with
    | some m => if m < x then some x else some m
    | none => none
  ⟨mn, mx, F.rnd (s.count + 1), F.rnd (s.sum + x), F.rnd (s.sqrSum + F.rnd (x * x))⟩

/-- `Mean`; /repo/statistics/summary/summary.h 127-139. -/
def Summary.meanF (F : Fp) (s : Summary ℚ) : Option ℚ :=
  if s.count = 0 then none else some (F.rnd (s.sum / s.count))

/-- `Stddev` up to the square root; /repo/statistics/summary/summary.h 141-154. -/
def Summary.devF (F : Fp) (s : Summary ℚ) : Option ℚ :=
  if s.count < 2 then none
  else
    let mean := F.rnd (s.sum / s.count)
    some (F.rnd (F.rnd (s.sqrSum + F.rnd (F.rnd (F.rnd (-2 * s.sum) + F.rnd (s.count * mean)) * mean)) /
      F.rnd (s.count - 1)))

/-- `Stddev` is a number: the argument of `sqrt` is not negative; /repo/statistics/summary/summary.h
141-156. -/
def Summary.hasStddevF (F : Fp) (s : Summary ℚ) : Prop := ∃ v, s.devF F = some v ∧ 0 ≤ v

/-- One call; /repo/statistics/summary/summary.h 158-188. -/
def Summary.stepF (F : Fp) (s : Summary ℚ) : SOp ℚ → Summary ℚ
  | .probe x => s.onProbeF F x
  | .reset => Summary.init

/-- A history of calls; /repo/statistics/summary/summary.h 158-188. -/
def Summary.runF (F : Fp) (os : List (SOp ℚ)) : Summary ℚ := os.foldl (Summary.stepF F) Summary.init

/-! ## Round to nearest, ties to even -/

/-- `2 ^ e`.  (IEEE 754 `double`; no code.) -/
def pow2 (e : ℤ) : ℚ := match e with
  | .ofNat n => ((2 ^ n : ℕ) : ℚ)
  | .negSucc n => mkRat 1 (2 ^ (n + 1))

/-- The binary exponent of a number that is not 0.  (IEEE 754 `double`; no code.) -/
def expo (x : ℚ) : ℤ :=
  let e : ℤ := (Nat.log2 x.num.natAbs : ℤ) - (Nat.log2 x.den : ℤ)
  if pow2 e ≤ |x| then e else e - 1

/-- The nearest integer, the even one of two.  (IEEE 754 `double`; no code.) -/
def rhe (x : ℚ) : ℤ :=
  let f := x.floor
  if x - f < 1 / 2 then f else if 1 / 2 < x - f then f + 1 else if f % 2 = 0 then f else f + 1

/-- The nearest number with a significand of 53 bits, the one with an even significand of two.  (IEEE 754 `double`; no code.) -/
def near (x : ℚ) : ℚ :=
  if x = 0 then 0 else (rhe (x / pow2 (expo x - 52)) : ℚ) * pow2 (expo x - 52)

theorem pow2_eq (e : ℤ) : pow2 e = (2 : ℚ) ^ e := by
  cases e with
  | ofNat n => simp [pow2]
  | negSucc n =>
    simp only [pow2, zpow_negSucc]
    rw [Rat.mkRat_eq_div]; push_cast; rw [one_div]

theorem expo_spec {x : ℚ} (hx : x ≠ 0) : (2 : ℚ) ^ expo x ≤ |x| ∧ |x| < (2 : ℚ) ^ (expo x + 1) := by
  have hn : x.num.natAbs ≠ 0 := by simpa using hx
  have hd : x.den ≠ 0 := x.den_nz
  have n1 := Nat.log2_self_le hn
  have n2 := Nat.lt_log2_self (n := x.num.natAbs)
  have d1 := Nat.log2_self_le hd
  have d2 := Nat.lt_log2_self (n := x.den)
  have hax : |x| = (x.num.natAbs : ℚ) / (x.den : ℚ) := by
    conv_lhs => rw [← Rat.num_div_den x]
    rw [abs_div, Nat.abs_cast, ← Int.cast_abs]
    congr 1
    rw [Int.abs_eq_natAbs]; exact Int.cast_natCast _
  simp only [expo, pow2_eq]
  generalize x.num.natAbs = p at *
  generalize x.den = q at *
  have hq : (0 : ℚ) < q := by positivity
  have n1' : (2 : ℚ) ^ (p.log2 : ℤ) ≤ p := by rw [zpow_natCast]; exact_mod_cast n1
  have n2' : (p : ℚ) < (2 : ℚ) ^ ((p.log2 : ℤ) + 1) := by
    rw [show ((p.log2 : ℤ) + 1) = ((p.log2 + 1 : ℕ) : ℤ) by push_cast; ring, zpow_natCast]; exact_mod_cast n2
  have d1' : (2 : ℚ) ^ (q.log2 : ℤ) ≤ q := by rw [zpow_natCast]; exact_mod_cast d1
  have d2' : (q : ℚ) < (2 : ℚ) ^ ((q.log2 : ℤ) + 1) := by
    rw [show ((q.log2 : ℤ) + 1) = ((q.log2 + 1 : ℕ) : ℤ) by push_cast; ring, zpow_natCast]; exact_mod_cast d2
  have hup : |x| < (2 : ℚ) ^ ((p.log2 : ℤ) - (q.log2 : ℤ) + 1) := by
    rw [hax, div_lt_iff₀ hq]
    calc (p : ℚ) < (2 : ℚ) ^ ((p.log2 : ℤ) + 1) := n2'
      _ = (2 : ℚ) ^ ((p.log2 : ℤ) - (q.log2 : ℤ) + 1) * (2 : ℚ) ^ (q.log2 : ℤ) := by
        rw [← zpow_add₀ (by norm_num)]; congr 1; ring
      _ ≤ _ := mul_le_mul_of_nonneg_left d1' (zpow_nonneg (by norm_num) _)
  have hlo : (2 : ℚ) ^ ((p.log2 : ℤ) - (q.log2 : ℤ) - 1) ≤ |x| := by
    rw [hax, le_div_iff₀ hq]
    calc (2 : ℚ) ^ ((p.log2 : ℤ) - (q.log2 : ℤ) - 1) * q
        ≤ (2 : ℚ) ^ ((p.log2 : ℤ) - (q.log2 : ℤ) - 1) * (2 : ℚ) ^ ((q.log2 : ℤ) + 1) :=
          mul_le_mul_of_nonneg_left d2'.le (zpow_nonneg (by norm_num) _)
      _ = (2 : ℚ) ^ (p.log2 : ℤ) := by rw [← zpow_add₀ (by norm_num)]; congr 1; ring
      _ ≤ p := n1'
  split
  · rename_i h; exact ⟨h, hup⟩
  · rename_i h; exact ⟨hlo, by simpa using lt_of_not_ge h⟩

theorem rhe_close (x : ℚ) : |(rhe x : ℚ) - x| ≤ 1 / 2 := by
  have h1 : (x.floor : ℚ) ≤ x := Rat.floor_le x
  have h2 : x < x.floor + 1 := by
    have := Rat.lt_floor (x := x); linarith
  simp only [rhe]
  rw [abs_le]
  split
  · constructor <;> linarith
  · split
    · push_cast; constructor <;> linarith
    · split
      · constructor <;> linarith
      · push_cast; constructor <;> linarith

theorem rhe_int (n : ℤ) : rhe (n : ℚ) = n := by
  simp [rhe]

theorem near_close (x : ℚ) : |near x - x| ≤ ulp * |x| := by
  by_cases hx : x = 0
  · simp [near, hx]
  · simp only [near, hx, if_false, pow2_eq]
    obtain ⟨h1, _⟩ := expo_spec hx
    have hp : (0 : ℚ) < 2 ^ (expo x - 52) := zpow_pos (by norm_num) _
    have hr := rhe_close (x / 2 ^ (expo x - 52))
    have : (rhe (x / 2 ^ (expo x - 52)) : ℚ) * 2 ^ (expo x - 52) - x =
        ((rhe (x / 2 ^ (expo x - 52)) : ℚ) - x / 2 ^ (expo x - 52)) * 2 ^ (expo x - 52) := by
      field_simp
    rw [this, abs_mul, abs_of_pos hp]
    calc _ ≤ 1 / 2 * (2 : ℚ) ^ (expo x - 52) := mul_le_mul_of_nonneg_right hr hp.le
      _ = ulp * 2 ^ expo x := by
        rw [zpow_sub₀ (by norm_num), ulp]; norm_num; ring
      _ ≤ _ := mul_le_mul_of_nonneg_left h1 (by norm_num [ulp])

theorem near_int (n : ℤ) (hn : |n| ≤ 2 ^ 53) : near n = n := by
  by_cases hx : n = 0
  · simp [near, hx]
  · have hx' : (n : ℚ) ≠ 0 := by exact_mod_cast hx
    simp only [near, hx', if_false, pow2_eq]
    obtain ⟨h1, h2⟩ := expo_spec hx'
    have hp : (0 : ℚ) < 2 ^ (expo (n : ℚ) - 52) := zpow_pos (by norm_num) _
    have key : ∃ m : ℤ, (n : ℚ) / 2 ^ (expo (n : ℚ) - 52) = m := by
      by_cases he : expo (n : ℚ) ≤ 52
      · obtain ⟨k, hk⟩ := Int.eq_ofNat_of_zero_le (show 0 ≤ 52 - expo (n : ℚ) by omega)
        refine ⟨n * 2 ^ k, ?_⟩
        rw [show expo (n : ℚ) - 52 = -(k : ℤ) by omega, zpow_neg, zpow_natCast]
        push_cast; field_simp
      · have hn' : |(n : ℚ)| ≤ 2 ^ 53 := by exact_mod_cast hn
        have hle : (2 : ℚ) ^ (53 : ℤ) ≤ 2 ^ expo (n : ℚ) := zpow_le_zpow_right₀ (by norm_num) (by omega)
        have heq : |(n : ℚ)| = 2 ^ 53 := by
          apply le_antisymm hn'
          calc (2 : ℚ) ^ 53 = 2 ^ (53 : ℤ) := by norm_cast
            _ ≤ _ := hle
            _ ≤ _ := h1
        have he53 : expo (n : ℚ) = 53 := by
          have : (2 : ℚ) ^ expo (n : ℚ) ≤ 2 ^ (53 : ℤ) := by
            rw [heq] at h1; exact_mod_cast h1
          have := (zpow_le_zpow_iff_right₀ (show (1 : ℚ) < 2 by norm_num)).1 this
          omega
        rw [he53]
        have : n = 2 ^ 53 ∨ n = -(2 ^ 53) := by
          have : |n| = 2 ^ 53 := by exact_mod_cast heq
          exact eq_or_eq_neg_of_abs_eq this
        rcases this with rfl | rfl
        · exact ⟨2 ^ 52, by norm_num⟩
        · exact ⟨-(2 ^ 52), by norm_num⟩
    obtain ⟨m, hm⟩ := key
    rw [hm, rhe_int, ← hm]
    field_simp

/-- Round to nearest, ties to even, with an unbounded range of exponents.  (IEEE 754 `double`; no code.) -/
def binary64 : Fp where
  rnd := near
  close := near_close
  int := near_int
  tie := by decide +kernel

end Verif.Stat
