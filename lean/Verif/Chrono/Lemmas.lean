import Verif.Chrono.Model
import Mathlib.Algebra.Order.Field.Rat
import Mathlib.Algebra.Order.Field.Basic
import Mathlib.Tactic.FieldSimp
import Mathlib.Tactic.Ring
import Mathlib.Tactic.NormNum
set_option linter.unusedSimpArgs false
namespace Verif.Chrono

/-- The resolution of `10^-k` seconds. -/
def deci (k : Nat) : Ratio := ⟨1, 10 ^ k⟩

theorem pow10_pos (k : Nat) : 0 < 10 ^ k := Nat.pow_pos (by decide)

theorem deci_lt (a b : Nat) : (deci a).lt (deci b) = decide (b < a) := by
  simp only [Ratio.lt, deci, Nat.one_mul]
  congr 1
  exact propext (Nat.pow_lt_pow_iff_right (by decide))

theorem deci_eq (a b : Nat) : (deci a).eq (deci b) = decide (a = b) := by
  simp only [Ratio.eq, deci]
  by_cases h : a = b
  · simp [h]
  · have : (10 : Nat) ^ a ≠ 10 ^ b := fun e => h (Nat.pow_right_injective (by decide) e)
    simp [h, this]

/-- Dividing a coarser by a finer resolution. -/
theorem deci_div {a b : Nat} (h : a ≤ b) : ((deci a).div (deci b)).num = 10 ^ (b - a) := by
  simp only [Ratio.div, deci, Ratio.mk', Nat.one_mul, Nat.mul_one]
  have e : (10 : Nat) ^ b = 10 ^ (b - a) * 10 ^ a := by rw [← Nat.pow_add]; congr 1; omega
  rw [Nat.gcd_eq_right (Nat.pow_dvd_pow 10 h), e, Nat.mul_div_cancel _ (pow10_pos a)]

theorem le_max_tdiv {c u : Int} (hu : 0 < u) : c ≤ i64Max.tdiv u ↔ c * u ≤ i64Max := by
  rw [Int.tdiv_eq_ediv_of_nonneg (by decide), Int.le_ediv_iff_mul_le hu]

theorem min_tdiv_le {c u : Int} (hu : 0 < u) : i64Min.tdiv u ≤ c ↔ i64Min ≤ c * u := by
  have : i64Min.tdiv u = -((9223372036854775808 : Int) / u) := by
    rw [show i64Min = -9223372036854775808 from rfl, Int.neg_tdiv,
      Int.tdiv_eq_ediv_of_nonneg (by decide)]
  rw [this, neg_le, Int.le_ediv_iff_mul_le hu, Int.neg_mul]
  unfold i64Min
  omega

theorem ck_some {x : Int} (h : I64 x) : ck x = some x := if_pos h
theorem ck_none {x : Int} (h : ¬ I64 x) : ck x = none := if_neg h
theorem ck_eq_some {x y : Int} : ck x = some y ↔ I64 x ∧ x = y := by
  unfold ck; split <;> simp_all

/-- To a finer (or the same) resolution. -/
theorem convert_up {a b : Nat} (h : a ≤ b) (c : Int) :
    convertCount (deci a) (deci b) c = ck (c * 10 ^ (b - a)) := by
  unfold convertCount
  rw [deci_lt]
  by_cases hab : a < b
  · simp only [hab, decide_true, if_true]
    rw [deci_div h]
    have hu : (0 : Int) < ((10 ^ (b - a) : Nat) : Int) := by exact_mod_cast pow10_pos _
    by_cases hr : I64 (c * ((10 ^ (b - a) : Nat) : Int))
    · rw [if_pos ⟨(le_max_tdiv hu).mpr hr.2, (min_tdiv_le hu).mpr hr.1⟩]; norm_cast
    · rw [if_neg]
      · rw [ck_none]; exact_mod_cast hr
      · rintro ⟨h1, h2⟩
        exact hr ⟨(min_tdiv_le hu).mp h2, (le_max_tdiv hu).mp h1⟩
  · have : a = b := by omega
    subst this
    simp [deci_div]

theorem tdiv_I64 {c u : Int} (hc : I64 c) (hu : 0 < u) : I64 (c.tdiv u) := by
  obtain ⟨h1, h2⟩ := hc
  unfold i64Min at h1; unfold i64Max at h2
  unfold I64 i64Min i64Max
  have hle : ∀ n : Int, 0 ≤ n → n / u ≤ n := fun n hn => Int.ediv_le_self u hn
  rcases Int.le_total 0 c with h | h
  · rw [Int.tdiv_eq_ediv_of_nonneg h]
    have := Int.ediv_nonneg h (Int.le_of_lt hu)
    have := hle c h
    omega
  · obtain ⟨n, hn⟩ : ∃ n, n = -c := ⟨_, rfl⟩
    have hcn : c = -n := by omega
    rw [hcn, Int.neg_tdiv, Int.tdiv_eq_ediv_of_nonneg (by omega)]
    have h0 : 0 ≤ n := by omega
    have := Int.ediv_nonneg h0 (Int.le_of_lt hu)
    have := hle n h0
    omega

/-- To a coarser (or the same) resolution. -/
theorem convert_down {a b : Nat} (h : b ≤ a) {c : Int} (hc : I64 c) :
    convertCount (deci a) (deci b) c = some (c.tdiv (10 ^ (a - b))) := by
  unfold convertCount
  rw [deci_lt, decide_eq_false (by omega : ¬ a < b)]
  simp only [Bool.false_eq_true, if_false]
  rw [deci_div h]
  have hu : (0 : Int) < ((10 ^ (a - b) : Nat) : Int) := by exact_mod_cast pow10_pos _
  rw [ck_some (tdiv_I64 hc hu)]; norm_cast

/-! ### Split -/

theorem step1 {u : Int} {n : Nat} (h0 : 0 ≤ u) (h1 : u ≤ i64Max) (hn : 0 < n)
    (hn' : (n : Int) ≤ i64Max) :
    ratioDivide u 1 (.ratio ⟨n, 1⟩) = some (u / n, u % n, 1) := by
  have hnz : (0 : Int) < n := by omega
  have a1 : ck ((1 : Nat) * u) = some u := by
    rw [Nat.cast_one, Int.one_mul]; exact ck_some ⟨by unfold i64Min; omega, h1⟩
  have a2 : ck ((n : Int) * 1) = some (n : Int) := by
    rw [Int.mul_one]; exact ck_some ⟨by unfold i64Min; omega, hn'⟩
  have hq : u.tdiv n = u / n := Int.tdiv_eq_ediv_of_nonneg h0
  have hem := Int.mul_ediv_add_emod u n
  have hm0 := Int.emod_nonneg u (Int.ne_of_gt hnz)
  have hq0 := Int.ediv_nonneg h0 (Int.le_of_lt hnz)
  have hp0 : 0 ≤ (n : Int) * (u / n) := Int.mul_nonneg (Int.le_of_lt hnz) hq0
  have a3 : ck ((n : Int) * (u / n)) = some ((n : Int) * (u / n)) :=
    ck_some ⟨by unfold i64Min; omega, by omega⟩
  have a4 : ck (u - (n : Int) * (u / n)) = some (u % n) := by
    rw [show u - (n : Int) * (u / n) = u % n by omega]
    exact ck_some ⟨by unfold i64Min; omega, by omega⟩
  have a5 : ck ((1 : Nat) * (1 : Int)) = some 1 := by decide
  simp only [ratioDivide, h0, Int.zero_lt_one, and_self, if_true, a1, a2, hq, a3, a4, a5,
    Option.bind_eq_bind, Option.bind_some, Option.pure_def]

theorem step2 {u : Int} {d : Nat} (h0 : 0 ≤ u) (hd : 0 < d) (h1 : d * u ≤ i64Max) (hd1 : (d : Int) ≤ i64Max) :
    ratioDivide u 1 (.ratio ⟨1, d⟩) = some (d * u, 0, (d : Int)) := by
  have hp : 0 ≤ (d : Int) * u := Int.mul_nonneg (by omega) h0
  have a1 : ck ((d : Int) * u) = some (d * u) := ck_some ⟨by unfold i64Min; omega, h1⟩
  have a2 : ck (((1 : Nat) : Int) * 1) = some 1 := by decide
  have a3 : ck ((1 : Int) * (d * u)) = some (d * u) := by rw [Int.one_mul]; exact a1
  have a4 : ck ((d : Int) * u - d * u) = some 0 := by rw [Int.sub_self]; decide
  have a5 : ck ((d : Int) * 1) = some (d : Int) := by
    rw [Int.mul_one]; exact ck_some ⟨by unfold i64Min; omega, hd1⟩
  simp only [ratioDivide, h0, Int.zero_lt_one, and_self, if_true, a1, a2, Int.tdiv_one, a3, a4, a5,
    Option.bind_eq_bind, Option.bind_some, Option.pure_def]

/-- Parts in their natural ranges that add up to `u` periods of `10^-k` seconds, counted in
yoctoseconds. -/
def GoodParts (k : Nat) (u : Int) (xs : List Int) : Prop :=
  ∃ d h m s ms us ns ps fs as' zs ys : Int,
    xs = [d, h, m, s, ms, us, ns, ps, fs, as', zs, ys] ∧
    0 ≤ d ∧ (0 ≤ h ∧ h < 24) ∧ (0 ≤ m ∧ m < 60) ∧ (0 ≤ s ∧ s < 60) ∧
    (0 ≤ ms ∧ ms < 1000) ∧ (0 ≤ us ∧ us < 1000) ∧ (0 ≤ ns ∧ ns < 1000) ∧ (0 ≤ ps ∧ ps < 1000) ∧
    (0 ≤ fs ∧ fs < 1000) ∧ (0 ≤ as' ∧ as' < 1000) ∧ (0 ≤ zs ∧ zs < 1000) ∧ (0 ≤ ys ∧ ys < 1000) ∧
    u * 10 ^ (24 - k) =
      (d * 86400 + h * 3600 + m * 60 + s) * 10 ^ 24 + ms * 10 ^ 21 + us * 10 ^ 18 + ns * 10 ^ 15 +
        ps * 10 ^ 12 + fs * 10 ^ 9 + as' * 10 ^ 6 + zs * 10 ^ 3 + ys

end Verif.Chrono
