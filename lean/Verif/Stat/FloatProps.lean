import Verif.Stat.Float
import Verif.Stat.Props
import Mathlib.Tactic.GCongr
set_option linter.unusedSimpArgs false
set_option linter.unusedVariables false

/-! Property C143: what a summary reports when it computes with `double`s. -/
namespace Verif.Stat

/-! ## Error analysis -/

/-- The relative error accumulated by `k` roundings. -/
def gam (k : ℕ) : ℚ := (1 + ulp) ^ k - 1

theorem ulp_pos : 0 < ulp := by norm_num [ulp]

theorem gam_mono {a b : ℕ} (h : a ≤ b) : gam a ≤ gam b := by
  have : (1 + ulp) ^ a ≤ (1 + ulp) ^ b := pow_le_pow_right₀ (by linarith [ulp_pos]) h
  unfold gam; linarith

theorem gam_nonneg (a : ℕ) : 0 ≤ gam a := by
  have := gam_mono (Nat.zero_le a); simpa [gam] using this

theorem gam_add (a b : ℕ) : gam a + gam b + gam a * gam b = gam (a + b) := by
  simp only [gam, pow_add]; ring

/-- `x` is computed for `y` with `a` roundings among magnitudes up to `M`. -/
structure Apx (a : ℕ) (M x y : ℚ) : Prop where
  err : |x - y| ≤ gam a * M
  mag : |y| ≤ M

theorem Apx.pos {a : ℕ} {M x y : ℚ} (h : Apx a M x y) : 0 ≤ M := (abs_nonneg y).trans h.mag

theorem Apx.exact {M y : ℚ} (h : |y| ≤ M) : Apx 0 M y y := ⟨by simp [gam], h⟩

theorem Apx.mono {a b : ℕ} {M x y : ℚ} (h : Apx a M x y) (hab : a ≤ b) : Apx b M x y :=
  ⟨h.err.trans (mul_le_mul_of_nonneg_right (gam_mono hab) h.pos), h.mag⟩

theorem Apx.grow {a : ℕ} {M M' x y : ℚ} (h : Apx a M x y) (hM : M ≤ M') : Apx a M' x y :=
  ⟨h.err.trans (mul_le_mul_of_nonneg_left hM (gam_nonneg a)), h.mag.trans hM⟩

theorem Apx.rnd (F : Fp) {a : ℕ} {M x y : ℚ} (h : Apx a M x y) : Apx (a + 1) M (F.rnd x) y := by
  refine ⟨?_, h.mag⟩
  have hx : |x| ≤ (1 + gam a) * M := by
    have : |x| ≤ |x - y| + |y| := by simpa using abs_add_le (x - y) y
    linarith [h.err, h.mag]
  have hc := F.close x
  have ht : |F.rnd x - y| ≤ |F.rnd x - x| + |x - y| := by
    simpa using abs_add_le (F.rnd x - x) (x - y)
  have hu : ulp * |x| ≤ ulp * ((1 + gam a) * M) := mul_le_mul_of_nonneg_left hx ulp_pos.le
  have he : gam (a + 1) * M = ulp * ((1 + gam a) * M) + gam a * M := by
    simp only [gam, pow_succ]; ring
  linarith [h.err]

theorem Apx.add {a : ℕ} {M M' x x' y y' : ℚ} (h : Apx a M x y) (h' : Apx a M' x' y') :
    Apx a (M + M') (x + x') (y + y') := by
  refine ⟨?_, (abs_add_le _ _).trans (add_le_add h.mag h'.mag)⟩
  have : |x + x' - (y + y')| ≤ |x - y| + |x' - y'| := by
    rw [show x + x' - (y + y') = (x - y) + (x' - y') by ring]; exact abs_add_le _ _
  linarith [h.err, h'.err]

theorem Apx.mul {a b : ℕ} {M M' x x' y y' : ℚ} (h : Apx a M x y) (h' : Apx b M' x' y') :
    Apx (a + b) (M * M') (x * x') (y * y') := by
  refine ⟨?_, by rw [abs_mul]; exact mul_le_mul h.mag h'.mag (abs_nonneg _) h.pos⟩
  have e1 : |(x - y) * (x' - y')| ≤ (gam a * M) * (gam b * M') := by
    rw [abs_mul]; exact mul_le_mul h.err h'.err (abs_nonneg _) (mul_nonneg (gam_nonneg a) h.pos)
  have e2 : |(x - y) * y'| ≤ (gam a * M) * M' := by
    rw [abs_mul]; exact mul_le_mul h.err h'.mag (abs_nonneg _) (mul_nonneg (gam_nonneg a) h.pos)
  have e3 : |y * (x' - y')| ≤ M * (gam b * M') := by
    rw [abs_mul]; exact mul_le_mul h.mag h'.err (abs_nonneg _) h.pos
  have e0 : |x * x' - y * y'| ≤ |(x - y) * (x' - y')| + |(x - y) * y'| + |y * (x' - y')| := by
    rw [show x * x' - y * y' = (x - y) * (x' - y') + (x - y) * y' + y * (x' - y') by ring]
    exact (abs_add_le _ _).trans (add_le_add (abs_add_le _ _) le_rfl)
  have : gam (a + b) * (M * M') = (gam a * M) * (gam b * M') + (gam a * M) * M' + M * (gam b * M') := by
    rw [← gam_add]; ring
  linarith

theorem Apx.div {a : ℕ} {M x y n : ℚ} (h : Apx a M x y) (hn : 0 < n) : Apx a (M / n) (x / n) (y / n) := by
  refine ⟨?_, by rw [abs_div, abs_of_pos hn]; exact div_le_div_of_nonneg_right h.mag hn.le⟩
  rw [← sub_div, abs_div, abs_of_pos hn, mul_div_assoc']
  exact div_le_div_of_nonneg_right h.err hn.le

/-! ## What the accumulators hold -/

/-- `Σ |x|` and `Σ x²`. -/
def absSum (xs : List ℚ) : ℚ := (xs.map fun x => |x|).sum
def sqSum (xs : List ℚ) : ℚ := (xs.map fun x => x * x).sum

theorem absSum_nonneg (xs : List ℚ) : 0 ≤ absSum xs := by
  induction xs with
  | nil => simp [absSum]
  | cons a t ih => simp only [absSum, List.map_cons, List.sum_cons] at *; linarith [abs_nonneg a]

theorem sqSum_nonneg (xs : List ℚ) : 0 ≤ sqSum xs := by
  induction xs with
  | nil => simp [sqSum]
  | cons a t ih => simp only [sqSum, List.map_cons, List.sum_cons] at *; linarith [mul_self_nonneg a]

theorem abs_sum_le (xs : List ℚ) : |xs.sum| ≤ absSum xs := by
  induction xs with
  | nil => simp [absSum]
  | cons a t ih =>
    simp only [absSum, List.map_cons, List.sum_cons] at *
    exact (abs_add_le _ _).trans (by linarith)

/-- Cauchy-Schwarz. -/
theorem absSum_sq_le (xs : List ℚ) : absSum xs * absSum xs ≤ xs.length * sqSum xs := by
  have key : ∀ m : ℚ, 0 ≤ sqSum xs - 2 * absSum xs * m + xs.length * (m * m) := by
    intro m
    induction xs with
    | nil => simp [absSum, sqSum]
    | cons a t ih =>
      simp only [absSum, sqSum, List.map_cons, List.sum_cons, List.length_cons] at *
      push_cast
      have h1 := mul_self_nonneg (|a| - m)
      have h2 : |a| * |a| = a * a := abs_mul_abs_self a
      nlinarith
  by_cases hn : xs = []
  · subst hn; simp [absSum]
  · have hp : (0 : ℚ) < xs.length := by exact_mod_cast List.length_pos_iff.2 hn
    have h := key (absSum xs / xs.length)
    have : sqSum xs - 2 * absSum xs * (absSum xs / xs.length) +
        xs.length * (absSum xs / xs.length * (absSum xs / xs.length)) =
        (xs.length * sqSum xs - absSum xs * absSum xs) / xs.length := by
      field_simp; ring
    rw [this] at h
    have := (div_nonneg_iff.1 h)
    rcases this with h | h <;> linarith

theorem runF_snoc (F : Fp) (os : List (SOp ℚ)) (o : SOp ℚ) :
    Summary.runF F (os ++ [o]) = (Summary.runF F os).stepF F o := by simp [Summary.runF]

/-- The state of a summary that computes with `double`s. -/
structure HoldsF (s t : Summary ℚ) (xs : List ℚ) : Prop where
  count : s.count = (min xs.length (2 ^ 53) : ℕ)
  sum : Apx xs.length (absSum xs) s.sum xs.sum
  sqr : Apx (xs.length + 1) (sqSum xs) s.sqrSum (sqSum xs)
  min : s.min = t.min
  max : s.max = t.max

theorem rnd_count (F : Fp) (n : ℕ) :
    F.rnd ((min n (2 ^ 53) : ℕ) + 1) = (min (n + 1) (2 ^ 53) : ℕ) := by
  by_cases h : n < 2 ^ 53
  · rw [Nat.min_eq_left h.le, Nat.min_eq_left h]
    have := F.int (n + 1) (by rw [abs_of_nonneg (by omega)]; exact_mod_cast h)
    push_cast at this ⊢; exact this
  · rw [Nat.min_eq_right (by omega), Nat.min_eq_right (by omega)]
    have := F.tie
    push_cast; exact this

theorem holdsF_init (t : Summary ℚ) (ht : t = Summary.init) : HoldsF Summary.init t [] := by
  subst ht
  exact ⟨by simp [Summary.init], ⟨by simp [Summary.init, absSum], by simp [absSum]⟩,
    ⟨by simp [Summary.init, sqSum], by simp [sqSum]⟩, rfl, rfl⟩

theorem holdsF_probe (F : Fp) {s t : Summary ℚ} {xs : List ℚ} (h : HoldsF s t xs)
    (ht : t.count = 0 ↔ xs = []) (x : ℚ) : HoldsF (s.onProbeF F x) (t.onProbe x) (xs ++ [x]) := by
  have hc : s.count = 0 ↔ t.count = 0 := by
    rw [ht, h.count]
    cases xs with
    | nil => simp
    | cons a l => simp only [List.length_cons, reduceCtorEq, iff_false]; norm_cast; omega
  have hl : (xs ++ [x]).length = xs.length + 1 := by simp
  have ha : absSum (xs ++ [x]) = absSum xs + |x| := by simp [absSum]
  have hq : sqSum (xs ++ [x]) = sqSum xs + x * x := by simp [sqSum]
  constructor
  · simp only [Summary.onProbeF, h.count, hl]; exact rnd_count F _
  · rw [hl, ha, List.sum_append, List.sum_singleton]
    exact (h.sum.add ((Apx.exact le_rfl).mono (Nat.zero_le _))).rnd F
  · rw [hl, hq]
    refine (h.sqr.add (Apx.mono (a := 1) ?_ (by omega))).rnd F
    exact (Apx.exact (by rw [abs_of_nonneg (mul_self_nonneg x)])).rnd F
  · simp only [Summary.onProbeF, Summary.onProbe, hc, h.min]
    by_cases h0 : t.count = 0
    · simp only [h0, if_true]
    · simp only [h0, if_false]; cases t.min <;> rfl
  · simp only [Summary.onProbeF, Summary.onProbe, hc, h.max]
    by_cases h0 : t.count = 0
    · simp only [h0, if_true]
    · simp only [h0, if_false]; cases t.max <;> rfl

theorem holdsF_run (F : Fp) (os : List (SOp ℚ)) :
    HoldsF (Summary.runF F os) (Summary.run os) (since os) := by
  induction os using List.reverseRecOn with
  | nil => exact holdsF_init _ rfl
  | append_singleton os o ih =>
    rw [runF_snoc, run_snoc]
    cases o with
    | probe x => rw [since_snoc_probe]; exact holdsF_probe F ih (count_ne (holds_run os)) x
    | reset => rw [since_snoc_reset]; exact holdsF_init _ rfl

theorem meanF_apx (F : Fp) {s : Summary ℚ} {t : Summary ℚ} {xs : List ℚ} (h : HoldsF s t xs) (hn : xs ≠ [])
    (hb : xs.length ≤ 2 ^ 53) :
    Apx (xs.length + 1) (absSum xs / xs.length) (F.rnd (s.sum / s.count)) (xs.sum / xs.length) := by
  have hp : (0 : ℚ) < xs.length := by exact_mod_cast List.length_pos_iff.2 hn
  rw [h.count, Nat.min_eq_left hb]
  exact (h.sum.div hp).rnd F

/-! ## C143 -/

/-- The least and the greatest sample are reported exactly, whatever the rounding. -/
theorem C143_min_max (F : Fp) (os : List (SOp ℚ)) :
    (∀ m, (Summary.runF F os).min = some m ↔ m ∈ since os ∧ ∀ x ∈ since os, m ≤ x) ∧
    ((Summary.runF F os).min = none ↔ since os = []) ∧
    (∀ m, (Summary.runF F os).max = some m ↔ m ∈ since os ∧ ∀ x ∈ since os, x ≤ m) ∧
    ((Summary.runF F os).max = none ↔ since os = []) := by
  have h := holdsF_run F os
  rw [h.min, h.max]
  exact ⟨(C69_min os).1, (C69_min os).2, (C69_max os).1, (C69_max os).2⟩

/-- The count is exact up to 2^53 samples and stays there: the claim that Count is the number of samples
holds for histories of up to 2^53 samples only. -/
theorem C143_count_partial (F : Fp) (os : List (SOp ℚ)) :
    (Summary.runF F os).count = if (since os).length ≤ 2 ^ 53 then ((since os).length : ℚ) else 2 ^ 53 := by
  rw [(holdsF_run F os).count]
  split
  · rename_i h; rw [Nat.min_eq_left h]
  · rename_i h; rw [Nat.min_eq_right (by omega)]; norm_cast

/-- The sum is within `(1 + 2^-53)^n - 1` of the sum of the magnitudes. -/
theorem C143_sum (F : Fp) (os : List (SOp ℚ)) :
    |(Summary.runF F os).sum - (since os).sum| ≤
      ((1 + 1 / 2 ^ 53) ^ (since os).length - 1) * ((since os).map fun x => |x|).sum :=
  (holdsF_run F os).sum.err

/-- The sum of squares, with one more rounding for the square itself. -/
theorem C143_sqrSum (F : Fp) (os : List (SOp ℚ)) :
    |(Summary.runF F os).sqrSum - ((since os).map fun x => x * x).sum| ≤
      ((1 + 1 / 2 ^ 53) ^ ((since os).length + 1) - 1) * ((since os).map fun x => x * x).sum :=
  (holdsF_run F os).sqr.err

/-- The mean is NaN without samples; with up to 2^53 it is within `(1 + 2^-53)^(n+1) - 1` times the mean
magnitude of the arithmetic mean. -/
theorem C143_mean_partial (F : Fp) (os : List (SOp ℚ)) (hb : (since os).length ≤ 2 ^ 53) :
    (since os = [] ∧ (Summary.runF F os).meanF F = none) ∨
    (since os ≠ [] ∧ ∃ m, (Summary.runF F os).meanF F = some m ∧
      |m - (since os).sum / (since os).length| ≤
        ((1 + 1 / 2 ^ 53) ^ ((since os).length + 1) - 1) *
          (((since os).map fun x => |x|).sum / (since os).length)) := by
  have h := holdsF_run F os
  by_cases hn : since os = []
  · left; refine ⟨hn, ?_⟩
    rw [hn] at h
    simp [Summary.meanF, h.count]
  · right
    have hp : 0 < (since os).length := List.length_pos_iff.2 hn
    refine ⟨hn, _, ?_, (meanF_apx F h hn hb).err⟩
    rw [Summary.meanF, if_neg]
    rw [h.count, Nat.min_eq_left hb]; norm_cast; omega

theorem devF_apx (F : Fp) {s t : Summary ℚ} {xs : List ℚ} (h : HoldsF s t xs) (hn : 2 ≤ xs.length)
    (hb : xs.length ≤ 2 ^ 53) : ∃ v, s.devF F = some v ∧
      Apx (2 * xs.length + 7) (4 * sqSum xs / ((xs.length : ℚ) - 1)) v
        ((xs.map fun x => (x - xs.sum / xs.length) * (x - xs.sum / xs.length)).sum / ((xs.length : ℚ) - 1)) := by
  have hne : xs ≠ [] := by rintro rfl; simp at hn
  have hp : (0 : ℚ) < xs.length := by exact_mod_cast List.length_pos_iff.2 hne
  have hn2 : (2 : ℚ) ≤ xs.length := by exact_mod_cast hn
  have hc : s.count = xs.length := by rw [h.count, Nat.min_eq_left hb]
  have hB := absSum_nonneg xs
  have hm := meanF_apx F h hne hb
  rw [Summary.devF, if_neg (by rw [hc]; linarith)]
  refine ⟨_, rfl, ?_⟩
  generalize F.rnd (s.sum / s.count) = m at hm ⊢
  -- the subexpressions
  have t1 : Apx (xs.length + 1) (2 * absSum xs) (F.rnd (-2 * s.sum)) (-2 * xs.sum) := by
    have := ((Apx.exact (M := 2) (y := -2) (by norm_num)).mul h.sum).rnd F
    simpa using this
  have t2 : Apx (xs.length + 2) (absSum xs) (F.rnd (s.count * m)) xs.sum := by
    rw [hc]
    have := ((Apx.exact (M := xs.length) (y := xs.length) (by rw [abs_of_pos hp])).mul hm).rnd F
    rw [mul_div_cancel₀ _ hp.ne', mul_div_cancel₀ _ hp.ne'] at this
    exact this.mono (by omega)
  have t3 := ((t1.mono (Nat.le_succ _)).add t2).rnd F
  have t4 := (t3.mul hm).rnd F
  have hM : (2 * absSum xs + absSum xs) * (absSum xs / xs.length) ≤ 3 * sqSum xs := by
    have := absSum_sq_le xs
    rw [show (2 * absSum xs + absSum xs) * (absSum xs / xs.length) = 3 * (absSum xs * absSum xs / xs.length) by ring]
    have : absSum xs * absSum xs / xs.length ≤ sqSum xs := by
      rw [div_le_iff₀ hp]; linarith
    linarith
  have t5 := ((h.sqr.mono (show xs.length + 1 ≤ xs.length + 1 + 1 + 1 + (xs.length + 1) + 1 by omega)).add
    (t4.grow hM)).rnd F
  have hi : F.rnd (s.count - 1) = (xs.length : ℚ) - 1 := by
    rw [hc]
    have := F.int ((xs.length : ℤ) - 1) (by rw [abs_of_nonneg (by omega)]; norm_num at hb; omega)
    push_cast at this; exact this
  have t6 := (t5.div (show (0 : ℚ) < xs.length - 1 by linarith)).rnd F
  rw [hi, sum_sq_dev]
  have e1 : sqSum xs + 3 * sqSum xs = 4 * sqSum xs := by ring
  have e2 : -2 * xs.sum + (xs.length : ℚ) * (xs.sum / xs.length) = -2 * xs.sum + xs.sum := by
    rw [mul_div_cancel₀ _ hp.ne']
  rw [e1] at t6
  rw [e2]
  exact t6.mono (by omega)

/-- The value under the root of Stddev.  It is NaN below two samples; with 2 to 2^53 samples it is within
`4 ((1 + 2^-53)^(2n+7) - 1) Σx² / (n - 1)` of the variance.  The error is relative to the squares of the
samples and not to the variance, so that nothing is said when the samples are large and close together; see
`C143_stddev_fails`. -/
theorem C143_variance_partial (F : Fp) (os : List (SOp ℚ)) (hb : (since os).length ≤ 2 ^ 53) :
    let xs := since os
    let n : ℚ := xs.length
    let mean := xs.sum / n
    (xs.length < 2 ∧ (Summary.runF F os).devF F = none) ∨
    (2 ≤ xs.length ∧ ∃ v, (Summary.runF F os).devF F = some v ∧
      |v - (xs.map fun x => (x - mean) * (x - mean)).sum / (n - 1)| ≤
        4 * ((1 + 1 / 2 ^ 53) ^ (2 * xs.length + 7) - 1) * (xs.map fun x => x * x).sum / (n - 1)) := by
  intro xs n mean
  have h := holdsF_run F os
  by_cases hn : xs.length < 2
  · left; refine ⟨hn, ?_⟩
    rw [Summary.devF, if_pos]
    rw [h.count, Nat.min_eq_left hb]; exact_mod_cast hn
  · right
    obtain ⟨v, hv, ha⟩ := devF_apx F h (by simpa using hn) hb
    refine ⟨by omega, v, hv, ha.err.trans (le_of_eq ?_)⟩
    simp only [gam, ulp, sqSum]; ring

/-- Stddev is a number whenever the spread of the samples is not tiny against their magnitude. -/
theorem C143_stddev_partial (F : Fp) (os : List (SOp ℚ)) (hn : 2 ≤ (since os).length)
    (hb : (since os).length ≤ 2 ^ 53)
    (hs : let xs := since os
      let mean := xs.sum / xs.length
      4 * ((1 + 1 / 2 ^ 53) ^ (2 * xs.length + 7) - 1) * (xs.map fun x => x * x).sum ≤
        (xs.map fun x => (x - mean) * (x - mean)).sum) :
    (Summary.runF F os).hasStddevF F := by
  rcases C143_variance_partial F os hb with ⟨h, _⟩ | ⟨_, v, hv, he⟩
  · omega
  · refine ⟨v, hv, ?_⟩
    have hn2 : (2 : ℚ) ≤ (since os).length := by exact_mod_cast hn
    have hd : (0 : ℚ) < (since os).length - 1 := by linarith
    have := div_le_div_of_nonneg_right hs hd.le
    have := (abs_le.1 he).1
    linarith

/-- The constant, for histories of up to 2^52 roundings. -/
theorem C143_constant (k : ℕ) (hk : k ≤ 2 ^ 52) : (1 + 1 / 2 ^ 53 : ℚ) ^ k - 1 ≤ k / 2 ^ 52 := by
  induction k with
  | zero => simp
  | succ k ih =>
    have hi := ih (by omega)
    have hk' : (k : ℚ) ≤ 2 ^ 52 := by exact_mod_cast (by omega : k ≤ 2 ^ 52)
    rw [pow_succ]
    push_cast
    have : (1 + 1 / 2 ^ 53 : ℚ) ^ k * (1 + 1 / 2 ^ 53) ≤ (1 + k / 2 ^ 52) * (1 + 1 / 2 ^ 53) :=
      mul_le_mul_of_nonneg_right (by linarith) (by norm_num)
    have h2 : (k : ℚ) / 2 ^ 52 * (1 / 2 ^ 53) ≤ 1 / 2 ^ 53 := by
      have : (k : ℚ) / 2 ^ 52 ≤ 1 := by rw [div_le_one (by norm_num)]; exact hk'
      have := mul_le_mul_of_nonneg_right this (show (0 : ℚ) ≤ 1 / 2 ^ 53 by norm_num)
      linarith
    have h3 : (1 + (k : ℚ) / 2 ^ 52) * (1 + 1 / 2 ^ 53) - 1 =
        k / 2 ^ 52 + 1 / 2 ^ 53 + k / 2 ^ 52 * (1 / 2 ^ 53) := by ring
    have h4 : ((k : ℚ) + 1) / 2 ^ 52 = k / 2 ^ 52 + 1 / 2 ^ 53 + 1 / 2 ^ 53 := by ring
    linarith

theorem int_sq (zs : List ℤ) : |zs.sum| ≤ (zs.map fun z => z * z).sum := by
  induction zs with
  | nil => simp
  | cons a t ih =>
    simp only [List.map_cons, List.sum_cons]
    have h1 := abs_add_le a t.sum
    have h2 : |a| ≤ a * a := by
      rw [← abs_mul_abs_self a]
      rcases Int.eq_ofNat_of_zero_le (abs_nonneg a) with ⟨k, hk⟩
      rw [hk]; exact_mod_cast Nat.le_mul_self k
    linarith

theorem sumsq_nonneg (zs : List ℤ) : 0 ≤ (zs.map fun z => z * z).sum := (abs_nonneg _).trans (int_sq zs)

theorem ints_run (F : Fp) (os : List (SOp ℚ)) : ∀ zs : List ℤ, since os = zs.map (fun z : ℤ => (z : ℚ)) →
    (zs.map fun z => z * z).sum ≤ 2 ^ 53 →
    (Summary.runF F os).sum = (zs.sum : ℤ) ∧ (Summary.runF F os).sqrSum = ((zs.map fun z => z * z).sum : ℤ) := by
  induction os using List.reverseRecOn with
  | nil =>
    intro zs h _
    have : zs = [] := by cases zs <;> simp_all [since]
    subst this
    simp [Summary.runF, Summary.init]
  | append_singleton os o ih =>
    intro zs h hb
    rw [runF_snoc]
    cases o with
    | reset =>
      rw [since_snoc_reset] at h
      have : zs = [] := by cases zs <;> simp_all
      subst this
      simp [Summary.stepF, Summary.init]
    | probe x =>
      rw [since_snoc_probe] at h
      rcases List.eq_nil_or_concat zs with rfl | ⟨ys, z, rfl⟩
      · simp at h
      · simp only [List.concat_eq_append, List.map_append, List.map_cons, List.map_nil] at h
        obtain ⟨h1, h2⟩ := List.append_inj' h rfl
        simp only [List.cons.injEq, and_true] at h2
        subst h2
        have habs := int_sq (ys.concat z)
        simp only [List.concat_eq_append, List.map_append, List.map_cons, List.map_nil, List.sum_append,
          List.sum_singleton] at hb habs ⊢
        have hys := sumsq_nonneg ys
        have hz := mul_self_nonneg z
        obtain ⟨i1, i2⟩ := ih ys h1 (by linarith)
        have r1 := F.int (z * z) (by rw [abs_of_nonneg hz]; linarith)
        have r2 := F.int ((ys.map fun z => z * z).sum + z * z) (by rw [abs_of_nonneg (by linarith)]; exact hb)
        have r3 := F.int (ys.sum + z) (habs.trans hb)
        simp only [Summary.stepF, Summary.onProbeF, i1, i2]
        push_cast at r1 r2 r3 ⊢
        exact ⟨r3, by rw [r1, r2]⟩

/-- Integer samples whose squares add up to no more than 2^53 are summed exactly, and the mean is the
correctly rounded arithmetic mean. -/
theorem C143_integers (F : Fp) (os : List (SOp ℚ)) (zs : List ℤ) (hz : since os = zs.map (fun z : ℤ => (z : ℚ)))
    (hb : (zs.map fun z => z * z).sum ≤ 2 ^ 53) (hl : zs.length ≤ 2 ^ 53) (hne : zs ≠ []) :
    (Summary.runF F os).sum = (since os).sum ∧
    (Summary.runF F os).sqrSum = ((since os).map fun x => x * x).sum ∧
    (Summary.runF F os).meanF F = some (F.rnd ((since os).sum / (since os).length)) := by
  obtain ⟨h1, h2⟩ := ints_run F os zs hz hb
  have e1 : ((zs.sum : ℤ) : ℚ) = (since os).sum := by
    rw [hz]; clear * -
    induction zs with
    | nil => simp
    | cons a t ih => simp only [List.map_cons, List.sum_cons]; push_cast; rw [ih]
  have e2 : (((zs.map fun z => z * z).sum : ℤ) : ℚ) = ((since os).map fun x => x * x).sum := by
    rw [hz]; clear * -
    induction zs with
    | nil => simp
    | cons a t ih => simp only [List.map_cons, List.sum_cons]; push_cast; rw [ih]
  have hlen : (since os).length = zs.length := by rw [hz]; simp
  have hc := (holdsF_run F os).count
  rw [hlen, Nat.min_eq_left hl] at hc
  refine ⟨by rw [h1, e1], by rw [h2, e2], ?_⟩
  have h0 : zs.length ≠ 0 := by simpa using hne
  rw [Summary.meanF, if_neg (by rw [hc]; exact_mod_cast h0), hc, h1, e1, hlen]

/-- A history of `n` equal samples. -/
def repeated (n : ℕ) (x : ℚ) : List (SOp ℚ) := List.replicate n (.probe x)

theorem since_repeated (n : ℕ) (x : ℚ) : since (repeated n x) = List.replicate n x := by
  induction n with
  | zero => rfl
  | succ n ih =>
    rw [repeated, List.replicate_succ', since_snoc_probe, List.replicate_succ']
    rw [← repeated, ih]

/-- Count is not the number of samples beyond 2^53 of them: the next ones leave it unchanged. -/
theorem C143_count_fails (F : Fp) : ∃ os : List (SOp ℚ),
    (Summary.runF F os).count ≠ (since os).length ∧
    (Summary.runF F (os ++ [.probe 1])).count = (Summary.runF F os).count := by
  refine ⟨repeated (2 ^ 53 + 1) 1, ?_, ?_⟩
  · rw [C143_count_partial, since_repeated, List.length_replicate, if_neg (by omega)]
    push_cast; norm_num
  · rw [C143_count_partial, C143_count_partial, since_snoc_probe, since_repeated, List.length_append,
      List.length_replicate, if_neg (by omega), if_neg (by omega)]

/-- The double nearest to 0.1. -/
def tenth : ℚ := 3602879701896397 / 36028797018963968

/-- Three samples of 0.1 have a standard deviation of 0; the value under the root is negative, and Stddev is
NaN although there are three samples. -/
theorem C143_equal_fails : ∃ v, (Summary.runF binary64 (repeated 3 tenth)).devF binary64 = some v ∧ v < 0 ∧
    ¬ (Summary.runF binary64 (repeated 3 tenth)).hasStddevF binary64 := by
  have h : ∃ v, (Summary.runF binary64 (repeated 3 tenth)).devF binary64 = some v ∧ v < 0 :=
    ⟨((Summary.runF binary64 (repeated 3 tenth)).devF binary64).getD 0, by decide +kernel⟩
  obtain ⟨v, hv, h0⟩ := h
  refine ⟨v, hv, h0, ?_⟩
  rintro ⟨w, hw, hw0⟩
  rw [hv] at hw; cases hw; linarith

/-- Samples 1000000004, 1000000007, 1000000013 and 1000000016 have a variance of 30; the value under the root
is below -170. -/
theorem C143_stddev_fails :
    let os : List (SOp ℚ) := [.probe 1000000004, .probe 1000000007, .probe 1000000013, .probe 1000000016]
    (Summary.run os).dev = some 30 ∧
    (∃ v, (Summary.runF binary64 os).devF binary64 = some v ∧ v < -170) ∧
    ¬ (Summary.runF binary64 os).hasStddevF binary64 := by
  intro os
  have h : ∃ v, (Summary.runF binary64 os).devF binary64 = some v ∧ v < -170 :=
    ⟨((Summary.runF binary64 os).devF binary64).getD 0, by decide +kernel⟩
  refine ⟨by decide +kernel, h, ?_⟩
  obtain ⟨v, hv, h0⟩ := h
  rintro ⟨w, hw, hw0⟩
  rw [hv] at hw; cases hw; linarith

/-- The order of the samples matters to the sum. -/
theorem C143_order_fails : ∃ os os' : List (SOp ℚ), (since os).Perm (since os') ∧
    (Summary.runF binary64 os).sum ≠ (Summary.runF binary64 os').sum :=
  ⟨[.probe (2 ^ 53), .probe 1, .probe (-2 ^ 53)], [.probe (2 ^ 53), .probe (-2 ^ 53), .probe 1],
    by decide +kernel, by decide +kernel⟩

/-! ### Instances -/

/-- The bounds apply to a history with a reset. -/
example : since (K := ℚ) [.probe 9, .reset, .probe 2, .probe (1 / 3), .probe 9] = [2, 1 / 3, 9] := by decide +kernel

/-- The rounding is not the identity: 1/3 is rounded, and so is its square. -/
example : near (1 / 3) = 6004799503160661 / 18014398509481984 ∧ near (1 / 9) ≠ 1 / 9 := by decide +kernel

/-- Samples 2, 4, 9 meet the hypotheses of `C143_stddev_partial`. -/
example : (Summary.runF binary64 [.probe 2, .probe 4, .probe 9]).hasStddevF binary64 := by
  apply C143_stddev_partial
  · decide
  · decide
  · decide +kernel

/-- Samples 2, 4, 9 meet the hypotheses of `C143_integers`. -/
example : (Summary.runF binary64 [.probe 2, .probe 4, .probe 9]).sqrSum = 101 := by
  have := (C143_integers binary64 [.probe 2, .probe 4, .probe 9] [2, 4, 9] (by decide +kernel) (by decide)
    (by decide) (by decide)).2.1
  rw [this]; decide +kernel

end Verif.Stat
