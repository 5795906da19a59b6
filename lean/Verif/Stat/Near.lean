import Verif.Stat.Float

/-! Rounding to nearest is odd, monotone, and exact on numbers with a significand of 53 bits. -/
namespace Verif.Stat

theorem rhe_spec (x : ℚ) : |(rhe x : ℚ) - x| = 1 / 2 → 2 ∣ rhe x := by
  have h1 : (x.floor : ℚ) ≤ x := Rat.floor_le x
  have h2 : x < x.floor + 1 := by
    have := Rat.lt_floor (x := x); linarith
  simp only [rhe]
  split
  · rename_i h
    intro e
    rw [abs_of_nonpos (by linarith)] at e; linarith
  · split
    · rename_i h
      intro e
      push_cast at e
      rw [abs_of_nonneg (by linarith)] at e; linarith
    · split
      · intro _; omega
      · intro _; omega

theorem rhe_unique (x : ℚ) (n m : ℤ) (hn : |(n : ℚ) - x| ≤ 1 / 2) (hm : |(m : ℚ) - x| ≤ 1 / 2)
    (en : |(n : ℚ) - x| = 1 / 2 → 2 ∣ n) (em : |(m : ℚ) - x| = 1 / 2 → 2 ∣ m) : n = m := by
  rw [abs_le] at hn hm
  by_contra hne
  rcases lt_or_gt_of_ne hne with h | h
  · have hz : n + 1 ≤ m := h
    have h' : (n : ℚ) + 1 ≤ m := by exact_mod_cast hz
    have e1 : (n : ℚ) - x = -(1 / 2) := by linarith [hn.1, hm.2]
    have e2 : (m : ℚ) - x = 1 / 2 := by linarith [hn.1, hm.2]
    have d1 := en (by rw [e1]; norm_num [abs_of_nonneg])
    have d2 := em (by rw [e2]; norm_num [abs_of_nonneg])
    have : (m : ℚ) = n + 1 := by linarith
    have : m = n + 1 := by exact_mod_cast this
    omega
  · have hz : m + 1 ≤ n := h
    have h' : (m : ℚ) + 1 ≤ n := by exact_mod_cast hz
    have e1 : (m : ℚ) - x = -(1 / 2) := by linarith [hm.1, hn.2]
    have e2 : (n : ℚ) - x = 1 / 2 := by linarith [hm.1, hn.2]
    have d1 := em (by rw [e1]; norm_num [abs_of_nonneg])
    have d2 := en (by rw [e2]; norm_num [abs_of_nonneg])
    have : (n : ℚ) = m + 1 := by linarith
    have : n = m + 1 := by exact_mod_cast this
    omega

theorem rhe_neg (x : ℚ) : rhe (-x) = -rhe x := by
  have flip : |((-rhe x : ℤ) : ℚ) - -x| = |(rhe x : ℚ) - x| := by
    push_cast; rw [← abs_neg]; congr 1; ring
  refine rhe_unique (-x) _ _ (rhe_close _) (by rw [flip]; exact rhe_close x) (rhe_spec _) ?_
  rw [flip]
  intro h
  exact (Int.dvd_neg).mpr (rhe_spec x h)

theorem rhe_mono {x y : ℚ} (h : x ≤ y) : rhe x ≤ rhe y := by
  by_contra hc
  have hz : rhe y + 1 ≤ rhe x := by omega
  have h' : (rhe y : ℚ) + 1 ≤ rhe x := by exact_mod_cast hz
  have a := abs_le.mp (rhe_close x)
  have b := abs_le.mp (rhe_close y)
  have : x = y := by linarith [a.1, a.2, b.1, b.2]
  subst this
  omega

theorem expo_unique {x : ℚ} {e : ℤ} (h1 : (2 : ℚ) ^ e ≤ |x|) (h2 : |x| < (2 : ℚ) ^ (e + 1)) : expo x = e := by
  have hx : x ≠ 0 := by
    rintro rfl
    rw [abs_zero] at h1
    exact absurd h1 (not_le.mpr (zpow_pos (by norm_num) _))
  obtain ⟨k1, k2⟩ := expo_spec hx
  have a := (zpow_lt_zpow_iff_right₀ (show (1 : ℚ) < 2 by norm_num)).1 (lt_of_le_of_lt k1 h2)
  have b := (zpow_lt_zpow_iff_right₀ (show (1 : ℚ) < 2 by norm_num)).1 (lt_of_le_of_lt h1 k2)
  omega

theorem expo_neg (x : ℚ) : expo (-x) = expo x := by
  simp only [expo, abs_neg, Rat.neg_num, Rat.neg_den, Int.natAbs_neg]

theorem expo_scale {x : ℚ} (hx : x ≠ 0) (g : ℤ) : expo (x * 2 ^ g) = expo x + g := by
  obtain ⟨k1, k2⟩ := expo_spec hx
  have hp : (0 : ℚ) < 2 ^ g := zpow_pos (by norm_num) _
  apply expo_unique
  · rw [abs_mul, abs_of_pos hp, zpow_add₀ (by norm_num)]
    exact mul_le_mul_of_nonneg_right k1 hp.le
  · rw [abs_mul, abs_of_pos hp, show expo x + g + 1 = (expo x + 1) + g by ring, zpow_add₀ (by norm_num)]
    exact mul_lt_mul_of_pos_right k2 hp

theorem near_neg (x : ℚ) : near (-x) = -near x := by
  by_cases hx : x = 0
  · simp [near, hx]
  · simp only [near, hx, neg_eq_zero, if_false, expo_neg, neg_div, rhe_neg]
    push_cast; ring

theorem near_scale (x : ℚ) (g : ℤ) : near (x * 2 ^ g) = near x * 2 ^ g := by
  by_cases hx : x = 0
  · simp [near, hx]
  · have hp : (2 : ℚ) ^ g ≠ 0 := (zpow_pos (by norm_num) _).ne'
    have hq : (2 : ℚ) ^ (expo x - 52) ≠ 0 := (zpow_pos (by norm_num) _).ne'
    simp only [near, mul_eq_zero, hx, hp, or_self, if_false, pow2_eq]
    rw [expo_scale hx, show expo x + g - 52 = (expo x - 52) + g by ring, zpow_add₀ (by norm_num : (2 : ℚ) ≠ 0),
      mul_div_mul_right _ _ hp, mul_assoc]

/-- Numbers with a significand of at most 53 bits are rounded to themselves. -/
theorem near_exact (k : ℤ) (hk : |k| ≤ 2 ^ 53) (g : ℤ) : near ((k : ℚ) * 2 ^ g) = (k : ℚ) * 2 ^ g := by
  rw [near_scale, near_int k hk]

theorem near_le {x : ℚ} (hx : 0 < x) : near x ≤ 2 ^ (expo x + 1) := by
  obtain ⟨_, k2⟩ := expo_spec hx.ne'
  rw [abs_of_pos hx] at k2
  have hp : (0 : ℚ) < 2 ^ (expo x - 52) := zpow_pos (by norm_num) _
  simp only [near, hx.ne', if_false, pow2_eq]
  have e : (2 : ℚ) ^ (expo x + 1) = ((2 ^ 53 : ℤ) : ℚ) * 2 ^ (expo x - 52) := by
    rw [show expo x + 1 = 53 + (expo x - 52) by ring, zpow_add₀ (by norm_num)]; norm_num
  rw [e]
  refine mul_le_mul_of_nonneg_right ?_ hp.le
  have : x / 2 ^ (expo x - 52) ≤ ((2 ^ 53 : ℤ) : ℚ) := by
    rw [div_le_iff₀ hp, ← e]; exact k2.le
  have := rhe_mono this
  rw [rhe_int] at this
  exact_mod_cast this

theorem le_near {x : ℚ} (hx : 0 < x) : 2 ^ expo x ≤ near x := by
  obtain ⟨k1, _⟩ := expo_spec hx.ne'
  rw [abs_of_pos hx] at k1
  have hp : (0 : ℚ) < 2 ^ (expo x - 52) := zpow_pos (by norm_num) _
  simp only [near, hx.ne', if_false, pow2_eq]
  have e : (2 : ℚ) ^ expo x = ((2 ^ 52 : ℤ) : ℚ) * 2 ^ (expo x - 52) := by
    rw [show expo x = 52 + (expo x - 52) by ring, zpow_add₀ (by norm_num)]; norm_num
  rw [e]
  refine mul_le_mul_of_nonneg_right ?_ hp.le
  have : ((2 ^ 52 : ℤ) : ℚ) ≤ x / 2 ^ (expo x - 52) := by
    rw [le_div_iff₀ hp, ← e]; exact k1
  have := rhe_mono this
  rw [rhe_int] at this
  exact_mod_cast this

theorem near_mono_pos {x y : ℚ} (hx : 0 < x) (h : x ≤ y) : near x ≤ near y := by
  have hy : 0 < y := lt_of_lt_of_le hx h
  obtain ⟨a1, a2⟩ := expo_spec hx.ne'
  obtain ⟨b1, b2⟩ := expo_spec hy.ne'
  rw [abs_of_pos hx] at a1 a2
  rw [abs_of_pos hy] at b1 b2
  have le : expo x < expo y + 1 := (zpow_lt_zpow_iff_right₀ (show (1 : ℚ) < 2 by norm_num)).1 (lt_of_le_of_lt (a1.trans h) b2)
  rcases lt_or_eq_of_le (show expo x ≤ expo y by omega) with c | c
  · exact (near_le hx).trans ((zpow_le_zpow_right₀ (by norm_num) (by omega)).trans (le_near hy))
  · have hp : (0 : ℚ) < 2 ^ (expo y - 52) := zpow_pos (by norm_num) _
    simp only [near, hx.ne', hy.ne', if_false, pow2_eq, c]
    refine mul_le_mul_of_nonneg_right ?_ hp.le
    exact_mod_cast rhe_mono (div_le_div_of_nonneg_right h hp.le)

theorem near_nonneg {x : ℚ} (hx : 0 ≤ x) : 0 ≤ near x := by
  rcases eq_or_lt_of_le hx with h | h
  · simp [near, ← h]
  · exact (zpow_pos (by norm_num) _).le.trans (le_near h)

theorem near_mono {x y : ℚ} (h : x ≤ y) : near x ≤ near y := by
  rcases lt_trichotomy x 0 with hx | hx | hx
  · rcases lt_or_ge y 0 with hy | hy
    · have := near_mono_pos (x := -y) (y := -x) (by linarith) (by linarith)
      rw [near_neg, near_neg] at this; linarith
    · have := near_nonneg (x := -x) (by linarith)
      rw [near_neg] at this
      linarith [near_nonneg hy]
  · subst hx
    rw [show near 0 = 0 by simp [near]]
    exact near_nonneg h
  · exact near_mono_pos hx h

end Verif.Stat
