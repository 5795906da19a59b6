import Verif.Chrono.Split
set_option linter.unusedSimpArgs false
/-!
Properties C38 - C43 of durations and time points.

The reference is the exact rational number of seconds `seconds d`.  A supported resolution is
`10^-k` seconds (documented at /repo/chrono/duration.h 398-400); `k ≤ 18` is required only where the
compile-time constants must fit 64 bits.
-/
namespace Verif.Chrono

/-- The exact length in seconds. -/
def seconds (d : Dur) : ℚ := d.count * ((d.res.num : ℚ) / (d.res.den : ℚ))

/-- A duration of `c` periods of `10^-k` seconds. -/
abbrev dur (k : Nat) (c : Int) : Dur := ⟨deci k, c⟩

theorem seconds_dur (k : Nat) (c : Int) : seconds (dur k c) = (c : ℚ) / 10 ^ k := by
  simp [seconds, dur, deci, div_eq_mul_inv]

theorem p10 (k : Nat) : (0 : ℚ) < 10 ^ k := by positivity

theorem sec_lt (a b : Nat) (x y : Int) :
    seconds (dur a x) < seconds (dur b y) ↔ x * 10 ^ b < y * 10 ^ a := by
  rw [seconds_dur, seconds_dur, div_lt_div_iff₀ (p10 a) (p10 b)]
  exact_mod_cast Iff.rfl

theorem sec_le (a b : Nat) (x y : Int) :
    seconds (dur a x) ≤ seconds (dur b y) ↔ x * 10 ^ b ≤ y * 10 ^ a := by
  rw [seconds_dur, seconds_dur, div_le_div_iff₀ (p10 a) (p10 b)]
  exact_mod_cast Iff.rfl

theorem sec_eq (a b : Nat) (x y : Int) :
    seconds (dur a x) = seconds (dur b y) ↔ x * 10 ^ b = y * 10 ^ a := by
  rw [seconds_dur, seconds_dur, div_eq_div_iff (p10 a).ne' (p10 b).ne']
  exact_mod_cast Iff.rfl

theorem i10 (k : Nat) : (0 : Int) < 10 ^ k := by positivity

theorem split_pow {a b : Nat} (h : b ≤ a) : (10 : Int) ^ a = 10 ^ (a - b) * 10 ^ b := by
  rw [← pow_add]; congr 1; omega

theorem finer_lt {a b : Nat} (h : b ≤ a) (x y : Int) :
    x * 10 ^ b < y * 10 ^ a ↔ x < y * 10 ^ (a - b) := by
  rw [split_pow h, ← mul_assoc, mul_lt_mul_iff_left₀ (i10 b)]

theorem finer_le {a b : Nat} (h : b ≤ a) (x y : Int) :
    x * 10 ^ b ≤ y * 10 ^ a ↔ x ≤ y * 10 ^ (a - b) := by
  rw [split_pow h, ← mul_assoc, mul_le_mul_iff_left₀ (i10 b)]

theorem finer_eq {a b : Nat} (h : b ≤ a) (x y : Int) :
    x * 10 ^ b = y * 10 ^ a ↔ x = y * 10 ^ (a - b) := by
  rw [split_pow h, ← mul_assoc, mul_eq_mul_right_iff]
  exact or_iff_left (i10 b).ne'

/-! ### C38 -/

/-- C38, to a finer (or the same) unit: the conversion yields a value exactly when the exact result
is representable, and then it denotes the same length of time. -/
theorem C38_finer {a b : Nat} (h : a ≤ b) (c : Int) :
    (∀ r, (dur a c).convert (deci b) = some r → r.res = deci b ∧ seconds r = seconds (dur a c) ∧ I64 r.count) ∧
    (((dur a c).convert (deci b)).isSome ↔ ∃ n, I64 n ∧ seconds (dur b n) = seconds (dur a c)) := by
  have e : (dur a c).convert (deci b) = (ck (c * 10 ^ (b - a))).map (⟨deci b, ·⟩) := by
    simp only [Dur.convert, dur, convert_up h]
  have key : ∀ n, seconds (dur b n) = seconds (dur a c) ↔ n = c * 10 ^ (b - a) := by
    intro n; rw [sec_eq, finer_eq h]
  rw [e]
  constructor
  · intro r hr
    rw [Option.map_eq_some_iff] at hr
    obtain ⟨n, hn, rfl⟩ := hr
    rw [ck_eq_some] at hn
    exact ⟨rfl, (key n).mpr hn.2.symm, hn.2 ▸ hn.1⟩
  · rw [Option.isSome_map]
    constructor
    · intro hs
      obtain ⟨n, hn⟩ := Option.isSome_iff_exists.mp hs
      rw [ck_eq_some] at hn
      exact ⟨n, hn.2 ▸ hn.1, (key n).mpr hn.2.symm⟩
    · rintro ⟨n, hn, hs⟩
      rw [(key n).mp hs] at hn
      rw [ck_some hn]; rfl

/-- C38, to a coarser (or the same) unit: the conversion always succeeds and truncates toward zero:
the result is no longer than the source, differs by less than one unit, and keeps the sign. -/
theorem C38_coarser {a b : Nat} (h : b ≤ a) {c : Int} (hc : I64 c) :
    ∃ r, (dur a c).convert (deci b) = some r ∧ r.res = deci b ∧ I64 r.count ∧
      |seconds r| ≤ |seconds (dur a c)| ∧ |seconds (dur a c) - seconds r| < 1 / 10 ^ b ∧
      (0 ≤ c → 0 ≤ r.count) ∧ (c ≤ 0 → r.count ≤ 0) := by
  refine ⟨dur b (c.tdiv (10 ^ (a - b))), ?_, rfl, ?_, ?_⟩
  · simp only [Dur.convert, dur, convert_down h hc]; rfl
  · exact tdiv_I64 hc (i10 _)
  · obtain ⟨u, hu⟩ : ∃ u : Int, u = 10 ^ (a - b) := ⟨_, rfl⟩
    have hu0 : 0 < u := hu ▸ i10 _
    rw [← hu]
    have hpow : (10 : ℚ) ^ a = (u : ℚ) * 10 ^ b := by
      rw [hu]; exact_mod_cast split_pow h
    have huq : (0 : ℚ) < u := by exact_mod_cast hu0
    have hdm := Int.mul_tdiv_add_tmod c u
    have hlt : |c.tmod u| < u := by
      rw [abs_lt]
      constructor
      · have := Int.lt_tmod_of_pos c hu0; omega
      · exact Int.tmod_lt_of_pos c hu0
    have hsec : ∀ x : Int, seconds (dur b x) = (x * u : Int) / 10 ^ a := by
      intro x
      rw [seconds_dur, hpow]
      push_cast
      rw [mul_comm (u : ℚ), mul_div_mul_right _ _ huq.ne']
    have hq : u * c.tdiv u = c - c.tmod u := by omega
    refine ⟨?_, ?_, ?_, ?_⟩
    · rw [hsec, seconds_dur, abs_div, abs_div, div_le_div_iff_of_pos_right (by positivity)]
      rw [mul_comm, hq]
      have : |c - c.tmod u| ≤ |c| := by
        rcases Int.le_total 0 c with h0 | h0
        · have h1 := Int.tmod_nonneg u h0
          have h2 : c.tmod u ≤ c := by
            have := Int.mul_nonneg (Int.le_of_lt hu0) (Int.tdiv_nonneg h0 (Int.le_of_lt hu0)); omega
          rw [abs_of_nonneg (by omega), abs_of_nonneg h0]; omega
        · obtain ⟨n, rfl⟩ : ∃ n, c = -n := ⟨-c, by omega⟩
          have hn : 0 ≤ n := by omega
          rw [Int.neg_tmod]
          have h1 := Int.tmod_nonneg u hn
          have h2 : n.tmod u ≤ n := by
            have := Int.mul_nonneg (Int.le_of_lt hu0) (Int.tdiv_nonneg hn (Int.le_of_lt hu0))
            have := Int.mul_tdiv_add_tmod n u
            omega
          rw [abs_of_nonpos (by omega), abs_of_nonpos h0]; omega
      exact_mod_cast this
    · rw [hsec, seconds_dur, ← sub_div, abs_div, abs_of_pos (p10 a), div_lt_div_iff₀ (p10 a) (p10 b),
        one_mul, hpow, mul_lt_mul_iff_left₀ (p10 b), mul_comm, hq]
      have : (c : ℚ) - ((c - c.tmod u : Int) : ℚ) = ((c.tmod u : Int) : ℚ) := by push_cast; ring
      rw [this]
      exact_mod_cast hlt
    · intro h0
      show 0 ≤ c.tdiv u
      exact Int.tdiv_nonneg h0 (Int.le_of_lt hu0)
    · intro h0
      show c.tdiv u ≤ 0
      obtain ⟨n, rfl⟩ : ∃ n, c = -n := ⟨-c, by omega⟩
      rw [Int.neg_tdiv]
      have := Int.tdiv_nonneg (a := n) (b := u) (by omega) (Int.le_of_lt hu0)
      omega

/-- C38: converting to a finer unit and back is the identity. -/
theorem C38_round_trip {a b : Nat} (h : a ≤ b) {c : Int} {r : Dur}
    (hr : (dur a c).convert (deci b) = some r) :
    r.convert (deci a) = some (dur a c) := by
  have e : (dur a c).convert (deci b) = (ck (c * 10 ^ (b - a))).map (⟨deci b, ·⟩) := by
    simp only [Dur.convert, dur, convert_up h]
  rw [e, Option.map_eq_some_iff] at hr
  obtain ⟨n, hn, rfl⟩ := hr
  rw [ck_eq_some] at hn
  obtain ⟨h1, rfl⟩ := hn
  simp only [Dur.convert, convert_down h h1, Option.map_some]
  rw [Int.mul_tdiv_cancel _ (i10 _).ne']

/-- A case of C38: -1500 ms is truncated to -1 s; 3 s is 3000000000 ns; `INT64_MAX` seconds has no
representation in milliseconds. -/
example : (dur 3 (-1500)).convert (deci 0) = some (dur 0 (-1)) ∧
    (dur 0 3).convert (deci 9) = some (dur 9 3000000000) ∧
    (dur 0 i64Max).convert (deci 3) = none := by decide

/-- The `static_assert` of `Duration` (/repo/chrono/duration.h 419-421) also lets through
denominators that are multiples of ten but not powers of ten; for these the conversion is wrong: 2
periods of 1/20 s are converted to 6 periods of 1/30 s. -/
theorem C38_non_power_of_ten_fails :
    (⟨⟨1, 20⟩, 2⟩ : Dur).convert ⟨1, 30⟩ = some ⟨⟨1, 30⟩, 6⟩ ∧
    seconds ⟨⟨1, 30⟩, 6⟩ ≠ seconds ⟨⟨1, 20⟩, 2⟩ := by
  refine ⟨by decide, ?_⟩
  norm_num [seconds]

/-! ### C39 and C40 -/

/-- The coarser operand can be expressed in the finer unit. -/
def Fits (a b : Nat) (x y : Int) : Prop := I64 (x * 10 ^ (b - a)) ∧ I64 (y * 10 ^ (a - b))

instance (a b : Nat) (x y : Int) : Decidable (Fits a b x y) := by unfold Fits; infer_instance

theorem lf_guard {r u : Int} (hu : 0 < u) :
    (r > i64Max.tdiv u ↔ i64Max < r * u) ∧ (r < i64Min.tdiv u ↔ r * u < i64Min) := by
  constructor
  · rw [gt_iff_lt, ← not_le, le_max_tdiv hu, not_le]
  · rw [← not_le, min_tdiv_le hu, not_le]

theorem lessLF_eq {a b : Nat} (h : b ≤ a) {x : Int} (hx : I64 x) (y : Int) :
    lessLF (deci a) (deci b) x y =
      some (if I64 (y * 10 ^ (a - b)) then decide (x < y * 10 ^ (a - b))
        else !decide (x < y * 10 ^ (a - b))) := by
  unfold lessLF
  rw [deci_div h]
  push_cast
  obtain ⟨g1, g2⟩ := lf_guard (r := y) (i10 (a - b))
  simp only [g1, g2]
  obtain ⟨hx1, hx2⟩ := hx
  by_cases c1 : i64Max < y * 10 ^ (a - b)
  · rw [if_pos c1, if_neg (by rintro ⟨-, h2⟩; omega), decide_eq_true (by omega)]; rfl
  · rw [if_neg c1]
    by_cases c2 : y * 10 ^ (a - b) < i64Min
    · rw [if_pos c2, if_neg (by rintro ⟨h2, -⟩; omega), decide_eq_false (by omega)]; rfl
    · have hr : I64 (y * 10 ^ (a - b)) := ⟨by omega, by omega⟩
      rw [if_neg c2, if_pos hr, ck_some hr]; rfl

theorem lessEqualLF_eq {a b : Nat} (h : b ≤ a) {x : Int} (hx : I64 x) (y : Int) :
    lessEqualLF (deci a) (deci b) x y =
      some (if I64 (y * 10 ^ (a - b)) then decide (x ≤ y * 10 ^ (a - b))
        else !decide (x ≤ y * 10 ^ (a - b))) := by
  unfold lessEqualLF
  rw [deci_div h]
  push_cast
  obtain ⟨g1, g2⟩ := lf_guard (r := y) (i10 (a - b))
  simp only [g1, g2]
  obtain ⟨hx1, hx2⟩ := hx
  by_cases c1 : i64Max < y * 10 ^ (a - b)
  · rw [if_pos c1, if_neg (by rintro ⟨-, h2⟩; omega), decide_eq_true (by omega)]; rfl
  · rw [if_neg c1]
    by_cases c2 : y * 10 ^ (a - b) < i64Min
    · rw [if_pos c2, if_neg (by rintro ⟨h2, -⟩; omega), decide_eq_false (by omega)]; rfl
    · have hr : I64 (y * 10 ^ (a - b)) := ⟨by omega, by omega⟩
      rw [if_neg c2, if_pos hr, ck_some hr]; rfl

theorem equalLF_eq {a b : Nat} (h : b ≤ a) {x : Int} (hx : I64 x) (y : Int) :
    equalLF (deci a) (deci b) x y = some (decide (x = y * 10 ^ (a - b))) := by
  unfold equalLF
  rw [deci_div h]
  push_cast
  obtain ⟨g1, g2⟩ := lf_guard (r := y) (i10 (a - b))
  simp only [g1, g2]
  obtain ⟨hx1, hx2⟩ := hx
  by_cases c1 : i64Max < y * 10 ^ (a - b)
  · rw [if_pos c1, decide_eq_false (by omega)]
  · rw [if_neg c1]
    by_cases c2 : y * 10 ^ (a - b) < i64Min
    · rw [if_pos c2, decide_eq_false (by omega)]
    · rw [if_neg c2, ck_some ⟨by omega, by omega⟩]; rfl

theorem lt_full (a b : Nat) {x y : Int} (hx : I64 x) (hy : I64 y) :
    (dur a x).lt (dur b y) =
      some (if Fits a b x y then decide (seconds (dur a x) < seconds (dur b y))
        else !decide (seconds (dur a x) < seconds (dur b y))) := by
  have hs := sec_lt a b x y
  unfold Dur.lt
  simp only [dur, deci_eq, deci_lt] at *
  by_cases e : a = b
  · subst e
    have hf : Fits a a x y := by unfold Fits; simpa using ⟨hx, hy⟩
    rw [if_pos hf]
    simp only [decide_true, if_true, Option.some.injEq]
    refine decide_eq_decide.mpr ?_
    rw [hs, finer_lt (Nat.le_refl _)]; simp
  · simp only [e, decide_false, Bool.false_eq_true, if_false]
    by_cases l : b < a
    · simp only [l, decide_true, if_true]
      rw [lessLF_eq (by omega) hx]
      have hf : Fits a b x y ↔ I64 (y * 10 ^ (a - b)) := by
        unfold Fits; rw [show b - a = 0 by omega]; simp [hx]
      simp only [hs, finer_lt (Nat.le_of_lt l), hf]
    · simp only [l, decide_false, Bool.false_eq_true, if_false]
      rw [lessEqualLF_eq (by omega) hy]
      have hf : Fits a b x y ↔ I64 (x * 10 ^ (b - a)) := by
        unfold Fits; rw [show a - b = 0 by omega]; simp [hy]
      have hlt : x * 10 ^ b < y * 10 ^ a ↔ ¬ (y ≤ x * 10 ^ (b - a)) := by
        rw [← finer_le (by omega : a ≤ b), not_le]
      simp only [hs, hf, hlt, Option.map_some, decide_not, Bool.not_not, Option.some.injEq]
      split <;> simp

theorem le_full (a b : Nat) {x y : Int} (hx : I64 x) (hy : I64 y) :
    (dur a x).le (dur b y) =
      some (if Fits a b x y then decide (seconds (dur a x) ≤ seconds (dur b y))
        else !decide (seconds (dur a x) ≤ seconds (dur b y))) := by
  have hs := sec_le a b x y
  unfold Dur.le
  simp only [dur, deci_eq, deci_lt] at *
  by_cases e : a = b
  · subst e
    have hf : Fits a a x y := by unfold Fits; simpa using ⟨hx, hy⟩
    rw [if_pos hf]
    simp only [decide_true, if_true, Option.some.injEq]
    refine decide_eq_decide.mpr ?_
    rw [hs, finer_le (Nat.le_refl _)]; simp
  · simp only [e, decide_false, Bool.false_eq_true, if_false]
    by_cases l : b < a
    · simp only [l, decide_true, if_true]
      rw [lessEqualLF_eq (by omega) hx]
      have hf : Fits a b x y ↔ I64 (y * 10 ^ (a - b)) := by
        unfold Fits; rw [show b - a = 0 by omega]; simp [hx]
      simp only [hs, finer_le (Nat.le_of_lt l), hf]
    · simp only [l, decide_false, Bool.false_eq_true, if_false]
      rw [lessLF_eq (by omega) hy]
      have hf : Fits a b x y ↔ I64 (x * 10 ^ (b - a)) := by
        unfold Fits; rw [show a - b = 0 by omega]; simp [hy]
      have hlt : x * 10 ^ b ≤ y * 10 ^ a ↔ ¬ (y < x * 10 ^ (b - a)) := by
        rw [← finer_lt (by omega : a ≤ b), not_lt]
      simp only [hs, hf, hlt, Option.map_some, decide_not, Bool.not_not, Option.some.injEq]
      split <;> simp

/-- C39, the part that holds: when the coarser operand can be expressed in the finer unit, all four
comparisons compare the exact lengths.  Missing: the pairs for which it cannot; there the code
answers the opposite, see `C39_overflow_inverted` and `C39_fails`. -/
theorem C39_compare_partial (a b : Nat) {x y : Int} (hx : I64 x) (hy : I64 y) (h : Fits a b x y) :
    (dur a x).lt (dur b y) = some (decide (seconds (dur a x) < seconds (dur b y))) ∧
    (dur a x).le (dur b y) = some (decide (seconds (dur a x) ≤ seconds (dur b y))) ∧
    (dur a x).gt (dur b y) = some (decide (seconds (dur a x) > seconds (dur b y))) ∧
    (dur a x).ge (dur b y) = some (decide (seconds (dur a x) ≥ seconds (dur b y))) := by
  unfold Dur.gt Dur.ge
  rw [lt_full a b hx hy, le_full a b hx hy, if_pos h, if_pos h]
  refine ⟨rfl, rfl, ?_, ?_⟩
  · simp [← decide_not]
  · simp [← decide_not]

/-- C39 is false: for every pair of durations whose coarser operand cannot be expressed in the finer
unit, each of the four comparisons gives the opposite of the right answer. -/
theorem C39_overflow_inverted (a b : Nat) {x y : Int} (hx : I64 x) (hy : I64 y) (h : ¬ Fits a b x y) :
    (dur a x).lt (dur b y) = some (!decide (seconds (dur a x) < seconds (dur b y))) ∧
    (dur a x).le (dur b y) = some (!decide (seconds (dur a x) ≤ seconds (dur b y))) ∧
    (dur a x).gt (dur b y) = some (!decide (seconds (dur a x) > seconds (dur b y))) ∧
    (dur a x).ge (dur b y) = some (!decide (seconds (dur a x) ≥ seconds (dur b y))) := by
  unfold Dur.gt Dur.ge
  rw [lt_full a b hx hy, le_full a b hx hy, if_neg h, if_neg h]
  refine ⟨rfl, rfl, ?_, ?_⟩
  · simp [← decide_not]
  · simp [← decide_not]

/-- The witness: one nanosecond is not less than `INT64_MAX` seconds according to the code. -/
theorem C39_fails : (dur 9 1).lt (dur 0 i64Max) = some false ∧ (dur 9 1).gt (dur 0 i64Max) = some true ∧
    seconds (dur 9 1) < seconds (dur 0 i64Max) := by
  refine ⟨by decide, by decide, ?_⟩
  rw [sec_lt]; decide

/-- A case of `C39_compare_partial`: 1500 ms < 2 s. -/
example : Fits 3 0 1500 2 ∧ (dur 3 1500).lt (dur 0 2) = some true := by decide

/-- C40: equality is exact for all counts, also for those that cannot be expressed in the finer
unit. -/
theorem C40_equal (a b : Nat) {x y : Int} (hx : I64 x) (hy : I64 y) :
    (dur a x).eq (dur b y) = some (decide (seconds (dur a x) = seconds (dur b y))) ∧
    (dur a x).ne (dur b y) = some (decide (seconds (dur a x) ≠ seconds (dur b y))) := by
  have hs := sec_eq a b x y
  have main : (dur a x).eq (dur b y) = some (decide (seconds (dur a x) = seconds (dur b y))) := by
    unfold Dur.eq
    simp only [dur, deci_eq, deci_lt] at *
    by_cases e : a = b
    · subst e
      simp only [decide_true, if_true, Option.some.injEq]
      refine decide_eq_decide.mpr ?_
      rw [hs, finer_eq (Nat.le_refl _)]; simp
    · simp only [e, decide_false, Bool.false_eq_true, if_false]
      by_cases l : b < a
      · simp only [l, decide_true, if_true]
        rw [equalLF_eq (by omega) hx]
        simp only [hs, finer_eq (Nat.le_of_lt l)]
      · simp only [l, decide_false, Bool.false_eq_true, if_false]
        rw [equalLF_eq (by omega) hy]
        have : x * 10 ^ b = y * 10 ^ a ↔ y = x * 10 ^ (b - a) := by
          rw [← finer_eq (by omega : a ≤ b), eq_comm]
        simp only [hs, this]
  refine ⟨main, ?_⟩
  rw [Dur.ne, main]
  simp

/-- A case of C40 that takes the overflow branch. -/
example : (dur 9 1).eq (dur 0 i64Max) = some false ∧ (dur 3 2000).eq (dur 0 2) = some true := by decide

/-! ### C41 -/

/-- C41: for every count except the minimum, `Split` succeeds without overflow, reports the sign, and
yields parts in their natural ranges (`h < 24`, `m`, `s < 60`, sub-second parts `< 1000`) that add up to
exactly the absolute value (`GoodParts` compares them in yoctoseconds). -/
theorem C41_split (k : Nat) (hk : k ≤ 18) {c : Int} (hc : I64 c) (hmin : c ≠ i64Min) :
    ∃ xs, (dur k c).split = some (decide (c < 0), xs) ∧ GoodParts k |c| xs := by
  obtain ⟨h1, h2⟩ := hc
  unfold i64Min at h1 hmin; unfold i64Max at h2
  have h0 : 0 ≤ |c| := abs_nonneg c
  have hm : |c| ≤ i64Max := by
    unfold i64Max; rw [abs_le]; omega
  obtain ⟨xs, hxs, hg⟩ := splitLoop_good k hk |c| h0 hm
  refine ⟨xs, ?_, hg⟩
  unfold Dur.split
  simp only [dur]
  by_cases hn : c < 0
  · rw [abs_of_neg hn] at hxs hm
    have : ck (-c) = some (-c) := ck_some ⟨by unfold i64Min; omega, hm⟩
    simp [hn, this, hxs]
  · rw [abs_of_nonneg (by omega)] at hxs
    simp [hn, hxs]

/-- The minimum is excluded for a reason: its negation overflows. -/
theorem C41_min_overflows (k : Nat) : (dur k i64Min).split = none := by
  have h : i64Min < 0 := by decide
  have : ck (-i64Min) = none := by decide
  simp [Dur.split, h, this]

/-- A case of C41: 1 day 2:03:04.005, negative, in milliseconds. -/
example : (dur 3 (-93784005)).split = some (true, [1, 2, 3, 4, 5, 0, 0, 0, 0, 0, 0, 0]) := by decide

/-! ### C42 -/

theorem common_deci (a b : Nat) : common (deci a) (deci b) = deci (max a b) := by
  unfold common
  rw [deci_lt]
  by_cases h : a < b
  · simp [h, Nat.max_eq_right (Nat.le_of_lt h)]
  · simp [h, Nat.max_eq_left (by omega : b ≤ a)]

theorem sec_max (a m : Nat) (h : a ≤ m) (x : Int) :
    seconds (dur a x) = seconds (dur m (x * 10 ^ (m - a))) := by
  rw [sec_eq, split_pow h]; ring

/-- C42: the sum and the difference are expressed in the finer of the two units and denote the exact
sum and difference; they are defined exactly when both operands and the result are representable in
the finer unit. -/
theorem C42_add_sub (a b : Nat) (x y : Int) :
    (∀ r, (dur a x).add (dur b y) = some r →
      r.res = deci (max a b) ∧ I64 r.count ∧ seconds r = seconds (dur a x) + seconds (dur b y)) ∧
    (((dur a x).add (dur b y)).isSome ↔
      Fits a b x y ∧ ∃ n, I64 n ∧ seconds (dur (max a b) n) = seconds (dur a x) + seconds (dur b y)) ∧
    (∀ r, (dur a x).sub (dur b y) = some r →
      r.res = deci (max a b) ∧ I64 r.count ∧ seconds r = seconds (dur a x) - seconds (dur b y)) ∧
    (((dur a x).sub (dur b y)).isSome ↔
      Fits a b x y ∧ ∃ n, I64 n ∧ seconds (dur (max a b) n) = seconds (dur a x) - seconds (dur b y)) := by
  have ha : max a b - a = b - a := by omega
  have hb : max a b - b = a - b := by omega
  obtain ⟨X, hX⟩ : ∃ X, X = x * 10 ^ (b - a) := ⟨_, rfl⟩
  obtain ⟨Y, hY⟩ : ∃ Y, Y = y * 10 ^ (a - b) := ⟨_, rfl⟩
  have sx : seconds (dur a x) = seconds (dur (max a b) X) := by
    rw [sec_max a (max a b) (by omega), ha, hX]
  have sy : seconds (dur b y) = seconds (dur (max a b) Y) := by
    rw [sec_max b (max a b) (by omega), hb, hY]
  have hadd : seconds (dur a x) + seconds (dur b y) = seconds (dur (max a b) (X + Y)) := by
    rw [sx, sy, seconds_dur, seconds_dur, seconds_dur]; push_cast; ring
  have hsub : seconds (dur a x) - seconds (dur b y) = seconds (dur (max a b) (X - Y)) := by
    rw [sx, sy, seconds_dur, seconds_dur, seconds_dur]; push_cast; ring
  have inj : ∀ m n k, seconds (dur k m) = seconds (dur k n) → m = n := by
    intro m n k h; rw [sec_eq, finer_eq (Nat.le_refl _)] at h; simpa using h
  have gen : ∀ (g : Int → Int → Int) (T : ℚ), T = seconds (dur (max a b) (g X Y)) →
      (∀ r, (dur a x).binop (fun u v => ck (g u v)) (dur b y) = some r →
        r.res = deci (max a b) ∧ I64 r.count ∧ seconds r = T) ∧
      (((dur a x).binop (fun u v => ck (g u v)) (dur b y)).isSome ↔
        Fits a b x y ∧ ∃ n, I64 n ∧ seconds (dur (max a b) n) = T) := by
    intro g T hT
    have e : (dur a x).binop (fun u v => ck (g u v)) (dur b y) =
        if Fits a b x y then (ck (g X Y)).map (⟨deci (max a b), ·⟩) else none := by
      have hfit : Fits a b x y ↔ I64 X ∧ I64 Y := by rw [hX, hY]; rfl
      unfold Dur.binop
      simp only [common_deci]
      rw [convert_up (by omega : a ≤ max a b), convert_up (by omega : b ≤ max a b), ha, hb,
        ← hX, ← hY]
      by_cases h1 : I64 X
      · by_cases h2 : I64 Y
        · rw [if_pos (hfit.mpr ⟨h1, h2⟩), ck_some h1, ck_some h2]
        · rw [if_neg (fun h => h2 (hfit.mp h).2), ck_none h2]; cases ck X <;> rfl
      · rw [if_neg (fun h => h1 (hfit.mp h).1), ck_none h1]
    rw [e]
    by_cases hf : Fits a b x y
    · rw [if_pos hf]
      constructor
      · intro r hr
        rw [Option.map_eq_some_iff] at hr
        obtain ⟨n, hn, rfl⟩ := hr
        rw [ck_eq_some] at hn
        exact ⟨rfl, hn.2 ▸ hn.1, by rw [hT, hn.2]⟩
      · rw [Option.isSome_map]
        constructor
        · intro hs
          obtain ⟨n, hn⟩ := Option.isSome_iff_exists.mp hs
          rw [ck_eq_some] at hn
          exact ⟨hf, n, hn.2 ▸ hn.1, by rw [hT, hn.2]⟩
        · rintro ⟨-, n, hn, hs⟩
          rw [hT] at hs
          rw [inj _ _ _ hs] at hn
          rw [ck_some hn]; rfl
    · rw [if_neg hf]
      exact ⟨fun r h => by simp at h, ⟨fun h => by simp at h, fun h => absurd h.1 hf⟩⟩
  have h1 := gen (· + ·) _ hadd
  have h2 := gen (· - ·) _ hsub
  exact ⟨h1.1, h1.2, h2.1, h2.2⟩

/-- A case of C42: 2 s + 30 ms. -/
example : (dur 0 2).add (dur 3 30) = some (dur 3 2030) ∧ Fits 0 3 2 30 := by decide

/-! ### C43 -/

theorem tenthNano_eq : tenthNano = deci 10 := by decide

theorem tp_conv {x : Int} (h : I64 x) : convertCount tenthNano tenthNano x = some x := by
  rw [tenthNano_eq, convert_up (Nat.le_refl _)]; simp [ck_some h]

theorem tp_common : common tenthNano tenthNano = tenthNano := by decide

/-- A duration in the unit of the clock. -/
def ticks (n : Int) : Dur := ⟨tenthNano, n⟩

theorem ticks_conv {n : Int} (h : I64 n) : (ticks n).convert tenthNano = some (ticks n) := by
  simp only [Dur.convert, ticks, tp_conv h, Option.map_some]

theorem ticks_binop (f : Int → Int → Option Int) {m n : Int} (hm : I64 m) (hn : I64 n) :
    (ticks m).binop f (ticks n) = (f m n).map ticks := by
  unfold Dur.binop ticks
  simp only [tp_common, tp_conv hm, tp_conv hn]

theorem map_ticks (o : Option Int) :
    ((o.map ticks).bind fun r => some (TP.mk r.count)) = o.map TP.mk := by
  cases o with
  | none => rfl
  | some r => simp only [Option.map_some, Option.bind_some, ticks]

theorem tp_add {t : TP} {n : Int} (ht : I64 t.dt) (hn : I64 n) :
    t.add (ticks n) = (ck (t.dt + n)).map TP.mk := by
  have e : t.getDuration = ticks t.dt := rfl
  have e1 : t.add (ticks n) = ((ticks n).convert tenthNano).bind fun d' =>
      (t.getDuration.add d').bind fun r => some (TP.mk r.count) := rfl
  rw [e1, ticks_conv hn, Option.bind_some, e, Dur.add, ticks_binop _ ht hn]
  exact map_ticks _

theorem tp_sub {t u : TP} (ht : I64 t.dt) (hu : I64 u.dt) :
    t.sub u = (ck (t.dt - u.dt)).map ticks := by
  have e : t.getDuration = ticks t.dt := rfl
  have e' : u.getDuration = ticks u.dt := rfl
  simp only [TP.sub, e, e', Dur.sub, ticks_binop _ ht hu]

theorem tp_subD {t : TP} {n : Int} (ht : I64 t.dt) (hn : I64 n) :
    t.subD (ticks n) = (ck (t.dt - n)).map TP.mk := by
  have e : t.getDuration = ticks t.dt := rfl
  have e1 : t.subD (ticks n) = ((ticks n).convert tenthNano).bind fun d' =>
      (t.getDuration.sub d').bind fun r => some (TP.mk r.count) := rfl
  rw [e1, ticks_conv hn, Option.bind_some, e, Dur.sub, ticks_binop _ ht hn]
  exact map_ticks _

/-- C43: `(t+d)-t = d`, `(t+d)-d = t`, and `t+(u-t) = u`, whenever the inner operation does not
overflow. -/
theorem C43_affine {t u : TP} {n : Int} (ht : I64 t.dt) (hu : I64 u.dt) (hn : I64 n) :
    (∀ r, t.add (ticks n) = some r → r.sub t = some (ticks n) ∧ r.subD (ticks n) = some t) ∧
    (∀ d, u.sub t = some d → t.add d = some u) := by
  constructor
  · intro r hr
    rw [tp_add ht hn, Option.map_eq_some_iff] at hr
    obtain ⟨m, hm, rfl⟩ := hr
    rw [ck_eq_some] at hm
    obtain ⟨h1, rfl⟩ := hm
    constructor
    · rw [tp_sub (t := ⟨t.dt + n⟩) h1 ht]
      simp only
      rw [show t.dt + n - t.dt = n by omega, ck_some hn]; rfl
    · rw [tp_subD (t := ⟨t.dt + n⟩) h1 hn]
      simp only
      rw [show t.dt + n - n = t.dt by omega, ck_some ht]; rfl
  · intro d hd
    rw [tp_sub hu ht, Option.map_eq_some_iff] at hd
    obtain ⟨m, hm, rfl⟩ := hd
    rw [ck_eq_some] at hm
    obtain ⟨h1, rfl⟩ := hm
    rw [tp_add ht h1, show t.dt + (u.dt - t.dt) = u.dt by omega, ck_some hu]; rfl

/-- C43: `(t+d)+e = t+(d+e)` whenever neither side overflows. -/
theorem C43_assoc {t : TP} {d e : Int} (ht : I64 t.dt) (hd : I64 d) (he : I64 e) {a b : TP} {f : Dur}
    (h1 : t.add (ticks d) = some a) (h2 : a.add (ticks e) = some b)
    (h3 : (ticks d).add (ticks e) = some f) : t.add f = some b := by
  have hf : (ticks d).add (ticks e) = (ck (d + e)).map ticks := by
    simp only [Dur.add, ticks_binop _ hd he]
  rw [tp_add ht hd, Option.map_eq_some_iff] at h1
  obtain ⟨m, hm, rfl⟩ := h1
  rw [ck_eq_some] at hm
  obtain ⟨k1, rfl⟩ := hm
  rw [tp_add (t := ⟨t.dt + d⟩) k1 he, Option.map_eq_some_iff] at h2
  obtain ⟨m, hm, rfl⟩ := h2
  rw [ck_eq_some] at hm
  obtain ⟨k2, rfl⟩ := hm
  rw [hf, Option.map_eq_some_iff] at h3
  obtain ⟨m, hm, rfl⟩ := h3
  rw [ck_eq_some] at hm
  obtain ⟨k3, rfl⟩ := hm
  simp only at k2 ⊢
  rw [tp_add ht k3, show t.dt + (d + e) = t.dt + d + e by omega, ck_some k2]; rfl

/-- C43: time points are ordered as their exact distances from the epoch. -/
theorem C43_order (t u : TP) :
    t.lt u = some (decide (seconds t.getDuration < seconds u.getDuration)) ∧
    t.le u = some (decide (seconds t.getDuration ≤ seconds u.getDuration)) ∧
    t.eq u = some (decide (seconds t.getDuration = seconds u.getDuration)) := by
  have he : tenthNano.eq tenthNano = true := by decide
  have h1 := sec_lt 10 10 t.dt u.dt
  have h2 := sec_le 10 10 t.dt u.dt
  have h3 := sec_eq 10 10 t.dt u.dt
  rw [finer_lt (Nat.le_refl _)] at h1
  rw [finer_le (Nat.le_refl _)] at h2
  rw [finer_eq (Nat.le_refl _)] at h3
  simp only [dur, ← tenthNano_eq, Nat.sub_self, pow_zero, mul_one] at h1 h2 h3
  refine ⟨?_, ?_, ?_⟩
  · simp only [TP.lt, Dur.lt, TP.getDuration, he, if_true]
    exact congrArg some (decide_eq_decide.mpr h1.symm)
  · simp only [TP.le, Dur.le, TP.getDuration, he, if_true]
    exact congrArg some (decide_eq_decide.mpr h2.symm)
  · simp only [TP.eq, Dur.eq, TP.getDuration, he, if_true]
    exact congrArg some (decide_eq_decide.mpr h3.symm)

/-- A case of C43; the second line adds 3 seconds, converted implicitly. -/
example : (TP.mk 5).add (ticks 7) = some ⟨12⟩ ∧ (TP.mk 12).sub ⟨5⟩ = some (ticks 7) ∧
    (TP.mk 5).add (dur 0 3) = some ⟨30000000005⟩ := by decide

end Verif.Chrono
