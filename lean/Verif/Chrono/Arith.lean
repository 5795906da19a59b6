import Verif.Chrono.Props
import Verif.Chrono.ArithModel
set_option linter.unusedSimpArgs false
/-!
Properties C43 (durations of any unit) and C100: multiplication, division, remainder, negation and
compound assignment of durations.
-/
namespace Verif.Chrono

theorem binop_eq (f : Int → Int → Option Int) (a b : Nat) (x y : Int) :
    (dur a x).binop f (dur b y) =
      if Fits a b x y then (f (x * 10 ^ (b - a)) (y * 10 ^ (a - b))).map (⟨deci (max a b), ·⟩)
      else none := by
  have ha : max a b - a = b - a := by omega
  have hb : max a b - b = a - b := by omega
  unfold Dur.binop
  simp only [common_deci]
  rw [convert_up (by omega : a ≤ max a b), convert_up (by omega : b ≤ max a b), ha, hb]
  by_cases h1 : I64 (x * 10 ^ (b - a))
  · by_cases h2 : I64 (y * 10 ^ (a - b))
    · rw [if_pos ⟨h1, h2⟩, ck_some h1, ck_some h2]
    · rw [if_neg (fun h => h2 h.2), ck_none h2]; cases ck (x * 10 ^ (b - a)) <;> rfl
  · rw [if_neg (fun h => h1 h.1), ck_none h1]

theorem sec_inj {k : Nat} {m n : Int} : seconds (dur k m) = seconds (dur k n) ↔ m = n := by
  rw [sec_eq, finer_eq (Nat.le_refl _)]; simp

theorem sec_abs_lt {k : Nat} {m n : Int} : |seconds (dur k m)| < |seconds (dur k n)| ↔ |m| < |n| := by
  rw [seconds_dur, seconds_dur, abs_div, abs_div, abs_of_pos (p10 k), div_lt_div_iff_of_pos_right (p10 k)]
  exact_mod_cast Iff.rfl

theorem sec_nonneg {k : Nat} {m : Int} : 0 ≤ seconds (dur k m) ↔ 0 ≤ m := by
  rw [seconds_dur, le_div_iff₀ (p10 k), zero_mul]; exact_mod_cast Iff.rfl

theorem sec_nonpos {k : Nat} {m : Int} : seconds (dur k m) ≤ 0 ↔ m ≤ 0 := by
  rw [seconds_dur, div_le_iff₀ (p10 k), zero_mul]; exact_mod_cast Iff.rfl

theorem sec_left (a b : Nat) (x : Int) : seconds (dur a x) = seconds (dur (max a b) (x * 10 ^ (b - a))) := by
  rw [sec_max a (max a b) (by omega), show max a b - a = b - a by omega]

theorem sec_right (a b : Nat) (y : Int) : seconds (dur b y) = seconds (dur (max a b) (y * 10 ^ (a - b))) := by
  rw [sec_max b (max a b) (by omega), show max a b - b = a - b by omega]

theorem sec_zero {k : Nat} {m : Int} : seconds (dur k m) = 0 ↔ m = 0 := by
  rw [seconds_dur, div_eq_zero_iff]; simp [(p10 k).ne']

/-- The only overflowing quotient. -/
theorem tdiv_fits {x y : Int} (hx : I64 x) (hy0 : y ≠ 0) :
    I64 (x.tdiv y) ↔ ¬ (x = i64Min ∧ y = -1) := by
  constructor
  · rintro h ⟨rfl, rfl⟩
    revert h; decide
  · intro h
    rcases lt_or_gt_of_ne hy0 with hn | hp
    · have e : x.tdiv y = -(x.tdiv (-y)) := by rw [Int.tdiv_neg, neg_neg]
      by_cases h1 : y = -1
      · subst h1
        have hx' : x ≠ i64Min := fun e => h ⟨e, rfl⟩
        rw [e]
        simp only [neg_neg, Int.tdiv_one]
        unfold I64 i64Min i64Max at *
        constructor <;> omega
      · -- |y| ≥ 2
        have h2 : I64 (x.tdiv (-y)) := tdiv_I64 hx (by omega)
        have h3 : x.tdiv (-y) ≠ i64Min := by
          intro h3
          have h4 := Int.tdiv_mul_add_tmod x (-y)
          have hy2 : 2 ≤ -y := by omega
          have hr := Int.tmod_nonneg (a := x) (-y)
          rw [h3] at h4
          have h5 : x.tmod (-y) < -y := Int.tmod_lt_of_pos x (by omega)
          unfold I64 at hx
          have h6 : i64Min * -y ≤ i64Min * 2 := by
            exact Int.mul_le_mul_of_nonpos_left (by decide) hy2
          by_cases hxn : 0 ≤ x
          · have h7 : 0 ≤ x.tdiv (-y) := Int.tdiv_nonneg hxn (by omega)
            rw [h3] at h7; exact absurd h7 (by decide)
          · have h7 : x.tmod (-y) ≤ 0 := by
              have h8 : (-x).tmod (-y) = -(x.tmod (-y)) := Int.neg_tmod x (-y)
              have h9 := Int.tmod_nonneg (a := -x) (-y) (by omega)
              omega
            have h8 : x ≤ i64Min * 2 := by omega
            have : i64Min * 2 < i64Min := by decide
            omega
        rw [e]
        unfold I64 i64Min i64Max at *
        omega
    · exact tdiv_I64 hx hp

/-! ### C100 -/

/-- C100: multiplying by a number multiplies the length of time exactly; it is defined exactly when
the result is representable. -/
theorem C100_mul (k : Nat) (c n : Int) :
    (∀ r, (dur k c).mulN n = some r → r.res = deci k ∧ I64 r.count ∧ seconds r = n * seconds (dur k c)) ∧
    (((dur k c).mulN n).isSome ↔ ∃ m, I64 m ∧ seconds (dur k m) = n * seconds (dur k c)) ∧
    (dur k c).mulAssign n = (dur k c).mulN n := by
  have hs : ∀ m, seconds (dur k m) = n * seconds (dur k c) ↔ m = c * n := by
    intro m
    have : (n : ℚ) * seconds (dur k c) = seconds (dur k (c * n)) := by
      rw [seconds_dur, seconds_dur]; push_cast; ring
    rw [this, sec_inj]
  refine ⟨?_, ?_, rfl⟩
  · intro r hr
    simp only [Dur.mulN, Option.map_eq_some_iff] at hr
    obtain ⟨m, hm, rfl⟩ := hr
    rw [ck_eq_some] at hm
    exact ⟨rfl, hm.2 ▸ hm.1, (hs m).mpr hm.2.symm⟩
  · simp only [Dur.mulN, Option.isSome_map]
    constructor
    · intro h
      obtain ⟨m, hm⟩ := Option.isSome_iff_exists.mp h
      rw [ck_eq_some] at hm
      exact ⟨m, hm.2 ▸ hm.1, (hs m).mpr hm.2.symm⟩
    · rintro ⟨m, hm, h⟩
      rw [(hs m).mp h] at hm
      rw [ck_some hm]; rfl

/-- C100: dividing by a number rounds toward zero: the quotient is no longer than the exact one and
differs from it by less than one unit; undefined exactly for the divisor zero and for the minimum
divided by minus one. -/
theorem C100_div_number (k : Nat) {c n : Int} (hc : I64 c) :
    (∀ r, (dur k c).divN n = some r → r.res = deci k ∧ I64 r.count ∧
      |seconds r| ≤ |seconds (dur k c) / n| ∧ |seconds (dur k c) / n - seconds r| < 1 / 10 ^ k) ∧
    (((dur k c).divN n).isSome ↔ n ≠ 0 ∧ ¬ (c = i64Min ∧ n = -1)) ∧
    (dur k c).divAssign n = (dur k c).divN n := by
  refine ⟨?_, ?_, rfl⟩
  · intro r hr
    simp only [Dur.divN] at hr
    by_cases hn : n = 0
    · rw [if_pos hn] at hr; simp at hr
    rw [if_neg hn, Option.map_eq_some_iff] at hr
    obtain ⟨m, hm, rfl⟩ := hr
    rw [ck_eq_some] at hm
    obtain ⟨h1, rfl⟩ := hm
    have hnq : (n : ℚ) ≠ 0 := by exact_mod_cast hn
    have hmod := Int.tdiv_mul_add_tmod c n
    have hq : (c : ℚ) = (c.tdiv n : ℚ) * n + (c.tmod n : ℚ) := by exact_mod_cast hmod.symm
    have hlt : |c.tmod n| < |n| := by
      rw [Int.abs_eq_natAbs, Int.abs_eq_natAbs, Int.natAbs_tmod]
      exact_mod_cast Nat.mod_lt _ (Int.natAbs_pos.mpr hn)
    have hle : |c.tdiv n * n| ≤ |c| := by
      rw [Int.abs_eq_natAbs, Int.abs_eq_natAbs, Int.natAbs_mul, Int.natAbs_tdiv]
      exact_mod_cast Nat.div_mul_le_self _ _
    refine ⟨rfl, h1, ?_, ?_⟩
    · rw [seconds_dur, seconds_dur, abs_div, abs_div, abs_div, le_div_iff₀ (abs_pos.mpr hnq),
        abs_of_pos (p10 k), div_mul_eq_mul_div, div_le_div_iff_of_pos_right (p10 k), ← abs_mul]
      exact_mod_cast hle
    · have e : seconds (dur k c) / n - seconds (dur k (c.tdiv n)) = (c.tmod n : ℚ) / n / 10 ^ k := by
        rw [seconds_dur, seconds_dur, hq]
        field_simp
        ring
      rw [e, abs_div, abs_div, abs_of_pos (p10 k), div_lt_div_iff_of_pos_right (p10 k),
        div_lt_one (abs_pos.mpr hnq)]
      exact_mod_cast hlt
  · simp only [Dur.divN]
    by_cases hn : n = 0
    · simp [hn]
    · rw [if_neg hn, Option.isSome_map]
      have := tdiv_fits hc hn
      by_cases h : I64 (c.tdiv n)
      · rw [ck_some h]; simpa [hn] using this.mp h
      · rw [ck_none h]; simp only [Option.isSome_none, Bool.false_eq_true, ne_eq, hn, not_false_eq_true,
          true_and, false_iff, not_not]
        by_contra h2
        exact h (this.mpr h2)

/-- The operands can be divided in the common unit. -/
def Divides (a b : Nat) (x y : Int) : Prop :=
  Fits a b x y ∧ y ≠ 0 ∧ ¬ (x * 10 ^ (b - a) = i64Min ∧ y * 10 ^ (a - b) = -1)

theorem scaled_ne {y : Int} {k : Nat} : y * 10 ^ k = 0 ↔ y = 0 := by
  rw [mul_eq_zero]; exact or_iff_left (i10 k).ne'

/-- C100: quotient and remainder of two durations of any units: `a = (a / b) * b + a % b` exactly,
the remainder is shorter than the divisor and has the sign of the dividend; both are defined exactly
when the operands fit the finer unit, the divisor is not zero and the quotient is representable. -/
theorem C100_div_mod (a b : Nat) (x y : Int) :
    (∀ q r, (dur a x).div (dur b y) = some q → (dur a x).mod (dur b y) = some r →
      I64 q ∧ r.res = deci (max a b) ∧ I64 r.count ∧
      seconds (dur a x) = q * seconds (dur b y) + seconds r ∧
      |seconds r| < |seconds (dur b y)| ∧
      (0 ≤ x → 0 ≤ seconds r) ∧ (x ≤ 0 → seconds r ≤ 0)) ∧
    (((dur a x).div (dur b y)).isSome ↔ Divides a b x y) ∧
    (((dur a x).mod (dur b y)).isSome ↔ Divides a b x y) := by
  obtain ⟨X, hX⟩ : ∃ X, X = x * 10 ^ (b - a) := ⟨_, rfl⟩
  obtain ⟨Y, hY⟩ : ∃ Y, Y = y * 10 ^ (a - b) := ⟨_, rfl⟩
  have hYz : Y = 0 ↔ y = 0 := by rw [hY]; exact scaled_ne
  have hmodeq : (dur a x).mod (dur b y) = if Fits a b x y then
      (if Y = 0 then none else if I64 (X.tdiv Y) then ck (X.tmod Y) else none).map (⟨deci (max a b), ·⟩)
      else none := by
    rw [Dur.mod, binop_eq, hX, hY]
  have hdiveq : (dur a x).div (dur b y) = if Fits a b x y then
      (if Y = 0 then none else ck (X.tdiv Y)) else none := by
    unfold Dur.div
    simp only [common_deci]
    rw [convert_up (by omega : a ≤ max a b), convert_up (by omega : b ≤ max a b),
      show max a b - a = b - a by omega, show max a b - b = a - b by omega, hX, hY]
    by_cases h1 : I64 (x * 10 ^ (b - a))
    · by_cases h2 : I64 (y * 10 ^ (a - b))
      · rw [if_pos ⟨h1, h2⟩, ck_some h1, ck_some h2]
      · rw [if_neg (fun h => h2 h.2), ck_none h2]; cases ck (x * 10 ^ (b - a)) <;> rfl
    · rw [if_neg (fun h => h1 h.1), ck_none h1]
  have hFX : Fits a b x y → I64 X ∧ I64 Y := by intro h; rw [hX, hY]; exact h
  have hmodI : ∀ {X Y : Int}, I64 Y → Y ≠ 0 → I64 (X.tmod Y) := by
    intro X Y hI h0
    have hlt : |X.tmod Y| < |Y| := by
      rw [Int.abs_eq_natAbs, Int.abs_eq_natAbs, Int.natAbs_tmod]
      exact_mod_cast Nat.mod_lt _ (Int.natAbs_pos.mpr h0)
    unfold I64 i64Min i64Max at *
    rw [abs_lt] at hlt
    rcases abs_cases Y with h | h <;> omega
  rw [hmodeq, hdiveq]
  by_cases hf : Fits a b x y
  · obtain ⟨hXI, hYI⟩ := hFX hf
    simp only [if_pos hf]
    by_cases h0 : Y = 0
    · simp only [if_pos h0]
      refine ⟨by simp, ?_, ?_⟩ <;> simp [Divides, hYz.mp h0]
    · simp only [if_neg h0]
      have hd : Divides a b x y ↔ I64 (X.tdiv Y) := by
        rw [tdiv_fits hXI h0, Divides, ← hX, ← hY]
        exact ⟨fun h => h.2.2, fun h => ⟨hf, fun e => h0 (hYz.mpr e), h⟩⟩
      refine ⟨?_, ?_, ?_⟩
      · intro q r hq hr
        rw [ck_eq_some] at hq
        obtain ⟨hq1, rfl⟩ := hq
        rw [if_pos hq1, Option.map_eq_some_iff] at hr
        obtain ⟨m, hm, rfl⟩ := hr
        rw [ck_eq_some] at hm
        obtain ⟨hm1, rfl⟩ := hm
        have hsx := sec_left a b x
        have hsy := sec_right a b y
        rw [← hX] at hsx
        rw [← hY] at hsy
        refine ⟨hq1, rfl, hm1, ?_, ?_, ?_, ?_⟩
        · rw [hsx, hsy, seconds_dur, seconds_dur, seconds_dur]
          have := Int.tdiv_mul_add_tmod X Y
          have hq : (X : ℚ) = (X.tdiv Y : ℚ) * Y + (X.tmod Y : ℚ) := by exact_mod_cast this.symm
          rw [hq]
          have := (p10 (max a b)).ne'
          field_simp
        · rw [hsy, sec_abs_lt, Int.abs_eq_natAbs, Int.abs_eq_natAbs, Int.natAbs_tmod]
          exact_mod_cast Nat.mod_lt _ (Int.natAbs_pos.mpr h0)
        · intro hx
          rw [sec_nonneg]
          exact Int.tmod_nonneg _ (by rw [hX]; exact mul_nonneg hx (i10 _).le)
        · intro hx
          rw [sec_nonpos]
          have hX0 : X ≤ 0 := by rw [hX]; exact mul_nonpos_of_nonpos_of_nonneg hx (i10 _).le
          have h1 := Int.tmod_nonneg (a := -X) Y (by omega)
          rw [Int.neg_tmod] at h1
          omega
      · rw [hd]
        by_cases h : I64 (X.tdiv Y)
        · simp [ck_some h, h]
        · simp [ck_none h, h]
      · rw [hd]
        by_cases h : I64 (X.tdiv Y)
        · simp [ck_some (hmodI hYI h0), h]
        · simp [h]
  · simp only [if_neg hf]
    refine ⟨by simp, ?_, ?_⟩ <;> simp [Divides, hf]

/-- C100: negation negates the length of time; it is undefined only for the minimum. -/
theorem C100_neg (k : Nat) {c : Int} (hc : I64 c) :
    (∀ r, (dur k c).neg = some r → r.res = deci k ∧ I64 r.count ∧ seconds r = - seconds (dur k c)) ∧
    (((dur k c).neg).isSome ↔ c ≠ i64Min) := by
  constructor
  · intro r hr
    simp only [Dur.neg, Option.map_eq_some_iff] at hr
    obtain ⟨m, hm, rfl⟩ := hr
    rw [ck_eq_some] at hm
    obtain ⟨h1, rfl⟩ := hm
    refine ⟨rfl, h1, ?_⟩
    rw [seconds_dur, seconds_dur]; push_cast; ring
  · simp only [Dur.neg, Option.isSome_map]
    by_cases h : I64 (-c)
    · rw [ck_some h]
      simp only [Option.isSome_some, true_iff]
      rintro rfl; revert h; decide
    · rw [ck_none h]
      simp only [Option.isSome_none, Bool.false_eq_true, ne_eq, false_iff, not_not]
      unfold I64 i64Min i64Max at *
      omega

/-- C100: `+=` and `-=` with a duration of a coarser or equal unit are the exact sum and difference,
the same as `a + b` and `a - b`. -/
theorem C100_assign_coarser {a b : Nat} (h : b ≤ a) {x y : Int} (hx : I64 x) :
    (dur a x).addAssign (dur b y) = (dur a x).add (dur b y) ∧
    (dur a x).subAssign (dur b y) = (dur a x).sub (dur b y) ∧
    (dur a x).modAssign (dur b y) = (dur a x).mod (dur b y) := by
  have hb0 : b - a = 0 := by omega
  have hm : max a b = a := by omega
  have hF : Fits a b x y ↔ I64 (y * 10 ^ (a - b)) := by
    unfold Fits; rw [hb0]; simp [hx]
  have hX : x * 10 ^ (b - a) = x := by rw [hb0]; simp
  refine ⟨?_, ?_, ?_⟩
  · simp only [Dur.addAssign, dur, convert_up h]
    have := binop_eq (fun u v => ck (u + v)) a b x y
    simp only [dur] at this
    simp only [Dur.add, this, hm, hX]
    by_cases hy : I64 (y * 10 ^ (a - b))
    · rw [ck_some hy, if_pos (hF.mpr hy)]
    · rw [ck_none hy, if_neg (fun h => hy (hF.mp h))]
  · simp only [Dur.subAssign, dur, convert_up h]
    have := binop_eq (fun u v => ck (u - v)) a b x y
    simp only [dur] at this
    simp only [Dur.sub, this, hm, hX]
    by_cases hy : I64 (y * 10 ^ (a - b))
    · rw [ck_some hy, if_pos (hF.mpr hy)]
    · rw [ck_none hy, if_neg (fun h => hy (hF.mp h))]
  · simp only [Dur.modAssign, dur, convert_up h]
    have := binop_eq (fun x y => if y = 0 then none else if I64 (x.tdiv y) then ck (x.tmod y) else none) a b x y
    simp only [dur] at this
    simp only [Dur.mod, this, hm, hX]
    by_cases hy : I64 (y * 10 ^ (a - b))
    · rw [ck_some hy, if_pos (hF.mpr hy)]
      simp only []
      by_cases h0 : y * 10 ^ (a - b) = 0
      · rw [if_pos h0, if_pos h0]; rfl
      · rw [if_neg h0, if_neg h0]
        by_cases h1 : I64 (x.tdiv (y * 10 ^ (a - b)))
        · rw [if_pos h1, if_pos h1]
          have hlt : |x.tmod (y * 10 ^ (a - b))| < |y * 10 ^ (a - b)| := by
            rw [Int.abs_eq_natAbs, Int.abs_eq_natAbs, Int.natAbs_tmod]
            exact_mod_cast Nat.mod_lt _ (Int.natAbs_pos.mpr h0)
          have : I64 (x.tmod (y * 10 ^ (a - b))) := by
            generalize y * 10 ^ (a - b) = Y at *
            unfold I64 i64Min i64Max at *
            rw [abs_lt] at hlt
            rcases abs_cases Y with h | h <;> omega
          rw [ck_some this]; rfl
        · rw [if_neg h1, if_neg h1]; rfl
    · rw [ck_none hy, if_neg (fun h => hy (hF.mp h))]

/-- C100: `+=` and `-=` with a duration of a finer unit first truncate it to the unit of the left
side: the result is off by less than one such unit.  They are defined exactly when the sum or
difference with the truncated count is representable. -/
theorem C100_assign_finer {a b : Nat} (h : a ≤ b) {x y : Int} (hy : I64 y) :
    (∀ r, (dur a x).addAssign (dur b y) = some r → r.res = deci a ∧ I64 r.count ∧
      |seconds r - (seconds (dur a x) + seconds (dur b y))| < 1 / 10 ^ a) ∧
    (∀ r, (dur a x).subAssign (dur b y) = some r → r.res = deci a ∧ I64 r.count ∧
      |seconds r - (seconds (dur a x) - seconds (dur b y))| < 1 / 10 ^ a) ∧
    (((dur a x).addAssign (dur b y)).isSome ↔ I64 (x + y.tdiv (10 ^ (b - a)))) ∧
    (((dur a x).subAssign (dur b y)).isSome ↔ I64 (x - y.tdiv (10 ^ (b - a)))) := by
  have hck : ∀ z : Int, ((ck z).map (⟨deci a, ·⟩ : Int → Dur)).isSome ↔ I64 z := by
    intro z; rw [Option.isSome_map, ck]; split <;> simp_all
  obtain ⟨t, ht, h1, h2, h3, h4, -, -⟩ := C38_coarser h hy
  have hconv : convertCount (deci b) (deci a) y = some t.count := by
    simp only [Dur.convert, dur, Option.map_eq_some_iff] at ht
    obtain ⟨m, hm, rfl⟩ := ht
    exact hm
  have et : t = dur a t.count := by simp only [dur, ← h1]
  refine ⟨?_, ?_, ?_, ?_⟩
  rotate_left 2
  · simp only [Dur.addAssign, dur, convert_down h hy]; exact hck _
  · simp only [Dur.subAssign, dur, convert_down h hy]; exact hck _
  · intro r hr
    simp only [Dur.addAssign, dur, hconv, Option.map_eq_some_iff] at hr
    obtain ⟨m, hm, rfl⟩ := hr
    rw [ck_eq_some] at hm
    obtain ⟨k1, rfl⟩ := hm
    refine ⟨rfl, k1, ?_⟩
    have e : seconds (dur a (x + t.count)) = seconds (dur a x) + seconds t := by
      rw [et, seconds_dur, seconds_dur, seconds_dur]; push_cast; ring
    have e2 : seconds (dur a (x + t.count)) - (seconds (dur a x) + seconds (dur b y)) =
        -(seconds (dur b y) - seconds t) := by rw [e]; ring
    show |seconds (dur a (x + t.count)) - _| < _
    rw [e2, abs_neg]; exact h4
  · intro r hr
    simp only [Dur.subAssign, dur, hconv, Option.map_eq_some_iff] at hr
    obtain ⟨m, hm, rfl⟩ := hr
    rw [ck_eq_some] at hm
    obtain ⟨k1, rfl⟩ := hm
    refine ⟨rfl, k1, ?_⟩
    have e : seconds (dur a (x - t.count)) = seconds (dur a x) - seconds t := by
      rw [et, seconds_dur, seconds_dur, seconds_dur]; push_cast; ring
    have e2 : seconds (dur a (x - t.count)) - (seconds (dur a x) - seconds (dur b y)) =
        seconds (dur b y) - seconds t := by rw [e]; ring
    show |seconds (dur a (x - t.count)) - _| < _
    rw [e2]; exact h4

/-- C100 fails for compound assignment with a finer unit: `a += b` is not `a = a + b` (half a second
added to one second is lost), and `a %= b` divides by zero where `a % b` is defined. -/
theorem C100_assign_fails :
    (dur 0 1).addAssign (dur 3 500) = some (dur 0 1) ∧
    (dur 0 1).add (dur 3 500) = some (dur 3 1500) ∧
    (dur 0 5).modAssign (dur 3 300) = none ∧
    (dur 0 5).mod (dur 3 300) = some (dur 3 200) := by decide

/-- C100: `++` and `--` move a duration by exactly one unit, and are defined exactly when the result is
representable; on every count where both are defined they undo each other. -/
theorem C100_step (k : Nat) {c : Int} (hc : I64 c) :
    (∀ r, (dur k c).inc = some r → r.res = deci k ∧ seconds r = seconds (dur k c) + seconds (dur k 1) ∧
      r.dec = some (dur k c)) ∧
    (∀ r, (dur k c).dec = some r → r.res = deci k ∧ seconds r = seconds (dur k c) - seconds (dur k 1) ∧
      r.inc = some (dur k c)) ∧
    (((dur k c).inc).isSome ↔ c ≠ i64Max) ∧ (((dur k c).dec).isSome ↔ c ≠ i64Min) := by
  have hI : ∀ z, I64 z ↔ i64Min ≤ z ∧ z ≤ i64Max := fun z => Iff.rfl
  refine ⟨?_, ?_, ?_, ?_⟩
  · intro r hr
    simp only [Dur.inc, Option.map_eq_some_iff] at hr
    obtain ⟨m, hm, rfl⟩ := hr
    rw [ck_eq_some] at hm
    obtain ⟨-, rfl⟩ := hm
    refine ⟨rfl, ?_, ?_⟩
    · change seconds (dur k (c + 1)) = _
      rw [seconds_dur, seconds_dur, seconds_dur]; push_cast; ring
    · change (ck (c + 1 - 1)).map _ = _
      rw [Int.add_sub_cancel, ck_some hc]; rfl
  · intro r hr
    simp only [Dur.dec, Option.map_eq_some_iff] at hr
    obtain ⟨m, hm, rfl⟩ := hr
    rw [ck_eq_some] at hm
    obtain ⟨-, rfl⟩ := hm
    refine ⟨rfl, ?_, ?_⟩
    · change seconds (dur k (c - 1)) = _
      rw [seconds_dur, seconds_dur, seconds_dur]; push_cast; ring
    · change (ck (c - 1 + 1)).map _ = _
      rw [Int.sub_add_cancel, ck_some hc]; rfl
  · change ((ck (c + 1)).map _).isSome ↔ _
    rw [Option.isSome_map]
    rw [hI] at hc
    by_cases h : I64 (c + 1)
    · rw [ck_some h]; rw [hI] at h; simp; omega
    · rw [ck_none h]; rw [hI] at h; simp; omega
  · change ((ck (c - 1)).map _).isSome ↔ _
    rw [Option.isSome_map]
    rw [hI] at hc
    by_cases h : I64 (c - 1)
    · rw [ck_some h]; rw [hI] at h; simp; omega
    · rw [ck_none h]; rw [hI] at h; simp; omega

/-- Cases of C100_step. -/
example : (dur 3 (-1)).inc = some (dur 3 0) ∧ (dur 3 i64Max).inc = none := by decide

/-- C100: the makers, defined exactly when the number of seconds is representable. -/
theorem C100_makers (n : Int) :
    seconds (mkSeconds n) = n ∧
    (∀ r, mkMinutes n = some r → seconds r = 60 * n ∧ I64 r.count) ∧
    (∀ r, mkHours n = some r → seconds r = 60 * (60 * n) ∧ I64 r.count) ∧
    (∀ r, mkDays n = some r → seconds r = 24 * (60 * (60 * n)) ∧ I64 r.count) ∧
    ((mkMinutes n).isSome ↔ I64 (60 * n)) ∧ ((mkHours n).isSome ↔ I64 (3600 * n)) ∧
    ((mkDays n).isSome ↔ I64 (86400 * n)) := by
  have hck : ∀ f : Int, ((ck (n * f)).map (⟨oneSecond, ·⟩ : Int → Dur)).isSome ↔ I64 (f * n) := by
    intro f; rw [Option.isSome_map, ck, Int.mul_comm]; split <;> simp_all
  have gen : ∀ (f : Int) (r : Dur), (ck (n * f)).map (⟨oneSecond, ·⟩) = some r →
      seconds r = f * n ∧ I64 r.count := by
    intro f r hr
    rw [Option.map_eq_some_iff] at hr
    obtain ⟨m, hm, rfl⟩ := hr
    rw [ck_eq_some] at hm
    obtain ⟨h1, rfl⟩ := hm
    refine ⟨?_, h1⟩
    simp [seconds, oneSecond]; ring
  refine ⟨by simp [seconds, mkSeconds, oneSecond], ?_, ?_, ?_, hck 60, hck 3600, hck 86400⟩ <;> intro r hr
  · have := gen 60 r hr; exact_mod_cast this
  · have := gen 3600 r hr
    refine ⟨this.1.trans ?_, this.2⟩
    push_cast; ring
  · have := gen 86400 r hr
    refine ⟨this.1.trans ?_, this.2⟩
    push_cast; ring

/-- Cases of C100. -/
example : (dur 0 7).div (dur 3 2000) = some 3 ∧ (dur 0 7).mod (dur 3 2000) = some (dur 3 1000) ∧
    (dur 0 (-7)).mod (dur 3 2000) = some (dur 3 (-1000)) ∧ Divides 0 3 7 2000 ∧
    (dur 3 7).divN 2 = some (dur 3 3) ∧ (dur 3 7).mulN (-2) = some (dur 3 (-14)) := by
  unfold Divides; decide

/-! ### C43, durations of any unit -/

theorem ofDuration_eq (d : Dur) : TP.ofDuration d = (d.convert tenthNano).map (fun d => ⟨d.count⟩) := rfl

/-- C43: a time point made from a duration of a unit that is not finer than the clock's is exactly
that far from the epoch, and exists exactly when that is representable. -/
theorem C43_from_coarser {k : Nat} (hk : k ≤ 10) (c : Int) :
    (∀ t, TP.ofDuration (dur k c) = some t → I64 t.dt ∧ seconds t.getDuration = seconds (dur k c)) ∧
    ((TP.ofDuration (dur k c)).isSome ↔ ∃ n, I64 n ∧ seconds (ticks n) = seconds (dur k c)) := by
  obtain ⟨h1, h2⟩ := C38_finer hk c
  rw [← tenthNano_eq] at h1 h2
  constructor
  · intro t ht
    rw [ofDuration_eq, Option.map_eq_some_iff] at ht
    obtain ⟨d, hd, rfl⟩ := ht
    obtain ⟨e1, e2, e3⟩ := h1 d hd
    refine ⟨e3, ?_⟩
    rw [← e2]
    simp only [TP.getDuration, ← e1]
  · rw [ofDuration_eq, Option.isSome_map, h2]
    constructor
    · rintro ⟨n, hn, e⟩
      refine ⟨n, hn, ?_⟩
      rw [← e]; simp only [ticks, dur, tenthNano_eq]
    · rintro ⟨n, hn, e⟩
      refine ⟨n, hn, ?_⟩
      rw [← e]; simp only [ticks, dur, tenthNano_eq]

/-- C43: a time point made from a duration of a finer unit is that duration truncated toward the epoch
to the clock's unit. -/
theorem C43_from_finer {k : Nat} (hk : 10 ≤ k) {c : Int} (hc : I64 c) :
    ∃ t, TP.ofDuration (dur k c) = some t ∧ I64 t.dt ∧
      |seconds t.getDuration| ≤ |seconds (dur k c)| ∧
      |seconds (dur k c) - seconds t.getDuration| < 1 / 10 ^ 10 := by
  obtain ⟨r, h1, h2, h3, h4, h5, -, -⟩ := C38_coarser hk hc
  rw [← tenthNano_eq] at h1 h2
  refine ⟨⟨r.count⟩, by rw [ofDuration_eq, h1]; rfl, h3, ?_⟩
  have e : (TP.mk r.count).getDuration = r := by simp only [TP.getDuration, ← h2]
  rw [e]
  exact ⟨h4, h5⟩

theorem add_bind (t : TP) (d : Dur) : t.add d = (d.convert tenthNano).bind fun d' =>
    (t.getDuration.add d').bind fun r => some (TP.mk r.count) := rfl
theorem subD_bind (t : TP) (d : Dur) : t.subD d = (d.convert tenthNano).bind fun d' =>
    (t.getDuration.sub d').bind fun r => some (TP.mk r.count) := rfl
theorem addLeft_bind (t : TP) (d : Dur) : TP.addLeft d t = (d.convert tenthNano).bind fun d' =>
    (d'.add t.getDuration).bind fun r => some (TP.mk r.count) := rfl
theorem addAssign_bind (t : TP) (d : Dur) : t.addAssign d = (d.convert tenthNano).bind fun d' =>
    (ck (t.dt + d'.count)).bind fun r => some (TP.mk r) := rfl
theorem subAssign_bind (t : TP) (d : Dur) : t.subAssign d = (d.convert tenthNano).bind fun d' =>
    (ck (t.dt - d'.count)).bind fun r => some (TP.mk r) := rfl
theorem bind_mk (o : Option Int) : (o.bind fun r => some (TP.mk r)) = o.map TP.mk := by cases o <;> rfl

/-- A conversion to the unit of the clock gives clock ticks. -/
theorem conv_ticks {k : Nat} {c : Int} (hc : I64 c) {d : Dur} (h : (dur k c).convert tenthNano = some d) :
    d = ticks d.count ∧ I64 d.count := by
  rcases Nat.le_total k 10 with hk | hk
  · have := (C38_finer hk c).1 d (by rw [← tenthNano_eq]; exact h)
    rw [← tenthNano_eq] at this
    exact ⟨by simp only [ticks, ← this.1], this.2.2⟩
  · obtain ⟨r, h1, h2, h3, -⟩ := C38_coarser hk hc
    rw [← tenthNano_eq] at h1 h2
    rw [h1] at h
    have e := Option.some.inj h
    subst e
    exact ⟨by simp only [ticks, ← h2], h3⟩

theorem bind_some' {α β : Type} (a : α) (f : α → Option β) : (some a).bind f = f a := by
  rw [Option.bind_some]

theorem ticks_count (n : Int) : (ticks n).count = n := rfl

theorem add_of_conv {t : TP} {x : Dur} {n : Int} (ht : I64 t.dt) (hn : I64 n)
    (h : x.convert tenthNano = some (ticks n)) :
    t.add x = (ck (t.dt + n)).map TP.mk ∧ t.subD x = (ck (t.dt - n)).map TP.mk := by
  constructor
  · rw [← tp_add ht hn, add_bind, add_bind, h, ticks_conv hn]
  · rw [← tp_subD ht hn, subD_bind, subD_bind, h, ticks_conv hn]

theorem assign_of_conv {t : TP} {x : Dur} {n : Int} (h : x.convert tenthNano = some (ticks n)) :
    t.addAssign x = (ck (t.dt + n)).map TP.mk ∧ t.subAssign x = (ck (t.dt - n)).map TP.mk := by
  constructor
  · rw [addAssign_bind, h, bind_some', ticks_count, bind_mk]
  · rw [subAssign_bind, h, bind_some', ticks_count, bind_mk]

theorem addLeft_of_conv {t : TP} {x : Dur} {n : Int} (ht : I64 t.dt) (hn : I64 n)
    (h : x.convert tenthNano = some (ticks n)) :
    TP.addLeft x t = (ck (t.dt + n)).map TP.mk := by
  have hg : t.getDuration = ticks t.dt := rfl
  rw [addLeft_bind, h, bind_some', Dur.add, hg, ticks_binop _ hn ht, map_ticks, Int.add_comm]

theorem ofDuration_of_conv {x : Dur} {n : Int} (h : x.convert tenthNano = some (ticks n)) :
    TP.ofDuration x = some ⟨n⟩ := by
  rw [ofDuration_eq, h, Option.map_some, ticks_count]

theorem any_unit_core {t : TP} (ht : I64 t.dt) (x : Dur)
    (h : ∀ d, x.convert tenthNano = some d → d = ticks d.count ∧ I64 d.count) :
    t.add x = (TP.ofDuration x).bind (fun p => (ck (t.dt + p.dt)).map TP.mk) ∧
    t.subD x = (TP.ofDuration x).bind (fun p => (ck (t.dt - p.dt)).map TP.mk) ∧
    t.addAssign x = t.add x ∧ t.subAssign x = t.subD x ∧ TP.addLeft x t = t.add x := by
  cases hx : x.convert tenthNano with
  | none =>
    have e : ∀ {β : Type} (f : Dur → Option β), (x.convert tenthNano).bind f = none := by
      intro β f; rw [hx, Option.bind_none]
    have eo : TP.ofDuration x = none := by rw [ofDuration_eq, hx, Option.map_none]
    rw [add_bind, subD_bind, addAssign_bind, subAssign_bind, addLeft_bind, eo, e, e, e, e, e]
    exact ⟨rfl, rfl, rfl, rfl, rfl⟩
  | some d =>
    obtain ⟨e1, e2⟩ := h d hx
    rw [e1] at hx
    obtain ⟨a1, a2⟩ := add_of_conv ht e2 hx
    obtain ⟨b1, b2⟩ := assign_of_conv (t := t) hx
    rw [a1, a2, b1, b2, addLeft_of_conv ht e2 hx, ofDuration_of_conv hx, bind_some', bind_some']
    exact ⟨rfl, rfl, rfl, rfl, rfl⟩

/-- C43: adding or subtracting a duration of any unit, in every spelling, adds or subtracts the
distance of the time point made from it; it is defined exactly when that distance and the result are
representable. -/
theorem C43_any_unit {t : TP} (ht : I64 t.dt) {k : Nat} {c : Int} (hc : I64 c) :
    t.add (dur k c) = (TP.ofDuration (dur k c)).bind (fun p => (ck (t.dt + p.dt)).map TP.mk) ∧
    t.subD (dur k c) = (TP.ofDuration (dur k c)).bind (fun p => (ck (t.dt - p.dt)).map TP.mk) ∧
    t.addAssign (dur k c) = t.add (dur k c) ∧
    t.subAssign (dur k c) = t.subD (dur k c) ∧
    TP.addLeft (dur k c) t = t.add (dur k c) :=
  any_unit_core ht _ (fun _ h => conv_ticks hc h)

/-- Cases: 3 s and 99 ps (less than a tick, lost) made into time points. -/
example : TP.ofDuration (dur 0 3) = some ⟨30000000000⟩ ∧ TP.ofDuration (dur 12 99) = some ⟨0⟩ ∧
    (TP.mk 5).addAssign (dur 12 250) = some ⟨7⟩ := by decide

end Verif.Chrono
