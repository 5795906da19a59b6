import Verif.Stat.Special
import Verif.Stat.FloatProps
set_option linter.unusedSimpArgs false
set_option linter.unusedVariables false
/-! Property C153: what a summary reports on infinite and NaN samples, and on overflow. -/
namespace Verif.Stat

/-- The samples since construction or the last `Reset`. -/
def sinceX (os : List (SOp Dbl)) : List Dbl :=
  os.foldl (fun acc o => match o with | .probe x => acc ++ [x] | .reset => []) []

theorem sinceX_snoc_probe (os : List (SOp Dbl)) (x : Dbl) : sinceX (os ++ [.probe x]) = sinceX os ++ [x] := by simp [sinceX]
theorem sinceX_snoc_reset (os : List (SOp Dbl)) : sinceX (os ++ [.reset]) = [] := by simp [sinceX]
theorem runX_snoc (F : FpX) (os : List (SOp Dbl)) (o : SOp Dbl) :
    SummaryX.run F (os ++ [o]) = (SummaryX.run F os).step F o := by simp [SummaryX.run]

/-- `m` is a least one among the samples that are not NaN. -/
def Least (m : Dbl) (xs : List Dbl) : Prop := m ∈ xs ∧ m ≠ .nan ∧ ∀ x ∈ xs, x.lt m = false

/-- `m` is a greatest one among the samples that are not NaN. -/
def Greatest (m : Dbl) (xs : List Dbl) : Prop := m ∈ xs ∧ m ≠ .nan ∧ ∀ x ∈ xs, m.lt x = false

theorem lt_irrefl' (a : Dbl) : a.lt a = false := by cases a <;> simp [Dbl.lt]

theorem le_trans' {a b c : Dbl} (hb : b ≠ .nan) (h1 : b.lt a = false) (h2 : c.lt b = false) : c.lt a = false := by
  cases a <;> cases b <;> cases c <;> simp_all [Dbl.lt]
  exact h1.trans h2

theorem le_of_lt' {a b : Dbl} (h : a.lt b = true) : b.lt a = false := by
  cases a <;> cases b <;> simp_all [Dbl.lt]
  exact h.le

theorem ne_of_lt' {a b : Dbl} (h : a.lt b = true) : a ≠ .nan ∧ b ≠ .nan := by
  cases a <;> cases b <;> simp_all [Dbl.lt]

theorem fit_ne_nan (F : FpX) (x : ℚ) : F.fit x ≠ .nan := by
  unfold FpX.fit; split
  · simp
  · split <;> simp

theorem rnd_nonneg (F : Fp) {x : ℚ} (h : 0 ≤ x) : 0 ≤ F.rnd x := by
  have hc := F.close x
  rw [abs_of_nonneg h] at hc
  have h1 : ulp * x ≤ x := by
    have : ulp ≤ 1 := by norm_num [ulp]
    nlinarith
  have := (abs_le.mp hc).1
  linarith

theorem fit_nonneg (F : FpX) {x : ℚ} (h : 0 ≤ x) : F.fit x = .pos ∨ ∃ y, 0 ≤ y ∧ F.fit x = .num y := by
  have h1 := rnd_nonneg F.toFp h
  have hb : (0 : ℚ) < F.big := lt_of_lt_of_le (by norm_num) F.wide
  unfold FpX.fit
  split
  · left; rfl
  · right
    rw [if_neg (by linarith)]
    exact ⟨_, h1, rfl⟩

theorem fit_count (F : FpX) (n : ℕ) : F.fit ((min n (2 ^ 53) : ℕ) + 1) = .num (min (n + 1) (2 ^ 53) : ℕ) := by
  have hr := rnd_count F.toFp n
  have hle : ((min (n + 1) (2 ^ 53) : ℕ) : ℚ) ≤ 2 ^ 53 := by exact_mod_cast Nat.min_le_right _ _
  have h0 : (0 : ℚ) ≤ ((min (n + 1) (2 ^ 53) : ℕ) : ℚ) := Nat.cast_nonneg _
  have hw := F.wide
  unfold FpX.fit
  rw [hr, if_neg (by linarith), if_neg (by linarith)]

/-- What a summary holds. -/
structure HoldsX (s : SummaryX) (xs : List Dbl) : Prop where
  count : s.count = .num (min xs.length (2 ^ 53) : ℕ)
  minNan : xs.head? = none ∨ xs.head? = some .nan → s.min = .nan
  maxNan : xs.head? = none ∨ xs.head? = some .nan → s.max = .nan
  least : ∀ x, xs.head? = some x → x ≠ .nan → Least s.min xs
  greatest : ∀ x, xs.head? = some x → x ≠ .nan → Greatest s.max xs
  sumNan : .nan ∈ xs → s.sum = .nan
  sumPos : .pos ∈ xs → s.sum = .pos ∨ s.sum = .nan
  sumNeg : .neg ∈ xs → s.sum = .neg ∨ s.sum = .nan
  sumOne : s.sum = .nan → .nan ∈ xs ∨ .pos ∈ xs ∨ .neg ∈ xs
  sqrNan : .nan ∈ xs → s.sqrSum = .nan
  sqrPos : .nan ∉ xs → s.sqrSum = .pos ∨ ∃ y, 0 ≤ y ∧ s.sqrSum = .num y
  sqrInf : .nan ∉ xs → .pos ∈ xs ∨ .neg ∈ xs → s.sqrSum = .pos

theorem holdsX_init : HoldsX SummaryX.init [] := by
  constructor <;> simp [SummaryX.init]

theorem sqr_nonneg (F : FpX) {x : Dbl} (h : x ≠ .nan) :
    F.mul x x = .pos ∨ ∃ y, 0 ≤ y ∧ F.mul x x = .num y := by
  cases x with
  | num x => exact fit_nonneg F (mul_self_nonneg x)
  | pos => left; rfl
  | neg => left; rfl
  | nan => exact absurd rfl h

theorem add_nonneg' (F : FpX) {a b : Dbl} (ha : a = .pos ∨ ∃ y, 0 ≤ y ∧ a = .num y) (hb : b = .pos ∨ ∃ y, 0 ≤ y ∧ b = .num y) :
    F.add a b = .pos ∨ ∃ y, 0 ≤ y ∧ F.add a b = .num y := by
  rcases ha with rfl | ⟨y, hy, rfl⟩ <;> rcases hb with rfl | ⟨z, hz, rfl⟩
  · left; rfl
  · left; rfl
  · left; rfl
  · exact fit_nonneg F (add_nonneg hy hz)

theorem add_nan_right (F : FpX) (a : Dbl) : F.add a .nan = .nan := by cases a <;> rfl
theorem mul_nan_right (F : FpX) (a : Dbl) : F.mul a .nan = .nan := by cases a <;> rfl

theorem holdsX_probe (F : FpX) {s : SummaryX} {xs : List Dbl} (h : HoldsX s xs) (x : Dbl) :
    HoldsX (s.onProbe F x) (xs ++ [x]) := by
  have hc : s.count = .num 0 ↔ xs = [] := by
    rw [h.count]
    cases xs with
    | nil => simp
    | cons a l => simp only [List.length_cons, Dbl.num.injEq, reduceCtorEq, iff_false]; norm_cast; omega
  have hl : (xs ++ [x]).length = xs.length + 1 := by simp
  have hsum : (s.onProbe F x).sum = F.add s.sum x := rfl
  have hsqr : (s.onProbe F x).sqrSum = F.add s.sqrSum (F.mul x x) := rfl
  have hmn : (s.onProbe F x).min = if s.count = .num 0 then x else if x.lt s.min then x else s.min := rfl
  have hmx : (s.onProbe F x).max = if s.count = .num 0 then x else if s.max.lt x then x else s.max := rfl
  constructor
  · rw [hl]
    simp only [SummaryX.onProbe, h.count]
    exact fit_count F _
  · intro hh
    rw [hmn]
    by_cases hx : xs = []
    · subst hx
      rw [if_pos (hc.mpr rfl)]
      simpa using hh
    · rw [if_neg (fun e => hx (hc.mp e))]
      obtain ⟨a, l, rfl⟩ := List.exists_cons_of_ne_nil hx
      have := h.minNan (by simpa using hh)
      rw [this]; cases x <;> rfl
  · intro hh
    rw [hmx]
    by_cases hx : xs = []
    · subst hx
      rw [if_pos (hc.mpr rfl)]
      simpa using hh
    · rw [if_neg (fun e => hx (hc.mp e))]
      obtain ⟨a, l, rfl⟩ := List.exists_cons_of_ne_nil hx
      have := h.maxNan (by simpa using hh)
      rw [this]; rfl
  · intro y hy hn
    rw [hmn]
    by_cases hx : xs = []
    · subst hx
      rw [if_pos (hc.mpr rfl)]
      simp only [List.nil_append, List.head?_cons, Option.some.injEq] at hy
      subst hy
      exact ⟨by simp, hn, by simp [lt_irrefl']⟩
    · rw [if_neg (fun e => hx (hc.mp e))]
      obtain ⟨a, l, rfl⟩ := List.exists_cons_of_ne_nil hx
      obtain ⟨h1, h2, h3⟩ := h.least y (by simpa using hy) hn
      by_cases hlt : x.lt s.min = true
      · rw [if_pos hlt]
        refine ⟨by simp, (ne_of_lt' hlt).1, fun z hz => ?_⟩
        rcases List.mem_append.mp hz with hz | hz
        · exact le_trans' h2 (le_of_lt' hlt) (h3 z hz)
        · simp only [List.mem_singleton] at hz; subst hz; exact lt_irrefl' _
      · rw [if_neg hlt]
        refine ⟨List.mem_append_left _ h1, h2, fun z hz => ?_⟩
        rcases List.mem_append.mp hz with hz | hz
        · exact h3 z hz
        · simp only [List.mem_singleton] at hz; subst hz; simpa using hlt
  · intro y hy hn
    rw [hmx]
    by_cases hx : xs = []
    · subst hx
      rw [if_pos (hc.mpr rfl)]
      simp only [List.nil_append, List.head?_cons, Option.some.injEq] at hy
      subst hy
      exact ⟨by simp, hn, by simp [lt_irrefl']⟩
    · rw [if_neg (fun e => hx (hc.mp e))]
      obtain ⟨a, l, rfl⟩ := List.exists_cons_of_ne_nil hx
      obtain ⟨h1, h2, h3⟩ := h.greatest y (by simpa using hy) hn
      by_cases hlt : s.max.lt x = true
      · rw [if_pos hlt]
        refine ⟨by simp, (ne_of_lt' hlt).2, fun z hz => ?_⟩
        rcases List.mem_append.mp hz with hz | hz
        · exact le_trans' h2 (h3 z hz) (le_of_lt' hlt)
        · simp only [List.mem_singleton] at hz; subst hz; exact lt_irrefl' _
      · rw [if_neg hlt]
        refine ⟨List.mem_append_left _ h1, h2, fun z hz => ?_⟩
        rcases List.mem_append.mp hz with hz | hz
        · exact h3 z hz
        · simp only [List.mem_singleton] at hz; subst hz; simpa using hlt
  · intro hh
    rw [hsum]
    rcases List.mem_append.mp hh with hh | hh
    · rw [h.sumNan hh]; rfl
    · simp only [List.mem_singleton] at hh; subst hh; exact add_nan_right F _
  · intro hh
    rw [hsum]
    rcases List.mem_append.mp hh with hh | hh
    · rcases h.sumPos hh with e | e <;> rw [e] <;> cases x <;> simp [FpX.add]
    · simp only [List.mem_singleton] at hh; subst hh
      cases s.sum <;> simp [FpX.add]
  · intro hh
    rw [hsum]
    rcases List.mem_append.mp hh with hh | hh
    · rcases h.sumNeg hh with e | e <;> rw [e] <;> cases x <;> simp [FpX.add]
    · simp only [List.mem_singleton] at hh; subst hh
      cases s.sum <;> simp [FpX.add]
  · intro hh
    rw [hsum] at hh
    cases x with
    | num y =>
      cases e : s.sum with
      | num z => rw [e] at hh; exact absurd hh (fit_ne_nan F _)
      | nan => have := h.sumOne e; simpa using this
      | pos => rw [e] at hh; cases hh
      | neg => rw [e] at hh; cases hh
    | pos => simp
    | neg => simp
    | nan => simp
  · intro hh
    rw [hsqr]
    rcases List.mem_append.mp hh with hh | hh
    · rw [h.sqrNan hh]; rfl
    · simp only [List.mem_singleton] at hh; subst hh
      exact add_nan_right F _
  · intro hh
    rw [hsqr]
    simp only [List.mem_append, List.mem_singleton, not_or] at hh
    exact add_nonneg' F (h.sqrPos hh.1) (sqr_nonneg F (fun e => hh.2 e.symm))
  · intro hh hi
    rw [hsqr]
    simp only [List.mem_append, List.mem_singleton, not_or] at hh hi
    rcases sqr_nonneg F (fun e => hh.2 e.symm : x ≠ .nan) with e | ⟨y, hy, e⟩
    · rcases h.sqrPos hh.1 with e' | ⟨z, hz, e'⟩ <;> rw [e, e'] <;> rfl
    · have : .pos ∈ xs ∨ .neg ∈ xs := by
        rcases hi with (hi | hi) | (hi | hi)
        · exact .inl hi
        · subst hi; cases e
        · exact .inr hi
        · subst hi; cases e
      rw [h.sqrInf hh.1 this, e]; rfl

theorem holdsX_run (F : FpX) (os : List (SOp Dbl)) : HoldsX (SummaryX.run F os) (sinceX os) := by
  induction os using List.reverseRecOn with
  | nil => exact holdsX_init
  | append_singleton os o ih =>
    rw [runX_snoc]
    cases o with
    | probe x => rw [sinceX_snoc_probe]; exact holdsX_probe F ih x
    | reset => rw [sinceX_snoc_reset]; exact holdsX_init

/-! ### C153 -/

/-- The claim that Min and Max are NaN only without samples, and otherwise the least and the greatest sample, holds when the first
sample since the last `Reset` is not NaN: infinities are compared as they should, later NaN samples are passed over.  When the
first sample is NaN, Min and Max are NaN whatever follows. -/
theorem special_min_max_partial (F : FpX) (os : List (SOp Dbl)) :
    let s := SummaryX.run F os
    let xs := sinceX os
    (∀ x, xs.head? = some x → x ≠ .nan → Least s.min xs ∧ Greatest s.max xs) ∧
    (xs.head? = none ∨ xs.head? = some .nan → s.min = .nan ∧ s.max = .nan) := by
  have h := holdsX_run F os
  exact ⟨fun x hx hn => ⟨h.least x hx hn, h.greatest x hx hn⟩, fun hh => ⟨h.minNan hh, h.maxNan hh⟩⟩

/-- The count is the number of samples of whatever kind, up to 2^53. -/
theorem special_count (F : FpX) (os : List (SOp Dbl)) :
    (SummaryX.run F os).count = .num (min (sinceX os).length (2 ^ 53) : ℕ) := (holdsX_run F os).count

/-- One NaN sample makes Sum, Mean and Stddev NaN until the next `Reset`. -/
theorem special_nan (F : FpX) (os : List (SOp Dbl)) (hn : .nan ∈ sinceX os) :
    let s := SummaryX.run F os
    s.sum = .nan ∧ s.mean F = .nan ∧ s.dev F = .nan := by
  have h := holdsX_run F os
  have hs := h.sumNan hn
  refine ⟨hs, ?_, ?_⟩
  · unfold SummaryX.mean; split
    · rfl
    · rw [hs]; rfl
  · unfold SummaryX.dev; split
    · rfl
    · simp only [h.sqrNan hn]; rfl

theorem count_pos (F : FpX) (os : List (SOp Dbl)) (hne : sinceX os ≠ []) :
    ∃ c : ℚ, 0 < c ∧ (SummaryX.run F os).count = .num c := by
  refine ⟨_, ?_, (holdsX_run F os).count⟩
  have := List.length_pos_iff.mpr hne
  exact_mod_cast (by omega : 0 < min (sinceX os).length (2 ^ 53))

/-- An infinite sample makes Sum and Mean that infinity or NaN, both infinities make them NaN, and Stddev is NaN, until the next
`Reset`.  Sum is never NaN when all samples are finite. -/
theorem special_inf (F : FpX) (os : List (SOp Dbl)) :
    let s := SummaryX.run F os
    let xs := sinceX os
    (.pos ∈ xs → (s.sum = .pos ∨ s.sum = .nan) ∧ s.mean F = s.sum ∧ s.dev F = .nan) ∧
    (.neg ∈ xs → (s.sum = .neg ∨ s.sum = .nan) ∧ s.mean F = s.sum ∧ s.dev F = .nan) ∧
    (.pos ∈ xs → .neg ∈ xs → s.sum = .nan) ∧
    (s.sum = .nan → .nan ∈ xs ∨ .pos ∈ xs ∨ .neg ∈ xs) := by
  intro s xs
  have h : HoldsX s xs := holdsX_run F os
  have key : ∀ i, (i = .pos ∨ i = .neg) → i ∈ xs → (s.sum = i ∨ s.sum = .nan) → s.mean F = s.sum ∧ s.dev F = .nan := by
    intro i hi hm hs
    obtain ⟨c, hc, hcount⟩ := count_pos F os (List.ne_nil_of_mem hm)
    have hcount : s.count = .num c := hcount
    have hmean : F.div s.sum s.count = s.sum := by
      rw [hcount]
      rcases hs with e | e <;> rw [e]
      · rcases hi with rfl | rfl <;> simp [FpX.div, not_lt.mpr hc.le]
      · rfl
    refine ⟨?_, ?_⟩
    · unfold SummaryX.mean
      rw [if_neg (by rw [hcount]; simp [hc.ne']), hmean]
    · unfold SummaryX.dev
      split
      · rfl
      · simp only [hmean]
        have : F.add (F.mul (.num (-2)) s.sum) (F.mul s.count s.sum) = .nan := by
          rw [hcount]
          rcases hs with e | e <;> rw [e]
          · have e1 : F.mul (.num (-2)) .pos = .neg := by norm_num [FpX.mul, Dbl.signed]
            have e2 : F.mul (.num (-2)) .neg = .pos := by norm_num [FpX.mul, Dbl.signed]
            rcases hi with rfl | rfl
            · rw [e1]; simp [FpX.mul, Dbl.signed, hc, FpX.add]
            · rw [e2]; simp [FpX.mul, Dbl.signed, hc, FpX.add, not_lt.mpr hc.le]
          · rfl
        rw [this]
        simp only [FpX.mul, add_nan_right]
        rfl
  refine ⟨fun hm => ⟨h.sumPos hm, key _ (.inl rfl) hm (h.sumPos hm)⟩,
    fun hm => ⟨h.sumNeg hm, key _ (.inr rfl) hm (h.sumNeg hm)⟩, fun hp hn => ?_, h.sumOne⟩
  rcases h.sumPos hp with e | e
  · rcases h.sumNeg hn with e' | e'
    · rw [e] at e'; cases e'
    · exact e'
  · exact e

/-- A history of finite samples. -/
def finite (os : List (SOp ℚ)) : List (SOp Dbl) := os.map fun
  | .probe x => .probe (.num x)
  | .reset => .reset

/-- NaN for a missing number. -/
def ofOpt : Option ℚ → Dbl
  | some x => .num x
  | none => .nan

theorem fit_num (F : FpX) {x : ℚ} (h : |F.rnd x| ≤ F.big) : F.fit x = .num (F.rnd x) := by
  obtain ⟨h1, h2⟩ := abs_le.mp h
  unfold FpX.fit
  rw [if_neg (by linarith), if_neg (by linarith)]

theorem apx_bound {a : ℕ} {M x y B : ℚ} (h : Apx a M x y) (hB : (1 + ulp) ^ a * M ≤ B) : |x| ≤ B := by
  have : |x| ≤ |x - y| + |y| := by simpa using abs_add_le (x - y) y
  have h1 := h.err
  have h2 := h.mag
  unfold gam at h1
  linarith

/-- When all samples are finite, and the sums of their magnitudes and squares, enlarged for the rounding, do not exceed the
greatest `double` at any time, no operation overflows: the summary holds and reports what C143 describes. -/
theorem special_finite (F : FpX) (os : List (SOp ℚ))
    (hb : ∀ ps, ps <+: os →
      (1 + ulp) ^ ((since ps).length + 1) * ((since ps).map fun x => |x|).sum ≤ F.big ∧
      (1 + ulp) ^ ((since ps).length + 1) * ((since ps).map fun x => x * x).sum ≤ F.big) :
    let s := SummaryX.run F (finite os)
    let t := Summary.runF F.toFp os
    s = ⟨ofOpt t.min, ofOpt t.max, .num t.count, .num t.sum, .num t.sqrSum⟩ ∧ s.mean F = ofOpt (t.meanF F.toFp) := by
  have hstate : SummaryX.run F (finite os) = ⟨ofOpt (Summary.runF F.toFp os).min, ofOpt (Summary.runF F.toFp os).max,
      .num (Summary.runF F.toFp os).count, .num (Summary.runF F.toFp os).sum, .num (Summary.runF F.toFp os).sqrSum⟩ := by
    induction os using List.reverseRecOn with
    | nil => rfl
    | append_singleton os o ih =>
      have ih := ih (fun ps hp => hb ps (hp.trans (List.prefix_append _ _)))
      have hlast := hb (os ++ [o]) List.prefix_rfl
      have hH := holdsF_run F.toFp (os ++ [o])
      have h0 := holdsF_run F.toFp os
      rw [show finite (os ++ [o]) = finite os ++ finite [o] by simp [finite]]
      cases o with
      | reset => simp only [finite, List.map_cons, List.map_nil]; rw [runX_snoc, runF_snoc]; rfl
      | probe x =>
        simp only [finite, List.map_cons, List.map_nil] at ih ⊢
        rw [runX_snoc, ih]
        rw [since_snoc_probe] at hlast hH
        rw [runF_snoc] at hH ⊢
        simp only [SummaryX.step, SummaryX.onProbe, Summary.stepF] at hH ⊢
        have hone : (1 : ℚ) ≤ 1 + ulp := by linarith [ulp_pos]
        have ec : F.add (.num (Summary.runF F.toFp os).count) (.num 1) = .num (F.rnd ((Summary.runF F.toFp os).count + 1)) := by
          have := fit_count F (since os).length
          rw [← rnd_count, ← h0.count] at this
          exact this
        have es : F.add (.num (Summary.runF F.toFp os).sum) (.num x) = .num (F.rnd ((Summary.runF F.toFp os).sum + x)) := by
          apply fit_num
          refine apx_bound hH.sum (le_trans ?_ hlast.1)
          exact mul_le_mul_of_nonneg_right (pow_le_pow_right₀ hone (by omega)) (absSum_nonneg _)
        have exx : F.mul (.num x) (.num x) = .num (F.rnd (x * x)) := by
          apply fit_num
          have hx : Apx 1 (x * x) (F.rnd (x * x)) (x * x) :=
            (Apx.exact (by rw [abs_of_nonneg (mul_self_nonneg x)])).rnd F.toFp
          refine apx_bound hx (le_trans ?_ hlast.2)
          have hle : x * x ≤ sqSum (since os ++ [x]) := by
            have := sqSum_nonneg (since os)
            simp only [sqSum, List.map_append, List.sum_append, List.map_cons, List.map_nil, List.sum_cons, List.sum_nil] at this ⊢
            linarith
          exact mul_le_mul (pow_le_pow_right₀ hone (by simp)) hle (mul_self_nonneg x) (by positivity)
        have eq : F.add (.num (Summary.runF F.toFp os).sqrSum) (.num (F.rnd (x * x))) =
            .num (F.rnd ((Summary.runF F.toFp os).sqrSum + F.rnd (x * x))) := by
          apply fit_num
          exact apx_bound hH.sqr hlast.2
        rw [ec, es, exx, eq]
        simp only [Summary.onProbeF, Dbl.num.injEq, SummaryX.mk.injEq, and_true]
        constructor
        · split
          · rfl
          · cases (Summary.runF F.toFp os).min with
            | none => rfl
            | some m =>
              simp only [ofOpt, Dbl.lt, decide_eq_true_eq, gt_iff_lt]
              split <;> rfl
        · split
          · rfl
          · cases (Summary.runF F.toFp os).max with
            | none => rfl
            | some m =>
              simp only [ofOpt, Dbl.lt, decide_eq_true_eq, gt_iff_lt]
              split <;> rfl
  refine ⟨hstate, ?_⟩
  rw [hstate]
  unfold SummaryX.mean Summary.meanF
  simp only [Dbl.num.injEq]
  have h := holdsF_run F.toFp os
  split
  · rfl
  · rename_i hc
    simp only [FpX.div, if_neg hc, ofOpt]
    apply fit_num
    have hne : since os ≠ [] := by
      intro e; apply hc; rw [h.count, e]; simp
    have hlen := List.length_pos_iff.mpr hne
    have hcpos : (1 : ℚ) ≤ (Summary.runF F.toFp os).count := by
      rw [h.count]; exact_mod_cast (by omega : 1 ≤ min (since os).length (2 ^ 53))
    have hdiv := ((h.sum.div (lt_of_lt_of_le one_pos hcpos)).rnd F.toFp)
    refine apx_bound hdiv (le_trans ?_ (hb os List.prefix_rfl).1)
    apply mul_le_mul_of_nonneg_left _ (by have := ulp_pos; positivity)
    exact div_le_self (absSum_nonneg _) hcpos

/-- Stddev is NaN with fewer than two samples of whatever kind.  When all samples are finite, there are at most 2^53, and four
times the sums of their magnitudes and squares, enlarged for the rounding, do not exceed the greatest `double`, no operation of
`Stddev` overflows: the value under the root is the one that C143 describes. -/
theorem special_stddev (F : FpX) :
    (∀ os : List (SOp Dbl), (sinceX os).length < 2 → (SummaryX.run F os).dev F = .nan) ∧
    ∀ os : List (SOp ℚ), (since os).length ≤ 2 ^ 53 →
      (∀ ps, ps <+: os →
        4 * ((1 + ulp) ^ (2 * (since ps).length + 7) * ((since ps).map fun x => |x|).sum) ≤ F.big ∧
        4 * ((1 + ulp) ^ (2 * (since ps).length + 7) * ((since ps).map fun x => x * x).sum) ≤ F.big) →
      (SummaryX.run F (finite os)).dev F = ofOpt ((Summary.runF F.toFp os).devF F.toFp) := by
  constructor
  · intro os h
    unfold SummaryX.dev
    rw [special_count, if_pos]
    simp only [Dbl.lt, decide_eq_true_eq]
    exact_mod_cast (by omega : min (sinceX os).length (2 ^ 53) < 2)
  · intro os hlen hb
    have hone : (1 : ℚ) ≤ 1 + ulp := by linarith [ulp_pos]
    have weak : ∀ (M : ℚ) (a b : ℕ), a ≤ b → 0 ≤ M → 4 * ((1 + ulp) ^ b * M) ≤ F.big → (1 + ulp) ^ a * (4 * M) ≤ F.big := by
      intro M a b hab hM h
      have := mul_le_mul_of_nonneg_right (pow_le_pow_right₀ hone hab) hM
      linarith
    have hq : ∀ ps, ps <+: os →
        (1 + ulp) ^ ((since ps).length + 1) * ((since ps).map fun x => |x|).sum ≤ F.big ∧
        (1 + ulp) ^ ((since ps).length + 1) * ((since ps).map fun x => x * x).sum ≤ F.big := by
      intro ps hps
      obtain ⟨h1, h2⟩ := hb ps hps
      have p1 := absSum_nonneg (since ps)
      have p2 := sqSum_nonneg (since ps)
      have w1 := weak _ ((since ps).length + 1) _ (by omega) p1 h1
      have w2 := weak _ ((since ps).length + 1) _ (by omega) p2 h2
      have q : (0 : ℚ) < (1 + ulp) ^ ((since ps).length + 1) := by have := ulp_pos; positivity
      simp only [absSum, sqSum] at p1 p2 w1 w2
      exact ⟨by nlinarith, by nlinarith⟩
    have hstate := (special_finite F os hq).1
    rw [hstate]
    have h := holdsF_run F.toFp os
    obtain ⟨h1, h2⟩ := hb os List.prefix_rfl
    generalize Summary.runF F.toFp os = s at *
    generalize since os = xs at *
    have hc : s.count = xs.length := by rw [h.count, Nat.min_eq_left hlen]
    unfold SummaryX.dev Summary.devF
    simp only [Dbl.lt, decide_eq_true_eq]
    by_cases hn : s.count < 2
    · rw [if_pos hn, if_pos hn]; rfl
    · rw [if_neg hn, if_neg hn]
      have hn2 : (2 : ℚ) ≤ xs.length := by rw [← hc]; linarith
      have hnN : 2 ≤ xs.length := by exact_mod_cast hn2
      have hne : xs ≠ [] := by rintro rfl; norm_num at hn2
      have hp : (0 : ℚ) < xs.length := by linarith
      have hM1 := absSum_nonneg xs
      have hM2 := sqSum_nonneg xs
      have up : ∀ {a : ℕ} {M x y B : ℚ}, Apx a M x y → a ≤ 2 * xs.length + 7 → M ≤ 4 * B → 0 ≤ B →
          4 * ((1 + ulp) ^ (2 * xs.length + 7) * B) ≤ F.big → |x| ≤ F.big := by
        intro a M x y B hx ha hM hB hF
        refine apx_bound hx (le_trans ?_ (weak B a _ ha hB hF))
        exact mul_le_mul_of_nonneg_left hM (by have := ulp_pos; positivity)
      have hm := meanF_apx F.toFp h hne hlen
      have em : F.div (.num s.sum) (.num s.count) = .num (F.rnd (s.sum / s.count)) := by
        simp only [FpX.div, if_neg (show s.count ≠ 0 by rw [hc]; exact hp.ne')]
        apply fit_num
        refine up hm (by omega) ?_ hM1 h1
        have : absSum xs / xs.length ≤ absSum xs := div_le_self hM1 (by linarith)
        linarith
      simp only [em]
      generalize F.rnd (s.sum / s.count) = m at hm ⊢
      have t1 : Apx (xs.length + 1) (2 * absSum xs) (F.rnd (-2 * s.sum)) (-2 * xs.sum) := by
        have := ((Apx.exact (M := 2) (y := -2) (by norm_num)).mul h.sum).rnd F.toFp
        simpa using this
      have t2 : Apx (xs.length + 2) (absSum xs) (F.rnd (s.count * m)) xs.sum := by
        rw [hc]
        have := ((Apx.exact (M := xs.length) (y := xs.length) (by rw [abs_of_pos hp])).mul hm).rnd F.toFp
        rw [mul_div_cancel₀ _ hp.ne', mul_div_cancel₀ _ hp.ne'] at this
        exact this.mono (by omega)
      have t3 := ((t1.mono (Nat.le_succ _)).add t2).rnd F.toFp
      have t4 := (t3.mul hm).rnd F.toFp
      have hM : (2 * absSum xs + absSum xs) * (absSum xs / xs.length) ≤ 3 * sqSum xs := by
        have := absSum_sq_le xs
        rw [show (2 * absSum xs + absSum xs) * (absSum xs / xs.length) = 3 * (absSum xs * absSum xs / xs.length) by ring]
        have : absSum xs * absSum xs / xs.length ≤ sqSum xs := by
          rw [div_le_iff₀ hp]; linarith
        linarith
      have t5 := ((h.sqr.mono (show xs.length + 1 ≤ xs.length + 1 + 1 + 1 + (xs.length + 1) + 1 by omega)).add
        (t4.grow hM)).rnd F.toFp
      have hi : F.rnd (s.count - 1) = (xs.length : ℚ) - 1 := by
        rw [hc]
        have := F.int ((xs.length : ℤ) - 1) (by rw [abs_of_nonneg (by omega)]; norm_num at hlen; omega)
        push_cast at this; exact this
      have t6 := (t5.div (show (0 : ℚ) < xs.length - 1 by linarith)).rnd F.toFp
      have e1 : F.mul (.num (-2)) (.num s.sum) = .num (F.rnd (-2 * s.sum)) := fit_num F (up t1 (by omega) (by linarith) hM1 h1)
      have e2 : F.mul (.num s.count) (.num m) = .num (F.rnd (s.count * m)) := fit_num F (up t2 (by omega) (by linarith) hM1 h1)
      have e3 : F.add (.num (F.rnd (-2 * s.sum))) (.num (F.rnd (s.count * m))) =
          .num (F.rnd (F.rnd (-2 * s.sum) + F.rnd (s.count * m))) := fit_num F (up t3 (by omega) (by linarith) hM1 h1)
      have e4 : F.mul (.num (F.rnd (F.rnd (-2 * s.sum) + F.rnd (s.count * m)))) (.num m) =
          .num (F.rnd (F.rnd (F.rnd (-2 * s.sum) + F.rnd (s.count * m)) * m)) :=
        fit_num F (up t4 (by omega) (by linarith) hM2 h2)
      have e5 : F.add (.num s.sqrSum) (.num (F.rnd (F.rnd (F.rnd (-2 * s.sum) + F.rnd (s.count * m)) * m))) =
          .num (F.rnd (s.sqrSum + F.rnd (F.rnd (F.rnd (-2 * s.sum) + F.rnd (s.count * m)) * m))) :=
        fit_num F (up t5 (by omega) (by linarith) hM2 h2)
      have e6 : F.add (.num s.count) (.num (-1)) = .num ((xs.length : ℚ) - 1) := by
        simp only [FpX.add]
        rw [← sub_eq_add_neg, fit_num F, hi]
        rw [hi, abs_of_nonneg (by linarith)]
        refine le_trans ?_ F.wide
        have : (xs.length : ℚ) ≤ 2 ^ 53 := by exact_mod_cast hlen
        linarith
      rw [e1, e2, e3, e4, e5, e6, hi]
      simp only [FpX.div, if_neg (show (xs.length : ℚ) - 1 ≠ 0 by linarith), ofOpt]
      apply fit_num
      refine up t6 (by omega) ?_ hM2 h2
      have : (sqSum xs + 3 * sqSum xs) / ((xs.length : ℚ) - 1) ≤ sqSum xs + 3 * sqSum xs :=
        div_le_self (by linarith) (by linarith)
      linarith

/-- Two samples, of which the second is NaN: Min and Max are the first.  In the other order: Min and Max are NaN, though the
documentation says so only when no data has been collected, and though the same samples are reported on; no later sample
changes that. -/
theorem special_min_max_fails (F : FpX) :
    (SummaryX.run F [.probe (.num 1), .probe .nan]).min = .num 1 ∧
    (SummaryX.run F [.probe .nan, .probe (.num 1)]).min = .nan ∧
    (SummaryX.run F [.probe .nan, .probe (.num 1)]).max = .nan ∧
    (sinceX [.probe (.num 1), .probe .nan]).Perm (sinceX [.probe .nan, .probe (.num 1)]) ∧
    ∀ xs : List Dbl, (SummaryX.run F (.probe .nan :: xs.map .probe)).min = .nan := by
  refine ⟨?_, ?_, ?_, ?_, fun xs => ?_⟩
  · obtain ⟨h1, h2, -⟩ := ((special_min_max_partial F [.probe (.num 1), .probe .nan]).1 (.num 1) rfl (by simp)).1
    simp only [sinceX, List.foldl_cons, List.foldl_nil, List.nil_append, List.cons_append, List.mem_cons, List.not_mem_nil,
      or_false] at h1
    rcases h1 with h1 | h1
    · exact h1
    · exact absurd h1 h2
  · exact ((special_min_max_partial F [.probe .nan, .probe (.num 1)]).2 (.inr rfl)).1
  · exact ((special_min_max_partial F [.probe .nan, .probe (.num 1)]).2 (.inr rfl)).2
  · exact List.Perm.swap _ _ _
  · refine ((special_min_max_partial F _).2 (.inr ?_)).1
    have : ∀ (ys : List Dbl) (acc : List Dbl), (ys.map SOp.probe).foldl
        (fun acc o => match o with | .probe x => acc ++ [x] | .reset => []) acc = acc ++ ys := by
      intro ys
      induction ys with
      | nil => simp
      | cons y ys ih => intro acc; simp [ih]
    simp [sinceX, this]

/-- IEEE 754 binary64 with its greatest finite number.  (No code.) -/
def binary64X : FpX := { binary64 with
  big := (2 ^ 53 - 1) * 2 ^ 971
  wide := by
    have h : (2 : ℚ) ≤ 2 ^ 971 := le_self_pow₀ (by norm_num) (by norm_num)
    calc (2 : ℚ) ^ 53 ≤ (2 ^ 53 - 1) * 2 := by norm_num
      _ ≤ (2 ^ 53 - 1) * 2 ^ 971 := mul_le_mul_of_nonneg_left h (by norm_num) }

/-- Samples 3, infinity, NaN, -2 and then, after a `Reset`, twice the greatest finite number. -/
example : SummaryX.run binary64X [.probe (.num 3), .probe .pos, .probe .nan, .probe (.num (-2))] =
      ⟨.num (-2), .pos, .num 4, .nan, .nan⟩ ∧
    SummaryX.run binary64X [.probe .nan, .reset, .probe (.num ((2 ^ 53 - 1) * 2 ^ 971)), .probe (.num ((2 ^ 53 - 1) * 2 ^ 971))] =
      ⟨.num ((2 ^ 53 - 1) * 2 ^ 971), .num ((2 ^ 53 - 1) * 2 ^ 971), .num 2, .pos, .pos⟩ := by
  decide +kernel

/-- Samples that meet the bounds of `special_finite`. -/
example : ∀ ps, ps <+: [SOp.probe (1 : ℚ), .probe (-5)] →
    (1 + ulp) ^ ((since ps).length + 1) * ((since ps).map fun x => |x|).sum ≤ binary64X.big ∧
    (1 + ulp) ^ ((since ps).length + 1) * ((since ps).map fun x => x * x).sum ≤ binary64X.big := by
  have : ∀ ps ∈ List.inits [SOp.probe (1 : ℚ), .probe (-5)],
    (1 + ulp) ^ ((since ps).length + 1) * ((since ps).map fun x => |x|).sum ≤ binary64X.big ∧
    (1 + ulp) ^ ((since ps).length + 1) * ((since ps).map fun x => x * x).sum ≤ binary64X.big := by
    decide +kernel
  exact fun ps hp => this ps ((List.mem_inits _ _).mpr hp)

/-- Samples that meet the bounds of `special_stddev`, and what is under the root then. -/
example : (∀ ps, ps <+: [SOp.probe (1 : ℚ), .probe (-5)] →
      4 * ((1 + ulp) ^ (2 * (since ps).length + 7) * ((since ps).map fun x => |x|).sum) ≤ binary64X.big ∧
      4 * ((1 + ulp) ^ (2 * (since ps).length + 7) * ((since ps).map fun x => x * x).sum) ≤ binary64X.big) ∧
    (SummaryX.run binary64X [.probe (.num 1), .probe (.num (-5))]).dev binary64X = .num 18 ∧
    (SummaryX.run binary64X [.probe (.num 1), .probe (.num (-5)), .reset, .probe .pos]).dev binary64X = .nan := by
  refine ⟨?_, by decide +kernel, by decide +kernel⟩
  have : ∀ ps ∈ List.inits [SOp.probe (1 : ℚ), .probe (-5)],
      4 * ((1 + ulp) ^ (2 * (since ps).length + 7) * ((since ps).map fun x => |x|).sum) ≤ binary64X.big ∧
      4 * ((1 + ulp) ^ (2 * (since ps).length + 7) * ((since ps).map fun x => x * x).sum) ≤ binary64X.big := by
    decide +kernel
  exact fun ps hp => this ps ((List.mem_inits _ _).mpr hp)

end Verif.Stat
