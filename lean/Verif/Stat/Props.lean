import Verif.Stat.Model
import Mathlib.Algebra.BigOperators.Group.List.Basic
import Mathlib.Algebra.Order.Ring.Rat
import Mathlib.Tactic.FieldSimp
import Mathlib.Tactic.Ring
import Mathlib.Tactic.Linarith
import Mathlib.Data.List.Perm.Basic
import Mathlib.Data.List.Induction
set_option linter.unusedSimpArgs false
set_option linter.unusedVariables false
set_option linter.unusedSectionVars false
/-! Properties C69, C70, C71. -/
namespace Verif.Stat

/-! ### C69 -/
section
variable {K : Type} [Field K] [LinearOrder K] [IsStrictOrderedRing K]

/-- The samples since construction or the last `Reset`. -/
def since (os : List (SOp K)) : List K :=
  os.foldl (fun acc o => match o with | .probe x => acc ++ [x] | .reset => []) []

theorem run_snoc (os : List (SOp K)) (o : SOp K) : Summary.run (os ++ [o]) = (Summary.run os).step o := by
  simp [Summary.run]

theorem since_snoc_probe (os : List (SOp K)) (x : K) : since (os ++ [.probe x]) = since os ++ [x] := by simp [since]
theorem since_snoc_reset (os : List (SOp K)) : since (os ++ [.reset]) = [] := by simp [since]

/-- Everything the accumulator holds, in terms of the samples. -/
structure Holds (s : Summary K) (xs : List K) : Prop where
  count : s.count = (xs.length : K)
  sum : s.sum = xs.sum
  sqr : s.sqrSum = (xs.map fun x => x * x).sum
  min : ∀ m, s.min = some m ↔ m ∈ xs ∧ ∀ x ∈ xs, m ≤ x
  max : ∀ m, s.max = some m ↔ m ∈ xs ∧ ∀ x ∈ xs, x ≤ m
  some : xs ≠ [] → s.min.isSome ∧ s.max.isSome

theorem holds_init : Holds (Summary.init : Summary K) [] := by
  constructor <;> simp [Summary.init]

theorem count_ne {s : Summary K} {xs : List K} (h : Holds s xs) : s.count = 0 ↔ xs = [] := by
  rw [h.count]
  cases xs with
  | nil => simp
  | cons a t => simp; positivity

theorem holds_probe {s : Summary K} {xs : List K} (h : Holds s xs) (x : K) : Holds (s.onProbe x) (xs ++ [x]) := by
  have hc := count_ne h
  by_cases hx : xs = []
  · subst hx
    have h0 : s.count = 0 := hc.mpr rfl
    have hs := h.sum
    have hq := h.sqr
    simp at hs hq
    constructor <;> simp [Summary.onProbe, h0, hs, hq]
    · intro m; constructor
      · rintro rfl; exact ⟨rfl, le_refl _⟩
      · rintro ⟨rfl, _⟩; rfl
    · intro m; constructor
      · rintro rfl; exact ⟨rfl, le_refl _⟩
      · rintro ⟨rfl, _⟩; rfl
  · have h0 : s.count ≠ 0 := fun e => hx (hc.mp e)
    obtain ⟨h1, h2⟩ := h.some hx
    obtain ⟨a, ha⟩ := Option.isSome_iff_exists.mp h1
    obtain ⟨b, hb⟩ := Option.isSome_iff_exists.mp h2
    obtain ⟨ha1, ha2⟩ := (h.min a).mp ha
    obtain ⟨hb1, hb2⟩ := (h.max b).mp hb
    constructor
    · simp [Summary.onProbe, h.count]
    · simp [Summary.onProbe, h.sum]
    · simp [Summary.onProbe, h.sqr]
    · intro m
      simp only [Summary.onProbe, if_neg h0, ha]
      by_cases hax : a > x
      · simp only [if_pos hax]
        constructor
        · rintro ⟨⟩
          refine ⟨by simp, fun y hy => ?_⟩
          rcases List.mem_append.mp hy with hy | hy
          · exact le_trans (le_of_lt hax) (ha2 y hy)
          · simp at hy; simp [hy]
        · rintro ⟨hm1, hm2⟩
          rcases List.mem_append.mp hm1 with hy | hy
          · exact absurd (lt_of_lt_of_le hax (ha2 m hy)) (not_lt.mpr (hm2 x (by simp)))
          · simp at hy; simp [hy]
      · simp only [if_neg hax]
        have hax' : a ≤ x := not_lt.mp hax
        constructor
        · rintro ⟨⟩
          refine ⟨by simp [ha1], fun y hy => ?_⟩
          rcases List.mem_append.mp hy with hy | hy
          · exact ha2 y hy
          · simp at hy; simp [hy, hax']
        · rintro ⟨hm1, hm2⟩
          have : m ≤ a := hm2 a (by simp [ha1])
          rcases List.mem_append.mp hm1 with hy | hy
          · rw [le_antisymm this (ha2 m hy)]
          · simp at hy; subst hy; rw [le_antisymm this hax']
    · intro m
      simp only [Summary.onProbe, if_neg h0, hb]
      by_cases hax : b < x
      · simp only [if_pos hax]
        constructor
        · rintro ⟨⟩
          refine ⟨by simp, fun y hy => ?_⟩
          rcases List.mem_append.mp hy with hy | hy
          · exact le_trans (hb2 y hy) (le_of_lt hax)
          · simp at hy; simp [hy]
        · rintro ⟨hm1, hm2⟩
          rcases List.mem_append.mp hm1 with hy | hy
          · exact absurd (lt_of_le_of_lt (hb2 m hy) hax) (not_lt.mpr (hm2 x (by simp)))
          · simp at hy; simp [hy]
      · simp only [if_neg hax]
        have hax' : x ≤ b := not_lt.mp hax
        constructor
        · rintro ⟨⟩
          refine ⟨by simp [hb1], fun y hy => ?_⟩
          rcases List.mem_append.mp hy with hy | hy
          · exact hb2 y hy
          · simp at hy; simp [hy, hax']
        · rintro ⟨hm1, hm2⟩
          have : b ≤ m := hm2 b (by simp [hb1])
          rcases List.mem_append.mp hm1 with hy | hy
          · rw [le_antisymm this (hb2 m hy)]
          · simp at hy; subst hy; rw [le_antisymm this hax']
    · intro _
      simp only [Summary.onProbe, if_neg h0, ha, hb]
      constructor <;> split <;> rfl

theorem holds_run (os : List (SOp K)) : Holds (Summary.run os) (since os) := by
  induction os using List.reverseRecOn with
  | nil => exact holds_init
  | append_singleton os o ih =>
    rw [run_snoc]
    cases o with
    | probe x => rw [since_snoc_probe]; exact holds_probe ih x
    | reset => rw [since_snoc_reset]; exact holds_init

/-- Count and Sum. -/
theorem C69_count_sum (os : List (SOp K)) :
    (Summary.run os).count = ((since os).length : K) ∧ (Summary.run os).sum = (since os).sum :=
  ⟨(holds_run os).count, (holds_run os).sum⟩

/-- Min is the least sample, NaN without samples. -/
theorem C69_min (os : List (SOp K)) :
    (∀ m, (Summary.run os).min = some m ↔ m ∈ since os ∧ ∀ x ∈ since os, m ≤ x) ∧
    ((Summary.run os).min = none ↔ since os = []) := by
  have h := holds_run os
  refine ⟨h.min, ⟨fun e => ?_, fun e => ?_⟩⟩
  · by_contra hne; have := (h.some hne).1; rw [e] at this; cases this
  · cases hm : (Summary.run os).min with
    | none => rfl
    | some m => have := ((h.min m).mp hm).1; rw [e] at this; cases this

/-- Max is the greatest sample, NaN without samples. -/
theorem C69_max (os : List (SOp K)) :
    (∀ m, (Summary.run os).max = some m ↔ m ∈ since os ∧ ∀ x ∈ since os, x ≤ m) ∧
    ((Summary.run os).max = none ↔ since os = []) := by
  have h := holds_run os
  refine ⟨h.max, ⟨fun e => ?_, fun e => ?_⟩⟩
  · by_contra hne; have := (h.some hne).2; rw [e] at this; cases this
  · cases hm : (Summary.run os).max with
    | none => rfl
    | some m => have := ((h.max m).mp hm).1; rw [e] at this; cases this

/-- Mean is the arithmetic mean, NaN without samples. -/
theorem C69_mean (os : List (SOp K)) :
    (Summary.run os).mean = if since os = [] then none else some ((since os).sum / ((since os).length : K)) := by
  have h := holds_run os
  unfold Summary.mean
  by_cases hx : since os = []
  · rw [if_pos ((count_ne h).mpr hx), if_pos hx]
  · rw [if_neg (fun e => hx ((count_ne h).mp e)), if_neg hx, h.sum, h.count]

/-- Sum of squared deviations from any centre. -/
theorem sum_sq_dev (xs : List K) (m : K) :
    (xs.map fun x => (x - m) * (x - m)).sum = (xs.map fun x => x * x).sum + (-2 * xs.sum + (xs.length : K) * m) * m := by
  induction xs with
  | nil => simp
  | cons a t ih => simp only [List.map_cons, List.sum_cons, ih, List.length_cons, Nat.cast_add, Nat.cast_one]; ring

/-- The value under the root of Stddev is the (n-1)-normalised variance about the mean; NaN below two samples. -/
theorem C69_variance (os : List (SOp K)) :
    let xs := since os
    let mean := xs.sum / (xs.length : K)
    (Summary.run os).dev =
      if xs.length < 2 then none else some ((xs.map fun x => (x - mean) * (x - mean)).sum / ((xs.length : K) - 1)) := by
  intro xs mean
  have h := holds_run os
  have hlt : (Summary.run os).count < 2 ↔ xs.length < 2 := by
    rw [h.count]; exact_mod_cast Iff.rfl
  unfold Summary.dev
  by_cases hx : xs.length < 2
  · rw [if_pos (hlt.mpr hx), if_pos hx]
  · rw [if_neg (fun e => hx (hlt.mp e)), if_neg hx]
    simp only [h.sum, h.sqr, h.count]
    rw [sum_sq_dev]

/-- The variance is never negative, so the root exists; it vanishes exactly when all samples agree. -/
theorem C69_variance_nonneg (os : List (SOp K)) (v : K) (hv : (Summary.run os).dev = some v) :
    0 ≤ v ∧ (v = 0 ↔ ∀ x ∈ since os, ∀ y ∈ since os, x = y) := by
  have h := C69_variance os
  simp only at h
  rw [h] at hv
  by_cases hx : (since os).length < 2
  · rw [if_pos hx] at hv; cases hv
  rw [if_neg hx] at hv
  cases hv
  generalize hm : (since os).sum / ((since os).length : K) = m
  have hn2 : (2 : K) ≤ ((since os).length : K) := by exact_mod_cast not_lt.mp hx
  have hd : (0 : K) < ((since os).length : K) - 1 := by linarith
  have key : ∀ l : List K, 0 ≤ (l.map fun x => (x - m) * (x - m)).sum ∧
      ((l.map fun x => (x - m) * (x - m)).sum = 0 ↔ ∀ x ∈ l, x = m) := by
    intro l
    induction l with
    | nil => simp
    | cons a t ih =>
      have hs := mul_self_nonneg (a - m)
      simp only [List.map_cons, List.sum_cons, List.forall_mem_cons]
      refine ⟨add_nonneg hs ih.1, ?_⟩
      rw [add_eq_zero_iff_of_nonneg hs ih.1, ih.2, mul_self_eq_zero, sub_eq_zero]
  obtain ⟨k1, k2⟩ := key (since os)
  refine ⟨div_nonneg k1 hd.le, ?_⟩
  rw [div_eq_zero_iff]
  constructor
  · rintro (e | e)
    · intro x hx y hy; rw [k2.mp e x hx, k2.mp e y hy]
    · exact absurd e (ne_of_gt hd)
  · intro e
    left
    rw [k2]
    intro x hx
    have hall : ∀ l : List K, (∀ y ∈ l, y = x) → l.sum = (l.length : K) * x := by
      intro l hl
      induction l with
      | nil => simp
      | cons a t ih =>
        rw [List.sum_cons, ih (fun y hy => hl y (by simp [hy])), hl a (by simp), List.length_cons]; push_cast; ring
    rw [← hm, hall _ (fun y hy => e y hy x hx), mul_div_cancel_left₀ _ (by linarith)]

/-- The order of the samples is irrelevant. -/
theorem C69_order (os os' : List (SOp K)) (h : (since os).Perm (since os')) : Summary.run os = Summary.run os' := by
  have a := holds_run os
  have b := holds_run os'
  have e1 : (Summary.run os).min = (Summary.run os').min := by
    apply Option.ext; intro m
    rw [a.min, b.min]; simp [h.mem_iff]
  have e2 : (Summary.run os).max = (Summary.run os').max := by
    apply Option.ext; intro m
    rw [a.max, b.max]; simp [h.mem_iff]
  have e3 := a.count.trans (by rw [h.length_eq] : _ = ((since os').length : K)) |>.trans b.count.symm
  have e4 := a.sum.trans h.sum_eq |>.trans b.sum.symm
  have e5 := a.sqr.trans (h.map _).sum_eq |>.trans b.sqr.symm
  generalize Summary.run os = s at *
  generalize Summary.run os' = t at *
  cases s; cases t; simp_all
end

/-- Samples 9, Reset, 2, 4, 9: mean 5, variance 13. -/
example : let s : Summary ℚ := Summary.run [.probe 9, .reset, .probe 2, .probe 4, .probe 9]
    s.min = some 2 ∧ s.max = some 9 ∧ s.mean = some 5 ∧ s.dev = some 13 := by
  simp [Summary.run, Summary.step, Summary.init, Summary.onProbe, Summary.mean, Summary.dev]; norm_num

/-! ### C70 -/
section
variable {N V : Type} [DecidableEq N]

theorem look_nil (n : N) : look ([] : Items N V) n = none := rfl

theorem look_cons (e : N × V) (c : Items N V) (n : N) : look (e :: c) n = if e.1 = n then some e.2 else look c n := by
  unfold look
  by_cases h : e.1 = n <;> simp [h]

theorem look_append (c d : Items N V) (n : N) : look (c ++ d) n = (look c n).or (look d n) := by
  induction c with
  | nil => simp [look_nil]
  | cons e c ih => rw [List.cons_append, look_cons, look_cons, ih]; split <;> simp

theorem look_none_iff (c : Items N V) (n : N) : look c n = none ↔ n ∉ c.map (·.1) := by
  induction c with
  | nil => simp [look_nil]
  | cons e c ih =>
    rw [look_cons]
    by_cases h : e.1 = n
    · simp [h]
    · rw [if_neg h, ih]; simp [Ne.symm h]

theorem has_iff (c : Items N V) (n : N) : has c n = true ↔ (look c n).isSome := by
  unfold has
  induction c with
  | nil => simp [look_nil]
  | cons e c ih => rw [look_cons, List.countP_cons]; by_cases h : e.1 = n <;> simp_all

theorem look_erase (c : Items N V) (m n : N) : look (erase c m) n = if m = n then none else look c n := by
  induction c with
  | nil => simp [erase, look_nil]
  | cons e c ih =>
    unfold erase at ih ⊢
    rw [List.filter_cons]
    by_cases h : e.1 = m
    · simp only [h, ne_eq, not_true_eq_false, decide_false, Bool.false_eq_true, ↓reduceIte, ih, look_cons]
      split <;> rfl
    · simp only [ne_eq, h, not_false_eq_true, decide_true, ↓reduceIte, look_cons, ih]
      by_cases h2 : e.1 = n
      · subst h2; simp [Ne.symm h]
      · simp [h2]

/-- The calls on a set of containers; `merge i f j names` is `MergeFrom(container j, prefix)` on container `i`, where `f` puts the
prefix before a name and `names` is the order in which the enumerator of `j` gives the names. -/
inductive COp (N V : Type) where
  | add (i : Nat) (n : N) (v : V)
  | erase (i : Nat) (n : N)
  | merge (i : Nat) (f : N → N) (j : Nat) (names : List N)

/-- One call; `none` for an exception of `Get` inside `MergeFrom`.  `Add` of a present name throws: the Boolean. -/
def cstep (st : Nat → Items N V) : COp N V → Option (Bool × (Nat → Items N V))
  | .add i n v => some ((add (st i) n v).1, Function.update st i (add (st i) n v).2)
  | .erase i n => some (true, Function.update st i (erase (st i) n))
  | .merge i f j names => (mergeLoop f (st j) names (st i)).map fun c => (true, Function.update st i c)

/-- The enumerator really enumerates, and prefixing is injective. -/
def COk (st : Nat → Items N V) : COp N V → Prop
  | .merge _ f j names => Order (st j) names ∧ Function.Injective f
  | _ => True

/-- What a call does to the association of names with objects. -/
def cspec (m : Nat → N → Option V) : COp N V → (Nat → N → Option V) → Prop
  | .add i n v, m' => (∀ k x, (k, x) ≠ (i, n) → m' k x = m k x) ∧ m' i n = (m i n).or (some v)
  | .erase i n, m' => (∀ k x, (k, x) ≠ (i, n) → m' k x = m k x) ∧ m' i n = none
  | .merge i f j _, m' => (∀ k, k ≠ i → m' k = m k) ∧
      (∀ x v, m i x = some v → m' i x = some v) ∧
      (∀ x, m i x = none → ∀ v, m' i x = some v ↔ ∃ y, f y = x ∧ m j y = some v)

theorem mergeLoop_spec {f : N → N} (hf : Function.Injective f) (d : Items N V) :
    ∀ (names : List N) (c : Items N V), names.Nodup → (∀ n ∈ names, (look d n).isSome) →
    ∃ c', mergeLoop f d names c = some c' ∧ ∀ x, look c' x = (look c x).or
      (if ∃ y ∈ names, f y = x then (names.findSome? fun y => if f y = x then look d y else none) else none)
  | [], c, _, _ => ⟨c, rfl, by simp⟩
  | n :: t, c, hn, hs => by
    obtain ⟨hnt, hn'⟩ := List.nodup_cons.mp hn
    obtain ⟨v, hv⟩ := Option.isSome_iff_exists.mp (hs n (by simp))
    have hs' : ∀ m ∈ t, (look d m).isSome := fun m hm => hs m (by simp [hm])
    obtain ⟨c', h1, h2⟩ := mergeLoop_spec hf d t (match look c (f n) with
      | some _ => c
      | none => c ++ [(f n, v)]) hn' hs'
    refine ⟨c', by rw [mergeLoop, get, hv]; exact h1, fun x => ?_⟩
    rw [h2 x]
    have ex : ∀ y, f y = f n → y = n := fun y e => hf e
    by_cases hx : f n = x
    · subst hx
      have e1 : ¬ ∃ y ∈ t, f y = f n := by rintro ⟨y, hy, e⟩; exact hnt (ex y e ▸ hy)
      rw [if_neg e1, if_pos ⟨n, by simp, rfl⟩]
      cases hc : look c (f n) with
      | some w => simp [hc]
      | none => simp [look_append, hc, look_cons, look_nil, hv]
    · have e2 : (∃ y ∈ n :: t, f y = x) ↔ ∃ y ∈ t, f y = x := by simp [hx]
      simp only [e2, List.findSome?_cons, if_neg hx]
      congr 1
      cases hc : look c (f n) with
      | some w => rfl
      | none => simp [look_append, look_cons, look_nil, hx]

/-- Names are unique in every container. -/
def Uniq (st : Nat → Items N V) : Prop := ∀ i, ((st i).map (·.1)).Nodup

theorem mergeLoop_uniq {f : N → N} (d : Items N V) : ∀ (names : List N) (c c' : Items N V),
    mergeLoop f d names c = some c' → (c.map (·.1)).Nodup → (c'.map (·.1)).Nodup
  | [], c, c', h, hc => by cases h; exact hc
  | n :: t, c, c', h, hc => by
    rw [mergeLoop] at h
    cases hg : get d n with
    | none => rw [hg] at h; cases h
    | some v =>
      rw [hg] at h
      refine mergeLoop_uniq d t _ c' h ?_
      cases hl : look c (f n) with
      | some _ => exact hc
      | none =>
        have := (look_none_iff c (f n)).mp hl
        simp only [List.map_append, List.map_cons, List.map_nil]
        exact List.nodup_append.mpr ⟨hc, by simp, by
          rintro a ha b hb rfl; simp at hb; subst hb; exact this ha⟩

theorem uniq_step {st st' : Nat → Items N V} {o : COp N V} {b : Bool} (hu : Uniq st) (h : cstep st o = some (b, st')) :
    Uniq st' := by
  intro k
  cases o with
  | add i n v =>
    simp only [cstep, Option.some.injEq, Prod.mk.injEq] at h
    obtain ⟨_, rfl⟩ := h
    by_cases hk : k = i
    · subst hk
      simp only [Function.update_self, add]
      cases hl : look (st k) n with
      | some _ => exact hu k
      | none =>
        have := (look_none_iff (st k) n).mp hl
        simp only [List.map_append, List.map_cons, List.map_nil]
        exact List.nodup_append.mpr ⟨hu k, by simp, by
          rintro a ha b hb rfl; simp at hb; subst hb; exact this ha⟩
    · simp only [Function.update_of_ne hk]; exact hu k
  | erase i n =>
    simp only [cstep, Option.some.injEq, Prod.mk.injEq] at h
    obtain ⟨_, rfl⟩ := h
    by_cases hk : k = i
    · subst hk
      simp only [Function.update_self, erase]
      exact (hu k).sublist (List.filter_sublist.map _)
    · simp only [Function.update_of_ne hk]; exact hu k
  | merge i f j names =>
    simp only [cstep, Option.map_eq_some_iff, Prod.mk.injEq] at h
    obtain ⟨c, hc, _, rfl⟩ := h
    by_cases hk : k = i
    · subst hk
      simp only [Function.update_self]
      exact mergeLoop_uniq _ _ _ _ hc (hu k)
    · simp only [Function.update_of_ne hk]; exact hu k

/-- In every state with unique names every call succeeds (apart from the exception of `Add`), has exactly the documented effect
on the names and objects, and `Add` throws exactly for a present name, changing nothing.  Containers may be merged into
themselves. -/
theorem C70_step (st : Nat → Items N V) (hu : Uniq st) (o : COp N V) (ho : COk st o) :
    ∃ b st', cstep st o = some (b, st') ∧ Uniq st' ∧ cspec (fun i n => get (st i) n) o (fun i n => get (st' i) n) ∧
      (∀ i n v, o = .add i n v → (b = !has (st i) n) ∧ (b = false → st' = st)) := by
  have huniq : ∀ b st', cstep st o = some (b, st') → Uniq st' := fun b st' => uniq_step hu
  cases o with
  | add i n v =>
    refine ⟨_, _, rfl, huniq _ _ rfl, ⟨fun k x hkx => ?_, ?_⟩, ?_⟩
    · dsimp only [get]
      by_cases hk : k = i
      · subst hk
        have hx : n ≠ x := fun e => hkx (by rw [e])
        simp only [Function.update_self, add]
        cases hl : look (st k) n with
        | some _ => rfl
        | none => simp [look_append, look_cons, look_nil, hx]
      · rw [Function.update_of_ne hk]
    · simp only [get, Function.update_self, add]
      cases hl : look (st i) n with
      | some _ => simp [hl]
      | none => simp [look_append, look_cons, look_nil, hl]
    · rintro i' n' v' ⟨⟩
      have hh := has_iff (st i) n
      simp only [add]
      cases hl : look (st i) n with
      | some w => rw [hl] at hh; simp at hh; simp [hh]
      | none => rw [hl] at hh; simp at hh; simp [hh]
  | erase i n =>
    refine ⟨_, _, rfl, huniq _ _ rfl, ⟨fun k x hkx => ?_, ?_⟩, by rintro _ _ _ ⟨⟩⟩
    · dsimp only [get]
      by_cases hk : k = i
      · subst hk
        have hx : n ≠ x := fun e => hkx (by rw [e])
        simp only [Function.update_self, look_erase, if_neg hx]
      · rw [Function.update_of_ne hk]
    · simp [get, look_erase]
  | merge i f j names =>
    obtain ⟨hord, hf⟩ := ho
    have hmem : ∀ n, n ∈ names ↔ (look (st j) n).isSome := by
      intro n
      rw [hord.mem_iff]
      have := look_none_iff (st j) n
      cases hl : look (st j) n <;> simp_all
    obtain ⟨c', h1, h2⟩ := mergeLoop_spec hf (st j) names (st i) (hord.nodup_iff.mpr (hu j)) (fun n hn => (hmem n).mp hn)
    have e : cstep st (.merge i f j names) = some (true, Function.update st i c') := by simp [cstep, h1]
    refine ⟨_, _, e, huniq _ _ e, ⟨fun k hk => ?_, fun x v hv => ?_, fun x hx v => ?_⟩, by rintro _ _ _ ⟨⟩⟩
    · funext x; simp only [Function.update_of_ne hk]
    · dsimp only [get] at *; simp [h2, hv]
    · dsimp only [get] at *
      simp only [Function.update_self, h2, hx, Option.none_or]
      constructor
      · intro h
        split at h
        · obtain ⟨y, hy, e⟩ := List.exists_of_findSome?_eq_some h
          by_cases hfy : f y = x
          · rw [if_pos hfy] at e; exact ⟨y, hfy, e⟩
          · rw [if_neg hfy] at e; cases e
        · cases h
      · rintro ⟨y, rfl, hy⟩
        have hyn : y ∈ names := (hmem y).mpr (by simp [hy])
        rw [if_pos ⟨y, hyn, rfl⟩]
        cases hfs : names.findSome? (fun z => if f z = f y then look (st j) z else none) with
        | none =>
          have := List.findSome?_eq_none_iff.mp hfs y hyn
          simp [hy] at this
        | some w =>
          obtain ⟨z, _, e⟩ := List.exists_of_findSome?_eq_some hfs
          by_cases hfz : f z = f y
          · rw [if_pos hfz, hf hfz, hy] at e; exact e ▸ rfl
          · rw [if_neg hfz] at e; cases e

/-- `Has` is true exactly for the names that `Get` finds. -/
theorem C70_has (c : Items N V) (n : N) : has c n = true ↔ ∃ v, get c n = some v := by
  rw [has_iff]; exact Option.isSome_iff_exists

/-- States reached by calls from empty containers. -/
inductive CReach : (Nat → Items N V) → Prop where
  | init : CReach fun _ => []
  | step {st st' o b} : CReach st → COk st o → cstep st o = some (b, st') → CReach st'

theorem C70_reach {st : Nat → Items N V} (h : CReach st) : Uniq st := by
  induction h with
  | init => intro i; simp
  | step _ _ h ih => exact uniq_step ih h

/-- Putting a prefix before a name is injective, as `COk` asks. -/
theorem prefix_injective (p : List Char) : Function.Injective (fun n : List Char => p ++ n) :=
  fun a b h => List.append_cancel_left h

/-- Merging container 0 into itself with a prefix and a clash. -/
example : ((cstep (fun i => if i = 0 then [("x".toList, 1), ("px".toList, 2)] else [])
      (.merge 0 (fun n => 'p' :: n) 0 ["px".toList, "x".toList])).map fun r => r.2 0) =
    some [("x".toList, 1), ("px".toList, 2), ("ppx".toList, 2)] := by decide

/-! ### C71 -/

theorem drain_eq : ∀ (k : Nat) (e : Enum N), e.items.length - e.index ≤ k →
    (Enum.drain k e).1 = e.items.drop e.index ∧ (Enum.drain k e).2.items = e.items ∧
      (Enum.drain k e).2.hasNext = false
  | 0, e, h => by
    have : e.items.length ≤ e.index := by omega
    simp only [Enum.drain, Enum.hasNext, List.drop_eq_nil_of_le this, true_and]; exact decide_eq_false (not_lt.mpr this)
  | k + 1, e, h => by
    rw [Enum.drain]
    by_cases hn : e.index < e.items.length
    · have hh : e.hasNext = true := by simp [Enum.hasNext, hn]
      have hx : e.next = (some e.items[e.index], { e with index := e.index + 1 }) := by
        simp [Enum.next, List.getElem?_eq_getElem hn]
      obtain ⟨a, b, c⟩ := drain_eq k { e with index := e.index + 1 } (by dsimp only; omega)
      simp only [if_pos hh, hx]
      refine ⟨?_, b, c⟩
      rw [a, List.drop_eq_getElem_cons hn]
    · have hh : e.hasNext = false := by simp [Enum.hasNext]; omega
      have : e.items.length ≤ e.index := by omega
      simp [hh, List.drop_eq_nil_of_le this]

/-- From construction, or after `Reset` in any state of the enumeration, the calls give each name of the snapshot exactly once
(in the order of the snapshot), and then `Next` throws. -/
theorem C71_enumerates (c : Items N V) (hu : (c.map (·.1)).Nodup) (names : List N) (ho : Order c names) (pre : List Bool) :
    -- any calls of `Next` (true) and `Reset` (false), then `Reset`
    let e := (pre.foldl (fun (e : Enum N) b => if b then e.next.2 else e.reset) (Enum.make names)).reset
    let r := Enum.drain names.length e
    r.1 = names ∧ r.1.Nodup ∧ (∀ n, n ∈ r.1 ↔ has c n = true) ∧ r.2.hasNext = false ∧ r.2.next = (none, r.2) ∧
      Enum.drain names.length (Enum.make names) = r := by
  have hitems : ∀ (e0 : Enum N), e0.items = names →
      (pre.foldl (fun (e : Enum N) b => if b then e.next.2 else e.reset) e0).items = names := by
    induction pre with
    | nil => intro e0 h; exact h
    | cons b t ih =>
      intro e0 h
      apply ih
      cases b
      · exact h
      · simp only [Enum.next, if_true]; split <;> exact h
  have he : (pre.foldl (fun (e : Enum N) b => if b then e.next.2 else e.reset) (Enum.make names)).reset = Enum.make names := by
    have := hitems (Enum.make names) rfl
    generalize (pre.foldl (fun (e : Enum N) b => if b then e.next.2 else e.reset) (Enum.make names)) = q at *
    cases q; simp only at this; subst this; rfl
  intro e r
  have hr : r = Enum.drain names.length (Enum.make names) := by simp only [r, e, he]
  obtain ⟨a, b, d⟩ := drain_eq names.length (Enum.make names) (by simp [Enum.make])
  simp only [Enum.make, List.drop_zero] at a b
  refine ⟨by rw [hr]; exact a, by rw [hr]; exact a.symm ▸ ho.nodup_iff.mpr hu, fun n => ?_, by rw [hr]; exact d, ?_, hr.symm⟩
  · rw [hr, has_iff]
    have := look_none_iff c n
    have e2 : n ∈ (Enum.drain names.length (Enum.make names)).1 ↔ n ∈ c.map (·.1) := by
      rw [show (Enum.drain names.length (Enum.make names)).1 = names from a]; exact ho.mem_iff
    rw [e2]
    cases hl : look c n <;> simp_all
  · rw [hr]
    generalize Enum.drain names.length (Enum.make names) = q at *
    have hlen : q.2.items.length ≤ q.2.index := by simpa [Enum.hasNext] using d
    simp [Enum.next, List.getElem?_eq_none hlen]

/-- `Next` succeeds exactly when `HasNext` is true. -/
theorem C71_hasNext (e : Enum N) : e.hasNext = true ↔ ∃ n e', e.next = (some n, e') := by
  unfold Enum.hasNext Enum.next
  by_cases h : e.index < e.items.length
  · simp [h]
  · simp [h]

/-- Two names given in the reverse of their order of insertion. -/
example : Order [(1, 'a'), (2, 'b')] [2, 1] ∧
    (Enum.drain 2 (Enum.make [2, 1])).1 = [2, 1] := ⟨by unfold Order; decide, by decide⟩
end

end Verif.Stat
