import Verif.Address.Bits
set_option linter.unusedSimpArgs false
set_option linter.unusedVariables false
set_option linter.unusedSectionVars false
/-
Helper lemmas about operations on addresses.
-/
namespace Verif.Address
open Verif

theorem int_mod_of {a b z : Int} {k n : Nat} (h : k ≤ n) (e : a = b + 2 ^ n * z) : a % 2 ^ k = b % 2 ^ k := by
  have hc : (2 : Int) ^ n = 2 ^ k * 2 ^ (n - k) := by rw [← Int.pow_add]; congr 1; omega
  rw [e, hc, Int.mul_assoc, Int.add_mul_emod_self_left]

/-- The sign extension of a 64-bit number to `L` words. -/
theorem ext_int {n : Int} (h1 : -2 ^ 63 ≤ n) (h2 : n < 2 ^ 63) {L : Nat} (hL : 2 ≤ L) {ex : Nat}
    (he : ex = if n ≥ 0 then 0 else vmask) : ∃ z : Int,
    (((n % 2 ^ 32).toNat + 2 ^ 32 * ((n / 2 ^ 32 % 2 ^ 32).toNat + 2 ^ 32 * value 32 (List.replicate (L - 2) ex)) : Nat) : Int) =
      n + 2 ^ (32 * L) * z := by
  by_cases hn : n ≥ 0
  · rw [if_pos hn] at he
    subst he
    rw [value_zeros]
    exact ⟨0, by omega⟩
  · rw [if_neg hn] at he
    subst he
    have o := value_ones (L - 2)
    refine ⟨1, ?_⟩
    have e : (2 : Int) ^ (32 * L) = 2 ^ 64 * (value 32 (List.replicate (L - 2) vmask) + 1 : Nat) := by
      rw [o, show 32 * L = 64 + 32 * (L - 2) by omega, Int.pow_add]
      simp
    rw [e]
    generalize value 32 (List.replicate (L - 2) vmask) = V
    omega

section
variable {bits : Nat} (hb : 0 < bits)
include hb

theorem inc_ok {l : Limbs} (h : Wf bits l) :
    Wf bits (increment bits l) ∧ value (vb bits) (increment bits l) = (value (vb bits) l + 1) % 2 ^ bits := by
  unfold increment
  by_cases h1 : nv bits = 1
  · rw [if_pos h1]
    exact onWord_ok hb h.len h1 (· + 1)
  · rw [if_neg h1]
    obtain ⟨e, _, hm⟩ := multi hb h1
    have hs := h.small
    rw [e] at hs
    obtain ⟨i1, i2, i3⟩ := incLoop_ok hs
    obtain ⟨m1, m2⟩ := maskTop_ok hb (l := incLoop l) (by rw [i1, h.len]) (by rw [e]; exact i2)
    refine ⟨m1, ?_⟩
    rw [m2, e, i3, Nat.mod_mod_of_dvd]
    rw [h.len]; exact Nat.pow_dvd_pow 2 hm

theorem dec_ok {l : Limbs} (h : Wf bits l) :
    Wf bits (decrement bits l) ∧
      ((value (vb bits) (decrement bits l) : Nat) : Int) = (value (vb bits) l - 1 : Int) % 2 ^ bits := by
  unfold decrement
  by_cases h1 : nv bits = 1
  · rw [if_pos h1]
    obtain ⟨o1, o2⟩ := onWord_ok hb h.len h1 (fun v => v + (2 ^ vb bits - 1))
    refine ⟨o1, ?_⟩
    rw [o2]
    have sh := (shape bits hb).2.2.2.1
    rw [h1, Nat.mul_one] at sh
    push_cast
    apply int_mod_of (z := 1) sh
    have := Nat.two_pow_pos (vb bits)
    rw [Int.natCast_sub (by omega)]
    push_cast; omega
  · rw [if_neg h1]
    obtain ⟨e, _, hm⟩ := multi hb h1
    have hs := h.small
    rw [e] at hs
    obtain ⟨i1, i2, i3⟩ := decLoop_ok hs
    obtain ⟨m1, m2⟩ := maskTop_ok hb (l := decLoop l) (by rw [i1, h.len]) (by rw [e]; exact i2)
    refine ⟨m1, ?_⟩
    rw [m2, e, i3, Nat.mod_mod_of_dvd]
    · push_cast
      rw [h.len]
      apply int_mod_of (z := 1) hm
      have := Nat.two_pow_pos (32 * nv bits)
      rw [Int.natCast_sub (by omega)]
      push_cast; omega
    · rw [h.len]; exact Nat.pow_dvd_pow 2 hm

theorem word_add {l : Limbs} (h : Wf bits l) (h1 : nv bits = 1) (n : Int) :
    Wf bits (onWord (fun v => (v + (n % 2 ^ vb bits).toNat) % 2 ^ vb bits &&& msv bits) l) ∧
      ((value (vb bits) (onWord (fun v => (v + (n % 2 ^ vb bits).toNat) % 2 ^ vb bits &&& msv bits) l) : Nat) : Int) =
        (value (vb bits) l + n : Int) % 2 ^ bits := by
  obtain ⟨o1, o2⟩ := onWord_ok hb h.len h1 (fun v => v + (n % 2 ^ vb bits).toNat)
  refine ⟨o1, ?_⟩
  rw [o2]
  have sh := (shape bits hb).2.2.2.1
  rw [h1, Nat.mul_one] at sh
  push_cast
  have : 0 ≤ n % 2 ^ vb bits := Int.emod_nonneg _ (by have := Int.pow_pos (n := 2) (m := vb bits) (by omega); omega)
  rw [Int.toNat_of_nonneg this]
  apply int_mod_of (z := -(n / 2 ^ vb bits)) sh
  have := Int.emod_add_mul_ediv n (2 ^ vb bits)
  rw [Int.mul_neg]; omega

theorem words_add {l : Limbs} (h : Wf bits l) (h1 : nv bits ≠ 1) {n : Int} (hn1 : -2 ^ 63 ≤ n) (hn2 : n < 2 ^ 63) :
    Wf bits (maskTop bits (addWords (n % 2 ^ 32).toNat (n / 2 ^ 32 % 2 ^ 32).toNat (if n ≥ 0 then 0 else vmask) l)) ∧
      ((value (vb bits) (maskTop bits (addWords (n % 2 ^ 32).toNat (n / 2 ^ 32 % 2 ^ 32).toNat (if n ≥ 0 then 0 else vmask) l)) : Nat) : Int) =
        (value (vb bits) l + n : Int) % 2 ^ bits := by
  obtain ⟨e, h3, hm⟩ := multi hb h1
  have hs := h.small
  rw [e] at hs
  obtain ⟨i1, i2, q, i3⟩ := addWords_ok (lo := (n % 2 ^ 32).toNat) (hi := (n / 2 ^ 32 % 2 ^ 32).toNat)
    (ex := if n ≥ 0 then 0 else vmask) (by omega) (by omega) (by split <;> simp [vmask]) (by rw [h.len]; omega) hs
  obtain ⟨z, hz⟩ := ext_int hn1 hn2 (L := l.length) (by rw [h.len]; omega) rfl
  obtain ⟨m1, m2⟩ := maskTop_ok hb (l := addWords _ _ _ l) (by rw [i1, h.len]) (by rw [e]; exact i2)
  refine ⟨m1, ?_⟩
  rw [m2, e]
  push_cast
  rw [← h.len] at hm
  apply int_mod_of (z := z - q) hm
  have i4 := congrArg (fun k : Nat => (k : Int)) i3
  have i5 := (Int.natCast_add _ _).symm.trans (i4.trans (Int.natCast_add _ _))
  rw [hz, show ((2 ^ (32 * l.length) * q : Nat) : Int) = 2 ^ (32 * l.length) * (q : Int) by push_cast; rfl] at i5
  have key : ∀ V Q A N Z : Int, V + Q = A + (N + Z) → V = A + N + (Z - Q) := by intros; omega
  rw [Int.mul_sub]
  exact key _ _ _ _ _ i5

theorem plus_ok {l : Limbs} (h : Wf bits l) {n : Int} (hn1 : -2 ^ 63 ≤ n) (hn2 : n < 2 ^ 63) :
    Wf bits (plus bits l n) ∧ ((value (vb bits) (plus bits l n) : Nat) : Int) = (value (vb bits) l + n : Int) % 2 ^ bits := by
  unfold plus
  by_cases h1 : nv bits = 1
  · rw [if_pos h1]; exact word_add hb h h1 n
  · rw [if_neg h1]; exact words_add hb h h1 hn1 hn2

theorem minus_ok {l : Limbs} (h : Wf bits l) {n : Int} (hn1 : -2 ^ 63 < n) (hn2 : n < 2 ^ 63) :
    ∃ r, minus bits l n = some r ∧ Wf bits r ∧ ((value (vb bits) r : Nat) : Int) = (value (vb bits) l - n : Int) % 2 ^ bits := by
  unfold minus
  rw [if_neg (by omega)]
  by_cases h1 : nv bits = 1
  · rw [if_pos h1]
    have := word_add hb h h1 (-n)
    rw [← Int.sub_eq_add_neg] at this
    exact ⟨_, rfl, this⟩
  · rw [if_neg h1]
    have := words_add hb h h1 (n := -n) (by omega) (by omega)
    rw [← Int.sub_eq_add_neg] at this
    have e1 : (-n % 2 ^ 32).toNat = (-n % 2 ^ 64).toNat % 2 ^ 32 := by omega
    have e2 : (-n / 2 ^ 32 % 2 ^ 32).toNat = (-n % 2 ^ 64).toNat / 2 ^ 32 % 2 ^ 32 := by omega
    have e3 : (if -n ≥ 0 then 0 else vmask) = if n ≤ 0 then 0 else vmask := by
      by_cases hn : n ≤ 0
      · rw [if_pos hn, if_pos (by omega)]
      · rw [if_neg hn, if_neg (by omega)]
    rw [e1, e2, e3] at this
    exact ⟨_, rfl, this⟩

/-! ### Bits -/

theorem zip_ok {a b : Limbs} (ha : Wf bits a) (hb' : Wf bits b) {f : Nat → Nat → Nat} {g : Bool → Bool → Bool}
    (hf : ∀ x y k, (f x y).testBit k = g (x.testBit k) (y.testBit k)) (h0 : f 0 0 = 0) (hg : g false false = false) :
    Wf bits (List.zipWith f a b) ∧ ∀ k, (value (vb bits) (List.zipWith f a b)).testBit k =
      g ((value (vb bits) a).testBit k) ((value (vb bits) b).testBit k) := by
  have hw : 0 < vb bits := by rcases (shape bits hb).1 with h | h <;> omega
  have hl : (List.zipWith f a b).length = nv bits := by simp [ha.len, hb'.len]
  have lim : ∀ {m x y : Nat}, x < 2 ^ m → y < 2 ^ m → f x y < 2 ^ m := by
    intro m x y hx hy
    apply Nat.lt_pow_two_of_testBit
    intro i hi
    rw [hf, Nat.testBit_lt_two_pow (Nat.lt_of_lt_of_le hx (Nat.pow_le_pow_right (by omega) hi)),
      Nat.testBit_lt_two_pow (Nat.lt_of_lt_of_le hy (Nat.pow_le_pow_right (by omega) hi)), hg]
  have hz : ∀ k, (List.zipWith f a b).getD k 0 = f (a.getD k 0) (b.getD k 0) := by
    intro k
    simp only [List.getD_eq_getElem?_getD, List.getElem?_zipWith]
    by_cases hk : k < nv bits
    · rw [List.getElem?_eq_getElem (by rw [ha.len]; exact hk), List.getElem?_eq_getElem (by rw [hb'.len]; exact hk)]; rfl
    · rw [List.getElem?_eq_none (by rw [ha.len]; omega), List.getElem?_eq_none (by rw [hb'.len]; omega)]
      exact h0.symm
  have hsm : Small (vb bits) (List.zipWith f a b) := by
    apply small_of_getD
    intro k
    rw [hz]; exact lim (small_getD ha.small) (small_getD hb'.small)
  have ht : ∀ k, (value (vb bits) (List.zipWith f a b)).testBit k =
      g ((value (vb bits) a).testBit k) ((value (vb bits) b).testBit k) := by
    intro k
    rw [testBit_value hw k hsm, testBit_value hw k ha.small, testBit_value hw k hb'.small, hz, hf]
  refine ⟨⟨hl, hsm, ?_⟩, ht⟩
  apply Nat.lt_pow_two_of_testBit
  intro i hi
  rw [ht, Nat.testBit_lt_two_pow (Nat.lt_of_lt_of_le ha.lt (Nat.pow_le_pow_right (by omega) hi)),
    Nat.testBit_lt_two_pow (Nat.lt_of_lt_of_le hb'.lt (Nat.pow_le_pow_right (by omega) hi)), hg]

theorem not_ok {a : Limbs} (ha : Wf bits a) :
    Wf bits (bitNot bits a) ∧ value (vb bits) (bitNot bits a) = 2 ^ bits - (value (vb bits) a + 1) := by
  have sh := shape bits hb
  have hw : 0 < vb bits := by rcases sh.1 with h | h <;> omega
  have hs : Small (vb bits) (a.map fun v => (2 ^ vb bits - 1) ^^^ v) := by
    intro v hv
    obtain ⟨x, hx, rfl⟩ := List.mem_map.mp hv
    exact Nat.xor_lt_two_pow (by have := Nat.two_pow_pos (vb bits); omega) (ha.small x hx)
  obtain ⟨m1, m2⟩ := maskTop_ok hb (l := a.map fun v => (2 ^ vb bits - 1) ^^^ v) (by simp [ha.len]) hs
  refine ⟨m1, ?_⟩
  unfold bitNot
  rw [m2]
  apply Nat.eq_of_testBit_eq
  intro j
  rw [Nat.testBit_mod_two_pow, Nat.testBit_two_pow_sub_succ ha.lt, testBit_value hw j hs, testBit_value hw j ha.small]
  by_cases hj : j < bits
  · have hk : j / vb bits < nv bits := (Nat.div_lt_iff_lt_mul hw).mpr (by rw [Nat.mul_comm]; omega)
    simp only [hj, decide_true, Bool.true_and, List.getD_eq_getElem?_getD, List.getElem?_map]
    rw [List.getElem?_eq_getElem (by rw [ha.len]; exact hk)]
    simp [Nat.testBit_two_pow_sub_one, Nat.mod_lt _ hw]
  · simp [hj]

theorem neg_ok {a : Limbs} (ha : Wf bits a) :
    Wf bits (negate bits a) ∧ ((value (vb bits) (negate bits a) : Nat) : Int) = (-(value (vb bits) a) : Int) % 2 ^ bits := by
  obtain ⟨n1, n2⟩ := not_ok hb ha
  obtain ⟨i1, i2⟩ := inc_ok hb n1
  refine ⟨i1, ?_⟩
  unfold negate
  rw [i2, n2]
  have := ha.lt
  rw [show 2 ^ bits - (value (vb bits) a + 1) + 1 = 2 ^ bits - value (vb bits) a by omega]
  push_cast
  apply int_mod_of (n := bits) (z := 1) (Nat.le_refl _)
  rw [Int.natCast_sub (by omega)]
  push_cast; omega

/-! ### Shifts -/

theorem shl_ok {a : Limbs} (ha : Wf bits a) (n : Nat)
    (hn : nv bits = 1 ∨ n = 0 ∨ n % 32 ≠ 0 ∨ nv bits - 1 ≤ n / 32) :
    ∃ r, leftShift bits a n = some r ∧ Wf bits r ∧ value (vb bits) r = value (vb bits) a * 2 ^ n % 2 ^ bits := by
  unfold leftShift
  by_cases h1 : nv bits = 1
  · rw [if_pos h1]
    by_cases h2 : n < vb bits
    · rw [if_pos h2]
      obtain ⟨o1, o2⟩ := onWord_ok hb ha.len h1 (fun v => v <<< n)
      refine ⟨_, rfl, o1, ?_⟩
      rw [o2, Nat.shiftLeft_eq]
    · rw [if_neg h2]
      obtain ⟨v, rfl⟩ := single_list ha.len h1
      have sh := (shape bits hb).2.2.2.1
      rw [h1, Nat.mul_one] at sh
      refine ⟨_, rfl, ⟨ha.len, ?_, ?_⟩, ?_⟩
      · intro x hx; simp [onWord] at hx; rw [hx]; exact Nat.two_pow_pos _
      · simp only [onWord, value]; have := Nat.two_pow_pos bits; omega
      · simp only [onWord, value, Nat.mul_zero, Nat.add_zero]
        exact (Nat.mod_eq_zero_of_dvd (Nat.dvd_trans (Nat.pow_dvd_pow 2 (by omega)) (Nat.dvd_mul_left _ _))).symm
  · rw [if_neg h1]
    obtain ⟨e, h3, hm⟩ := multi hb h1
    have hs := ha.small
    rw [e] at hs
    by_cases h0 : n > 0
    · rw [if_pos h0]
      by_cases hz : n / 32 ≥ nv bits
      · simp only [if_pos hz]
        obtain ⟨z1, z2, _⟩ := zero_ok hb
        have zv : value (vb bits) (zero bits) = 0 := value_zeros _ _
        refine ⟨_, rfl, ⟨z1, z2, by rw [zv]; exact Nat.two_pow_pos _⟩, ?_⟩
        rw [zv]
        exact (Nat.mod_eq_zero_of_dvd (Nat.dvd_trans (Nat.pow_dvd_pow 2 (by omega)) (Nat.dvd_mul_left _ _))).symm
      · simp only [if_neg hz]
        have hs32 : n % 32 < 32 := Nat.mod_lt _ (by omega)
        have key : ∃ l1, shlLoop (n / 32) (n % 32) (nv bits - 1) a = some l1 ∧ l1.length = a.length ∧
            ∀ k, l1.getD k 0 = if n / 32 < k ∧ k ≤ nv bits - 1 then
              ((a.getD (k - n / 32) 0 <<< (n % 32)) % 2 ^ 32) ||| (a.getD (k - n / 32 - 1) 0 >>> (32 - n % 32)) else a.getD k 0 := by
          by_cases hp : 0 < n % 32
          · exact shlLoop_ok hp hs32 (by rw [ha.len]; omega)
          · have hr : nv bits - 1 ≤ n / 32 := by omega
            refine ⟨a, ?_, rfl, fun k => by rw [if_neg (by omega)]⟩
            rw [show n % 32 = 0 by omega, shlLoop_zero, if_neg (by omega)]
        obtain ⟨l1, k1, k2, k3⟩ := key
        have g0 : l1.getD 0 0 = a.getD 0 0 := by rw [k3, if_neg (by omega)]
        simp only [k1, shl32_ok hs32, g0]
        obtain ⟨z1, z2⟩ := zeroBelow_ok (i := n / 32) (l := l1.set (n / 32) ((a.getD 0 0 <<< (n % 32)) % 2 ^ 32))
          (by rw [List.length_set, k2, ha.len]; omega)
        rw [List.length_set, k2, ha.len] at z1
        obtain ⟨v1, v2⟩ := value_shl (n := n) (N := nv bits) ha.len z1 hs (by
          intro k
          rw [z2, getD_set _ _ _ _ (by rw [k2, ha.len]; omega), k3]
          by_cases q1 : k < n / 32
          · rw [if_pos q1, if_neg (by omega), if_neg (by omega)]
          · rw [if_neg q1]
            by_cases q2 : n / 32 = k
            · rw [if_pos q2, if_neg (by omega), if_pos (by omega)]
            · rw [if_neg q2]
              by_cases q3 : n / 32 < k ∧ k < nv bits
              · rw [if_pos q3, if_pos (by omega)]
              · rw [if_neg q3, if_neg (by omega), if_neg (by omega), List.getD_eq_getElem?_getD,
                  List.getElem?_eq_none (by rw [ha.len]; omega)]
                rfl)
        obtain ⟨m1, m2⟩ := maskTop_ok hb z1 (by rw [e]; exact v1)
        refine ⟨_, rfl, m1, ?_⟩
        rw [m2, e, v2, Nat.mod_mod_of_dvd _ (Nat.pow_dvd_pow 2 hm)]
    · rw [if_neg h0]
      have : n = 0 := by omega
      subst this
      exact ⟨a, rfl, ha, by rw [Nat.pow_zero, Nat.mul_one, Nat.mod_eq_of_lt ha.lt]⟩

theorem shr_ok {a : Limbs} (ha : Wf bits a) (n : Nat)
    (hn : nv bits = 1 ∨ n = 0 ∨ n % 32 ≠ 0 ∨ nv bits - 1 ≤ n / 32) :
    ∃ r, rightShift bits a n = some r ∧ Wf bits r ∧ value (vb bits) r = value (vb bits) a / 2 ^ n := by
  have hlt : value (vb bits) a / 2 ^ n < 2 ^ bits := Nat.lt_of_le_of_lt (Nat.div_le_self _ _) ha.lt
  unfold rightShift
  by_cases h1 : nv bits = 1
  · rw [if_pos h1]
    obtain ⟨v, rfl⟩ := single_list ha.len h1
    have hv := ha.small v (by simp)
    by_cases h2 : n ≥ vb bits
    · rw [if_pos h2]
      have : value (vb bits) [v] / 2 ^ n = 0 := by
        simp only [value, Nat.mul_zero, Nat.add_zero]
        exact Nat.div_eq_of_lt (Nat.lt_of_lt_of_le hv (Nat.pow_le_pow_right (by omega) h2))
      refine ⟨_, rfl, ⟨ha.len, ?_, ?_⟩, ?_⟩
      · intro x hx; simp [onWord] at hx; rw [hx]; exact Nat.two_pow_pos _
      · simp only [onWord, value]; have := Nat.two_pow_pos bits; omega
      · rw [this]; simp [onWord, value]
    · rw [if_neg h2]
      have e : value (vb bits) (onWord (fun v => v >>> n) [v]) = value (vb bits) [v] / 2 ^ n := by
        simp [onWord, value, Nat.shiftRight_eq_div_pow]
      refine ⟨_, rfl, ⟨ha.len, ?_, ?_⟩, e⟩
      · intro x hx; simp [onWord] at hx; rw [hx]
        exact Nat.lt_of_le_of_lt (Nat.shiftRight_le _ _) hv
      · rw [e]; exact hlt
  · rw [if_neg h1]
    obtain ⟨e, h3, hm⟩ := multi hb h1
    have hs := ha.small
    rw [e] at hs
    by_cases h0 : n > 0
    · rw [if_pos h0]
      by_cases hz : n / 32 ≥ nv bits
      · simp only [if_pos hz]
        obtain ⟨z1, z2, _⟩ := zero_ok hb
        have zv : value (vb bits) (zero bits) = 0 := value_zeros _ _
        refine ⟨_, rfl, ⟨z1, z2, by rw [zv]; exact Nat.two_pow_pos _⟩, ?_⟩
        rw [zv]
        exact (Nat.div_eq_of_lt (Nat.lt_of_lt_of_le ha.lt (Nat.pow_le_pow_right (by omega) (by omega)))).symm
      · simp only [if_neg hz]
        have hs32 : n % 32 < 32 := Nat.mod_lt _ (by omega)
        have key : ∃ l1, shrLoop (n / 32) (n % 32) (nv bits - 1 - n / 32) 0 a = some l1 ∧ l1.length = a.length ∧
            ∀ k, l1.getD k 0 = if 0 ≤ k ∧ k < 0 + (nv bits - 1 - n / 32) then
              (a.getD (k + n / 32) 0 >>> (n % 32)) ||| ((a.getD (k + n / 32 + 1) 0 <<< (32 - n % 32)) % 2 ^ 32) else a.getD k 0 := by
          by_cases hp : 0 < n % 32
          · exact shrLoop_ok hp hs32 (by rw [ha.len]; omega)
          · have hr : nv bits - 1 ≤ n / 32 := by omega
            refine ⟨a, ?_, rfl, fun k => by rw [if_neg (by omega)]⟩
            rw [show n % 32 = 0 by omega, shrLoop_zero, if_neg (by omega)]
        obtain ⟨l1, k1, k2, k3⟩ := key
        have g0 : l1.getD (nv bits - 1) 0 = a.getD (nv bits - 1) 0 := by rw [k3, if_neg (by omega)]
        simp only [k1, shr32_ok hs32, g0]
        obtain ⟨z1, z2⟩ := zeroFrom_ok (k := nv bits - 1 - (nv bits - 1 - n / 32)) (i := nv bits - 1 - n / 32 + 1)
          (l := l1.set (nv bits - 1 - n / 32) (a.getD (nv bits - 1) 0 >>> (n % 32)))
          (by rw [List.length_set, k2, ha.len]; omega)
        rw [List.length_set, k2, ha.len] at z1
        obtain ⟨v1, v2⟩ := value_shr (n := n) (N := nv bits) (by omega) ha.len z1 hs (by
          intro k
          rw [z2, getD_set _ _ _ _ (by rw [k2, ha.len]; omega), k3]
          by_cases q1 : k < nv bits - 1 - n / 32
          · rw [if_pos q1, if_neg (by omega), if_neg (by omega), if_pos (by omega)]
          · rw [if_neg q1]
            by_cases q2 : k = nv bits - 1 - n / 32
            · rw [if_pos q2, if_neg (by omega), if_pos (by omega)]
            · rw [if_neg q2]
              by_cases q3 : k < nv bits
              · rw [if_pos (by omega)]
              · rw [if_neg (by omega), if_neg (by omega), if_neg (by omega), List.getD_eq_getElem?_getD,
                  List.getElem?_eq_none (by rw [ha.len]; omega)]
                rfl)
        refine ⟨_, rfl, ⟨z1, by rw [e]; exact v1, ?_⟩, by rw [e]; exact v2⟩
        rw [e] at hlt ⊢
        rw [v2]; exact hlt
    · rw [if_neg h0]
      have : n = 0 := by omega
      subst this
      exact ⟨a, rfl, ha, by simp⟩

theorem sh_fails {a : Limbs} (n : Nat) (h1 : nv bits ≠ 1) (h0 : 0 < n) (hn : n % 32 = 0) (hz : n / 32 < nv bits - 1) :
    leftShift bits a n = none ∧ rightShift bits a n = none := by
  unfold leftShift rightShift
  simp only [if_neg h1, if_pos h0, if_neg (show ¬ n / 32 ≥ nv bits by omega), hn, shlLoop_zero, shrLoop_zero]
  rw [if_pos (by omega), if_pos (by omega)]
  exact ⟨rfl, rfl⟩

end
end Verif.Address
