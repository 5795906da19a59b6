import Verif.Address.Lemmas
set_option linter.unusedSimpArgs false
set_option linter.unusedVariables false
set_option linter.unusedSectionVars false
/-
Helper lemmas about shifts and bytes of word arrays.
-/
namespace Verif.Address
open Verif

theorem shl32_ok {v s : Nat} (hs : s < 32) : shl32 v s = some ((v <<< s) % 2 ^ 32) := by simp [shl32, hs]
theorem shr32_ok {v s : Nat} (hs : s < 32) : shr32 v s = some (v >>> s) := by simp [shr32, hs]

/-- What the first loop of `LeftShift` leaves. -/
theorem shlLoop_ok {z s : Nat} (hs : 0 < s) (hs' : s < 32) : ∀ {i : Nat} {l : Limbs}, i < l.length → ∃ l', shlLoop z s i l = some l' ∧
    l'.length = l.length ∧ ∀ k, l'.getD k 0 = if z < k ∧ k ≤ i then
      ((l.getD (k - z) 0 <<< s) % 2 ^ 32) ||| (l.getD (k - z - 1) 0 >>> (32 - s)) else l.getD k 0
  | 0, l, hi => ⟨l, rfl, rfl, fun k => by rw [if_neg (by omega)]⟩
  | i + 1, l, hi => by
    by_cases hz : i + 1 > z
    · simp only [shlLoop, if_pos hz, shl32_ok hs', shr32_ok (show 32 - s < 32 by omega)]
      obtain ⟨l', h1, h2, h3⟩ := shlLoop_ok hs hs' (z := z) (i := i)
        (l := l.set (i + 1) ((l.getD (i + 1 - z) 0 <<< s) % 2 ^ 32 ||| l.getD (i + 1 - z - 1) 0 >>> (32 - s))) (by simp; omega)
      refine ⟨l', h1, by simp [h2], fun k => ?_⟩
      rw [h3]
      simp only [getD_set _ _ _ _ hi]
      by_cases hk : z < k ∧ k ≤ i
      · rw [if_pos hk, if_neg (show ¬ i + 1 = k - z by omega), if_neg (show ¬ i + 1 = k - z - 1 by omega), if_pos (show z < k ∧ k ≤ i + 1 by omega)]
      · rw [if_neg hk]
        by_cases he : i + 1 = k
        · subst he; rw [if_pos rfl, if_pos (by omega)]
        · rw [if_neg he, if_neg (by omega)]
    · refine ⟨l, by simp only [shlLoop, if_neg hz], rfl, fun k => by rw [if_neg (by omega)]⟩

/-- With a count that is a multiple of 32 there is nothing to do only for the last word. -/
theorem shlLoop_zero {z i : Nat} {l : Limbs} : shlLoop z 0 i l = if i > z then none else some l := by
  cases i with
  | zero => simp [shlLoop]
  | succ i =>
    simp only [shlLoop]
    split
    · simp [shl32, shr32]
    · rfl

theorem zeroBelow_ok : ∀ {i : Nat} {l : Limbs}, i ≤ l.length → (zeroBelow i l).length = l.length ∧
    ∀ k, (zeroBelow i l).getD k 0 = if k < i then 0 else l.getD k 0
  | 0, l, _ => ⟨rfl, fun k => by simp [zeroBelow]⟩
  | i + 1, l, hi => by
    obtain ⟨h1, h2⟩ := zeroBelow_ok (i := i) (l := l.set i 0) (by simp; omega)
    refine ⟨by simp [zeroBelow, h1], fun k => ?_⟩
    rw [zeroBelow, h2, getD_set _ _ _ _ (by omega)]
    by_cases h : k < i
    · rw [if_pos h, if_pos (by omega)]
    · rw [if_neg h]
      by_cases h' : i = k
      · rw [if_pos h', if_pos (by omega)]
      · rw [if_neg h', if_neg (by omega)]

theorem zeroFrom_ok : ∀ {k i : Nat} {l : Limbs}, i + k ≤ l.length → (zeroFrom k i l).length = l.length ∧
    ∀ j, (zeroFrom k i l).getD j 0 = if i ≤ j ∧ j < i + k then 0 else l.getD j 0
  | 0, i, l, _ => ⟨rfl, fun j => by rw [if_neg (by omega)]; rfl⟩
  | k + 1, i, l, hi => by
    obtain ⟨h1, h2⟩ := zeroFrom_ok (k := k) (i := i + 1) (l := l.set i 0) (by simp; omega)
    refine ⟨by simp [zeroFrom, h1], fun j => ?_⟩
    rw [zeroFrom, h2, getD_set _ _ _ _ (by omega)]
    by_cases h : i + 1 ≤ j ∧ j < i + 1 + k
    · rw [if_pos h, if_pos (by omega)]
    · rw [if_neg h]
      by_cases h' : i = j
      · rw [if_pos h', if_pos (by omega)]
      · rw [if_neg h', if_neg (by omega)]

theorem shrLoop_ok {z s : Nat} (hs : 0 < s) (hs' : s < 32) : ∀ {c i : Nat} {l : Limbs}, i + c ≤ l.length →
    ∃ l', shrLoop z s c i l = some l' ∧ l'.length = l.length ∧ ∀ k, l'.getD k 0 = if i ≤ k ∧ k < i + c then
      (l.getD (k + z) 0 >>> s) ||| ((l.getD (k + z + 1) 0 <<< (32 - s)) % 2 ^ 32) else l.getD k 0
  | 0, i, l, hi => ⟨l, rfl, rfl, fun k => by rw [if_neg (by omega)]⟩
  | c + 1, i, l, hi => by
    simp only [shrLoop, shr32_ok hs', shl32_ok (show 32 - s < 32 by omega)]
    obtain ⟨l', h1, h2, h3⟩ := shrLoop_ok hs hs' (z := z) (c := c) (i := i + 1)
      (l := l.set i ((l.getD (i + z) 0 >>> s) ||| ((l.getD (i + z + 1) 0 <<< (32 - s)) % 2 ^ 32))) (by simp; omega)
    refine ⟨l', h1, by simp [h2], fun k => ?_⟩
    rw [h3]
    simp only [getD_set _ _ _ _ (show i < l.length by omega)]
    by_cases hk : i + 1 ≤ k ∧ k < i + 1 + c
    · rw [if_pos hk, if_neg (show ¬ i = k + z by omega), if_neg (show ¬ i = k + z + 1 by omega), if_pos (show i ≤ k ∧ k < i + (c + 1) by omega)]
    · rw [if_neg hk]
      by_cases he : i = k
      · subst he; rw [if_pos rfl, if_pos (by omega)]
      · rw [if_neg he, if_neg (by omega)]

theorem shrLoop_zero {z c i : Nat} {l : Limbs} : shrLoop z 0 c i l = if c > 0 then none else some l := by
  cases c with
  | zero => simp [shrLoop]
  | succ c => simp [shrLoop, shl32, shr32]

theorem small_of_getD {w : Nat} {l : Limbs} (h : ∀ k, l.getD k 0 < 2 ^ w) : Small w l := by
  intro v hv
  obtain ⟨k, hk⟩ := List.getElem?_of_mem hv
  have := h k
  rwa [List.getD_eq_getElem?_getD, hk] at this

theorem high_bit {v k : Nat} (hv : v < 2 ^ 32) (hk : 32 ≤ k) : v.testBit k = false :=
  Nat.testBit_lt_two_pow (Nat.lt_of_lt_of_le hv (Nat.pow_le_pow_right (by omega) hk))

/-- The words of a left shift. -/
theorem value_shl {l r : Limbs} {n N : Nat} (hl : l.length = N) (hr : r.length = N) (hs : Small 32 l)
    (h : ∀ k, r.getD k 0 = if n / 32 < k ∧ k < N then
        ((l.getD (k - n / 32) 0 <<< (n % 32)) % 2 ^ 32) ||| (l.getD (k - n / 32 - 1) 0 >>> (32 - n % 32))
      else if k = n / 32 ∧ k < N then (l.getD 0 0 <<< (n % 32)) % 2 ^ 32 else 0) :
    Small 32 r ∧ value 32 r = value 32 l * 2 ^ n % 2 ^ (32 * N) := by
  have hsm : Small 32 r := by
    apply small_of_getD
    intro k
    rw [h]
    have lim : ∀ x, x % 2 ^ 32 < 2 ^ 32 := fun x => Nat.mod_lt _ (by omega)
    split
    · exact Nat.or_lt_two_pow (lim _) (Nat.lt_of_le_of_lt (Nat.shiftRight_le _ _) (small_getD hs))
    · split
      · exact lim _
      · omega
  refine ⟨hsm, ?_⟩
  apply Nat.eq_of_testBit_eq
  intro j
  rw [Nat.testBit_mod_two_pow, Nat.mul_comm (value 32 l), Nat.testBit_two_pow_mul, testBit_value (by omega) j hsm,
    testBit_value (by omega) (j - n) hs, h]
  by_cases h1 : n / 32 < j / 32 ∧ j / 32 < N
  · rw [if_pos h1, Nat.testBit_or, Nat.testBit_mod_two_pow, Nat.testBit_shiftLeft, Nat.testBit_shiftRight]
    rw [show decide (j < 32 * N) = true by simp; omega, show decide (j % 32 < 32) = true by simp; omega,
      show decide (j ≥ n) = true by simp; omega]
    simp only [Bool.true_and]
    by_cases h2 : n % 32 ≤ j % 32
    · rw [show decide (j % 32 ≥ n % 32) = true by simp; omega,
        high_bit (v := l.getD (j / 32 - n / 32 - 1) 0) (k := 32 - n % 32 + j % 32) (small_getD hs) (by omega),
        show (j - n) / 32 = j / 32 - n / 32 by omega, show (j - n) % 32 = j % 32 - n % 32 by omega]
      simp
    · rw [show decide (j % 32 ≥ n % 32) = false by simp; omega,
        show (j - n) / 32 = j / 32 - n / 32 - 1 by omega, show (j - n) % 32 = 32 - n % 32 + j % 32 by omega]
      simp
  · rw [if_neg h1]
    by_cases h2 : j / 32 = n / 32 ∧ j / 32 < N
    · rw [if_pos h2, Nat.testBit_mod_two_pow, Nat.testBit_shiftLeft]
      rw [show decide (j < 32 * N) = true by simp; omega, show decide (j % 32 < 32) = true by simp; omega]
      simp only [Bool.true_and]
      by_cases h3 : n % 32 ≤ j % 32
      · rw [show decide (j % 32 ≥ n % 32) = true by simp; omega, show decide (j ≥ n) = true by simp; omega,
          show (j - n) / 32 = 0 by omega, show (j - n) % 32 = j % 32 - n % 32 by omega]
      · rw [show decide (j % 32 ≥ n % 32) = false by simp; omega, show decide (j ≥ n) = false by simp; omega]
        simp
    · rw [if_neg h2]
      by_cases h3 : j < 32 * N
      · rw [show decide (j ≥ n) = false by simp; omega]; simp
      · simp [h3]

/-- The words of a right shift. -/
theorem value_shr {l r : Limbs} {n N : Nat} (hN : n / 32 < N) (hl : l.length = N) (hr : r.length = N) (hs : Small 32 l)
    (h : ∀ k, r.getD k 0 = if k < N - 1 - n / 32 then
        (l.getD (k + n / 32) 0 >>> (n % 32)) ||| ((l.getD (k + n / 32 + 1) 0 <<< (32 - n % 32)) % 2 ^ 32)
      else if k = N - 1 - n / 32 then l.getD (N - 1) 0 >>> (n % 32) else 0) :
    Small 32 r ∧ value 32 r = value 32 l / 2 ^ n := by
  have hsm : Small 32 r := by
    apply small_of_getD
    intro k
    rw [h]
    have lim : ∀ x, x % 2 ^ 32 < 2 ^ 32 := fun x => Nat.mod_lt _ (by omega)
    split
    · exact Nat.or_lt_two_pow (Nat.lt_of_le_of_lt (Nat.shiftRight_le _ _) (small_getD hs)) (lim _)
    · split
      · exact Nat.lt_of_le_of_lt (Nat.shiftRight_le _ _) (small_getD hs)
      · omega
  refine ⟨hsm, ?_⟩
  apply Nat.eq_of_testBit_eq
  intro j
  rw [← Nat.shiftRight_eq_div_pow, Nat.testBit_shiftRight, testBit_value (by omega) j hsm,
    testBit_value (by omega) (n + j) hs, h]
  have hj : j % 32 < 32 := Nat.mod_lt _ (by omega)
  by_cases h1 : j / 32 < N - 1 - n / 32
  · rw [if_pos h1, Nat.testBit_or, Nat.testBit_mod_two_pow, Nat.testBit_shiftLeft, Nat.testBit_shiftRight]
    rw [show decide (j % 32 < 32) = true by simp; omega]
    simp only [Bool.true_and]
    by_cases h2 : n % 32 + j % 32 < 32
    · rw [show (n + j) / 32 = j / 32 + n / 32 by omega, show (n + j) % 32 = n % 32 + j % 32 by omega]
      by_cases h3 : n % 32 = 0
      · rw [h3]; simp; omega
      · rw [show decide (j % 32 ≥ 32 - n % 32) = false by simp; omega]; simp
    · rw [show decide (j % 32 ≥ 32 - n % 32) = true by simp; omega, high_bit (small_getD hs) (by omega),
        show (n + j) / 32 = j / 32 + n / 32 + 1 by omega, show (n + j) % 32 = j % 32 - (32 - n % 32) by omega]
      simp
  · rw [if_neg h1]
    have big : ∀ k, N ≤ k → l.getD k 0 = 0 := by
      intro k hk
      rw [List.getD_eq_getElem?_getD, List.getElem?_eq_none (by omega)]; rfl
    by_cases h2 : j / 32 = N - 1 - n / 32
    · rw [if_pos h2, Nat.testBit_shiftRight]
      by_cases h3 : n % 32 + j % 32 < 32
      · rw [show (n + j) / 32 = N - 1 by omega, show (n + j) % 32 = n % 32 + j % 32 by omega]
      · rw [high_bit (small_getD hs) (by omega), big _ (by omega)]; simp
    · rw [if_neg h2, big _ (by omega)]; simp

/-! ### Bytes -/

theorem leVal_take (bs : List Byte) (m : Nat) : leVal (bs.take m) = leVal bs % 256 ^ m := by
  by_cases hm : m ≤ bs.length
  · have h := leVal_append (bs.take m) (bs.drop m)
    rw [List.take_append_drop, List.length_take, Nat.min_eq_left hm] at h
    have hl := leVal_lt (bs.take m)
    rw [List.length_take, Nat.min_eq_left hm] at hl
    rw [h, Nat.add_mul_mod_self_left, Nat.mod_eq_of_lt hl]
  · rw [List.take_of_length_le (by omega)]
    exact (Nat.mod_eq_of_lt (Nat.lt_of_lt_of_le (leVal_lt bs) (Nat.pow_le_pow_right (by omega) (by omega)))).symm

theorem value_ofBytes (k : Nat) : ∀ (c : Nat) (bs : List Byte), bs.length = k * c →
    (ofBytes k c bs).length = c ∧ Small (8 * k) (ofBytes k c bs) ∧ value (8 * k) (ofBytes k c bs) = leVal bs
  | 0, bs, h => by
    have : bs = [] := List.length_eq_zero_iff.mp (by simpa using h)
    subst this
    exact ⟨rfl, by simp [ofBytes, Small], rfl⟩
  | c + 1, bs, h => by
    rw [Nat.mul_succ] at h
    obtain ⟨h1, h2, h3⟩ := value_ofBytes k c (bs.drop k) (by simp; omega)
    have e : (256 : Nat) ^ k = 2 ^ (8 * k) := by rw [Nat.pow_mul]
    refine ⟨by simp [ofBytes, h1], ?_, ?_⟩
    · simp only [ofBytes]
      refine small_cons.mpr ⟨?_, h2⟩
      rw [leVal_take, e]; exact Nat.mod_lt _ (Nat.two_pow_pos _)
    · simp only [ofBytes, value, h3]
      have a := leVal_append (bs.take k) (bs.drop k)
      rw [List.take_append_drop, List.length_take, Nat.min_eq_left (by omega)] at a
      rw [a, e]

theorem leVal_flat (m : Nat) : ∀ {l : List Nat}, Small (8 * m) l → leVal (l.flatMap (leBytes m)) = value (8 * m) l ∧
    (l.flatMap (leBytes m)).length = m * l.length
  | [], _ => ⟨rfl, rfl⟩
  | v :: t, h => by
    have ⟨h1, h2⟩ := small_cons.mp h
    obtain ⟨i1, i2⟩ := leVal_flat m h2
    have e : (256 : Nat) ^ m = 2 ^ (8 * m) := by rw [Nat.pow_mul]
    rw [List.flatMap_cons, leVal_append, i1, leVal_leBytes, leBytes_length, e, Nat.mod_eq_of_lt h1]
    exact ⟨rfl, by rw [List.length_append, i2, leBytes_length, List.length_cons, Nat.mul_succ]; omega⟩

section
variable {bits : Nat} (hb : 0 < bits)
include hb

theorem vb8 : 8 * (vb bits / 8) = vb bits := by
  rcases (shape bits hb).1 with h | h <;> rw [h]

theorem toBytes_ok {l : Limbs} (hl : l.length = nv bits) (hs : Small (vb bits) l) :
    leVal (toBytes bits l) = value (vb bits) l ∧ (toBytes bits l).length = vb bits / 8 * nv bits := by
  have e := vb8 hb
  have h := leVal_flat (vb bits / 8) (l := l) (by rw [e]; exact hs)
  rw [e, hl] at h
  exact h

theorem words_ok {bs : List Byte} (h : bs.length = vb bits / 8 * nv bits) :
    (words bits bs).length = nv bits ∧ Small (vb bits) (words bits bs) ∧ value (vb bits) (words bits bs) = leVal bs := by
  have e := vb8 hb
  have := value_ofBytes (vb bits / 8) (nv bits) bs h
  rw [e] at this
  exact this

theorem nb_le : nb bits ≤ vb bits / 8 * nv bits := by
  have sh := shape bits hb
  unfold nb
  rcases sh.1 with h | h <;> rw [h] at sh ⊢ <;> omega

theorem pow_nb : 2 ^ bits ∣ 256 ^ nb bits := by
  rw [show (256 : Nat) = 2 ^ 8 by decide, ← Nat.pow_mul]
  exact Nat.pow_dvd_pow 2 (by unfold nb; omega)

theorem overlay_ok {l : Limbs} (hl : l.length = nv bits) (hs : Small (vb bits) l) {bs : List Byte}
    (h : bs.length ≤ vb bits / 8 * nv bits) :
    (overlay bits bs l).length = nv bits ∧ Small (vb bits) (overlay bits bs l) ∧
      value (vb bits) (overlay bits bs l) = leVal bs + 256 ^ bs.length * leVal ((toBytes bits l).drop bs.length) := by
  have t := toBytes_ok hb hl hs
  have := words_ok hb (bs := bs ++ (toBytes bits l).drop bs.length) (by simp [t.2]; omega)
  rw [leVal_append] at this
  exact this

theorem zero_ok : (zero bits).length = nv bits ∧ Small (vb bits) (zero bits) ∧
    ∀ m, leVal ((toBytes bits (zero bits)).drop m) = 0 := by
  have h1 : (zero bits).length = nv bits := by simp [zero]
  have h2 : Small (vb bits) (zero bits) := by
    intro v hv
    rw [zero] at hv
    rw [List.eq_of_mem_replicate hv]; exact Nat.two_pow_pos _
  refine ⟨h1, h2, fun m => ?_⟩
  have t := toBytes_ok hb h1 h2
  rw [zero, value_zeros] at t
  have a := leVal_append ((toBytes bits (zero bits)).take m) ((toBytes bits (zero bits)).drop m)
  rw [List.take_append_drop] at a
  have : leVal (toBytes bits (zero bits)) = 0 := t.1
  rw [this] at a
  have p : 0 < 256 ^ ((toBytes bits (zero bits)).take m).length := Nat.pos_of_ne_zero (by simp)
  have : 256 ^ ((toBytes bits (zero bits)).take m).length * leVal ((toBytes bits (zero bits)).drop m) = 0 := by omega
  rcases Nat.mul_eq_zero.mp this with h | h
  · omega
  · exact h

theorem assign_ok (bs : List Byte) : Wf bits (assignBytesL bits bs) ∧
    value (vb bits) (assignBytesL bits bs) = leVal bs % 2 ^ bits := by
  obtain ⟨z1, z2, z3⟩ := zero_ok hb
  obtain ⟨o1, o2, o3⟩ := overlay_ok hb z1 z2 (bs := bs.take (nb bits)) (by have := nb_le hb; simp; omega)
  obtain ⟨m1, m2⟩ := maskTop_ok hb o1 o2
  refine ⟨m1, ?_⟩
  unfold assignBytesL
  rw [m2, o3, z3, Nat.mul_zero, Nat.add_zero, leVal_take, Nat.mod_mod_of_dvd _ (pow_nb hb)]

theorem outBytes_ok {l : Limbs} (h : Wf bits l) : (outBytes bits l).length = nb bits ∧
    leVal (outBytes bits l) = value (vb bits) l := by
  have t := toBytes_ok hb h.len h.small
  refine ⟨by rw [outBytes, List.length_take, t.2]; exact Nat.min_eq_left (nb_le hb), ?_⟩
  rw [outBytes, leVal_take, t.1]
  exact Nat.mod_eq_of_lt (Nat.lt_of_lt_of_le h.lt (Nat.le_of_dvd (Nat.pos_of_ne_zero (by simp)) (pow_nb hb)))

theorem readIn_ok {l : Limbs} (h : Wf bits l) {bs : List Byte} (hl : bs.length = nb bits) :
    Wf bits (readIn bits l bs) ∧ value (vb bits) (readIn bits l bs) = leVal bs % 2 ^ bits := by
  obtain ⟨o1, o2, o3⟩ := overlay_ok hb h.len h.small (bs := bs) (by rw [hl]; exact nb_le hb)
  obtain ⟨m1, m2⟩ := maskTop_ok hb o1 o2
  refine ⟨m1, ?_⟩
  unfold readIn
  rw [m2, o3, hl]
  obtain ⟨c, hc⟩ := pow_nb hb
  rw [hc, Nat.mul_assoc, Nat.add_mul_mod_self_left]

theorem wf_ext {l l' : Limbs} (h : Wf bits l) (h' : Wf bits l') (e : value (vb bits) l = value (vb bits) l') : l = l' :=
  value_inj (by rw [h.len, h'.len]) h.small h'.small e

end

end Verif.Address
