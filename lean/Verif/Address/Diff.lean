import Verif.Address.Arith
set_option linter.unusedSimpArgs false
set_option linter.unusedVariables false
set_option linter.unusedSectionVars false
/-
Helper lemmas about the difference of addresses, and about conversions.
-/
namespace Verif.Address
open Verif

theorem int64_eq {v : Nat} {d : Int} (h : (v : Int) = d % 2 ^ 64) (h1 : -2 ^ 63 ≤ d) (h2 : d < 2 ^ 63) : int64 v = d := by
  unfold int64
  split <;> omega

theorem drop_any {x : Nat} : ∀ {l : List Nat}, (l.any (· ≠ x)) = false ↔ l = List.replicate l.length x
  | [] => by simp
  | v :: t => by
    have := drop_any (x := x) (l := t)
    simp only [List.any_cons, Bool.or_eq_false_iff, this, List.length_cons, List.replicate_succ, List.cons.injEq]
    simp

/-- The parts of three or more words. -/
theorem parts {l : Limbs} {N : Nat} (hl : l.length = N) (h3 : 3 ≤ N) (hs : Small 32 l) :
    ∃ d0 d1 d2 t, l = d0 :: d1 :: d2 :: t ∧ d0 < 2 ^ 32 ∧ d1 < 2 ^ 32 ∧ d2 < 2 ^ 32 ∧ Small 32 t ∧ t.length = N - 3 := by
  match l, hl with
  | d0 :: d1 :: d2 :: t, hl =>
    have ⟨a0, b0⟩ := small_cons.mp hs
    have ⟨a1, b1⟩ := small_cons.mp b0
    have ⟨a2, b2⟩ := small_cons.mp b1
    exact ⟨d0, d1, d2, t, rfl, a0, a1, a2, b2, by simp at hl; omega⟩
  | [], h => simp at h; omega
  | [_], h => simp at h; omega
  | [_, _], h => simp at h; omega

/-- The most significant word against the value. -/
theorem top_le {l : Limbs} {N : Nat} (hl : l.length = N) (h3 : 0 < N) (hs : Small 32 l) :
    (l.getD (N - 1) 0 ≤ vmask / 2 ↔ value 32 l < 2 ^ (32 * N - 1)) := by
  have e : l = l.take (N - 1) ++ [l.getD (N - 1) 0] := by
    have h1 : l.drop (N - 1) = [l.getD (N - 1) 0] := by
      rw [List.drop_eq_getElem_cons (by omega), List.drop_of_length_le (by omega), List.getD_eq_getElem?_getD,
        List.getElem?_eq_getElem (by omega)]
      rfl
    rw [← h1, List.take_append_drop]
  have v := value_append 32 (l.take (N - 1)) [l.getD (N - 1) 0]
  rw [← e, List.length_take, Nat.min_eq_left (by omega)] at v
  have lo := value_lt (w := 32) (l := l.take (N - 1)) (fun x hx => hs x (List.mem_of_mem_take hx))
  rw [List.length_take, Nat.min_eq_left (by omega)] at lo
  simp only [value, Nat.mul_zero, Nat.add_zero] at v
  rw [v, show 32 * N - 1 = 32 * (N - 1) + 31 by omega, Nat.pow_add]
  generalize value 32 (l.take (N - 1)) = a at *
  generalize l.getD (N - 1) 0 = t at *
  generalize (2 : Nat) ^ (32 * (N - 1)) = B at *
  simp only [vmask]
  constructor
  · intro h
    have : B * t ≤ B * (2 ^ 31 - 1) := Nat.mul_le_mul_left _ (by omega)
    omega
  · intro h
    apply Nat.le_of_not_lt
    intro hc
    have : B * 2 ^ 31 ≤ B * t := Nat.mul_le_mul_left _ (by omega)
    omega

theorem value_eq_zero {w : Nat} : ∀ {l : List Nat}, value w l = 0 ↔ l = List.replicate l.length 0
  | [] => by simp [value]
  | v :: t => by
    have ih := value_eq_zero (w := w) (l := t)
    simp only [value, List.length_cons, List.replicate_succ, List.cons.injEq, Nat.add_eq_zero_iff, Nat.mul_eq_zero]
    have : (2 : Nat) ^ w ≠ 0 := by simp
    simp only [this, false_or, ih]

theorem value_eq_ones {l : List Nat} (hs : Small 32 l) : value 32 l + 1 = 2 ^ (32 * l.length) ↔ l = List.replicate l.length vmask := by
  have o := value_ones l.length
  constructor
  · intro h
    apply value_inj (w := 32) (by simp) hs
    · intro v hv; rw [List.eq_of_mem_replicate hv]; simp [vmask]
    · omega
  · intro h
    rw [h, List.length_replicate]; exact o

section
variable {bits : Nat} (hb : 0 < bits)
include hb

/-- `ToInt64` in terms of the value. -/
theorem toInt64_ok {l : Limbs} (h1 : nv bits ≠ 1) (hl : l.length = nv bits) (hs : Small 32 l) :
    toInt64 bits l = if value 32 l < 2 ^ (32 * nv bits - 1) then
        if 2 ^ 63 ≤ value 32 l % 2 ^ 64 ∨ 2 ^ 96 ≤ value 32 l then 2 ^ 63 - 1 else int64 (value 32 l % 2 ^ 64)
      else if value 32 l % 2 ^ 64 < 2 ^ 63 ∨ value 32 l + 2 ^ 96 < 2 ^ (32 * nv bits) then -2 ^ 63
      else int64 (value 32 l % 2 ^ 64) := by
  obtain ⟨_, h3, _⟩ := multi hb h1
  have ht := top_le hl (by omega) hs
  obtain ⟨d0, d1, d2, t, rfl, a0, a1, a2, ht2, htl⟩ := parts hl h3 hs
  have e : value 32 (d0 :: d1 :: d2 :: t) = d0 + 2 ^ 32 * d1 + 2 ^ 64 * d2 + 2 ^ 96 * value 32 t := by
    simp only [value]; omega
  have e64 : value 32 (d0 :: d1 :: d2 :: t) % 2 ^ 64 = d0 + 2 ^ 32 * d1 := by rw [e]; omega
  have big : 2 ^ 96 ≤ value 32 (d0 :: d1 :: d2 :: t) ↔ value 32 t ≠ 0 := by rw [e]; omega
  have p96 : 2 ^ (32 * nv bits) = 2 ^ 96 * 2 ^ (32 * t.length) := by
    rw [← Nat.pow_add, htl]; congr 1; omega
  have tl := value_lt ht2
  have low : value 32 (d0 :: d1 :: d2 :: t) + 2 ^ 96 < 2 ^ (32 * nv bits) ↔ value 32 t + 1 ≠ 2 ^ (32 * t.length) := by
    rw [e, p96]
    generalize (2 : Nat) ^ (32 * t.length) = B at *
    omega
  have dr : List.drop 3 (d0 :: d1 :: d2 :: t) = t := rfl
  unfold toInt64
  simp only [dr]
  rw [show List.getD (d0 :: d1 :: d2 :: t) 0 0 + 2 ^ 32 * List.getD (d0 :: d1 :: d2 :: t) 1 0 = d0 + 2 ^ 32 * d1 by rfl]
  have i64 : (int64 (d0 + 2 ^ 32 * d1) < 0) ↔ 2 ^ 63 ≤ d0 + 2 ^ 32 * d1 := by unfold int64; split <;> omega
  rw [e64]
  by_cases hp : value 32 (d0 :: d1 :: d2 :: t) < 2 ^ (32 * nv bits - 1)
  · rw [if_pos (ht.mpr hp), if_pos hp]
    by_cases h63 : 2 ^ 63 ≤ d0 + 2 ^ 32 * d1
    · rw [if_pos (i64.mpr h63), if_pos (Or.inl h63)]
    · rw [if_neg (fun h => h63 (i64.mp h))]
      by_cases hz : value 32 t = 0
      · rw [if_neg (by rw [drop_any.mpr (value_eq_zero.mp hz)]; decide), if_neg (by rw [big]; omega)]
      · rw [if_pos, if_pos (Or.inr (big.mpr hz))]
        cases hc : t.any (· ≠ 0) with
        | true => rfl
        | false => exact absurd (value_eq_zero.mpr (drop_any.mp hc)) hz
  · rw [if_neg (fun h => hp (ht.mp h)), if_neg hp]
    by_cases h63 : d0 + 2 ^ 32 * d1 < 2 ^ 63
    · rw [if_pos (by have := i64; omega), if_pos (Or.inl h63)]
    · rw [if_neg (by have := i64; omega)]
      by_cases hz : value 32 t + 1 = 2 ^ (32 * t.length)
      · rw [if_neg (by rw [drop_any.mpr ((value_eq_ones ht2).mp hz)]; decide), if_neg (by rw [low]; omega)]
      · rw [if_pos, if_pos (Or.inr (low.mpr hz))]
        cases hc : t.any (· ≠ vmask) with
        | true => rfl
        | false => exact absurd ((value_eq_ones ht2).mpr (drop_any.mp hc)) hz

/-- The difference words. -/
theorem diff_value {a b : Limbs} (ha : Wf bits a) (hb' : Wf bits b) (h1 : nv bits ≠ 1) :
    (diffLoop 0 a b).length = nv bits ∧ Small 32 (diffLoop 0 a b) ∧
      ((value (vb bits) b ≤ value (vb bits) a ∧ value 32 (diffLoop 0 a b) + value (vb bits) b = value (vb bits) a) ∨
       (value (vb bits) a < value (vb bits) b ∧
         value 32 (diffLoop 0 a b) + value (vb bits) b = value (vb bits) a + 2 ^ (32 * nv bits))) := by
  obtain ⟨e, h3, hm⟩ := multi hb h1
  have sa := ha.small; have sb := hb'.small
  rw [e] at sa sb ⊢
  obtain ⟨d1, d2, q, d3, d4⟩ := diffLoop_ok (c := 0) (by rw [ha.len, hb'.len]) sa sb (by omega)
  rw [ha.len] at d1 d4
  refine ⟨d1, d2, ?_⟩
  have lt := value_lt d2
  rw [d1] at lt
  have la := ha.lt; have lb := hb'.lt
  rw [e] at la lb
  have pp : 2 ^ bits ≤ 2 ^ (32 * nv bits) := Nat.pow_le_pow_right (by omega) hm
  generalize value 32 (diffLoop 0 a b) = D at *
  generalize (2 : Nat) ^ (32 * nv bits) = B at *
  rcases (by omega : q = 0 ∨ q = 1) with h | h
  · subst h; left; omega
  · subst h; right; omega

theorem diff_multi {a b : Limbs} (ha : Wf bits a) (hb' : Wf bits b) (h1 : nv bits ≠ 1) :
    difference bits a b = toInt64 bits (diffLoop 0 a b) := by
  unfold difference; rw [if_neg h1]

/-! ### Conversions -/

omit hb in
theorem leVal_ff (k : Nat) : leVal (List.replicate k (0xff : Byte)) + 1 = 256 ^ k := by
  induction k with
  | zero => rfl
  | succ k ih =>
    have e : (256 : Nat) ^ (k + 1) = 256 * 256 ^ k := by rw [Nat.pow_succ, Nat.mul_comm]
    rw [List.replicate_succ, e, ← ih]
    simp only [leVal]
    have : (0xff : Byte).toNat = 255 := rfl
    omega

theorem assignValue_ok (m : Nat) (signed : Bool) (v : Int) (hm : 0 < m)
    (hr : if signed then -2 ^ (8 * m - 1) ≤ v ∧ v < 2 ^ (8 * m - 1) else 0 ≤ v ∧ v < 2 ^ (8 * m)) :
    Wf bits (assignValue bits m signed v) ∧
      ((value (vb bits) (assignValue bits m signed v) : Nat) : Int) = v % 2 ^ bits := by
  have p256 : (256 : Int) ^ m = 2 ^ (8 * m) := by rw [Int.pow_mul, show (2 : Int) ^ 8 = 256 by decide]
  have n256 : (256 : Nat) ^ m = 2 ^ (8 * m) := by rw [Nat.pow_mul]
  have pos : (0 : Int) < 2 ^ (8 * m) := Int.pow_pos (by omega)
  have half : (2 : Int) ^ (8 * m) = 2 * 2 ^ (8 * m - 1) := by
    rw [show 8 * m = (8 * m - 1) + 1 by omega, Int.pow_succ, Int.mul_comm]; simp
  obtain ⟨x, hx⟩ : ∃ x : Nat, (x : Int) = v % 256 ^ m :=
    ⟨(v % 256 ^ m).toNat, Int.toNat_of_nonneg (Int.emod_nonneg _ (by rw [p256]; omega))⟩
  have hx' : (v % 256 ^ m).toNat = x := by rw [← hx]; simp
  have xlt : x < 256 ^ m := by
    have := Int.emod_lt_of_pos v pos
    rw [← p256, ← hx, p256] at this
    rw [n256]; exact_mod_cast this
  obtain ⟨a1, a2⟩ := assign_ok hb (leBytes m x)
  rw [leVal_leBytes, Nat.mod_eq_of_lt xlt] at a2
  unfold assignValue
  simp only [hx']
  by_cases hc : signed = true ∧ m < nb bits ∧ v < 0
  · rw [if_pos hc]
    obtain ⟨c1, c2, c3⟩ := hc
    rw [c1] at hr
    simp only [if_true] at hr
    have h8 : 8 * m < bits := by unfold nb at c2; omega
    have t := toBytes_ok hb a1.len a1.small
    have tl : ((toBytes bits (assignBytesL bits (leBytes m x))).take m).length = m := by
      rw [List.length_take, t.2]; have := nb_le hb; omega
    have tv : leVal ((toBytes bits (assignBytesL bits (leBytes m x))).take m) = x := by
      rw [leVal_take, t.1, a2, Nat.mod_eq_of_lt (a := x) (b := 2 ^ bits), Nat.mod_eq_of_lt xlt]
      exact Nat.lt_of_lt_of_le xlt (by rw [n256]; exact Nat.pow_le_pow_right (by omega) (by omega))
    have hl : ((toBytes bits (assignBytesL bits (leBytes m x))).take m ++ List.replicate (nb bits - m) 0xff).length = nb bits := by
      rw [List.length_append, tl, List.length_replicate]; omega
    obtain ⟨o1, o2⟩ := readIn_ok hb a1 hl
    refine ⟨o1, ?_⟩
    have o2' : value (vb bits) (maskTop bits (overlay bits ((toBytes bits (assignBytesL bits (leBytes m x))).take m ++
      List.replicate (nb bits - m) 0xff) (assignBytesL bits (leBytes m x)))) = _ := o2
    rw [o2', leVal_append, tv, tl]
    have ff := leVal_ff (nb bits - m)
    generalize leVal (List.replicate (nb bits - m) (0xff : Byte)) = F at ff ⊢
    rw [Int.natCast_emod, Int.natCast_add, Int.natCast_mul, Int.natCast_pow, Int.natCast_pow,
      show ((256 : Nat) : Int) = 256 from rfl, show ((2 : Nat) : Int) = 2 from rfl]
    have : (F : Int) = 256 ^ (nb bits - m) - 1 := by
      have := congrArg (fun k : Nat => (k : Int)) ff
      rw [Int.natCast_add, Int.natCast_pow, show ((256 : Nat) : Int) = 256 from rfl] at this
      omega
    rw [this, hx, Int.mul_sub, Int.mul_one, ← Int.pow_add]
    rw [show m + (nb bits - m) = nb bits by omega]
    have pn : (256 : Int) ^ nb bits = 2 ^ (8 * nb bits) := by rw [Int.pow_mul, show (2 : Int) ^ 8 = 256 by decide]
    rw [pn]
    apply int_mod_of (z := 1) (n := 8 * nb bits) (by unfold nb; omega)
    have : v % 256 ^ m = v + 256 ^ m := by
      rw [p256, ← Int.add_emod_right]
      exact Int.emod_eq_of_lt (by omega) (by omega)
    rw [this]; omega
  · rw [if_neg hc]
    refine ⟨a1, ?_⟩
    rw [a2]
    push_cast
    rw [hx]
    by_cases hv : 0 ≤ v
    · rw [Int.emod_eq_of_lt hv]
      rw [p256]
      cases signed <;> simp at hr <;> omega
    · have hsg : signed = true := by
        cases signed with
        | true => rfl
        | false => simp at hr; omega
      have hmn : nb bits ≤ m := by
        apply Nat.le_of_not_lt
        intro h; exact hc ⟨hsg, h, by omega⟩
      rw [p256]
      apply int_mod_of (z := -(v / 2 ^ (8 * m))) (n := 8 * m) (by unfold nb at hmn; omega)
      have := Int.emod_add_mul_ediv v (2 ^ (8 * m))
      rw [Int.mul_neg]; omega

theorem values_ok {m : Nat} {vs : List Nat} (hs : Small (8 * m) vs) :
    Wf bits (assignValuesL bits m vs) ∧ value (vb bits) (assignValuesL bits m vs) = value (8 * m) vs % 2 ^ bits := by
  have h := assign_ok hb (vs.flatMap (leBytes m))
  rw [(leVal_flat m hs).1] at h
  exact h

omit hb in
theorem value_take {w : Nat} {l : List Nat} (hs : Small w l) (k : Nat) : value w (l.take k) = value w l % 2 ^ (w * k) := by
  by_cases hk : k ≤ l.length
  · have v := value_append w (l.take k) (l.drop k)
    rw [List.take_append_drop, List.length_take, Nat.min_eq_left hk] at v
    have lo := value_lt (w := w) (l := l.take k) (fun x hx => hs x (List.mem_of_mem_take hx))
    rw [List.length_take, Nat.min_eq_left hk] at lo
    rw [v, Nat.add_mul_mod_self_left, Nat.mod_eq_of_lt lo]
  · rw [List.take_of_length_le (by omega)]
    exact (Nat.mod_eq_of_lt (Nat.lt_of_lt_of_le (value_lt hs) (Nat.pow_le_pow_right (by omega) (Nat.mul_le_mul_left _ (by omega))))).symm

omit hb in
theorem nt_enough {bits m : Nat} (hm : 0 < m) : bits ≤ 8 * m * nt bits m := by
  unfold nt
  have : 0 < 8 * m := by omega
  have h := Nat.lt_mul_div_succ (bits + 8 * m - 1) this
  rw [Nat.mul_add, Nat.mul_one] at h
  omega

theorem values_take_ok {m : Nat} (hm : 0 < m) {vs : List Nat} (hs : Small (8 * m) vs) :
    Wf bits (assignBytesL bits ((vs.take (nt bits m)).flatMap (leBytes m))) ∧
      value (vb bits) (assignBytesL bits ((vs.take (nt bits m)).flatMap (leBytes m))) = value (8 * m) vs % 2 ^ bits := by
  have := values_ok hb (m := m) (vs := vs.take (nt bits m)) (fun x hx => hs x (List.mem_of_mem_take hx))
  rw [value_take hs, Nat.mod_mod_of_dvd _ (Nat.pow_dvd_pow 2 (nt_enough hm))] at this
  exact this

theorem values_pad_ok {m : Nat} (hm : 0 < m) {vs : List Nat} (hs : Small (8 * m) vs) (k : Nat) :
    Wf bits (assignBytesL bits ((vs.take (nt bits m) ++ List.replicate k 0).flatMap (leBytes m))) ∧
      value (vb bits) (assignBytesL bits ((vs.take (nt bits m) ++ List.replicate k 0).flatMap (leBytes m))) =
        value (8 * m) vs % 2 ^ bits := by
  have := values_ok hb (m := m) (vs := vs.take (nt bits m) ++ List.replicate k 0) (by
    intro x hx
    rcases List.mem_append.mp hx with h | h
    · exact hs x (List.mem_of_mem_take h)
    · rw [List.eq_of_mem_replicate h]; exact Nat.two_pow_pos _)
  rw [value_append, value_zeros, Nat.mul_zero, Nat.add_zero, value_take hs,
    Nat.mod_mod_of_dvd _ (Nat.pow_dvd_pow 2 (nt_enough hm))] at this
  exact this

end
end Verif.Address
