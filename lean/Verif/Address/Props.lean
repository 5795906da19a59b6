import Verif.Address.Diff
import Verif.Iter.Props
set_option linter.unusedSimpArgs false
set_option linter.unusedVariables false

/-!
Property theorems about addresses (C53-C61, C87).

`num bits a` is the number that the words of `a` denote; `Wf bits a` says that `a` is what an `Address<bits>` can hold: the right
number of words, each in range, and the number below `2 ^ bits`.  Constructors give such addresses (C59) and all operations
keep them so.
-/
namespace Verif.Address
open Verif

/-- The unsigned number that the words denote. -/
def num (bits : Nat) (a : Limbs) : Nat := value (vb bits) a

/-! ### C53 -/

/-- **C53.** `++`. -/
theorem C53_increment {bits : Nat} (hb : 0 < bits) {a : Limbs} (ha : Wf bits a) :
    Wf bits (increment bits a) ∧ num bits (increment bits a) = (num bits a + 1) % 2 ^ bits := inc_ok hb ha

/-- **C53.** `--`. -/
theorem C53_decrement {bits : Nat} (hb : 0 < bits) {a : Limbs} (ha : Wf bits a) :
    Wf bits (decrement bits a) ∧ (num bits (decrement bits a) : Int) = ((num bits a : Int) - 1) % 2 ^ bits := dec_ok hb ha

/-- **C53.** `+= n` for every signed 64-bit `n`. -/
theorem C53_plus {bits : Nat} (hb : 0 < bits) {a : Limbs} (ha : Wf bits a) {n : Int} (h1 : -2 ^ 63 ≤ n) (h2 : n < 2 ^ 63) :
    Wf bits (plus bits a n) ∧ (num bits (plus bits a n) : Int) = ((num bits a : Int) + n) % 2 ^ bits := plus_ok hb ha h1 h2

/-- **C53**, partial: `-= n` for every signed 64-bit `n` except the smallest one (see `C53_minus_fails`). -/
theorem C53_minus_partial {bits : Nat} (hb : 0 < bits) {a : Limbs} (ha : Wf bits a) {n : Int} (h1 : -2 ^ 63 < n) (h2 : n < 2 ^ 63) :
    ∃ r, minus bits a n = some r ∧ Wf bits r ∧ (num bits r : Int) = ((num bits a : Int) - n) % 2 ^ bits := minus_ok hb ha h1 h2

/-- `-= INT64_MIN` negates `INT64_MIN`, which is undefined. -/
theorem C53_minus_fails (bits : Nat) (a : Limbs) : minus bits a (-2 ^ 63) = none := by
  unfold minus; rw [if_pos rfl]

/-- **C53.** Unary minus. -/
theorem C53_negate {bits : Nat} (hb : 0 < bits) {a : Limbs} (ha : Wf bits a) :
    Wf bits (negate bits a) ∧ (num bits (negate bits a) : Int) = (-(num bits a : Int)) % 2 ^ bits := neg_ok hb ha

/-- A 20-bit address and a 70-bit address, with the top bits set. -/
example : Wf 20 [0xfffff] ∧ Wf 70 [0xffffffff, 0xffffffff, 0x3f] :=
  ⟨⟨by decide, by unfold Small; decide, by decide⟩, ⟨by decide, by unfold Small; decide, by decide⟩⟩
example : increment 70 [0xffffffff, 0xffffffff, 0x3f] = [0, 0, 0] ∧ decrement 70 [0, 0, 0] = [0xffffffff, 0xffffffff, 0x3f] ∧
    plus 70 [0, 0, 1] (-1) = [0xffffffff, 0xffffffff, 0] ∧ minus 70 [1, 0, 0] 2 = some [0xffffffff, 0xffffffff, 0x3f] := by
  decide

/-! ### C54 -/

/-- **C54.** The six comparisons are those of the unsigned numbers. -/
theorem C54_compare {bits : Nat} (hb : 0 < bits) {a b : Limbs} (ha : Wf bits a) (hb' : Wf bits b) :
    (eqOp a b = true ↔ num bits a = num bits b) ∧ (neOp a b = true ↔ num bits a ≠ num bits b) ∧
    (ltOp a b = true ↔ num bits a < num bits b) ∧ (leOp a b = true ↔ num bits a ≤ num bits b) ∧
    (gtOp a b = true ↔ num bits a > num bits b) ∧ (geOp a b = true ↔ num bits a ≥ num bits b) := by
  have hl : a.length = b.length := by rw [ha.len, hb'.len]
  have heq : equal a b = true ↔ num bits a = num bits b := by
    rw [equal_iff hl]
    exact ⟨fun h => by rw [h], fun h => wf_ext hb ha hb' h⟩
  have t := top_cmp (w := vb bits) (a := a.reverse) (b := b.reverse) (by simp [hl]) (small_reverse ha.small) (small_reverse hb'.small)
  simp only [List.reverse_reverse] at t
  obtain ⟨t1, t2⟩ := t
  have neg : ∀ {x : Bool} {P : Prop}, (x = true ↔ P) → ((!x) = true ↔ ¬ P) := by
    intro x P h; rw [← h]; cases x <;> simp
  refine ⟨heq, neg heq, t1, t2, ?_, ?_⟩
  · exact (neg t2).trans Nat.not_le
  · exact (neg t1).trans Nat.not_lt

example : ltOp [5, 0, 1] [4, 0, 2] = true ∧ geOp [5, 0, 1] [4, 0, 1] = true := by decide

/-! ### C55 -/

/-- **C55.** `&`, `|`, `^` and `~` are the operations on the bits of the number; `~` keeps within `bits` bits. -/
theorem C55_bitwise {bits : Nat} (hb : 0 < bits) {a b : Limbs} (ha : Wf bits a) (hb' : Wf bits b) :
    (Wf bits (bitAnd a b) ∧ num bits (bitAnd a b) = num bits a &&& num bits b) ∧
    (Wf bits (bitOr a b) ∧ num bits (bitOr a b) = num bits a ||| num bits b) ∧
    (Wf bits (bitXor a b) ∧ num bits (bitXor a b) = num bits a ^^^ num bits b) ∧
    (Wf bits (bitNot bits a) ∧ ∀ k, (num bits (bitNot bits a)).testBit k = (decide (k < bits) && !(num bits a).testBit k)) := by
  have z1 := zip_ok hb ha hb' (f := (· &&& ·)) (g := (· && ·)) (fun x y k => Nat.testBit_and x y k) (by simp) rfl
  have z2 := zip_ok hb ha hb' (f := (· ||| ·)) (g := (· || ·)) (fun x y k => Nat.testBit_or x y k) (by simp) rfl
  have z3 := zip_ok hb ha hb' (f := (· ^^^ ·)) (g := (· ^^ ·)) (fun x y k => Nat.testBit_xor x y k) (by simp) rfl
  have n := not_ok hb ha
  refine ⟨⟨z1.1, ?_⟩, ⟨z2.1, ?_⟩, ⟨z3.1, ?_⟩, n.1, ?_⟩
  · apply Nat.eq_of_testBit_eq; intro k; rw [Nat.testBit_and]; exact z1.2 k
  · apply Nat.eq_of_testBit_eq; intro k; rw [Nat.testBit_or]; exact z2.2 k
  · apply Nat.eq_of_testBit_eq; intro k; rw [Nat.testBit_xor]; exact z3.2 k
  · intro k
    unfold num
    rw [n.2, Nat.testBit_two_pow_sub_succ ha.lt]

example : bitNot 70 [0, 5, 1] = [0xffffffff, 0xfffffffa, 0x3e] ∧ bitXor [0, 5, 1] [1, 4, 1] = [1, 1, 0] := by decide

/-! ### C56 -/

/-- The shift counts for which the shifts are defined: addresses of at most 64 bits take every count; wider ones must not be
shifted by a positive multiple of 32 that does not reach the last word. -/
def GoodShift (bits n : Nat) : Prop := bits ≤ 64 ∨ n = 0 ∨ n % 32 ≠ 0 ∨ (bits + 31) / 32 ≤ n / 32 + 1

theorem nv_wide {bits : Nat} (h : 64 < bits) : nv bits = (bits + 31) / 32 := by
  unfold nv; rw [if_neg (by omega)]

theorem good_nv {bits n : Nat} (hb : 0 < bits) (h : GoodShift bits n) :
    nv bits = 1 ∨ n = 0 ∨ n % 32 ≠ 0 ∨ nv bits - 1 ≤ n / 32 := by
  by_cases hw : bits ≤ 64
  · exact Or.inl ((shape bits hb).2.2.2.2.1.mpr hw)
  · rw [nv_wide (by omega)]
    unfold GoodShift at h; omega

/-- **C56**, partial: the shifts, where they are defined. -/
theorem C56_shift_partial {bits : Nat} (hb : 0 < bits) {a : Limbs} (ha : Wf bits a) {n : Nat} (hn : GoodShift bits n) :
    (∃ r, leftShift bits a n = some r ∧ Wf bits r ∧ num bits r = num bits a * 2 ^ n % 2 ^ bits) ∧
    (∃ r, rightShift bits a n = some r ∧ Wf bits r ∧ num bits r = num bits a / 2 ^ n) :=
  ⟨shl_ok hb ha n (good_nv hb hn), shr_ok hb ha n (good_nv hb hn)⟩

/-- Every other count shifts a 32-bit word by 32, which is undefined. -/
theorem C56_fails {bits : Nat} (hb : 0 < bits) (a : Limbs) {n : Nat} (hn : ¬ GoodShift bits n) :
    leftShift bits a n = none ∧ rightShift bits a n = none := by
  unfold GoodShift at hn
  have e := nv_wide (bits := bits) (by omega)
  exact sh_fails hb n (by omega) (by omega) (by omega) (by omega)

example : GoodShift 128 33 ∧ GoodShift 128 1000 ∧ GoodShift 64 32 ∧ ¬ GoodShift 128 64 := by unfold GoodShift; omega
example : leftShift 70 [1, 2, 3] 33 = some [0, 2, 4] ∧ rightShift 70 [1, 2, 3] 33 = some [0x80000001, 1, 0] := by decide

/-! ### C57 -/

/-- **C57**, partial: products of addresses of up to 64 bits. -/
theorem C57_multiply_partial {bits : Nat} (hb : 0 < bits) (hw : bits ≤ 64) {a : Limbs} (ha : Wf bits a) {n : Nat} (hn : n < 2 ^ 64) :
    (∃ r, multiply bits a n = some r ∧ Wf bits r ∧ num bits r = num bits a * n % 2 ^ bits) ∧
    (∃ r, multiplyAssign bits a n = some r ∧ Wf bits r ∧ num bits r = num bits a * n % 2 ^ bits) := by
  have h1 : nv bits = 1 := (shape bits hb).2.2.2.2.1.mpr hw
  have sh := shape bits hb
  have hle := sh.2.2.2.1
  rw [h1, Nat.mul_one] at hle
  have hvb : vb bits ≤ 64 := by rcases sh.1 with h | h <;> omega
  constructor
  · unfold multiply
    rw [if_pos h1]
    obtain ⟨o1, o2⟩ := onWord_ok hb ha.len h1 (fun v => v * n % 2 ^ 64)
    refine ⟨_, rfl, o1, ?_⟩
    exact o2.trans (Nat.mod_mod_of_dvd _ (Nat.pow_dvd_pow 2 hw))
  · unfold multiplyAssign
    rw [if_pos h1]
    obtain ⟨o1, o2⟩ := onWord_ok hb ha.len h1 (fun v => v * (n % 2 ^ vb bits))
    refine ⟨_, rfl, o1, ?_⟩
    refine o2.trans ?_
    unfold num
    rw [Nat.mul_mod, Nat.mod_mod_of_dvd _ (Nat.pow_dvd_pow 2 hle), ← Nat.mul_mod]

/-- Wider addresses: every `*` and every `*=` by more than one accesses the word behind the last one. -/
theorem C57_fails {bits : Nat} (hb : 0 < bits) (hw : 64 < bits) {a : Limbs} (ha : Wf bits a) {n : Nat} :
    multiply bits a n = none ∧ (1 < n → multiplyAssign bits a n = none) := by
  have h1 : nv bits ≠ 1 := fun h => by have := (shape bits hb).2.2.2.2.1.mp h; omega
  have h3 := (multi hb h1).2.1
  constructor
  · unfold multiply multiplyPlus
    rw [if_neg h1, mulMem_none n (by simp [zero, ha.len]) (by rw [ha.len]; omega)]; rfl
  · intro hn
    unfold multiplyAssign multiplyPlus
    rw [if_neg h1, if_neg (by omega), if_pos (by omega), mulMem_none _ (by simp) (by rw [ha.len]; omega)]; rfl

/-- `*= 0` and `*= 1` are always fine. -/
theorem C57_trivial_partial {bits : Nat} (hb : 0 < bits) (hw : 64 < bits) {a : Limbs} (ha : Wf bits a) :
    (∃ r, multiplyAssign bits a 0 = some r ∧ Wf bits r ∧ num bits r = 0) ∧ multiplyAssign bits a 1 = some a := by
  have h1 : nv bits ≠ 1 := fun h => by have := (shape bits hb).2.2.2.2.1.mp h; omega
  unfold multiplyAssign
  simp only [if_neg h1, if_true, if_neg (show ¬ (1 : Nat) = 0 by omega), if_neg (show ¬ (1 : Nat) > 1 by omega)]
  obtain ⟨z1, z2, _⟩ := zero_ok hb
  have zv : value (vb bits) (zero bits) = 0 := value_zeros _ _
  exact ⟨⟨_, rfl, ⟨z1, z2, by rw [zv]; exact Nat.two_pow_pos _⟩, zv⟩, trivial⟩

/-- If the word behind the address may be accessed (it holds `x`), then the words of the address are those of the product, so
that the access outside is the only defect. -/
theorem C57_words_partial {bits : Nat} (hb : 0 < bits) (hw : 64 < bits) {a d : Limbs} (ha : Wf bits a) (hd : Wf bits d) {n x : Nat}
    (hn : n < 2 ^ 64) (hx : x < 2 ^ 32) :
    ∃ r, mulMem a n (d ++ [x]) = some r ∧ r.length = nv bits + 1 ∧ Wf bits (maskTop bits (r.take (nv bits))) ∧
      num bits (maskTop bits (r.take (nv bits))) = (num bits d + num bits a * n) % 2 ^ bits := by
  have h1 : nv bits ≠ 1 := fun h => by have := (shape bits hb).2.2.2.2.1.mp h; omega
  obtain ⟨e, h3, hm⟩ := multi hb h1
  have sa := ha.small; have sd := hd.small
  rw [e] at sa sd
  obtain ⟨r, q, r1, r2, r3, r4⟩ := mulMem_ok (m := a) (d := d ++ [x]) hn sa (by
    intro v hv
    rcases List.mem_append.mp hv with h | h
    · exact sd v h
    · simp at h; rw [h]; exact hx) (by simp [ha.len, hd.len])
  rw [List.length_append, hd.len, List.length_singleton] at r2
  obtain ⟨m1, m2⟩ := maskTop_ok hb (l := r.take (nv bits)) (by rw [List.length_take, r2]; omega)
    (by rw [e]; exact fun v hv => r3 v (List.mem_of_mem_take hv))
  refine ⟨r, r1, r2, m1, ?_⟩
  unfold num
  rw [m2, e, value_take r3, Nat.mod_mod_of_dvd _ (Nat.pow_dvd_pow 2 hm)]
  rw [value_append, hd.len, ha.len] at r4
  obtain ⟨c, hc⟩ := Nat.pow_dvd_pow 2 hm
  have g1 : (value 32 r + 2 ^ (32 * nv bits) * q) % 2 ^ bits = value 32 r % 2 ^ bits := by
    rw [hc, Nat.mul_assoc, Nat.add_mul_mod_self_left]
  rw [← g1, r4, hc, Nat.mul_assoc,
    show value 32 d + 2 ^ bits * (c * value 32 [x]) + n * value 32 a = value 32 d + value 32 a * n + 2 ^ bits * (c * value 32 [x]) by
      rw [Nat.mul_comm n]; omega,
    Nat.add_mul_mod_self_left]

example : multiply 40 [0xffffffffff] 3 = some [0xfffffffffd] ∧ multiply 96 [1, 0, 0] 2 = none := by decide

/-! ### C58 -/

/-- **C58**, partial: the difference of addresses of up to 32 bits is right when it is not negative. -/
theorem C58_small_partial {bits : Nat} (hb : 0 < bits) (hw : bits ≤ 32) {a b : Limbs} (ha : Wf bits a) (hb' : Wf bits b)
    (h : num bits b ≤ num bits a) : difference bits a b = (num bits a : Int) - num bits b := by
  have sh := shape bits hb
  have h1 : nv bits = 1 := sh.2.2.2.2.1.mpr (by omega)
  have e : vb bits = 32 := by rcases sh.1 with h | h; exact h; have := sh.2.2.2.2.2.2.1 h; omega
  obtain ⟨x, rfl⟩ := single_list ha.len h1
  obtain ⟨y, rfl⟩ := single_list hb'.len h1
  have hx := ha.small x (by simp)
  have hy := hb'.small y (by simp)
  unfold num difference at *
  rw [if_pos h1]
  simp only [value, Nat.mul_zero, Nat.add_zero] at h ⊢
  rw [e] at hx hy
  have g : ∀ z : Nat, List.getD [z] 0 0 = z := fun z => rfl
  rw [g, g, e]
  unfold int64
  split <;> omega

/-- A negative difference of addresses of up to 32 bits is always off by `2 ^ 32`. -/
theorem C58_small_fails {bits : Nat} (hb : 0 < bits) (hw : bits ≤ 32) {a b : Limbs} (ha : Wf bits a) (hb' : Wf bits b)
    (h : num bits a < num bits b) : difference bits a b = (num bits a : Int) - num bits b + 2 ^ 32 := by
  have sh := shape bits hb
  have h1 : nv bits = 1 := sh.2.2.2.2.1.mpr (by omega)
  have e : vb bits = 32 := by rcases sh.1 with h | h; exact h; have := sh.2.2.2.2.2.2.1 h; omega
  obtain ⟨x, rfl⟩ := single_list ha.len h1
  obtain ⟨y, rfl⟩ := single_list hb'.len h1
  have hx := ha.small x (by simp)
  have hy := hb'.small y (by simp)
  unfold num difference at *
  rw [if_pos h1]
  simp only [value, Nat.mul_zero, Nat.add_zero] at h ⊢
  rw [e] at hx hy
  have g : ∀ z : Nat, List.getD [z] 0 0 = z := fun z => rfl
  rw [g, g, e]
  unfold int64
  split <;> omega

/-- **C58**, partial: differences of addresses of more than 32 bits that fit in 64 bits. -/
theorem C58_fits_partial {bits : Nat} (hb : 0 < bits) (hw : 32 < bits) {a b : Limbs} (ha : Wf bits a) (hb' : Wf bits b)
    (h1 : -2 ^ 63 ≤ (num bits a : Int) - num bits b) (h2 : (num bits a : Int) - num bits b < 2 ^ 63) :
    difference bits a b = (num bits a : Int) - num bits b := by
  have sh := shape bits hb
  by_cases hv : nv bits = 1
  · have e : vb bits = 64 := by rcases sh.1 with h | h; have := sh.2.2.2.2.2.2.2 h hv; omega; exact h
    obtain ⟨x, rfl⟩ := single_list ha.len hv
    obtain ⟨y, rfl⟩ := single_list hb'.len hv
    have hx := ha.small x (by simp)
    have hy := hb'.small y (by simp)
    unfold num difference at *
    rw [if_pos hv]
    simp only [value, Nat.mul_zero, Nat.add_zero] at h1 h2 ⊢
    rw [e] at hx hy
    have g : ∀ z : Nat, List.getD [z] 0 0 = z := fun z => rfl
    rw [g, g, e]
    exact int64_eq (by omega) h1 h2
  · rw [diff_multi hb ha hb' hv]
    obtain ⟨d1, d2, d3⟩ := diff_value hb ha hb' hv
    rw [toInt64_ok hb hv d1 d2]
    unfold num at *
    have hm := (multi hb hv).2.1
    have p : (2 : Nat) ^ (32 * nv bits - 1) = 2 ^ 95 * 2 ^ (32 * (nv bits - 3)) := by
      rw [← Nat.pow_add]; congr 1; omega
    have p' : (2 : Nat) ^ (32 * nv bits) = 2 ^ 96 * 2 ^ (32 * (nv bits - 3)) := by
      rw [← Nat.pow_add]; congr 1; omega
    have pos := Nat.two_pow_pos (32 * (nv bits - 3))
    rw [p'] at d3
    rw [p, p']
    generalize (2 : Nat) ^ (32 * (nv bits - 3)) = B at *
    generalize value 32 (diffLoop 0 a b) = D at *
    rcases d3 with ⟨_, d3⟩ | ⟨_, d3⟩
    · rw [if_pos (by omega), if_neg (by omega)]
      exact int64_eq (by omega) h1 h2
    · rw [if_neg (by omega), if_neg (by omega)]
      exact int64_eq (by omega) h1 h2

/-- **C58**, partial: addresses of more than 64 bits saturate when the difference is just outside of 64 bits, or has a bit
set in the fourth word or above, and the sign can be told from the topmost bit of the words. -/
theorem C58_saturate_partial {bits : Nat} (hb : 0 < bits) (hw : 64 < bits) {a b : Limbs} (ha : Wf bits a) (hb' : Wf bits b) :
    (∀ d : Nat, num bits a = num bits b + d → 2 ^ 63 ≤ d → (d < 2 ^ 64 ∨ 2 ^ 96 ≤ d) → d < 2 ^ (32 * ((bits + 31) / 32) - 1) →
      difference bits a b = 2 ^ 63 - 1) ∧
    (∀ d : Nat, num bits b = num bits a + d → 2 ^ 63 < d → (d ≤ 2 ^ 64 ∨ 2 ^ 96 < d) → d ≤ 2 ^ (32 * ((bits + 31) / 32) - 1) →
      difference bits a b = -2 ^ 63) := by
  have hv : nv bits ≠ 1 := fun h => by have := (shape bits hb).2.2.2.2.1.mp h; omega
  obtain ⟨d1, d2, d3⟩ := diff_value hb ha hb' hv
  rw [diff_multi hb ha hb' hv, toInt64_ok hb hv d1 d2, ← nv_wide hw]
  unfold num
  have hm := (multi hb hv).2.1
  have p : (2 : Nat) ^ (32 * nv bits) = 2 * 2 ^ (32 * nv bits - 1) := by
    rw [show 32 * nv bits = (32 * nv bits - 1) + 1 by omega, Nat.pow_succ, Nat.mul_comm]; simp
  have p' : (2 : Nat) ^ (32 * nv bits - 1) = 2 ^ 95 * 2 ^ (32 * (nv bits - 3)) := by
    rw [← Nat.pow_add]; congr 1; omega
  have pos := Nat.two_pow_pos (32 * (nv bits - 3))
  rw [p, p'] at d3
  rw [p, p']
  generalize (2 : Nat) ^ (32 * (nv bits - 3)) = B at *
  generalize value 32 (diffLoop 0 a b) = D at *
  constructor
  · intro d e h1 h2 h3
    have : D = d := by omega
    subst this
    rw [if_pos h3]
    by_cases h : 2 ^ 63 ≤ D % 2 ^ 64 ∨ 2 ^ 96 ≤ D
    · rw [if_pos h]
    · omega
  · intro d e h1 h2 h3
    have : D + d = 2 * (2 ^ 95 * B) := by omega
    rw [if_neg (by omega)]
    by_cases h : D % 2 ^ 64 < 2 ^ 63 ∨ D + 2 ^ 96 < 2 * (2 ^ 95 * B)
    · rw [if_pos h]
    · omega

/-- Differences from `2 ^ 64` up to below `2 ^ 96` are cut to their low 64 bits when these are a non-negative number. -/
theorem C58_wide_fails {bits : Nat} (hb : 0 < bits) (hw : 96 < bits) {a b : Limbs} (ha : Wf bits a) (hb' : Wf bits b) {d : Nat}
    (e : num bits a = num bits b + d) (h1 : 2 ^ 64 ≤ d) (h2 : d < 2 ^ 96) (h3 : d % 2 ^ 64 < 2 ^ 63) :
    difference bits a b = (d % 2 ^ 64 : Nat) := by
  have hv : nv bits ≠ 1 := fun h => by have := (shape bits hb).2.2.2.2.1.mp h; omega
  obtain ⟨d1, d2, d3⟩ := diff_value hb ha hb' hv
  rw [diff_multi hb ha hb' hv, toInt64_ok hb hv d1 d2]
  unfold num at e
  have hm : 4 ≤ nv bits := by rw [nv_wide (by omega)]; omega
  have p : (2 : Nat) ^ (32 * nv bits - 1) = 2 ^ 127 * 2 ^ (32 * (nv bits - 4)) := by
    rw [← Nat.pow_add]; congr 1; omega
  have pos := Nat.two_pow_pos (32 * (nv bits - 4))
  rw [p]
  generalize (2 : Nat) ^ (32 * (nv bits - 4)) = B at *
  generalize value 32 (diffLoop 0 a b) = D at *
  have hD : D = d := by omega
  subst hD
  rw [if_pos (by omega), if_neg (by omega)]
  have i : int64 (D % 2 ^ 64) = (D % 2 ^ 64 : Nat) := by unfold int64; rw [if_pos h3]
  exact i

/-- What the documentation of `operator-` promises: the difference, saturated to 64 bits. -/
def saturated (d : Int) : Int := max (-2 ^ 63) (min d (2 ^ 63 - 1))

/-- **C58**, partial: exactly when the result is what is promised.  Up to 32 bits: if and only if the difference is not negative.  Up to 64
bits: if and only if it fits in 64 bits.  Above: if and only if it fits; or its sign can be told from the topmost bit of the words and either
the low 64 bits have the opposite sign (or happen to be the bound) or the difference reaches the fourth word. -/
theorem C58_exact_partial {bits : Nat} (hb : 0 < bits) {a b : Limbs} (ha : Wf bits a) (hb' : Wf bits b) :
    let d : Int := (num bits a : Int) - num bits b
    (bits ≤ 32 → (difference bits a b = saturated d ↔ 0 ≤ d)) ∧
    (32 < bits → bits ≤ 64 → (difference bits a b = saturated d ↔ -2 ^ 63 ≤ d ∧ d < 2 ^ 63)) ∧
    (64 < bits → (difference bits a b = saturated d ↔
      (-2 ^ 63 ≤ d ∧ d < 2 ^ 63) ∨
      (2 ^ 63 ≤ d ∧ d < 2 ^ (32 * ((bits + 31) / 32) - 1) ∧ (2 ^ 63 - 1 ≤ d % 2 ^ 64 ∨ 2 ^ 96 ≤ d)) ∨
      (d < -2 ^ 63 ∧ -2 ^ (32 * ((bits + 31) / 32) - 1) ≤ d ∧ (d % 2 ^ 64 ≤ 2 ^ 63 ∨ d < -2 ^ 96)))) := by
  intro d
  have sh := shape bits hb
  refine ⟨fun hw => ?_, fun hw1 hw2 => ?_, fun hw => ?_⟩
  · have ha1 : num bits a < 2 ^ 32 := Nat.lt_of_lt_of_le ha.lt (Nat.pow_le_pow_right (by omega) hw)
    have hb1 : num bits b < 2 ^ 32 := Nat.lt_of_lt_of_le hb'.lt (Nat.pow_le_pow_right (by omega) hw)
    by_cases h : num bits b ≤ num bits a
    · rw [C58_small_partial hb hw ha hb' h]; unfold saturated; omega
    · rw [C58_small_fails hb hw ha hb' (by omega)]; unfold saturated; omega
  · have ha1 : num bits a < 2 ^ 64 := Nat.lt_of_lt_of_le ha.lt (Nat.pow_le_pow_right (by omega) hw2)
    have hb1 : num bits b < 2 ^ 64 := Nat.lt_of_lt_of_le hb'.lt (Nat.pow_le_pow_right (by omega) hw2)
    have hv : nv bits = 1 := sh.2.2.2.2.1.mpr hw2
    have e : vb bits = 64 := by rcases sh.1 with h | h; have := sh.2.2.2.2.2.2.2 h hv; omega; exact h
    obtain ⟨x, rfl⟩ := single_list ha.len hv
    obtain ⟨y, rfl⟩ := single_list hb'.len hv
    have g : ∀ z : Nat, List.getD [z] 0 0 = z := fun z => rfl
    have k : difference bits [x] [y] = int64 ((x + 2 ^ 64 - y) % 2 ^ 64) := by
      unfold difference; rw [if_pos hv, g, g, e]
    have nx : num bits [x] = x := by simp [num, value]
    have ny : num bits [y] = y := by simp [num, value]
    rw [k]
    have hd : d = (x : Int) - y := by rw [show d = (num bits [x] : Int) - num bits [y] from rfl, nx, ny]
    rw [nx] at ha1; rw [ny] at hb1
    clear_value d
    subst hd
    unfold saturated int64
    split <;> omega
  · have hv : nv bits ≠ 1 := fun h => by have := sh.2.2.2.2.1.mp h; omega
    obtain ⟨d1, d2, d3⟩ := diff_value hb ha hb' hv
    rw [diff_multi hb ha hb' hv, toInt64_ok hb hv d1 d2, ← nv_wide hw]
    have hm := (multi hb hv).2.1
    have p : (2 : Nat) ^ (32 * nv bits) = 2 * 2 ^ (32 * nv bits - 1) := by
      rw [show 32 * nv bits = (32 * nv bits - 1) + 1 by omega, Nat.pow_succ, Nat.mul_comm]; simp
    have p' : (2 : Nat) ^ (32 * nv bits - 1) = 2 ^ 95 * 2 ^ (32 * (nv bits - 3)) := by
      rw [← Nat.pow_add]; congr 1; omega
    have pc : (2 : Int) ^ (32 * nv bits - 1) = ((2 ^ (32 * nv bits - 1) : Nat) : Int) := by simp
    have pos := Nat.two_pow_pos (32 * (nv bits - 3))
    have lt := value_lt d2
    rw [d1, p, p'] at lt
    rw [p, p'] at d3
    have hd : d = (value (vb bits) a : Int) - value (vb bits) b := rfl
    rw [pc, p, p']
    clear_value d
    generalize (2 : Nat) ^ (32 * (nv bits - 3)) = B at *
    generalize value 32 (diffLoop 0 a b) = D at *
    generalize value (vb bits) a = x at *
    generalize value (vb bits) b = y at *
    unfold saturated int64
    by_cases c1 : D < 2 ^ 95 * B
    · rw [if_pos c1]
      by_cases c2 : 2 ^ 63 ≤ D % 2 ^ 64 ∨ 2 ^ 96 ≤ D
      · rw [if_pos c2]; omega
      · rw [if_neg c2, if_pos (by omega)]; omega
    · rw [if_neg c1]
      by_cases c2 : D % 2 ^ 64 < 2 ^ 63 ∨ D + 2 ^ 96 < 2 * (2 ^ 95 * B)
      · rw [if_pos c2]; omega
      · rw [if_neg c2, if_neg (by omega)]; omega

/-- Small witnesses: the statement is false at each width class. -/
theorem C58_fails :
    difference 32 [0] [1] = 4294967295 ∧ difference 64 [2 ^ 64 - 1] [0] = -1 ∧ difference 96 [0, 0, 1] [0, 0, 0] = 0 ∧
      difference 96 [0, 0, 0x80000000] [0, 0, 0] = -2 ^ 63 := by decide

example : difference 128 [5, 0, 0, 7] [9, 0, 0, 7] = -4 ∧ difference 128 [0, 0, 0, 7] [9, 0, 0, 0] = 2 ^ 63 - 1 := by decide

/-! ### C59 -/

/-- **C59.** From bytes: little-endian and big-endian, any number of them. -/
theorem C59_bytes {bits : Nat} (hb : 0 < bits) (bs : List Byte) :
    (Wf bits (assignBytesL bits bs) ∧ num bits (assignBytesL bits bs) = leVal bs % 2 ^ bits) ∧
    (Wf bits (assignBytesB bits bs) ∧ num bits (assignBytesB bits bs) = beVal bs % 2 ^ bits) :=
  ⟨assign_ok hb bs, assign_ok hb bs.reverse⟩

/-- **C59.** From an integer of `m` bytes, signed or not, that is in the range of its type. -/
theorem C59_integer {bits : Nat} (hb : 0 < bits) (m : Nat) (signed : Bool) (v : Int) (hm : 0 < m)
    (hr : if signed then -2 ^ (8 * m - 1) ≤ v ∧ v < 2 ^ (8 * m - 1) else 0 ≤ v ∧ v < 2 ^ (8 * m)) :
    Wf bits (assignValue bits m signed v) ∧ (num bits (assignValue bits m signed v) : Int) = v % 2 ^ bits :=
  assignValue_ok hb m signed v hm hr

/-- The number denoted by digits of `w` bits, the most significant digit first. -/
def digits (w : Nat) (vs : List Nat) : Nat := vs.foldl (fun acc v => acc * 2 ^ w + v) 0

theorem digits_eq (w : Nat) (vs : List Nat) : digits w vs = value w vs.reverse := by
  have : ∀ (vs : List Nat) (acc : Nat), vs.foldl (fun acc v => acc * 2 ^ w + v) acc = value w vs.reverse + 2 ^ (w * vs.length) * acc := by
    intro vs
    induction vs with
    | nil => intro acc; simp [value]
    | cons v t ih =>
      intro acc
      rw [List.foldl_cons, ih, List.reverse_cons, value_append, List.length_reverse, List.length_cons, Nat.mul_succ, Nat.pow_add]
      simp only [value, Nat.mul_zero, Nat.add_zero]
      rw [Nat.mul_add, Nat.mul_assoc, Nat.mul_comm acc]; omega
  have h := this vs 0
  rw [Nat.mul_zero, Nat.add_zero] at h
  exact h

/-- **C59.** From arrays, pointers and packs of `m`-byte integers, least or most significant first. -/
theorem C59_integers {bits : Nat} (hb : 0 < bits) {m : Nat} (hm : 0 < m) {vs : List Nat} (hs : ∀ v ∈ vs, v < 2 ^ (8 * m)) :
    (∀ r ∈ [assignValuesL bits m vs, assignPackL bits m vs], Wf bits r ∧ num bits r = digits (8 * m) vs.reverse % 2 ^ bits) ∧
    (∀ r ∈ [assignValuesB bits m vs, assignValuesBPtr bits m vs, assignPackB bits m vs],
      Wf bits r ∧ num bits r = digits (8 * m) vs % 2 ^ bits) := by
  have hr : Small (8 * m) vs.reverse := small_reverse hs
  rw [digits_eq, digits_eq, List.reverse_reverse]
  constructor
  · intro r hr'
    simp only [List.mem_cons, List.not_mem_nil, or_false] at hr'
    rcases hr' with rfl | rfl
    · exact values_ok hb hs
    · exact values_take_ok hb hm hs
  · intro r hr'
    simp only [List.mem_cons, List.not_mem_nil, or_false] at hr'
    rcases hr' with rfl | rfl | rfl
    · exact values_take_ok hb hm hr
    · exact values_pad_ok hb hm hr _
    · exact values_take_ok hb hm hr

/-- **C59.** The mask has all bits set. -/
theorem C59_mask {bits : Nat} (hb : 0 < bits) : Wf bits (mask bits) ∧ num bits (mask bits) = 2 ^ bits - 1 := by
  obtain ⟨h1, h2⟩ := C59_integer hb 8 true (-1) (by omega) (by simp)
  refine ⟨h1, ?_⟩
  have p := Nat.two_pow_pos bits
  have : (-1 : Int) % 2 ^ bits = ((2 ^ bits - 1 : Nat) : Int) := by
    rw [← Int.add_emod_right, Int.natCast_sub (by omega)]
    push_cast
    have : (0 : Int) < 2 ^ bits := Int.pow_pos (by omega)
    rw [show (-1 : Int) + 2 ^ bits = 2 ^ bits - 1 by omega]
    exact Int.emod_eq_of_lt (by omega) (by omega)
  have h2' : (num bits (mask bits) : Int) = _ := h2
  rw [this] at h2'
  exact Int.ofNat.inj h2'

example : assignBytesB 20 [0x12, 0x34, 0x56, 0x78] = [0x45678] ∧ assignValue 70 2 true (-2) = [0xfffffffe, 0xffffffff, 0x3f] ∧
    assignPackB 70 2 [1, 2, 3] = [0x20003, 1, 0] := by decide

/-! ### C60 -/

/-- **C60**, partial: `!a` is true exactly when `a` is zero. -/
theorem C60_not_partial {bits : Nat} (a : Limbs) : notOp a = true ↔ num bits a = 0 := isZero_iff

/-- The conversion to `bool` is inverted, for every address: it is true exactly when the address is zero, and equals `!a`. -/
theorem C60_fails {bits : Nat} (a : Limbs) : (toBool a = true ↔ num bits a = 0) ∧ toBool a = notOp a := ⟨isZero_iff, rfl⟩

example : toBool [7] = false ∧ notOp [7] = false ∧ toBool [0, 0, 0] = true := by decide

/-! ### C61 -/

/-- **C61.** `Write`/`WriteL`/`WriteB` of an address followed by the matching read at the same position, into any address `old`,
gives the address back; exactly `⌈bits / 8⌉` bytes are used, and nothing else in the storage changes. -/
theorem C61_round_trip {bits : Nat} (hb : 0 < bits) {a old : Limbs} (ha : Wf bits a) (ho : Wf bits old) (e : Iter.Order) (it : Iter.It)
    (data : List Byte) (hr : Iter.Room it data ((bits + 7) / 8)) :
    ∃ data' bs,
      Iter.writeBytes .little e (outBytes bits a) it data = some ({ it with cursor := it.cursor + (bits + 7) / 8 }, data') ∧
      Iter.SameOutside data data' it.cursor ((bits + 7) / 8) ∧
      Iter.readBytes .little e ((bits + 7) / 8) it data' = some ({ it with cursor := it.cursor + (bits + 7) / 8 }, bs) ∧
      readIn bits old bs = a := by
  obtain ⟨o1, o2⟩ := outBytes_ok hb ha
  have hl : (outBytes bits a).length = (bits + 7) / 8 := o1
  obtain ⟨data', w1, w2, w3⟩ := Iter.C82_bytes_round_trip .little e (outBytes bits a) it data (by rw [hl]; exact hr)
  rw [hl] at w1 w2 w3
  refine ⟨data', outBytes bits a, w1, w2, w3, ?_⟩
  obtain ⟨r1, r2⟩ := readIn_ok hb ho o1
  apply wf_ext hb r1 ha
  rw [r2, o2, Nat.mod_eq_of_lt ha.lt]

/-- **C61.** Whatever bytes are read, the address stays below `2 ^ bits` and is the number that the bytes denote. -/
theorem C61_read {bits : Nat} (hb : 0 < bits) {old : Limbs} (ho : Wf bits old) {bs : List Byte} (hl : bs.length = (bits + 7) / 8) :
    Wf bits (readIn bits old bs) ∧ num bits (readIn bits old bs) = leVal bs % 2 ^ bits := readIn_ok hb ho hl

example : outBytes 20 [0xabcde] = [0xde, 0xbc, 0x0a] ∧ readIn 20 [0x12345] [0xde, 0xbc, 0xfa] = [0xabcde] := by decide
example : Iter.Room ⟨0, 4, 1⟩ [0, 0, 0, 0, 0] ((20 + 7) / 8) := ⟨by decide, by decide, by decide, by decide⟩

/-! ### C87 -/

/-- **C87.** `ToString` has two hexadecimal digits per byte of the address, and they denote the address. -/
theorem C87_toString {bits : Nat} (hb : 0 < bits) {a : Limbs} (ha : Wf bits a) :
    (toHex bits a).length = 2 * ((bits + 7) / 8) ∧ (∀ d ∈ toHex bits a, d < 16) ∧ digits 4 (toHex bits a) = num bits a := by
  obtain ⟨o1, o2⟩ := outBytes_ok hb ha
  have gen : ∀ bs : List Byte, (bs.flatMap fun b => [b.toNat / 16, b.toNat % 16]).length = 2 * bs.length ∧
      ∀ d ∈ (bs.flatMap fun b => [b.toNat / 16, b.toNat % 16]), d < 16 := by
    intro bs
    induction bs with
    | nil => simp
    | cons b t ih =>
      have := b.isLt
      refine ⟨by rw [List.flatMap_cons, List.length_append, ih.1]; simp; omega, ?_⟩
      intro d hd
      rw [List.flatMap_cons, List.mem_append] at hd
      rcases hd with hd | hd
      · simp only [List.mem_cons, List.not_mem_nil, or_false] at hd; omega
      · exact ih.2 d hd
  have dig : ∀ bs : List Byte, digits 4 (bs.reverse.flatMap fun b => [b.toNat / 16, b.toNat % 16]) = leVal bs := by
    intro bs
    induction bs with
    | nil => rfl
    | cons b t ih =>
      rw [List.reverse_cons, List.flatMap_append]
      unfold digits at ih ⊢
      rw [List.foldl_append, ih]
      simp only [List.flatMap_cons, List.flatMap_nil, List.append_nil, List.foldl_cons, List.foldl_nil, leVal]
      omega
  unfold toHex num
  refine ⟨?_, (gen _).2, by rw [dig, o2]⟩
  rw [(gen _).1, List.length_reverse, o1]; rfl

example : toHex 20 [0xabcde] = [0, 10, 11, 12, 13, 14] := by decide

end Verif.Address
