import Verif.Address.Model
set_option linter.unusedSimpArgs false
set_option linter.unusedVariables false
/-
Helper lemmas about word arrays.
-/
namespace Verif.Address
open Verif

/-- The number in words of `w` bits, least significant word first. -/
def value (w : Nat) : List Nat → Nat
  | [] => 0
  | v :: t => v + 2 ^ w * value w t

/-- Words of `w` bits. -/
def Small (w : Nat) (l : List Nat) : Prop := ∀ v ∈ l, v < 2 ^ w

theorem small_cons {w v : Nat} {t : List Nat} : Small w (v :: t) ↔ v < 2 ^ w ∧ Small w t := by
  simp [Small]

theorem small_set {w i x : Nat} {l : List Nat} (h : Small w l) (hx : x < 2 ^ w) : Small w (l.set i x) := by
  intro v hv
  rcases List.mem_or_eq_of_mem_set hv with h' | h'
  · exact h v h'
  · rw [h']; exact hx

theorem small_getD {w i : Nat} {l : List Nat} (h : Small w l) : l.getD i 0 < 2 ^ w := by
  rw [List.getD_eq_getElem?_getD]
  cases hi : l[i]? with
  | none => exact Nat.two_pow_pos w
  | some v => exact h v (List.mem_of_getElem? hi)

theorem value_lt {w : Nat} : ∀ {l : List Nat}, Small w l → value w l < 2 ^ (w * l.length)
  | [], _ => by simp [value]
  | v :: t, h => by
    have ⟨h1, h2⟩ := small_cons.mp h
    have ih := value_lt h2
    rw [value, List.length_cons, Nat.mul_succ, Nat.add_comm, Nat.pow_add]
    calc 2 ^ w * value w t + v < 2 ^ w * value w t + 2 ^ w := by omega
      _ = 2 ^ w * (value w t + 1) := by rw [Nat.mul_add, Nat.mul_one]
      _ ≤ 2 ^ w * 2 ^ (w * t.length) := Nat.mul_le_mul_left _ ih
      _ = 2 ^ (w * t.length) * 2 ^ w := Nat.mul_comm _ _

theorem testBit_value {w : Nat} (hw : 0 < w) : ∀ {l : List Nat} (k : Nat), Small w l →
    (value w l).testBit k = (l.getD (k / w) 0).testBit (k % w)
  | [], k, _ => by simp [value]
  | v :: t, k, h => by
    have ⟨h1, h2⟩ := small_cons.mp h
    rw [value, Nat.add_comm, Nat.testBit_two_pow_mul_add _ h1]
    by_cases hk : k < w
    · rw [if_pos hk, Nat.div_eq_of_lt hk, Nat.mod_eq_of_lt hk]; rfl
    · rw [if_neg hk, testBit_value hw (k - w) h2]
      have e1 : k / w = (k - w) / w + 1 := by
        rw [← Nat.add_div_right _ hw, Nat.sub_add_cancel (by omega)]
      have e2 : k % w = (k - w) % w := by
        rw [← Nat.add_mod_right (k - w) w, Nat.sub_add_cancel (by omega)]
      rw [e1, e2]; rfl

theorem value_inj {w : Nat} : ∀ {l l' : List Nat}, l.length = l'.length → Small w l → Small w l' →
    value w l = value w l' → l = l'
  | [], [], _, _, _, _ => rfl
  | v :: t, v' :: t', hl, h, h', e => by
    have ⟨h1, h2⟩ := small_cons.mp h
    have ⟨h1', h2'⟩ := small_cons.mp h'
    simp only [value] at e
    have e1 : v = v' := by
      have := congrArg (· % 2 ^ w) e
      simpa [Nat.add_mul_mod_self_left, Nat.mod_eq_of_lt h1, Nat.mod_eq_of_lt h1'] using this
    subst e1
    have e2 : value w t = value w t' := Nat.eq_of_mul_eq_mul_left (Nat.two_pow_pos w) (by omega)
    rw [value_inj (by simpa using hl) h2 h2' e2]

/-! ### Shapes -/

theorem shape (bits : Nat) (hb : 0 < bits) :
    (vb bits = 32 ∨ vb bits = 64) ∧ 0 < nv bits ∧ vb bits * (nv bits - 1) < bits ∧ bits ≤ vb bits * nv bits ∧
      (nv bits = 1 ↔ bits ≤ 64) ∧ (nv bits ≠ 1 → vb bits = 32 ∧ 3 ≤ nv bits) ∧
      (vb bits = 64 → nv bits = 1 ∧ 32 < bits) ∧ (vb bits = 32 → nv bits = 1 → bits ≤ 32) := by
  unfold vb nv
  split <;> omega

/-- An address: the right number of words, each in range, and a number below `2^bits`. -/
structure Wf (bits : Nat) (l : Limbs) : Prop where
  len : l.length = nv bits
  small : Small (vb bits) l
  lt : value (vb bits) l < 2 ^ bits

theorem testBit_msv {bits : Nat} (hb : 0 < bits) (j : Nat) :
    (msv bits).testBit j = decide (vb bits * (nv bits - 1) + j < bits) := by
  obtain ⟨h1, h2, h3, h4, _⟩ := shape bits hb
  rw [msv, Nat.testBit_shiftRight, Nat.testBit_two_pow_sub_one, decide_eq_decide]
  rcases h1 with h | h <;> rw [h] at h3 h4 ⊢ <;> omega

theorem msv_lt (bits : Nat) : msv bits < 2 ^ vb bits := by
  rw [msv]
  have := Nat.two_pow_pos (vb bits)
  exact Nat.lt_of_le_of_lt (Nat.shiftRight_le _ _) (by omega)

theorem getD_set (l : List Nat) (i j x : Nat) (hi : i < l.length) :
    (l.set i x).getD j 0 = if i = j then x else l.getD j 0 := by
  simp only [List.getD_eq_getElem?_getD, List.getElem?_set]
  by_cases h : i = j
  · subst h; simp [hi]
  · simp [h]

theorem maskTop_ok {bits : Nat} (hb : 0 < bits) {l : Limbs} (hl : l.length = nv bits) (hs : Small (vb bits) l) :
    Wf bits (maskTop bits l) ∧ value (vb bits) (maskTop bits l) = value (vb bits) l % 2 ^ bits := by
  have sh := shape bits hb
  have hw : 0 < vb bits := by omega
  have hsm : Small (vb bits) (maskTop bits l) := small_set hs (Nat.lt_of_le_of_lt Nat.and_le_right (msv_lt bits))
  have e : value (vb bits) (maskTop bits l) = value (vb bits) l % 2 ^ bits := by
    apply Nat.eq_of_testBit_eq
    intro k
    rw [Nat.testBit_mod_two_pow, testBit_value hw k hsm, testBit_value hw k hs, maskTop,
      getD_set _ _ _ _ (by omega)]
    split
    · rename_i h
      rw [← h, Nat.testBit_and, testBit_msv hb, Bool.and_comm]
      congr 1
      rw [decide_eq_decide, h]
      have := Nat.div_add_mod k (vb bits)
      omega
    · rename_i h
      by_cases h2 : k / vb bits < nv bits - 1
      · have : k < bits := by
          rcases sh.1 with e | e <;> rw [e] at h2 sh <;> omega
        simp [this]
      · have : l.getD (k / vb bits) 0 = 0 := by
          rw [List.getD_eq_getElem?_getD, List.getElem?_eq_none (by omega)]; rfl
        rw [this]; simp
  exact ⟨⟨by simp [maskTop, hl], hsm, by rw [e]; exact Nat.mod_lt _ (Nat.two_pow_pos _)⟩, e⟩

theorem single_list {bits : Nat} {l : Limbs} (hl : l.length = nv bits) (h1 : nv bits = 1) : ∃ v, l = [v] := by
  rw [h1] at hl
  exact List.length_eq_one_iff.mp hl

/-- One word: the mask of `f v`. -/
theorem onWord_ok {bits : Nat} (hb : 0 < bits) {l : Limbs} (hl : l.length = nv bits) (h1 : nv bits = 1) (f : Nat → Nat) :
    Wf bits (onWord (fun v => f v % 2 ^ vb bits &&& msv bits) l) ∧
      value (vb bits) (onWord (fun v => f v % 2 ^ vb bits &&& msv bits) l) = f (value (vb bits) l) % 2 ^ bits := by
  obtain ⟨v, rfl⟩ := single_list hl h1
  have sh := shape bits hb
  have m := maskTop_ok hb (l := [f v % 2 ^ vb bits]) (by simp [h1])
    (by intro x hx; simp at hx; rw [hx]; exact Nat.mod_lt _ (Nat.two_pow_pos _))
  have e : maskTop bits [f v % 2 ^ vb bits] = onWord (fun v => f v % 2 ^ vb bits &&& msv bits) [v] := by
    simp [maskTop, h1, onWord]
  rw [e] at m
  refine ⟨m.1, ?_⟩
  rw [m.2]
  simp only [value, Nat.mul_zero, Nat.add_zero]
  apply Nat.mod_mod_of_dvd
  exact Nat.pow_dvd_pow 2 (by rw [h1] at sh; omega)

theorem multi {bits : Nat} (hb : 0 < bits) (h1 : nv bits ≠ 1) : vb bits = 32 ∧ 3 ≤ nv bits ∧ bits ≤ 32 * nv bits := by
  have sh := shape bits hb
  have := sh.2.2.2.2.2.1 h1
  refine ⟨this.1, this.2, ?_⟩
  rw [← this.1]; exact sh.2.2.2.1

theorem dvd_words {bits : Nat} (hb : 0 < bits) : 2 ^ bits ∣ 2 ^ (vb bits * nv bits) :=
  Nat.pow_dvd_pow 2 (shape bits hb).2.2.2.1

/-! ### Addition -/

theorem incLoop_ok : ∀ {l : Limbs}, Small 32 l → (incLoop l).length = l.length ∧ Small 32 (incLoop l) ∧
    value 32 (incLoop l) = (value 32 l + 1) % 2 ^ (32 * l.length)
  | [], _ => by simp [incLoop, value, Nat.mod_one, Small]
  | v :: t, h => by
    have ⟨h1, h2⟩ := small_cons.mp h
    have ⟨i1, i2, i3⟩ := incLoop_ok h2
    have hv := value_lt h2
    simp only [incLoop]
    have e : 2 ^ (32 * (t.length + 1)) = 2 ^ 32 * 2 ^ (32 * t.length) := by
      rw [Nat.mul_succ, Nat.pow_add, Nat.mul_comm]
    split
    · rename_i hc
      have hc' : v + 1 < 2 ^ 32 := by omega
      refine ⟨rfl, small_cons.mpr ⟨Nat.mod_lt _ (by omega), h2⟩, ?_⟩
      simp only [value, List.length_cons]
      rw [Nat.mod_eq_of_lt hc', Nat.mod_eq_of_lt]
      · omega
      · rw [e]
        have := Nat.mul_le_mul_left (2 ^ 32) hv
        omega
    · rename_i hc
      have hc' : v + 1 = 2 ^ 32 := by omega
      refine ⟨by simp [i1], small_cons.mpr ⟨Nat.mod_lt _ (by omega), i2⟩, ?_⟩
      simp only [value, List.length_cons]
      rw [i3, e, show v + 2 ^ 32 * value 32 t + 1 = 2 ^ 32 * (value 32 t + 1) by omega, Nat.mul_mod_mul_left,
        show (v + 1) % 2 ^ 32 = 0 by omega, Nat.zero_add]

theorem decLoop_ok : ∀ {l : Limbs}, Small 32 l → (decLoop l).length = l.length ∧ Small 32 (decLoop l) ∧
    value 32 (decLoop l) = (value 32 l + (2 ^ (32 * l.length) - 1)) % 2 ^ (32 * l.length)
  | [], _ => by simp [decLoop, value, Nat.mod_one, Small]
  | v :: t, h => by
    have ⟨h1, h2⟩ := small_cons.mp h
    have ⟨i1, i2, i3⟩ := decLoop_ok h2
    have hv := value_lt h2
    simp only [decLoop]
    have hm : vmask = 2 ^ 32 - 1 := rfl
    have e : 2 ^ (32 * (t.length + 1)) = 2 ^ 32 * 2 ^ (32 * t.length) := by
      rw [Nat.mul_succ, Nat.pow_add, Nat.mul_comm]
    have hp := Nat.two_pow_pos (32 * t.length)
    generalize 2 ^ (32 * t.length) = K at *
    by_cases hc : (v + vmask) % 2 ^ 32 < vmask
    · rw [if_pos hc]
      rw [hm] at hc ⊢
      have hc' : 0 < v := by omega
      refine ⟨by simp, small_cons.mpr ⟨Nat.mod_lt _ (by omega), h2⟩, ?_⟩
      simp only [value, List.length_cons, e]
      rw [show (v + (2 ^ 32 - 1)) % 2 ^ 32 = v - 1 by omega]
      have := Nat.mul_le_mul_left (2 ^ 32) hv
      rw [show v + 2 ^ 32 * value 32 t + (2 ^ 32 * K - 1) = (v - 1 + 2 ^ 32 * value 32 t) + 2 ^ 32 * K by omega,
        Nat.add_mod_right, Nat.mod_eq_of_lt (by omega)]
    · rw [if_neg hc]
      rw [hm] at hc ⊢
      have hc' : v = 0 := by omega
      subst hc'
      refine ⟨by simp [i1], small_cons.mpr ⟨Nat.mod_lt _ (by omega), i2⟩, ?_⟩
      simp only [value, List.length_cons, e]
      rw [i3, show (0 + (2 ^ 32 - 1)) % 2 ^ 32 = 2 ^ 32 - 1 by decide]
      rw [show 0 + 2 ^ 32 * value 32 t + (2 ^ 32 * K - 1) = (2 ^ 32 - 1) + 2 ^ 32 * (value 32 t + (K - 1)) by
        rw [Nat.mul_add, Nat.mul_sub]; omega]
      rw [Nat.mod_mul, Nat.add_mul_mod_self_left, Nat.add_mul_div_left _ _ (by omega : 0 < 2 ^ 32)]
      rw [show (2 ^ 32 - 1) % 2 ^ 32 = 2 ^ 32 - 1 by decide, show (2 ^ 32 - 1) / 2 ^ 32 = 0 by decide, Nat.zero_add]

theorem addEx_ok {ex : Nat} (hx : ex < 2 ^ 32) : ∀ {l : Limbs} {c : Nat}, Small 32 l → c < 2 ^ 64 →
    (addEx ex c l).length = l.length ∧ Small 32 (addEx ex c l) ∧
      ∃ q, value 32 (addEx ex c l) + 2 ^ (32 * l.length) * q = value 32 l + value 32 (List.replicate l.length ex) + c / 2 ^ 32
  | [], c, _, _ => by
    refine ⟨rfl, by simp [addEx, Small], c / 2 ^ 32, ?_⟩
    simp [addEx, value]
  | v :: t, c, h, hc => by
    have ⟨h1, h2⟩ := small_cons.mp h
    simp only [addEx]
    have hn : (c / 2 ^ 32 + ex + v) % 2 ^ 64 = c / 2 ^ 32 + ex + v := Nat.mod_eq_of_lt (by omega)
    rw [hn]
    obtain ⟨i1, i2, q, i3⟩ := addEx_ok hx (c := c / 2 ^ 32 + ex + v) h2 (by omega)
    refine ⟨by simp [i1], small_cons.mpr ⟨Nat.mod_lt _ (by omega), i2⟩, q, ?_⟩
    have e : 2 ^ (32 * (t.length + 1)) = 2 ^ 32 * 2 ^ (32 * t.length) := by
      rw [Nat.mul_succ, Nat.pow_add, Nat.mul_comm]
    simp only [value, List.length_cons, List.replicate_succ, e]
    have := congrArg (2 ^ 32 * ·) i3
    simp only [Nat.mul_add] at this
    rw [Nat.mul_assoc]
    omega

theorem value_ones (n : Nat) : value 32 (List.replicate n vmask) + 1 = 2 ^ (32 * n) := by
  induction n with
  | zero => rfl
  | succ n ih =>
    rw [List.replicate_succ, value, Nat.mul_succ, Nat.pow_add, ← ih]
    simp only [vmask]; omega

theorem value_zeros (w n : Nat) : value w (List.replicate n 0) = 0 := by
  induction n with
  | zero => rfl
  | succ n ih => rw [List.replicate_succ, value, ih]; simp

/-- Adding the two's complement of `n`, extended to the length. -/
theorem addWords_ok {lo hi ex : Nat} (h1 : lo < 2 ^ 32) (h2 : hi < 2 ^ 32) (hx : ex < 2 ^ 32) {l : Limbs} (hl : 2 ≤ l.length)
    (hs : Small 32 l) : (addWords lo hi ex l).length = l.length ∧ Small 32 (addWords lo hi ex l) ∧
      ∃ q, value 32 (addWords lo hi ex l) + 2 ^ (32 * l.length) * q =
        value 32 l + (lo + 2 ^ 32 * (hi + 2 ^ 32 * value 32 (List.replicate (l.length - 2) ex))) := by
  match l, hl with
  | v0 :: v1 :: t, _ =>
    have ⟨a1, hs'⟩ := small_cons.mp hs
    have ⟨a2, a3⟩ := small_cons.mp hs'
    simp only [addWords]
    have hn0 : (lo + v0) % 2 ^ 64 = lo + v0 := Nat.mod_eq_of_lt (by omega)
    rw [hn0]
    have hn1 : ((lo + v0) / 2 ^ 32 + hi + v1) % 2 ^ 64 = (lo + v0) / 2 ^ 32 + hi + v1 := Nat.mod_eq_of_lt (by omega)
    rw [hn1]
    obtain ⟨i1, i2, q, i3⟩ := addEx_ok hx (c := (lo + v0) / 2 ^ 32 + hi + v1) a3 (by omega)
    refine ⟨by simp [i1], small_cons.mpr ⟨Nat.mod_lt _ (by omega), small_cons.mpr ⟨Nat.mod_lt _ (by omega), i2⟩⟩, q, ?_⟩
    have e : 2 ^ (32 * (t.length + 2)) = 2 ^ 32 * (2 ^ 32 * 2 ^ (32 * t.length)) := by
      rw [Nat.mul_add, Nat.pow_add, Nat.mul_comm, show 2 ^ (32 * 2) = 2 ^ 32 * 2 ^ 32 by decide, Nat.mul_assoc]
    simp only [value, List.length_cons, show t.length + 1 + 1 = t.length + 2 from rfl, Nat.add_sub_cancel, e]
    have := congrArg (fun k => 2 ^ 32 * (2 ^ 32 * k)) i3
    simp only [Nat.mul_add] at this
    simp only [Nat.mul_add, Nat.mul_assoc]
    omega

/-! ### Multiplication -/

theorem mulRow_short {x : Nat} : ∀ {m d : List Nat} {c : Nat}, d.length < m.length → mulRow x c m d = none
  | [], d, c, h => by simp at h
  | m :: ms, [], c, _ => rfl
  | m :: ms, v :: d, c, h => by
    simp only [mulRow]
    rw [mulRow_short (by simpa using h)]; rfl

/-- `d` gets `x * m` added; the carry out of the last word is dropped. -/
theorem mulRow_ok {x : Nat} (hx : x < 2 ^ 32) : ∀ {m d : List Nat} {c : Nat}, Small 32 m → Small 32 d → c < 2 ^ 32 →
    m.length ≤ d.length → ∃ r q, mulRow x c m d = some r ∧ r.length = d.length ∧ Small 32 r ∧
      value 32 r + 2 ^ (32 * m.length) * q = value 32 d + x * value 32 m + c
  | [], d, c, _, hd, hc, _ => ⟨d, c, rfl, rfl, hd, by simp [value]⟩
  | m :: ms, v :: d, c, hm, hd, hc, hl => by
    have ⟨a1, a2⟩ := small_cons.mp hm
    have ⟨b1, b2⟩ := small_cons.mp hd
    have hxm : x * m ≤ (2 ^ 32 - 1) * (2 ^ 32 - 1) := Nat.mul_le_mul (by omega) (by omega)
    have hn : (c + x * m + v) % 2 ^ 64 = c + x * m + v := Nat.mod_eq_of_lt (by omega)
    obtain ⟨r, q, i1, i2, i3, i4⟩ := mulRow_ok hx (c := (c + x * m + v) / 2 ^ 32) a2 b2 (by omega) (by simpa using hl)
    refine ⟨(c + x * m + v) % 2 ^ 32 :: r, q, by simp only [mulRow, hn, i1]; rfl, by simp [i2],
      small_cons.mpr ⟨Nat.mod_lt _ (by omega), i3⟩, ?_⟩
    have e : 2 ^ (32 * (ms.length + 1)) = 2 ^ 32 * 2 ^ (32 * ms.length) := by
      rw [Nat.mul_succ, Nat.pow_add, Nat.mul_comm]
    simp only [value, List.length_cons, e]
    have := congrArg (2 ^ 32 * ·) i4
    simp only [Nat.mul_add] at this
    have e2 : x * (2 ^ 32 * value 32 ms) = 2 ^ 32 * (x * value 32 ms) := by rw [Nat.mul_left_comm]
    rw [Nat.mul_assoc, Nat.mul_add, e2]
    omega

theorem mulMem_none {m d : List Nat} (n : Nat) (hd : d.length ≤ m.length) (h : 0 < m.length) : mulMem m n d = none := by
  unfold mulMem
  split
  · rename_i v t e
    rw [mulRow_short (x := n / 2 ^ 32 % 2 ^ 32)]
    · rfl
    · have : t.length + 1 = d.length := by
        have key : ∀ {m d r : List Nat} {x c : Nat}, mulRow x c m d = some r → r.length = d.length := by
          intro m
          induction m with
          | nil => intro d r x c h; cases h; rfl
          | cons a ms ih =>
            intro d r x c h
            cases d with
            | nil => cases h
            | cons v d =>
              simp only [mulRow] at h
              cases h' : mulRow x ((c + x * a + v) % 2 ^ 64 / 2 ^ 32) ms d with
              | none => rw [h'] at h; cases h
              | some r' => rw [h'] at h; cases h; simp [ih h']
        simpa using key e
      omega
  · rfl

theorem mulMem_ok {m d : List Nat} {n : Nat} (hn : n < 2 ^ 64) (hm : Small 32 m) (hd : Small 32 d)
    (hl : d.length = m.length + 1) : ∃ r q, mulMem m n d = some r ∧ r.length = d.length ∧ Small 32 r ∧
      value 32 r + 2 ^ (32 * m.length) * q = value 32 d + n * value 32 m := by
  obtain ⟨r, q, i1, i2, i3, i4⟩ := mulRow_ok (x := n % 2 ^ 32) (c := 0) (by omega) hm hd (by omega) (by omega)
  match r, i2 with
  | [], h => simp at h; omega
  | v :: t, h =>
    have ⟨b1, b2⟩ := small_cons.mp i3
    obtain ⟨r', q', j1, j2, j3, j4⟩ := mulRow_ok (x := n / 2 ^ 32 % 2 ^ 32) (c := 0) (by omega) hm b2 (by omega)
      (by simp at h; omega)
    refine ⟨v :: r', 2 ^ 32 * q' + q, by simp only [mulMem, i1, j1]; rfl, by simp at h ⊢; omega, small_cons.mpr ⟨b1, j3⟩, ?_⟩
    simp only [value] at i4 ⊢
    have e1 : n / 2 ^ 32 % 2 ^ 32 = n / 2 ^ 32 := by omega
    have e2 : n * value 32 m = n % 2 ^ 32 * value 32 m + 2 ^ 32 * (n / 2 ^ 32 * value 32 m) := by
      rw [← Nat.mul_assoc, ← Nat.add_mul]
      congr 1; omega
    rw [e1] at j4
    have := congrArg (2 ^ 32 * ·) j4
    simp only [Nat.mul_add] at this
    rw [e2, Nat.mul_add, ← Nat.mul_assoc, Nat.mul_comm (2 ^ (32 * m.length)) (2 ^ 32), Nat.mul_assoc]
    omega

/-! ### Difference -/

theorem diffLoop_ok : ∀ {a b : Limbs} {c : Nat}, a.length = b.length → Small 32 a → Small 32 b → c ≤ 1 →
    (diffLoop c a b).length = a.length ∧ Small 32 (diffLoop c a b) ∧
      ∃ q, q ≤ 1 ∧ value 32 (diffLoop c a b) + value 32 b + c = value 32 a + 2 ^ (32 * a.length) * q
  | [], [], c, _, _, _, hc => ⟨rfl, by simp [diffLoop, Small], c, hc, by simp [diffLoop, value]⟩
  | a :: s, b :: t, c, hl, ha, hb, hc => by
    have ⟨a1, a2⟩ := small_cons.mp ha
    have ⟨b1, b2⟩ := small_cons.mp hb
    obtain ⟨i1, i2, q, hq, i3⟩ := diffLoop_ok (c := if a < c + b then 1 else 0) (by simpa using hl) a2 b2
      (by split <;> omega)
    refine ⟨by simp [diffLoop, i1], ?_, q, hq, ?_⟩
    · simp only [diffLoop]
      exact small_cons.mpr ⟨Nat.mod_lt _ (by omega), i2⟩
    · have e : 2 ^ (32 * (s.length + 1)) = 2 ^ 32 * 2 ^ (32 * s.length) := by
        rw [Nat.mul_succ, Nat.pow_add, Nat.mul_comm]
      simp only [diffLoop, value, List.length_cons, e]
      have := congrArg (2 ^ 32 * ·) i3
      simp only [Nat.mul_add] at this
      rw [Nat.mul_assoc]
      split at this <;> split <;> omega

/-! ### Comparison -/

theorem value_append (w : Nat) (a b : List Nat) : value w (a ++ b) = value w a + 2 ^ (w * a.length) * value w b := by
  induction a with
  | nil => simp [value]
  | cons v t ih =>
    rw [List.cons_append, value, ih, value, List.length_cons, Nat.mul_succ, Nat.pow_add]
    rw [Nat.mul_add, Nat.mul_comm (2 ^ (w * t.length)) (2 ^ w), Nat.mul_assoc]; omega

theorem small_reverse {w : Nat} {l : List Nat} (h : Small w l) : Small w l.reverse := fun v hv => h v (List.mem_reverse.mp hv)

theorem top_cmp {w : Nat} : ∀ {a b : List Nat}, a.length = b.length → Small w a → Small w b →
    (ltTop a b = true ↔ value w a.reverse < value w b.reverse) ∧ (leTop a b = true ↔ value w a.reverse ≤ value w b.reverse)
  | [], [], _, _, _ => by simp [ltTop, leTop, value]
  | a :: s, b :: t, hl, ha, hb => by
    have ⟨a1, a2⟩ := small_cons.mp ha
    have ⟨b1, b2⟩ := small_cons.mp hb
    have hl' : s.length = t.length := by simpa using hl
    obtain ⟨i1, i2⟩ := top_cmp hl' a2 b2
    have la := value_lt (small_reverse a2)
    have lb := value_lt (small_reverse b2)
    simp only [List.length_reverse] at la lb
    simp only [List.reverse_cons, value_append, List.length_reverse, value, Nat.mul_zero, Nat.add_zero, ltTop, leTop]
    rw [hl'] at la ⊢
    generalize 2 ^ (w * t.length) = K at *
    rcases Nat.lt_trichotomy a b with h | h | h
    · have : K * a + K ≤ K * b := by rw [← Nat.mul_succ]; exact Nat.mul_le_mul_left K h
      rw [if_neg (by omega), if_pos h, if_pos h]
      constructor <;> (constructor <;> intro _ <;> first | rfl | omega)
    · subst h
      rw [if_neg (by omega), if_neg (by omega), if_neg (by omega), if_neg (by omega)]
      constructor
      · rw [i1]; omega
      · rw [i2]; omega
    · have : K * b + K ≤ K * a := by rw [← Nat.mul_succ]; exact Nat.mul_le_mul_left K h
      rw [if_pos h, if_neg (by omega), if_pos h]
      constructor <;> (constructor <;> intro hh <;> first | (cases hh; done) | (exfalso; omega))

theorem equal_iff : ∀ {a b : Limbs}, a.length = b.length → (equal a b = true ↔ a = b)
  | [], [], _ => by simp [equal]
  | a :: s, b :: t, hl => by
    have ih := equal_iff (a := s) (b := t) (by simpa using hl)
    simp only [equal, List.cons.injEq]
    split
    · rename_i h; simp [h]
    · rename_i h; simp at h; simp [h, ih]

theorem isZero_iff : ∀ {w : Nat} {l : Limbs}, isZero l = true ↔ value w l = 0
  | w, [] => by simp [isZero, value]
  | w, v :: t => by
    have ih := isZero_iff (w := w) (l := t)
    simp only [isZero, value]
    split
    · rename_i h; simp [h]
    · rename_i h
      simp at h
      simp [h, ih, Nat.mul_eq_zero]

end Verif.Address
