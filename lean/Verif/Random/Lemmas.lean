import Verif.Random.Model
set_option linter.unusedSimpArgs false
namespace Verif.Random

theorem xor_shl_inj {w a : Nat} (ha : 0 < a) {x y : BitVec w}
    (h : x ^^^ (x <<< a) = y ^^^ (y <<< a)) : x = y := by
  apply BitVec.eq_of_getLsbD_eq
  intro i
  induction i using Nat.strongRecOn with
  | _ i ih =>
    intro hi
    have hb := congrArg (fun v => v.getLsbD i) h
    simp only [BitVec.getLsbD_xor, BitVec.getLsbD_shiftLeft, hi, decide_true, Bool.true_and] at hb
    by_cases hlt : i < a
    · simpa [hlt] using hb
    · have := ih (i - a) (by omega) (by omega)
      simp only [this] at hb
      simpa using hb

theorem xor_shr_inj {w a : Nat} (ha : 0 < a) {x y : BitVec w}
    (h : x ^^^ (x >>> a) = y ^^^ (y >>> a)) : x = y := by
  apply BitVec.eq_of_getLsbD_eq
  -- downward induction on the bit index
  have key : ∀ d i, i + d = w → i < w → x.getLsbD i = y.getLsbD i := by
    intro d
    induction d using Nat.strongRecOn with
    | _ d ih =>
      intro i hd hi
      have hb := congrArg (fun v => v.getLsbD i) h
      simp only [BitVec.getLsbD_xor, BitVec.getLsbD_ushiftRight] at hb
      by_cases hlt : a + i < w
      · have := ih (d - a) (by omega) (a + i) (by omega) hlt
        simp only [this] at hb
        simpa using hb
      · rw [BitVec.getLsbD_of_ge x (a + i) (by omega), BitVec.getLsbD_of_ge y (a + i) (by omega)] at hb
        simpa using hb
  intro i hi
  exact key (w - i) i (by omega) hi

theorem mul_inj {w : Nat} {y y' : BitVec w} (hy : y * y' = 1#w) {s t : BitVec w}
    (h : s * y = t * y) : s = t := by
  have h2 := congrArg (· * y') h
  simp only [BitVec.mul_assoc, hy, BitVec.mul_one] at h2
  exact h2

theorem getLsbD_rotl {w k : Nat} (h0 : 0 < k) (hk : k < w) (n : BitVec w) (i : Nat) (hi : i < w) :
    (rotl n k).getLsbD i = n.getLsbD ((i + (w - k)) % w) := by
  simp only [rotl, BitVec.getLsbD_or, BitVec.getLsbD_shiftLeft, BitVec.getLsbD_ushiftRight, hi,
    decide_true, Bool.true_and]
  by_cases h : i < k
  · rw [Nat.mod_eq_of_lt (by omega)]
    simp [h, Nat.add_comm]
  · rw [show i + (w - k) = (i - k) + w by omega, Nat.add_mod_right, Nat.mod_eq_of_lt (by omega),
      BitVec.getLsbD_of_ge n (w - k + i) (by omega)]
    simp [h]

theorem getLsbD_rotr {w k : Nat} (hk : k < w) (n : BitVec w) (i : Nat) (hi : i < w) :
    (rotr n k).getLsbD i = n.getLsbD ((i + k) % w) := by
  simp only [rotr, BitVec.getLsbD_or, BitVec.getLsbD_shiftLeft, BitVec.getLsbD_ushiftRight, hi,
    decide_true, Bool.true_and]
  by_cases h : i < w - k
  · rw [Nat.mod_eq_of_lt (by omega)]
    simp [h, Nat.add_comm]
  · rw [show i + k = (i - (w - k)) + w by omega, Nat.add_mod_right, Nat.mod_eq_of_lt (by omega),
      BitVec.getLsbD_of_ge n _ (by omega)]
    simp [h]

theorem rotr_rotl {w k : Nat} (h0 : 0 < k) (hk : k < w) (n : BitVec w) : rotr (rotl n k) k = n := by
  apply BitVec.eq_of_getLsbD_eq
  intro i hi
  have hm := Nat.mod_lt (i + k) (show 0 < w by omega)
  rw [getLsbD_rotr hk _ _ hi, getLsbD_rotl h0 hk _ _ hm, Nat.mod_add_mod,
    show i + k + (w - k) = i + w by omega, Nat.add_mod_right, Nat.mod_eq_of_lt hi]

theorem rotl_rotr {w k : Nat} (h0 : 0 < k) (hk : k < w) (n : BitVec w) : rotl (rotr n k) k = n := by
  apply BitVec.eq_of_getLsbD_eq
  intro i hi
  have hm := Nat.mod_lt (i + (w - k)) (show 0 < w by omega)
  rw [getLsbD_rotl h0 hk _ _ hi, getLsbD_rotr hk _ _ hm, Nat.mod_add_mod,
    show i + (w - k) + k = i + w by omega, Nat.add_mod_right, Nat.mod_eq_of_lt hi]

theorem rotl_inj {w k : Nat} (h0 : 0 < k) (hk : k < w) {x y : BitVec w}
    (h : rotl x k = rotl y k) : x = y := by
  rw [← rotr_rotl h0 hk x, h, rotr_rotl h0 hk y]

theorem rotl_zero {w k : Nat} : rotl (0#w) k = 0#w := by simp [rotl]

theorem mix_inj {x y : BitVec 64} (h : splitmix64.mix x = splitmix64.mix y) : x = y := by
  simp only [SplitmixParams.mix] at h
  have h1 := xor_shr_inj (by decide) h
  have h2 := mul_inj (y' := 0x319642b2d24d8ec3#64) (by decide) h1
  have h3 := xor_shr_inj (by decide) h2
  have h4 := mul_inj (y' := 0x96de1b173f119089#64) (by decide) h3
  exact xor_shr_inj (by decide) h4

theorem xor_left_inj' {w : Nat} {a b c : BitVec w} (h : a ^^^ c = b ^^^ c) : a = b := by
  have := congrArg (· ^^^ c) h
  simpa [BitVec.xor_assoc] using this

theorem xor_right_inj' {w : Nat} {a b c : BitVec w} (h : c ^^^ a = c ^^^ b) : a = b := by
  rw [BitVec.xor_comm c a, BitVec.xor_comm c b] at h
  exact xor_left_inj' h

theorem transform4_inj {w a b : Nat} (ha : 0 < a) (hb0 : 0 < b) (hb : b < w) {s t : S4 w}
    (h : transform4 a b s = transform4 a b t) : s = t := by
  obtain ⟨p0, p1, p2, p3⟩ := s
  obtain ⟨q0, q1, q2, q3⟩ := t
  simp only [transform4, S4.mk.injEq] at h
  obtain ⟨h0, h1, h2, h3⟩ := h
  have h3 := rotl_inj hb0 hb h3
  have e0 : p0 = q0 := by rw [h3] at h0; exact xor_left_inj' h0
  have e1 : p1 = q1 := by
    apply xor_shl_inj ha
    have := congr (congrArg HXor.hXor h1) h2
    have r : ∀ x y z : BitVec w, (x ^^^ y) ^^^ (y ^^^ z) = x ^^^ z := by
      intro x y z; rw [BitVec.xor_assoc, ← BitVec.xor_assoc y y z]; simp
    rwa [r, r] at this
  subst e0 e1
  have e2 : p2 = q2 := xor_left_inj' (xor_left_inj' h2)
  have e3 : p3 = q3 := xor_left_inj' h3
  rw [e2, e3]

theorem transform8_inj {w a b : Nat} (hb0 : 0 < b) (hb : b < w) {s t : S8 w}
    (h : transform8 a b s = transform8 a b t) : s = t := by
  obtain ⟨p0, p1, p2, p3, p4, p5, p6, p7⟩ := s
  obtain ⟨q0, q1, q2, q3, q4, q5, q6, q7⟩ := t
  simp only [transform8, S8.mk.injEq] at h
  obtain ⟨h0, h1, h2, h3, h4, h5, h6, h7⟩ := h
  have h7 := rotl_inj hb0 hb h7
  have e1 : p1 = q1 := by rw [h2] at h1; exact xor_left_inj' h1
  subst e1
  have h6 := xor_left_inj' h6
  have e6 : p6 = q6 := by rw [h7] at h6; exact xor_left_inj' h6
  subst e6
  have e0 : p0 = q0 := xor_left_inj' h0
  subst e0
  have e2 : p2 = q2 := xor_left_inj' h2
  have e5 : p5 = q5 := xor_left_inj' h5
  subst e5
  have e4 : p4 = q4 := xor_left_inj' h4
  subst e4
  have e3 : p3 = q3 := xor_left_inj' h3
  subst e3
  have e7 : p7 = q7 := xor_left_inj' h7
  rw [e2, e7]

theorem transform2_inj {w a b c : Nat} (ha0 : 0 < a) (ha : a < w) (hc0 : 0 < c) (hc : c < w)
    {s t : S2 w} (h : transform2 a b c s = transform2 a b c t) : s = t := by
  obtain ⟨p0, p1⟩ := s
  obtain ⟨q0, q1⟩ := t
  simp only [transform2, S2.mk.injEq] at h
  obtain ⟨h0, h1⟩ := h
  have h1 := rotl_inj hc0 hc h1
  rw [h1] at h0
  have e0 : p0 = q0 := rotl_inj ha0 ha (xor_left_inj' (xor_left_inj' h0))
  subst e0
  have e1 : p1 = q1 := xor_left_inj' h1
  rw [e1]

theorem and_pred_lt {n i : Nat} (hn : 0 < n) : i &&& (n - 1) < n :=
  Nat.lt_of_le_of_lt Nat.and_le_right (by omega)

theorem upd_same {w : Nat} (s : Nat → BitVec w) (i : Nat) (v : BitVec w) : upd s i v i = v := by
  simp [upd]

theorem upd_ne {w : Nat} (s : Nat → BitVec w) {i j : Nat} (v : BitVec w) (h : j ≠ i) :
    upd s i v j = s j := by
  simp [upd, h]

/-- The `m`-th (from zero) output of a splitmix engine seeded with `g`. -/
def smOut (p : SplitmixParams 64) (g : BitVec 64) (m : Nat) : BitVec 64 :=
  p.mix (g + BitVec.ofNat 64 (m + 1) * p.x)

theorem smOut_zero (p : SplitmixParams 64) (g : BitVec 64) : smOut p g 0 = (p.next g).1 := by
  simp [smOut, SplitmixParams.next]

theorem smOut_succ (p : SplitmixParams 64) (g : BitVec 64) (m : Nat) :
    smOut p g (m + 1) = smOut p (p.next g).2 m := by
  simp only [smOut, SplitmixParams.next]
  congr 1
  rw [BitVec.add_assoc]
  congr 1
  rw [BitVec.ofNat_add (m + 1) 1, BitVec.add_mul, BitVec.add_comm, BitVec.one_mul]

theorem seedLoop_ne {p : SplitmixParams 64} {w k : Nat} {g : BitVec 64} {i : Nat}
    {s : Nat → BitVec w} {j : Nat}
    (h : j < i ∨ i + k ≤ j) : seedLoop p w g i k s j = s j := by
  induction k generalizing g i s with
  | zero => rfl
  | succ k ih =>
    rw [seedLoop]
    rw [ih (by omega), upd_ne _ _ (by omega)]

theorem seedLoop_eq {p : SplitmixParams 64} {w k : Nat} {g : BitVec 64} {i : Nat}
    {s : Nat → BitVec w} {m : Nat}
    (h : m < k) : seedLoop p w g i k s (i + m) = (smOut p g m).setWidth w := by
  induction k generalizing g i s m with
  | zero => omega
  | succ k ih =>
    rw [seedLoop]
    cases m with
    | zero => rw [seedLoop_ne (by omega)]; simp only [Nat.add_zero]; rw [upd_same, smOut_zero]
    | succ m =>
      rw [show i + (m + 1) = (i + 1) + m by omega, ih (by omega), smOut_succ]

end Verif.Random
