import Verif.SeqNum.Model
import Verif.Iter.Props
/-
Properties C44-C48: circular and lollipop sequence numbers.
-/
set_option linter.unusedSimpArgs false
namespace Verif.SeqNum
open Verif.Iter

/-- `f` applied `k` times. -/
def times (f : Nat → Nat) : Nat → Nat → Nat
  | 0,     x => x
  | k + 1, x => f (times f k x)

theorem pow_pos' (bits : Nat) : 1 ≤ 2 ^ bits := Nat.one_le_two_pow

theorem pow_half {bits : Nat} (h : 1 ≤ bits) : 2 ^ bits = 2 * 2 ^ (bits - 1) := by
  have : bits = (bits - 1) + 1 := by omega
  rw [this, Nat.pow_succ, Nat.add_sub_cancel, Nat.mul_comm]

theorem gap_eq {bits : Nat} (h : 1 ≤ bits) : gap bits = 2 ^ (bits - 1) - 1 := by
  have h1 := pow_half h
  have h2 := pow_pos' (bits - 1)
  unfold gap maxValue
  omega

/-- **C45.** `k` increments take `x` to `(x + k) mod 2^bits`. -/
theorem C45_increment (bits x k : Nat) (hx : x < 2 ^ bits) :
    times (inc bits) k x = (x + k) % 2 ^ bits := by
  induction k with
  | zero => simp [times, Nat.mod_eq_of_lt hx]
  | succ k ih =>
    have hp := pow_pos' bits
    have hm := Nat.mod_lt (x + k) hp
    simp only [times, ih, inc, maxValue]
    split
    · rename_i h
      rw [← Nat.add_assoc, Nat.add_mod (x + k) 1]
      by_cases h1 : 2 ^ bits = 1
      · omega
      · rw [Nat.mod_eq_of_lt (show 1 < 2 ^ bits by omega)]
        rw [Nat.mod_eq_of_lt (show (x + k) % 2 ^ bits + 1 < 2 ^ bits by omega)]
    · rename_i h
      have h2 : (x + k) % 2 ^ bits = 2 ^ bits - 1 := by omega
      rw [← Nat.add_assoc]
      have h3 : (x + k + 1) % 2 ^ bits = ((x + k) % 2 ^ bits + 1) % 2 ^ bits := by
        rw [Nat.mod_add_mod]
      rw [h3, h2, Nat.sub_add_cancel hp, Nat.mod_self]

/-- **C45.** Numbers stay in range, whatever the constructor is given, and the successor of the
maximum is zero. -/
theorem C45_range (bits v : Nat) :
    mk bits v < 2 ^ bits ∧ (v < 2 ^ bits → mk bits v = v) ∧
    (∀ k, times (inc bits) k (mk bits v) < 2 ^ bits) ∧ inc bits (2 ^ bits - 1) = 0 := by
  have hp := pow_pos' bits
  have hm : mk bits v < 2 ^ bits := by unfold mk maxValue; split <;> omega
  refine ⟨hm, ?_, ?_, ?_⟩
  · intro h; unfold mk maxValue; rw [if_pos (by omega)]
  · intro k; rw [C45_increment _ _ _ hm]; exact Nat.mod_lt _ hp
  · simp [inc, maxValue]

/-- **C44.** With at least two bits, every number precedes the number reached by `k` increments,
for every `k` from one to one less than half the number space. -/
theorem C44_window (bits x k : Nat) (hb : 2 ≤ bits) (hx : x < 2 ^ bits) (h1 : 1 ≤ k)
    (h2 : k < 2 ^ (bits - 1)) :
    lt bits x (times (inc bits) k x) = true ∧ lt bits (times (inc bits) k x) x = false := by
  rw [C45_increment _ _ _ hx]
  have hh := pow_half (show 1 ≤ bits by omega)
  have hg := gap_eq (show 1 ≤ bits by omega)
  have hb' : bits ≠ 1 := by omega
  have hm : (x + k) % 2 ^ bits = if x + k < 2 ^ bits then x + k else x + k - 2 ^ bits := by
    split
    · rename_i h; exact Nat.mod_eq_of_lt h
    · rename_i h
      rw [Nat.mod_eq_sub_mod (by omega), Nat.mod_eq_of_lt (by omega)]
  rw [hm]
  constructor
  · simp only [lt, if_neg hb']
    split <;> split <;> simp <;> omega
  · simp only [lt, if_neg hb']
    split <;> split <;> simp <;> omega

/-- **C44.** With at least two bits, of any two numbers exactly one of `a < b`, `a == b`, `b < a`
holds. -/
theorem C44_trichotomy (bits a b : Nat) (hb : 2 ≤ bits) :
    (lt bits a b = true ∧ a ≠ b ∧ lt bits b a = false) ∨
    (lt bits a b = false ∧ a = b ∧ lt bits b a = false) ∨
    (lt bits a b = false ∧ a ≠ b ∧ lt bits b a = true) := by
  have hb' : bits ≠ 1 := by omega
  simp only [lt, if_neg hb']
  split <;> split <;> simp <;> omega

/-- **C44**, complete description of the order.  `d` is the number of increments from `a` to `b`.
At the antipode (`d` exactly half the space) the numerically larger number precedes. -/
theorem C44_order (bits a b : Nat) (hb : 2 ≤ bits) (ha : a < 2 ^ bits) (hb2 : b < 2 ^ bits) :
    lt bits a b = true ↔
      ∃ d, times (inc bits) d a = b ∧ d < 2 ^ bits ∧
        ((1 ≤ d ∧ d < 2 ^ (bits - 1)) ∨ (d = 2 ^ (bits - 1) ∧ b < a)) := by
  have hh := pow_half (show 1 ≤ bits by omega)
  have hg := gap_eq (show 1 ≤ bits by omega)
  have hb' : bits ≠ 1 := by omega
  constructor
  · intro h
    simp only [lt, if_neg hb'] at h
    by_cases hab : a < b
    · rw [if_pos hab] at h
      simp only [decide_eq_true_eq] at h
      refine ⟨b - a, ?_, by omega, by omega⟩
      rw [C45_increment _ _ _ ha, show a + (b - a) = b by omega, Nat.mod_eq_of_lt hb2]
    · rw [if_neg hab] at h
      simp only [decide_eq_true_eq] at h
      refine ⟨b + 2 ^ bits - a, ?_, by omega, by omega⟩
      rw [C45_increment _ _ _ ha, show a + (b + 2 ^ bits - a) = b + 2 ^ bits by omega,
        Nat.add_mod_right, Nat.mod_eq_of_lt hb2]
  · rintro ⟨d, h1, h2, h3⟩
    rw [C45_increment _ _ _ ha] at h1
    have hm : (a + d) % 2 ^ bits = if a + d < 2 ^ bits then a + d else a + d - 2 ^ bits := by
      split
      · rename_i h; exact Nat.mod_eq_of_lt h
      · rename_i h
        rw [Nat.mod_eq_sub_mod (by omega), Nat.mod_eq_of_lt (by omega)]
    rw [hm] at h1
    simp only [lt, if_neg hb']
    split at h1 <;> split <;> simp <;> omega

/-- The hypotheses of C44 are met by a wrapping pair of 8-bit numbers. -/
example : lt 8 250 (times (inc 8) 100 250) = true ∧ times (inc 8) 100 250 = 94 := by
  constructor
  · exact (C44_window 8 250 100 (by decide) (by decide) (by decide) (by decide)).1
  · rw [C45_increment 8 250 100 (by decide)]

/-- **C46.** Increments run up the stick and then cycle through the circle. -/
theorem C46_increment (bits start x k : Nat) (hs : start < 2 ^ bits) (hx : x < 2 ^ bits) :
    times (linc bits start) k x =
      if x + k < 2 ^ bits then x + k else start + (x + k - start) % (2 ^ bits - start) := by
  have hp := pow_pos' bits
  induction k with
  | zero => simp [times, hx]
  | succ k ih =>
    simp only [times, ih, linc, maxValue]
    by_cases h1 : x + k < 2 ^ bits
    · rw [if_pos h1]
      by_cases h2 : x + (k + 1) < 2 ^ bits
      · rw [if_pos (by omega), if_pos h2]; omega
      · rw [if_neg (by omega), if_neg h2,
          show x + (k + 1) - start = 2 ^ bits - start by omega, Nat.mod_self, Nat.add_zero]
    · rw [if_neg h1, if_neg (show ¬ x + (k + 1) < 2 ^ bits by omega)]
      have hc : 0 < 2 ^ bits - start := by omega
      have hm := Nat.mod_lt (x + k - start) hc
      have e : x + (k + 1) - start = (x + k - start) + 1 := by omega
      rw [e]
      split
      · rename_i h2
        have h3 : (x + k - start + 1) % (2 ^ bits - start)
            = (x + k - start) % (2 ^ bits - start) + 1 := by
          rw [← Nat.mod_add_mod, Nat.mod_eq_of_lt (by omega)]
        omega
      · rename_i h2
        have h3 : (x + k - start) % (2 ^ bits - start) = 2 ^ bits - start - 1 := by omega
        have h4 : (x + k - start + 1) % (2 ^ bits - start) = 0 := by
          rw [← Nat.mod_add_mod, h3, Nat.sub_add_cancel hc, Nat.mod_self]
        omega

/-- **C46.** Once on the circle, always on the circle. -/
theorem C46_stays (bits start x k : Nat) (hs : start < 2 ^ bits) (hx : x < 2 ^ bits)
    (hc : start ≤ x) :
    start ≤ times (linc bits start) k x ∧ times (linc bits start) k x < 2 ^ bits := by
  rw [C46_increment _ _ _ _ hs hx]
  have := Nat.mod_lt (x + k - start) (show 0 < 2 ^ bits - start by omega)
  split <;> omega

theorem maxValue_ge {bits start : Nat} (hs : start < 2 ^ bits) : start ≤ maxValue bits := by
  unfold maxValue; omega

/-- **C46.** On the stick the order is numeric, and every stick number precedes every number of
the circle, never the other way round. -/
theorem C46_stick (bits start a b : Nat) (ha : a < start) :
    (b < start → (llt bits start a b = true ↔ a < b)) ∧
    (start ≤ b → llt bits start a b = true ∧ llt bits start b a = false) := by
  constructor
  · intro hb
    unfold llt
    split
    · simp
    · split <;> simp [ha, hb]
  · intro hb
    unfold llt
    have h1 : a < b := by omega
    have h2 : ¬ b < a := by omega
    have h3 : ¬ start ≤ a := by omega
    have h4 : ¬ b < start := by omega
    split
    · simp [h1]; omega
    · split <;> simp [h1, h2, h3, h4, ha] <;> omega

/-- **C46.** On a circle of `m >= 3` numbers, a number precedes the one reached by `k` increments
for every `k` from one up to (but not reaching) half the circle, and not the other way round; and
of two distinct numbers exactly one precedes the other. -/
theorem C46_circle (bits start x k : Nat) (hs : start + 2 < 2 ^ bits) (hx : x < 2 ^ bits)
    (hc : start ≤ x) (h1 : 1 ≤ k) (h2 : 2 * k < 2 ^ bits - start) :
    llt bits start x (times (linc bits start) k x) = true ∧
    llt bits start (times (linc bits start) k x) x = false := by
  have hcs : circularSpace bits start = 3 := by
    unfold circularSpace maxValue; rw [if_neg (by omega), if_neg (by omega)]
  have hm : times (linc bits start) k x
      = if x + k < 2 ^ bits then x + k else x + k - (2 ^ bits - start) := by
    rw [C46_increment _ _ _ _ (by omega) hx]
    split
    · rfl
    · rw [Nat.mod_eq_sub_mod (by omega), Nat.mod_eq_of_lt (by omega)]
      omega
  rw [hm]
  have hg : lgap bits start = (2 ^ bits - 1 - start) / 2 := rfl
  have hmod : 2 ^ bits - start + start = 2 ^ bits := by omega
  by_cases hw : x + k < 2 ^ bits
  · rw [if_pos hw]
    have h3 : ¬ x < start := by omega
    have h4 : ¬ x + k < start := by omega
    have h5 : x < x + k := by omega
    have h6 : ¬ x + k < x := by omega
    simp [llt, hcs, h3, h4, h5, h6, hc]
    omega
  · rw [if_neg hw]
    have h3 : ¬ x < start := by omega
    have h4 : ¬ x + k - (2 ^ bits - start) < start := by omega
    have h4' : start ≤ x + k - (2 ^ bits - start) := by omega
    have h5 : ¬ x < x + k - (2 ^ bits - start) := by omega
    have h6 : x + k - (2 ^ bits - start) < x := by omega
    simp [llt, hcs, h3, h4, h5, h6, hc, h4']
    omega

theorem C46_circle_total (bits start a b : Nat) (hs : start + 2 < 2 ^ bits)
    (ha : start ≤ a) (hb : start ≤ b) (hab : a ≠ b) :
    (llt bits start a b = true ↔ llt bits start b a = false) := by
  have hcs : circularSpace bits start = 3 := by
    unfold circularSpace maxValue; rw [if_neg (by omega), if_neg (by omega)]
  simp only [llt, hcs]
  have h1 : ¬ a < start := by omega
  have h2 : ¬ b < start := by omega
  simp [h1, h2, ha, hb]
  by_cases h : a < b
  · have h' : ¬ b < a := by omega
    simp [h, h']
  · have h' : b < a := by omega
    simp [h, h']
    omega

/-- The hypotheses of C46 are met by an 8-bit lollipop with its default start, on the circle. -/
example : llt 8 (defaultStart 8) 250 (times (linc 8 (defaultStart 8)) 10 250) = true :=
  (C46_circle 8 (defaultStart 8) 250 10 (by decide) (by decide) (by decide) (by decide)
    (by decide)).1

/-- **C47** for circular numbers: irreflexive, and `<=` is `<` or `==`. -/
theorem C47_circular (bits a b : Nat) :
    lt bits a a = false ∧ (le bits a b = true ↔ lt bits a b = true ∨ a = b) := by
  constructor
  · unfold lt; split <;> simp
  · unfold le lt
    by_cases h1 : bits = 1
    · simp [h1]; omega
    · simp only [if_neg h1]
      split <;> split <;> simp <;> omega

/-- **C47** for lollipop numbers; missing: `x < x` is false fails for numbers of a two-number
circle, see `C47_lollipop_fails`. -/
theorem C47_lollipop_partial (bits start a b : Nat) :
    ((start + 1 ≠ 2 ^ bits - 1 ∨ a < start) → llt bits start a a = false) ∧
    (lle bits start a b = true ↔ llt bits start a b = true ∨ a = b) := by
  constructor
  · intro h
    unfold llt circularSpace maxValue
    split
    · simp
    · split
      · rename_i h1 h2
        have h3 : a < start := by
          rcases h with h | h
          · exfalso
            revert h2; simp [h1]; omega
          · exact h
        simp [h3]
      · split <;> simp
  · unfold lle llt
    split
    · simp; omega
    · split
      · split <;> simp; omega
      · by_cases h1 : a < start
        · simp [h1]; omega
        · simp only [if_neg h1]
          by_cases h2 : a = b
          · subst h2; simp; 
          · by_cases h3 : a < b
            · have h4 : a ≤ b := by omega
              simp [h3, h4, h2]
            · have h4 : ¬ a ≤ b := by omega
              simp [h3, h4, h2]

/-- **C47 fails** for the default two-bit lollipop number: `2 < 2` is true. -/
theorem C47_lollipop_fails : llt 2 (defaultStart 2) 2 2 = true := by decide

/-! ### Wire format -/

theorem leBytes_take (n : Nat) : ∀ (w v : Nat), n ≤ w → (leBytes w v).take n = leBytes n v := by
  induction n with
  | zero => intros; simp [leBytes]
  | succ n ih =>
    intro w v h
    cases w with
    | zero => omega
    | succ w => simp only [leBytes, List.take_succ_cons]; rw [ih _ _ (by omega)]

theorem leBytes_zero (w : Nat) : leBytes w 0 = List.replicate w 0 := by
  induction w with
  | zero => rfl
  | succ w ih => simp [leBytes, ih, List.replicate_succ]

theorem leBytes_drop (n : Nat) : ∀ (w v : Nat), v < 256 ^ n →
    (leBytes w v).drop n = List.replicate (w - n) 0 := by
  induction n with
  | zero =>
    intro w v h
    have : v = 0 := by simpa using h
    subst this
    simp [leBytes_zero]
  | succ n ih =>
    intro w v h
    cases w with
    | zero => simp [leBytes]
    | succ w =>
      simp only [leBytes, List.drop_succ_cons]
      rw [ih w (v / 256) (by rw [Nat.pow_succ] at h; exact Nat.div_lt_of_lt_mul (by omega))]
      congr 1; omega

theorem wireSize_le {bits : Nat} (h : bits ≤ 64) : wireSize bits ≤ valueSize bits := by
  unfold wireSize valueSize
  split
  · omega
  · split
    · omega
    · split <;> omega

theorem pow_wire {bits : Nat} : 2 ^ bits ≤ 256 ^ wireSize bits := by
  rw [show (256 : Nat) = 2 ^ 8 from rfl, ← Nat.pow_mul]
  apply Nat.pow_le_pow_right (by omega)
  unfold wireSize; omega

/-- Bytes of the object that go on the wire. -/
theorem wire_bytes (h : Host) {bits : Nat} (hb : bits ≤ 64) (v : Nat) :
    ((image h (valueSize bits) v).drop (wireOffset h bits)).take (wireSize bits)
      = image h (wireSize bits) v := by
  have hw := wireSize_le hb
  cases h with
  | little => simp [image, wireOffset, leBytes_take _ _ _ hw]
  | big =>
    simp only [image, wireOffset, List.drop_reverse, leBytes_length]
    rw [show valueSize bits - (valueSize bits - wireSize bits) = wireSize bits by omega,
      leBytes_take _ _ _ hw]
    apply List.take_of_length_le; simp

theorem assemble (h : Host) {bits old : Nat} (hb : bits ≤ 64) (ho : old < 2 ^ bits)
    (bs : List Byte) (hl : bs.length = wireSize bits) :
    unimage h ((image h (valueSize bits) old).take (wireOffset h bits) ++ bs
      ++ (image h (valueSize bits) old).drop (wireOffset h bits + wireSize bits))
      = unimage h bs := by
  have hw := wireSize_le hb
  have ho' : old < 256 ^ wireSize bits := Nat.lt_of_lt_of_le ho pow_wire
  cases h with
  | little =>
    simp only [image, wireOffset, Nat.zero_add, List.take_zero, List.nil_append, unimage]
    rw [leBytes_drop _ _ _ ho', leVal_append, leVal_replicate_zero]; simp
  | big =>
    simp only [image, wireOffset, unimage, beVal, List.reverse_append, List.take_reverse,
      List.drop_reverse, List.reverse_reverse, leBytes_length]
    rw [show valueSize bits - (valueSize bits - wireSize bits) = wireSize bits by omega,
      show valueSize bits - (valueSize bits - wireSize bits + wireSize bits) = 0 by omega,
      leBytes_drop _ _ _ ho', List.take_zero, List.nil_append, leVal_append,
      leVal_replicate_zero]
    simp

/-- **C48.** Writing a number and reading it back, in any byte order, into an object that held
any number whatsoever gives the number that was written. -/
theorem C48_round_trip (h : Host) (e : Order) (bits v old : Nat) (it : It) (data : List Byte)
    (hb : bits ≤ 64) (hv : v < 2 ^ bits) (ho : old < 2 ^ bits)
    (hr : Room it data (wireSize bits)) :
    ∃ data',
      write h e bits v it data = some ({ it with cursor := it.cursor + wireSize bits }, data') ∧
      SameOutside data data' it.cursor (wireSize bits) ∧
      read h e bits old it data' = some ({ it with cursor := it.cursor + wireSize bits }, v) := by
  have hl : (image h (wireSize bits) v).length = wireSize bits := image_length ..
  have hrt := C82_bytes_round_trip h e (image h (wireSize bits) v) it data (by rw [hl]; exact hr)
  rw [hl] at hrt
  obtain ⟨data', h1, h2, h3⟩ := hrt
  refine ⟨data', ?_, h2, ?_⟩
  · unfold write; rw [wire_bytes h hb]; exact h1
  · simp only [read, h3]
    rw [assemble h hb ho _ hl, unimage_image, Nat.mod_eq_of_lt (Nat.lt_of_lt_of_le hv pow_wire)]

/-- **C48**, second half, for widths that are whole bytes: any number read from the wire is in
range.  Missing: other widths, see `C48_read_range_fails`. -/
theorem C48_read_range_partial (h : Host) (e : Order) (bits old : Nat) (it it' : It)
    (data : List Byte) (v : Nat) (hb : bits ≤ 64) (h8 : bits % 8 = 0) (ho : old < 2 ^ bits)
    (hr : read h e bits old it data = some (it', v)) : v < 2 ^ bits := by
  unfold read at hr
  split at hr
  · simp at hr
  · rename_i it'' bs hbs
    have hl : bs.length = wireSize bits := by
      unfold readBytes at hbs
      split at hbs
      · split at hbs
        · rename_i d hd
          have hdl : d.length = wireSize bits := by
            by_cases h0 : wireSize bits = 0
            · rw [h0] at hd ⊢; simp [loadSeq] at hd; simp [← hd]
            · by_cases hf : it.cursor + wireSize bits ≤ data.length
              · rw [loadSeq_eq _ _ _ hf] at hd
                injection hd with hd; rw [← hd]; simp; omega
              · rw [loadSeq_none (by omega) h0] at hd; simp at hd
          injection hbs with hbs
          injection hbs with _ hbs
          rw [← hbs]; split <;> simp [hdl]
        · simp at hbs
      · simp at hbs
    injection hr with hr
    injection hr with _ hv
    rw [assemble h hb ho bs hl] at hv
    have := unimage_lt h bs
    rw [hv, hl] at this
    have e2 : (256 : Nat) ^ wireSize bits = 2 ^ bits := by
      rw [show (256 : Nat) = 2 ^ 8 from rfl, ← Nat.pow_mul]
      congr 1; unfold wireSize; omega
    rwa [e2] at this

/-- **C48 fails** for widths that are not whole bytes: a 4-bit number read from the byte `0xff`
is 255. -/
theorem C48_read_range_fails :
    read .little .little 4 0 ⟨0, 1, 0⟩ [0xff] = some (⟨0, 1, 1⟩, 255) := by decide

/-- The hypotheses of `C48_round_trip` are met by a 12-bit number in a four-byte buffer. -/
example : Room ⟨0, 4, 1⟩ [0, 0, 0, 0] (wireSize 12) ∧ (0xabc : Nat) < 2 ^ 12 :=
  ⟨⟨by decide, by decide, by decide, by decide⟩, by decide⟩

end Verif.SeqNum
