set_option linter.unusedSimpArgs false
set_option linter.unusedVariables false
/-!
Property C106: hexadecimal output, `as_hex` (/repo/utility/hex-output.h), on a model of the formatting state of a standard
output stream.

Simplifications: the stream is in a good state and its locale is the classic one.  Values are given by their mathematical value and
the number of bytes of their type; a pointer or an enumeration is the number the cast gives.
-/
namespace Verif.Util.Hex

/-! ### Model -/

/-- `std::ios_base::basefield`.  (The standard library's; set by hex-output.h 58-63, 75-76.) -/
inductive Base where
  | dec | oct | hex
deriving DecidableEq

/-- `std::ios_base::adjustfield`.  (The standard library's; never set by hex-output.h 52-77.) -/
inductive Adjust where
  | left | right | internal
deriving DecidableEq

/-- The formatting state of an output stream, as far as the output of unsigned numbers, strings and characters depends on it.
(The standard library's; the fields that hex-output.h 52-77 sets or uses.) -/
structure Fmt where
  base : Base
  adjust : Adjust
  showbase : Bool
  upper : Bool
  fill : Char
  width : Nat

/-- A fresh stream.  (The standard library's; no code.) -/
def Fmt.fresh : Fmt := ⟨.dec, .right, false, false, ' ', 0⟩

/-- The number of a base.  (The standard library's; no code.) -/
def Base.n : Base → Nat
  | .dec => 10
  | .oct => 8
  | .hex => 16

/-- The character of a digit.  (The standard library's, used by hex-output.h 59, 63, 76.) -/
def digit (upper : Bool) (d : Nat) : Char := Char.ofNat (if d < 10 then 48 + d else if upper then 55 + d else 87 + d)

/-- The digits of a number, without leading zeros.  (The standard library's, used by hex-output.h 59, 63, 76.) -/
def digits (b : Base) (upper : Bool) (n : Nat) : List Char :=
  if n < b.n then [digit upper n] else digits b upper (n / b.n) ++ [digit upper (n % b.n)]
termination_by n
decreasing_by cases b <;> simp only [Base.n] at * <;> omega

/-- Output of the text `pre ++ body` in a field: `width` characters, padded with `fill` in front, behind, or between the two; the
width is used up.  (The standard library's, used by hex-output.h 56-63, 74-76.) -/
def put (f : Fmt) (pre body : List Char) : List Char × Fmt :=
  let pad := List.replicate (f.width - (pre.length + body.length)) f.fill
  (match f.adjust with
    | .left => pre ++ body ++ pad
    | .right => pad ++ pre ++ body
    | .internal => pre ++ pad ++ body, { f with width := 0 })

/-- `os << text`: no prefix that padding could follow, so internal is as right.
(The standard library's, used by hex-output.h 56, 60, 74.) -/
def putText (f : Fmt) (t : List Char) : List Char × Fmt :=
  match f.adjust with
  | .internal => ((put { f with adjust := .right } [] t).1, { f with width := 0 })
  | _ => put f [] t

/-- The prefix that `showbase` asks for: none for zero.  (The standard library's, used by hex-output.h 59, 63, 76.) -/
def basePrefix (f : Fmt) (n : Nat) : List Char :=
  if f.showbase ∧ n ≠ 0 then
    match f.base with
    | .dec => []
    | .oct => ['0']
    | .hex => ['0', if f.upper then 'X' else 'x']
  else []

/-- `os << n` for an unsigned number.  (The standard library's, used by hex-output.h 59, 63, 76.) -/
def putNum (f : Fmt) (n : Nat) : List Char × Fmt :=
  match f.adjust, f.base with
  | .internal, .oct => ((put { f with adjust := .right } [] (basePrefix f n ++ digits f.base f.upper n)).1, { f with width := 0 })
  | .internal, .dec => ((put { f with adjust := .right } [] (digits f.base f.upper n)).1, { f with width := 0 })
  | _, _ => put f (basePrefix f n) (digits f.base f.upper n)

/-- `os << std::setw(w) << std::setfill('0') << std::hex << std::nouppercase`; hex-output.h 55-57, 60-62, 74-75. -/
def setHex (f : Fmt) (w : Nat) : Fmt := { f with width := w, fill := '0', base := .hex, upper := false }

/-- `hex_output` for 64 bits; hex-output.h 52-63.  `v` is the value after the cast to `uint64_t`. -/
def out64 (f : Fmt) (v : Nat) : List Char × Fmt :=
  let a := putText f ['0', 'x']
  let b := putNum (setHex a.2 8) (v / 2 ^ 32 % 2 ^ 32)
  let c := putText b.2 ['`']
  let d := putNum (setHex c.2 8) (v % 2 ^ 32)
  (a.1 ++ b.1 ++ c.1 ++ d.1, d.2)

/-- `hex_output` for less than 64 bits; hex-output.h 68-76.  `v` is the value after the cast to the unsigned type. -/
def outSmall (f : Fmt) (bytes v : Nat) : List Char × Fmt :=
  let a := putText f ['0', 'x']
  let b := putNum (setHex a.2 (bytes * 2)) (v % 2 ^ 32)
  (a.1 ++ b.1, b.2)

/-- `os << as_hex(value)` for a type of 1, 2, 4 or 8 bytes: the casts wrap the value; hex-output.h 111-118. -/
def asHex (f : Fmt) (bytes : Nat) (value : Int) : List Char × Fmt :=
  let v := (value % 2 ^ (8 * bytes)).toNat
  if bytes = 8 then out64 f v else outSmall f bytes v

/-! ### Specification -/

/-- The `k`-th hexadecimal digit of a number from the right, as a character.  (Specification; no code.) -/
def hexAt (v : Int) (k : Nat) : Char := "0123456789abcdef".toList.getD (v / 16 ^ k % 16).toNat '?'

/-- The `n` digits of a number at the positions `lo + n - 1` down to `lo`.  (Specification; no code.) -/
def hexRun (v : Int) (lo n : Nat) : List Char := (List.range n).map fun i => hexAt v (lo + (n - 1 - i))

/-- What should be printed: `0x`, then two digits per byte, in two groups of eight if there are eight bytes.
(Specification; no code.) -/
def expected (bytes : Nat) (v : Int) : List Char :=
  if bytes = 8 then ['0', 'x'] ++ hexRun v 8 8 ++ ['`'] ++ hexRun v 0 8 else ['0', 'x'] ++ hexRun v 0 (2 * bytes)

/-- The value a type of so many bytes can hold.  (Specification; no code.) -/
def Holds (bytes : Nat) (signed : Bool) (v : Int) : Prop :=
  if signed then -(2 ^ (8 * bytes - 1) : Int) ≤ v ∧ v < 2 ^ (8 * bytes - 1) else 0 ≤ v ∧ v < 2 ^ (8 * bytes)

/-! ### Lemmas -/

theorem digit_table : ∀ d, d < 16 → "0123456789abcdef".toList.getD d '?' = digit false d := by decide

/-- Digits of fixed length.  (Specification; no code.) -/
def fixedN : Nat → Nat → List Char
  | 0, _ => []
  | k + 1, n => fixedN k (n / 16) ++ [digit false (n % 16)]

theorem fixedN_zero (k : Nat) : fixedN k 0 = List.replicate k '0' := by
  induction k with
  | zero => rfl
  | succ k ih =>
    simp only [fixedN, Nat.zero_div, Nat.zero_mod, ih]
    rw [List.replicate_succ']; rfl

theorem digits_length (k n : Nat) (h : n < 16 ^ (k + 1)) : (digits .hex false n).length ≤ k + 1 := by
  induction k generalizing n with
  | zero =>
    unfold digits
    rw [if_pos (by simpa [Base.n] using h)]; simp
  | succ k ih =>
    unfold digits
    split
    · simp
    · have := ih (n / 16) (Nat.div_lt_of_lt_mul (by rw [Nat.pow_succ] at h; omega))
      simp only [Base.n, List.length_append, List.length_singleton]; omega

theorem pad_fixed (k n : Nat) (h : n < 16 ^ (k + 1)) :
    List.replicate (k + 1 - (digits .hex false n).length) '0' ++ digits .hex false n = fixedN (k + 1) n := by
  induction k generalizing n with
  | zero =>
    unfold digits
    have : n < 16 := by simpa using h
    rw [if_pos (by simpa [Base.n] using this)]
    simp [fixedN, Nat.mod_eq_of_lt this]
  | succ k ih =>
    unfold digits
    split
    · rename_i g
      have g' : n < 16 := g
      simp only [List.length_singleton, fixedN, Nat.mod_eq_of_lt g', Nat.div_eq_of_lt g', fixedN_zero, Nat.zero_div, Nat.zero_mod]
      rw [show k + 1 + 1 - 1 = k + 1 by omega, List.replicate_succ']; rfl
    · have hd : n / 16 < 16 ^ (k + 1) := Nat.div_lt_of_lt_mul (by rw [Nat.pow_succ] at h; omega)
      have := ih (n / 16) hd
      simp only [Base.n, List.length_append, List.length_singleton]
      show _ = fixedN (k + 1) (n / 16) ++ [digit false (n % 16)]
      rw [← this, ← List.append_assoc,
        show k + 1 + 1 - ((digits .hex false (n / 16)).length + 1) = k + 1 - (digits .hex false (n / 16)).length by omega]

theorem hexAt_nat (n k : Nat) : hexAt n k = digit false (n / 16 ^ k % 16) := by
  unfold hexAt
  rw [show ((n : Int) / 16 ^ k % 16).toNat = n / 16 ^ k % 16 by
    rw [show ((16 : Int) ^ k) = ((16 ^ k : Nat) : Int) by simp]; omega]
  exact digit_table _ (Nat.mod_lt _ (by decide))

theorem fixed_run (k n : Nat) : fixedN k n = hexRun n 0 k := by
  induction k generalizing n with
  | zero => rfl
  | succ k ih =>
    simp only [fixedN, ih, hexRun, Nat.zero_add, List.range_succ, List.map_append, List.map_cons, List.map_nil]
    congr 1
    · apply List.map_congr_left
      intro i hi
      rw [List.mem_range] at hi
      rw [hexAt_nat, hexAt_nat, Nat.div_div_eq_div_mul, show k + 1 - 1 - i = (k - 1 - i) + 1 by omega, Nat.pow_succ, Nat.mul_comm]
    · rw [hexAt_nat]; simp

theorem put_zero (f : Fmt) (t : List Char) (h : f.width = 0) : putText f t = (t, f) := by
  obtain ⟨b, a, s, u, c, w⟩ := f
  simp only at h
  subst h
  cases a <;> simp [putText, put]

theorem putNum_fixed (f : Fmt) (k n : Nat) (ha : f.adjust ≠ .left) (hs : f.showbase = false) (h : n < 16 ^ (k + 1)) :
    putNum (setHex f (k + 1)) n = (fixedN (k + 1) n, setHex f 0) := by
  rw [← pad_fixed k n h]
  obtain ⟨b, a, s, u, c, w⟩ := f
  simp only at ha hs
  subst hs
  cases a with
  | left => exact absurd rfl ha
  | right => simp [putNum, setHex, put, basePrefix]
  | internal => simp [putNum, setHex, put, basePrefix]

/-- Digits only see the value modulo the power they lie below. -/
theorem run_mod (v : Int) (lo n b : Nat) (h : lo + n ≤ 2 * b) : hexRun ((v % 2 ^ (8 * b)).toNat : Nat) lo n = hexRun v lo n := by
  unfold hexRun
  apply List.map_congr_left
  intro i hi
  rw [List.mem_range] at hi
  unfold hexAt
  congr 2
  rw [Int.toNat_of_nonneg (Int.emod_nonneg _ (Int.ne_of_gt (Int.pow_pos (by decide))))]
  generalize hk : lo + (n - 1 - i) = k
  have e : (2 : Int) ^ (8 * b) = 16 ^ k * (16 * 16 ^ (2 * b - k - 1)) := by
    rw [show (16 : Int) ^ k * (16 * 16 ^ (2 * b - k - 1)) = 16 ^ (k + 1 + (2 * b - k - 1)) by
      rw [Int.pow_add, Int.pow_succ, Int.mul_assoc],
      show k + 1 + (2 * b - k - 1) = 2 * b by omega, show 8 * b = 4 * (2 * b) by omega, Int.pow_mul]; rfl
  rw [e, Int.emod_def v]
  have hp : (16 : Int) ^ k ≠ 0 := Int.ne_of_gt (Int.pow_pos (by decide))
  generalize v / (16 ^ k * (16 * 16 ^ (2 * b - k - 1))) = q
  rw [Int.mul_assoc, Int.sub_eq_add_neg, ← Int.mul_neg, Int.add_mul_ediv_left _ _ hp, Int.mul_assoc, ← Int.mul_neg,
    Int.add_mul_emod_self_left]

theorem run_high (n : Nat) (h : n < 2 ^ 64) : hexRun (n / 2 ^ 32 % 2 ^ 32 : Nat) 0 8 = hexRun n 8 8 := by
  unfold hexRun
  apply List.map_congr_left
  intro i hi
  rw [List.mem_range] at hi
  rw [hexAt_nat, hexAt_nat, Nat.mod_eq_of_lt (show n / 2 ^ 32 < 2 ^ 32 by omega), Nat.div_div_eq_div_mul, Nat.zero_add, Nat.pow_add]

theorem run_low (n : Nat) : hexRun (n % 2 ^ 32 : Nat) 0 8 = hexRun n 0 8 := by
  have := run_mod n 0 8 4 (by omega)
  have e : ((n : Int) % 2 ^ (8 * 4)).toNat = n % 2 ^ 32 := by omega
  rw [e] at this
  exact this

/-! ### Theorems -/

/-- **C106 (partial).** On a stream that does not adjust to the left, does not show bases and has no field width pending, a value of
1, 2, 4 or 8 bytes is printed as `0x` and exactly two hexadecimal digits per byte, the most significant first, with a backtick between the
two halves of eight bytes; negative values in two's complement.

Missing: other streams (`C106_left_fails`, `C106_showbase_fails`), and that the stream keeps its state (`C106_sticky_fails`). -/
theorem C106_partial (f : Fmt) (bytes : Nat) (v : Int) (hb : bytes = 1 ∨ bytes = 2 ∨ bytes = 4 ∨ bytes = 8)
    (ha : f.adjust ≠ .left) (hs : f.showbase = false) (hw : f.width = 0) :
    (asHex f bytes v).1 = expected bytes v := by
  have hv0 : (0 : Int) ≤ v % 2 ^ (8 * bytes) := Int.emod_nonneg _ (Int.ne_of_gt (Int.pow_pos (by decide)))
  have hv1 : v % 2 ^ (8 * bytes) < 2 ^ (8 * bytes) := Int.emod_lt_of_pos _ (Int.pow_pos (by decide))
  have hn : (v % 2 ^ (8 * bytes)).toNat < 2 ^ (8 * bytes) := by
    have : ((2 ^ (8 * bytes) : Nat) : Int) = 2 ^ (8 * bytes) := by simp
    omega
  unfold asHex expected
  by_cases h8 : bytes = 8
  · subst h8
    have h1 := run_mod v 8 8 8 (by omega)
    have h2 := run_mod v 0 8 8 (by omega)
    simp only [if_true]
    rw [← h1, ← h2]
    generalize (v % 2 ^ (8 * 8)).toNat = n at hn
    unfold out64
    rw [put_zero f _ hw]
    simp only
    rw [putNum_fixed f 7 _ ha hs (Nat.mod_lt _ (by decide))]
    simp only
    rw [put_zero (setHex f 0) _ rfl]
    simp only
    rw [putNum_fixed (setHex f 0) 7 _ ha hs (Nat.mod_lt _ (by decide)), fixed_run, fixed_run, run_high n hn, run_low]
  · have h1 := run_mod v 0 (2 * bytes) bytes (by omega)
    rw [if_neg h8, if_neg h8, ← h1]
    have hlt : (v % 2 ^ (8 * bytes)).toNat < 2 ^ 32 ∧ (v % 2 ^ (8 * bytes)).toNat < 16 ^ (2 * bytes) := by
      rcases hb with rfl | rfl | rfl | rfl <;> simp at hn ⊢ <;> omega
    generalize (v % 2 ^ (8 * bytes)).toNat = n at hlt
    unfold outSmall
    rw [put_zero f _ hw]
    simp only
    obtain ⟨k, hk⟩ : ∃ k, bytes * 2 = k + 1 := ⟨bytes * 2 - 1, by omega⟩
    rw [Nat.mod_eq_of_lt hlt.1, hk, putNum_fixed f k _ ha hs (by rw [← hk, Nat.mul_comm]; exact hlt.2), fixed_run, ← hk,
      Nat.mul_comm]

theorem digit_inj (d e : Nat) (hd : d < 16) (he : e < 16) (h : digit false d = digit false e) : d = e := by
  have : ∀ d, d < 16 → ∀ e, e < 16 → digit false d = digit false e → d = e := by decide
  exact this d hd e he h

theorem fixed_inj (k : Nat) : ∀ a b, a < 16 ^ k → b < 16 ^ k → fixedN k a = fixedN k b → a = b := by
  induction k with
  | zero => intro a b ha hb _; simp at ha hb; omega
  | succ k ih =>
    intro a b ha hb h
    simp only [fixedN] at h
    have h' := List.append_inj' h rfl
    have hd := digit_inj _ _ (Nat.mod_lt _ (by decide)) (Nat.mod_lt _ (by decide)) (List.singleton_inj.mp h'.2)
    have := ih _ _ (Nat.div_lt_of_lt_mul (by rw [Nat.pow_succ] at ha; omega)) (Nat.div_lt_of_lt_mul (by rw [Nat.pow_succ] at hb; omega)) h'.1
    omega

theorem run_length (v : Int) (lo n : Nat) : (hexRun v lo n).length = n := by simp [hexRun]

theorem holds_inj {bytes : Nat} {signed : Bool} {v w : Int} (hb : bytes = 1 ∨ bytes = 2 ∨ bytes = 4 ∨ bytes = 8) (h1 : Holds bytes signed v)
    (h2 : Holds bytes signed w) (h : v % 2 ^ (8 * bytes) = w % 2 ^ (8 * bytes)) : v = w := by
  rcases hb with rfl | rfl | rfl | rfl <;> cases signed <;> simp [Holds] at h1 h2 h <;> omega

/-- **C106.** On such a stream the text determines the value: two values of the same type with the same text are equal. -/
theorem C106_injective (f : Fmt) (bytes : Nat) (signed : Bool) (v w : Int) (hb : bytes = 1 ∨ bytes = 2 ∨ bytes = 4 ∨ bytes = 8)
    (ha : f.adjust ≠ .left) (hs : f.showbase = false) (hw : f.width = 0) (h1 : Holds bytes signed v) (h2 : Holds bytes signed w)
    (h : (asHex f bytes v).1 = (asHex f bytes w).1) : v = w := by
  rw [C106_partial f bytes v hb ha hs hw, C106_partial f bytes w hb ha hs hw] at h
  have hn : ∀ u : Int, (u % 2 ^ (8 * bytes)).toNat < 16 ^ (2 * bytes) := by
    intro u
    have a : (0 : Int) ≤ u % 2 ^ (8 * bytes) := Int.emod_nonneg _ (Int.ne_of_gt (Int.pow_pos (by decide)))
    have b : u % 2 ^ (8 * bytes) < 2 ^ (8 * bytes) := Int.emod_lt_of_pos _ (Int.pow_pos (by decide))
    rcases hb with rfl | rfl | rfl | rfl <;> simp at a b ⊢ <;> omega
  have split : ∀ u : Int, hexRun u 8 8 ++ hexRun u 0 8 = hexRun u 0 16 := by
    intro u
    simp [hexRun, List.range_succ]
  have key : hexRun v 0 (2 * bytes) = hexRun w 0 (2 * bytes) := by
    unfold expected at h
    by_cases h8 : bytes = 8
    · subst h8
      simp only [if_true] at h
      have a := List.append_inj' h (by simp [run_length])
      have b := List.append_inj' a.1 rfl
      have c := List.append_inj b.1 rfl
      show hexRun v 0 16 = hexRun w 0 16
      rw [← split, ← split, a.2, c.2]
    · rw [if_neg h8, if_neg h8] at h
      exact (List.append_inj h rfl).2
  rw [← run_mod v 0 (2 * bytes) bytes (by omega), ← run_mod w 0 (2 * bytes) bytes (by omega), ← fixed_run, ← fixed_run] at key
  have := fixed_inj _ _ _ (hn v) (hn w) key
  apply holds_inj hb h1 h2
  have a : (0 : Int) ≤ v % 2 ^ (8 * bytes) := Int.emod_nonneg _ (Int.ne_of_gt (Int.pow_pos (by decide)))
  have b : (0 : Int) ≤ w % 2 ^ (8 * bytes) := Int.emod_nonneg _ (Int.ne_of_gt (Int.pow_pos (by decide)))
  omega

theorem digits_small (b : Base) (u : Bool) (n : Nat) (h : n < b.n) : digits b u n = [digit u n] := by
  unfold digits; rw [if_pos h]

theorem digits_sixteen : digits .hex false 16 = ['1', '0'] := by
  unfold digits
  rw [if_neg (by decide), digits_small _ _ _ (by decide)]; rfl

/-- **C106 fails on a stream that adjusts to the left:** the padding zeros go behind the digits, so the bytes 1 and 16 print the same
text, `0x10`. -/
theorem C106_left_fails : let f : Fmt := { Fmt.fresh with adjust := .left }
    (asHex f 1 1).1 = ['0', 'x', '1', '0'] ∧ (asHex f 1 16).1 = ['0', 'x', '1', '0'] ∧ expected 1 1 = ['0', 'x', '0', '1'] := by
  refine ⟨?_, ?_, by decide⟩
  · have h1 : ((1 : Int) % 2 ^ (8 * 1)).toNat = 1 := by decide
    simp only [asHex, h1]
    simp only [outSmall, putNum, putText, put, setHex, basePrefix, Fmt.fresh]
    rw [digits_small _ _ _ (by decide)]
    rfl
  · have h1 : ((16 : Int) % 2 ^ (8 * 1)).toNat = 16 := by decide
    simp only [asHex, h1]
    simp only [outSmall, putNum, putText, put, setHex, basePrefix, Fmt.fresh]
    rw [show 16 % 2 ^ 32 = 16 by decide, digits_sixteen]
    rfl

/-- **C106 fails on a stream that shows bases:** the prefix is printed twice, the second time inside the field. -/
theorem C106_showbase_fails : let f : Fmt := { Fmt.fresh with showbase := true }
    (asHex f 2 1).1 = ['0', 'x', '0', '0', 'x', '1'] ∧ expected 2 1 = ['0', 'x', '0', '0', '0', '1'] := by
  refine ⟨?_, by decide⟩
  have h1 : ((1 : Int) % 2 ^ (8 * 2)).toNat = 1 := by decide
  simp only [asHex, h1]
  simp only [outSmall, putNum, putText, put, setHex, basePrefix, Fmt.fresh]
  rw [digits_small _ _ _ (by decide)]
  rfl

/-- **C106 fails: the stream does not keep its state.** After `as_hex` of any value on a fresh stream, the number 10 is printed as `a`,
and in a field of 4 as `000a`. -/
theorem C106_sticky_fails (bytes : Nat) (v : Int) (hb : bytes = 1 ∨ bytes = 2 ∨ bytes = 4 ∨ bytes = 8) :
    let g := (asHex Fmt.fresh bytes v).2
    (putNum Fmt.fresh 10).1 = ['1', '0'] ∧ (putNum g 10).1 = ['a'] ∧ (putNum { g with width := 4 } 10).1 = ['0', '0', '0', 'a'] := by
  have hf : Fmt.fresh.adjust ≠ .left := by decide
  have hg : (asHex Fmt.fresh bytes v).2 = setHex Fmt.fresh 0 := by
    have e : ∀ (f : Fmt) (w n : Nat), f.adjust = .right → (putNum (setHex f w) n).2 = setHex f 0 := by
      intro f w n h
      obtain ⟨b, a, s, u, c, w'⟩ := f
      simp only at h
      subst h
      rfl
    unfold asHex
    split
    · unfold out64
      rw [put_zero _ _ rfl]
      simp only
      rw [e _ _ _ rfl, put_zero _ _ rfl]
      simp only
      rw [e _ _ _ rfl]
      rfl
    · unfold outSmall
      rw [put_zero _ _ rfl]
      simp only
      rw [e _ _ _ rfl]
  have d10 : digits .dec false 10 = ['1', '0'] := by
    unfold digits
    rw [if_neg (by decide), digits_small _ _ _ (by decide)]; rfl
  have h10 : digits .hex false 10 = ['a'] := by rw [digits_small _ _ _ (by decide)]; rfl
  simp only [hg]
  refine ⟨?_, ?_, ?_⟩
  · simp only [putNum, put, basePrefix, Fmt.fresh, d10]; rfl
  · simp only [putNum, put, basePrefix, Fmt.fresh, setHex, h10]; rfl
  · simp only [putNum, put, basePrefix, Fmt.fresh, setHex, h10]; rfl

/-- A negative number of two bytes, and one of eight bytes. -/
example : expected 2 (-2) = "0xfffe".toList ∧ expected 8 0x123456789abcdef0 = "0x12345678`9abcdef0".toList ∧ Holds 2 true (-2) := by
  refine ⟨by decide, by decide, by unfold Holds; decide⟩

end Verif.Util.Hex
