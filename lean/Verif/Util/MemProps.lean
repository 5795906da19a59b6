import Verif.Util.Mem
import Mathlib.Tactic.Ring
set_option linter.unusedSimpArgs false
set_option linter.unusedVariables false
/-! Property C163: elements lie in their memory, and iterators reach exactly them. -/
namespace Verif.Util.Mem

/-- `::operator new` gives addresses other than zero, of memory that exists.  (Assumption on the platform; no code.) -/
def Sane (alloc : Nat → Option Nat) : Prop := ∀ n a, alloc n = some a → 0 < a ∧ a + n ≤ W

theorem bytes_eq (m z : Nat) : bytes m z = m * z % W := by
  unfold bytes; rw [Nat.mod_mul_mod]

theorem loop_ok {b : Blk} {z : Nat} (hz : 0 < z) (hb : 0 < b.base) (hw : b.base + b.size ≤ W) : ∀ (n i : Nat), (i + n) * z ≤ b.size →
    loop b z ((b.base + (i + n) * z) % W) n ((b.base + i * z) % W) = some ((List.range' i n).map fun k => b.base + k * z)
  | 0, i, _ => by simp [loop]
  | n + 1, i, h2 => by
    have e1 : (i + (n + 1)) * z = i * z + z + n * z := by ring
    have e2 : (i + 1 + n) * z = i * z + z + n * z := by ring
    have e3 : (i + 1) * z = i * z + z := by ring
    have hp : (b.base + i * z) % W = b.base + i * z := Nat.mod_eq_of_lt (by omega)
    have hne : b.base + i * z ≠ (b.base + (i + (n + 1)) * z) % W := by
      by_cases hw : b.base + (i + (n + 1)) * z = W
      · rw [hw, Nat.mod_self]; omega
      · rw [Nat.mod_eq_of_lt (by omega)]; omega
    have ih := loop_ok hz hb hw n (i + 1) (by omega)
    rw [hp, loop, if_neg hne, if_pos ⟨by omega, by omega⟩]
    rw [show b.base + i * z + z = b.base + (i + 1) * z by omega, show (i + (n + 1)) * z = (i + 1 + n) * z by omega, ih]
    rfl

/-- **C163 (construction).** A container of `m` elements of `z` bytes that asks for less than `2^64` bytes gets a block of `m * z` bytes
or fails with `bad_alloc`; when its elements are made one by one, each is made once, in order, within the block; every index pair or
index the user may name leads to an element inside the block, and different ones to elements that share no byte. -/
theorem mem_made_partial {alloc : Nat → Option Nat} (ha : Sane alloc) (h : How) {m z : Nat} (hm : 0 < m) (hz : 0 < z) (hlt : m * z < W) :
    (alloc (m * z) = none → make alloc h m z = .badAlloc) ∧
    ∀ base, alloc (m * z) = some base →
      make alloc h m z = .ok ⟨base, m * z⟩ (if h = .each then (List.range m).map fun k => base + k * z else []) ∧
      (∀ i, i < m → addr ⟨base, m * z⟩ z i = base + i * z ∧ Blk.has ⟨base, m * z⟩ z (addr ⟨base, m * z⟩ z i)) ∧
      ∀ i j, i < j → j < m → addr ⟨base, m * z⟩ z i + z ≤ addr ⟨base, m * z⟩ z j := by
  have hmW : m < W := by
    have := Nat.le_mul_of_pos_right m hz
    omega
  have e0 : m % W = m := Nat.mod_eq_of_lt hmW
  have e1 : bytes m z = m * z := by rw [bytes_eq, Nat.mod_eq_of_lt hlt]
  constructor
  · intro hn
    rw [make, e0, if_neg (by omega), e1, hn]
  · intro base hb
    obtain ⟨h1, h2⟩ := ha _ _ hb
    have at' : ∀ i, i < m → addr ⟨base, m * z⟩ z i = base + i * z ∧ base + i * z + z ≤ base + m * z := by
      intro i hi
      have := Nat.mul_le_mul_right z (show i + 1 ≤ m from hi)
      rw [Nat.add_mul] at this
      exact ⟨Nat.mod_eq_of_lt (show base + i * z < W by omega), by omega⟩
    refine ⟨?_, fun i hi => ?_, fun i j hij hj => ?_⟩
    · rw [make, e0, if_neg (by omega), e1, hb]
      cases h with
      | each =>
        have := loop_ok (b := ⟨base, m * z⟩) hz h1 h2 m 0 (by simp)
        simp only [Nat.zero_add, Nat.zero_mul, Nat.add_zero] at this
        rw [Nat.mod_eq_of_lt (show base < W by have := Nat.mul_pos hm hz; omega)] at this
        simp only [this]
        simp [List.range_eq_range']
      | zeroed => rfl
      | raw => rfl
      | copied => rfl
    · obtain ⟨a1, a2⟩ := at' i hi
      exact ⟨a1, by rw [a1]; exact ⟨by simp, a2⟩⟩
    · rw [(at' i (by omega)).1, (at' j hj).1]
      have := Nat.mul_le_mul_right z (show i + 1 ≤ j from hij)
      rw [Nat.add_mul] at this
      omega

/-- The bound is necessary: of a container that is constructed, all elements lie in its block exactly if it asks for less than `2^64` bytes. -/
theorem mem_iff {alloc : Nat → Option Nat} (ha : Sane alloc) {h : How} {m z : Nat} (hm : 0 < m) (hz : 0 < z) {b : Blk} {ws : List Nat}
    (hk : make alloc h m z = .ok b ws) : (∀ i, i < m → b.has z (addr b z i)) ↔ m * z < W := by
  constructor
  · intro hall
    by_contra hlt
    -- the block is smaller than the elements
    have hb : b.size < m * z ∧ b.base + b.size ≤ W ∧ (b.base = 0 → b.size = 0) := by
      unfold make at hk
      by_cases h0 : m % W = 0
      · rw [if_pos h0] at hk
        cases hk
        exact ⟨Nat.mul_pos hm hz, by simp, fun _ => rfl⟩
      · rw [if_neg h0] at hk
        cases hal : alloc (bytes m z) with
        | none => rw [hal] at hk; cases hk
        | some base =>
          rw [hal] at hk
          obtain ⟨s1, s2⟩ := ha _ _ hal
          have hs : b = ⟨base, bytes m z⟩ := by
            cases h with
            | each =>
              dsimp only at hk
              split at hk
              · cases hk
              · cases hk; rfl
            | zeroed => cases hk; rfl
            | raw => cases hk; rfl
            | copied => cases hk; rfl
          subst hs
          refine ⟨?_, s2, fun e => absurd e (by dsimp only; omega)⟩
          dsimp only
          rw [bytes_eq]
          have := Nat.mod_lt (m * z) (show 0 < W by decide)
          omega
    obtain ⟨b1, b2, b3⟩ := hb
    -- the first element that does not fit
    have hk1 : b.size / z < m := (Nat.div_lt_iff_lt_mul hz).mpr b1
    have hd := Nat.div_add_mod b.size z
    have hr := Nat.mod_lt b.size hz
    have := hall _ hk1
    unfold Blk.has addr at this
    rw [Nat.mul_comm (b.size / z) z] at this
    by_cases hW : b.base + z * (b.size / z) < W
    · rw [Nat.mod_eq_of_lt hW] at this
      omega
    · have e : b.base + z * (b.size / z) = W := by omega
      rw [e, Nat.mod_self] at this
      have h0 : b.base = 0 := by omega
      have := b3 h0
      omega
  · intro hlt i hi
    have hmW : m < W := by
      have := Nat.le_mul_of_pos_right m hz
      omega
    cases hal : alloc (m * z) with
    | none => rw [(mem_made_partial ha h hm hz hlt).1 hal] at hk; cases hk
    | some base =>
      obtain ⟨k1, k2, -⟩ := (mem_made_partial ha h hm hz hlt).2 base hal
      rw [k1] at hk
      cases hk
      exact (k2 i hi).2

/-- An array of `2^61 + 1` numbers of eight bytes is made without an exception in a block of eight bytes; one number is written, and the
second is outside.  The same array of elements of 24 bytes, and a matrix of `2^31` by `2^30` numbers, for which no byte is asked for. -/
theorem mem_fails {alloc : Nat → Option Nat} {base : Nat} (hb : 0 < base) (hW : base + 24 ≤ W) (h8 : alloc 8 = some base)
    (h24 : alloc 24 = some base) (h0 : alloc 0 = some base) :
    make alloc .each (2 ^ 61 + 1) 8 = .ok ⟨base, 8⟩ [base] ∧ ¬ Blk.has ⟨base, 8⟩ 8 (addr ⟨base, 8⟩ 8 1) ∧
    make alloc .each (2 ^ 61 + 1) 24 = .ok ⟨base, 24⟩ [base] ∧
    make alloc .zeroed (2 ^ 31 * 2 ^ 30) 8 = .ok ⟨base, 0⟩ [] ∧ ¬ Blk.has ⟨base, 0⟩ 8 (addr ⟨base, 0⟩ 8 0) := by
  have stop : ∀ (z n : Nat), 0 < z → z ≤ 24 → loop ⟨base, z⟩ z ((base + z) % W) (n + 2) base = some [base] := by
    intro z n hz hz2
    rw [loop, if_neg, if_pos ⟨by simp, by simp⟩, loop, if_pos rfl]
    · rfl
    · by_cases e : base + z = W
      · rw [e, Nat.mod_self]; omega
      · rw [Nat.mod_eq_of_lt (by omega)]; omega
  have b8 : bytes (2 ^ 61 + 1) 8 = 8 := by decide
  have b24 : bytes (2 ^ 61 + 1) 24 = 24 := by decide
  have b0 : bytes (2 ^ 31 * 2 ^ 30) 8 = 0 := by decide
  have m1 : (2 ^ 61 + 1) % W = 2 ^ 61 - 1 + 2 := by decide
  have l8 : (base + (2 ^ 61 - 1 + 2) * 8) % W = (base + 8) % W := by unfold W; omega
  have l24 : (base + (2 ^ 61 - 1 + 2) * 24) % W = (base + 24) % W := by unfold W; omega
  refine ⟨?_, ?_, ?_, ?_, ?_⟩
  · rw [make, b8, h8, m1, if_neg (by omega)]
    dsimp only
    rw [l8, stop 8 _ (by omega) (by omega)]
  · unfold Blk.has addr W
    dsimp only
    unfold W at hW
    omega
  · rw [make, b24, h24, m1, if_neg (by omega)]
    dsimp only
    rw [l24, stop 24 _ (by omega) (by omega)]
  · rw [make, b0, h0, if_neg (by decide)]
  · unfold Blk.has addr W
    dsimp only
    unfold W at hW
    omega

/-- The hypotheses of the theorems hold, e.g., of an allocator that hands out one place if there is room. -/
example : Sane (fun n => if n ≤ 2 ^ 40 then some 4096 else none) ∧ (24 : Nat) * 8 < W ∧
    make (fun n => if n ≤ 2 ^ 40 then some 4096 else none) .each 3 8 = .ok ⟨4096, 24⟩ [4096, 4104, 4112] := by
  refine ⟨fun n a h => ?_, by decide, by decide⟩
  dsimp only at h
  split at h
  · cases h; unfold W; omega
  · cases h

/-- **C163 (indices).** `at()` accepts exactly the indices of the elements if the index after the last is below `2^64`; otherwise it
refuses the index of the first element, and every other. -/
theorem mem_index {I n : Nat} (hI : I < W) (hn : 0 < n) (hnW : n < W) :
    (I + n < W → ∀ i, accepts I n i = true ↔ I ≤ i ∧ i < I + n) ∧ (W ≤ I + n → ∀ i, accepts I n i = false) := by
  unfold accepts
  constructor
  · intro h i
    rw [Nat.mod_eq_of_lt h]
    simp
  · intro h i
    have : (I + n) % W = I + n - W := by
      rw [Nat.mod_eq_sub_mod h, Nat.mod_eq_of_lt (by omega)]
    rw [this]
    simp only [Bool.and_eq_false_iff, decide_eq_false_iff_not]
    omega

/-! ### Iterators -/

/-- The place to which a list of moves leads from place `k`.  (Specification; no code.) -/
def place (k : Int) : List Move → Int
  | [] => k
  | .inc :: t => place (k + 1) t
  | .dec :: t => place (k - 1) t
  | .add n :: t => place (k + n) t
  | .sub n :: t => place (k - n) t

/-- The iterator at place `k` of a row, column or sequence that starts at address `b`, with `s` elements of `z` bytes from one place to the
next.  (Specification; no code.) -/
def spot (b s z : Nat) (k : Int) : It := ⟨BitVec.ofInt 64 (b + s * z * k), BitVec.ofInt 64 s⟩

theorem spot_move (b s z : Nat) (k : Int) (v : Move) : (spot b s z k).move (BitVec.ofInt 64 z) v = spot b s z (place k [v]) := by
  cases v with
  | inc =>
    simp only [It.move, spot, place, It.mk.injEq, and_true]
    rw [← BitVec.ofInt_mul, ← BitVec.ofInt_add]; congr 1; ring
  | dec =>
    simp only [It.move, spot, place, It.mk.injEq, and_true]
    rw [← BitVec.ofInt_mul, BitVec.sub_eq_add_neg, ← BitVec.ofInt_neg, ← BitVec.ofInt_add]; congr 1; ring
  | add n =>
    simp only [It.move, spot, place, It.mk.injEq, and_true]
    rw [← BitVec.ofInt_mul, ← BitVec.ofInt_mul, ← BitVec.ofInt_add]; congr 1; ring
  | sub n =>
    simp only [It.move, spot, place, It.mk.injEq, and_true]
    rw [← BitVec.ofInt_mul, ← BitVec.ofInt_mul, BitVec.sub_eq_add_neg, ← BitVec.ofInt_neg, ← BitVec.ofInt_add]; congr 1; ring

/-- **C163 (moves).** Any sequence of moves, forwards and backwards, by any signed numbers, leads the iterator to the place that counting
says, even through places outside; `it[n]` is the element `n` places further. -/
theorem mem_moves (b s z : Nat) (k : Int) (vs : List Move) (n : Int) :
    vs.foldl (It.move (BitVec.ofInt 64 z)) (spot b s z k) = spot b s z (place k vs) ∧
    It.index (BitVec.ofInt 64 z) (spot b s z k) n = (spot b s z (k + n)).p := by
  constructor
  · induction vs generalizing k with
    | nil => rfl
    | cons v t ih =>
      rw [List.foldl_cons, spot_move, ih]
      cases v <;> rfl
  · have := congrArg It.p (spot_move b s z k (.add n))
    simpa [It.move, place, It.index] using this

theorem spot_nat {b s z m : Nat} (hw : b + s * z * m < W) {k : Nat} (hk : k ≤ m) : (spot b s z k).p.toNat = b + s * z * k := by
  unfold spot
  have h1 := Nat.mul_le_mul_left (s * z) hk
  have : ((b : Int) + s * z * k) = ((b + s * z * k : Nat) : Int) := by push_cast; ring
  simp only [this, BitVec.ofInt_natCast, BitVec.toNat_ofNat]
  exact Nat.mod_eq_of_lt (by unfold W at hw; omega)

/-- **C163 (order and distance).** For iterators at places `j` and `k` of the same sequence: the comparisons compare the places, and the
difference is the number of places between them.  The addresses up to the last place must exist and span less than half of them. -/
theorem mem_order {b s z m : Nat} (hs : 0 < s) (hz : 0 < z) (hw : b + s * z * m < W) (hh : s * z * m < 2 ^ 63) (hs63 : s < 2 ^ 63)
    (hz63 : z < 2 ^ 63) {j k : Nat} (hj : j ≤ m) (hk : k ≤ m) :
    (It.eq (spot b s z j) (spot b s z k) = true ↔ j = k) ∧ (It.ne (spot b s z j) (spot b s z k) = true ↔ j ≠ k) ∧
    (It.lt (spot b s z j) (spot b s z k) = true ↔ j < k) ∧ (It.gt (spot b s z j) (spot b s z k) = true ↔ j > k) ∧
    (It.le (spot b s z j) (spot b s z k) = true ↔ j ≤ k) ∧ (It.ge (spot b s z j) (spot b s z k) = true ↔ j ≥ k) ∧
    It.diff (BitVec.ofInt 64 z) (spot b s z j) (spot b s z k) = (j : Int) - k := by
  have hsz : 0 < s * z := Nat.mul_pos hs hz
  have nj := spot_nat hw hj
  have nk := spot_nat hw hk
  have mono : ∀ x y : Nat, x < y → s * z * x < s * z * y := fun x y h => Nat.mul_lt_mul_of_pos_left h hsz
  have lt' : (b + s * z * j < b + s * z * k) ↔ j < k := by
    constructor
    · intro h
      by_contra h'
      have := Nat.mul_le_mul_left (s * z) (show k ≤ j by omega)
      omega
    · intro h; have := mono _ _ h; omega
  have gt' : (b + s * z * k < b + s * z * j) ↔ k < j := by
    constructor
    · intro h
      by_contra h'
      have := Nat.mul_le_mul_left (s * z) (show j ≤ k by omega)
      omega
    · intro h; have := mono _ _ h; omega
  have eq' : (spot b s z j).p = (spot b s z k).p ↔ j = k := by
    rw [← BitVec.toNat_inj, nj, nk]; omega
  refine ⟨?_, ?_, ?_, ?_, ?_, ?_, ?_⟩
  · simp only [It.eq, beq_iff_eq]; exact eq'
  · simp only [It.ne, bne_iff_ne, ne_eq, eq']
  · simp only [It.lt, nj, nk, decide_eq_true_eq]; exact lt'
  · simp only [It.gt, nj, nk, decide_eq_true_eq]; exact gt'
  · simp only [It.le, nj, nk, decide_eq_true_eq]; omega
  · simp only [It.ge, nj, nk, decide_eq_true_eq]; omega
  · have e : (spot b s z j).p - (spot b s z k).p = BitVec.ofInt 64 ((s : Int) * z * (j - k)) := by
      simp only [spot]
      rw [BitVec.sub_eq_add_neg, ← BitVec.ofInt_neg, ← BitVec.ofInt_add]; congr 1; ring
    have hb : ∀ x : Int, -2 ^ 63 ≤ x → x < 2 ^ 63 → (BitVec.ofInt 64 x).toInt = x := by
      intro x h1 h2
      rw [BitVec.toInt_ofInt]
      exact Int.bmod_eq_of_le_mul_two (by omega) (by omega)
    have h1 := Nat.mul_le_mul_left (s * z) hj
    have h2 := Nat.mul_le_mul_left (s * z) hk
    have e2 : (s : Int) * z * (j - k) = ((s * z * j : Nat) : Int) - ((s * z * k : Nat) : Int) := by push_cast; ring
    unfold It.diff
    rw [e, hb _ (by rw [e2]; omega) (by rw [e2]; omega), hb z (by omega) (by omega)]
    simp only [spot]
    rw [hb s (by omega) (by omega)]
    rw [show (s : Int) * z * (j - k) = (s * (j - k)) * z by ring, Int.mul_tdiv_cancel _ (by omega),
      Int.mul_tdiv_cancel_left _ (by omega)]

/-- A column of three elements of eight bytes in a row-major matrix of four columns, from the end back to the second place. -/
example : ([Move.add 3, .dec, .sub 2, .add (-1), .inc, .inc].foldl (It.move 8) (spot 4096 4 8 0)) = spot 4096 4 8 1 ∧
    It.diff 8 (spot 4096 4 8 1) (spot 4096 4 8 3) = -2 ∧ (spot 4096 4 8 1).p = 4128 := by decide

end Verif.Util.Mem
