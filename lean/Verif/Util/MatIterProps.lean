import Verif.Util.MatIter
import Mathlib.Data.Int.ModEq
import Mathlib.Tactic.Ring
import Mathlib.Tactic.Linarith
/-!
**C169.**  The iterators of the rows and columns of a `BiMatrix` are random access iterators.
-/
namespace Verif.Util.MatIt
open Verif.Util (Layout)
variable {base w rows cols : Nat} {L : Layout} {l : Line}

/-- The number of elements between two elements of a line. -/
def step (s : Option Nat) : Nat := s.getD 1

/-- The address of the element `k` of a line, also beyond its ends, before it is reduced. -/
def pt (base w : Nat) (L : Layout) (rows cols : Nat) (l : Line) (k : Int) : Int :=
  base + w * (l.start L rows cols + k * step (l.stride L rows cols))

theorem one_eq (s : Option Nat) : one s = step s := by cases s <;> rfl

theorem delta_mod (s : Option Nat) (n : Int) : delta s n ≡ n * step s [ZMOD M] := by
  cases s with
  | none => simp [delta, step, Int.ModEq]
  | some s => simp [delta, step, Int.ModEq]

theorem move_pt (m : Move) (k : Int) :
    (⟨pt base w L rows cols l k % M, l.stride L rows cols⟩ : It).move w m =
      ⟨pt base w L rows cols l (k + net [m]) % M, l.stride L rows cols⟩ := by
  have hd := fun n => (delta_mod (l.stride L rows cols) n).mul_left (w : Int)
  have h0 : pt base w L rows cols l k % M ≡ pt base w L rows cols l k [ZMOD M] := Int.mod_modEq _ _
  cases m with
  | inc =>
    simp only [It.move, It.mk.injEq, and_true, one_eq]
    have := h0.add_right ((w : Int) * step (l.stride L rows cols))
    refine Eq.trans this ?_
    congr 1; simp only [pt, net]; ring
  | dec =>
    simp only [It.move, It.mk.injEq, and_true, one_eq]
    have := h0.sub_right ((w : Int) * step (l.stride L rows cols))
    refine Eq.trans this ?_
    congr 1; simp only [pt, net]; ring
  | add n =>
    simp only [It.move, It.mk.injEq, and_true]
    refine Eq.trans (h0.add (hd n)) ?_
    congr 1; simp only [pt, net]; ring
  | sub n =>
    simp only [It.move, It.mk.injEq, and_true]
    refine Eq.trans (h0.sub (hd n)) ?_
    congr 1; simp only [pt, net]; ring

theorem net_cons (m : Move) (ms : List Move) : net (m :: ms) = net [m] + net ms := by
  cases m <;> simp [net]

theorem moves_pt (ms : List Move) (k : Int) :
    (⟨pt base w L rows cols l k % M, l.stride L rows cols⟩ : It).moves w ms =
      ⟨pt base w L rows cols l (k + net ms) % M, l.stride L rows cols⟩ := by
  induction ms generalizing k with
  | nil => simp [It.moves, net]
  | cons m ms ih =>
    rw [It.moves, List.foldl_cons, move_pt, ← It.moves, ih, net_cons m ms, Int.add_assoc]

theorem begin_moves (ms : List Move) :
    (begin base w L rows cols l).moves w ms = ⟨pt base w L rows cols l (net ms) % M, l.stride L rows cols⟩ := by
  have := moves_pt (base := base) (w := w) (L := L) (rows := rows) (cols := cols) (l := l) ms 0
  rw [Int.zero_add] at this
  rw [← this]
  simp [begin, pt]

theorem place_eq (l : Line) (k : Nat) :
    l.start L rows cols + k * step (l.stride L rows cols) = place L rows cols (l.cell k) := by
  cases l <;> cases L <;> simp [Line.start, Line.stride, Line.cell, place, step] <;> ring

/-- **C169, moving.**  Whichever way an iterator came from `begin1` or `begin2`, forwards and backwards, it leads to the element it should: after
moves by `k` elements in sum, to the `k`-th element of the row or column; `it[n]` is the element `n` further, `n` being negative or not.
All paths to the same element give the same iterator, also behind the end and before the beginning. -/
theorem C169_moves (ms : List Move) :
    (∀ k : Nat, net ms = k →
      ((begin base w L rows cols l).moves w ms).addr = (base + w * (place L rows cols (l.cell k) : Int)) % M) ∧
    (∀ (n : Int) (k : Nat), net ms + n = k →
      ((begin base w L rows cols l).moves w ms).at w n = (base + w * (place L rows cols (l.cell k) : Int)) % M) ∧
    (∀ ms', net ms = net ms' → (begin base w L rows cols l).moves w ms = (begin base w L rows cols l).moves w ms') := by
  refine ⟨fun k hk => ?_, fun n k hk => ?_, fun ms' h => ?_⟩
  · rw [begin_moves, hk, ← place_eq]
    simp [pt]
  · have h := congrArg It.addr (move_pt (base := base) (w := w) (L := L) (rows := rows) (cols := cols) (l := l) (.add n) (net ms))
    rw [begin_moves]
    refine Eq.trans h ?_
    have e : net ms + net [.add n] = (k : Int) := by simp [net]; omega
    dsimp only
    rw [e, ← place_eq]
    simp [pt]
  · rw [begin_moves, begin_moves, h]

theorem step_pos (hl : l.Ok rows cols) : 0 < step (l.stride L rows cols) := by
  cases l <;> cases L <;> simp [Line.stride, step, Line.Ok] at * <;> omega

/-- The last position of a line is at most as far behind the storage as the storage is long. -/
theorem far (hl : l.Ok rows cols) (hc : 0 < l.count rows cols) :
    l.start L rows cols + l.count rows cols * step (l.stride L rows cols) ≤ 2 * (rows * cols) := by
  cases l <;> cases L <;> simp [Line.stride, step, Line.Ok, Line.start, Line.count] at * <;> nlinarith

theorem pt_lt (hw : 0 < w) (hl : l.Ok rows cols) {k k' : Int} :
    pt base w L rows cols l k < pt base w L rows cols l k' ↔ k < k' := by
  have hs := step_pos (L := L) hl
  simp only [pt]
  have hs' : (0 : Int) < step (l.stride L rows cols) := by exact_mod_cast hs
  have hw' : (0 : Int) < w := by exact_mod_cast hw
  constructor
  · intro h
    have h1 : (w : Int) * (l.start L rows cols + k * step (l.stride L rows cols)) < w * (l.start L rows cols + k' * step (l.stride L rows cols)) := by linarith
    have h2 := lt_of_mul_lt_mul_left h1 hw'.le
    have h3 : k * (step (l.stride L rows cols) : Int) < k' * step (l.stride L rows cols) := by linarith
    exact lt_of_mul_lt_mul_right h3 hs'.le
  · intro h
    have h3 : k * (step (l.stride L rows cols) : Int) < k' * step (l.stride L rows cols) := by nlinarith
    nlinarith

theorem pt_range (hb : base + 2 * w * (rows * cols) < 2 ^ 63) (hl : l.Ok rows cols) (hc : 0 < l.count rows cols) {k : Int} (h0 : 0 ≤ k)
    (h1 : k ≤ l.count rows cols) : 0 ≤ pt base w L rows cols l k ∧ pt base w L rows cols l k < 2 ^ 63 := by
  have hf := far (L := L) hl hc
  lift k to Nat using h0
  have h1' : k ≤ l.count rows cols := by exact_mod_cast h1
  have h2 : l.start L rows cols + k * step (l.stride L rows cols) ≤ 2 * (rows * cols) :=
    le_trans (Nat.add_le_add_left (Nat.mul_le_mul_right _ h1') _) hf
  have h3 : base + w * (l.start L rows cols + k * step (l.stride L rows cols)) < 2 ^ 63 := by
    have := Nat.mul_le_mul_left w h2
    have e : w * (2 * (rows * cols)) = 2 * w * (rows * cols) := by ring
    omega
  constructor
  · simp only [pt]; positivity
  · simp only [pt]; exact_mod_cast h3

/-- **C169, order and distance.**  Two iterators of the same row or column that are at its elements or at its end are ordered as the elements
are, are equal if and only if they are at the same place, and their distance is the number of elements between them: whichever way they
came there, if the storage, and as much memory again, is in the lower half of the address space. -/
theorem C169_order (hw : 0 < w) (hb : base + 2 * w * (rows * cols) < 2 ^ 63) (hl : l.Ok rows cols) (ms ms' : List Move)
    (h0 : 0 ≤ net ms) (h1 : net ms ≤ l.count rows cols) (h0' : 0 ≤ net ms') (h1' : net ms' ≤ l.count rows cols) :
    let a := (begin base w L rows cols l).moves w ms
    let b := (begin base w L rows cols l).moves w ms'
    (a.lt b = true ↔ net ms < net ms') ∧ (a.eq b = true ↔ net ms = net ms') ∧ a.dist w b = net ms - net ms' := by
  dsimp only
  rw [begin_moves, begin_moves]
  by_cases he : net ms = net ms'
  · rw [he]
    simp only [It.lt, It.eq, It.dist, Int.sub_self, lt_self_iff_false, decide_false, decide_true]
    refine ⟨by simp, by simp, ?_⟩
    cases l.stride L rows cols <;> simp
  · have hc : 0 < l.count rows cols := by omega
    obtain ⟨r0, r1⟩ := pt_range (L := L) hb hl hc h0 h1
    obtain ⟨r0', r1'⟩ := pt_range (L := L) hb hl hc h0' h1'
    have e : pt base w L rows cols l (net ms) % M = pt base w L rows cols l (net ms) := Int.emod_eq_of_lt r0 (lt_trans r1 (by norm_num [M]))
    have e' : pt base w L rows cols l (net ms') % M = pt base w L rows cols l (net ms') := Int.emod_eq_of_lt r0' (lt_trans r1' (by norm_num [M]))
    rw [e, e']
    simp only [It.lt, It.eq, It.dist, decide_eq_true_eq]
    have hlt := pt_lt (base := base) (L := L) hw hl (k := net ms) (k' := net ms')
    have hgt := pt_lt (base := base) (L := L) hw hl (k := net ms') (k' := net ms)
    refine ⟨hlt, ⟨fun h => by omega, fun h => by rw [h]⟩, ?_⟩
    have hs := step_pos (L := L) hl
    have hd : pt base w L rows cols l (net ms) - pt base w L rows cols l (net ms') =
        (w : Int) * ((step (l.stride L rows cols) : Int) * (net ms - net ms')) := by simp only [pt]; ring
    have hbm : Int.bmod (pt base w L rows cols l (net ms) - pt base w L rows cols l (net ms')) (2 ^ 64) =
        pt base w L rows cols l (net ms) - pt base w L rows cols l (net ms') := by
      apply Int.bmod_eq_of_le <;> omega
    rw [hbm, hd, Int.mul_tdiv_cancel_left _ (by omega)]
    cases hst : l.stride L rows cols with
    | none => simp [step]
    | some s =>
      rw [hst] at hs
      simp only [step, Option.getD_some] at hs ⊢
      exact Int.mul_tdiv_cancel_left _ (by omega)

/-! ### The rules of C++ -/

theorem inside_some {len : Nat} {p : Int} : (inside len p).isSome ↔ 0 ≤ p ∧ p ≤ len := by
  unfold inside; split <;> simp_all

/-- The offset of the element `k` of a line, also beyond its ends.  (Specification; no code.) -/
def off (L : Layout) (rows cols : Nat) (l : Line) (k : Int) : Int :=
  l.start L rows cols + k * step (l.stride L rows cols)

/-- **C169, neighbours.**  If the elements of the line are neighbours in the storage (rows of a matrix stored by rows, columns of one stored by
columns), an iterator may move from any element of the line, or its end, to any other by the rules of C++, and arrives there. -/
theorem C169_near (hl : l.Ok rows cols) (hn : l.stride L rows cols = none) (m : Move) (k : Int)
    (h : 0 ≤ k + net [m]) (h' : k + net [m] ≤ l.count rows cols) :
    moveS (rows * cols) (l.stride L rows cols) (off L rows cols l k) m = some (off L rows cols l (k + net [m])) := by
  have key : off L rows cols l (k + net [m]) = l.start L rows cols + (k + net [m]) := by simp [off, hn, step]
  have r0 : 0 ≤ off L rows cols l (k + net [m]) := by rw [key]; omega
  have r1 : off L rows cols l (k + net [m]) ≤ (rows * cols : Nat) := by
    rw [key]
    have : l.start L rows cols + l.count rows cols ≤ rows * cols := by
      cases l <;> cases L <;> simp [Line.stride, Line.Ok, Line.start, Line.count] at * <;> nlinarith
    omega
  have fin : inside (rows * cols) (off L rows cols l (k + net [m])) = some (off L rows cols l (k + net [m])) := by
    unfold inside; rw [if_pos ⟨r0, r1⟩]
  rw [← fin]
  cases m <;> simp only [moveS, hn, one, delta, net] <;> congr 1 <;> simp [off, hn, step] <;> ring

/-- **C169 (partial), distant elements.**  If the elements of the line are not stored as neighbours (columns of a matrix stored by rows, which is
the default), the rules of C++ allow exactly these moves from an element of the line to another or to the end: to the end only in the
first line; by negative numbers never.

Missing: the other moves, for which there is a witness in `C169_strict_fails`. -/
theorem C169_far_partial (hl : l.Ok rows cols) (hlen : rows * cols < 2 ^ 63) {s : Nat} (hn : l.stride L rows cols = some s) (m : Move) (k : Int)
    (h0 : 0 ≤ k) (h0' : k < l.count rows cols) (h : 0 ≤ k + net [m]) (h' : k + net [m] ≤ l.count rows cols) :
    (moveS (rows * cols) (l.stride L rows cols) (off L rows cols l k) m).isSome ↔
      (k + net [m] = l.count rows cols → l.start L rows cols = 0) ∧
      match (generalizing := false) m with
      | .add n => 0 ≤ n
      | .sub n => 0 ≤ n
      | _ => True := by
  have hpos : 0 < l.count rows cols := by omega
  have hst : step (l.stride L rows cols) = s := by rw [hn]; rfl
  have hs : 0 < s := hst ▸ step_pos (L := L) hl
  have hfar := far (L := L) hl hpos
  rw [hst] at hfar
  have hlt : l.start L rows cols < s := by
    cases l <;> cases L <;> simp [Line.stride, Line.Ok, Line.start] at * <;> omega
  have hlen' : l.count rows cols * s = rows * cols := by
    cases l <;> cases L <;> simp [Line.stride, Line.count] at * <;> subst hn <;> simp [Nat.mul_comm]
  have hoff : ∀ q, off L rows cols l q = l.start L rows cols + q * s := fun q => by simp [off, hst]
  -- whether the place is inside
  have hin : ∀ q : Int, 0 ≤ q → q ≤ l.count rows cols → ((0 ≤ off L rows cols l q ∧ off L rows cols l q ≤ (rows * cols : Nat)) ↔
      (q = l.count rows cols → l.start L rows cols = 0)) := by
    intro q hq hq'
    rw [hoff, ← hlen']
    have hs' : (0 : Int) < s := by exact_mod_cast hs
    have hlt' : (l.start L rows cols : Int) < s := by exact_mod_cast hlt
    constructor
    · rintro ⟨-, h2⟩ rfl
      push_cast at h2
      have : (l.start L rows cols : Int) ≤ 0 := by linarith
      exact_mod_cast le_antisymm this (by positivity)
    · intro hz
      refine ⟨by positivity, ?_⟩
      rcases lt_or_eq_of_le hq' with hq' | hq'
      · push_cast; nlinarith
      · have := hz hq'
        rw [this, hq']; push_cast; simp
  have hM : ∀ n : Int, 0 ≤ n → n ≤ l.count rows cols → n * (s : Int) % M = n * s := by
    intro n hn0 hn1
    refine Int.emod_eq_of_lt (by positivity) ?_
    have : n * (s : Int) ≤ l.count rows cols * s := by
      have : (0 : Int) ≤ s := by positivity
      nlinarith
    have e : ((l.count rows cols * s : Nat) : Int) = (rows * cols : Nat) := by rw [hlen']
    push_cast at e
    have h2 : ((rows * cols : Nat) : Int) < 2 ^ 63 := by exact_mod_cast hlen
    push_cast at h2
    simp only [M]
    linarith
  have hneg : ∀ n : Int, n < 0 → -n ≤ l.count rows cols → n * (s : Int) % M = n * s + M := by
    intro n hn0 hn1
    have h1 := hM (-n) (by omega) hn1
    have h2 : 0 < (-n) * (s : Int) := by
      have : (0 : Int) < s := by exact_mod_cast hs
      nlinarith
    have h3 : (-n) * (s : Int) < M := by rw [← h1]; exact Int.emod_lt_of_pos _ (by norm_num [M])
    rw [← Int.add_emod_right]
    exact Int.emod_eq_of_lt (by linarith) (by linarith)
  have hlenM : 2 * ((rows * cols : Nat) : Int) < M := by
    have : ((rows * cols : Nat) : Int) < 2 ^ 63 := by exact_mod_cast hlen
    simp only [M]; omega
  cases m with
  | inc =>
    simp only [moveS, hn, one, inside_some, net] at *
    have e : off L rows cols l k + s = off L rows cols l (k + (1 + 0)) := by rw [hoff, hoff]; ring
    rw [e, and_true]
    exact hin _ h h'
  | dec =>
    simp only [moveS, hn, one, inside_some, net] at *
    have e : off L rows cols l k - s = off L rows cols l (k + (-1 + 0)) := by rw [hoff, hoff]; ring
    rw [e, and_true]
    exact hin _ h h'
  | add n =>
    simp only [moveS, hn, delta, inside_some, net] at *
    by_cases hn0 : 0 ≤ n
    · rw [hM n hn0 (by omega)]
      have e : off L rows cols l k + n * s = off L rows cols l (k + (n + 0)) := by rw [hoff, hoff]; ring
      rw [e, hin _ h h']
      simp [hn0]
    · rw [hneg n (by omega) (by omega)]
      simp only [hn0, and_false, iff_false]
      rintro ⟨-, h2⟩
      have e : off L rows cols l k + (n * s + M) = off L rows cols l (k + (n + 0)) + M := by rw [hoff, hoff]; ring
      rw [e] at h2
      have : 0 ≤ off L rows cols l (k + (n + 0)) := by rw [hoff]; positivity
      linarith
  | sub n =>
    simp only [moveS, hn, delta, inside_some, net] at *
    by_cases hn0 : 0 ≤ n
    · rw [hM n hn0 (by omega)]
      have e : off L rows cols l k - n * s = off L rows cols l (k + (-n + 0)) := by rw [hoff, hoff]; ring
      rw [e, hin _ h h']
      simp [hn0]
    · rw [hneg n (by omega) (by omega)]
      simp only [hn0, and_false, iff_false]
      rintro ⟨h2, -⟩
      have e : off L rows cols l k - (n * s + M) = off L rows cols l (k + (-n + 0)) - M := by rw [hoff, hoff]; ring
      rw [e] at h2
      have h3 : off L rows cols l (k + (-n + 0)) ≤ off L rows cols l (l.count rows cols) := by
        rw [hoff, hoff]
        have : (0 : Int) < s := by exact_mod_cast hs
        nlinarith
      have h4 : off L rows cols l (l.count rows cols) < M + 0 := by
        have h5 := hfar
        have h6 : off L rows cols l (l.count rows cols) ≤ 2 * ((rows * cols : Nat) : Int) := by
          rw [hoff]; exact_mod_cast h5
        linarith
      linarith

/-- **C169 fails by the rules of C++:** in a matrix of two rows and three columns stored by rows, `end2(1)` and the last `++` of a loop over the
second column lead behind the storage and one element further; `it + (-1)` adds a number near `2 ^ 64`. -/
theorem C169_strict_fails :
    moveS 6 ((Line.col 1).stride .rowMajor 2 3) (off .rowMajor 2 3 (.col 1) 0) (.add 2) = none ∧
    moveS 6 ((Line.col 1).stride .rowMajor 2 3) (off .rowMajor 2 3 (.col 1) 1) .inc = none ∧
    moveS 6 ((Line.col 1).stride .rowMajor 2 3) (off .rowMajor 2 3 (.col 1) 1) (.add (-1)) = none ∧
    moveS 6 ((Line.col 1).stride .rowMajor 2 3) (off .rowMajor 2 3 (.col 1) 1) (.sub 1) = some 1 := by decide +kernel

/-! ### The plain functions -/

/-- **C169 fails for the plain functions:** the iterator that `bi_matrix_row_iterator_inc` and its companions return for a matrix stored by columns does
not move any more, whatever is done to it. -/
theorem C169_plain_fails (it : Plain) (m : Move) (ms : List Move) : ms.foldl Plain.move (it.move m) = it.move m := by
  have h : ∀ (ms : List Move) (p : Int), ms.foldl Plain.move ⟨p, 0⟩ = ⟨p, 0⟩ := by
    intro ms
    induction ms with
    | nil => intro p; rfl
    | cons m ms ih =>
      intro p
      rw [List.foldl_cons]
      have : (⟨p, 0⟩ : Plain).move m = ⟨p, 0⟩ := by cases m <;> simp [Plain.move]
      rw [this, ih]
  cases m <;> exact h ms _

/-- **C169 fails for `bi_matrix_end`:** it is the end of the storage only for empty matrices without rows and columns and for matrices of
two rows and two columns. -/
theorem C169_end_fails (rows cols : Nat) : plainEnd rows cols = rows * cols ↔ rows = 0 ∧ cols = 0 ∨ rows = 2 ∧ cols = 2 := by
  constructor
  · intro h
    simp only [plainEnd] at h
    rcases rows with _ | _ | _ | rows
    · simp at h; exact .inl ⟨rfl, h⟩
    · omega
    · right; omega
    · rcases cols with _ | _ | cols
      · simp at h
      · simp at h
      · exfalso; nlinarith
  · rintro (⟨rfl, rfl⟩ | ⟨rfl, rfl⟩) <;> rfl

/-- The second column of a matrix of two rows and three columns of four bytes at 4096: there and back again, and a comparison.
The hypotheses of `C169_order` hold, and those of `C169_far_partial`. -/
example :
    (begin 4096 4 .rowMajor 2 3 (.col 1)).moves 4 [.add 2, .sub 1, .inc, .add (-1)] = ⟨4096 + 4 * 4, some 3⟩ ∧
    net [.add 2, .sub 1, .inc, .add (-1)] = 1 ∧
    (Line.col 1).Ok 2 3 ∧ 4096 + 2 * 4 * (2 * 3) < 2 ^ 63 ∧ (Line.col 1).stride .rowMajor 2 3 = some 3 ∧
    ((begin 4096 4 .rowMajor 2 3 (.col 1)).moves 4 [.add 2]).dist 4 (begin 4096 4 .rowMajor 2 3 (.col 1)) = 2 := by
  refine ⟨by decide +kernel, by decide, ?_, by decide, rfl, by decide +kernel⟩
  exact (by decide : 1 < 3)

end Verif.Util.MatIt
