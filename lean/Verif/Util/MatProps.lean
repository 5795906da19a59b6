import Verif.Util.MatModel
set_option linter.unusedSimpArgs false
set_option linter.unusedVariables false

/-!
C77: the cells of a matrix and its row and column iterators.  C78: `fill1` and `fill2`.
-/
namespace Verif.Util

variable {T : Type}

/-- A matrix as its constructor leaves it: one cell per pair of indices. -/
def Mat.Wf (m : Mat T) : Prop := m.data.length = m.rows * m.cols ∧ m.rows * m.cols < sizeMod

theorem wf_new {rows cols : Nat} (v : T) (h : rows * cols < sizeMod) : (Mat.mk' rows cols v).Wf := by
  refine ⟨?_, h⟩
  simp only [Mat.mk', List.length_replicate]
  exact Nat.mod_eq_of_lt h

/-- The position of cell `(a, b)` (zero based) of `rows × cols` cells. -/
def pos (L : Layout) (rows cols a b : Nat) : Nat :=
  match L with
  | .rowMajor => a * cols + b
  | .colMajor => b * rows + a

theorem cell_lt {a b n k : Nat} (ha : a < n) (hb : b < k) : a * k + b < n * k := by
  have : (a + 1) * k ≤ n * k := Nat.mul_le_mul_right k ha
  rw [Nat.add_mul] at this; omega

theorem cell_inj {a b a' b' k : Nat} (hb : b < k) (hb' : b' < k) (h : a * k + b = a' * k + b') : a = a' ∧ b = b' := by
  have h1 : (a * k + b) % k = b := by rw [Nat.add_comm, Nat.add_mul_mod_self_right, Nat.mod_eq_of_lt hb]
  have h2 : (a' * k + b') % k = b' := by rw [Nat.add_comm, Nat.add_mul_mod_self_right, Nat.mod_eq_of_lt hb']
  have e : b = b' := by rw [← h1, ← h2, h]
  subst e
  refine ⟨?_, rfl⟩
  have : a * k = a' * k := by omega
  exact Nat.eq_of_mul_eq_mul_right (by omega) this

theorem pos_lt {L : Layout} {rows cols a b : Nat} (ha : a < rows) (hb : b < cols) : pos L rows cols a b < rows * cols := by
  cases L with
  | rowMajor => exact cell_lt ha hb
  | colMajor => rw [Nat.mul_comm rows cols]; exact cell_lt hb ha

theorem pos_inj {L : Layout} {rows cols a b a' b' : Nat} (ha : a < rows) (hb : b < cols) (ha' : a' < rows) (hb' : b' < cols)
    (h : pos L rows cols a b = pos L rows cols a' b') : a = a' ∧ b = b' := by
  cases L with
  | rowMajor => exact cell_inj hb hb' h
  | colMajor => exact (cell_inj ha ha' h).symm

theorem pos_surj {L : Layout} {rows cols p : Nat} (h : p < rows * cols) :
    ∃ a b, a < rows ∧ b < cols ∧ pos L rows cols a b = p := by
  cases L with
  | rowMajor =>
    have hc : 0 < cols := by
      rcases Nat.eq_zero_or_pos cols with e | e
      · subst e; simp at h
      · exact e
    refine ⟨p / cols, p % cols, (Nat.div_lt_iff_lt_mul hc).mpr h, Nat.mod_lt _ hc, ?_⟩
    simp only [pos]; rw [Nat.mul_comm]; exact Nat.div_add_mod p cols
  | colMajor =>
    have hr : 0 < rows := by
      rcases Nat.eq_zero_or_pos rows with e | e
      · subst e; simp at h
      · exact e
    refine ⟨p % rows, p / rows, Nat.mod_lt _ hr, (Nat.div_lt_iff_lt_mul hr).mpr (by rw [Nat.mul_comm]; exact h), ?_⟩
    simp only [pos]; rw [Nat.mul_comm]; exact Nat.div_add_mod p rows

theorem offset_eq (m : Mat T) (L : Layout) (I J a b : Nat) (ha : a < m.rows) (hb : b < m.cols) :
    m.offset L I J (I + a) (J + b) = .ok (pos L m.rows m.cols a b) := by
  unfold Mat.offset
  rw [if_pos (by omega), if_pos (by omega), show I + a - I = a by omega, show J + b - J = b by omega]
  cases L <;> rfl

/-- **C77 (cells).** The valid index pairs are exactly `[I, I+rows) × [J, J+cols)`; they map one-to-one onto the positions
`0 .. rows*cols-1`, in row-major layout in the order of `(i, j)`, in column-major layout in the order of `(j, i)`. -/
theorem C77_index (m : Mat T) (L : Layout) (I J : Nat) :
    (∀ i j, (∃ p, m.offset L I J i j = .ok p) ↔ (I ≤ i ∧ i < I + m.rows) ∧ (J ≤ j ∧ j < J + m.cols)) ∧
    (∀ i j p, m.offset L I J i j = .ok p → p < m.rows * m.cols) ∧
    (∀ i j i' j' p, m.offset L I J i j = .ok p → m.offset L I J i' j' = .ok p → i = i' ∧ j = j') ∧
    (∀ p, p < m.rows * m.cols → ∃ i j, m.offset L I J i j = .ok p) ∧
    (∀ i j i' j' p p', m.offset L I J i j = .ok p → m.offset L I J i' j' = .ok p' →
      (p < p' ↔ match L with
        | .rowMajor => i < i' ∨ (i = i' ∧ j < j')
        | .colMajor => j < j' ∨ (j = j' ∧ i < i'))) := by
  have valid : ∀ i j, (∃ p, m.offset L I J i j = .ok p) ↔ (I ≤ i ∧ i < I + m.rows) ∧ (J ≤ j ∧ j < J + m.cols) := by
    intro i j
    unfold Mat.offset
    constructor
    · rintro ⟨p, h⟩
      split at h
      · split at h
        · exact ⟨by assumption, by assumption⟩
        · simp at h
      · simp at h
    · rintro ⟨h1, h2⟩
      rw [if_pos h1, if_pos h2]
      cases L <;> exact ⟨_, rfl⟩
  have split' : ∀ i j p, m.offset L I J i j = .ok p → ∃ a b, i = I + a ∧ j = J + b ∧ a < m.rows ∧ b < m.cols ∧ p = pos L m.rows m.cols a b := by
    intro i j p h
    obtain ⟨h1, h2⟩ := (valid i j).mp ⟨p, h⟩
    refine ⟨i - I, j - J, by omega, by omega, by omega, by omega, ?_⟩
    have := offset_eq m L I J (i - I) (j - J) (by omega) (by omega)
    rw [show I + (i - I) = i by omega, show J + (j - J) = j by omega, h] at this
    exact Out.ok.inj this
  refine ⟨valid, ?_, ?_, ?_, ?_⟩
  · intro i j p h
    obtain ⟨a, b, _, _, ha, hb, rfl⟩ := split' i j p h
    exact pos_lt ha hb
  · intro i j i' j' p h h'
    obtain ⟨a, b, e1, e2, ha, hb, e3⟩ := split' i j p h
    obtain ⟨a', b', e1', e2', ha', hb', e3'⟩ := split' i' j' p h'
    obtain ⟨g1, g2⟩ := pos_inj ha hb ha' hb' (e3.symm.trans e3')
    omega
  · intro p hp
    obtain ⟨a, b, ha, hb, e⟩ := pos_surj (L := L) hp
    exact ⟨I + a, J + b, by rw [offset_eq m L I J a b ha hb, e]⟩
  · intro i j i' j' p p' h h'
    obtain ⟨a, b, rfl, rfl, ha, hb, rfl⟩ := split' i j p h
    obtain ⟨a', b', rfl, rfl, ha', hb', rfl⟩ := split' i' j' p' h'
    have key : ∀ (x y x' y' k : Nat), y < k → y' < k → (x * k + y < x' * k + y' ↔ x < x' ∨ (x = x' ∧ y < y')) := by
      intro x y x' y' k hy hy'
      rcases Nat.lt_trichotomy x x' with g | g | g
      · have : x * k + y < x' * k := cell_lt g hy
        constructor
        · intro _; exact Or.inl g
        · intro _; omega
      · subst g; omega
      · have : x' * k + y' < x * k := cell_lt g hy'
        omega
    cases L with
    | rowMajor =>
      simp only [pos]
      rw [key a b a' b' m.cols hb hb']; omega
    | colMajor =>
      simp only [pos]
      rw [key b a b' a' m.rows ha ha']; omega

theorem at_eq {m : Mat T} (L : Layout) (I J : Nat) {a b : Nat} (ha : a < m.rows) (hb : b < m.cols) :
    m.at L I J (I + a) (J + b) = m.read (pos L m.rows m.cols a b) := by
  simp only [Mat.at, offset_eq m L I J a b ha hb]

/-- **C77 (access).** Every valid pair of indices names a cell of the storage. -/
theorem C77_at_defined (m : Mat T) (hw : m.Wf) (L : Layout) (I J i j : Nat) (hi : I ≤ i ∧ i < I + m.rows)
    (hj : J ≤ j ∧ j < J + m.cols) : ∃ v, m.at L I J i j = .ok v := by
  have := at_eq (m := m) L I J (a := i - I) (b := j - J) (by omega) (by omega)
  rw [show I + (i - I) = i by omega, show J + (j - J) = j by omega] at this
  rw [this]
  have hp : pos L m.rows m.cols (i - I) (j - J) < m.data.length := by
    rw [hw.1]; exact pos_lt (by omega) (by omega)
  refine ⟨m.data[pos L m.rows m.cols (i - I) (j - J)], ?_⟩
  simp only [Mat.read, List.getElem?_eq_getElem hp]

/-! ### Iterators -/

theorem walk_spec (m : Mat T) (stride : Nat) (hs : 0 < stride) : ∀ (n p : Nat), (∀ k, k < n → p + k * stride < m.data.length) →
    ∃ vs, m.walk p stride (p + n * stride) = .ok vs ∧ vs.length = n ∧ ∀ k, k < n → vs[k]? = m.data[p + k * stride]?
  | 0, p, _ => ⟨[], by unfold Mat.walk; rw [if_pos (by simp)], rfl, fun k hk => absurd hk (Nat.not_lt_zero k)⟩
  | n + 1, p, h => by
    have hp : p < m.data.length := by have := h 0 (by omega); simpa using this
    obtain ⟨vs, h1, h2, h3⟩ := walk_spec m stride hs n (p + stride) (fun k hk => by
      have := h (k + 1) (by omega); rw [Nat.add_mul] at this; omega)
    have e : p + (n + 1) * stride = p + stride + n * stride := by rw [Nat.add_mul]; omega
    have hne : p ≠ p + (n + 1) * stride := by
      rw [e]; omega
    refine ⟨m.data[p] :: vs, ?_, by simp [h2], fun k hk => ?_⟩
    · unfold Mat.walk
      rw [if_neg hne, dif_pos ⟨hp, hs⟩, e, h1]
    · cases k with
      | zero => simp [List.getElem?_eq_getElem hp]
      | succ k =>
        rw [List.getElem?_cons_succ, h3 k (by omega)]
        congr 1; rw [Nat.add_mul]; omega

/-- Reads as outcomes. -/
theorem read_of_getElem? {m : Mat T} {p : Nat} {v : T} (h : m.data[p]? = some v) : m.read p = .ok v := by
  simp only [Mat.read, h]

/-- **C77 (rows).** Iterating over row `i` visits exactly `at(i, J), at(i, J+1), …, at(i, J+cols-1)`, in that order. -/
theorem C77_row (m : Mat T) (hw : m.Wf) (L : Layout) (I J i : Nat) (hi : I ≤ i ∧ i < I + m.rows) :
    ∃ vs, m.visit (m.begin1 L I i) (m.end1 L I i) = .ok vs ∧ vs.length = m.cols ∧
      ∀ k (hk : k < vs.length), m.at L I J i (J + k) = .ok vs[k] := by
  have ha : i - I < m.rows := by omega
  have atE : ∀ k, k < m.cols → m.at L I J i (J + k) = m.read (pos L m.rows m.cols (i - I) k) := by
    intro k hk
    have := at_eq (m := m) L I J (a := i - I) (b := k) ha hk
    rwa [show I + (i - I) = i by omega] at this
  have fin : ∀ (p stride : Nat), 0 < stride → (∀ k, pos L m.rows m.cols (i - I) k = p + k * stride) →
      ∃ vs, m.walk p stride (p + m.cols * stride) = .ok vs ∧ vs.length = m.cols ∧
      ∀ k (hk : k < vs.length), m.at L I J i (J + k) = .ok vs[k] := by
    intro p stride hs hpos
    obtain ⟨vs, h1, h2, h3⟩ := walk_spec m stride hs m.cols p (fun k hk => by
      rw [← hpos k, hw.1]; exact pos_lt ha hk)
    refine ⟨vs, h1, h2, fun k hk => ?_⟩
    rw [atE k (by omega), hpos k]
    apply read_of_getElem?
    rw [← h3 k (by omega), List.getElem?_eq_getElem hk]
  cases L with
  | rowMajor =>
    simp only [Mat.end1, Mat.begin1, hi, and_self, if_true, Mat.visit, It.add]
    exact fin _ 1 (by decide) (fun k => by simp only [pos]; omega)
  | colMajor =>
    simp only [Mat.end1, Mat.begin1, hi, and_self, if_true, Mat.visit, It.add]
    exact fin _ m.rows (by omega) (fun k => by simp only [pos]; omega)

/-- **C77 (columns).** Iterating over column `j` visits exactly `at(I, j), at(I+1, j), …, at(I+rows-1, j)`, in that order. -/
theorem C77_column (m : Mat T) (hw : m.Wf) (L : Layout) (I J j : Nat) (hj : J ≤ j ∧ j < J + m.cols) :
    ∃ vs, m.visit (m.begin2 L J j) (m.end2 L J j) = .ok vs ∧ vs.length = m.rows ∧
      ∀ k (hk : k < vs.length), m.at L I J (I + k) j = .ok vs[k] := by
  have hb : j - J < m.cols := by omega
  have atE : ∀ k, k < m.rows → m.at L I J (I + k) j = m.read (pos L m.rows m.cols k (j - J)) := by
    intro k hk
    have := at_eq (m := m) L I J (a := k) (b := j - J) hk hb
    rwa [show J + (j - J) = j by omega] at this
  have fin : ∀ (p stride : Nat), 0 < stride → (∀ k, pos L m.rows m.cols k (j - J) = p + k * stride) →
      ∃ vs, m.walk p stride (p + m.rows * stride) = .ok vs ∧ vs.length = m.rows ∧
      ∀ k (hk : k < vs.length), m.at L I J (I + k) j = .ok vs[k] := by
    intro p stride hs hpos
    obtain ⟨vs, h1, h2, h3⟩ := walk_spec m stride hs m.rows p (fun k hk => by
      rw [← hpos k, hw.1]; exact pos_lt hk hb)
    refine ⟨vs, h1, h2, fun k hk => ?_⟩
    rw [atE k (by omega), hpos k]
    apply read_of_getElem?
    rw [← h3 k (by omega), List.getElem?_eq_getElem hk]
  cases L with
  | rowMajor =>
    simp only [Mat.end2, Mat.begin2, hj, and_self, if_true, Mat.visit, It.add]
    exact fin _ m.cols (by omega) (fun k => by simp only [pos]; omega)
  | colMajor =>
    simp only [Mat.end2, Mat.begin2, hj, and_self, if_true, Mat.visit, It.add]
    exact fin _ 1 (by decide) (fun k => by simp only [pos]; omega)

/-- **C77 (whole).** Iterating over the whole matrix visits every cell once. -/
theorem C77_all (m : Mat T) (hw : m.Wf) : m.visit (.ok Mat.begin) (.ok m.end) = .ok m.data := by
  obtain ⟨vs, h1, h2, h3⟩ := walk_spec m 1 (by decide) (m.rows * m.cols) 0 (fun k hk => by rw [hw.1]; omega)
  simp only [Mat.visit, Mat.begin, Mat.end, Nat.mod_eq_of_lt hw.2]
  rw [show 0 + m.rows * m.cols * 1 = m.rows * m.cols by omega] at h1
  rw [h1]
  congr 1
  apply List.ext_getElem?
  intro k
  rcases Nat.lt_or_ge k (m.rows * m.cols) with g | g
  · rw [h3 k g]; congr 1; omega
  · rw [List.getElem?_eq_none (by omega), List.getElem?_eq_none (by rw [hw.1]; omega)]

/-- **C77 (distance).** Iterators of a valid row or column behave as random access iterators: the distance of `begin + n` and
`begin + k` is `n - k`; in particular a row's end is `cols` after its begin. -/
theorem C77_distance (m : Mat T) (L : Layout) (I i : Nat) (a : It)
    (h : m.begin1 L I i = .ok a ∨ m.begin2 L I i = .ok a) (n k : Nat) : (a.add n).sub (a.add k) = (n : Int) - k := by
  have hs : 0 < a.stride := by
    rcases h with h | h
    · unfold Mat.begin1 at h
      split at h
      · cases L <;> simp at h <;> subst h <;> dsimp only <;> omega
      · simp at h
    · unfold Mat.begin2 at h
      split at h
      · cases L <;> simp at h <;> subst h <;> dsimp only <;> omega
      · simp at h
  have e : ((a.add n).p : Int) - (a.add k).p = ((n : Int) - k) * a.stride := by
    simp only [It.add]
    rw [Int.natCast_add, Int.natCast_add, Int.natCast_mul, Int.natCast_mul, Int.sub_mul]; omega
  unfold It.sub
  rw [e]
  exact Int.mul_tdiv_cancel _ (by omega)

/-- **C77 fails when the size overflows.** A matrix of `2^32 × 2^32` cells passes the checks of the constructor
(`rows, columns <= max_size`), but the product wraps to zero: no cell is allocated, and every valid access is out of bounds. -/
theorem C77_overflow_fails (v : T) (L : Layout) :
    2 ^ 32 ≤ (2 ^ 64 - 1) / 2 ∧ (Mat.mk' (2 ^ 32) (2 ^ 32) v).data = [] ∧ (Mat.mk' (2 ^ 32) (2 ^ 32) v).at L 0 0 0 0 = .ub := by
  refine ⟨by decide, ?_, ?_⟩
  · simp [Mat.mk', sizeMod]
  · cases L <;> simp [Mat.at, Mat.offset, Mat.read, Mat.mk', sizeMod]

/-! ### Filling -/

/-- `m'` is `m` with exactly the cells selected by `sel` set to `v`. -/
def Filled (L : Layout) (I J : Nat) (m m' : Mat T) (sel : Nat → Nat → Bool) (v : T) : Prop :=
  m'.rows = m.rows ∧ m'.cols = m.cols ∧ m'.data.length = m.data.length ∧
  ∀ i j, (I ≤ i ∧ i < I + m.rows) → (J ≤ j ∧ j < J + m.cols) →
    m'.at L I J i j = if sel i j then .ok v else m.at L I J i j

theorem strideFill_spec (v : T) (stride : Nat) : ∀ (n p : Nat) (d : List T), (∀ k, k < n → p + k * stride < d.length) →
    ∃ d', strideFill v stride d p n = .ok d' ∧ d'.length = d.length ∧
      (∀ k, k < n → d'[p + k * stride]? = some v) ∧ ∀ q : Nat, (∀ k, k < n → q ≠ p + k * stride) → d'[q]? = d[q]?
  | 0, p, d, _ => ⟨d, rfl, rfl, fun k hk => absurd hk (Nat.not_lt_zero k), fun _ _ => rfl⟩
  | n + 1, p, d, h => by
    have hp : p < d.length := by have := h 0 (by omega); simpa using this
    obtain ⟨d', h1, h2, h3, h4⟩ := strideFill_spec v stride n (p + stride) (d.set p v) (fun k hk => by
      have := h (k + 1) (by omega); rw [Nat.add_mul] at this; simp only [List.length_set]; omega)
    have sh : ∀ k, p + (k + 1) * stride = p + stride + k * stride := fun k => by rw [Nat.add_mul]; omega
    refine ⟨d', by simp only [strideFill, hp, if_true, h1], by simp [h2], fun k hk => ?_, fun q hq => ?_⟩
    · cases k with
      | zero =>
        simp only [Nat.zero_mul, Nat.add_zero]
        by_cases e : ∃ k, k < n ∧ p = p + stride + k * stride
        · obtain ⟨k, hk, e⟩ := e
          have := h3 k hk; rw [← e] at this; exact this
        · rw [h4 p (fun k hk g => e ⟨k, hk, g⟩)]; simp [hp]
      | succ k => rw [sh k]; exact h3 k (by omega)
    · rw [h4 q (fun k hk => by rw [← sh k]; exact hq (k + 1) (by omega))]
      have : p ≠ q := fun e => hq 0 (by omega) (by omega)
      exact List.getElem?_set_ne this

/-- The contiguous loop is the strided loop with stride one. -/
theorem runFill_eq (v : T) : ∀ (n p : Nat) (d : List T), runFill v d p (p + n) = strideFill v 1 d p n
  | 0, p, d => by unfold runFill; rw [if_pos (by simp)]; rfl
  | n + 1, p, d => by
    unfold runFill
    rw [if_neg (by omega)]
    simp only [strideFill]
    by_cases h : p < d.length
    · rw [dif_pos h, if_pos h, show p + (n + 1) = p + 1 + n by omega, runFill_eq v n (p + 1)]
    · rw [dif_neg h, if_neg h]

theorem strideFill_ub (v : T) (stride : Nat) : ∀ (n p : Nat) (d : List T), (∃ k, k < n ∧ d.length ≤ p + k * stride) →
    strideFill v stride d p n = .ub
  | 0, p, d, ⟨k, hk, _⟩ => absurd hk (Nat.not_lt_zero k)
  | n + 1, p, d, ⟨k, hk, hl⟩ => by
    simp only [strideFill]
    by_cases h : p < d.length
    · rw [if_pos h]
      cases k with
      | zero => omega
      | succ k => exact strideFill_ub v stride n _ _ ⟨k, by omega, by rw [Nat.add_mul] at hl; simp only [List.length_set]; omega⟩
    · rw [if_neg h]

/-- A strided fill of the right cells. -/
theorem filled_of (m : Mat T) (hw : m.Wf) (L : Layout) (I J : Nat) (v : T) (sel : Nat → Nat → Bool) (p stride n : Nat)
    (hin : ∀ k, k < n → p + k * stride < m.rows * m.cols)
    (hsel : ∀ a b, a < m.rows → b < m.cols → (sel (I + a) (J + b) = true ↔ ∃ k, k < n ∧ pos L m.rows m.cols a b = p + k * stride)) :
    ∃ m', m.with (strideFill v stride m.data p n) = .ok m' ∧ Filled L I J m m' sel v := by
  obtain ⟨d', h1, h2, h3, h4⟩ := strideFill_spec v stride n p m.data (fun k hk => by rw [hw.1]; exact hin k hk)
  refine ⟨{ m with data := d' }, by rw [h1]; rfl, rfl, rfl, h2, fun i j hi hj => ?_⟩
  obtain ⟨a, rfl⟩ : ∃ a, i = I + a := ⟨i - I, by omega⟩
  obtain ⟨b, rfl⟩ : ∃ b, j = J + b := ⟨j - J, by omega⟩
  have ha : a < m.rows := by omega
  have hb : b < m.cols := by omega
  rw [at_eq (m := { m with data := d' }) L I J ha hb, at_eq (m := m) L I J ha hb]
  dsimp only
  by_cases e : sel (I + a) (J + b) = true
  · rw [if_pos e]
    obtain ⟨k, hk, g⟩ := (hsel a b ha hb).mp e
    rw [g]
    exact read_of_getElem? (h3 k hk)
  · rw [if_neg e]
    simp only [Mat.read]
    rw [h4 _ (fun k hk g => e ((hsel a b ha hb).mpr ⟨k, hk, g⟩))]

/-- **C78 (fill1).** `fill1(i, v)` accepts exactly the rows of the matrix, and sets exactly the cells of the row to `v`. -/
theorem C78_fill1 (m : Mat T) (hw : m.Wf) (L : Layout) (I J i : Nat) (v : T) :
    ((I ≤ i ∧ i < I + m.rows) → ∃ m', m.fill1 L I i v = .ok m' ∧ Filled L I J m m' (fun i' _ => i' == i) v) ∧
    (¬ (I ≤ i ∧ i < I + m.rows) → m.fill1 L I i v = .abort) := by
  refine ⟨fun h => ?_, fun h => by unfold Mat.fill1; rw [if_neg h]⟩
  unfold Mat.fill1
  rw [if_pos h]
  obtain ⟨a0, rfl⟩ : ∃ a, i = I + a := ⟨i - I, by omega⟩
  have ha0 : a0 < m.rows := by omega
  rw [show I + a0 - I = a0 by omega]
  cases L with
  | rowMajor =>
    simp only []
    rw [runFill_eq]
    refine filled_of m hw .rowMajor I J v _ _ 1 m.cols (fun k hk => ?_) (fun a b ha hb => ?_)
    · have := cell_lt ha0 hk; omega
    · simp only [beq_iff_eq, pos]
      constructor
      · intro e; exact ⟨b, hb, by rw [show a = a0 by omega]; omega⟩
      · rintro ⟨k, hk, e⟩
        have := (cell_inj hb hk (show a * m.cols + b = a0 * m.cols + k by omega)).1
        omega
  | colMajor =>
    simp only []
    refine filled_of m hw .colMajor I J v _ _ m.rows m.cols (fun k hk => ?_) (fun a b ha hb => ?_)
    · have := cell_lt hk ha0; rw [Nat.mul_comm m.rows m.cols]; omega
    · simp only [beq_iff_eq, pos]
      constructor
      · intro e; exact ⟨b, hb, by rw [show a = a0 by omega]; omega⟩
      · rintro ⟨k, hk, e⟩
        have := (cell_inj ha ha0 (show b * m.rows + a = k * m.rows + a0 by omega)).2
        omega

/-- **C78 (fill2, partial).** For a valid column whose number does not exceed the number of rows either, `fill2(j, v)` sets exactly
the cells of the column to `v`.  Missing: the other valid columns, which are rejected (`C78_fill2_exact`, `C78_fails`). -/
theorem C78_fill2_partial (m : Mat T) (hw : m.Wf) (L : Layout) (I J j : Nat) (v : T) (h : J ≤ j ∧ j < J + m.cols)
    (hr : j < J + m.rows) : ∃ m', m.fill2 L J j v = .ok m' ∧ Filled L I J m m' (fun _ j' => j' == j) v := by
  unfold Mat.fill2
  rw [if_pos ⟨h.1, hr⟩]
  obtain ⟨b0, rfl⟩ : ∃ b, j = J + b := ⟨j - J, by omega⟩
  have hb0 : b0 < m.cols := by omega
  rw [show J + b0 - J = b0 by omega]
  cases L with
  | rowMajor =>
    simp only []
    refine filled_of m hw .rowMajor I J v _ _ m.cols m.rows (fun k hk => ?_) (fun a b ha hb => ?_)
    · have := cell_lt hk hb0; omega
    · simp only [beq_iff_eq, pos]
      constructor
      · intro e; exact ⟨a, ha, by rw [show b = b0 by omega]; omega⟩
      · rintro ⟨k, hk, e⟩
        have := (cell_inj hb hb0 (show a * m.cols + b = k * m.cols + b0 by omega)).2
        omega
  | colMajor =>
    simp only []
    rw [runFill_eq]
    refine filled_of m hw .colMajor I J v _ _ 1 m.rows (fun k hk => ?_) (fun a b ha hb => ?_)
    · have := cell_lt hb0 hk; rw [Nat.mul_comm m.rows m.cols]; omega
    · simp only [beq_iff_eq, pos]
      constructor
      · intro e; exact ⟨a, ha, by rw [show b = b0 by omega]; omega⟩
      · rintro ⟨k, hk, e⟩
        have := (cell_inj ha hk (show b * m.rows + a = b0 * m.rows + k by omega)).1
        omega

/-- **C78 (fill2, exactly).** `fill2` accepts the column numbers below the number of *rows*: valid columns from there on are
rejected, and invalid columns below are written outside the storage. -/
theorem C78_fill2_exact (m : Mat T) (hw : m.Wf) (L : Layout) (J j : Nat) (v : T) (hj : J ≤ j) :
    (J + m.rows ≤ j → m.fill2 L J j v = .abort) ∧
    (j < J + m.rows → J + m.cols ≤ j → m.fill2 L J j v = .ub) := by
  refine ⟨fun h => by unfold Mat.fill2; rw [if_neg (by omega)], fun h1 h2 => ?_⟩
  unfold Mat.fill2
  rw [if_pos ⟨hj, h1⟩]
  cases L with
  | rowMajor =>
    simp only []
    rw [strideFill_ub v _ _ _ _ ⟨m.rows - 1, by omega, ?_⟩]
    · rfl
    · rw [hw.1]
      have : m.rows * m.cols = (m.rows - 1) * m.cols + m.cols := by
        have e : m.rows = (m.rows - 1) + 1 := by omega
        conv => lhs; rw [e, Nat.add_mul, Nat.one_mul]
      omega
  | colMajor =>
    simp only []
    rw [runFill_eq, strideFill_ub v _ _ _ _ ⟨0, by omega, ?_⟩]
    · rfl
    · rw [hw.1, Nat.mul_comm m.rows m.cols]
      have := Nat.mul_le_mul_right m.rows (show m.cols ≤ j - J by omega)
      omega

/-- **C78 fails for `fill2`.** In a matrix of one row and two columns the second column is rejected, in both layouts; in a matrix
of two rows and one column the column number one past the last is accepted and written outside the storage. -/
theorem C78_fails (v : T) (L : Layout) (J : Nat) :
    (Mat.mk' 1 2 v).Wf ∧ (Mat.mk' 1 2 v).fill2 L J (J + 1) v = .abort ∧
    (Mat.mk' 2 1 v).Wf ∧ (Mat.mk' 2 1 v).fill2 L J (J + 1) v = .ub := by
  have w1 : (Mat.mk' 1 2 v).Wf := wf_new v (by decide)
  have w2 : (Mat.mk' 2 1 v).Wf := wf_new v (by decide)
  refine ⟨w1, (C78_fill2_exact _ w1 L J _ v (by omega)).1 (by simp [Mat.mk']), w2,
    (C78_fill2_exact _ w2 L J _ v (by omega)).2 (by simp [Mat.mk']) (by simp [Mat.mk'])⟩

/-- **C78 (fill).** `fill(v)` sets every cell. -/
theorem C78_fill (m : Mat T) (hw : m.Wf) (L : Layout) (I J : Nat) (v : T) :
    ∃ m', m.fill v = .ok m' ∧ Filled L I J m m' (fun _ _ => true) v := by
  unfold Mat.fill
  rw [Nat.mod_eq_of_lt hw.2]
  have := runFill_eq v (m.rows * m.cols) 0 m.data
  rw [Nat.zero_add] at this
  rw [this]
  refine filled_of m hw L I J v _ 0 1 _ (fun k hk => by omega) (fun a b ha hb => ?_)
  simp only [true_iff]
  exact ⟨_, pos_lt (L := L) ha hb, by omega⟩

/-- A 2 × 3 matrix with bases 1 and 2, row-major: its rows and columns. -/
example : let m : Mat Nat := ⟨2, 3, [11, 12, 13, 21, 22, 23]⟩
    m.Wf ∧ m.at .rowMajor 1 2 2 3 = .ok 22 ∧ m.begin2 .rowMajor 2 3 = .ok ⟨1, 3⟩ ∧ m.end2 .rowMajor 2 3 = .ok ⟨7, 3⟩ := by
  refine ⟨⟨rfl, by decide⟩, rfl, rfl, rfl⟩

end Verif.Util
