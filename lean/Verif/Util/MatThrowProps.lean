import Verif.Util.MatThrowLemmas

/-!
C140, matrices: calls of `BiMatrix` that are left by an exception.
-/
set_option linter.unusedSimpArgs false
set_option linter.unusedVariables false
namespace Verif.Util

variable {T : Type}

/-- **C140 for matrices.** In every history of legal calls in which any number of constructions of matrices fail for want of memory and any
number of assignments of elements throw, in `at(i, j) = v` and in `fill`, `fill1` and `fill2`, the failed constructions and the failed
`at(i, j) = v` have no effect, the other calls have assigned exactly the cells before the one that threw, every matrix has exactly the cells that
follow from that, and when every matrix has been destroyed, nothing is allocated.

Missing: constructors of elements that throw, and copy assignment, see below. -/
theorem C140_matrix_partial (L : Layout) (I J : Nat) (os : List (MTOp T)) (hl : GLegalsT L I J [] os) :
    ∃ m', (MMem.init : MMem T).runT L I J os = some m' ∧
      (∀ (r : Nat) (g : Grid T), gr (GWantsT L I J [] os) r = some g → GObserved L I J m' r g) ∧
      ((∀ r : Nat, gr (GWantsT L I J [] os) r = none) → ∀ b : Nat, ∀ l, m'.blocks[b]? ≠ some (some l)) := by
  obtain ⟨m', f', h1, h⟩ := mrunT_holds L I J os _ _ [] (holds_init L) hl
  refine ⟨m', h1, fun r g hg => gobserved h hg, fun hz b l hb => ?_⟩
  obtain ⟨r, v, hv, _⟩ := h.reps.owned b l (by simp only [Mem.cells, MMem.arrs, hb, Option.join_some])
  have hrow := h.rows r
  rw [hz r] at hrow
  have hn : ar f' r = none := hrow
  rw [h.reps.dead r (by rw [sq_full, hn]; rfl)] at hv
  cases hv

/-- What a copy assignment finds: the source is intact after the target has been released. -/
theorem assign_start {L : Layout} {m : MMem T} {f : Arrs T} {s : Grids T} (h : Holds L m f s) {q r : Nat} {d g : Grid T} (hqr : q ≠ r)
    (hy : gr s q = some d) (hx : gr s r = some g) :
    ∃ x y m1 c, m.mx q = some y ∧ m.mx r = some x ∧ m.mfree y = some m1 ∧ m1.mxs = m.mxs ∧ Flat L g c ∧ x.size1 = g.rows ∧ x.size2 = g.cols ∧
      x.size = c.length ∧ m1.mem.cells x.data = some (form c c.length) ∧ (x.data = none ↔ c.length = 0) ∧ readN (form c c.length) 0 x.size = some c := by
  obtain ⟨c, x, h1, h2, h3, h4, h5⟩ := h.live hx
  obtain ⟨c', y, k1, k2, k3, k4, k5⟩ := h.live hy
  obtain ⟨v, hv, R⟩ := h.reps.rep r (c.length, c) (by rw [sq_full, h1]; rfl)
  obtain ⟨w, hw, Rw⟩ := h.reps.rep q (c'.length, c') (by rw [sq_full, k1]; rfl)
  obtain ⟨a1, f1, f2, f3, f4, f5, f6⟩ := free_spec Rw
  have R1 : Rep a1 v (c.length, c) := R.congr (f4 _ (fun b e1 e2 => hqr (h.reps.sep q r w v b hw hv e1 e2)))
  rw [arrs_vec, h3] at hv
  rw [arrs_vec, k3] at hw
  cases hv; cases hw
  obtain ⟨p1, p2⟩ := afree_arrs m y
  have p3 : m.arrs.afree y.arr = some a1 := f1
  rw [p3] at p1
  obtain ⟨m1, g1, rfl⟩ := Option.map_eq_some_iff.mp p1
  have hs : x.size = c.length := R.size
  have hm : m1.arrs.cells x.arr.data = some (form c c.length) := R1.mem
  have he := elems_spec R1
  simp only [Mem.elems, hm] at he
  exact ⟨x, y, m1, c, k3, h3, g1, p2 m1 g1, h2, h4, h5, hs, by rw [← arrs_cells]; exact hm, R.null, he⟩

/-- **C140 fails for copy assignment of matrices, for want of memory.** Afterwards the target has the cells of the source as its own: if it
is destroyed, no cell of the source can be read, and the source cannot be destroyed. -/
theorem C140_matrix_share_fails (L : Layout) (I J : Nat) (os : List (MTOp T)) (hl : GLegalsT L I J [] os) (q r : Nat) (d g : Grid T)
    (hqr : q ≠ r) (hy : gr (GWantsT L I J [] os) q = some d) (hx : gr (GWantsT L I J [] os) r = some g) (h1 : 0 < g.rows) (h2 : 0 < g.cols) :
    ∃ m m', (MMem.init : MMem T).runT L I J os = some m ∧ m.stepT L I J (.copyAssign q r none) = some m' ∧
      (∃ x, m'.mx q = some x ∧ m'.mx r = some x ∧ x.data ≠ none) ∧
      ∃ m'', m'.step L I J (.destroy q) = some m'' ∧ (∀ i j, m''.at L I J r i j = none) ∧ m''.step L I J (.destroy r) = none := by
  obtain ⟨m, f, e0, h⟩ := mrunT_holds L I J os _ _ [] (holds_init L) hl
  obtain ⟨x, y, m1, c, k1, k2, k3, k4, k5, k6, k7, k8, k9, k10, k11⟩ := assign_start h hqr hy hx
  have hc : c.length ≠ 0 := by rw [k5.len]; exact Nat.mul_ne_zero (by omega) (by omega)
  have hz : x.size ≠ 0 := by omega
  obtain ⟨b, hb⟩ : ∃ b, x.data = some b := by
    rcases e : x.data with _ | b
    · exact absurd (k10.mp e) hc
    · exact ⟨b, rfl⟩
  have hq : q < m1.mxs.length := by rw [k4]; exact mx_lt k1
  have hr : m1.mx r = some x := by unfold MMem.mx; rw [k4]; exact k2
  have q1 : (MMem.mx { m1 with mxs := m1.mxs.set q (some x) } q) = some x := by
    unfold MMem.mx; rw [mxs_set, if_pos ⟨rfl, hq⟩]
  have r1 : (MMem.mx { m1 with mxs := m1.mxs.set q (some x) } r) = some x := by
    unfold MMem.mx; rw [mxs_set, if_neg (fun e => hqr e.1)]; exact hr
  refine ⟨m, { m1 with mxs := m1.mxs.set q (some x) }, e0, ?_, ⟨x, q1, r1, by rw [hb]; simp⟩, ?_⟩
  · simp only [MMem.stepT, hqr, if_false, k1, k2, Option.bind_some, k3, MMem.mcopyPart, hz, Option.map_some]
  · have hd := destroy_form (Nat.le_refl c.length)
    have k9' : m1.mem.cells (some b) = some (form c c.length) := by rw [← hb]; exact k9
    have hblk : m1.blocks[b]? = some (some (form c c.length)) := by
      simp only [Mem.cells, MMem.mem] at k9'
      exact Option.join_eq_some_iff.mp k9'
    have hlt : b < m1.blocks.length := by
      rcases Nat.lt_or_ge b m1.blocks.length with g | g
      · exact g
      · rw [List.getElem?_eq_none g] at hblk; cases hblk
    rw [← k8] at hd
    obtain ⟨l', hl'⟩ : ∃ l', destroyN (form c c.length) 0 x.size = some l' := ⟨_, by rw [k8] at hd ⊢; exact hd⟩
    refine ⟨⟨m1.blocks.set b none, (m1.mxs.set q (some x)).set q none, m1.gone ++ [l']⟩, ?_, ?_, ?_⟩
    · have e : (MMem.mem { m1 with mxs := m1.mxs.set q (some x) }).cells (some b) = some (form c c.length) := k9'
      simp only [MMem.step, q1, Option.bind_some, MMem.mfree, Mem.afree, arr, hb, e, hl', Option.map_some]
      rfl
    · intro i j
      have r2 : (MMem.mx (⟨m1.blocks.set b none, (m1.mxs.set q (some x)).set q none, m1.gone ++ [l']⟩ : MMem T) r) = some x := by
        unfold MMem.mx; rw [mxs_set, if_neg (fun e => hqr e.1)]; exact r1
      simp only [MMem.at, r2, Option.bind_some, hb, Mem.cells, MMem.mem, List.getElem?_set_self hlt, Option.join_some, Option.bind_none]
      cases x.index L I J i j <;> rfl
    · have r2 : (MMem.mx (⟨m1.blocks.set b none, (m1.mxs.set q (some x)).set q none, m1.gone ++ [l']⟩ : MMem T) r) = some x := by
        unfold MMem.mx; rw [mxs_set, if_neg (fun e => hqr e.1)]; exact r1
      simp only [MMem.step, r2, Option.bind_some, MMem.mfree, Mem.afree, arr, hb, Mem.cells, MMem.mem, List.getElem?_set_self hlt, Option.join_some,
        Option.map_none]

/-- **C140 fails for copy assignment of matrices whose elements throw.** If the copy constructor of the element `j` throws, the target has lost its
cells; it counts the rows and columns of the source, but only the first `j` cells exist, and it cannot be destroyed. -/
theorem C140_matrix_assign_fails (L : Layout) (I J : Nat) (os : List (MTOp T)) (hl : GLegalsT L I J [] os) (q r : Nat) (d g : Grid T) (j : Nat)
    (hqr : q ≠ r) (hy : gr (GWantsT L I J [] os) q = some d) (hx : gr (GWantsT L I J [] os) r = some g) (hj : j < g.rows * g.cols) :
    ∃ m m', (MMem.init : MMem T).runT L I J os = some m ∧ m.stepT L I J (.copyAssign q r (some j)) = some m' ∧
      (∃ x, m'.mx q = some x ∧ x.size1 = g.rows ∧ x.size2 = g.cols) ∧
      (∀ a b, a < g.rows → b < g.cols → m'.at L I J q (I + a) (J + b) = if early L g.rows g.cols j a b then some (g.cell a b) else none) ∧
      m'.step L I J (.destroy q) = none := by
  obtain ⟨m, f, e0, h⟩ := mrunT_holds L I J os _ _ [] (holds_init L) hl
  obtain ⟨x, y, m1, c, k1, k2, k3, k4, k5, k6, k7, k8, k9, k10, k11⟩ := assign_start h hqr hy hx
  have hjc : j < c.length := by rw [k5.len]; exact hj
  have tk : (c.take j).length = j := by rw [List.length_take]; omega
  obtain ⟨z, z1, F⟩ := allocWith_fresh m1.mem (cap := c.length) (vs := c.take j) (by omega)
  have hm : z.2.cells z.1.data = some (form (c.take j) c.length) := F.rep.mem
  have hq : q < m1.mxs.length := by rw [k4]; exact mx_lt k1
  have q1 : (MMem.mx { m1.back z.2 with mxs := m1.mxs.set q (some ⟨x.size1, x.size2, z.1.data⟩) } q) = some ⟨x.size1, x.size2, z.1.data⟩ := by
    unfold MMem.mx; rw [mxs_set, if_pos ⟨rfl, hq⟩]
  have hm' : (MMem.mem { m1.back z.2 with mxs := m1.mxs.set q (some ⟨x.size1, x.size2, z.1.data⟩) }).cells z.1.data =
      some (form (c.take j) c.length) := by
    rw [← hm]
    cases z.1.data <;> rfl
  refine ⟨m, { m1.back z.2 with mxs := m1.mxs.set q (some ⟨x.size1, x.size2, z.1.data⟩) }, e0, ?_, ⟨_, q1, k6, k7⟩, ?_, ?_⟩
  · simp only [MMem.stepT, hqr, if_false, k1, k2, Option.bind_some, k3, MMem.mcopyPart, k9, k11, MMem.minitPart, ainitPart_eq, Mem.allocPart, hjc,
      if_true, z1, Option.map_some, MMem.back]
  · intro a b ha hb
    have hp := pos_lt (L := L) ha hb
    have e : Mx.index L I J ⟨x.size1, x.size2, z.1.data⟩ (I + a) (J + b) = some (pos L g.rows g.cols a b) := by
      unfold Mx.index
      dsimp only
      rw [if_pos (by omega), if_pos (by omega), k6, k7, show I + a - I = a by omega, show J + b - J = b by omega]
      cases L <;> rfl
    have ee : early L g.rows g.cols j a b ↔ pos L g.rows g.cols a b < j := by cases L <;> rfl
    simp only [MMem.at, q1, Option.bind_some, e, hm']
    rw [form_get (by omega), tk]
    by_cases w : pos L g.rows g.cols a b < j
    · rw [if_pos w, if_pos (ee.mpr w), List.getElem?_take_of_lt w, k5.get a b ha hb]; rfl
    · rw [if_neg w, if_neg (fun u => w (ee.mp u)), if_pos (by rw [k5.len]; exact hp)]; rfl
  · have hd := destroyN_hole x.size 0 (form (c.take j) c.length) j (Nat.zero_le _) (by omega) (fun v e => by
      rw [form_get (by omega), if_neg (by omega), if_pos (by omega)] at e
      cases e)
    have hs : Mx.size ⟨x.size1, x.size2, z.1.data⟩ = x.size := rfl
    simp only [MMem.step, q1, Option.bind_some, MMem.mfree, Mem.afree, arr, hs, hm', hd, Option.map_none]

/-- **C140 fails for the constructors of matrices.** If the constructor of the element `j` throws while a matrix is constructed, with default
elements, with equal elements or as a copy, the memory and the `j` objects constructed so far are never released, whatever is done afterwards. -/
theorem C140_matrix_constructor_fails (L : Layout) (I J : Nat) (os : List (MTOp T)) (hl : GLegalsT L I J [] os) (o : MTOp T) (n j : Nat)
    (ho : (∃ rows cols v, (o = .new rows cols v (some j) ∨ o = .newFill rows cols v (some j)) ∧ GLegal I J [] (.new rows cols v) ∧ n = rows * cols) ∨
      (∃ r g, o = .copy r (some j) ∧ gr (GWantsT L I J [] os) r = some g ∧ n = g.rows * g.cols)) (hj : j < n) :
    ∃ (m m' : MMem T) (b : Nat) (l : List (Option T)), (MMem.init : MMem T).runT L I J os = some m ∧ m.stepT L I J o = some m' ∧ m'.mxs = m.mxs ∧
      l.length = n ∧ (l.filterMap id).length = j ∧
      ∀ (os' : List (MTOp T)) (m'' : MMem T), m'.runT L I J os' = some m'' → m''.blocks[b]? = some (some l) := by
  obtain ⟨m, f, e0, h⟩ := mrunT_holds L I J os _ _ [] (holds_init L) hl
  have he : ∃ c rows cols, c.length = n ∧ m.stepT L I J o = (m.minitPart rows cols c (some j)).map fun x => x.2 := by
    rcases ho with ⟨rows, cols, v, hn, ⟨l1, l2, l3⟩, rfl⟩ | ⟨r, g, rfl, hx, rfl⟩
    · refine ⟨List.replicate (rows * cols) v, rows, cols, by simp, ?_⟩
      have hm : rows * cols % sizeMod = rows * cols := Nat.mod_eq_of_lt l3
      have l1' : rows ≤ maxSize := l1
      have l2' : cols ≤ maxSize := l2
      rcases hn with rfl | rfl <;> simp only [MMem.stepT, l1', l2', and_self, if_true, hm]
    · obtain ⟨c, x, h1, h2, h3, h4, h5⟩ := h.live hx
      obtain ⟨v, hv, R⟩ := h.reps.rep r (c.length, c) (by rw [sq_full, h1]; rfl)
      rw [arrs_vec, h3] at hv
      cases hv
      have hm : m.arrs.cells x.arr.data = some (form c c.length) := R.mem
      have he := elems_spec R
      simp only [Mem.elems, hm] at he
      have hm' : m.mem.cells x.data = some (form c c.length) := by rw [← arrs_cells]; exact hm
      have he' : readN (form c c.length) 0 x.size = some c := he
      refine ⟨c, x.size1, x.size2, h2.len, ?_⟩
      simp only [MMem.stepT, h3, Option.bind_some, MMem.mcopyPart, hm', he']
  obtain ⟨c, rows, cols, hc, he⟩ := he
  subst hc
  have tk : (c.take j).length = j := by rw [List.length_take]; omega
  obtain ⟨z, z1, F⟩ := allocWith_fresh m.mem (cap := c.length) (vs := c.take j) (by omega)
  have hd : z.1.data = some m.blocks.length := by
    rcases e : z.1.data with _ | b
    · exact absurd (F.rep.null.mp e) (by simp only; omega)
    · rw [F.new b e]; rfl
  have hm : z.2.cells z.1.data = some (form (c.take j) c.length) := F.rep.mem
  have hb : z.2.blocks[m.blocks.length]? = some (some (form (c.take j) c.length)) := by
    rw [hd] at hm
    simp only [Mem.cells] at hm
    exact Option.join_eq_some_iff.mp hm
  have ML : MLost (m.back z.2) m.blocks.length (form (c.take j) c.length) := by
    refine ⟨hb, fun r x hx hxd => ?_⟩
    have hx' : m.mx r = some x := hx
    have := h.reps.old (r := r) (v := x.arr) (by rw [arrs_vec, hx']; rfl) hxd
    exact Nat.lt_irrefl _ this
  refine ⟨m, m.back z.2, m.blocks.length, form (c.take j) c.length, e0, ?_, rfl, form_length (by omega), by rw [form_objects]; exact tk,
    fun os' m'' e => (ML.runT L I J os' e).1⟩
  rw [he]
  simp only [MMem.minitPart, ainitPart_eq, Mem.allocPart, hj, if_true, z1, Option.map_some]

/-! The hypotheses are met: a matrix of two rows and three columns, three of whose assignments threw, and a square one; one construction and one copy
failed for want of memory. -/
def mtdemo : List (MTOp Nat) :=
  [.ok (.newFill 2 3 5), .new 4 4 0 none, .set 0 1 1 9, .fill 0 7 2, .fill1 0 1 6 1, .fill2 0 1 8 1, .copy 0 none, .ok (.newFill 2 2 3)]

example (L : Layout) : GLegalsT L 0 0 [] mtdemo := by
  cases L <;> exact ⟨⟨by decide, by decide, by decide⟩, ⟨by decide, by decide, by decide, by decide, by decide⟩, ⟨_, rfl, by decide, by decide⟩,
    ⟨_, rfl, by decide⟩, ⟨_, rfl, by decide, by decide⟩, ⟨_, rfl, by decide, by decide, by decide⟩, ⟨_, rfl, by decide, by decide⟩,
    ⟨by decide, by decide, by decide⟩, trivial⟩

example : ((MMem.init : MMem Nat).runT .rowMajor 0 0 mtdemo).map (fun m => (m.mxs, m.blocks)) =
    some ([some ⟨2, 3, some 0⟩, some ⟨2, 2, some 1⟩],
      [some [some 7, some 8, some 5, some 6, some 5, some 5], some [some 3, some 3, some 3, some 3]]) := by decide

/-- After the copy assignment both matrices own the block 0. -/
example : ((MMem.init : MMem Nat).runT .rowMajor 0 0 (mtdemo ++ [.copyAssign 1 0 none])).map (fun m => (m.mxs, m.blocks)) =
    some ([some ⟨2, 3, some 0⟩, some ⟨2, 3, some 0⟩], [some [some 7, some 8, some 5, some 6, some 5, some 5], none]) := by decide

end Verif.Util
