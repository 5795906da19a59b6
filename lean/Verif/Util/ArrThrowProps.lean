import Verif.Util.ArrThrowLemmas

/-!
C140, arrays: calls of `BiArray` that are left by an exception.
-/
set_option linter.unusedSimpArgs false
set_option linter.unusedVariables false
namespace Verif.Util

variable {T : Type}

/-- **C140 for arrays.** In every history of legal calls in which any number of constructions of arrays fail for want of memory and any number
of assignments of elements throw, in `at(i) = v` and in `fill`, the failed constructions and the failed `at(i) = v` have no effect, `fill` has
assigned exactly the elements before the one that threw, every array has exactly the elements that follow from that, and when every array has
been destroyed, nothing is allocated.

Missing: constructors of elements that throw, and copy assignment, see below. -/
theorem C140_array_partial (I : Nat) (os : List (ATOp T)) (hl : ALegalsT I [] os) :
    ∃ m', (Mem.init : Mem T).arunT I os = some m' ∧
      (∀ (r : Nat) (c : List T), ar (AWantsT I [] os) r = some c → AObserved I m' r c) ∧
      ((∀ r : Nat, ar (AWantsT I [] os) r = none) → ∀ b : Nat, ∀ l, m'.blocks[b]? ≠ some (some l)) := by
  obtain ⟨m', h1, h2⟩ := arunT_reps I os _ _ reps_init hl
  refine ⟨m', h1, fun r c hx => aobserved h2 hx, fun hz b l hb => ?_⟩
  obtain ⟨r, v, hv, _⟩ := h2.owned b l (by simp only [Mem.cells, hb, Option.join_some])
  rw [h2.dead r (by rw [sq_full, hz r]; rfl)] at hv
  cases hv

/-- **C140 fails for copy assignment of arrays.** If there is no memory for the copies (then `j` is any element), or the constructor of the
element `j` throws, the target has lost its elements and counts elements that do not exist; it cannot be destroyed. -/
theorem C140_array_assign_fails (I : Nat) (os : List (ATOp T)) (hl : ALegalsT I [] os) (q r : Nat) (d c : List T)
    (k : Fault) (j : Nat) (hk : k = none ∨ k = some j) (hqr : q ≠ r) (hy : ar (AWantsT I [] os) q = some d)
    (hx : ar (AWantsT I [] os) r = some c) (hj : j < c.length) :
    ∃ m m', (Mem.init : Mem T).arunT I os = some m ∧ m.astepT I (.copyAssign q r k) = some m' ∧
      (∃ v, m'.vec q = some v ∧ v.size = c.length) ∧ m'.aat I q (I + j) = none ∧ m'.astep I (.destroy q) = none := by
  obtain ⟨m, h1, h⟩ := arunT_reps I os _ _ reps_init hl
  obtain ⟨v, hv, R⟩ := h.rep r (c.length, c) (by rw [sq_full, hx]; rfl)
  obtain ⟨w, hw, Rw⟩ := h.rep q (d.length, d) (by rw [sq_full, hy]; rfl)
  obtain ⟨m1, f1, f2, f3, f4, f5, f6⟩ := free_spec Rw
  have R1 : Rep m1 v (c.length, c) := R.congr (f4 _ (fun b hb hb' => hqr (h.sep q r w v b hw hv hb hb')))
  have hv1 : m1.vec r = some v := by unfold Mem.vec at hv ⊢; rw [f2]; exact hv
  have hlt : q < m1.vecs.length := by rw [f2]; exact h.lt (x := (d.length, d)) (by rw [sq_full, hy]; rfl)
  have go : ∀ z : Vec × Mem T, m1.ainitPart c k = some z → z.2.vecs = m1.vecs → z.1.size = c.length →
      (∃ l, z.2.cells z.1.data = some l ∧ ∀ x, l[j]? ≠ some (some x)) →
      ∃ m m', (Mem.init : Mem T).arunT I os = some m ∧ m.astepT I (.copyAssign q r k) = some m' ∧
        (∃ v, m'.vec q = some v ∧ v.size = c.length) ∧ m'.aat I q (I + j) = none ∧ m'.astep I (.destroy q) = none := by
    rintro ⟨y, n⟩ hz hvs hs ⟨l, hl, hn⟩
    dsimp only at hvs hs hl
    refine ⟨m, { n with vecs := n.vecs.set q (some y) }, h1, ?_, ?_⟩
    · simp only [Mem.astepT, hqr, if_false, hw, Option.bind_some, afree_eq, f1, awalk_eq, hv1, elems_spec R1, hz, Option.map_some]
    · have hv' : Mem.vec (T := T) { n with vecs := n.vecs.set q (some y) } q = some y := by
        unfold Mem.vec
        rw [join_set (by rw [hvs]; exact hlt), if_pos rfl]
      have sp := aspoiled (i := j) I hv' (l := l) (by
        cases hd : y.data with
        | none => rw [hd] at hl; exact hl
        | some b => rw [hd] at hl; exact hl) (by omega) hn
      exact ⟨⟨y, hv', hs⟩, sp.2, sp.1⟩
  rcases hk with rfl | rfl
  · refine go (arr c.length none, m1) ?_ rfl rfl ⟨[], rfl, fun x hx => by simp at hx⟩
    have : c.length ≠ 0 := by omega
    simp only [Mem.ainitPart, this, if_false]
  · have tk : (c.take j).length = j := by rw [List.length_take]; omega
    obtain ⟨z, z1, F⟩ := allocWith_fresh m1 (cap := c.length) (vs := c.take j) (by omega)
    refine go ({ z.1 with size := c.length }, z.2) ?_ F.vecs rfl ⟨form (c.take j) c.length, F.rep.mem, fun x e => ?_⟩
    · simp only [ainitPart_eq, Mem.allocPart, hj, if_true, z1, Option.map_some]
    · rw [form_get (by omega), if_neg (by omega), if_pos (by omega)] at e
      cases e

/-- **C140 fails for the constructors of arrays.** If the constructor of the element `j` throws while an array is constructed, with default
elements, with equal elements or as a copy, the memory and the `j` objects constructed so far are never released, whatever is done afterwards. -/
theorem C140_array_constructor_fails (I : Nat) (os : List (ATOp T)) (hl : ALegalsT I [] os) (o : ATOp T) (c : List T) (j : Nat)
    (ho : (∃ n v, (o = .new n v (some j) ∨ o = .newFill n v (some j)) ∧ c = List.replicate n v) ∨
      (∃ r, o = .copy r (some j) ∧ ar (AWantsT I [] os) r = some c)) (hj : j < c.length) :
    ∃ (m m' : Mem T) (b : Nat) (l : List (Option T)), (Mem.init : Mem T).arunT I os = some m ∧ m.astepT I o = some m' ∧ m'.vecs = m.vecs ∧
      l.length = c.length ∧ l.filterMap id = c.take j ∧
      ∀ (os' : List (ATOp T)) (m'' : Mem T), m'.arunT I os' = some m'' → m''.blocks[b]? = some (some l) := by
  obtain ⟨m, h1, h⟩ := arunT_reps I os _ _ reps_init hl
  have tk : (c.take j).length = j := by rw [List.length_take]; omega
  have he : m.astepT I o = (m.ainitPart c (some j)).map fun x => x.2 := by
    rcases ho with ⟨n, v, rfl | rfl, rfl⟩ | ⟨r, rfl, hx⟩
    · rfl
    · rfl
    · have hw : m.awalk r = some c := (aobserved (I := I) h hx).2.2.2.2.2.1
      simp only [Mem.astepT, hw, Option.bind_some]
  obtain ⟨z, z1, F⟩ := allocWith_fresh m (cap := c.length) (vs := c.take j) (by omega)
  have L := lost_of_fresh h F (by omega)
  refine ⟨m, z.2, m.blocks.length, form (c.take j) c.length, h1, ?_, F.vecs, form_length (by omega), form_objects _ _,
    fun os' m'' e => (L.arunT I os' e).1⟩
  rw [he]
  simp only [ainitPart_eq, Mem.allocPart, hj, if_true, z1, Option.map_some]

/-! The hypotheses are met: an array of three elements whose `fill` threw at the second, and one with a single element; one construction and one
assignment failed. -/
def atdemo : List (ATOp Nat) := [.ok (.newFill 3 5), .new 4 0 none, .set 0 11 9, .fill 0 7 1, .copy 0 none, .ok (.newFill 1 2)]

example : ALegalsT 10 [] atdemo ∧ AWantsT 10 [] atdemo = [some [7, 5, 5], some [2]] :=
  ⟨⟨trivial, (by decide : (4 : Nat) ≠ 0), ⟨_, rfl, by decide⟩, ⟨_, rfl, by decide⟩, ⟨_, rfl, by decide⟩, trivial, trivial⟩, rfl⟩

/-- Copy assignments that fail, for want of memory and at the second element. -/
example : (∃ m, (Mem.init : Mem Nat).arunT 10 (atdemo ++ [.copyAssign 1 0 none]) = some m ∧ m.vecs = [some (arr 3 (some 0)), some (arr 3 none)]) ∧
    ∃ m, (Mem.init : Mem Nat).arunT 10 (atdemo ++ [.copyAssign 1 0 (some 1)]) = some m ∧ m.vecs = [some (arr 3 (some 0)), some (arr 3 (some 2))] ∧
      m.blocks = [some [some 7, some 5, some 5], none, some [some 7, none, none]] :=
  ⟨⟨_, rfl, rfl⟩, _, rfl, rfl, rfl⟩

end Verif.Util
