import Verif.Util.VecThrowLemmas

/-!
C134: element constructors that throw in calls of `BiVector`.
-/
set_option linter.unusedSimpArgs false
set_option linter.unusedVariables false
namespace Verif.Util

variable {T : Type}

/-- **C134 for `push_back`.** In every history of legal calls in which the constructors of elements throw in any number of calls of
`push_back`, those calls have no effect: all vectors are as if they had not been made, and when every vector has been destroyed, nothing
is allocated.

Missing: the other calls that construct elements, see below. -/
theorem C134_push_partial (I : Nat) (os : List (TOp T)) (hl : LegalsT I [] os) :
    ∃ m', (Mem.init : Mem T).runT I os = some m' ∧
      (∀ (r cap : Nat) (c : List T), sq (WantsT I [] os) r = some (cap, c) → Observed I m' r cap c) ∧
      ((∀ r : Nat, sq (WantsT I [] os) r = none) → ∀ b : Nat, ∀ l, m'.blocks[b]? ≠ some (some l)) := by
  obtain ⟨m', h1, h2⟩ := runT_reps I os _ _ reps_init hl
  refine ⟨m', h1, fun r cap c hx => observed h2 hx, fun hz b l hb => ?_⟩
  obtain ⟨r, v, hv, _⟩ := h2.owned b l (by simp only [Mem.cells, hb, Option.join_some])
  rw [h2.dead r (hz r)] at hv
  cases hv

/-- **C134 fails for `assign`.** After every such history and for every vector: if the constructor of the element `j` throws, the vector
counts an element that does not exist, and can neither be destroyed nor cleared. -/
theorem C134_assign_fails (I : Nat) (os : List (TOp T)) (hl : LegalsT I [] os) (r cap : Nat) (c vs : List T) (j : Nat)
    (hx : sq (WantsT I [] os) r = some (cap, c)) (hn : vs.length ≤ cap) (hj : j < vs.length) :
    ∃ m m', (Mem.init : Mem T).runT I os = some m ∧ m.stepT I (.assign r vs j) = some m' ∧
      (∃ v, m'.vec r = some v ∧ j < v.size) ∧ m'.at I r (I + j) = none ∧
      m'.step I (.destroy r) = none ∧ m'.step I (.clear r) = none := by
  obtain ⟨m, h1, h⟩ := runT_reps I os _ _ reps_init hl
  obtain ⟨v, hv, R⟩ := h.rep r _ hx
  have hs : v.size = c.length := R.size
  have hc : v.cap = cap := R.cap
  have hfit : c.length ≤ cap := R.fits
  obtain ⟨k, hk⟩ : ∃ k, k = if v.size < vs.length then v.size else vs.length := ⟨_, rfl⟩
  have hk' : k ≤ c.length ∧ (k = c.length ∨ k = vs.length) := by
    split at hk <;> omega
  obtain ⟨l1, d1, d2, d3⟩ := destroyN_spec k (form c cap) 0 (fun i _ hi => form_live hfit (by omega))
  have free1 : ∀ i : Nat, i < vs.length → l1[i]? = some none := by
    intro i hi
    rw [d3 i]
    by_cases g : i < k
    · rw [if_pos ⟨Nat.zero_le _, by omega⟩]
    · rw [if_neg (by omega), form_get hfit, if_neg (by omega), if_pos (by omega)]
  have tk : (vs.take j).length = j := by rw [List.length_take]; omega
  obtain ⟨l2, c1, c2, c3⟩ := construct_spec (vs.take j) l1 0 (fun i _ hi => free1 i (by omega))
  have e : m.stepT I (.assign r vs j) = some { m.put v.data l2 with
      vecs := m.vecs.set r (some { v with size := if v.size < vs.length then vs.length else v.size }) } := by
    simp only [Mem.stepT, Mem.edit, hv, R.mem, assignPart]
    rw [if_pos (by omega), ← hk, d1]
    simp only [c1]
  have hr : r < m.vecs.length := h.lt hx
  have hnn : v.data ≠ none := by
    intro hd
    have : cap = 0 := R.null.mp hd
    omega
  refine ⟨m, _, h1, e, ?_⟩
  have hv' : Mem.vec (T := T) { m.put v.data l2 with
      vecs := m.vecs.set r (some { v with size := if v.size < vs.length then vs.length else v.size }) } r =
      some { v with size := if v.size < vs.length then vs.length else v.size } := by
    unfold Mem.vec
    rw [join_set hr, if_pos rfl]
  have hsz : j < (if v.size < vs.length then vs.length else v.size) := by split <;> omega
  have sp := spoiled (i := j) I hv' (l := l2)
    (by
      have := put_cells_self (l' := l2) R.mem (fun x => absurd x hnn)
      cases hd : v.data with
      | none => exact absurd hd hnn
      | some b => rw [hd] at this; exact this)
    hsz
    (by
      intro x hx
      rw [c3 j, if_neg (by omega), free1 j hj] at hx
      cases hx)
  exact ⟨⟨_, hv', hsz⟩, sp.2.2, sp.1, sp.2.1⟩

/-- **C134 fails for copy assignment.** The target has lost its elements and counts an element that does not exist, so that it can
neither be destroyed nor cleared. -/
theorem C134_copyAssign_fails (I : Nat) (os : List (TOp T)) (hl : LegalsT I [] os) (q r : Nat) (y : Nat × List T) (cap : Nat) (c : List T)
    (j : Nat) (hqr : q ≠ r) (hy : sq (WantsT I [] os) q = some y) (hx : sq (WantsT I [] os) r = some (cap, c)) (hj : j < c.length) :
    ∃ m m', (Mem.init : Mem T).runT I os = some m ∧ m.stepT I (.copyAssign q r j) = some m' ∧
      (∃ v, m'.vec q = some v ∧ j < v.size) ∧ m'.at I q (I + j) = none ∧
      m'.step I (.destroy q) = none ∧ m'.step I (.clear q) = none := by
  obtain ⟨m, h1, h⟩ := runT_reps I os _ _ reps_init hl
  obtain ⟨v, hv, R⟩ := h.rep r _ hx
  obtain ⟨w, hw, Rw⟩ := h.rep q y hy
  have hfit : c.length ≤ cap := R.fits
  obtain ⟨m1, f1, f2, f3, f4, f5, f6⟩ := free_spec Rw
  have R1 : Rep m1 v (cap, c) := R.congr (f4 _ (fun b hb hb' => hqr (h.sep q r w v b hw hv hb hb')))
  have tk : (c.take j).length = j := by rw [List.length_take]; omega
  obtain ⟨z, z1, F⟩ := allocWith_fresh m1 (cap := cap) (vs := c.take j) (by omega)
  have hq : q < z.2.vecs.length := by rw [F.vecs, f2]; exact h.lt hy
  refine ⟨m, { z.2 with vecs := z.2.vecs.set q (some { z.1 with size := c.length }) }, h1, ?_, ?_⟩
  · have hc : v.cap = cap := R.cap
    simp only [Mem.stepT, hqr, if_false, hw, hv, f1, elems_spec R1, Option.bind_some, Mem.allocPart, hj, if_true, hc, z1, Option.map_some]
  have hv' : Mem.vec (T := T) { z.2 with vecs := z.2.vecs.set q (some { z.1 with size := c.length }) } q =
      some { z.1 with size := c.length } := by
    unfold Mem.vec
    rw [join_set hq, if_pos rfl]
  have sp := spoiled (i := j) I hv' (l := form (c.take j) cap)
    (by
      have := F.rep.mem
      cases hd : z.1.data with
      | none => rw [hd] at this; exact this
      | some b => rw [hd] at this; exact this)
    hj
    (by
      intro x e
      rw [form_get (by omega), if_neg (by omega), if_pos (by omega)] at e
      cases e)
  exact ⟨⟨_, hv', hj⟩, sp.2.2, sp.1, sp.2.1⟩

theorem lost_of_fresh {m m' : Mem T} {s : Seqs T} (h : Reps m s) {v : Vec} {cap : Nat} {vs : List T} (F : Fresh m m' v (cap, vs)) (hc : cap ≠ 0) :
    Lost m' m.blocks.length (form vs cap) := by
  have hd : v.data = some m.blocks.length := by
    cases e : v.data with
    | none => exact absurd (F.rep.null.mp e) hc
    | some b => rw [F.new b e]
  have hm := F.rep.mem
  rw [hd] at hm
  refine ⟨?_, fun r w hw hb => ?_⟩
  · simp only [Mem.cells] at hm
    cases e : m'.blocks[m.blocks.length]? with
    | none => rw [e] at hm; cases hm
    | some x => rw [e] at hm; simpa using hm
  · have : m.vec r = some w := by
      unfold Mem.vec at *
      rw [← F.vecs]; exact hw
    exact Nat.lt_irrefl _ (h.old this hb)

theorem form_objects (c : List T) (cap : Nat) : (form c cap).filterMap id = c := by
  simp [form, List.filterMap_append, List.filterMap_map]

/-- **C134 fails for the constructors.** If the constructor of the element `j` throws while a vector is constructed with `n` equal elements
or by copying a vector, the memory and the `j` objects constructed so far are never released, whatever is done afterwards. -/
theorem C134_constructor_fails (I : Nat) (os : List (TOp T)) (hl : LegalsT I [] os) (cap : Nat) (o : TOp T) (c : List T) (j : Nat)
    (ho : (∃ n v, o = .newFill cap n v j ∧ c = List.replicate n v ∧ n ≤ cap) ∨
      (∃ r, o = .copy r j ∧ sq (WantsT I [] os) r = some (cap, c))) (hj : j < c.length) :
    ∃ (m m' : Mem T) (b : Nat) (l : List (Option T)), (Mem.init : Mem T).runT I os = some m ∧ m.stepT I o = some m' ∧ m'.vecs = m.vecs ∧
      l.length = cap ∧ l.filterMap id = c.take j ∧
      ∀ (os' : List (TOp T)) (m'' : Mem T), m'.runT I os' = some m'' → m''.blocks[b]? = some (some l) := by
  obtain ⟨m, h1, h⟩ := runT_reps I os _ _ reps_init hl
  have tk : (c.take j).length = j := by rw [List.length_take]; omega
  have go : ∀ (hn : c.length ≤ cap) (he : m.stepT I o = (m.allocPart cap c j).map fun x => x.2),
      ∃ (m m' : Mem T) (b : Nat) (l : List (Option T)), (Mem.init : Mem T).runT I os = some m ∧ m.stepT I o = some m' ∧ m'.vecs = m.vecs ∧
      l.length = cap ∧ l.filterMap id = c.take j ∧
      ∀ (os' : List (TOp T)) (m'' : Mem T), m'.runT I os' = some m'' → m''.blocks[b]? = some (some l) := by
    intro hn he
    obtain ⟨z, z1, F⟩ := allocWith_fresh m (cap := cap) (vs := c.take j) (by omega)
    have L := lost_of_fresh h F (by omega)
    refine ⟨m, z.2, m.blocks.length, form (c.take j) cap, h1, ?_, F.vecs, form_length (by omega), form_objects _ _,
      fun os' m'' e => (L.runT I os' e).1⟩
    rw [he]
    simp only [Mem.allocPart, hj, if_true, z1, Option.map_some]
  rcases ho with ⟨n, v, rfl, rfl, hn⟩ | ⟨r, rfl, hx⟩
  · exact go (by simpa using hn) rfl
  · obtain ⟨v, hv, R⟩ := h.rep r _ hx
    refine go R.fits ?_
    have hc : v.cap = cap := R.cap
    simp only [Mem.stepT, hv, elems_spec R, Option.bind_some, hc]

/-! The hypotheses are met: a vector of capacity 3 with elements 1 and 2 after a `push_back` that threw, and another one with element 5. -/
example : LegalsT 0 [] ([.ok (.new 3), .ok (.push 0 1), .push 0 9, .ok (.push 0 2), .ok (.newFill 2 1 5)] : List (TOp Nat)) ∧
    sq (WantsT 0 [] ([.ok (.new 3), .ok (.push 0 1), .push 0 9, .ok (.push 0 2), .ok (.newFill 2 1 5)] : List (TOp Nat))) 0 =
      some (3, [1, 2]) ∧
    sq (WantsT 0 [] ([.ok (.new 3), .ok (.push 0 1), .push 0 9, .ok (.push 0 2), .ok (.newFill 2 1 5)] : List (TOp Nat))) 1 =
      some (2, [5]) :=
  ⟨⟨trivial, ⟨3, [], rfl, by decide⟩, ⟨3, [1], rfl, by decide⟩, ⟨3, [1], rfl, by decide⟩, (by decide : (1 : Nat) ≤ 2), trivial⟩, rfl, rfl⟩

/-- `assign` that throws at the second of three elements, then the destructor. -/
example : ∃ m, (Mem.init : Mem Nat).runT 0 [.ok (.new 3), .ok (.push 0 1), .assign 0 [7, 8, 9] 1] = some m ∧
    m.blocks = [some [some 7, none, none]] ∧ m.vecs = [some ⟨3, 3, some 0⟩] ∧ m.step 0 (.destroy 0) = none := ⟨_, rfl, rfl, rfl, rfl⟩

end Verif.Util
