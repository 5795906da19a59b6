import Verif.Util.ArrThrow
import Verif.Util.ArrProps
import Verif.Util.VecThrowProps

set_option linter.unusedSimpArgs false
set_option linter.unusedVariables false
namespace Verif.Util

variable {T : Type}

/-! ### What is fine -/

/-- Legal calls, which may throw in assignments of elements and where memory for a new array is allocated. -/
def ALegalT (I : Nat) (s : Arrs T) : ATOp T → Prop
  | .ok o => ALegal I s o
  | .new n _ none | .newFill n _ none => n ≠ 0
  | .copy r none => ∃ c, ar s r = some c ∧ c ≠ []
  | .set r i _ => ∃ c, ar s r = some c ∧ I ≤ i ∧ i < I + c.length
  | .fill r _ j => ∃ c, ar s r = some c ∧ j < c.length
  | _ => False

/-- The intended effect: none, except that `fill` has assigned the first elements. -/
def AWantT (I : Nat) (s : Arrs T) : ATOp T → Arrs T
  | .ok o => AWant I s o
  | .fill r v j => s.set r ((ar s r).map fun c => List.replicate j v ++ c.drop j)
  | _ => s

def ALegalsT (I : Nat) (s : Arrs T) : List (ATOp T) → Prop
  | [] => True
  | o :: t => ALegalT I s o ∧ ALegalsT I (AWantT I s o) t

def AWantsT (I : Nat) (s : Arrs T) : List (ATOp T) → Arrs T
  | [] => s
  | o :: t => AWantsT I (AWantT I s o) t

theorem set_ar_self {s : Arrs T} {r : Nat} {c : List T} (h : ar s r = some c) : s.set r (some c) = s := by
  have hx : s[r]? = some (some c) := Option.join_eq_some_iff.mp h
  have hlt : r < s.length := by
    rcases Nat.lt_or_ge r s.length with g | g
    · exact g
    · rw [List.getElem?_eq_none g] at hx; cases hx
  apply ext_opt
  intro i
  rw [List.getElem?_set]
  split
  · rename_i e
    subst e
    simp only [hx]
  · rfl

theorem fill_part (v : T) (c : List T) (j : Nat) (hj : j < c.length) :
    fillN v (form c c.length) 0 j = some (form (List.replicate j v ++ c.drop j) c.length) := by
  obtain ⟨l', h1, h2, h3⟩ := fillN_spec v j (form c c.length) 0 (fun i _ hi => by
    rw [form_get (Nat.le_refl _), if_pos (by omega), List.getElem?_eq_getElem (by omega)]; exact ⟨_, rfl⟩)
  rw [h1]
  congr 1
  have hlen : (List.replicate j v ++ c.drop j).length = c.length := by simp; omega
  apply ext_opt
  intro i
  rw [h3, form_get (c := c) (Nat.le_refl _), form_get (c := List.replicate j v ++ c.drop j) (by omega), hlen]
  by_cases g : i < j
  · rw [if_pos ⟨Nat.zero_le _, by omega⟩, if_pos (by omega), List.getElem?_append_left (by simpa using g)]
    simp [g]
  · rw [if_neg (by omega), List.getElem?_append_right (by simp; omega)]
    simp only [List.length_replicate, List.getElem?_drop]
    rw [show j + (i - j) = i by omega]

theorem astepT_reps (I : Nat) (m : Mem T) (s : Arrs T) (o : ATOp T) (h : Reps m (full s)) (hl : ALegalT I s o) :
    ∃ m', m.astepT I o = some m' ∧ Reps m' (full (AWantT I s o)) := by
  cases o with
  | ok o => exact C105_step I m s o h hl
  | new n d k =>
    cases k with
    | some j => cases hl
    | none =>
      have hn : n ≠ 0 := hl
      refine ⟨m, ?_, h⟩
      simp only [Mem.astepT, Mem.ainitPart, List.length_replicate, hn, if_false, Option.map_some]
  | newFill n d k =>
    cases k with
    | some j => cases hl
    | none =>
      have hn : n ≠ 0 := hl
      refine ⟨m, ?_, h⟩
      simp only [Mem.astepT, Mem.ainitPart, List.length_replicate, hn, if_false, Option.map_some]
  | copy r k =>
    cases k with
    | some j => cases hl
    | none =>
      obtain ⟨c, hc, hn⟩ := hl
      have hw : m.awalk r = some c := (aobserved (I := I) h hc).2.2.2.2.2.1
      have hz : c.length ≠ 0 := fun e => hn (List.eq_nil_of_length_eq_zero e)
      refine ⟨m, ?_, h⟩
      simp only [Mem.astepT, hw, Option.bind_some, Mem.ainitPart, hz, if_false, Option.map_some]
  | copyAssign => cases hl
  | set r i v =>
    obtain ⟨c, hc, h1, h2⟩ := hl
    have hi : i - I < c.length := by omega
    obtain ⟨u, hu⟩ := form_live (Nat.le_refl c.length) hi
    obtain ⟨m', e1, e2⟩ := edit_of (c' := c) h hc rfl
      (f := fun w l => (aindex I w i).bind fun p => match l[p]? with | some (some _) => some l | _ => none) (fun w hs => by
        rw [aindex, if_pos ⟨h1, by omega⟩, Option.bind_some]
        simp only [hu])
    rw [set_ar_self hc] at e2
    exact ⟨m', e1, e2⟩
  | fill r v j =>
    obtain ⟨c, hc, hj⟩ := hl
    simp only [Mem.astepT, AWantT, hc, Option.map_some]
    refine edit_of h hc (by simp; omega) (fun w hs => ?_)
    rw [if_pos (by omega), fill_part v c j hj]

theorem arunT_reps (I : Nat) : ∀ (os : List (ATOp T)) (m : Mem T) (s : Arrs T), Reps m (full s) → ALegalsT I s os →
    ∃ m', m.arunT I os = some m' ∧ Reps m' (full (AWantsT I s os))
  | [], m, s, h, _ => ⟨m, rfl, h⟩
  | o :: t, m, s, h, hl => by
    obtain ⟨m1, h1, h2⟩ := astepT_reps I m s o h hl.1
    obtain ⟨m2, h3, h4⟩ := arunT_reps I t m1 _ h2 hl.2
    exact ⟨m2, by simp only [Mem.arunT, h1, Option.bind_some, h3], h4⟩

/-! ### What is not -/

/-- `ainitPart` as an allocation followed by construction. -/
theorem ainitPart_eq (m : Mem T) (vs : List T) (j : Nat) :
    m.ainitPart vs (some j) = m.allocPart vs.length vs j := by
  unfold Mem.ainitPart Mem.allocPart Mem.allocWith Mem.ablock Mem.alloc
  by_cases g : j < vs.length
  · have h : vs.length ≠ 0 := by omega
    simp only [g, if_true, h, if_false]
    rcases Mem.cells _ _ with _ | l
    · rfl
    · dsimp only
      rcases construct l 0 (vs.take j) with _ | l'
      · rfl
      · rfl
  · simp only [g, if_false]

/-- An array that counts an element that is not there cannot be destroyed, and the element cannot be read. -/
theorem aspoiled {m : Mem T} {r : Nat} {v : Vec} {l : List (Option T)} {i : Nat} (I : Nat) (hv : m.vec r = some v)
    (hl : m.cells v.data = some l) (hi : i < v.size) (h : ∀ x, l[i]? ≠ some (some x)) :
    m.astep I (.destroy r) = none ∧ m.aat I r (I + i) = none := by
  have d := destroyN_hole v.size 0 l i (Nat.zero_le _) (by omega) h
  refine ⟨?_, ?_⟩
  · simp only [Mem.astep, hv, Option.bind_some, Mem.afree, hl, d, Option.map_none]
  · simp only [Mem.aat, hv, Option.bind_some, aindex]
    rw [if_pos (by omega), show I + i - I = i from by omega]
    simp only [Option.bind_some, Mem.deref, hl]
    rcases e : l[i]? with _ | _ | y
    · rfl
    · rfl
    · exact absurd e (h y)

theorem Lost.aedit {m m' : Mem T} {b : Nat} {l : List (Option T)} (h : Lost m b l) {r : Nat}
    {f : Vec → List (Option T) → Option (List (Option T))} (e : m.aedit r f = some m') : Lost m' b l := by
  rw [aedit_eq] at e
  exact h.edit e

theorem Lost.app {n : Mem T} {b : Nat} {l : List (Option T)} {v : Vec} (hn : Lost n b l) (hv : v.data ≠ some b) :
    Lost { n with vecs := n.vecs ++ [some v] } b l := by
  refine ⟨hn.1, fun r w hw => ?_⟩
  rcases vec_append hw with x | x
  · cases x; exact hv
  · exact hn.2 r w x

theorem Lost.sett {n : Mem T} {b : Nat} {l : List (Option T)} {v : Vec} (q : Nat) (hn : Lost n b l) (hv : v.data ≠ some b) :
    Lost { n with vecs := n.vecs.set q (some v) } b l := by
  refine ⟨hn.1, fun r w hw => ?_⟩
  rcases vec_set (m := n) hw with x | x
  · cases x; exact hv
  · exact hn.2 r w x

theorem Lost.astep {m m' : Mem T} {b : Nat} {l : List (Option T)} (h : Lost m b l) (I : Nat) (o : AOp T) (e : m.astep I o = some m') :
    Lost m' b l := by
  cases o with
  | new n v =>
    simp only [Mem.astep, Option.map_eq_some_iff] at e
    obtain ⟨⟨x, m1⟩, e1, rfl⟩ := e
    rw [ainit_eq] at e1
    obtain ⟨a, b, c⟩ := h.allocWith e1
    exact a.app b
  | newFill n v =>
    simp only [Mem.astep, Option.map_eq_some_iff] at e
    obtain ⟨⟨x, m1⟩, e1, rfl⟩ := e
    rw [ainit_eq] at e1
    obtain ⟨a, b, c⟩ := h.allocWith e1
    exact a.app b
  | copy r =>
    simp only [Mem.astep, Option.bind_eq_some_iff, Option.map_eq_some_iff] at e
    obtain ⟨vs, _, ⟨x, m1⟩, e1, rfl⟩ := e
    rw [ainit_eq] at e1
    obtain ⟨a, b, c⟩ := h.allocWith e1
    exact a.app b
  | copyAssign q r =>
    simp only [Mem.astep] at e
    split at e
    · simp only [Option.map_eq_some_iff] at e
      obtain ⟨_, _, rfl⟩ := e
      exact h
    · simp only [Option.bind_eq_some_iff, Option.map_eq_some_iff] at e
      obtain ⟨w, hw, m1, e1, vs, _, ⟨x, m2⟩, e2, rfl⟩ := e
      obtain ⟨a, _⟩ := h.free (h.2 q w hw) e1
      rw [ainit_eq] at e2
      obtain ⟨a, b, c⟩ := a.allocWith e2
      exact a.sett q b
  | move r =>
    simp only [Mem.astep, Option.map_eq_some_iff] at e
    obtain ⟨v, hv, rfl⟩ := e
    exact (h.sett (v := arr 0 none) r nofun).app (h.2 r v hv)
  | moveAssign q r =>
    simp only [Mem.astep] at e
    split at e
    · simp only [Option.map_eq_some_iff] at e
      obtain ⟨_, _, rfl⟩ := e
      exact h
    · simp only [Option.bind_eq_some_iff, Option.map_eq_some_iff] at e
      obtain ⟨w, hw, v, hv, m1, e1, rfl⟩ := e
      obtain ⟨a, _⟩ := h.free (h.2 q w hw) e1
      exact (a.sett q (h.2 r v hv)).sett (v := arr 0 none) r nofun
  | swap q r =>
    simp only [Mem.astep, Option.bind_eq_some_iff, Option.map_eq_some_iff] at e
    obtain ⟨w, hw, v, hv, rfl⟩ := e
    exact (h.sett q (h.2 r v hv)).sett r (h.2 q w hw)
  | destroy r =>
    simp only [Mem.astep, Option.bind_eq_some_iff, Option.map_eq_some_iff] at e
    obtain ⟨v, hv, m1, e1, rfl⟩ := e
    obtain ⟨a, _⟩ := h.free (h.2 r v hv) e1
    refine ⟨a.1, fun q w hw => ?_⟩
    rcases vec_set (m := m1) hw with x | x
    · cases x
    · exact a.2 q w x
  | set r i v => exact h.aedit e
  | fill r v => exact h.aedit e
  | fillOwn r i => exact h.aedit e

theorem Lost.allocPart {n n' : Mem T} {b : Nat} {l : List (Option T)} {cap : Nat} {vs : List T} {j : Nat} {v : Vec} (hn : Lost n b l)
    (e : n.allocPart cap vs j = some (v, n')) : Lost n' b l ∧ v.data ≠ some b ∧ n'.vecs = n.vecs := by
  unfold Mem.allocPart at e
  split at e
  · simp only [Option.map_eq_some_iff] at e
    obtain ⟨⟨x, m1⟩, e1, e2⟩ := e
    cases e2
    obtain ⟨a, b, c⟩ := hn.allocWith e1
    exact ⟨a, b, c⟩
  · cases e

theorem Lost.ainitPart {n n' : Mem T} {b : Nat} {l : List (Option T)} {vs : List T} {k : Fault} {v : Vec} (hn : Lost n b l)
    (e : n.ainitPart vs k = some (v, n')) : Lost n' b l ∧ v.data ≠ some b ∧ n'.vecs = n.vecs := by
  cases k with
  | none =>
    simp only [Mem.ainitPart] at e
    split at e
    · cases e
    · cases e
      exact ⟨hn, nofun, rfl⟩
  | some j =>
    rw [ainitPart_eq] at e
    exact hn.allocPart e

theorem Lost.astepT {m m' : Mem T} {b : Nat} {l : List (Option T)} (h : Lost m b l) (I : Nat) (o : ATOp T) (e : m.astepT I o = some m') :
    Lost m' b l := by
  cases o with
  | ok o => exact h.astep I o e
  | new n v k =>
    simp only [Mem.astepT, Option.map_eq_some_iff] at e
    obtain ⟨⟨x, m1⟩, e1, rfl⟩ := e
    exact (h.ainitPart e1).1
  | newFill n v k =>
    simp only [Mem.astepT, Option.map_eq_some_iff] at e
    obtain ⟨⟨x, m1⟩, e1, rfl⟩ := e
    exact (h.ainitPart e1).1
  | copy r k =>
    simp only [Mem.astepT, Option.bind_eq_some_iff, Option.map_eq_some_iff] at e
    obtain ⟨vs, _, ⟨x, m1⟩, e1, rfl⟩ := e
    exact (h.ainitPart e1).1
  | copyAssign q r k =>
    simp only [Mem.astepT] at e
    split at e
    · cases e
    · simp only [Option.bind_eq_some_iff, Option.map_eq_some_iff] at e
      obtain ⟨w, hw, m1, e1, vs, _, ⟨x, m2⟩, e2, rfl⟩ := e
      obtain ⟨a, _⟩ := h.free (h.2 q w hw) e1
      obtain ⟨a, b, c⟩ := a.ainitPart e2
      exact a.sett q b
  | set r i v => exact h.aedit e
  | fill r v j => exact h.aedit e

theorem Lost.arunT {b : Nat} {l : List (Option T)} (I : Nat) : ∀ (os : List (ATOp T)) {m m' : Mem T}, Lost m b l →
    m.arunT I os = some m' → Lost m' b l
  | [], m, m', h, e => by cases e; exact h
  | o :: t, m, m', h, e => by
    simp only [Mem.arunT, Option.bind_eq_some_iff] at e
    obtain ⟨m1, e1, e2⟩ := e
    exact Lost.arunT I t (h.astepT I o e1) e2

end Verif.Util
