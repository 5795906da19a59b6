import Verif.Util.VecProps
import Verif.Util.VecThrow

set_option linter.unusedSimpArgs false
set_option linter.unusedVariables false
namespace Verif.Util

variable {T : Type}

/-! ### What is fine -/

/-- Legal calls, which may throw only in `push_back`. -/
def LegalT (I : Nat) (s : Seqs T) : TOp T → Prop
  | .ok o => Legal I s o
  | .push r v => Legal I s (.push r v)
  | _ => False

/-- The intended effect: none, if `push_back` throws. -/
def WantT (I : Nat) (s : Seqs T) : TOp T → Seqs T
  | .ok o => Want I s o
  | _ => s

def LegalsT (I : Nat) (s : Seqs T) : List (TOp T) → Prop
  | [] => True
  | o :: t => LegalT I s o ∧ LegalsT I (WantT I s o) t

def WantsT (I : Nat) (s : Seqs T) : List (TOp T) → Seqs T
  | [] => s
  | o :: t => WantsT I (WantT I s o) t

theorem stepT_reps (I : Nat) (m : Mem T) (s : Seqs T) (o : TOp T) (h : Reps m s) (hl : LegalT I s o) :
    ∃ m', m.stepT I o = some m' ∧ Reps m' (WantT I s o) := by
  cases o with
  | ok o => exact C76_step I m s o h hl
  | push r v =>
    obtain ⟨cap, c, hx, hc⟩ := hl
    obtain ⟨m', h1, h2⟩ := edit_reps (F := id) h (fun w l => if w.size < w.cap then some (w.size, l) else none) hx rfl (Nat.le_of_lt hc)
      (fun w e1 e2 => by
        have : w.size < w.cap := by omega
        rw [if_pos this, e2]; rfl)
    refine ⟨m', h1, ?_⟩
    have : onSeq s r id = s := by
      simp only [onSeq, hx, id]
      refine List.ext_getElem? fun i => ?_
      rw [List.getElem?_set]
      split
      · rename_i e
        subst e
        have hlt := sq_lt hx
        rw [if_pos hlt]
        unfold sq at hx
        cases e : s[r]? with
        | none => rw [e] at hx; cases hx
        | some y => rw [e] at hx; simp only [Option.join_some] at hx; rw [hx]
      · rfl
    rw [this] at h2
    exact h2
  | newFill => cases hl
  | copy => cases hl
  | copyAssign => cases hl
  | assign => cases hl

theorem runT_reps (I : Nat) : ∀ (os : List (TOp T)) (m : Mem T) (s : Seqs T), Reps m s → LegalsT I s os →
    ∃ m', m.runT I os = some m' ∧ Reps m' (WantsT I s os)
  | [], m, s, h, _ => ⟨m, rfl, h⟩
  | o :: t, m, s, h, hl => by
    obtain ⟨m1, h1, h2⟩ := stepT_reps I m s o h hl.1
    obtain ⟨m2, h3, h4⟩ := runT_reps I t m1 _ h2 hl.2
    exact ⟨m2, by simp only [Mem.runT, h1, Option.bind_some, h3], h4⟩

/-! ### What is not -/

theorem destroyN_hole : ∀ (n p : Nat) (l : List (Option T)) (i : Nat), p ≤ i → i < p + n → (∀ v, l[i]? ≠ some (some v)) →
    destroyN l p n = none
  | 0, p, l, i, a, b, _ => by omega
  | n + 1, p, l, i, a, b, h => by
    simp only [destroyN]
    rcases e : l[p]? with _ | _ | y
    · rfl
    · rfl
    · refine destroyN_hole n (p + 1) _ i ?_ (by omega) ?_
      · rcases Nat.lt_or_ge p i with g | g
        · exact g
        · have : p = i := by omega
          subst this
          exact absurd e (h y)
      · intro v hv
        by_cases c : p = i
        · subst c
          exact absurd e (h y)
        · rw [List.getElem?_set_ne c] at hv
          exact h v hv

/-- A vector that counts an element that is not there cannot be destroyed or cleared, and the element cannot be read. -/
theorem spoiled {m : Mem T} {r : Nat} {v : Vec} {l : List (Option T)} {i : Nat} (I : Nat) (hv : m.vec r = some v)
    (hl : m.cells v.data = some l) (hi : i < v.size) (h : ∀ x, l[i]? ≠ some (some x)) :
    m.step I (.destroy r) = none ∧ m.step I (.clear r) = none ∧ m.at I r (I + i) = none := by
  have d := destroyN_hole v.size 0 l i (Nat.zero_le _) (by omega) h
  refine ⟨?_, ?_, ?_⟩
  · simp only [Mem.step, hv, Option.bind_some, Mem.free, hl, d, Option.map_none]
  · simp only [Mem.step, Mem.edit, hv, hl, d, Option.map_none]
  · simp only [Mem.at, hv, Option.bind_some, hl]
    rw [if_pos (by omega), show I + i - I = i from by omega]
    rcases e : l[i]? with _ | _ | y
    · rfl
    · rfl
    · exact absurd e (h y)

/-- A block that no vector refers to. -/
def Lost (m : Mem T) (b : Nat) (l : List (Option T)) : Prop :=
  m.blocks[b]? = some (some l) ∧ ∀ r v, m.vec r = some v → v.data ≠ some b

theorem Lost.lt {m : Mem T} {b : Nat} {l : List (Option T)} (h : Lost m b l) : b < m.blocks.length := by
  rcases Nat.lt_or_ge b m.blocks.length with g | g
  · exact g
  · have := h.1; rw [List.getElem?_eq_none g] at this; cases this

/-- What keeps a block lost: it is not written, and the vectors are old ones or refer to other blocks. -/
theorem Lost.keep {m m' : Mem T} {b : Nat} {l : List (Option T)} (h : Lost m b l) (hb : m'.blocks[b]? = m.blocks[b]?)
    (hv : ∀ r v, m'.vec r = some v → v.data ≠ some b) : Lost m' b l := ⟨hb.trans h.1, hv⟩

theorem vec_set {m : Mem T} {q r : Nat} {x : Option Vec} {v : Vec} {bs : List (Option (List (Option T)))} {g : List (List (Option T))}
    (h : (⟨bs, m.vecs.set q x, g⟩ : Mem T).vec r = some v) : x = some v ∨ m.vec r = some v := by
  unfold Mem.vec at *
  simp only [List.getElem?_set] at h
  split at h
  · split at h
    · exact .inl (by simpa using h)
    · cases h
  · exact .inr h

theorem vec_append {vs : List (Option Vec)} {r : Nat} {x : Option Vec} {v : Vec} (h : ((vs ++ [x])[r]?).join = some v) :
    x = some v ∨ (vs[r]?).join = some v := by
  rw [join_append_one] at h
  split at h
  · exact .inl h
  · exact .inr h

theorem Lost.alloc {m : Mem T} {b : Nat} {l : List (Option T)} (h : Lost m b l) (cap : Nat) :
    Lost (m.alloc cap).2 b l ∧ (m.alloc cap).1.data ≠ some b ∧ (m.alloc cap).2.vecs = m.vecs := by
  have hlt := h.lt
  unfold Mem.alloc
  split
  · exact ⟨h, nofun, rfl⟩
  · refine ⟨h.keep (List.getElem?_append_left hlt) h.2, ?_, rfl⟩
    intro e
    simp only [Option.some.injEq] at e
    omega

theorem Lost.put {m : Mem T} {b : Nat} {l l' : List (Option T)} (h : Lost m b l) {p : Option Nat} (hp : p ≠ some b) : Lost (m.put p l') b l := by
  cases p with
  | none => exact h
  | some c => exact h.keep (by simp only [Mem.put]; rw [List.getElem?_set_ne (fun e => hp (by rw [e]))]) h.2

theorem Lost.allocWith {m m' : Mem T} {b : Nat} {l : List (Option T)} (h : Lost m b l) {cap : Nat} {vs : List T} {v : Vec}
    (e : m.allocWith cap vs = some (v, m')) : Lost m' b l ∧ v.data ≠ some b ∧ m'.vecs = m.vecs := by
  obtain ⟨a, hd, hv⟩ := h.alloc cap
  unfold Mem.allocWith at e
  simp only at e
  split at e
  · cases e
  · split at e
    · cases e
    · cases e
      exact ⟨a.put hd, hd, put_vecs.trans hv⟩

theorem Lost.free {m m' : Mem T} {b : Nat} {l : List (Option T)} (h : Lost m b l) {v : Vec} (hv : v.data ≠ some b) (e : m.free v = some m') :
    Lost m' b l ∧ m'.vecs = m.vecs := by
  unfold Mem.free at e
  split at e
  · cases e
  · split at e
    · cases e
    · cases e
      split
      · exact ⟨h, rfl⟩
      · rename_i c hc
        refine ⟨h.keep ?_ h.2, rfl⟩
        exact List.getElem?_set_ne (fun x => hv (by rw [hc, x]))

theorem Lost.edit {m m' : Mem T} {b : Nat} {l : List (Option T)} (h : Lost m b l) {r : Nat}
    {f : Vec → List (Option T) → Option (Nat × List (Option T))} (e : m.edit r f = some m') : Lost m' b l := by
  unfold Mem.edit at e
  split at e
  · cases e
  · rename_i v hv
    split at e
    · cases e
    · split at e
      · cases e
      · cases e
        have h1 := h.put (l' := ‹_›) (h.2 r v hv)
        refine ⟨h1.1, fun q w hw => ?_⟩
        rcases vec_set (m := m) hw with x | x
        · cases x; exact h.2 r v hv
        · exact h.2 q w x

theorem Lost.step {m m' : Mem T} {b : Nat} {l : List (Option T)} (h : Lost m b l) (I : Nat) (o : VOp T) (e : m.step I o = some m') :
    Lost m' b l := by
  have ap : ∀ {n : Mem T} {v : Vec}, Lost n b l → v.data ≠ some b → Lost { n with vecs := n.vecs ++ [some v] } b l := by
    intro n v hn hv
    refine ⟨hn.1, fun r w hw => ?_⟩
    rcases vec_append hw with x | x
    · cases x; exact hv
    · exact hn.2 r w x
  have st : ∀ {n : Mem T} {v : Vec} (q : Nat), Lost n b l → v.data ≠ some b → Lost { n with vecs := n.vecs.set q (some v) } b l := by
    intro n v q hn hv
    refine ⟨hn.1, fun r w hw => ?_⟩
    rcases vec_set (m := n) hw with x | x
    · cases x; exact hv
    · exact hn.2 r w x
  cases o with
  | new cap =>
    cases e
    obtain ⟨a, b, c⟩ := h.alloc cap
    exact ap a b
  | newFill cap n v =>
    simp only [Mem.step, Option.map_eq_some_iff] at e
    obtain ⟨⟨x, m1⟩, e1, rfl⟩ := e
    obtain ⟨a, b, c⟩ := h.allocWith e1
    exact ap a b
  | copy r =>
    simp only [Mem.step, Option.bind_eq_some_iff, Option.map_eq_some_iff] at e
    obtain ⟨v, _, vs, _, ⟨x, m1⟩, e1, rfl⟩ := e
    obtain ⟨a, b, c⟩ := h.allocWith e1
    exact ap a b
  | copyAssign q r =>
    simp only [Mem.step] at e
    split at e
    · simp only [Option.map_eq_some_iff] at e
      obtain ⟨_, _, rfl⟩ := e
      exact h
    · simp only [Option.bind_eq_some_iff, Option.map_eq_some_iff] at e
      obtain ⟨w, hw, v, _, m1, e1, vs, _, ⟨x, m2⟩, e2, rfl⟩ := e
      obtain ⟨a, _⟩ := h.free (h.2 q w hw) e1
      obtain ⟨a, b, c⟩ := a.allocWith e2
      exact st q a b
  | move r =>
    simp only [Mem.step, Option.map_eq_some_iff] at e
    obtain ⟨v, hv, rfl⟩ := e
    exact ap (st (v := ⟨0, 0, none⟩) r h nofun) (h.2 r v hv)
  | moveAssign q r =>
    simp only [Mem.step] at e
    split at e
    · simp only [Option.map_eq_some_iff] at e
      obtain ⟨_, _, rfl⟩ := e
      exact h
    · simp only [Option.bind_eq_some_iff, Option.map_eq_some_iff] at e
      obtain ⟨w, hw, v, hv, m1, e1, rfl⟩ := e
      obtain ⟨a, _⟩ := h.free (h.2 q w hw) e1
      exact st (v := ⟨0, 0, none⟩) r (st q a (h.2 r v hv)) nofun
  | swap q r =>
    simp only [Mem.step, Option.bind_eq_some_iff, Option.map_eq_some_iff] at e
    obtain ⟨w, hw, v, hv, rfl⟩ := e
    exact st r (st q h (h.2 r v hv)) (h.2 q w hw)
  | destroy r =>
    simp only [Mem.step, Option.bind_eq_some_iff, Option.map_eq_some_iff] at e
    obtain ⟨v, hv, m1, e1, rfl⟩ := e
    obtain ⟨a, _⟩ := h.free (h.2 r v hv) e1
    refine ⟨a.1, fun q w hw => ?_⟩
    rcases vec_set (m := m1) hw with x | x
    · cases x
    · exact a.2 q w x
  | set r i v => exact h.edit e
  | assign r n v => exact h.edit e
  | assignOwn r n i => exact h.edit e
  | assignRange r vs => exact h.edit e
  | push r v => exact h.edit e
  | pop r => exact h.edit e
  | clear r => exact h.edit e

theorem Lost.stepT {m m' : Mem T} {b : Nat} {l : List (Option T)} (h : Lost m b l) (I : Nat) (o : TOp T) (e : m.stepT I o = some m') :
    Lost m' b l := by
  have pa : ∀ {n n' : Mem T} {cap : Nat} {vs : List T} {j : Nat} {v : Vec}, Lost n b l → n.allocPart cap vs j = some (v, n') →
      Lost n' b l ∧ v.data ≠ some b ∧ n'.vecs = n.vecs := by
    intro n n' cap vs j v hn e
    unfold Mem.allocPart at e
    split at e
    · simp only [Option.map_eq_some_iff] at e
      obtain ⟨⟨x, m1⟩, e1, e2⟩ := e
      cases e2
      obtain ⟨a, b, c⟩ := hn.allocWith e1
      exact ⟨a, b, c⟩
    · cases e
  cases o with
  | ok o => exact h.step I o e
  | newFill cap n v j =>
    simp only [Mem.stepT, Option.map_eq_some_iff] at e
    obtain ⟨⟨x, m1⟩, e1, rfl⟩ := e
    exact (pa h e1).1
  | copy r j =>
    simp only [Mem.stepT, Option.bind_eq_some_iff, Option.map_eq_some_iff] at e
    obtain ⟨v, _, vs, _, ⟨x, m1⟩, e1, rfl⟩ := e
    exact (pa h e1).1
  | copyAssign q r j =>
    simp only [Mem.stepT] at e
    split at e
    · cases e
    · simp only [Option.bind_eq_some_iff, Option.map_eq_some_iff] at e
      obtain ⟨w, hw, v, _, m1, e1, vs, _, ⟨x, m2⟩, e2, rfl⟩ := e
      obtain ⟨a, _⟩ := h.free (h.2 q w hw) e1
      obtain ⟨a, b, c⟩ := pa a e2
      refine ⟨a.1, fun r w hw => ?_⟩
      rcases vec_set (m := m2) hw with x | x
      · cases x; exact b
      · exact a.2 r w x
  | assign r vs j => exact h.edit e
  | push r v => exact h.edit e

theorem Lost.runT {b : Nat} {l : List (Option T)} (I : Nat) : ∀ (os : List (TOp T)) {m m' : Mem T}, Lost m b l →
    m.runT I os = some m' → Lost m' b l
  | [], m, m', h, e => by cases e; exact h
  | o :: t, m, m', h, e => by
    simp only [Mem.runT, Option.bind_eq_some_iff] at e
    obtain ⟨m1, e1, e2⟩ := e
    exact Lost.runT I t (h.stepT I o e1) e2

end Verif.Util
