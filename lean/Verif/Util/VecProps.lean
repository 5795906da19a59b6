import Verif.Util.VecLemmas
set_option linter.unusedSimpArgs false
set_option linter.unusedVariables false

/-!
C76: `BiVector` refines a sequence with a capacity, for every history of calls on any number of vectors.
-/
namespace Verif.Util

variable {T : Type}

/-! ### The specification: capacities and sequences -/

/-- What the caller sees of each vector: the capacity and the elements; `none` after destruction. -/
abbrev Seqs (T : Type) := List (Option (Nat × List T))

/-- The vector `r`. -/
def sq (s : Seqs T) (r : Nat) : Option (Nat × List T) := (s[r]?).join

/-- Which calls are legal.  `assign` is only promised to work when the vector does not shrink (see `C76_assign_fails`). -/
def Legal (I : Nat) (s : Seqs T) : VOp T → Prop
  | .new _ => True
  | .newFill cap n _ => n ≤ cap
  | .copy r | .move r | .destroy r | .clear r => ∃ x, sq s r = some x
  | .copyAssign q r | .moveAssign q r | .swap q r => (∃ x, sq s q = some x) ∧ ∃ x, sq s r = some x
  | .set r i _ => ∃ cap c, sq s r = some (cap, c) ∧ I ≤ i ∧ i < I + c.length
  | .assign r n _ => ∃ cap c, sq s r = some (cap, c) ∧ n ≤ cap ∧ c.length ≤ n
  | .assignOwn _ _ _ => False
  | .assignRange r vs => ∃ cap c, sq s r = some (cap, c) ∧ vs.length ≤ cap ∧ c.length ≤ vs.length
  | .push r _ => ∃ cap c, sq s r = some (cap, c) ∧ c.length < cap
  | .pop r => ∃ cap c, sq s r = some (cap, c) ∧ c ≠ []

/-- Change the sequence of one vector. -/
def onSeq (s : Seqs T) (r : Nat) (f : List T → List T) : Seqs T :=
  match sq s r with
  | none => s
  | some (cap, c) => s.set r (some (cap, f c))

/-- The intended effect of each call. -/
def Want (I : Nat) (s : Seqs T) : VOp T → Seqs T
  | .new cap => s ++ [some (cap, [])]
  | .newFill cap n v => s ++ [some (cap, List.replicate n v)]
  | .copy r => s ++ [sq s r]
  | .copyAssign q r => s.set q (sq s r)
  | .move r => s.set r (some (0, [])) ++ [sq s r]
  | .moveAssign q r => if q = r then s else (s.set q (sq s r)).set r (some (0, []))
  | .swap q r => (s.set q (sq s r)).set r (sq s q)
  | .destroy r => s.set r none
  | .set r i v => onSeq s r fun c => c.set (i - I) v
  | .assign r n v => onSeq s r fun _ => List.replicate n v
  | .assignOwn _ _ _ => s
  | .assignRange r vs => onSeq s r fun _ => vs
  | .push r v => onSeq s r fun c => c ++ [v]
  | .pop r => onSeq s r List.dropLast
  | .clear r => onSeq s r fun _ => []

/-- A history of legal calls. -/
def Legals (I : Nat) (s : Seqs T) : List (VOp T) → Prop
  | [] => True
  | o :: t => Legal I s o ∧ Legals I (Want I s o) t

/-- The intended effect of a history. -/
def Wants (I : Nat) (s : Seqs T) : List (VOp T) → Seqs T
  | [] => s
  | o :: t => Wants I (Want I s o) t

/-! ### The representation -/

/-- One vector represents a capacity and a sequence. -/
structure Rep (m : Mem T) (v : Vec) (x : Nat × List T) : Prop where
  cap : v.cap = x.1
  size : v.size = x.2.length
  fits : x.2.length ≤ x.1
  null : v.data = none ↔ x.1 = 0
  mem : m.cells v.data = some (form x.2 x.1)

/-- The memory represents all the sequences, no two vectors share a block, every live block belongs to a vector, and no block was
freed with objects in it. -/
structure Reps (m : Mem T) (s : Seqs T) : Prop where
  len : m.vecs.length = s.length
  dead : ∀ r : Nat, sq s r = none → m.vec r = none
  rep : ∀ (r : Nat) (x : Nat × List T), sq s r = some x → ∃ v, m.vec r = some v ∧ Rep m v x
  sep : ∀ (q r : Nat) (v w : Vec) (b : Nat), m.vec q = some v → m.vec r = some w → v.data = some b → w.data = some b → q = r
  owned : ∀ (b : Nat) (l : List (Option T)), m.cells (some b) = some l → ∃ r v, m.vec r = some v ∧ v.data = some b
  gone : ∀ l ∈ m.gone, ∀ c ∈ l, c = none

theorem Rep.congr {m m' : Mem T} {v : Vec} {x : Nat × List T} (h : Rep m v x) (e : m'.cells v.data = m.cells v.data) : Rep m' v x :=
  ⟨h.cap, h.size, h.fits, h.null, e.trans h.mem⟩

theorem sq_append_left {s t : Seqs T} {r : Nat} (h : r < s.length) : sq (s ++ t) r = sq s r := by
  unfold sq; rw [List.getElem?_append_left h]

theorem sq_append_one {s : Seqs T} {x : Option (Nat × List T)} {r : Nat} :
    sq (s ++ [x]) r = if r = s.length then x else sq s r := by
  unfold sq
  rcases Nat.lt_trichotomy r s.length with g | g | g
  · rw [if_neg (by omega), List.getElem?_append_left g]
  · subst g; simp
  · rw [if_neg (by omega), List.getElem?_eq_none (by simp; omega), List.getElem?_eq_none (by omega)]

theorem sq_set {s : Seqs T} {x : Option (Nat × List T)} {q r : Nat} (h : q < s.length) :
    sq (s.set q x) r = if r = q then x else sq s r := by
  unfold sq
  rw [List.getElem?_set]
  by_cases e : q = r
  · subst e; simp [h]
  · rw [if_neg e, if_neg (fun g => e g.symm)]

theorem sq_lt {s : Seqs T} {r : Nat} {x : Nat × List T} (h : sq s r = some x) : r < s.length := by
  rcases Nat.lt_or_ge r s.length with g | g
  · exact g
  · unfold sq at h; rw [List.getElem?_eq_none g] at h; simp at h

theorem join_append_one {α : Type} {s : List (Option α)} {x : Option α} {r : Nat} :
    ((s ++ [x])[r]?).join = if r = s.length then x else (s[r]?).join := by
  rcases Nat.lt_trichotomy r s.length with g | g | g
  · rw [if_neg (by omega), List.getElem?_append_left g]
  · subst g; simp
  · rw [if_neg (by omega), List.getElem?_eq_none (by simp; omega), List.getElem?_eq_none (by omega)]

theorem join_set {α : Type} {s : List (Option α)} {x : Option α} {q r : Nat} (h : q < s.length) :
    ((s.set q x)[r]?).join = if r = q then x else (s[r]?).join := by
  rw [List.getElem?_set]
  by_cases e : q = r
  · subst e; simp [h]
  · rw [if_neg e, if_neg (fun g => e g.symm)]

theorem Reps.lt {m : Mem T} {s : Seqs T} (h : Reps m s) {r : Nat} {x : Nat × List T} (hx : sq s r = some x) :
    r < m.vecs.length := by rw [h.len]; exact sq_lt hx

/-- A live block. -/
theorem cells_lt {m : Mem T} {b : Nat} {l : List (Option T)} (h : m.cells (some b) = some l) : b < m.blocks.length := by
  rcases Nat.lt_or_ge b m.blocks.length with g | g
  · exact g
  · simp only [Mem.cells] at h; rw [List.getElem?_eq_none g] at h; simp at h

/-- General transfer: the vectors and sequences change consistently, every vector after the call represents its sequence, and the
blocks stay separate. -/
theorem Reps.mk' {m' : Mem T} {s' : Seqs T} (len : m'.vecs.length = s'.length)
    (h : ∀ r : Nat, (sq s' r = none ∧ m'.vec r = none) ∨ ∃ v x, sq s' r = some x ∧ m'.vec r = some v ∧ Rep m' v x)
    (sep : ∀ (q r : Nat) (v w : Vec) (b : Nat), m'.vec q = some v → m'.vec r = some w → v.data = some b → w.data = some b → q = r)
    (owned : ∀ (b : Nat) (l : List (Option T)), m'.cells (some b) = some l → ∃ r v, m'.vec r = some v ∧ v.data = some b)
    (gone : ∀ l ∈ m'.gone, ∀ c ∈ l, c = none) : Reps m' s' := by
  refine ⟨len, fun r hr => ?_, fun r x hx => ?_, sep, owned, gone⟩
  · rcases h r with g | ⟨v, x, g, _⟩
    · exact g.2
    · rw [hr] at g; simp at g
  · rcases h r with g | ⟨v, y, g1, g2, g3⟩
    · rw [hx] at g; simp at g
    · rw [hx] at g1; cases g1; exact ⟨v, g2, g3⟩

theorem Reps.cases {m : Mem T} {s : Seqs T} (h : Reps m s) (r : Nat) :
    (sq s r = none ∧ m.vec r = none) ∨ ∃ v x, sq s r = some x ∧ m.vec r = some v ∧ Rep m v x := by
  cases e : sq s r with
  | none => exact Or.inl ⟨rfl, h.dead r e⟩
  | some x => obtain ⟨v, a, b⟩ := h.rep r x e; exact Or.inr ⟨v, x, rfl, a, b⟩

/-! ### Editing one vector -/

theorem put_cells_self {m : Mem T} {p : Option Nat} {l l' : List (Option T)} (h : m.cells p = some l) (hl : p = none → l' = []) :
    (m.put p l').cells p = some l' := by
  cases p with
  | none => simp [Mem.put, Mem.cells, hl rfl]
  | some b =>
    have hb := cells_lt h
    simp [Mem.put, Mem.cells, hb]

theorem put_cells_other {m : Mem T} {p q : Option Nat} {l' : List (Option T)} (h : ∀ b, p = some b → q ≠ some b) :
    (m.put p l').cells q = m.cells q := by
  cases p with
  | none => rfl
  | some b => cases q with
    | none => rfl
    | some c =>
      have : b ≠ c := fun e => h b rfl (by rw [e])
      simp [Mem.put, Mem.cells, List.getElem?_set_ne this]

theorem put_gone {m : Mem T} {p : Option Nat} {l' : List (Option T)} : (m.put p l').gone = m.gone := by
  cases p <;> rfl

theorem put_vecs {m : Mem T} {p : Option Nat} {l' : List (Option T)} : (m.put p l').vecs = m.vecs := by
  cases p <;> rfl

theorem edit_reps {m : Mem T} {s : Seqs T} (h : Reps m s) {r cap : Nat} {c c' : List T} {F : List T → List T}
    (f : Vec → List (Option T) → Option (Nat × List (Option T)))
    (hx : sq s r = some (cap, c)) (hc : F c = c') (hfit : c'.length ≤ cap)
    (hf : ∀ v : Vec, v.cap = cap → v.size = c.length → f v (form c cap) = some (c'.length, form c' cap)) :
    ∃ m', m.edit r f = some m' ∧ Reps m' (onSeq s r F) := by
  subst hc
  obtain ⟨v, hv, R⟩ := h.rep r _ hx
  have hlt : r < m.vecs.length := h.lt hx
  refine ⟨{ m.put v.data (form (F c) cap) with vecs := m.vecs.set r (some { v with size := (F c).length }) }, ?_, ?_⟩
  · simp only [Mem.edit, hv, R.mem]
    rw [hf v R.cap R.size]
  · have hnull : v.data = none → form (F c) cap = [] := by
      intro e
      have e0 := R.null.mp e
      simp only at e0
      subst e0
      have : F c = [] := List.eq_nil_of_length_eq_zero (by omega)
      simp [form, this]
    have hself := put_cells_self R.mem hnull
    have vecE : ∀ q : Nat, Mem.vec (T := T) { m.put v.data (form (F c) cap) with vecs := m.vecs.set r (some { v with size := (F c).length }) } q
        = if q = r then some { v with size := (F c).length } else m.vec q := by
      intro q; exact join_set hlt
    have cellsE : ∀ p : Option Nat, Mem.cells (T := T) { m.put v.data (form (F c) cap) with vecs := m.vecs.set r (some { v with size := (F c).length }) } p
        = (m.put v.data (form (F c) cap)).cells p := by
      intro p; cases p <;> rfl
    have hs : onSeq s r F = s.set r (some (cap, F c)) := by simp only [onSeq, hx]
    rw [hs]
    refine Reps.mk' (by simp only [List.length_set]; exact h.len) (fun q => ?_) (fun q q' w w' b a1 a2 a3 a4 => ?_)
      (fun b l hb => ?_) (fun l hl => h.gone l (put_gone ▸ hl))
    · rw [sq_set (sq_lt hx), vecE]
      by_cases e : q = r
      · subst e
        rw [if_pos rfl, if_pos rfl]
        refine Or.inr ⟨_, _, rfl, rfl, ⟨R.cap, rfl, hfit, R.null, ?_⟩⟩
        exact (cellsE v.data).trans hself
      · rw [if_neg e, if_neg e]
        rcases h.cases q with g | ⟨w, x, g1, g2, g3⟩
        · exact Or.inl g
        · refine Or.inr ⟨w, x, g1, g2, g3.congr ?_⟩
          refine (cellsE w.data).trans (put_cells_other (fun b hb hb' => e (h.sep q r w v b g2 hv hb' hb)))
    · rw [vecE] at a1 a2
      have back : ∀ (q : Nat) (w : Vec), (if q = r then some { v with size := (F c).length } else m.vec q) = some w →
          ∃ w0, m.vec q = some w0 ∧ w0.data = w.data := by
        intro q w hw
        by_cases e : q = r
        · subst e; rw [if_pos rfl] at hw; cases hw; exact ⟨v, hv, rfl⟩
        · rw [if_neg e] at hw; exact ⟨w, hw, rfl⟩
      obtain ⟨w0, b1, b2⟩ := back q w a1
      obtain ⟨w1, b3, b4⟩ := back q' w' a2
      exact h.sep q q' w0 w1 b b1 b3 (b2.trans a3) (b4.trans a4)
    · rw [cellsE] at hb
      by_cases e : v.data = some b
      · exact ⟨r, _, (vecE r).trans (if_pos rfl), e⟩
      · rw [put_cells_other (fun c hc hc' => e (by rw [hc, hc']))] at hb
        obtain ⟨q, w, g1, g2⟩ := h.owned b l hb
        have hq : q ≠ r := fun g => e (by subst g; rw [hv] at g1; cases g1; exact g2)
        exact ⟨q, w, by rw [vecE, if_neg hq]; exact g1, g2⟩

/-! ### Creating and freeing -/

theorem rep_fresh (m : Mem T) : Rep m ⟨0, 0, none⟩ (0, ([] : List T)) := by
  constructor <;> simp [Mem.cells, form]

/-- The block of a new vector. -/
structure Fresh (m m' : Mem T) (v : Vec) (x : Nat × List T) : Prop where
  vecs : m'.vecs = m.vecs
  rep : Rep m' v x
  new : ∀ b, v.data = some b → b = m.blocks.length
  old : ∀ p : Option Nat, (∀ b, p = some b → b < m.blocks.length) → m'.cells p = m.cells p
  only : ∀ (b : Nat) (l : List (Option T)), m'.cells (some b) = some l → v.data = some b ∨ m.cells (some b) = some l
  gone : m'.gone = m.gone

theorem alloc_fresh (m : Mem T) (cap : Nat) : Fresh m (m.alloc cap).2 (m.alloc cap).1 (cap, []) := by
  unfold Mem.alloc
  by_cases h : cap = 0
  · subst h
    exact ⟨rfl, rep_fresh m, by simp, fun p _ => rfl, fun b l h => Or.inr h, rfl⟩
  · rw [if_neg h]
    refine ⟨rfl, ⟨rfl, rfl, by simp, by simp [h], by simp [Mem.cells, form]⟩, by simp, fun p hp => ?_, fun b l hb => ?_, rfl⟩
    rotate_left
    · simp only [Mem.cells] at hb ⊢
      rcases Nat.lt_trichotomy b m.blocks.length with g | g | g
      · rw [List.getElem?_append_left g] at hb; exact Or.inr hb
      · left; rw [g]
      · rw [List.getElem?_eq_none (by simp; omega)] at hb; simp at hb
    cases p with
    | none => rfl
    | some b => simp only [Mem.cells]; rw [List.getElem?_append_left (hp b rfl)]

theorem allocWith_fresh (m : Mem T) {cap : Nat} {vs : List T} (h : vs.length ≤ cap) :
    ∃ r, m.allocWith cap vs = some r ∧ Fresh m r.2 r.1 (cap, vs) := by
  have F := alloc_fresh m cap
  refine ⟨({ (m.alloc cap).1 with size := vs.length }, (m.alloc cap).2.put (m.alloc cap).1.data (form vs cap)), ?_, ?_⟩
  · simp only [Mem.allocWith, F.rep.mem, construct_form h]
  · have hnull : (m.alloc cap).1.data = none → form vs cap = [] := by
      intro e
      have e0 := F.rep.null.mp e
      simp only at e0
      subst e0
      have : vs = [] := List.eq_nil_of_length_eq_zero (by omega)
      simp [form, this]
    refine ⟨put_vecs.trans F.vecs, ⟨F.rep.cap, rfl, h, F.rep.null, put_cells_self F.rep.mem hnull⟩, F.new, fun p hp => ?_,
      fun b l hb => ?_, put_gone.trans F.gone⟩
    rotate_left
    · by_cases e : (m.alloc cap).1.data = some b
      · exact Or.inl e
      · rw [put_cells_other (fun c hc hc' => e (by rw [hc, hc']))] at hb
        exact F.only b l hb
    refine (put_cells_other ?_).trans (F.old p hp)
    intro b hb hq
    have := F.new b hb
    have := hp b hq
    omega

theorem Reps.old {m : Mem T} {s : Seqs T} (h : Reps m s) {r b : Nat} {v : Vec} (hv : m.vec r = some v) (hb : v.data = some b) :
    b < m.blocks.length := by
  rcases h.cases r with g | ⟨w, x, g1, g2, g3⟩
  · rw [g.2] at hv; simp at hv
  · rw [g2] at hv; cases hv
    exact cells_lt (hb ▸ g3.mem)

theorem Reps.append {m m' : Mem T} {s : Seqs T} (h : Reps m s) {v : Vec} {x : Nat × List T} (F : Fresh m m' v x) :
    Reps { m' with vecs := m'.vecs ++ [some v] } (s ++ [some x]) := by
  have vecE : ∀ q : Nat, Mem.vec (T := T) { m' with vecs := m'.vecs ++ [some v] } q = if q = m.vecs.length then some v else m.vec q := by
    intro q
    have := join_append_one (s := m'.vecs) (x := some v) (r := q)
    rw [F.vecs] at this
    unfold Mem.vec; rw [F.vecs]; exact this
  have cellsE : ∀ p : Option Nat, Mem.cells (T := T) { m' with vecs := m'.vecs ++ [some v] } p = m'.cells p := by
    intro p; cases p <;> rfl
  refine Reps.mk' (by simp only [List.length_append, F.vecs, h.len]; rfl) (fun q => ?_) (fun q q' w w' b a1 a2 a3 a4 => ?_)
    (fun b l hb => ?_) (fun l hl => h.gone l (F.gone ▸ hl))
  · rw [sq_append_one, vecE, h.len]
    by_cases e : q = s.length
    · rw [if_pos e, if_pos e]
      exact Or.inr ⟨v, x, rfl, rfl, F.rep.congr (cellsE _)⟩
    · rw [if_neg e, if_neg e]
      rcases h.cases q with g | ⟨w, y, g1, g2, g3⟩
      · exact Or.inl g
      · exact Or.inr ⟨w, y, g1, g2, g3.congr ((cellsE _).trans (F.old _ (fun b hb => h.old g2 hb)))⟩
  · rw [vecE] at a1 a2
    by_cases e : q = m.vecs.length <;> by_cases e' : q' = m.vecs.length
    · omega
    · rw [if_pos e] at a1; rw [if_neg e'] at a2; cases a1
      have := F.new b a3
      have := h.old a2 a4
      omega
    · rw [if_neg e] at a1; rw [if_pos e'] at a2; cases a2
      have := F.new b a4
      have := h.old a1 a3
      omega
    · rw [if_neg e] at a1; rw [if_neg e'] at a2
      exact h.sep q q' w w' b a1 a2 a3 a4
  · rw [cellsE] at hb
    rcases F.only b l hb with g | g
    · exact ⟨m.vecs.length, v, by rw [vecE, if_pos rfl], g⟩
    · obtain ⟨q, w, g1, g2⟩ := h.owned b l g
      refine ⟨q, w, ?_, g2⟩
      rw [vecE, if_neg ?_]
      · exact g1
      · intro e
        unfold Mem.vec at g1
        rw [List.getElem?_eq_none (by omega)] at g1
        simp at g1

/-- Freeing destroys every element once and frees the block; only the pointers to this block are affected. -/
theorem free_spec {m : Mem T} {v : Vec} {x : Nat × List T} (R : Rep m v x) :
    ∃ m', m.free v = some m' ∧ m'.vecs = m.vecs ∧ m'.blocks.length = m.blocks.length ∧
      (∀ p : Option Nat, (∀ b, v.data = some b → p ≠ some b) → m'.cells p = m.cells p) ∧
      (∀ b, v.data = some b → m'.cells (some b) = none) ∧ ∀ l ∈ m'.gone, l ∈ m.gone ∨ ∀ c ∈ l, c = none := by
  have hd := destroy_form R.fits
  rw [← R.size] at hd
  simp only [Mem.free, R.mem, hd]
  cases e : v.data with
  | none => exact ⟨m, rfl, rfl, rfl, fun _ _ => rfl, by simp, fun l hl => Or.inl hl⟩
  | some b =>
    have hb : b < m.blocks.length := cells_lt (e ▸ R.mem)
    refine ⟨_, rfl, rfl, by simp, fun p hp => ?_, fun c hc => ?_, fun l hl => ?_⟩
    rotate_left
    · cases hc; simp [Mem.cells, hb]
    · rcases List.mem_append.mp hl with g | g
      · exact Or.inl g
      · right
        rw [List.mem_singleton] at g
        subst g
        intro c hc
        simp only [form, List.map_nil, List.nil_append, List.mem_replicate] at hc
        exact hc.2
    cases p with
    | none => rfl
    | some c =>
      have : b ≠ c := fun g => hp b rfl (by rw [g])
      simp [Mem.cells, List.getElem?_set_ne this]

theorem elems_spec {m : Mem T} {v : Vec} {x : Nat × List T} (R : Rep m v x) : m.elems v = some x.2 := by
  simp only [Mem.elems, R.mem, Option.bind_some, R.size]
  exact readN_form R.fits

/-- Destroying a vector. -/
theorem Reps.erase {m m1 : Mem T} {s : Seqs T} (h : Reps m s) {r : Nat} {v : Vec} {x : Nat × List T} (hx : sq s r = some x)
    (hv : m.vec r = some v) (h2 : m1.vecs = m.vecs)
    (h3 : ∀ p : Option Nat, (∀ b, v.data = some b → p ≠ some b) → m1.cells p = m.cells p)
    (h4 : ∀ b, v.data = some b → m1.cells (some b) = none) (h5 : ∀ l ∈ m1.gone, l ∈ m.gone ∨ ∀ c ∈ l, c = none) :
    Reps { m1 with vecs := m1.vecs.set r none } (s.set r none) := by
  have hlt := h.lt hx
  have vecE : ∀ q : Nat, Mem.vec (T := T) { m1 with vecs := m1.vecs.set r none } q = if q = r then none else m.vec q := by
    intro q
    unfold Mem.vec; rw [h2]; exact join_set hlt
  have cellsE : ∀ p : Option Nat, Mem.cells (T := T) { m1 with vecs := m1.vecs.set r none } p = m1.cells p := by
    intro p; cases p <;> rfl
  refine Reps.mk' (by simp only [List.length_set, h2, h.len]) (fun q => ?_) (fun q q' w w' b a1 a2 a3 a4 => ?_)
    (fun b l hb => ?_) (fun l hl => (h5 l hl).elim (h.gone l) id)
  · rw [sq_set (sq_lt hx), vecE]
    by_cases e : q = r
    · rw [if_pos e, if_pos e]; exact Or.inl ⟨rfl, rfl⟩
    · rw [if_neg e, if_neg e]
      rcases h.cases q with g | ⟨w, y, g1, g2, g3⟩
      · exact Or.inl g
      · refine Or.inr ⟨w, y, g1, g2, g3.congr ((cellsE _).trans (h3 _ ?_))⟩
        exact fun b hb hb' => e (h.sep q r w v b g2 hv hb' hb)
  · rw [vecE] at a1 a2
    by_cases e : q = r
    · rw [if_pos e] at a1; simp at a1
    · by_cases e' : q' = r
      · rw [if_pos e'] at a2; simp at a2
      · rw [if_neg e] at a1; rw [if_neg e'] at a2
        exact h.sep q q' w w' b a1 a2 a3 a4
  · rw [cellsE] at hb
    have e : v.data ≠ some b := fun g => by rw [h4 b g] at hb; simp at hb
    rw [h3 _ (fun c hc hc' => e (by rw [hc, hc']))] at hb
    obtain ⟨q, w, g1, g2⟩ := h.owned b l hb
    have hq : q ≠ r := fun g => e (by subst g; rw [hv] at g1; cases g1; exact g2)
    exact ⟨q, w, by rw [vecE, if_neg hq]; exact g1, g2⟩

/-- A vector put in the place of a destroyed one. -/
theorem Reps.fill {m m' : Mem T} {s : Seqs T} (h : Reps m s) {r : Nat} {v : Vec} {x : Nat × List T} (hr : r < s.length)
    (hx : sq s r = none) (F : Fresh m m' v x) : Reps { m' with vecs := m'.vecs.set r (some v) } (s.set r (some x)) := by
  have hlt : r < m.vecs.length := by rw [h.len]; exact hr
  have vecE : ∀ q : Nat, Mem.vec (T := T) { m' with vecs := m'.vecs.set r (some v) } q = if q = r then some v else m.vec q := by
    intro q
    unfold Mem.vec; rw [F.vecs]; exact join_set hlt
  have cellsE : ∀ p : Option Nat, Mem.cells (T := T) { m' with vecs := m'.vecs.set r (some v) } p = m'.cells p := by
    intro p; cases p <;> rfl
  refine Reps.mk' (by simp only [List.length_set, F.vecs, h.len]) (fun q => ?_) (fun q q' w w' b a1 a2 a3 a4 => ?_)
    (fun b l hb => ?_) (fun l hl => h.gone l (F.gone ▸ hl))
  · rw [sq_set hr, vecE]
    by_cases e : q = r
    · rw [if_pos e, if_pos e]
      exact Or.inr ⟨v, x, rfl, rfl, F.rep.congr (cellsE _)⟩
    · rw [if_neg e, if_neg e]
      rcases h.cases q with g | ⟨w, y, g1, g2, g3⟩
      · exact Or.inl g
      · exact Or.inr ⟨w, y, g1, g2, g3.congr ((cellsE _).trans (F.old _ (fun b hb => h.old g2 hb)))⟩
  · rw [vecE] at a1 a2
    by_cases e : q = r <;> by_cases e' : q' = r
    · omega
    · rw [if_pos e] at a1; rw [if_neg e'] at a2; cases a1
      have := F.new b a3
      have := h.old a2 a4
      omega
    · rw [if_neg e] at a1; rw [if_pos e'] at a2; cases a2
      have := F.new b a4
      have := h.old a1 a3
      omega
    · rw [if_neg e] at a1; rw [if_neg e'] at a2
      exact h.sep q q' w w' b a1 a2 a3 a4
  · rw [cellsE] at hb
    rcases F.only b l hb with g | g
    · exact ⟨r, v, by rw [vecE, if_pos rfl], g⟩
    · obtain ⟨q, w, g1, g2⟩ := h.owned b l g
      have hq : q ≠ r := fun g => by subst g; rw [h.dead q hx] at g1; simp at g1
      exact ⟨q, w, by rw [vecE, if_neg hq]; exact g1, g2⟩

/-- Renaming: the vectors are permuted and null vectors appear; no block changes. -/
theorem Reps.rename {m : Mem T} {s : Seqs T} (h : Reps m s) {vs : List (Option Vec)} {s' : Seqs T} (len : vs.length = s'.length)
    (g : Nat → Option Nat) (inj : ∀ a b c : Nat, g a = some c → g b = some c → a = b)
    (hs : ∀ r : Nat, sq s' r = match g r with | none => some (0, []) | some q => sq s q)
    (hv : ∀ r : Nat, (vs[r]?).join = match g r with | none => some ⟨0, 0, none⟩ | some q => m.vec q)
    (onto : ∀ (q : Nat) (v : Vec), m.vec q = some v → ∃ r, g r = some q) :
    Reps { m with vecs := vs } s' := by
  have cellsE : ∀ p : Option Nat, Mem.cells (T := T) { m with vecs := vs } p = m.cells p := by
    intro p; cases p <;> rfl
  refine Reps.mk' len (fun q => ?_) (fun q q' w w' b a1 a2 a3 a4 => ?_) (fun b l hb => ?_) h.gone
  · show _ ∨ ∃ v x, _ ∧ (vs[q]?).join = some v ∧ _
    have e1 := hs q
    have e2 := hv q
    cases e : g q with
    | none =>
      rw [e] at e1 e2
      exact Or.inr ⟨_, _, e1, e2, (rep_fresh m).congr (cellsE _)⟩
    | some p =>
      rw [e] at e1 e2
      rcases h.cases p with c | ⟨w, y, g1, g2, g3⟩
      · exact Or.inl ⟨e1.trans c.1, e2.trans c.2⟩
      · exact Or.inr ⟨w, y, e1.trans g1, e2.trans g2, g3.congr (cellsE _)⟩
  · have e1 : (vs[q]?).join = some w := a1
    have e2 : (vs[q']?).join = some w' := a2
    rw [hv q] at e1
    rw [hv q'] at e2
    cases e : g q with
    | none => rw [e] at e1; cases e1; simp at a3
    | some p =>
      cases e' : g q' with
      | none => rw [e'] at e2; cases e2; simp at a4
      | some p' =>
        rw [e] at e1; rw [e'] at e2
        have := h.sep p p' w w' b e1 e2 a3 a4
        subst this
        exact inj q q' p e e'
  · rw [cellsE] at hb
    obtain ⟨q, w, g1, g2⟩ := h.owned b l hb
    obtain ⟨r, hr⟩ := onto q w g1
    have := hv r
    rw [hr] at this
    exact ⟨r, w, this.trans g1, g2⟩

/-! ### The theorem -/

theorem set_self {s : Seqs T} {r : Nat} {x : Nat × List T} (h : sq s r = some x) : s.set r (sq s r) = s := by
  apply ext_opt
  intro i
  rw [List.getElem?_set]
  by_cases e : r = i
  · subst e
    have hl := sq_lt h
    rw [if_pos rfl, if_pos hl]
    unfold sq at h ⊢
    rw [List.getElem?_eq_getElem hl] at h ⊢
    rfl
  · rw [if_neg e]

/-- **C76 (step).** Every legal call succeeds and has the intended effect on every vector. -/
theorem C76_step (I : Nat) (m : Mem T) (s : Seqs T) (o : VOp T) (h : Reps m s) (hl : Legal I s o) :
    ∃ m', m.step I o = some m' ∧ Reps m' (Want I s o) := by
  cases o with
  | new cap => exact ⟨_, rfl, h.append (alloc_fresh m cap)⟩
  | newFill cap n v =>
    have hl' : n ≤ cap := hl
    obtain ⟨r, h1, F⟩ := allocWith_fresh m (cap := cap) (vs := List.replicate n v) (by simpa using hl')
    exact ⟨_, by simp only [Mem.step, h1, Option.map_some], h.append F⟩
  | copy r =>
    obtain ⟨x, hx⟩ := hl
    obtain ⟨v, hv, R⟩ := h.rep r x hx
    obtain ⟨y, h1, F⟩ := allocWith_fresh m (cap := x.1) (vs := x.2) R.fits
    refine ⟨_, by simp only [Mem.step, hv, elems_spec R, Option.bind_some, R.cap, h1, Option.map_some]; rfl, ?_⟩
    simp only [Want, hx]
    exact h.append F
  | copyAssign q r =>
    obtain ⟨⟨y, hy⟩, x, hx⟩ := hl
    obtain ⟨w, hw, Rw⟩ := h.rep q y hy
    by_cases e : q = r
    · subst e
      refine ⟨m, by simp [Mem.step, hw], ?_⟩
      simp only [Want]
      rw [set_self hx]; exact h
    · obtain ⟨v, hv, R⟩ := h.rep r x hx
      obtain ⟨m1, f1, f2, f3, f4, f5, f6⟩ := free_spec Rw
      have R1 : Rep m1 v x := R.congr (f4 _ (fun b hb hb' => e (h.sep q r w v b hw hv hb hb')))
      have E := h.erase hy hw f2 f4 f5 f6
      obtain ⟨z, h1, F⟩ := allocWith_fresh { m1 with vecs := m1.vecs.set q none } (cap := x.1) (vs := x.2) R.fits
      obtain ⟨z', h1', F'⟩ := allocWith_fresh m1 (cap := x.1) (vs := x.2) R.fits
      have hq := sq_lt hy
      have ez : z.1 = z'.1 ∧ z.2.blocks = z'.2.blocks := by
        unfold Mem.allocWith Mem.alloc at h1 h1'
        by_cases hc : x.1 = 0
        · simp only [hc, if_true, Mem.cells] at h1 h1'
          cases hk : construct ([] : List (Option T)) 0 x.2 with
          | none => simp [hk] at h1
          | some l => simp [hk, Mem.put] at h1 h1'; rw [← h1, ← h1']; exact ⟨rfl, rfl⟩
        · simp only [hc, if_false, Mem.cells, Mem.put] at h1 h1'
          simp only [List.length_append, Nat.lt_irrefl, List.getElem?_concat_length, Option.join_some] at h1 h1'
          cases hk : construct (List.replicate x.1 (none : Option T)) 0 x.2 with
          | none => simp [hk] at h1
          | some l => simp [hk] at h1 h1'; rw [← h1, ← h1']; exact ⟨rfl, rfl⟩
      refine ⟨{ z'.2 with vecs := z'.2.vecs.set q (some z'.1) }, ?_, ?_⟩
      · simp only [Mem.step, e, if_false, hw, hv, f1, elems_spec R1, Option.bind_some, R.cap, h1', Option.map_some]
      · have G := E.fill (by simpa using hq) (by rw [sq_set hq, if_pos rfl]) F
        simp only [Want, hx]
        rw [List.set_set] at G
        have : ({ z.2 with vecs := z.2.vecs.set q (some z.1) } : Mem T) = { z'.2 with vecs := z'.2.vecs.set q (some z'.1) } := by
          have hv1 := F.vecs
          have hv2 := F'.vecs
          have hg1 := F.gone
          have hg2 := F'.gone
          simp only [ez.1, ez.2, hv1, hv2, hg1, hg2, List.set_set]
        rw [this] at G
        exact G
  | move r =>
    obtain ⟨x, hx⟩ := hl
    obtain ⟨v, hv, R⟩ := h.rep r x hx
    have hr := sq_lt hx
    have hr' := h.lt hx
    refine ⟨_, by simp only [Mem.step, hv, Option.map_some]; rfl, ?_⟩
    simp only [Want]
    refine h.rename (by simp [h.len]) (fun q => if q = s.length then some r else if q = r then none else some q) ?_ ?_ ?_
      (fun q w hq => ?_)
    rotate_right
    · by_cases e1 : q = r
      · exact ⟨s.length, by simp [e1]⟩
      · have : q ≠ s.length := fun g => by
          unfold Mem.vec at hq
          rw [List.getElem?_eq_none (by rw [h.len]; omega)] at hq; simp at hq
        exact ⟨q, by simp [e1, this]⟩
    · intro a b c ha hb
      by_cases e1 : a = s.length <;> by_cases e2 : b = s.length <;> by_cases e3 : a = r <;> by_cases e4 : b = r <;>
        simp [e1, e2, e3, e4] at ha hb <;> omega
    · intro q
      rw [sq_append_one, List.length_set, sq_set hr]
      by_cases e1 : q = s.length
      · simp [e1]
      · by_cases e2 : q = r
        · subst e2; simp [e1]
        · simp [e1, e2]
    · intro q
      rw [join_append_one, List.length_set, join_set hr', h.len]
      by_cases e1 : q = s.length
      · simp [e1, hv]
      · by_cases e2 : q = r
        · subst e2; simp [e1]
        · simp [e1, e2, Mem.vec]
  | moveAssign q r =>
    obtain ⟨⟨y, hy⟩, x, hx⟩ := hl
    obtain ⟨w, hw, Rw⟩ := h.rep q y hy
    by_cases e : q = r
    · refine ⟨m, by simp [Mem.step, e ▸ hw, e], ?_⟩
      simp only [Want, e, if_true]; exact h
    · obtain ⟨v, hv, R⟩ := h.rep r x hx
      obtain ⟨m1, f1, f2, f3, f4, f5, f6⟩ := free_spec Rw
      have E := h.erase hy hw f2 f4 f5 f6
      have hq := sq_lt hy
      have hq' := h.lt hy
      have hr := sq_lt hx
      have hr' := h.lt hx
      refine ⟨{ m1 with vecs := (m1.vecs.set q (some v)).set r (some ⟨0, 0, none⟩) }, ?_, ?_⟩
      · simp only [Mem.step, e, if_false, hw, hv, f1, Option.bind_some, Option.map_some]
      · simp only [Want, e, if_false]
        refine E.rename (vs := (m1.vecs.set q (some v)).set r (some ⟨0, 0, none⟩)) (by simp [f2, h.len])
          (fun k => if k = r then none else if k = q then some r else some k) ?_ ?_ ?_
          (fun k u hk => ?_)
        rotate_right
        · by_cases e1 : k = r
          · exact ⟨q, by simp [e, e1]⟩
          · by_cases e2 : k = q
            · rw [e2] at hk
              unfold Mem.vec at hk
              simp only [] at hk
              rw [join_set (by simpa [f2] using hq'), if_pos rfl] at hk
              simp at hk
            · exact ⟨k, by simp [e1, e2]⟩
        · intro a b c ha hb
          by_cases e1 : a = r <;> by_cases e2 : b = r <;> by_cases e3 : a = q <;> by_cases e4 : b = q <;>
            simp [e1, e2, e3, e4] at ha hb <;> omega
        · intro k
          rw [sq_set (by simpa using hr), sq_set hq]
          by_cases e1 : k = r
          · simp [e1]
          · by_cases e2 : k = q
            · subst e2
              simp only [e1, if_false, if_true]
              rw [sq_set hq, if_neg (fun g => e g.symm)]
            · simp only [e1, e2, if_false]
              rw [sq_set hq, if_neg e2]
        · intro k
          rw [join_set (by simpa [f2] using hr'), join_set (by simpa [f2] using hq')]
          by_cases e1 : k = r
          · simp [e1]
          · by_cases e2 : k = q
            · subst e2
              simp only [e1, if_false, if_true]
              unfold Mem.vec
              simp only []
              rw [join_set (by simpa [f2] using hq'), if_neg (fun g => e g.symm), f2]
              exact hv.symm
            · simp only [e1, e2, if_false]
              unfold Mem.vec
              simp only []
              rw [join_set (by simpa [f2] using hq'), if_neg e2]
  | swap q r =>
    obtain ⟨⟨y, hy⟩, x, hx⟩ := hl
    obtain ⟨w, hw, Rw⟩ := h.rep q y hy
    obtain ⟨v, hv, R⟩ := h.rep r x hx
    have hq := sq_lt hy
    have hq' := h.lt hy
    have hr := sq_lt hx
    have hr' := h.lt hx
    refine ⟨_, by simp only [Mem.step, hw, hv, Option.bind_some, Option.map_some]; rfl, ?_⟩
    simp only [Want]
    refine h.rename (by simp [h.len]) (fun k => some (if k = r then q else if k = q then r else k)) ?_ ?_ ?_
      (fun k u _ => ⟨if k = r then q else if k = q then r else k, by
        by_cases e1 : k = r
        · by_cases e2 : q = r
          · simp [e1, e2]
          · simp [e1, e2]
        · by_cases e2 : k = q
          · simp [e1, e2]
          · simp [e1, e2]⟩)
    · intro a b c ha hb
      simp only [Option.some.injEq] at ha hb
      split at ha <;> split at hb <;> (try split at ha) <;> (try split at hb) <;> omega
    · intro k
      rw [sq_set (by simpa using hr), sq_set hq]
      by_cases e1 : k = r
      · simp [e1]
      · by_cases e2 : k = q
        · simp only [e1, e2, if_false, if_true]
          subst e2; simp [e1]
        · simp [e1, e2]
    · intro k
      rw [join_set (by simpa using hr'), join_set hq']
      by_cases e1 : k = r
      · simp [e1, hw]
      · by_cases e2 : k = q
        · subst e2; simp [e1, hv]
        · simp [e1, e2, Mem.vec]
  | destroy r =>
    obtain ⟨x, hx⟩ := hl
    obtain ⟨v, hv, R⟩ := h.rep r x hx
    obtain ⟨m1, f1, f2, f3, f4, f5, f6⟩ := free_spec R
    exact ⟨_, by simp only [Mem.step, hv, f1, Option.bind_some, Option.map_some], h.erase hx hv f2 f4 f5 f6⟩
  | set r i v =>
    obtain ⟨cap, c, hx, h1, h2⟩ := hl
    obtain ⟨_, _, R⟩ := h.rep r _ hx
    refine edit_reps h _ hx rfl (by simpa using R.fits) (fun w hc hs => ?_)
    have hi : i - I < c.length := by omega
    obtain ⟨u, hu⟩ := form_live R.fits hi
    simp only at hu
    simp only [hs, h1, h2, and_self, if_true, hu]
    rw [set_form R.fits hi, List.length_set]
  | assign r n v =>
    obtain ⟨cap, c, hx, h1, h2⟩ := hl
    obtain ⟨_, _, R⟩ := h.rep r _ hx
    refine edit_reps h _ hx rfl (by simpa using h1) (fun w hc hs => ?_)
    rw [assign_form R.fits hs hc (by simpa using h1), List.drop_eq_nil_of_le (by simpa using h2), List.append_nil]
  | assignOwn r n i => exact hl.elim
  | assignRange r vs =>
    obtain ⟨cap, c, hx, h1, h2⟩ := hl
    obtain ⟨_, _, R⟩ := h.rep r _ hx
    refine edit_reps h _ hx rfl h1 (fun w hc hs => ?_)
    rw [assign_form R.fits hs hc h1, List.drop_eq_nil_of_le h2, List.append_nil]
  | push r v =>
    obtain ⟨cap, c, hx, h1⟩ := hl
    refine edit_reps h _ hx rfl (by simp; omega) (fun w hc hs => ?_)
    simp only [hs, hc, h1, if_true, push_form h1, Option.map_some, List.length_append, List.length_singleton]
  | pop r =>
    obtain ⟨cap, c, hx, h1⟩ := hl
    obtain ⟨_, _, R⟩ := h.rep r _ hx
    have hf : c.length ≤ cap := R.fits
    refine edit_reps h _ hx rfl (by simp; omega) (fun w hc hs => ?_)
    have h0 : c.length ≠ 0 := fun e => h1 (List.eq_nil_of_length_eq_zero e)
    simp only [hs, ne_eq, h0, not_false_iff, if_true, pop_form hf h1, Option.map_some, List.length_dropLast]
  | clear r =>
    obtain ⟨⟨cap, c⟩, hx⟩ := hl
    obtain ⟨_, _, R⟩ := h.rep r _ hx
    have hf : c.length ≤ cap := R.fits
    refine edit_reps h _ hx rfl (by simp) (fun w hc hs => ?_)
    simp only [hs, destroy_form hf, Option.map_some, List.length_nil]

/-- No vectors. -/
def Mem.init : Mem T := ⟨[], [], []⟩

theorem reps_init : Reps (Mem.init : Mem T) [] := by
  refine ⟨rfl, ?_, ?_, ?_, ?_, ?_⟩ <;> intros <;> simp_all [sq, Mem.vec, Mem.init, Mem.cells]

theorem C76_runs (I : Nat) : ∀ (os : List (VOp T)) (m : Mem T) (s : Seqs T), Reps m s → Legals I s os →
    ∃ m', m.run I os = some m' ∧ Reps m' (Wants I s os)
  | [], m, s, h, _ => ⟨m, rfl, h⟩
  | o :: t, m, s, h, hl => by
    obtain ⟨m1, h1, h2⟩ := C76_step I m s o h hl.1
    obtain ⟨m2, h3, h4⟩ := C76_runs I t m1 _ h2 hl.2
    exact ⟨m2, by simp only [Mem.run, h1, Option.bind_some, h3], h4⟩

/-- What a user can observe of vector `r`: `size()`, `capacity()`, and `at(i)` for every `i`. -/
def Observed (I : Nat) (m : Mem T) (r cap : Nat) (c : List T) : Prop :=
  (∃ v, m.vec r = some v ∧ v.size = c.length ∧ v.cap = cap) ∧ c.length ≤ cap ∧
  (∀ k, k < c.length → m.at I r (I + k) = c[k]?) ∧ ∀ i, ¬ (I ≤ i ∧ i < I + c.length) → m.at I r i = none

theorem observed {I : Nat} {m : Mem T} {s : Seqs T} (h : Reps m s) {r cap : Nat} {c : List T} (hx : sq s r = some (cap, c)) :
    Observed I m r cap c := by
  obtain ⟨v, hv, R⟩ := h.rep r _ hx
  refine ⟨⟨v, hv, R.size, R.cap⟩, R.fits, fun k hk => ?_, fun i hi => ?_⟩
  · have hs : v.size = c.length := R.size
    have hm : m.cells v.data = some (form c cap) := R.mem
    have hf : c.length ≤ cap := R.fits
    simp only [Mem.at, hv, Option.bind_some]
    rw [if_pos (by omega), hm, Option.bind_some, form_get hf, if_pos (by omega), show I + k - I = k by omega]
    rw [List.getElem?_eq_getElem hk]; rfl
  · have hs : v.size = c.length := R.size
    simp only [Mem.at, hv, Option.bind_some]
    rw [if_neg (by omega)]

/-- **C76 (partial).** Starting from nothing, after every history of legal calls on any number of vectors — constructions, copies,
moves, swaps, destructions, `push_back`, `pop_back`, `clear`, writes and `assign` that does not shrink — every vector has exactly
the capacity, size and elements the specification names, its valid indices are `I .. I + size - 1`, its size does not exceed its
capacity, and no call was undefined: no cell was constructed twice or destroyed without an object (see `C76_no_leak` for what
becomes of the memory).

Missing: `assign` to fewer elements (`C76_assign_fails`) and `assign` of an own element (`C76_assign_own_fails`). -/
theorem C76_partial (I : Nat) (os : List (VOp T)) (hl : Legals I [] os) :
    ∃ m', (Mem.init : Mem T).run I os = some m' ∧
      ∀ (r cap : Nat) (c : List T), sq (Wants I [] os) r = some (cap, c) → Observed I m' r cap c := by
  obtain ⟨m', h1, h2⟩ := C76_runs I os _ _ reps_init hl
  exact ⟨m', h1, fun r cap c hx => observed h2 hx⟩

/-- **C76 (memory).** After every history of legal calls: every allocated block belongs to exactly one vector that still exists,
and the live objects in it are exactly that vector's elements; every released block was released without a live object in it; and
the block of a vector is not released.  So when every vector has been destroyed, nothing is allocated and no object is alive. -/
theorem C76_no_leak (I : Nat) (os : List (VOp T)) (hl : Legals I [] os) :
    ∃ m', (Mem.init : Mem T).run I os = some m' ∧
      (∀ (b : Nat) (l : List (Option T)), m'.blocks[b]? = some (some l) →
        ∃ r v cap c, m'.vec r = some v ∧ v.data = some b ∧ (∀ q w, m'.vec q = some w → w.data = some b → q = r) ∧
          sq (Wants I [] os) r = some (cap, c) ∧ l.length = cap ∧ l.filterMap id = c) ∧
      (∀ l ∈ m'.gone, l.filterMap id = []) ∧
      (∀ (r b : Nat) (v : Vec), m'.vec r = some v → v.data = some b → ∃ l, m'.blocks[b]? = some (some l)) ∧
      ((∀ r : Nat, sq (Wants I [] os) r = none) → ∀ b : Nat, ∀ l, m'.blocks[b]? ≠ some (some l)) := by
  obtain ⟨m', h1, h⟩ := C76_runs I os _ _ reps_init hl
  have live : ∀ (b : Nat) (l : List (Option T)), m'.blocks[b]? = some (some l) → m'.cells (some b) = some l := by
    intro b l hb; simp only [Mem.cells, hb, Option.join_some]
  refine ⟨m', h1, fun b l hb => ?_, fun l hl => ?_, fun r b v hv hb => ?_, fun hz b l hb => ?_⟩
  · obtain ⟨r, v, hv, hd⟩ := h.owned b l (live b l hb)
    rcases h.cases r with g | ⟨w, ⟨cap, c⟩, g1, g2, g3⟩
    · rw [g.2] at hv; simp at hv
    · rw [hv] at g2; cases g2
      refine ⟨r, v, cap, c, hv, hd, fun q w hq hw => h.sep q r w v b hq hv hw hd, g1, ?_, ?_⟩
      all_goals
        have hm := g3.mem
        rw [hd, live b l hb] at hm
        cases hm
      · exact form_length g3.fits
      · simp only [form, List.filterMap_append, List.filterMap_map, List.filterMap_replicate]
        simp
  · exact List.filterMap_eq_nil_iff.mpr (h.gone l hl)
  · rcases h.cases r with g | ⟨w, ⟨cap, c⟩, g1, g2, g3⟩
    · rw [g.2] at hv; simp at hv
    · rw [hv] at g2; cases g2
      have hm := g3.mem
      rw [hb] at hm
      simp only [Mem.cells] at hm
      exact ⟨_, Option.join_eq_some_iff.mp hm⟩
  · obtain ⟨r, v, hv, hd⟩ := h.owned b l (live b l hb)
    rw [h.dead r (hz r)] at hv
    simp at hv

/-- **C76 (assign, exactly).** `assign(n, v)` writes the first `n` elements and keeps the rest: the size only grows. -/
theorem C76_assign_exact (I : Nat) (m : Mem T) (s : Seqs T) (r cap n : Nat) (c : List T) (v : T) (h : Reps m s)
    (hx : sq s r = some (cap, c)) (hn : n ≤ cap) :
    ∃ m', m.step I (.assign r n v) = some m' ∧ Observed I m' r cap (List.replicate n v ++ c.drop n) := by
  obtain ⟨_, _, R⟩ := h.rep r _ hx
  obtain ⟨m', h1, h2⟩ := edit_reps (F := fun c => List.replicate n v ++ c.drop n) h (assignCells (List.replicate n v)) hx rfl
    (by have : c.length ≤ cap := R.fits
        simp; omega) (fun w hc hs => by
      have := assign_form (vs := List.replicate n v) R.fits hs hc (by simpa using hn)
      rw [List.length_replicate] at this
      exact this)
  refine ⟨m', h1, observed h2 ?_⟩
  simp only [onSeq, hx]
  rw [sq_set (sq_lt hx), if_pos rfl]

/-- **C76 fails for shrinking `assign`.** After `assign(1, 7)` on `[1, 2, 3]` the vector holds `[7, 2, 3]`, not `[7]`. -/
theorem C76_assign_fails : ∃ (os : List (VOp Nat)) (m' : Mem Nat),
    Mem.init.run 0 (os ++ [.assign 0 1 7]) = some m' ∧ sq (Wants 0 [] (os ++ [.assign 0 1 7])) 0 = some (3, [7]) ∧
    Legals 0 [] os ∧ m'.vec 0 = some ⟨3, 3, some 0⟩ ∧ m'.at 0 0 1 = some 2 ∧ m'.at 0 0 2 = some 3 := by
  refine ⟨[.new 3, .push 0 1, .push 0 2, .push 0 3], ⟨[some [some 7, some 2, some 3]], [some ⟨3, 3, some 0⟩], []⟩, rfl, rfl, ?_, rfl, rfl, rfl⟩
  refine ⟨trivial, ⟨3, [], rfl, by decide⟩, ⟨3, [1], rfl, by decide⟩, ⟨3, [1, 2], rfl, by decide⟩, trivial⟩

/-- **C76 fails for `assign` of an own element.** `v.assign(v.size(), v.front())` reads the element after destroying it. -/
theorem C76_assign_own_fails : ∃ (os : List (VOp Nat)) (m' : Mem Nat),
    Mem.init.run 0 os = some m' ∧ Legals 0 [] os ∧ m'.at 0 0 0 = some 1 ∧ m'.step 0 (.assignOwn 0 2 0) = none := by
  refine ⟨[.new 2, .push 0 1, .push 0 2], ⟨[some [some 1, some 2]], [some ⟨2, 2, some 0⟩], []⟩, rfl, ?_, rfl, rfl⟩
  exact ⟨trivial, ⟨2, [], rfl, by decide⟩, ⟨2, [1], rfl, by decide⟩, trivial⟩

/-- **C76: the constructor does not check** that the initial size fits; the elements are constructed outside the block. -/
theorem C76_ctor_fails (cap n : Nat) (v : T) (h : cap < n) (m : Mem T) : m.step 0 (.newFill cap n v) = none := by
  have key : ∀ (vs : List T) (l : List (Option T)) (p : Nat), p ≤ l.length → l.length < p + vs.length → construct l p vs = none := by
    intro vs
    induction vs with
    | nil => intro l p a b; simp at b; omega
    | cons x xs ih =>
      intro l p a b
      simp only [construct]
      rcases e : l[p]? with _ | _ | y
      · rfl
      · have : p < l.length := by
          rcases Nat.lt_or_ge p l.length with g | g
          · exact g
          · rw [List.getElem?_eq_none g] at e; simp at e
        exact ih _ _ (by simp; omega) (by simp at b ⊢; omega)
      · rfl
  have F := alloc_fresh m cap
  have hk := key (List.replicate n v) (form ([] : List T) cap) 0 (by simp) (by rw [form_length (by simp)]; simpa using h)
  simp only [Mem.step, Mem.allocWith, F.rep.mem, hk, Option.map_none]

/-- Two vectors with a common history: the copy keeps its own elements. -/
example : Legals (T := Nat) 10 [] [.new 2, .push 0 5, .copy 0, .set 1 10 6, .push 0 7, .pop 0, .move 0, .moveAssign 0 1, .destroy 2] ∧
    Wants (T := Nat) 10 [] [.new 2, .push 0 5, .copy 0, .set 1 10 6, .push 0 7, .pop 0, .move 0, .moveAssign 0 1, .destroy 2]
      = [some (2, [6]), some (0, []), none] := by
  refine ⟨⟨trivial, ⟨2, [], rfl, by decide⟩, ⟨_, rfl⟩, ⟨2, [5], rfl, by decide⟩, ⟨2, [5], rfl, by decide⟩, ⟨2, [5, 7], rfl, by decide⟩,
    ⟨_, rfl⟩, ⟨⟨_, rfl⟩, _, rfl⟩, ⟨_, rfl⟩, trivial⟩, rfl⟩

end Verif.Util
