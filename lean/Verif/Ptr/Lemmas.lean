import Verif.Ptr.Model
set_option linter.unusedSimpArgs false
set_option linter.unusedVariables false
/-! Counting holders of references. -/
namespace Verif.Ptr

def ind (p : Ref → Bool) : Option Ref → Nat
  | none => 0
  | some r => if p r then 1 else 0

def cnt (p : Ref → Bool) (l : List (Option Ref)) : Nat := (l.map (ind p)).sum

def cellCnt (p : Ref → Bool) (x : Cell) : Nat := if x.alive then cnt p x.fields else 0

def tally (p : Ref → Bool) (s : State) (P : List Ref) : Nat :=
  cnt p s.vars + (s.cells.map (cellCnt p)).sum + s.raw.countP p + P.countP p

def held (sh : Shape) (c : Nat) (r : Ref) : Bool := decide (counter sh r = some c)

theorem cnt_filterMap (p : Ref → Bool) : ∀ l : List (Option Ref), (l.filterMap id).countP p = cnt p l
  | [] => rfl
  | none :: t => by
    have := cnt_filterMap p t
    simp only [List.filterMap_cons, id, this, cnt, List.map_cons, List.sum_cons, ind]; omega
  | some r :: t => by
    have := cnt_filterMap p t
    simp only [List.filterMap_cons, id, List.countP_cons, this, cnt, List.map_cons, List.sum_cons, ind]; omega

theorem cnt_set {p : Ref → Bool} {l : List (Option Ref)} {i : Nat} {o v : Option Ref} (h : l[i]? = some o) :
    cnt p (l.set i v) + ind p o = cnt p l + ind p v := sum_set (ind p) h

theorem modify_eq_set {α : Type} {l : List α} {i : Nat} {x : α} {f : α → α} (h : l[i]? = some x) :
    l.modify i f = l.set i (f x) := by
  apply List.ext_getElem?
  intro j
  have hl := (List.getElem?_eq_some_iff.mp h).1
  rw [List.getElem?_modify, List.getElem?_set]
  by_cases e : i = j
  · subst e; rw [h]; simp [hl]
  · simp [e]

theorem map_set_same {α β : Type} (f : α → β) {l : List α} {i : Nat} {x y : α} (h : l[i]? = some x) (e : f y = f x) :
    (l.set i y).map f = l.map f := by
  rw [List.map_set, e]
  apply List.ext_getElem?
  intro j
  rw [List.getElem?_set]
  split
  · rename_i hj; subst hj
    have := (List.getElem?_eq_some_iff.mp h).1
    rw [List.getElem?_map, h]; simp [this]
  · rfl

theorem get_field {s : State} {c k : Nat} {o : Option Ref} (h : s.get (.field c k) = some o) :
    ∃ x, s.cells[c]? = some x ∧ x.alive = true ∧ x.fields[k]? = some o := by
  unfold State.get at h
  dsimp only at h
  cases e : s.cells[c]? with
  | none => rw [e] at h; cases h
  | some x =>
    rw [e] at h; dsimp only at h
    cases ea : x.alive with
    | false => rw [ea] at h; simp at h
    | true => rw [ea] at h; simp at h; exact ⟨x, rfl, ea, h⟩

theorem put_field {s : State} {c k : Nat} {v : Option Ref} {x : Cell} (h : s.cells[c]? = some x) :
    s.put (.field c k) v = { s with cells := s.cells.set c { x with fields := x.fields.set k v } } := by
  show State.mk _ _ _ = _
  rw [modify_eq_set h]

theorem tally_put {p : Ref → Bool} {s : State} {l : Loc} {o v : Option Ref} {P : List Ref} (h : s.get l = some o) :
    tally p (s.put l v) P + ind p o = tally p s P + ind p v := by
  cases l with
  | var i =>
    have := cnt_set (p := p) (v := v) (show s.vars[i]? = some o from h)
    unfold tally State.put; dsimp only; omega
  | field c k =>
    obtain ⟨x, hx, ha, hk⟩ := get_field h
    rw [put_field hx]
    have h1 := cnt_set (p := p) (v := v) hk
    have h2 := sum_set (cellCnt p) (y := { x with fields := x.fields.set k v }) hx
    have e1 : cellCnt p x = cnt p x.fields := by unfold cellCnt; rw [if_pos ha]
    have e2 : cellCnt p { x with fields := x.fields.set k v } = cnt p (x.fields.set k v) := by
      unfold cellCnt; rw [if_pos ha]
    unfold tally; dsimp only; omega

theorem shape_put {s : State} {l : Loc} {v : Option Ref} : (s.put l v).shape = s.shape := by
  cases l with
  | var i => rfl
  | field c k =>
    cases e : s.cells[c]? with
    | none =>
      have : s.put (.field c k) v = s := by
        have : s.cells.modify c (fun x => { x with fields := x.fields.set k v }) = s.cells := by
          apply List.ext_getElem?
          intro j
          rw [List.getElem?_modify]
          by_cases h : c = j
          · subst h; rw [e]; rfl
          · simp [h]
        show State.mk _ _ _ = _
        rw [this]
      rw [this]
    | some x => rw [put_field e]; exact map_set_same (y := { x with fields := x.fields.set k v }) (fun x : Cell => x.parts) e rfl

theorem length_shape {s s' : State} (h : s'.shape = s.shape) : s'.cells.length = s.cells.length := by
  have := congrArg List.length h
  simpa [State.shape] using this

/-- What changes the count of a cell only. -/
theorem shape_set {s : State} {c : Nat} {x y : Cell} (h : s.cells[c]? = some x) (e : y.parts = x.parts) :
    ({ s with cells := s.cells.set c y } : State).shape = s.shape := map_set_same (fun x : Cell => x.parts) h e

theorem getElem?_set_of {α : Type} {l : List α} {i j : Nat} {x y z : α} (h : l[i]? = some x) :
    (l.set i y)[j]? = some z ↔ (j = i ∧ z = y) ∨ (j ≠ i ∧ l[j]? = some z) := by
  have hl := (List.getElem?_eq_some_iff.mp h).1
  rw [List.getElem?_set]
  by_cases e : i = j
  · subst e; simp [hl]; exact eq_comm
  · rw [if_neg e]; constructor
    · exact fun h => Or.inr ⟨fun h => e h.symm, h⟩
    · rintro (⟨h, _⟩ | ⟨_, h⟩)
      · exact absurd h.symm e
      · exact h

/-! ### The invariant -/

/-- The part exists, and so do the parts it forwards to. -/
def wf (sh : Shape) (r : Ref) : Bool :=
  match (sh[r.cell]?).bind (·[r.part]?) with
  | some (.to q) => if q.before r then wf sh q else false
  | some _ => true
  | none => false
termination_by (r.cell, r.part)
decreasing_by
  rename_i h
  rcases h with h | ⟨h1, h2⟩
  · exact Prod.Lex.left _ _ h
  · rw [h1]; exact Prod.Lex.right _ h2

/-- `P` are references about to be released; `x` is an object that has just been made. -/
structure Inv (s : State) (P : List Ref) (x : Option Nat) : Prop where
  valid : tally (fun r => !wf s.shape r) s P = 0
  alive : ∀ (c : Nat) (y : Cell), s.cells[c]? = some y → y.alive = true → y.count = tally (held s.shape c) s P
  dead : ∀ (c : Nat) (y : Cell), s.cells[c]? = some y → y.alive = false → tally (held s.shape c) s P = 0
  pos : ∀ (c : Nat) (y : Cell), s.cells[c]? = some y → y.alive = true → y.parts[0]? = some .self → some c ≠ x → 0 < y.count

theorem countP_cons_ind (p : Ref → Bool) (r : Ref) (P : List Ref) : (r :: P).countP p = P.countP p + ind p (some r) := by
  rw [List.countP_cons]; rfl

theorem tally_cons {p : Ref → Bool} {s : State} {r : Ref} {P : List Ref} :
    tally p s (r :: P) = tally p s P + ind p (some r) := by
  unfold tally; rw [countP_cons_ind]; omega

/-- Release keeps everything but counts and life. -/
structure Later (s s' : State) : Prop where
  shape : s'.shape = s.shape
  vars : s'.vars = s.vars
  raw : s'.raw = s.raw
  cell : ∀ (c : Nat) (y' : Cell), s'.cells[c]? = some y' →
    ∃ y, s.cells[c]? = some y ∧ y'.parts = y.parts ∧ y'.fields = y.fields ∧ (y'.alive = true → y.alive = true)

theorem Later.refl (s : State) : Later s s := ⟨rfl, rfl, rfl, fun c y h => ⟨y, h, rfl, rfl, id⟩⟩

theorem Later.trans {s t u : State} (h : Later s t) (g : Later t u) : Later s u :=
  ⟨g.shape.trans h.shape, g.vars.trans h.vars, g.raw.trans h.raw, fun c y hy => by
    obtain ⟨y1, h1, a1, b1, c1⟩ := g.cell c y hy
    obtain ⟨y2, h2, a2, b2, c2⟩ := h.cell c y1 h1
    exact ⟨y2, h2, a1.trans a2, b1.trans b2, fun h => c2 (c1 h)⟩⟩

theorem later_set {s : State} {c : Nat} {x y : Cell} (h : s.cells[c]? = some x) (e1 : y.parts = x.parts)
    (e2 : y.fields = x.fields) (e3 : y.alive = true → x.alive = true) :
    Later s { s with cells := s.cells.set c y } := by
  refine ⟨shape_set h e1, rfl, rfl, fun d z hz => ?_⟩
  rcases (getElem?_set_of h).mp hz with ⟨rfl, rfl⟩ | ⟨_, hz⟩
  · exact ⟨x, h, e1, e2, e3⟩
  · exact ⟨z, hz, rfl, rfl, id⟩

/-- Where `release` goes. -/
theorem release_cases {s s' : State} {r : Ref} {Q : List Ref} (h : s.release r = some (s', Q)) :
    s.live r = true ∧
    ((counter s.shape r = none ∧ s' = s ∧ Q = []) ∨
     ∃ c x, counter s.shape r = some c ∧ s.cells[c]? = some x ∧
      ((x.count = 1 ∧ s' = { s with cells := s.cells.set c { x with alive := false, count := 0 } } ∧ Q = (x.fields.filterMap id).reverse) ∨
       (2 ≤ x.count ∧ s' = { s with cells := s.cells.set c { x with count := x.count - 1 } } ∧ Q = []))) := by
  unfold State.release at h
  split at h
  · rename_i hl
    refine ⟨hl, ?_⟩
    split at h
    · rename_i hc; cases h; exact Or.inl ⟨hc, rfl, rfl⟩
    · rename_i c hc
      split at h
      · cases h
      · rename_i x hx
        right; refine ⟨c, x, hc, hx, ?_⟩
        split at h
        · cases h
        · split at h
          · rename_i h0 h1; cases h; exact Or.inl ⟨h1, rfl, rfl⟩
          · rename_i h0 h1; cases h; exact Or.inr ⟨by omega, rfl, rfl⟩
  · cases h

theorem release_later {s s' : State} {r : Ref} {Q : List Ref} (h : s.release r = some (s', Q)) : Later s s' := by
  obtain ⟨_, ⟨_, rfl, _⟩ | ⟨c, x, _, hx, ⟨_, rfl, _⟩ | ⟨_, rfl, _⟩⟩⟩ := release_cases h
  · exact Later.refl _
  · exact later_set hx rfl rfl (fun h => by cases h)
  · exact later_set hx rfl rfl id

theorem Inv.congr {s : State} {P Q : List Ref} {x : Option Nat} (h : Inv s P x)
    (e : ∀ p : Ref → Bool, P.countP p = Q.countP p) : Inv s Q x := by
  have t : ∀ p : Ref → Bool, tally p s Q = tally p s P := fun p => by unfold tally; rw [e]
  exact ⟨by rw [t]; exact h.valid, fun c y hy ha => by rw [t]; exact h.alive c y hy ha,
    fun c y hy ha => by rw [t]; exact h.dead c y hy ha, h.pos⟩

theorem release_inv {s s' : State} {r : Ref} {P Q : List Ref} {x : Option Nat} (hI : Inv s (r :: P) x)
    (h : s.release r = some (s', Q)) : Inv s' (Q ++ P) x := by
  obtain ⟨_, ⟨hc, rfl, rfl⟩ | ⟨c, y, hc, hy, ⟨h1, rfl, rfl⟩ | ⟨h1, rfl, rfl⟩⟩⟩ := release_cases h
  · -- not counted
    have t : ∀ c, held s'.shape c r = false := fun c => by unfold held; rw [hc]; rfl
    refine ⟨?_, fun c y hy ha => ?_, fun c y hy ha => ?_, hI.pos⟩
    · have := hI.valid; rw [tally_cons] at this; simp only [List.nil_append]; omega
    · have := hI.alive c y hy ha; rw [tally_cons] at this
      simp only [ind, t c, Bool.false_eq_true, if_false, Nat.add_zero] at this; exact this
    · have := hI.dead c y hy ha; rw [tally_cons] at this; simp only [List.nil_append]; omega
  · -- destroyed
    have ya : y.alive = true := by
      cases ea : y.alive with
      | true => rfl
      | false =>
        have := hI.dead c y hy ea
        rw [tally_cons] at this
        have e : ind (held s.shape c) (some r) = 1 := by unfold ind held; simp [hc]
        omega
    have key : ∀ p : Ref → Bool, tally p { s with cells := s.cells.set c { y with alive := false, count := 0 } }
        ((y.fields.filterMap id).reverse ++ P) = tally p s P := fun p => by
      have h2 := sum_set (cellCnt p) (y := { y with alive := false, count := 0 }) hy
      have e1 : cellCnt p y = cnt p y.fields := by unfold cellCnt; rw [if_pos ya]
      have e2 : cellCnt p { y with alive := false, count := 0 } = 0 := by unfold cellCnt; simp
      unfold tally; dsimp only
      rw [List.countP_append, List.countP_reverse, cnt_filterMap]; omega
    have hsh : ({ s with cells := s.cells.set c { y with alive := false, count := 0 } } : State).shape = s.shape := shape_set hy rfl
    refine ⟨?_, fun d z hz ha => ?_, fun d z hz ha => ?_, fun d z hz ha hp hx => ?_⟩
    · rw [key, hsh]
      have := hI.valid; rw [tally_cons] at this; omega
    · rw [key, hsh]
      rcases (getElem?_set_of hy).mp hz with ⟨rfl, rfl⟩ | ⟨hn, hz⟩
      · cases ha
      · have := hI.alive d z hz ha; rw [tally_cons] at this
        have e : ind (held s.shape d) (some r) = 0 := by unfold ind held; simp [hc, Ne.symm hn]
        omega
    · rw [key, hsh]
      rcases (getElem?_set_of hy).mp hz with ⟨rfl, rfl⟩ | ⟨hn, hz⟩
      · have := hI.alive _ y hy ya; rw [tally_cons] at this
        have e : ind (held s.shape d) (some r) = 1 := by unfold ind held; simp [hc]
        omega
      · have := hI.dead d z hz ha; rw [tally_cons] at this; omega
    · rcases (getElem?_set_of hy).mp hz with ⟨rfl, rfl⟩ | ⟨hn, hz⟩
      · cases ha
      · exact hI.pos d z hz ha hp hx
  · -- still referenced
    have ya : y.alive = true := by
      cases ea : y.alive with
      | true => rfl
      | false =>
        have := hI.dead c y hy ea
        rw [tally_cons] at this
        have e : ind (held s.shape c) (some r) = 1 := by unfold ind held; simp [hc]
        omega
    have key : ∀ p : Ref → Bool, tally p { s with cells := s.cells.set c { y with count := y.count - 1 } } P = tally p s P := fun p => by
      have h2 := sum_set (cellCnt p) (y := { y with count := y.count - 1 }) hy
      have e1 : cellCnt p { y with count := y.count - 1 } = cellCnt p y := rfl
      unfold tally; dsimp only; omega
    have hsh : ({ s with cells := s.cells.set c { y with count := y.count - 1 } } : State).shape = s.shape := shape_set hy rfl
    rw [List.nil_append]
    refine ⟨?_, fun d z hz ha => ?_, fun d z hz ha => ?_, fun d z hz ha hp hx => ?_⟩
    · rw [key, hsh]
      have := hI.valid; rw [tally_cons] at this; omega
    · rw [key, hsh]
      rcases (getElem?_set_of hy).mp hz with ⟨rfl, rfl⟩ | ⟨hn, hz⟩
      · have := hI.alive _ y hy ya; rw [tally_cons] at this
        have e : ind (held s.shape d) (some r) = 1 := by unfold ind held; simp [hc]
        dsimp only; omega
      · have := hI.alive d z hz ha; rw [tally_cons] at this
        have e : ind (held s.shape d) (some r) = 0 := by unfold ind held; simp [hc, Ne.symm hn]
        omega
    · rw [key, hsh]
      rcases (getElem?_set_of hy).mp hz with ⟨rfl, rfl⟩ | ⟨hn, hz⟩
      · dsimp only at ha; rw [ya] at ha; cases ha
      · have := hI.dead d z hz ha; rw [tally_cons] at this; omega
    · rcases (getElem?_set_of hy).mp hz with ⟨rfl, rfl⟩ | ⟨hn, hz⟩
      · dsimp only; omega
      · exact hI.pos d z hz ha hp hx

theorem drain_nil (s : State) : drain [] s = some s := by rw [drain]

theorem drain_cons (r : Ref) (P : List Ref) (s : State) :
    drain (r :: P) s = match s.release r with | none => none | some (s', Q) => drain (Q ++ P) s' := by
  rw [drain]
  cases h : s.release r with
  | none => simp
  | some v => simp

/-- Induction over the releases. -/
theorem drain_ind {motive : List Ref → State → State → Prop} (nil : ∀ s, motive [] s s)
    (cons : ∀ r P s s1 Q s', s.release r = some (s1, Q) → drain (Q ++ P) s1 = some s' → motive (Q ++ P) s1 s' → motive (r :: P) s s') :
    ∀ (P : List Ref) (s s' : State), drain P s = some s' → motive P s s' := by
  intro P s
  induction P, s using drain.induct with
  | case1 s => intro s' h; rw [drain_nil] at h; cases h; exact nil _
  | case2 s r P h => intro s' h'; rw [drain_cons, h] at h'; cases h'
  | case3 s r P s1 Q h ih =>
    intro s' h'
    rw [drain_cons, h] at h'
    exact cons r P s s1 Q s' h h' (ih s' h')

theorem drain_later {P : List Ref} {s s' : State} (h : drain P s = some s') : Later s s' :=
  drain_ind (motive := fun _ s s' => Later s s') (fun s => Later.refl s)
    (fun _ _ _ _ _ _ h _ ih => (release_later h).trans ih) P s s' h

theorem drain_inv {P : List Ref} {s s' : State} {x : Option Nat} (h : drain P s = some s') : Inv s P x → Inv s' [] x :=
  drain_ind (motive := fun P s s' => Inv s P x → Inv s' [] x) (fun s h => h)
    (fun _ _ _ _ _ _ h _ ih hI => ih (release_inv hI h)) P s s' h

end Verif.Ptr
