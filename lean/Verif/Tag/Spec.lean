import Verif.Tag.Step

/-!
What a tag list is meant to do: every byte has its own map from tag ids to values, and the operations move, add
and remove bytes.  `cutS` and `cutE` say that bytes have been removed at the start, or at the end; growing a
side that has been cut is left unspecified (`none`), since there the code does not behave this way (C17).
-/
set_option linter.unusedSimpArgs false
set_option linter.unusedVariables false
namespace Verif.Tag

variable {V : Type}

structure SL (V : Type) where
  bytes : List (Nat → Option V)
  cutS : Bool
  cutE : Bool

/-- Put a tag on a byte: the first value of an id wins. -/
def mark (id : Nat) (v : V) (f : Nat → Option V) : Nat → Option V :=
  fun k => if k = id then (match f id with | some w => some w | none => some v) else f k

/-- A byte without tags. -/
def bare : Nat → Option V := fun _ => none

/-- Put a tag on a range of bytes. -/
def markRange (id : Nat) (v : V) (start size : Nat) (b : List (Nat → Option V)) : List (Nat → Option V) :=
  b.mapIdx fun k f => if start ≤ k ∧ k < start + size then mark id v f else f

def specOn (S : List (SL V)) (i : Nat) (f : SL V → Option (SL V)) : Option (List (SL V)) :=
  match S[i]? with
  | none => none
  | some x =>
    match f x with
    | none => none
    | some y => some (S.set i y)

def specStep (S : List (SL V)) : Op V → Option (List (SL V))
  | .new => some (S ++ [⟨[], false, false⟩])
  | .newCap cap n => if 0 < cap then some (S ++ [⟨List.replicate n bare, false, false⟩]) else none
  | .copy j =>
    match S[j]? with
    | none => none
    | some x => some (S ++ [x])
  | .assign i j =>
    match S[j]? with
    | none => none
    | some x => specOn S i fun _ => some x
  | .swap i j =>
    match S[i]?, S[j]? with
    | some x, some y => some ((S.set i y).set j x)
    | _, _ => none
  | .destroy i => specOn S i fun _ => some ⟨[], false, false⟩
  | .addStart i n => specOn S i fun x =>
      if x.cutS = false then some ⟨List.replicate n bare ++ x.bytes, false, x.cutE⟩ else none
  | .addEnd i n => specOn S i fun x =>
      if x.cutE = false then some ⟨x.bytes ++ List.replicate n bare, x.cutS, false⟩ else none
  | .removeStart i n => specOn S i fun x =>
      if n ≤ x.bytes.length then some ⟨x.bytes.drop n, x.cutS || decide (0 < n), x.cutE⟩ else none
  | .removeEnd i n => specOn S i fun x =>
      if n ≤ x.bytes.length then some ⟨x.bytes.take (x.bytes.length - n), x.cutS, x.cutE || decide (0 < n)⟩ else none
  | .insert i id v start size => specOn S i fun x =>
      if 0 < size ∧ start + size ≤ x.bytes.length then some ⟨markRange id v start size x.bytes, x.cutS, x.cutE⟩
      else none
  | .addListStart i j =>
    match S[j]? with
    | none => none
    | some y => specOn S i fun x =>
        if x.cutS = false ∧ y.cutE = false then some ⟨y.bytes ++ x.bytes, y.cutS, x.cutE⟩ else none
  | .addListEnd i j =>
    match S[j]? with
    | none => none
    | some y => specOn S i fun x =>
        if x.cutE = false ∧ y.cutS = false then some ⟨x.bytes ++ y.bytes, x.cutS, y.cutE⟩ else none

def specRun (S : List (SL V)) : List (Op V) → Option (List (SL V))
  | [] => some S
  | o :: os =>
    match specStep S o with
    | none => none
    | some S1 => specRun S1 os

/-- A list sees what its specification says. -/
structure Rel (v : View V) (x : SL V) : Prop where
  len : v.be = v.bs + (x.bytes.length : Int)
  found : ∀ (k : Nat) (f : Nat → Option V), x.bytes[k]? = some f → ∀ id, f id = lookup v.l id (v.bs + (k : Int))
  start : x.cutS = false → ∀ e ∈ v.l, v.bs ≤ e.st
  stop : x.cutE = false → ∀ e ∈ v.l, e.en ≤ v.be

def Match (L : List (View V)) (S : List (SL V)) : Prop :=
  L.length = S.length ∧ ∀ (i : Nat) (v : View V) (x : SL V), L[i]? = some v → S[i]? = some x → Rel v x

theorem Match.get {L : List (View V)} {S : List (SL V)} (m : Match L S) {i : Nat} {x : SL V} (h : S[i]? = some x) :
    ∃ v, L[i]? = some v ∧ Rel v x := by
  have hi := (List.getElem?_eq_some_iff.mp h).1
  rw [← m.1] at hi
  exact ⟨_, List.getElem?_eq_getElem hi, m.2 i _ x (List.getElem?_eq_getElem hi) h⟩

theorem Match.set {L : List (View V)} {S : List (SL V)} (m : Match L S) {i : Nat} {v : View V} {x : SL V}
    (r : Rel v x) : Match (L.set i v) (S.set i x) := by
  refine ⟨by simp [m.1], fun k w y hw hy => ?_⟩
  rw [List.getElem?_set] at hw hy
  by_cases e : i = k
  · subst e
    rw [if_pos rfl] at hw hy
    split at hw
    · split at hy
      · cases hw; cases hy; exact r
      · cases hy
    · cases hw
  · rw [if_neg e] at hw hy
    exact m.2 k w y hw hy

theorem Match.push {L : List (View V)} {S : List (SL V)} (m : Match L S) {v : View V} {x : SL V} (r : Rel v x) :
    Match (L ++ [v]) (S ++ [x]) := by
  refine ⟨by simp [m.1], fun k w y hw hy => ?_⟩
  by_cases hk : k < L.length
  · rw [List.getElem?_append_left hk] at hw
    rw [List.getElem?_append_left (m.1 ▸ hk)] at hy
    exact m.2 k w y hw hy
  · rw [List.getElem?_append_right (by omega)] at hw
    rw [List.getElem?_append_right (by have := m.1; omega), ← m.1] at hy
    cases hd : k - L.length with
    | zero => rw [hd] at hw hy; cases hw; cases hy; exact r
    | succ d => rw [hd] at hw; cases hw

theorem not_covers_start {l : List (Idx V)} {b p : Int} {id : Nat} (h : ∀ e ∈ l, b ≤ e.st) (hp : p < b) :
    lookup l id p = none := by
  cases hl : lookup l id p with
  | none => rfl
  | some v =>
    obtain ⟨e, he, _, hc, _⟩ := lookup_mem hl
    have := h e he
    simp [Idx.covers] at hc; omega

theorem not_covers_end {l : List (Idx V)} {b p : Int} {id : Nat} (h : ∀ e ∈ l, e.en ≤ b) (hp : b ≤ p) :
    lookup l id p = none := by
  cases hl : lookup l id p with
  | none => rfl
  | some v =>
    obtain ⟨e, he, _, hc, _⟩ := lookup_mem hl
    have := h e he
    simp [Idx.covers] at hc; omega

theorem rel_empty : Rel (⟨0, 0, []⟩ : View V) ⟨[], false, false⟩ :=
  ⟨by simp, by simp, by simp, by simp⟩

theorem rel_bare {v : View V} {n : Nat} (h : v.be = v.bs + n) (hl : v.l = []) :
    Rel v ⟨List.replicate n bare, false, false⟩ := by
  refine ⟨by simp [h], ?_, by simp [hl], by simp [hl]⟩
  intro k f hf id
  rw [List.getElem?_replicate] at hf
  split at hf
  · cases hf; simp [bare, hl, lookup]
  · cases hf

theorem rel_grow_start {v v' : View V} {x : SL V} {n : Nat} (r : Rel v x) (hx : x.cutS = false) (g : Grow n 0 v v') :
    Rel v' ⟨List.replicate n bare ++ x.bytes, false, x.cutE⟩ := by
  have e1 := g.bs
  have e2 := g.be
  have h1 : ∀ e ∈ v'.l, v.bs ≤ e.st := fun e he => r.start hx e (g.kept.2 e he)
  refine ⟨?_, ?_, ?_, ?_⟩
  · simp only [List.length_append, List.length_replicate]; have := r.len; push_cast; omega
  · intro k f hf id
    by_cases hk : k < n
    · rw [List.getElem?_append_left (by simpa using hk), List.getElem?_replicate, if_pos hk] at hf
      cases hf
      rw [not_covers_start h1 (by omega)]; rfl
    · rw [List.getElem?_append_right (by simpa using Nat.le_of_not_lt hk), List.length_replicate] at hf
      have hlt := (List.getElem?_eq_some_iff.mp hf).1
      have := r.len
      rw [r.found _ _ hf id, ← g.kept.lookup (id := id) (p := v.bs + ((k - n : Nat) : Int)) (by omega) (by omega)]
      congr 1; omega
  · intro _ e he; have := h1 e he; omega
  · intro hc e he
    have := r.stop hc e (g.kept.2 e he); omega

theorem rel_grow_end {v v' : View V} {x : SL V} {n : Nat} (r : Rel v x) (hx : x.cutE = false) (g : Grow 0 n v v') :
    Rel v' ⟨x.bytes ++ List.replicate n bare, x.cutS, false⟩ := by
  have e1 := g.bs
  have e2 := g.be
  have hlen := r.len
  have h1 : ∀ e ∈ v'.l, e.en ≤ v.be := fun e he => r.stop hx e (g.kept.2 e he)
  refine ⟨?_, ?_, ?_, ?_⟩
  · simp only [List.length_append, List.length_replicate]; push_cast; omega
  · intro k f hf id
    by_cases hk : k < x.bytes.length
    · rw [List.getElem?_append_left hk] at hf
      rw [r.found _ _ hf id, ← g.kept.lookup (id := id) (p := v.bs + (k : Int)) (by omega) (by omega)]
      congr 1; omega
    · rw [List.getElem?_append_right (by omega), List.getElem?_replicate] at hf
      split at hf
      · cases hf
        rw [not_covers_end h1 (by omega)]; rfl
      · cases hf
  · intro hc e he
    have := r.start hc e (g.kept.2 e he); omega
  · intro _ e he; have := h1 e he; omega

theorem rel_cut_start {v : View V} {x : SL V} {n : Nat} (r : Rel v x) (hn : n ≤ x.bytes.length) :
    Rel ⟨v.bs + n, v.be, v.l⟩ ⟨x.bytes.drop n, x.cutS || decide (0 < n), x.cutE⟩ := by
  have hlen := r.len
  refine ⟨by simp only [List.length_drop]; omega, ?_, ?_, r.stop⟩
  · intro k f hf id
    rw [List.getElem?_drop] at hf
    rw [r.found _ _ hf id]; congr 1; push_cast; omega
  · intro hc e he
    simp only [Bool.or_eq_false_iff, decide_eq_false_iff_not] at hc
    have := r.start hc.1 e he
    simp only []; omega

theorem rel_cut_end {v : View V} {x : SL V} {n : Nat} (r : Rel v x) (hn : n ≤ x.bytes.length) :
    Rel ⟨v.bs, v.be - n, v.l⟩ ⟨x.bytes.take (x.bytes.length - n), x.cutS, x.cutE || decide (0 < n)⟩ := by
  have hlen := r.len
  refine ⟨by simp only [List.length_take]; omega, ?_, r.start, ?_⟩
  · intro k f hf id
    rw [List.getElem?_take] at hf
    split at hf
    · exact r.found _ _ hf id
    · cases hf
  · intro hc e he
    simp only [Bool.or_eq_false_iff, decide_eq_false_iff_not] at hc
    have := r.stop hc.1 e he
    simp only []; omega

theorem rel_insert {v : View V} {x : SL V} {l : List (Idx V)} {id : Nat} {a : V} {start size : Nat} (r : Rel v x)
    (h : 0 < size ∧ start + size ≤ x.bytes.length) (k : Kept v.bs v.be v.l l) :
    Rel ⟨v.bs, v.be, l ++ [⟨id, a, v.bs + start, v.bs + start + size⟩]⟩ ⟨markRange id a start size x.bytes, x.cutS, x.cutE⟩ := by
  have hlen := r.len
  refine ⟨by simp only [markRange, List.length_mapIdx]; exact hlen, ?_, ?_, ?_⟩
  · intro j f hf id'
    simp only [markRange, List.getElem?_mapIdx] at hf
    cases hj : x.bytes[j]? with
    | none => rw [hj] at hf; cases hf
    | some g =>
      rw [hj] at hf
      have hlt := (List.getElem?_eq_some_iff.mp hj).1
      have hg := r.found _ _ hj
      simp only [Option.map_some, Option.some.injEq] at hf
      simp only []
      rw [lookup_append, k.lookup (by omega) (by omega), ← hg, lookup_one, ← hf]
      simp only []
      have hcov : (Idx.covers (⟨id, a, v.bs + start, v.bs + start + size⟩ : Idx V) (v.bs + j) = true) ↔
          (start ≤ j ∧ j < start + size) := by
        simp [Idx.covers]; omega
      by_cases hr : start ≤ j ∧ j < start + size
      · rw [if_pos hr]
        unfold mark
        by_cases hid : id' = id
        · subst hid
          rw [if_pos rfl, if_pos ⟨rfl, hcov.mpr hr⟩]
          cases g id' <;> rfl
        · rw [if_neg hid, if_neg (fun c => hid c.1.symm)]; simp
      · rw [if_neg hr, if_neg (fun c => hr (hcov.mp c.2))]; simp
  · intro hc e he
    rcases List.mem_append.mp he with h1 | h1
    · exact r.start hc e (k.2 e h1)
    · have := List.mem_singleton.mp h1; subst this; simp only []; omega
  · intro hc e he
    rcases List.mem_append.mp he with h1 | h1
    · exact r.stop hc e (k.2 e h1)
    · have := List.mem_singleton.mp h1; subst this; simp only []; omega

theorem rel_join_start {v v' w : View V} {x y : SL V} (r : Rel v x) (q : Rel w y) (hx : x.cutS = false) (hy : y.cutE = false)
    (j : Join (w.be - w.bs).toNat 0 (v'.bs - w.bs) w v v') :
    Rel v' ⟨y.bytes ++ x.bytes, y.cutS, x.cutE⟩ := by
  obtain ⟨u, g, e1, e2, hf, hm⟩ := j
  have l1 := r.len
  have l2 := q.len
  have g1 := g.bs
  have g2 := g.be
  have hs : ∀ e ∈ u.l, v.bs ≤ e.st := fun e he => r.start hx e (g.kept.2 e he)
  have hd : ((w.be - w.bs).toNat : Int) = y.bytes.length := by omega
  rw [hd] at g1
  refine ⟨by simp only [List.length_append]; push_cast; omega, ?_, ?_, ?_⟩
  · intro k f hk id
    have hlt := (List.getElem?_eq_some_iff.mp hk).1
    simp only [List.length_append] at hlt
    rw [hf id _ (by omega) (by omega)]
    by_cases hky : k < y.bytes.length
    · rw [List.getElem?_append_left hky] at hk
      rw [not_covers_start hs (by omega), q.found _ _ hk id]
      simp only [Option.none_or]; congr 1; omega
    · rw [List.getElem?_append_right (by omega)] at hk
      rw [not_covers_end (q.stop hy) (p := v'.bs + (k : Int) - (v'.bs - w.bs)) (by omega), Option.or_none]
      rw [r.found _ _ hk id, ← g.kept.lookup (id := id) (p := v.bs + ((k - y.bytes.length : Nat) : Int)) (by omega) (by omega)]
      congr 1; omega
  · intro hc e he
    rcases hm e he with h1 | ⟨e0, h1, h2, h3⟩
    · have := hs e h1; omega
    · have := q.start hc e0 h1
      subst h2; simp only []; omega
  · intro hc e he
    rcases hm e he with h1 | ⟨e0, h1, h2, h3⟩
    · have := r.stop hc e (g.kept.2 e h1); omega
    · have := q.stop hy e0 h1
      subst h2; simp only []; omega

theorem rel_join_end {v v' w : View V} {x y : SL V} (r : Rel v x) (q : Rel w y) (hx : x.cutE = false) (hy : y.cutS = false)
    (j : Join 0 (w.be - w.bs).toNat (v'.be - w.be) w v v') :
    Rel v' ⟨x.bytes ++ y.bytes, x.cutS, y.cutE⟩ := by
  obtain ⟨u, g, e1, e2, hf, hm⟩ := j
  have l1 := r.len
  have l2 := q.len
  have g1 := g.bs
  have g2 := g.be
  have hs : ∀ e ∈ u.l, e.en ≤ v.be := fun e he => r.stop hx e (g.kept.2 e he)
  have hd : ((w.be - w.bs).toNat : Int) = y.bytes.length := by omega
  rw [hd] at g2
  refine ⟨by simp only [List.length_append]; push_cast; omega, ?_, ?_, ?_⟩
  · intro k f hk id
    have hlt := (List.getElem?_eq_some_iff.mp hk).1
    simp only [List.length_append] at hlt
    rw [hf id _ (by omega) (by omega)]
    by_cases hky : k < x.bytes.length
    · rw [List.getElem?_append_left hky] at hk
      rw [not_covers_start (q.start hy) (p := v'.bs + (k : Int) - (v'.be - w.be)) (by omega), Option.or_none]
      rw [r.found _ _ hk id, ← g.kept.lookup (id := id) (p := v.bs + (k : Int)) (by omega) (by omega)]
      congr 1; omega
    · rw [List.getElem?_append_right (by omega)] at hk
      rw [not_covers_end hs (by omega), q.found _ _ hk id]
      simp only [Option.none_or]; congr 1; omega
  · intro hc e he
    rcases hm e he with h1 | ⟨e0, h1, h2, h3⟩
    · have := r.start hc e (g.kept.2 e h1); omega
    · have := q.start hy e0 h1
      subst h2; simp only []; omega
  · intro hc e he
    rcases hm e he with h1 | ⟨e0, h1, h2, h3⟩
    · have := hs e h1; omega
    · have := q.stop hc e0 h1
      subst h2; simp only []; omega

theorem specOn_some {S S' : List (SL V)} {i : Nat} {f : SL V → Option (SL V)} (h : specOn S i f = some S') :
    ∃ x y, S[i]? = some x ∧ f x = some y ∧ S' = S.set i y := by
  unfold specOn at h
  split at h
  · cases h
  · rename_i x hx
    split at h
    · cases h
    · rename_i y hy; exact ⟨x, y, hx, hy, (Option.some.inj h).symm⟩

theorem if_some {α : Type} {c : Prop} [Decidable c] {a b : α} (h : (if c then some a else none) = some b) : c ∧ a = b := by
  split at h
  · rename_i hc; exact ⟨hc, Option.some.inj h⟩
  · cases h

theorem lt_of {α : Type} {L : List α} {i : Nat} {x : α} (h : L[i]? = some x) : i < L.length :=
  (List.getElem?_eq_some_iff.mp h).1

theorem get_eq {α : Type} {L : List α} {i : Nat} {x y : α} (h : L[i]? = some x) (h' : L[i]? = some y) : x = y :=
  Option.some.inj (h.symm.trans h')

/-- One step of the code does what the specification says. -/
theorem spec_step {s : State V} {S S' : List (SL V)} {o : Op V} (b : TBase s.heap s.lists) (m : Match s.views S)
    (h : specStep S o = some S') :
    ∃ s', s.step o = some s' ∧ TBase s'.heap s'.lists ∧ Match s'.views S' := by
  cases o with
  | new =>
    cases h
    obtain ⟨s', h1, h2, h3⟩ := step_ok b .new trivial
    exact ⟨s', h1, h2, by rw [h3]; exact m.push rel_empty⟩
  | newCap cap n =>
    obtain ⟨hc, rfl⟩ := if_some h
    obtain ⟨s', h1, h2, v, h3, h4, h5⟩ := step_ok b (.newCap cap n) hc
    exact ⟨s', h1, h2, by rw [h3]; exact m.push (rel_bare h4 h5)⟩
  | copy j =>
    simp only [specStep] at h
    split at h
    · cases h
    · rename_i x hx
      cases h
      obtain ⟨v, hv, hr⟩ := m.get hx
      obtain ⟨s', h1, h2, v', h3, h4⟩ := step_ok b (.copy j) (lt_of hv)
      have := get_eq hv h3; subst this
      exact ⟨s', h1, h2, by rw [h4]; exact m.push hr⟩
  | assign i j =>
    simp only [specStep] at h
    split at h
    · cases h
    · rename_i x hx
      obtain ⟨y, z, hy, hz, rfl⟩ := specOn_some h
      cases hz
      obtain ⟨v, hv, hr⟩ := m.get hx
      obtain ⟨w, hw, _⟩ := m.get hy
      obtain ⟨s', h1, h2, v', h3, h4⟩ := step_ok b (.assign i j) ⟨lt_of hw, lt_of hv⟩
      have := get_eq hv h3; subst this
      exact ⟨s', h1, h2, by rw [h4]; exact m.set hr⟩
  | swap i j =>
    simp only [specStep] at h
    split at h
    · rename_i x y hx hy
      cases h
      obtain ⟨v, hv, hr⟩ := m.get hx
      obtain ⟨w, hw, hq⟩ := m.get hy
      obtain ⟨s', h1, h2, v', w', h3, h4, h5⟩ := step_ok b (.swap i j) ⟨lt_of hv, lt_of hw⟩
      have := get_eq hv h3; subst this
      have := get_eq hw h4; subst this
      exact ⟨s', h1, h2, by rw [h5]; exact (m.set hq).set hr⟩
    · cases h
  | destroy i =>
    simp only [specStep] at h
    obtain ⟨y, z, hy, hz, rfl⟩ := specOn_some h
    cases hz
    obtain ⟨w, hw, _⟩ := m.get hy
    obtain ⟨s', h1, h2, h3⟩ := step_ok b (.destroy i) (lt_of hw)
    exact ⟨s', h1, h2, by rw [h3]; exact m.set rel_empty⟩
  | addStart i n =>
    simp only [specStep] at h
    obtain ⟨x, z, hx, hz, rfl⟩ := specOn_some h
    obtain ⟨hc, rfl⟩ := if_some hz
    obtain ⟨w, hw, hr⟩ := m.get hx
    obtain ⟨s', h1, h2, v, v', h3, h4, h5⟩ := step_ok b (.addStart i n) (lt_of hw)
    have := get_eq hw h3; subst this
    exact ⟨s', h1, h2, by rw [h5]; exact m.set (rel_grow_start hr hc h4)⟩
  | addEnd i n =>
    simp only [specStep] at h
    obtain ⟨x, z, hx, hz, rfl⟩ := specOn_some h
    obtain ⟨hc, rfl⟩ := if_some hz
    obtain ⟨w, hw, hr⟩ := m.get hx
    obtain ⟨s', h1, h2, v, v', h3, h4, h5⟩ := step_ok b (.addEnd i n) (lt_of hw)
    have := get_eq hw h3; subst this
    exact ⟨s', h1, h2, by rw [h5]; exact m.set (rel_grow_end hr hc h4)⟩
  | removeStart i n =>
    simp only [specStep] at h
    obtain ⟨x, z, hx, hz, rfl⟩ := specOn_some h
    obtain ⟨hc, rfl⟩ := if_some hz
    obtain ⟨w, hw, hr⟩ := m.get hx
    have := hr.len
    obtain ⟨s', h1, h2, v, h3, h5⟩ := step_ok b (.removeStart i n) ⟨w, hw, by omega⟩
    have := get_eq hw h3; subst this
    exact ⟨s', h1, h2, by rw [h5]; exact m.set (rel_cut_start hr hc)⟩
  | removeEnd i n =>
    simp only [specStep] at h
    obtain ⟨x, z, hx, hz, rfl⟩ := specOn_some h
    obtain ⟨hc, rfl⟩ := if_some hz
    obtain ⟨w, hw, hr⟩ := m.get hx
    have := hr.len
    obtain ⟨s', h1, h2, v, h3, h5⟩ := step_ok b (.removeEnd i n) ⟨w, hw, by omega⟩
    have := get_eq hw h3; subst this
    exact ⟨s', h1, h2, by rw [h5]; exact m.set (rel_cut_end hr hc)⟩
  | insert i id a start size =>
    simp only [specStep] at h
    obtain ⟨x, z, hx, hz, rfl⟩ := specOn_some h
    obtain ⟨hc, rfl⟩ := if_some hz
    obtain ⟨w, hw, hr⟩ := m.get hx
    have := hr.len
    obtain ⟨s', h1, h2, v, l, h3, h4, h5⟩ := step_ok b (.insert i id a start size) ⟨hc.1, w, hw, by omega⟩
    have := get_eq hw h3; subst this
    exact ⟨s', h1, h2, by rw [h5]; exact m.set (rel_insert hr hc h4)⟩
  | addListStart i j =>
    simp only [specStep] at h
    split at h
    · cases h
    · rename_i y hy
      obtain ⟨x, z, hx, hz, rfl⟩ := specOn_some h
      obtain ⟨hc, rfl⟩ := if_some hz
      obtain ⟨v, hv, hr⟩ := m.get hx
      obtain ⟨w, hw, hq⟩ := m.get hy
      obtain ⟨s', h1, h2, v1, w1, v', h3, h4, h5, h6⟩ := step_ok b (.addListStart i j) ⟨lt_of hv, lt_of hw⟩
      have := get_eq hv h3; subst this
      have := get_eq hw h4; subst this
      exact ⟨s', h1, h2, by rw [h6]; exact m.set (rel_join_start hr hq hc.1 hc.2 h5)⟩
  | addListEnd i j =>
    simp only [specStep] at h
    split at h
    · cases h
    · rename_i y hy
      obtain ⟨x, z, hx, hz, rfl⟩ := specOn_some h
      obtain ⟨hc, rfl⟩ := if_some hz
      obtain ⟨v, hv, hr⟩ := m.get hx
      obtain ⟨w, hw, hq⟩ := m.get hy
      obtain ⟨s', h1, h2, v1, w1, v', h3, h4, h5, h6⟩ := step_ok b (.addListEnd i j) ⟨lt_of hv, lt_of hw⟩
      have := get_eq hv h3; subst this
      have := get_eq hw h4; subst this
      exact ⟨s', h1, h2, by rw [h6]; exact m.set (rel_join_end hr hq hc.1 hc.2 h5)⟩

end Verif.Tag
