import Verif.Util.VecModel
set_option linter.unusedSimpArgs false
set_option linter.unusedVariables false

namespace Verif.Util

variable {T : Type}

/-- The cells of a vector holding `c`, in a block of `cap` cells. -/
def form (c : List T) (cap : Nat) : List (Option T) := c.map some ++ List.replicate (cap - c.length) none

theorem form_length {c : List T} {cap : Nat} (h : c.length ≤ cap) : (form c cap).length = cap := by
  simp [form]; omega

theorem form_get {c : List T} {cap i : Nat} (h : c.length ≤ cap) :
    (form c cap)[i]? = if i < c.length then (c[i]?).map some else if i < cap then some none else none := by
  unfold form
  rw [List.getElem?_append]
  simp only [List.length_map, List.getElem?_map, List.getElem?_replicate]
  split
  · rfl
  · by_cases h2 : i < cap
    · rw [if_pos (by omega), if_pos h2]
    · rw [if_neg (by omega), if_neg h2]

theorem ext_opt {α : Type} {l l' : List α} (h : ∀ i : Nat, l[i]? = l'[i]?) : l = l' := List.ext_getElem? h

/-- What the constructing loop leaves. -/
theorem construct_spec : ∀ (vs : List T) (l : List (Option T)) (p : Nat), (∀ i : Nat, p ≤ i → i < p + vs.length → l[i]? = some none) →
    ∃ l', construct l p vs = some l' ∧ l'.length = l.length ∧
      ∀ i : Nat, l'[i]? = if p ≤ i ∧ i < p + vs.length then (vs[i - p]?).map some else l[i]?
  | [], l, p, _ => ⟨l, rfl, rfl, fun i => by rw [if_neg (by simp)]⟩
  | v :: vs, l, p, h => by
    simp only [List.length_cons] at h
    have hp0 := h p (Nat.le_refl _) (by omega)
    have hp : p < l.length := by
      rcases Nat.lt_or_ge p l.length with g | g
      · exact g
      · rw [List.getElem?_eq_none g] at hp0; simp at hp0
    obtain ⟨l', h1, h2, h3⟩ := construct_spec vs (l.set p (some v)) (p + 1) (fun i a b => by
      rw [List.getElem?_set_ne (by omega)]; exact h i (by omega) (by omega))
    refine ⟨l', by simp only [construct, hp0]; exact h1, by simp [h2], fun i => ?_⟩
    rw [h3 i]
    by_cases e : i = p
    · subst e
      rw [if_neg (by omega), if_pos (by simp)]
      simp [hp]
    · by_cases g : p + 1 ≤ i ∧ i < p + 1 + vs.length
      · rw [if_pos g, if_pos (by simp only [List.length_cons]; omega)]
        have : i - p = (i - (p + 1)) + 1 := by omega
        rw [this, List.getElem?_cons_succ]
      · rw [if_neg g, if_neg (by simp only [List.length_cons]; omega), List.getElem?_set_ne (by omega)]

/-- What the destroying loop leaves. -/
theorem destroyN_spec : ∀ (n : Nat) (l : List (Option T)) (p : Nat),
    (∀ i : Nat, p ≤ i → i < p + n → ∃ v, l[i]? = some (some v)) →
    ∃ l', destroyN l p n = some l' ∧ l'.length = l.length ∧
      ∀ i : Nat, l'[i]? = if p ≤ i ∧ i < p + n then some none else l[i]?
  | 0, l, p, _ => ⟨l, rfl, rfl, fun i => by rw [if_neg (by omega)]⟩
  | n + 1, l, p, h => by
    obtain ⟨v, hv⟩ := h p (Nat.le_refl _) (by omega)
    have hp : p < l.length := by
      rcases Nat.lt_or_ge p l.length with g | g
      · exact g
      · rw [List.getElem?_eq_none g] at hv; simp at hv
    obtain ⟨l', h1, h2, h3⟩ := destroyN_spec n (l.set p none) (p + 1) (fun i a b => by
      obtain ⟨w, hw⟩ := h i (by omega) (by omega)
      exact ⟨w, by rw [List.getElem?_set_ne (by omega)]; exact hw⟩)
    refine ⟨l', by simp only [destroyN, hv]; exact h1, by simp [h2], fun i => ?_⟩
    rw [h3 i]
    by_cases e : i = p
    · subst e
      rw [if_neg (by omega), if_pos (by omega)]
      simp [hp]
    · by_cases g : p + 1 ≤ i ∧ i < p + 1 + n
      · rw [if_pos g, if_pos (by omega)]
      · rw [if_neg g, if_neg (by omega), List.getElem?_set_ne (by omega)]

theorem readN_spec : ∀ (c : List T) (l : List (Option T)) (p : Nat),
    (∀ i : Nat, i < c.length → l[p + i]? = (c[i]?).map some) → readN l p c.length = some c
  | [], l, p, _ => rfl
  | v :: c, l, p, h => by
    have h0 := h 0 (by simp)
    simp only [Nat.add_zero, List.getElem?_cons_zero, Option.map_some] at h0
    have ih := readN_spec c l (p + 1) (fun i hi => by
      have := h (i + 1) (by simp; omega)
      rw [List.getElem?_cons_succ] at this
      rw [← this]; congr 1; omega)
    simp only [List.length_cons, readN, h0, ih, Option.map_some]

theorem form_live {c : List T} {cap : Nat} (h : c.length ≤ cap) {i : Nat} (hi : i < c.length) :
    ∃ v, (form c cap)[i]? = some (some v) := by
  refine ⟨c[i], ?_⟩
  rw [form_get h, if_pos hi, List.getElem?_eq_getElem hi]; rfl

theorem readN_form {c : List T} {cap : Nat} (h : c.length ≤ cap) : readN (form c cap) 0 c.length = some c :=
  readN_spec c _ 0 (fun i hi => by rw [Nat.zero_add, form_get h, if_pos hi])

theorem destroy_form {c : List T} {cap : Nat} (h : c.length ≤ cap) :
    destroyN (form c cap) 0 c.length = some (form ([] : List T) cap) := by
  obtain ⟨l', h1, h2, h3⟩ := destroyN_spec c.length (form c cap) 0 (fun i _ hi => form_live h (by omega))
  rw [h1]
  congr 1
  refine ext_opt fun i => ?_
  rw [h3 i, form_get h, form_get (c := ([] : List T)) (by simp)]
  by_cases g : i < c.length
  · simp [g]; omega
  · simp [g]

theorem construct_form {vs : List T} {cap : Nat} (h : vs.length ≤ cap) :
    construct (form ([] : List T) cap) 0 vs = some (form vs cap) := by
  obtain ⟨l', h1, h2, h3⟩ := construct_spec vs (form ([] : List T) cap) 0 (fun i _ hi => by
    rw [form_get (by simp), if_neg (by simp), if_pos (by omega)])
  rw [h1]
  congr 1
  refine ext_opt fun i => ?_
  rw [h3 i, form_get h, form_get (c := ([] : List T)) (by simp)]
  by_cases g : i < vs.length
  · simp [g]
  · simp [g]

theorem push_form {c : List T} {cap : Nat} {v : T} (h : c.length < cap) :
    construct (form c cap) c.length [v] = some (form (c ++ [v]) cap) := by
  obtain ⟨l', h1, h2, h3⟩ := construct_spec [v] (form c cap) c.length (fun i a b => by
    simp only [List.length_singleton] at b
    rw [form_get (by omega), if_neg (by omega), if_pos (by omega)])
  rw [h1]
  congr 1
  refine ext_opt fun i => ?_
  rw [h3 i, form_get (by omega), form_get (by simp; omega)]
  simp only [List.length_singleton, List.length_append]
  rcases Nat.lt_trichotomy i c.length with g | g | g
  · rw [if_neg (by omega), if_pos g, if_pos (by omega), List.getElem?_append_left g]
  · subst g
    rw [if_pos (by omega), if_pos (by omega)]; simp
  · rw [if_neg (by omega), if_neg (by omega), if_neg (show ¬ i < c.length + 1 by omega)]

theorem pop_form {c : List T} {cap : Nat} (h : c.length ≤ cap) (h0 : c ≠ []) :
    destroyN (form c cap) (c.length - 1) 1 = some (form c.dropLast cap) := by
  have hl : 0 < c.length := by cases c with
    | nil => exact absurd rfl h0
    | cons _ _ => simp
  obtain ⟨l', h1, h2, h3⟩ := destroyN_spec 1 (form c cap) (c.length - 1) (fun i _ hi => form_live h (by omega))
  rw [h1]
  congr 1
  refine ext_opt fun i => ?_
  rw [h3 i, form_get h, form_get (by simp; omega)]
  simp only [List.length_dropLast]
  rcases Nat.lt_trichotomy i (c.length - 1) with g | g | g
  · rw [if_neg (by omega), if_pos (by omega), if_pos (by omega), List.getElem?_dropLast, if_pos (by omega)]
  · rw [if_pos (by omega), if_neg (by omega), if_pos (by omega)]
  · rw [if_neg (by omega), if_neg (by omega), if_neg (show ¬ i < c.length - 1 by omega)]

theorem set_form {c : List T} {cap i : Nat} {v : T} (h : c.length ≤ cap) (hi : i < c.length) :
    (form c cap).set i (some v) = form (c.set i v) cap := by
  refine ext_opt fun j => ?_
  rw [List.getElem?_set, form_get h, form_get (c := c.set i v) (by simpa using h), form_length h]
  by_cases e : i = j
  · subst e
    rw [if_pos rfl, if_pos (by omega), if_pos (by simpa using hi)]; simp [hi]
  · rw [if_neg e]; simp [e]

theorem assign_form {c vs : List T} {cap : Nat} {w : Vec} (h : c.length ≤ cap) (hw : w.size = c.length) (hc : w.cap = cap)
    (hn : vs.length ≤ cap) :
    assignCells vs w (form c cap) = some ((vs ++ c.drop vs.length).length, form (vs ++ c.drop vs.length) cap) := by
  unfold assignCells
  simp only [hw, hc, hn, if_true]
  obtain ⟨l1, h1, h2, h3⟩ := destroyN_spec (if c.length < vs.length then c.length else vs.length) (form c cap) 0
    (fun i _ hi => form_live h (by split at hi <;> omega))
  rw [h1]
  rw [form_length h] at h2
  obtain ⟨l2, g1, g2, g3⟩ := construct_spec vs l1 0 (fun i _ hi => by
    rw [h3 i, form_get h]
    by_cases e : i < c.length
    · rw [if_pos (by split <;> omega)]
    · rw [if_neg (by split <;> omega), if_neg e, if_pos (by omega)])
  simp only [g1]
  congr 2
  · simp only [List.length_append, List.length_drop]; split <;> omega
  · refine ext_opt fun i => ?_
    rw [g3 i, h3 i, form_get h, form_get (c := vs ++ c.drop vs.length) (by simp only [List.length_append, List.length_drop]; omega)]
    simp only [List.length_append, List.length_drop, Nat.zero_add, Nat.sub_zero, Nat.zero_le, true_and]
    by_cases e : i < vs.length
    · rw [if_pos e, if_pos (by omega), List.getElem?_append_left e]
    · rw [if_neg e, if_neg (by split <;> omega)]
      by_cases e2 : i < c.length
      · rw [if_pos e2, if_pos (by omega), List.getElem?_append_right (by omega), List.getElem?_drop]
        congr 2; omega
      · rw [if_neg e2, if_neg (show ¬ i < vs.length + (c.length - vs.length) by omega)]

end Verif.Util
