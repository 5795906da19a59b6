import Verif.Log.LifeLemmas
set_option linter.unusedSimpArgs false
set_option linter.unusedVariables false
/-!
Property C150: the texts and values of log records live exactly as long as a record or a value holds them.
-/
namespace Verif.Log.Life

theorem Reach.good {s : State} (h : Reach s) : Inv s ∧ Kinds s := by
  obtain ⟨l, hl⟩ := h
  have := run_some State.init_inv State.init_kinds hl
  exact ⟨this.inv, this.kinds⟩

/-- **C150**, safety: whatever a client has done, no call uses an object that is gone, and nothing is deleted twice. -/
theorem life_defined {s : State} (h : Reach s) {o : Op} (ho : o.ok s) : ∃ s', s.step o = some s' := by
  obtain ⟨s', e, _⟩ := step_good h.good.1 h.good.2 ho
  exact ⟨s', e⟩

/-- **C150**: a text stays where it is and stays the same as long as a variable holds its value, directly or inside of a record. -/
theorem life_text_stays {s s' : State} {l : List Op} {v : Nat} {t : String} (h : Reach s) (ht : s.deref v = some t)
    (hl : s.run l = some s') (hv : Held s' v) : s'.deref v = some t := by
  have g := run_some h.good.1 h.good.2 hl
  obtain ⟨y, hy⟩ := held_alive g.inv hv
  unfold State.deref at ht
  split at ht
  · rename_i x hx
    obtain ⟨x', hx', e, _⟩ := g.old.keep v y (lt_of_get hx) hy
    rw [hx] at hx'
    injection hx' with hx'
    injection hx' with hx'
    injection ht with ht
    unfold State.deref
    rw [hy, ← ht, hx', e]
  · cases ht

/-- **C150**: what is got from a record can be read. -/
theorem life_get {s : State} {i v : Nat} {n : String} (h : Reach s) (hg : s.get i n = some v) : Held s v ∧ ∃ t, s.deref v = some t := by
  unfold State.get at hg
  split at hg
  · rename_i c hc
    split at hg
    · rename_i x hx
      have hv : Held s v := .inside (.ofRec hc) hx (lookup_mem hg)
      obtain ⟨y, hy⟩ := held_alive h.good.1 hv
      exact ⟨hv, y.text, by unfold State.deref; rw [hy]⟩
    · cases hg
  · cases hg

/-- **C150**: a new value has the text it was made with. -/
theorem life_made {s s' : State} {t : String} {rs vs : List Nat} (h : s.step (.makeVal t rs vs) = some s') :
    ∃ v, s'.vals = s.vals ++ [some v] ∧ s'.deref v = some t := by
  unfold State.step at h
  dsimp only at h
  split at h
  · rename_i a b _ _
    rw [Option.map_eq_some_iff] at h
    obtain ⟨q, e, h⟩ := h
    refine ⟨s.cells.length, by rw [← h]; rfl, ?_⟩
    have hq := addRefs_len e
    rw [← h]
    unfold State.deref State.pushVal
    dsimp only
    rw [← hq]; simp
  · cases h

theorem lookup_append {items : List (String × Nat)} {n : String} {v : Nat} (h : lookup items n = none) :
    lookup (items ++ [(n, v)]) n = some v := by
  unfold lookup at h ⊢
  simp only [Option.map_eq_none_iff] at h
  simp [List.find?_append, h]

theorem lookup_replace {n : String} {v o : Nat} : ∀ {items : List (String × Nat)}, lookup items n = some o →
    lookup (replace items n v) n = some v
  | [], h => by simp [lookup] at h
  | a :: t, h => by
    by_cases e : a.1 = n
    · unfold replace lookup; simp [e]
    · have hl : lookup t n = some o := by unfold lookup at h ⊢; simpa [e] using h
      have := lookup_replace (v := v) hl
      unfold lookup replace at this ⊢
      simpa [e] using this

/-- **C150**: after `Update` the record gives the new value. -/
theorem life_updated {s s' : State} {i j v : Nat} {n : String} (h : Reach s) (hv : s.vals[j]? = some (some v))
    (hs : s.step (.update i n j) = some s') : s'.get i n = some v := by
  have g := step_some h.good.1 h.good.2 hs
  obtain ⟨⟨c, hc⟩, _⟩ := ok_of_step hs
  obtain ⟨x, hx⟩ := h.good.1.alive_rec hc
  unfold State.step at hs
  simp only [hc, hv, hx] at hs
  cases hl : lookup x.items n with
  | none =>
    simp only [hl] at hs
    injection hs with hs
    rw [← hs]
    unfold State.get
    simp only [hc]
    rw [get_set hx]
    simp only [if_true]
    exact lookup_append hl
  | some o =>
    simp only [hl] at hs
    rw [Option.map_eq_some_iff] at hs
    obtain ⟨q, e, hs⟩ := hs
    have hc' : s'.recs[i]? = some (some c) := by rw [← hs]; exact hc
    obtain ⟨y, hy⟩ := g.inv.alive_rec hc'
    have hy2 : q[c]? = some (some y) := by rw [← hs] at hy; exact hy
    have hf : y.items = replace x.items n v := by
      have key : ∀ (m : Nat) (w : List Nat) (a b : List (Option Cell)), drain m w a = some b → Fewer a b := by
        intro m
        induction m with
        | zero => intro w a b h; cases w <;> unfold drain at h <;> simp at h; rw [h]; exact Fewer.refl _
        | succ m ih =>
          intro w a b h
          cases w with
          | nil => unfold drain at h; simp at h; rw [h]; exact Fewer.refl _
          | cons d w =>
            unfold drain at h
            split at h
            · rename_i z hz
              split at h
              · exact (fewer_set (y := none) hz (fun z hz => by cases hz)).trans (ih _ _ _ h)
              · exact (fewer_set hz (fun z hz => by injection hz with hz; subst hz; exact ⟨rfl, rfl, rfl⟩)).trans (ih _ _ _ h)
            · cases h
      obtain ⟨z, hz, _, _, ez⟩ := (key _ _ _ _ e).keep c y hy2
      rw [get_set hx] at hz
      simp only [if_true, Option.some.injEq] at hz
      rw [← ez, ← hz]
    unfold State.get
    simp only [hc', hy, hf]
    exact lookup_replace hl

/-- **C150**, exactness: unless some object contains itself, a text can be read exactly as long as a variable holds its value. -/
theorem life_exact {s : State} (h : Reach s) (hac : ∀ c, ¬ Relation.TransGen (Contains s) c c) (v : Nat) :
    (∃ t, s.deref v = some t) ↔ Held s v := by
  constructor
  · rintro ⟨t, ht⟩
    unfold State.deref at ht
    split at ht
    · rename_i x hx; exact alive_held h.good.1 hac ⟨x, hx⟩
    · cases ht
  · intro hv
    obtain ⟨y, hy⟩ := held_alive h.good.1 hv
    exact ⟨y.text, by unfold State.deref; rw [hy]⟩

/-- **C150**: no object contains itself if no record is ever put into a value. -/
theorem life_plain {l : List Op} {s : State} (hl : ∀ o ∈ l, o.plain = true) (h : State.init.run l = some s) (c : Nat) :
    ¬ Relation.TransGen (Contains s) c c :=
  low_acyclic (Reach.good ⟨l, h⟩).1 (Reach.good ⟨l, h⟩).2
    (run_low State.init_inv State.init_kinds (fun c d x y h => by simp [State.init] at h) hl h) c

/-- **C150**, no leak: unless some object contains itself, nothing is left when all variables are gone. -/
theorem life_no_leak {s : State} (h : Reach s) (hac : ∀ c, ¬ Relation.TransGen (Contains s) c c)
    (hr : ∀ o ∈ s.recs, o = none) (hv : ∀ o ∈ s.vals, o = none) (c : Nat) : ¬ Alive s c := by
  intro hc
  have := alive_held h.good.1 hac hc
  clear hc
  induction this with
  | ofRec e => have := hr _ (List.mem_of_getElem? e); cases this
  | ofVal e => have := hv _ (List.mem_of_getElem? e); cases this
  | inside _ _ _ ih => exact ih

/-- A record in a value in that record. -/
def knot : List Op := [.newRec, .makeVal "t" [0] [], .add 0 "n" 0, .dropRec 0]

/-- **C150** needs the condition: a record that is put into a value which is added to the record is never freed. -/
theorem life_no_leak_fails : ∃ (l : List Op) (s : State), State.init.run l = some s ∧ (∀ o ∈ s.recs, o = none) ∧
    (∀ o ∈ s.vals, o = none) ∧ ∃ c, Alive s c := by
  refine ⟨knot, ⟨[some ⟨1, true, "", [("n", 1)]⟩, some ⟨1, false, "t", [("", 0)]⟩], [none], [none]⟩, by decide +kernel, by simp, by simp, 0,
    ⟨_, rfl⟩⟩

/-- Two records with one body, a second body, texts; a pointer that outlives an `Update` of one of them. -/
def demo : List Op := [.newRec, .makeVal "old" [] [], .add 0 "n" 0, .copyRec 0, .deep 0, .makeVal "new" [] [], .update 1 "n" 1]

/-- The old text is still held by the deep copy; when that goes away too, the pointer dangles. -/
example : ∃ s s', State.init.run demo = some s ∧ s.get 0 "n" = some 3 ∧ s.get 2 "n" = some 1 ∧ s.deref 1 = some "old" ∧
    s.deref 3 = some "new" ∧ s.run [.dropRec 2] = some s' ∧ s'.deref 1 = none ∧ s'.deref 3 = some "new" :=
  ⟨_, _, rfl, by decide +kernel, by decide +kernel, by decide +kernel, by decide +kernel, rfl, by decide +kernel, by decide +kernel⟩

example : ∀ o ∈ demo, o.plain = true := by decide

/-- The hypotheses of `life_text_stays`: a history after which the old text is held. -/
example : ∃ s s', State.init.run [.newRec, .makeVal "old" [] [], .copyVal 0, .add 0 "n" 0] = some s ∧
    s.run [.dropRec 0] = some s' ∧ s.deref 1 = some "old" ∧ Held s' 1 :=
  ⟨_, _, rfl, rfl, by decide +kernel, .ofVal (i := 1) rfl⟩

/-- What the record `k` gives for the name `m` after the call `o`, by what the records gave before it. -/
def after (s : State) (o : Op) (k : Nat) (m : String) : Option Nat :=
  match o with
  | .newRec => if k = s.recs.length then none else s.get k m
  | .copyRec i => if k = s.recs.length then s.get i m else s.get k m
  | .deep i => if k = s.recs.length then s.get i m else s.get k m
  | .assignRec i j => if k = i then s.get j m else s.get k m
  | .dropRec i => if k = i then none else s.get k m
  | .add i n j => if s.recs[k]? = s.recs[i]? ∧ m = n then (s.get i n).or (s.vals[j]?).join else s.get k m
  | .update i n j => if s.recs[k]? = s.recs[i]? ∧ m = n then (s.vals[j]?).join else s.get k m
  | _ => s.get k m

/-- **C150**, the values: what each call does to what the records give.  `Add` keeps the value that the name has, `Update` replaces
it, both for all records that share the body; a copy, deep or not, gives what the original gives, and nothing else changes. -/
theorem life_records {s s' : State} {o : Op} (h : Reach s) (hs : s.step o = some s') (k : Nat) (m : String) :
    s'.get k m = after s o k m := by
  have g := step_some h.good.1 h.good.2 hs
  have hI := h.good.1
  have push : ∀ (l : List (Option Nat)) (q : Option Nat), k ≠ l.length → (l ++ [q])[k]? = l[k]? := by
    intro l q hk
    by_cases e : k < l.length
    · rw [List.getElem?_append_left e]
    · rw [List.getElem?_append_right (by omega), List.getElem?_eq_none (by simp; omega), List.getElem?_eq_none (by omega)]
  have put : ∀ (l : List (Option Nat)) (i : Nat) (q : Option Nat), k ≠ i → (l.set i q)[k]? = l[k]? := by
    intro l i q hk; rw [List.getElem?_set_ne (fun e => hk e.symm)]
  cases o with
  | newRec =>
    unfold State.step at hs
    dsimp only at hs
    unfold after
    injection hs with hs
    have hr : s'.recs = s.recs ++ [some s.cells.length] := by rw [← hs]; rfl
    have hc : s'.cells = s.cells ++ [some ⟨1, true, "", []⟩] := by rw [← hs]; rfl
    dsimp only
    split
    · rename_i e
      have : s'.recs[k]? = some (some s.cells.length) := by rw [hr, e]; simp
      rw [get_at this]; unfold at'; rw [hc]; simp [lookup]
    · rename_i e
      exact get_same_push hI g.inv (Fewer.refl _) hc (by rw [hr, push _ _ e]) m
  | copyRec i =>
    unfold State.step at hs
    dsimp only at hs
    unfold after
    split at hs
    · rename_i c hc
      rw [Option.map_eq_some_iff] at hs
      obtain ⟨q, e, hs⟩ := hs
      have f := addRef_fewer e
      have hr : s'.recs = s.recs ++ [some c] := by rw [← hs]; rfl
      have hq : s'.cells = q := by rw [← hs]; rfl
      dsimp only
      split
      · rename_i e
        exact get_same g.inv (hq ▸ f) (by rw [hr, e]; simp [hc]) m
      · rename_i e
        exact get_same g.inv (hq ▸ f) (by rw [hr, push _ _ e]) m
    · cases hs
  | assignRec i j =>
    unfold State.step at hs
    dsimp only at hs
    unfold after
    split at hs
    · rename_i o c h1 h2
      split at hs
      · cases hs
      · rename_i q e
        rw [Option.map_eq_some_iff] at hs
        obtain ⟨q', e', hs⟩ := hs
        have f := (addRef_fewer e).trans (release_fewer e')
        have hr : s'.recs = s.recs.set i (some c) := by rw [← hs]
        have hq : s'.cells = q' := by rw [← hs]
        dsimp only
        split
        · rename_i e
          subst e
          exact get_same g.inv (hq ▸ f) (by rw [hr, h2, List.getElem?_set_self (lt_of_get h1)]) m
        · rename_i e
          exact get_same g.inv (hq ▸ f) (by rw [hr, put _ _ _ e]) m
    · cases hs
  | deep i =>
    unfold State.step at hs
    dsimp only at hs
    unfold after
    split at hs
    · rename_i c hc
      split at hs
      · rename_i x hx
        rw [Option.map_eq_some_iff] at hs
        obtain ⟨q, e, hs⟩ := hs
        have f := addRefs_fewer e
        have hr : s'.recs = s.recs ++ [some s.cells.length] := by rw [← hs]; rfl
        have hq : s'.cells = q ++ [some ⟨1, true, "", x.items⟩] := by rw [← hs]; rfl
        dsimp only
        split
        · rename_i e
          have : s'.recs[k]? = some (some s.cells.length) := by rw [hr, e]; simp
          rw [get_at this, get_at hc]
          unfold at'
          rw [hq, ← f.len, hx]; simp
        · rename_i e
          exact get_same_push hI g.inv f hq (by rw [hr, push _ _ e]) m
      · cases hs
    · cases hs
  | dropRec i =>
    unfold State.step at hs
    dsimp only at hs
    unfold after
    split at hs
    · rename_i o ho
      rw [Option.map_eq_some_iff] at hs
      obtain ⟨q, e, hs⟩ := hs
      have f := release_fewer e
      have hr : s'.recs = s.recs.set i none := by rw [← hs]
      have hq : s'.cells = q := by rw [← hs]
      dsimp only
      split
      · rename_i e
        subst e
        exact get_no (fun c hc => by rw [hr, List.getElem?_set_self (lt_of_get ho)] at hc; simp at hc) m
      · rename_i e
        exact get_same g.inv (hq ▸ f) (by rw [hr, put _ _ _ e]) m
    · cases hs
  | makeVal t rs vs =>
    unfold State.step at hs
    dsimp only at hs
    unfold after
    split at hs
    · rename_i a b h1 h2
      rw [Option.map_eq_some_iff] at hs
      obtain ⟨q, e, hs⟩ := hs
      have f := addRefs_fewer e
      exact get_same_push hI g.inv f (by rw [← hs]; rfl) (by rw [← hs]; rfl) m
    · cases hs
  | copyVal i =>
    unfold State.step at hs
    dsimp only at hs
    unfold after
    split at hs
    · rw [Option.map_eq_some_iff] at hs
      obtain ⟨q, e, hs⟩ := hs
      exact get_same g.inv (by rw [← hs]; exact addRef_fewer e) (by rw [← hs]; rfl) m
    · cases hs
  | moveVal i =>
    unfold State.step at hs
    dsimp only at hs
    unfold after
    split at hs
    · injection hs with hs
      exact get_same g.inv (by rw [← hs]; exact Fewer.refl _) (by rw [← hs]) m
    · cases hs
  | assignVal i j =>
    unfold State.step at hs
    dsimp only at hs
    unfold after
    split at hs
    · split at hs
      · cases hs
      · rename_i q e
        rw [Option.map_eq_some_iff] at hs
        obtain ⟨q', e', hs⟩ := hs
        exact get_same g.inv (by rw [← hs]; exact (addRef_fewer e).trans (release_fewer e')) (by rw [← hs]) m
    · cases hs
  | dropVal i =>
    unfold State.step at hs
    dsimp only at hs
    unfold after
    split at hs
    · rw [Option.map_eq_some_iff] at hs
      obtain ⟨q, e, hs⟩ := hs
      exact get_same g.inv (by rw [← hs]; exact release_fewer e) (by rw [← hs]) m
    · cases hs
  | add i n j =>
    unfold State.step at hs
    dsimp only at hs
    unfold after
    split at hs
    · rename_i c v hc hv
      split at hs
      · rename_i x hx
        split at hs
        · rename_i hl
          injection hs with hs
          have hg : s.get i n = none := by rw [get_at hc]; unfold at'; rw [hx]; exact hl
          dsimp only
          rw [hg, hv]
          refine get_edit g.inv hc hx (l := x.items ++ [(n, v)]) (by rw [← hs]; exact Fewer.refl _) (by rw [← hs]) ?_
            (fun m hm => lookup_other hm) k m
          rw [lookup_append hl]; rfl
        · rename_i w hl
          rw [Option.map_eq_some_iff] at hs
          obtain ⟨q, e, hs⟩ := hs
          have hg : s.get i n = some w := by rw [get_at hc]; unfold at'; rw [hx]; exact hl
          have key := get_same (s := s) g.inv (by rw [← hs]; exact release_fewer e) (k := k) (k' := k) (by rw [← hs]) m
          rw [key]
          dsimp only
          rw [hg]
          split
          · rename_i e2
            obtain ⟨e2, rfl⟩ := e2
            rw [get_at (e2.trans hc), ← get_at hc, hg]; rfl
          · rfl
      · cases hs
    · cases hs
  | update i n j =>
    unfold State.step at hs
    dsimp only at hs
    unfold after
    split at hs
    · rename_i c v hc hv
      split at hs
      · rename_i x hx
        split at hs
        · rename_i hl
          injection hs with hs
          dsimp only
          rw [hv]
          refine get_edit g.inv hc hx (l := x.items ++ [(n, v)]) (by rw [← hs]; exact Fewer.refl _) (by rw [← hs]) ?_
            (fun m hm => lookup_other hm) k m
          rw [lookup_append hl]; rfl
        · rename_i w hl
          rw [Option.map_eq_some_iff] at hs
          obtain ⟨q, e, hs⟩ := hs
          dsimp only
          rw [hv]
          refine get_edit g.inv hc hx (l := replace x.items n v) (by rw [← hs]; exact release_fewer e) (by rw [← hs]) ?_
            (fun m hm => lookup_replace_other hm) k m
          rw [lookup_replace hl]; rfl
      · cases hs
    · cases hs

/-- **C150**: which records share a body.  A copy and an assigned record share it with the original, a new record and a deep copy with
no record there is, and calls on values leave the records as they are. -/
theorem life_sharing {s s' : State} {o : Op} (h : Reach s) (hs : s.step o = some s') :
    match (generalizing := false) o with
    | .newRec => ∃ c, s'.recs = s.recs ++ [some c] ∧ some c ∉ s.recs
    | .deep _ => ∃ c, s'.recs = s.recs ++ [some c] ∧ some c ∉ s.recs
    | .copyRec i => ∃ c, s.recs[i]? = some (some c) ∧ s'.recs = s.recs ++ [some c]
    | .assignRec i j => ∃ c, s.recs[j]? = some (some c) ∧ s'.recs = s.recs.set i (some c)
    | .dropRec i => s'.recs = s.recs.set i none
    | _ => s'.recs = s.recs := by
  have fresh : some s.cells.length ∉ s.recs := by
    intro hm
    obtain ⟨i, hi⟩ := List.mem_iff_getElem?.1 hm
    exact absurd (h.good.1.rec_lt hi) (Nat.lt_irrefl _)
  cases o with
  | newRec => unfold State.step at hs; injection hs with hs; exact ⟨s.cells.length, by rw [← hs]; rfl, fresh⟩
  | copyRec i =>
    unfold State.step at hs; dsimp only at hs
    split at hs
    · rename_i c hc
      rw [Option.map_eq_some_iff] at hs
      obtain ⟨q, e, hs⟩ := hs
      exact ⟨c, hc, by rw [← hs]; rfl⟩
    · cases hs
  | assignRec i j =>
    unfold State.step at hs; dsimp only at hs
    split at hs
    · rename_i o c h1 h2
      split at hs
      · cases hs
      · rw [Option.map_eq_some_iff] at hs
        obtain ⟨q, e, hs⟩ := hs
        exact ⟨c, h2, by rw [← hs]⟩
    · cases hs
  | deep i =>
    unfold State.step at hs; dsimp only at hs
    split at hs
    · split at hs
      · rw [Option.map_eq_some_iff] at hs
        obtain ⟨q, e, hs⟩ := hs
        exact ⟨s.cells.length, by rw [← hs]; rfl, fresh⟩
      · cases hs
    · cases hs
  | dropRec i =>
    unfold State.step at hs; dsimp only at hs
    split at hs
    · rw [Option.map_eq_some_iff] at hs
      obtain ⟨q, e, hs⟩ := hs
      rw [← hs]
    · cases hs
  | makeVal t rs vs =>
    unfold State.step at hs; dsimp only at hs
    split at hs
    · rw [Option.map_eq_some_iff] at hs
      obtain ⟨q, e, hs⟩ := hs
      rw [← hs]; rfl
    · cases hs
  | copyVal i =>
    unfold State.step at hs; dsimp only at hs
    split at hs
    · rw [Option.map_eq_some_iff] at hs
      obtain ⟨q, e, hs⟩ := hs
      rw [← hs]; rfl
    · cases hs
  | moveVal i =>
    unfold State.step at hs; dsimp only at hs
    split at hs
    · injection hs with hs; rw [← hs]
    · cases hs
  | assignVal i j =>
    unfold State.step at hs; dsimp only at hs
    split at hs
    · split at hs
      · cases hs
      · rw [Option.map_eq_some_iff] at hs
        obtain ⟨q, e, hs⟩ := hs
        rw [← hs]
    · cases hs
  | dropVal i =>
    unfold State.step at hs; dsimp only at hs
    split at hs
    · rw [Option.map_eq_some_iff] at hs
      obtain ⟨q, e, hs⟩ := hs
      rw [← hs]
    · cases hs
  | add i n j =>
    unfold State.step at hs; dsimp only at hs
    split at hs
    · split at hs
      · split at hs
        · injection hs with hs; rw [← hs]
        · rw [Option.map_eq_some_iff] at hs
          obtain ⟨q, e, hs⟩ := hs
          rw [← hs]
      · cases hs
    · cases hs
  | update i n j =>
    unfold State.step at hs; dsimp only at hs
    split at hs
    · split at hs
      · split at hs
        · injection hs with hs; rw [← hs]
        · rw [Option.map_eq_some_iff] at hs
          obtain ⟨q, e, hs⟩ := hs
          rw [← hs]
      · cases hs
    · cases hs

/-- **C150**: which value the variables of the client hold.  A copied, moved or assigned value is the value of the original, a new value is
one that no variable holds, `Add` and `Update` use up the variable that is moved into them, and calls on records leave the values as they are. -/
theorem life_values {s s' : State} {o : Op} (h : Reach s) (hs : s.step o = some s') :
    match (generalizing := false) o with
    | .makeVal .. => ∃ v, s'.vals = s.vals ++ [some v] ∧ some v ∉ s.vals
    | .copyVal i => ∃ v, s.vals[i]? = some (some v) ∧ s'.vals = s.vals ++ [some v]
    | .moveVal i => ∃ v, s.vals[i]? = some (some v) ∧ s'.vals = s.vals.set i none ++ [some v]
    | .assignVal i j => ∃ v, s.vals[j]? = some (some v) ∧ s'.vals = s.vals.set i (some v)
    | .dropVal i => s'.vals = s.vals.set i none
    | .add _ _ j => s'.vals = s.vals.set j none
    | .update _ _ j => s'.vals = s.vals.set j none
    | _ => s'.vals = s.vals := by
  have fresh : some s.cells.length ∉ s.vals := by
    intro hm
    obtain ⟨i, hi⟩ := List.mem_iff_getElem?.1 hm
    obtain ⟨y, hy⟩ := held_alive h.good.1 (.ofVal hi)
    exact absurd (lt_of_get hy) (Nat.lt_irrefl _)
  cases o with
  | newRec => unfold State.step at hs; injection hs with hs; rw [← hs]; rfl
  | copyRec i =>
    unfold State.step at hs; dsimp only at hs
    split at hs
    · rw [Option.map_eq_some_iff] at hs
      obtain ⟨q, e, hs⟩ := hs
      rw [← hs]; rfl
    · cases hs
  | assignRec i j =>
    unfold State.step at hs; dsimp only at hs
    split at hs
    · split at hs
      · cases hs
      · rw [Option.map_eq_some_iff] at hs
        obtain ⟨q, e, hs⟩ := hs
        rw [← hs]
    · cases hs
  | deep i =>
    unfold State.step at hs; dsimp only at hs
    split at hs
    · split at hs
      · rw [Option.map_eq_some_iff] at hs
        obtain ⟨q, e, hs⟩ := hs
        rw [← hs]; rfl
      · cases hs
    · cases hs
  | dropRec i =>
    unfold State.step at hs; dsimp only at hs
    split at hs
    · rw [Option.map_eq_some_iff] at hs
      obtain ⟨q, e, hs⟩ := hs
      rw [← hs]
    · cases hs
  | makeVal t rs vs =>
    unfold State.step at hs; dsimp only at hs
    split at hs
    · rw [Option.map_eq_some_iff] at hs
      obtain ⟨q, e, hs⟩ := hs
      exact ⟨s.cells.length, by rw [← hs]; rfl, fresh⟩
    · cases hs
  | copyVal i =>
    unfold State.step at hs; dsimp only at hs
    split at hs
    · rename_i c hc
      rw [Option.map_eq_some_iff] at hs
      obtain ⟨q, e, hs⟩ := hs
      exact ⟨c, hc, by rw [← hs]; rfl⟩
    · cases hs
  | moveVal i =>
    unfold State.step at hs; dsimp only at hs
    split at hs
    · rename_i c hc
      injection hs with hs
      exact ⟨c, hc, by rw [← hs]⟩
    · cases hs
  | assignVal i j =>
    unfold State.step at hs; dsimp only at hs
    split at hs
    · rename_i o c h1 h2
      split at hs
      · cases hs
      · rw [Option.map_eq_some_iff] at hs
        obtain ⟨q, e, hs⟩ := hs
        exact ⟨c, h2, by rw [← hs]⟩
    · cases hs
  | dropVal i =>
    unfold State.step at hs; dsimp only at hs
    split at hs
    · rw [Option.map_eq_some_iff] at hs
      obtain ⟨q, e, hs⟩ := hs
      rw [← hs]
    · cases hs
  | add i n j =>
    unfold State.step at hs; dsimp only at hs
    split at hs
    · split at hs
      · split at hs
        · injection hs with hs; rw [← hs]
        · rw [Option.map_eq_some_iff] at hs
          obtain ⟨q, e, hs⟩ := hs
          rw [← hs]
      · cases hs
    · cases hs
  | update i n j =>
    unfold State.step at hs; dsimp only at hs
    split at hs
    · split at hs
      · split at hs
        · injection hs with hs; rw [← hs]
        · rw [Option.map_eq_some_iff] at hs
          obtain ⟨q, e, hs⟩ := hs
          rw [← hs]
      · cases hs
    · cases hs

/-- In the state after `demo` the first two records share a body, and adding to one of them shows in both but not in the deep copy. -/
example : ∃ s s', State.init.run (demo ++ [.makeVal "more" [] []]) = some s ∧ s.step (.add 0 "k" 2) = some s' ∧
    s'.get 1 "k" = some 4 ∧ s'.get 2 "k" = none ∧ s'.get 0 "n" = some 3 :=
  ⟨_, _, rfl, rfl, by decide +kernel, by decide +kernel, by decide +kernel⟩

end Verif.Log.Life
