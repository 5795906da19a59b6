set_option linter.unusedSimpArgs false
set_option linter.unusedVariables false
/-!
Property C109: filters and formatters made from functors (`CreateLogFilter`, `CreateLogFormatter`).

A functor is a value of type `S`; calling it with `a : A` gives a result of type `R` and changes it: `f : S → A → S × R`.
-/
namespace Verif.Log.Functor

variable {S A R : Type}

/-! ### Model -/

/-- The argument of `CreateLogFilter`: a temporary (or moved) functor, or a variable.
(create-log-filter.h 91-96, the two kinds of arguments of `Functor&&`.) -/
inductive Arg (S : Type) where
  | temp (s : S)
  | named (i : Nat)

/-- The member `Functor functor_`; /repo/log/create-log-filter.h 78, /repo/log/create-log-formatter.h 91.  For a variable of type `F`
the template parameter is deduced as `F&`, so that the member is a reference. -/
inductive Body (S : Type) where
  | own (s : S)
  | ref (i : Nat)

/-- The variables (`none` after their end of life) and the filters (`none` after their destruction).
(create-log-filter.h 78 and the variables of the client.) -/
structure State (S : Type) where
  vars : List (Option S)
  objs : List (Option (Body S))

/-- The program: declare a functor, assign to it, leave its scope; create, call and destroy a filter.
(The client's; the methods are create-log-filter.h 61-71 and create-log-formatter.h 67-83.) -/
inductive Op (S A : Type) where
  | declare (s : S)
  | assign (i : Nat) (s : S)
  | leave (i : Nat)
  | create (a : Arg S)
  | call (k : Nat) (a : A)
  | destroy (k : Nat)

/-- `CreateLogFilter`; create-log-filter.h 61-64, 91-96.  A formatter is the same with another signature; create-log-formatter.h 67-70,
103-108. -/
def make : Arg S → Body S
  | .temp s => .own s
  | .named i => .ref i

/-- One operation; `none` is undefined behaviour.  Calls are `Decide` (create-log-filter.h 68-71) and `Format` on a good stream
(create-log-formatter.h 74-83). -/
def step (f : S → A → S × R) (st : State S) : Op S A → Option (State S × Option R)
  | .declare s => some ({ st with vars := st.vars ++ [some s] }, none)
  | .assign i s =>
    match st.vars[i]? with
    | some (some _) => some ({ st with vars := st.vars.set i (some s) }, none)
    | _ => none
  | .leave i =>
    match st.vars[i]? with
    | some (some _) => some ({ st with vars := st.vars.set i none }, none)
    | _ => none
  | .create (.temp s) => some ({ st with objs := st.objs ++ [some (make (.temp s))] }, none)
  | .create (.named i) =>
    match st.vars[i]? with
    | some (some _) => some ({ st with objs := st.objs ++ [some (make (.named i))] }, none)
    | _ => none
  | .call k a =>
    match st.objs[k]? with
    | some (some (.own s)) => some ({ st with objs := st.objs.set k (some (.own (f s a).1)) }, some (f s a).2)
    | some (some (.ref i)) =>
      match st.vars[i]? with
      | some (some s) => some ({ st with vars := st.vars.set i (some (f s a).1) }, some (f s a).2)
      | _ => none
    | _ => none
  | .destroy k =>
    match st.objs[k]? with
    | some (some _) => some ({ st with objs := st.objs.set k none }, none)
    | _ => none

/-- The results of a history.  (A client; no code.) -/
def run (f : S → A → S × R) : State S → List (Op S A) → Option (List (Option R))
  | _, [] => some []
  | st, o :: os =>
    match step f st o with
    | none => none
    | some (st', r) => (run f st' os).map (r :: ·)

/-! ### What is wanted: every filter has a functor of its own -/

/-- The variables and the functors of the filters.  (Specification; no code.) -/
structure Spec (S : Type) where
  vars : List (Option S)
  own : List (Option S)

/-- One operation on the specification.  (Specification; no code.) -/
def want (f : S → A → S × R) (st : Spec S) : Op S A → Option (Spec S × Option R)
  | .declare s => some ({ st with vars := st.vars ++ [some s] }, none)
  | .assign i s => (st.vars[i]?).join.map fun _ => ({ st with vars := st.vars.set i (some s) }, none)
  | .leave i => (st.vars[i]?).join.map fun _ => ({ st with vars := st.vars.set i none }, none)
  | .create (.temp s) => some ({ st with own := st.own ++ [some s] }, none)
  | .create (.named i) => (st.vars[i]?).join.map fun s => ({ st with own := st.own ++ [some s] }, none)
  | .call k a => (st.own[k]?).join.map fun s => ({ st with own := st.own.set k (some (f s a).1) }, some (f s a).2)
  | .destroy k => (st.own[k]?).join.map fun _ => ({ st with own := st.own.set k none }, none)

/-- The wanted results of a history.  (Specification; no code.) -/
def wants (f : S → A → S × R) : Spec S → List (Op S A) → Option (List (Option R))
  | _, [] => some []
  | st, o :: os =>
    match want f st o with
    | none => none
    | some (st', r) => (wants f st' os).map (r :: ·)

/-! ### C109 -/

/-- The filter agrees with its own functor.  (Specification; no code.) -/
def Agrees (vars : List (Option S)) : Option (Body S) → Option S → Prop
  | none, none => True
  | some (.own s), some t => s = t
  | some (.ref i), some t => vars[i]? = some (some t)
  | _, _ => False

/-- No filter made from variable `i` exists.  (Specification; no code.) -/
def Free (st : State S) (i : Nat) : Prop := ∀ k : Nat, st.objs[k]? ≠ some (some (Body.ref i))

/-- The operation does not touch a functor while a filter made from it exists: no assignment, no end of its life, and calls of the
filter do not change it.  (Specification; no code.) -/
def Careful1 (f : S → A → S × R) (st : State S) : Op S A → Prop
  | .assign i _ => Free st i
  | .leave i => Free st i
  | .call k a => ∀ i : Nat, st.objs[k]? = some (some (.ref i)) → ∀ s, (f s a).1 = s
  | _ => True

/-- The same for a history.  (Specification; no code.) -/
def Careful (f : S → A → S × R) : State S → List (Op S A) → Prop
  | _, [] => True
  | st, o :: os => Careful1 f st o ∧ ∀ p, step f st o = some p → Careful f p.1 os

/-- The relation of model and specification.  (Specification; no code.) -/
structure Rel (st : State S) (sp : Spec S) : Prop where
  vars : st.vars = sp.vars
  len : st.objs.length = sp.own.length
  agree : ∀ (k : Nat) (b : Option (Body S)) (t : Option S), st.objs[k]? = some b → sp.own[k]? = some t → Agrees st.vars b t

theorem agrees_mono {vars vars' : List (Option S)} {b : Option (Body S)} {t : Option S} (h : Agrees vars b t)
    (hv : ∀ (i : Nat) s, b = some (.ref i) → vars[i]? = some (some s) → vars'[i]? = some (some s)) : Agrees vars' b t := by
  cases b with
  | none => cases t <;> exact h
  | some b =>
    cases b with
    | own s => cases t <;> exact h
    | ref i =>
      cases t with
      | none => exact h
      | some t => exact hv i t rfl h

theorem join_some {α : Type} {o : Option (Option α)} {x : α} (h : o = some (some x)) : o.join = some x := by subst h; rfl

theorem join_none {α : Type} {o : Option (Option α)} (h : ∀ x, o ≠ some (some x)) : o.join = none := by
  match o with
  | none => rfl
  | some none => rfl
  | some (some x) => exact absurd rfl (h x)

theorem agree_append {st : State S} {sp : Spec S} (h : Rel st sp) {b : Option (Body S)} {t : Option S} (hbt : Agrees st.vars b t) :
    Rel ⟨st.vars, st.objs ++ [b]⟩ ⟨sp.vars, sp.own ++ [t]⟩ := by
  obtain ⟨hv, hl, ha⟩ := h
  refine ⟨hv, by simp [hl], ?_⟩
  intro k b' t' h1 h2
  dsimp only at h1 h2 ⊢
  by_cases hk : k < st.objs.length
  · rw [List.getElem?_append_left hk] at h1
    rw [List.getElem?_append_left (hl ▸ hk)] at h2
    exact ha k b' t' h1 h2
  · by_cases he : k = st.objs.length
    · subst he
      rw [List.getElem?_append_right (Nat.le_refl _)] at h1
      rw [hl, List.getElem?_append_right (Nat.le_refl _)] at h2
      simp at h1 h2
      subst h1; subst h2; exact hbt
    · rw [List.getElem?_eq_none (by simp; omega)] at h1; cases h1

theorem agree_set {st : State S} {sp : Spec S} (h : Rel st sp) (k : Nat) {b : Option (Body S)} {t : Option S} (hbt : Agrees st.vars b t) :
    Rel ⟨st.vars, st.objs.set k b⟩ ⟨sp.vars, sp.own.set k t⟩ := by
  obtain ⟨hv, hl, ha⟩ := h
  refine ⟨hv, by simp [hl], ?_⟩
  intro k' b' t' h1 h2
  dsimp only at h1 h2 ⊢
  by_cases he : k = k'
  · subst he
    rw [List.getElem?_set_self'] at h1 h2
    cases e1 : st.objs[k]? <;> simp [e1] at h1
    cases e2 : sp.own[k]? <;> simp [e2] at h2
    subst h1; subst h2; exact hbt
  · rw [List.getElem?_set_ne he] at h1 h2
    exact ha k' b' t' h1 h2

theorem vars_set {st : State S} {sp : Spec S} (h : Rel st sp) (i : Nat) (x : Option S) (hF : Free st i) :
    Rel ⟨st.vars.set i x, st.objs⟩ ⟨sp.vars.set i x, sp.own⟩ := by
  obtain ⟨hv, hl, ha⟩ := h
  refine ⟨by rw [hv], hl, ?_⟩
  intro k b t h1 h2
  refine agrees_mono (ha k b t h1 h2) ?_
  intro j s hb hj
  have : i ≠ j := by
    intro e; subst e; subst hb; exact hF k h1
  dsimp only
  rw [List.getElem?_set_ne this]; exact hj

/-- The specification knows which filters exist. -/
theorem own_of {st : State S} {sp : Spec S} (h : Rel st sp) {k : Nat} :
    (∀ b, st.objs[k]? = some (some b) → ∃ t, sp.own[k]? = some (some t) ∧ Agrees st.vars (some b) (some t)) ∧
    ((∀ b, st.objs[k]? ≠ some (some b)) → ∀ t, sp.own[k]? ≠ some (some t)) := by
  obtain ⟨hv, hl, ha⟩ := h
  constructor
  · intro b hb
    have hk : k < sp.own.length := by rw [← hl]; exact (List.getElem?_eq_some_iff.mp hb).1
    have := ha k _ _ hb (List.getElem?_eq_getElem hk)
    cases e : sp.own[k] with
    | none => rw [e] at this; cases b <;> exact absurd this (by simp [Agrees])
    | some t => exact ⟨t, by rw [List.getElem?_eq_getElem hk, e], by rw [e] at this; exact this⟩
  · intro hb t ht
    have hk : k < st.objs.length := by rw [hl]; exact (List.getElem?_eq_some_iff.mp ht).1
    have := ha k _ _ (List.getElem?_eq_getElem hk) ht
    cases e : st.objs[k] with
    | none => rw [e] at this; exact this
    | some b => exact hb b (by rw [List.getElem?_eq_getElem hk, e])

/-- One step. -/
theorem step_rel (f : S → A → S × R) {st : State S} {sp : Spec S} (h : Rel st sp) (o : Op S A) (hc : Careful1 f st o) :
    (step f st o = none → want f sp o = none) ∧
    ∀ p, step f st o = some p → ∃ sp', want f sp o = some (sp', p.2) ∧ Rel p.1 sp' := by
  have hv := h.vars
  cases o with
  | declare s =>
    refine ⟨by simp [step], ?_⟩
    intro p hp
    simp only [step, Option.some.injEq] at hp
    subst hp
    refine ⟨_, rfl, ⟨by simp [hv], h.len, ?_⟩⟩
    intro k b t h1 h2
    refine agrees_mono (h.agree k b t h1 h2) ?_
    intro i s _ hi
    dsimp only
    rw [List.getElem?_append_left (List.getElem?_eq_some_iff.mp hi).1]; exact hi
  | assign i s =>
    simp only [step, want]
    rw [← hv]
    match e : st.vars[i]? with
    | none => simp
    | some none => simp
    | some (some x) =>
      refine ⟨by simp, ?_⟩
      intro p hp
      simp only [Option.some.injEq] at hp
      subst hp
      have := vars_set h i (some s) hc
      rw [← hv] at this
      exact ⟨_, rfl, this⟩
  | leave i =>
    simp only [step, want]
    rw [← hv]
    match e : st.vars[i]? with
    | none => simp
    | some none => simp
    | some (some x) =>
      refine ⟨by simp, ?_⟩
      intro p hp
      simp only [Option.some.injEq] at hp
      subst hp
      have := vars_set h i none hc
      rw [← hv] at this
      exact ⟨_, rfl, this⟩
  | create a =>
    cases a with
    | temp s =>
      refine ⟨by simp [step], ?_⟩
      intro p hp
      simp only [step, Option.some.injEq] at hp
      subst hp
      exact ⟨_, rfl, agree_append h rfl⟩
    | named i =>
      simp only [step, want]
      rw [← hv]
      match e : st.vars[i]? with
      | none => simp
      | some none => simp
      | some (some x) =>
        refine ⟨by simp, ?_⟩
        intro p hp
        simp only [Option.some.injEq] at hp
        subst hp
        have := agree_append h (b := some (make (.named i))) (t := some x) e
        exact ⟨_, rfl, by rw [hv]; rw [hv] at this; exact this⟩
  | call k a =>
    simp only [step, want]
    match e : st.objs[k]? with
    | none =>
      refine ⟨fun _ => ?_, by simp⟩
      rw [join_none ((own_of h).2 (by rw [e]; simp))]; rfl
    | some none =>
      refine ⟨fun _ => ?_, by simp⟩
      rw [join_none ((own_of h).2 (by rw [e]; simp))]; rfl
    | some (some (.own s)) =>
      refine ⟨by simp, ?_⟩
      intro p hp
      simp only [Option.some.injEq] at hp
      subst hp
      obtain ⟨t, ht, hst⟩ := (own_of h).1 _ e
      have hst : s = t := hst
      subst hst
      rw [join_some ht]
      exact ⟨_, rfl, agree_set h k rfl⟩
    | some (some (.ref i)) =>
      obtain ⟨t, ht, hst⟩ := (own_of h).1 _ e
      have hst : st.vars[i]? = some (some t) := hst
      dsimp only
      rw [hst, join_some ht]
      refine ⟨by simp, ?_⟩
      intro p hp
      simp only [Option.some.injEq] at hp
      subst hp
      have e2 := hc i e t
      refine ⟨_, rfl, ?_⟩
      rw [e2]
      have h1 : st.vars.set i (some t) = st.vars := by
        apply List.ext_getElem?
        intro j
        by_cases g : i = j
        · subst g; rw [List.getElem?_set_self', hst]; rfl
        · rw [List.getElem?_set_ne g]
      have h2 : sp.own.set k (some t) = sp.own := by
        apply List.ext_getElem?
        intro j
        by_cases g : k = j
        · subst g; rw [List.getElem?_set_self', ht]; rfl
        · rw [List.getElem?_set_ne g]
      dsimp only
      rw [h1, h2]
      exact h
  | destroy k =>
    simp only [step, want]
    match e : st.objs[k]? with
    | none =>
      refine ⟨fun _ => ?_, by simp⟩
      rw [join_none ((own_of h).2 (by rw [e]; simp))]; rfl
    | some none =>
      refine ⟨fun _ => ?_, by simp⟩
      rw [join_none ((own_of h).2 (by rw [e]; simp))]; rfl
    | some (some b) =>
      refine ⟨by simp, ?_⟩
      intro p hp
      simp only [Option.some.injEq] at hp
      subst hp
      obtain ⟨t, ht, hst⟩ := (own_of h).1 _ e
      rw [join_some ht]
      exact ⟨_, rfl, agree_set h k trivial⟩

theorem run_rel (f : S → A → S × R) : ∀ (os : List (Op S A)) {st : State S} {sp : Spec S}, Rel st sp → Careful f st os →
    run f st os = wants f sp os
  | [], st, sp, _, _ => rfl
  | o :: os, st, sp, h, hc => by
    obtain ⟨h1, h2⟩ := step_rel f h o hc.1
    cases e : step f st o with
    | none => simp only [run, wants, e, h1 e]
    | some p =>
      obtain ⟨sp', h3, h4⟩ := h2 p e
      obtain ⟨st', r⟩ := p
      simp only [run, wants, e, h3, run_rel f os h4 (hc.2 _ e)]

/-- **C109 (partial).** Filters and formatters decide and print as if each had a functor of its own, with the state it had when the
filter was made, in every history in which a functor variable is left alone while a filter made from it exists.

Missing: other uses of a variable; there the claim is false (`C109_changed_fails`, `C109_shared_fails`, `C109_gone_fails`). -/
theorem C109_partial (f : S → A → S × R) (os : List (Op S A)) (hc : Careful f ⟨[], []⟩ os) :
    run f ⟨[], []⟩ os = wants f ⟨[], []⟩ os :=
  run_rel f os ⟨rfl, rfl, by simp⟩ hc

/-- The operations that do not make filters from variables.  (Specification; no code.) -/
def Op.Unnamed : Op S A → Prop
  | .create (.named _) => False
  | _ => True

theorem careful_unnamed (f : S → A → S × R) : ∀ (os : List (Op S A)) (st : State S), (∀ i : Nat, Free st i) → (∀ o ∈ os, o.Unnamed) →
    Careful f st os
  | [], _, _, _ => trivial
  | o :: os, st, h, hu => by
    refine ⟨?_, ?_⟩
    · cases o with
      | assign i s => exact h i
      | leave i => exact h i
      | call k a => intro i hi; exact absurd hi (h i k)
      | _ => trivial
    · intro p hp
      refine careful_unnamed f os p.1 ?_ (fun o ho => hu o (List.mem_cons_of_mem _ ho))
      have ho := hu o List.mem_cons_self
      have hset : ∀ (k : Nat) (b : Option (Body S)), (∀ i, b ≠ some (.ref i)) → ∀ i, Free ⟨st.vars, st.objs.set k b⟩ i := by
        intro k b hb i k' hk
        dsimp only at hk
        by_cases g : k = k'
        · subst g
          rw [List.getElem?_set_self'] at hk
          cases e : st.objs[k]? <;> simp [e] at hk
          exact hb i hk
        · rw [List.getElem?_set_ne g] at hk; exact h i k' hk
      intro i
      cases o with
      | declare s => simp only [step, Option.some.injEq] at hp; subst hp; exact h i
      | assign j s =>
        simp only [step] at hp
        split at hp
        · cases hp; exact h i
        · cases hp
      | leave j =>
        simp only [step] at hp
        split at hp
        · cases hp; exact h i
        · cases hp
      | create a =>
        cases a with
        | named j => exact absurd ho (by simp [Op.Unnamed])
        | temp s =>
          simp only [step, Option.some.injEq] at hp; subst hp
          intro k hk
          dsimp only at hk
          by_cases g : k < st.objs.length
          · rw [List.getElem?_append_left g] at hk; exact h i k hk
          · rw [List.getElem?_append_right (by omega)] at hk
            have := List.mem_of_getElem? hk
            simp [make] at this
      | call k a =>
        simp only [step] at hp
        split at hp
        · cases hp; exact hset k _ (by simp) i
        · rename_i j hj; exact absurd hj (h j k)
        · cases hp
      | destroy k =>
        simp only [step] at hp
        split at hp
        · cases hp; exact hset k _ (by simp) i
        · cases hp

/-- **C109 for temporaries (partial).** The same for every history in which filters are made from temporary or moved functors only,
whatever the functors do. -/
theorem C109_temporaries_partial (f : S → A → S × R) (os : List (Op S A)) (hu : ∀ o ∈ os, o.Unnamed) :
    run f ⟨[], []⟩ os = wants f ⟨[], []⟩ os :=
  C109_partial f os (careful_unnamed f os _ (by intro i k; simp) hu)

/-- A functor that counts its calls.  (An example; no code.) -/
def counting (s : Nat) (_ : Unit) : Nat × Nat := (s + 1, s)

/-- **C109 fails: a change of the variable changes the filter.** -/
theorem C109_changed_fails :
    run counting ⟨[], []⟩ [.declare 0, .create (.named 0), .assign 0 7, .call 0 ()] = some [none, none, none, some 7] ∧
    wants counting ⟨[], []⟩ [.declare 0, .create (.named 0), .assign 0 7, .call 0 ()] = some [none, none, none, some 0] := by
  decide

/-- **C109 fails: two filters made from one variable share its state.** -/
theorem C109_shared_fails :
    run counting ⟨[], []⟩ [.declare 0, .create (.named 0), .create (.named 0), .call 0 (), .call 1 ()] =
      some [none, none, none, some 0, some 1] ∧
    wants counting ⟨[], []⟩ [.declare 0, .create (.named 0), .create (.named 0), .call 0 (), .call 1 ()] =
      some [none, none, none, some 0, some 0] := by
  decide

/-- **C109 fails: a filter made from a variable is unusable when the variable is gone,** whatever the functor is. -/
theorem C109_gone_fails (f : S → A → S × R) (s : S) (a : A) :
    run f ⟨[], []⟩ [.declare s, .create (.named 0), .leave 0, .call 0 a] = none ∧
    wants f ⟨[], []⟩ [.declare s, .create (.named 0), .leave 0, .call 0 a] = some [none, none, none, some (f s a).2] := by
  simp [run, wants, step, want, make]

/-- A case of `C109_partial`: a filter made from a variable and one from a temporary; the functor returns what it holds. -/
example : Careful (fun (s : Nat) (_ : Unit) => (s, s)) ⟨[], []⟩
    [.declare 3, .create (.named 0), .create (.temp 4), .call 0 (), .call 1 (), .destroy 0, .assign 0 9, .call 1 ()] ∧
    run (fun (s : Nat) (_ : Unit) => (s, s)) ⟨[], []⟩
      [.declare 3, .create (.named 0), .create (.temp 4), .call 0 (), .call 1 (), .destroy 0, .assign 0 9, .call 1 ()] =
      some [none, none, none, some 3, some 4, none, none, some 4] := by
  refine ⟨?_, by decide⟩
  simp [Careful, Careful1, step, make, Free]
  intro k
  match k with
  | 0 => simp
  | 1 => simp
  | k + 2 => simp

end Verif.Log.Functor
