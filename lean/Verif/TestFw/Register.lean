import Verif.TestFw.Lemmas

/-! Helper lemmas about registration: what the tree holds after any sequence of
registrations. -/

set_option linter.unusedSimpArgs false
set_option linter.unusedVariables false

namespace Verif.TestFw

mutual
/-- Sibling names are distinct at every level. -/
def WF : Suite → Prop
  | .mk _ cs ss => (cs.map (·.name)).Nodup ∧ (ss.map Suite.name).Nodup ∧ WFL ss
def WFL : List Suite → Prop
  | [] => True
  | s :: ss => WF s ∧ WFL ss
end

theorem WFL_iff (ss : List Suite) : WFL ss ↔ ∀ s ∈ ss, WF s := by
  induction ss with
  | nil => simp [WFL]
  | cons s ss ih => simp [WFL, ih]

theorem wf_parts (s : Suite) :
    WF s ↔ (s.cases.map (·.name)).Nodup ∧ (s.subs.map Suite.name).Nodup ∧ ∀ c ∈ s.subs, WF c := by
  cases s; simp [WF, WFL_iff, Suite.cases, Suite.subs]

/-- The cases of the suite at a path. -/
def casesAt : List Name → Suite → List Case
  | [], s => s.cases
  | p :: ps, s =>
    match s.subs.find? (fun c => c.name == p) with
    | none => []
    | some c => casesAt ps c

theorem addCaseAt_name (p : List Name) (n : Name) (b : List Act) (s : Suite) :
    (addCaseAt p n b s).name = s.name := by
  cases p <;> simp [addCaseAt, Suite.name]

theorem addSuiteAt_name (p : List Name) (s : Suite) : (addSuiteAt p s).name = s.name := by
  cases p <;> simp [addSuiteAt, Suite.name]

theorem addCaseHere_nodup (cs : List Case) (n : Name) (b : List Act)
    (h : (cs.map (·.name)).Nodup) : ((addCaseHere cs n b).map (·.name)).Nodup := by
  simp only [addCaseHere]
  split
  · exact h
  · rename_i hn
    simp only [List.any_eq_true, not_exists] at hn
    rw [List.map_append, List.nodup_append]
    refine ⟨h, by simp, ?_⟩
    intro a ha b' hb hab
    simp at hb
    subst hab
    obtain ⟨c, hc, e⟩ := List.mem_map.mp ha
    exact hn c ⟨hc, by simp [e, hb]⟩

theorem addSuiteHere_nodup (ss : List Suite) (n : Name)
    (h : (ss.map Suite.name).Nodup) : ((addSuiteHere ss n).map Suite.name).Nodup := by
  simp only [addSuiteHere]
  split
  · exact h
  · rename_i hn
    simp only [List.any_eq_true, not_exists] at hn
    rw [List.map_append, List.nodup_append]
    refine ⟨h, by simp [Suite.name], ?_⟩
    intro a ha b' hb hab
    simp [Suite.name] at hb
    subst hab
    obtain ⟨c, hc, e⟩ := List.mem_map.mp ha
    exact hn c ⟨hc, by simp [e, hb]⟩

theorem addSuiteHere_mem (ss : List Suite) (n : Name) (c : Suite) (h : c ∈ addSuiteHere ss n) :
    c ∈ ss ∨ c = .mk n [] [] := by
  simp only [addSuiteHere] at h
  split at h
  · exact Or.inl h
  · simpa using h

theorem wf_child {f : Suite → Suite} (s : Suite) (p : Name) (hs : WF s)
    (hf : ∀ c, WF c → WF (f c)) (hn : ∀ c, (f c).name = c.name) :
    WF (.mk s.name s.cases ((addSuiteHere s.subs p).map fun c => if c.name == p then f c else c)) := by
  rw [wf_parts] at hs ⊢
  obtain ⟨h1, h2, h3⟩ := hs
  simp only [Suite.cases, Suite.subs]
  refine ⟨h1, ?_, ?_⟩
  · rw [List.map_map]
    have e : (Suite.name ∘ fun c => if (c.name == p) = true then f c else c) = Suite.name := by
      funext c
      simp only [Function.comp]
      split
      · exact hn c
      · rfl
    rw [e]
    exact addSuiteHere_nodup _ _ h2
  · intro c hc
    obtain ⟨c₀, hc₀, rfl⟩ := List.mem_map.mp hc
    have w : WF c₀ := by
      rcases addSuiteHere_mem _ _ _ hc₀ with h | rfl
      · exact h3 _ h
      · simp [WF, WFL]
    split
    · exact hf _ w
    · exact w

theorem addCaseAt_wf (p : List Name) (n : Name) (b : List Act) (s : Suite) (h : WF s) :
    WF (addCaseAt p n b s) := by
  induction p generalizing s with
  | nil =>
    rw [wf_parts] at h ⊢
    exact ⟨addCaseHere_nodup _ _ _ h.1, h.2⟩
  | cons p ps ih =>
    exact wf_child s p h (fun c hc => ih c hc) (addCaseAt_name ps n b)

theorem addSuiteAt_wf (p : List Name) (s : Suite) (h : WF s) : WF (addSuiteAt p s) := by
  induction p generalizing s with
  | nil => exact h
  | cons p ps ih => exact wf_child s p h (fun c hc => ih c hc) (addSuiteAt_name ps)

theorem build_append (rs : List Reg) (r : Reg) : build (rs ++ [r]) = r.apply (build rs) := by
  simp [build]

theorem find_child (ss : List Suite) (p q : Name) (f : Suite → Suite)
    (hn : ∀ c, (f c).name = c.name) :
    ((addSuiteHere ss p).map fun c => if c.name == p then f c else c).find? (fun c => c.name == q)
      = if q = p then some (f ((ss.find? (fun c => c.name == p)).getD (.mk p [] [])))
        else ss.find? (fun c => c.name == q) := by
  rw [List.find?_map]
  have e : ((fun c : Suite => c.name == q) ∘ fun c => if (c.name == p) = true then f c else c) =
      fun c => c.name == q := by
    funext c
    simp only [Function.comp]
    split
    · rw [hn]
    · rfl
  rw [e]
  have key : (addSuiteHere ss p).find? (fun c => c.name == q) =
      if q = p then some ((ss.find? (fun c => c.name == p)).getD (.mk p [] []))
      else ss.find? (fun c => c.name == q) := by
    simp only [addSuiteHere]
    by_cases ha : ss.any (fun s => s.name == p) = true
    · rw [if_pos ha]
      by_cases hq : q = p
      · subst hq
        obtain ⟨c, hc⟩ : ∃ c, ss.find? (fun c => c.name == q) = some c := by
          rw [List.any_eq_true] at ha
          obtain ⟨x, hx, he⟩ := ha
          cases hf : ss.find? (fun c => c.name == q) with
          | some c => exact ⟨c, rfl⟩
          | none => exact absurd he (by simpa using List.find?_eq_none.mp hf x hx)
        simp [hc]
      · simp [hq]
    · rw [if_neg ha, List.find?_append]
      have hnone : ss.find? (fun c => c.name == p) = none := by
        rw [List.find?_eq_none]
        intro x hx he
        exact ha (List.any_eq_true.mpr ⟨x, hx, he⟩)
      by_cases hq : q = p
      · subst hq
        simp [hnone, Suite.name]
      · have hqp : ¬ p = q := fun h => hq h.symm
        simp [hq, Suite.name, hqp]
  rw [key]
  by_cases hq : q = p
  · subst hq
    simp only [if_true, Option.map_some]
    have : ((ss.find? (fun c => c.name == q)).getD (.mk q [] [])).name = q := by
      cases hf : ss.find? (fun c => c.name == q) with
      | none => rfl
      | some c => simpa using List.find?_some hf
    simp [this]
  · simp only [hq, if_false]
    cases hf : ss.find? (fun c => c.name == q) with
    | none => rfl
    | some c =>
      have : c.name = q := by simpa using List.find?_some hf
      simp [this, hq]

theorem casesAt_empty (q : List Name) (n : Name) : casesAt q (.mk n [] []) = [] := by
  cases q <;> simp [casesAt, Suite.cases, Suite.subs]

theorem casesAt_cons (q : Name) (qs : List Name) (s : Suite) :
    casesAt (q :: qs) s =
      casesAt qs ((s.subs.find? (fun c => c.name == q)).getD (.mk q [] [])) := by
  simp only [casesAt]
  cases s.subs.find? (fun c => c.name == q) with
  | none => simp [casesAt_empty]
  | some c => rfl

theorem casesAt_addCaseAt (p q : List Name) (n : Name) (b : List Act) (s : Suite) :
    casesAt q (addCaseAt p n b s) =
      if q = p then addCaseHere (casesAt q s) n b else casesAt q s := by
  induction p generalizing q s with
  | nil =>
    cases q with
    | nil => simp [addCaseAt, casesAt, Suite.cases]
    | cons q qs => simp [addCaseAt, casesAt, Suite.subs]
  | cons p ps ih =>
    cases q with
    | nil => simp [addCaseAt, casesAt, Suite.cases]
    | cons q qs =>
      simp only [addCaseAt, casesAt_cons, Suite.subs]
      rw [find_child _ _ _ _ (addCaseAt_name ps n b)]
      by_cases hq : q = p
      · subst hq
        simp only [if_true, Option.getD_some, ih]
        simp
      · simp [hq]

theorem casesAt_addSuiteAt (p q : List Name) (s : Suite) :
    casesAt q (addSuiteAt p s) = casesAt q s := by
  induction p generalizing q s with
  | nil => rfl
  | cons p ps ih =>
    cases q with
    | nil => simp [addSuiteAt, casesAt, Suite.cases]
    | cons q qs =>
      simp only [addSuiteAt, casesAt_cons, Suite.subs]
      rw [find_child _ _ _ _ (addSuiteAt_name ps)]
      by_cases hq : q = p
      · subst hq
        simp only [if_true, Option.getD_some, ih]
      · simp [hq]

/-! ### The order of a well-formed tree -/

mutual
theorem order_prefix (path : List Name) (s : Suite) :
    ∀ x ∈ order path s, ∃ q, x.1 = path ++ q := by
  match s with
  | .mk n cs ss =>
    intro x hx
    simp only [order, List.mem_append, List.mem_map] at hx
    rcases hx with ⟨c, _, rfl⟩ | hx
    · exact ⟨[], by simp⟩
    · obtain ⟨s, _, q, e⟩ := orderL_prefix path ss x hx
      exact ⟨s.name :: q, e⟩
theorem orderL_prefix (path : List Name) (ss : List Suite) :
    ∀ x ∈ orderL path ss, ∃ s ∈ ss, ∃ q, x.1 = path ++ s.name :: q := by
  match ss with
  | [] => intro x hx; simp [orderL] at hx
  | s :: ss =>
    intro x hx
    simp only [orderL, List.mem_append] at hx
    rcases hx with hx | hx
    · obtain ⟨q, e⟩ := order_prefix (path ++ [s.name]) s x hx
      exact ⟨s, by simp, q, by simpa using e⟩
    · obtain ⟨t, ht, q, e⟩ := orderL_prefix path ss x hx
      exact ⟨t, by simp [ht], q, e⟩
end

mutual
theorem order_at (path q : List Name) (s : Suite) (h : WF s) :
    (order path s).filter (fun x => x.1 = path ++ q) =
      (casesAt q s).map (fun c => (path ++ q, c)) := by
  match s with
  | .mk n cs ss =>
    simp only [order, List.filter_append]
    simp only [WF] at h
    cases q with
    | nil =>
      have e1 : (cs.map (fun c => (path, c))).filter (fun x => x.1 = path ++ []) =
          cs.map (fun c => (path, c)) := by
        rw [List.filter_eq_self]
        intro x hx
        obtain ⟨c, _, rfl⟩ := List.mem_map.mp hx
        simp
      have e2 : (orderL path ss).filter (fun x => x.1 = path ++ []) = [] := by
        rw [List.filter_eq_nil_iff]
        intro x hx
        obtain ⟨s, _, q, e⟩ := orderL_prefix path ss x hx
        simp [e]
      rw [e1, e2]
      simp [casesAt, Suite.cases]
    | cons q qs =>
      have e1 : (cs.map (fun c => (path, c))).filter (fun x => x.1 = path ++ q :: qs) = [] := by
        rw [List.filter_eq_nil_iff]
        intro x hx
        obtain ⟨c, _, rfl⟩ := List.mem_map.mp hx
        simp
      rw [e1, List.nil_append, orderL_at path q qs ss h.2.1 h.2.2]
      simp only [casesAt, Suite.subs]
      cases ss.find? (fun c => c.name == q) <;> simp
theorem orderL_at (path : List Name) (q : Name) (qs : List Name) (ss : List Suite)
    (hn : (ss.map Suite.name).Nodup) (h : WFL ss) :
    (orderL path ss).filter (fun x => x.1 = path ++ q :: qs) =
      match ss.find? (fun c => c.name == q) with
      | none => []
      | some c => (casesAt qs c).map (fun c => (path ++ q :: qs, c)) := by
  match ss with
  | [] => rfl
  | s :: ss =>
    simp only [orderL, List.filter_append]
    simp only [WFL] at h
    simp only [List.map_cons, List.nodup_cons] at hn
    by_cases hq : s.name = q
    · have e2 : (orderL path ss).filter (fun x => x.1 = path ++ q :: qs) = [] := by
        rw [List.filter_eq_nil_iff]
        intro x hx
        obtain ⟨t, ht, q', e⟩ := orderL_prefix path ss x hx
        simp only [e, decide_eq_true_eq]
        intro he
        have := List.append_cancel_left he
        simp at this
        exact hn.1 (List.mem_map.mpr ⟨t, ht, this.1.trans hq.symm⟩)
      have e1 := order_at (path ++ [s.name]) qs s h.1
      rw [hq] at e1
      simp only [List.append_assoc, List.cons_append, List.nil_append] at e1
      rw [hq, e1, e2]
      simp [List.find?_cons, hq]
    · have e1 : (order (path ++ [s.name]) s).filter (fun x => x.1 = path ++ q :: qs) = [] := by
        rw [List.filter_eq_nil_iff]
        intro x hx
        obtain ⟨q', e⟩ := order_prefix (path ++ [s.name]) s x hx
        simp [e, hq]
      rw [e1, List.nil_append, orderL_at path q qs ss hn.2 h.2]
      simp [List.find?_cons, hq]
end

theorem build_wf (rs : List Reg) : WF (build rs) := by
  have : ∀ (rs : List Reg) (s : Suite), WF s → WF (rs.foldl (fun s r => r.apply s) s) := by
    intro rs
    induction rs with
    | nil => intro s h; exact h
    | cons r rs ih =>
      intro s h
      apply ih
      cases r with
      | case p n b => exact addCaseAt_wf p n b s h
      | suite p => exact addSuiteAt_wf p s h
  exact this rs master (by simp [master, WF, WFL])

/-- The registrations of cases at a path, in order. -/
def regsAt (q : List Name) (rs : List Reg) : List (Name × List Act) :=
  rs.filterMap fun | .case p n b => if p = q then some (n, b) else none | .suite _ => none

/-- `AddCase` for a list of registrations. -/
def addAll (cs : List Case) (l : List (Name × List Act)) : List Case :=
  l.foldl (fun cs x => addCaseHere cs x.1 x.2) cs

theorem casesAt_build (q : List Name) (rs : List Reg) :
    casesAt q (build rs) = addAll [] (regsAt q rs) := by
  have : ∀ (rs : List Reg) (s : Suite),
      casesAt q (rs.foldl (fun s r => r.apply s) s) = addAll (casesAt q s) (regsAt q rs) := by
    intro rs
    induction rs with
    | nil => intro s; rfl
    | cons r rs ih =>
      intro s
      rw [List.foldl_cons, ih]
      cases r with
      | case p n b =>
        simp only [Reg.apply, casesAt_addCaseAt, regsAt, List.filterMap_cons]
        by_cases hq : q = p
        · subst hq; simp [addAll]
        · have : ¬ p = q := fun h => hq h.symm
          simp [hq, this]
      | suite p => simp [Reg.apply, casesAt_addSuiteAt, regsAt]
  have h := this rs master
  simpa [master, casesAt_empty, build] using h

end Verif.TestFw
