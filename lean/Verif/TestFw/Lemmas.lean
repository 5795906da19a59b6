import Verif.TestFw.Model

/-! Helper lemmas for the unit-test framework: the run of a tree is the run of the
flat list of its cases. -/

set_option linter.unusedSimpArgs false
set_option linter.unusedVariables false

namespace Verif.TestFw

/-- A case with the path of its suite. -/
abbrev Item := List Name × Case

mutual
/-- The cases of a suite in the documented order (suite.h 32-33): its own cases
    first, then those of its child suites. -/
def order (path : List Name) : Suite → List Item
  | .mk _ cs ss => cs.map (fun c => (path, c)) ++ orderL path ss
def orderL (path : List Name) : List Suite → List Item
  | [] => []
  | s :: ss => order (path ++ [s.name]) s ++ orderL path ss
end

/-- The run of a flat list of cases. -/
def runFlat : List Item → Runner → List Item × Runner
  | [], r => ([], r)
  | (p, c) :: l, r =>
    (((p, (runCase p c r).1) :: (runFlat l (runCase p c r).2).1),
     (runFlat l (runCase p c r).2).2)

theorem runFlat_stop (l : List Item) (r : Runner) (h : r.stop = true) : runFlat l r = (l, r) := by
  induction l with
  | nil => rfl
  | cons x l ih =>
    obtain ⟨p, c⟩ := x
    simp [runFlat, runCase, h, ih]

theorem runFlat_append (l m : List Item) (r : Runner) :
    runFlat (l ++ m) r =
      ((runFlat l r).1 ++ (runFlat m (runFlat l r).2).1, (runFlat m (runFlat l r).2).2) := by
  induction l generalizing r with
  | nil => rfl
  | cons x l ih =>
    obtain ⟨p, c⟩ := x
    simp [runFlat, ih]

theorem runCases_flat (path : List Name) (cs : List Case) (r : Runner) :
    runFlat (cs.map fun c => (path, c)) r =
      ((runCases path cs r).1.map (fun c => (path, c)), (runCases path cs r).2) := by
  induction cs generalizing r with
  | nil => rfl
  | cons c cs ih => simp [runFlat, runCases, ih]

theorem runSuite_name (path : List Name) (s : Suite) (r : Runner) :
    (runSuite path s r).1.name = s.name := by
  cases s; simp [runSuite, Suite.name]

mutual
theorem runSuite_flat (path : List Name) (s : Suite) (r : Runner) :
    runFlat (order path s) r =
      (order path (runSuite path s r).1, (runSuite path s r).2) := by
  match s with
  | .mk n cs ss =>
    simp only [order, runSuite, runFlat_append, runCases_flat]
    by_cases h : r.stop = true
    · have e1 : runCases path cs r = (cs, r) := by
        have := runCases_flat path cs r
        rw [runFlat_stop _ _ h] at this
        have h1 := congrArg Prod.fst this
        have h2 := congrArg Prod.snd this
        simp only at h1 h2
        have h3 : cs = (runCases path cs r).1 := by
          have := congrArg (List.map Prod.snd) h1
          simpa [List.map_map, Function.comp_def] using this
        exact Prod.ext h3.symm h2.symm
      simp [h, e1, runFlat_stop _ _ h]
    · simp only [h, Bool.false_eq_true, if_false]
      by_cases h2 : (runCases path cs r).2.stop = true
      · simp [h2, runFlat_stop _ _ h2]
      · simp only [h2, Bool.false_eq_true, if_false]
        rw [runSuites_flat]
theorem runSuites_flat (path : List Name) (ss : List Suite) (r : Runner) :
    runFlat (orderL path ss) r =
      (orderL path (runSuites path ss r).1, (runSuites path ss r).2) := by
  match ss with
  | [] => rfl
  | s :: ss =>
    simp only [orderL, runSuites, runFlat_append]
    rw [runSuite_flat]
    simp only [runSuite_name]
    rw [runSuites_flat]
end

mutual
theorem numCases_order (path : List Name) (s : Suite) : s.numCases = (order path s).length := by
  match s with
  | .mk n cs ss => simp [Suite.numCases, order, numCasesL_order path ss]
theorem numCasesL_order (path : List Name) (ss : List Suite) :
    numCasesL ss = (orderL path ss).length := by
  match ss with
  | [] => rfl
  | s :: ss =>
    simp only [numCasesL, orderL, List.length_append]
    rw [numCases_order (path ++ [s.name]) s, numCasesL_order path ss]
end

/-- Number of stored results of a flat list. -/
def stored (l : List Item) : Nat := (l.map fun x => x.2.results.length).sum

theorem failuresC_eq (path : List Name) (cs : List Case) :
    failuresC cs = stored (cs.map fun c => (path, c)) := by
  induction cs with
  | nil => rfl
  | cons c cs ih => simp [failuresC, stored, ih]

mutual
theorem numFailures_order (path : List Name) (s : Suite) :
    s.numFailures = stored (order path s) := by
  match s with
  | .mk n cs ss =>
    simp only [Suite.numFailures, order, failuresC_eq path, numFailuresL_order path ss]
    simp [stored]
theorem numFailuresL_order (path : List Name) (ss : List Suite) :
    numFailuresL ss = stored (orderL path ss) := by
  match ss with
  | [] => rfl
  | s :: ss =>
    simp only [numFailuresL, orderL]
    rw [numFailures_order (path ++ [s.name]) s, numFailuresL_order path ss]
    simp [stored]
end

/-! ### Prefix through the first fatal element -/

/-- Prefix up to and including the first element with `f`. -/
def upTo {α : Type} (f : α → Bool) : List α → List α
  | [] => []
  | a :: l => if f a then [a] else a :: upTo f l

theorem upTo_spec {α : Type} (f : α → Bool) (l : List α) :
    ∃ k, k ≤ l.length ∧ upTo f l = l.take k ∧
      (∀ i, (h : i < l.length) → i + 1 < k → f l[i] = false) ∧
      (k < l.length → ∃ h : k - 1 < l.length, 0 < k ∧ f l[k - 1] = true) := by
  induction l with
  | nil => exact ⟨0, by simp, rfl, by simp, by simp⟩
  | cons a l ih =>
    by_cases ha : f a = true
    · refine ⟨1, by simp, by simp [upTo, ha], ?_, ?_⟩
      · intro i h hi; omega
      · intro _; exact ⟨by simp, by omega, by simpa using ha⟩
    · obtain ⟨k, hk, hu, hb, he⟩ := ih
      refine ⟨k + 1, by simp; omega, by simp [upTo, ha, hu], ?_, ?_⟩
      · intro i h hi
        cases i with
        | zero => simpa using ha
        | succ i => simpa using hb i (by simpa using h) (by omega)
      · intro hlt
        obtain ⟨h1, h2, h3⟩ := he (by simpa using hlt)
        obtain ⟨m, rfl⟩ : ∃ m, k = m + 1 := ⟨k - 1, by omega⟩
        refine ⟨by simp at *; omega, by omega, ?_⟩
        simpa using h3

theorem upTo_of_none {α : Type} (f : α → Bool) (l : List α) (h : l.any f = false) :
    upTo f l = l := by
  induction l with
  | nil => rfl
  | cons a l ih =>
    simp only [List.any_cons, Bool.or_eq_false_iff] at h
    simp [upTo, h.1, ih h.2]

theorem upTo_append_none {α : Type} (f : α → Bool) (l m : List α) (h : l.any f = false) :
    upTo f (l ++ m) = l ++ upTo f m := by
  induction l with
  | nil => rfl
  | cons a l ih =>
    simp only [List.any_cons, Bool.or_eq_false_iff] at h
    simp [upTo, h.1, ih h.2]

theorem upTo_append_some {α : Type} (f : α → Bool) (l m : List α) (h : l.any f = true) :
    upTo f (l ++ m) = upTo f l := by
  induction l with
  | nil => simp at h
  | cons a l ih =>
    by_cases ha : f a = true
    · simp [upTo, ha]
    · simp only [List.any_cons, Bool.or_eq_true] at h
      simp [upTo, ha, ih (h.resolve_left ha)]

/-! ### The assertions of a body -/

/-- An assertion of a case: path, case name, identity, level, value. -/
structure Check where
  path : List Name
  case : Name
  id : Nat
  level : Level
  ok : Bool
  deriving DecidableEq, Repr

/-- A failed assertion of level `ASSERT`. -/
def Check.fatal (c : Check) : Bool := c.level == .assert && !c.ok

def Check.failed (c : Check) : Bool := !c.ok

def Check.key (c : Check) : List Name × Name × Nat := (c.path, c.case, c.id)

def Check.result (c : Check) : Result := ⟨c.id, c.level⟩

/-- The assertions of a body, in order. -/
def checksOf (path : List Name) (case : Name) : List Act → List Check
  | [] => []
  | .check id level ok :: as => ⟨path, case, id, level, ok⟩ :: checksOf path case as
  | .message _ :: as => checksOf path case as

/-- The assertions of a list of cases, in order. -/
def allChecks (l : List Item) : List Check :=
  l.flatMap fun x => checksOf x.1 x.2.name x.2.body

/-- The case contains an assertion of level `ASSERT` that fails. -/
def fatalItem (x : Item) : Bool := (checksOf x.1 x.2.name x.2.body).any Check.fatal

theorem runBody_stopped (path : List Name) (case : Name) (as : List Act) (r : Runner)
    (h : r.stop = true) :
    (runBody path case as r).2 = [] ∧ (runBody path case as r).1.stop = true ∧
    (runBody path case as r).1.evaluated = r.evaluated := by
  induction as generalizing r with
  | nil => exact ⟨rfl, h, rfl⟩
  | cons a as ih =>
    cases a with
    | message t =>
      have := ih { r with log := r.log ++ [.message t] } h
      simpa [runBody, runAct] using this
    | check id level ok => simpa [runBody, runAct, h] using ih r h

theorem runBody_frame (path : List Name) (case : Name) (as : List Act) (r : Runner) :
    (runBody path case as r).1.started = r.started ∧
    (runBody path case as r).1.numTested = r.numTested ∧
    (runBody path case as r).1.numCases = r.numCases ∧
    (runBody path case as r).1.nextProgress = r.nextProgress := by
  induction as generalizing r with
  | nil => simp [runBody]
  | cons a as ih =>
    simp only [runBody]
    have := ih (runAct path case a r).1
    simp only [this]
    cases a with
    | message t => simp [runAct]
    | check id level ok =>
      simp only [runAct]
      split
      · simp
      · split
        · simp
        · simp only [commitResult, showResult]
          split <;> simp

theorem runBody_spec (path : List Name) (case : Name) (as : List Act) (r : Runner)
    (h : r.stop = false) :
    (runBody path case as r).2 =
      ((upTo Check.fatal (checksOf path case as)).filter Check.failed).map Check.result ∧
    (runBody path case as r).1.stop = (checksOf path case as).any Check.fatal ∧
    (runBody path case as r).1.evaluated =
      r.evaluated ++ (upTo Check.fatal (checksOf path case as)).map Check.key := by
  induction as generalizing r with
  | nil => simp [runBody, checksOf, upTo, h]
  | cons a as ih =>
    cases a with
    | message t =>
      have := ih { r with log := r.log ++ [.message t] } h
      simpa [runBody, runAct, checksOf] using this
    | check id level ok =>
      cases ok with
      | true =>
        have := ih { r with evaluated := r.evaluated ++ [(path, case, id)] } h
        simp [runBody, runAct, checksOf, h, upTo, Check.fatal, Check.failed, Check.key,
          Check.result] at this ⊢
        simpa [Check.failed, Check.fatal] using this
      | false =>
        cases level with
        | expect =>
          have := ih (commitResult path case ⟨id, .expect⟩
            { r with evaluated := r.evaluated ++ [(path, case, id)] })
            (by simp [commitResult, showResult, h])
          simp only [runBody, runAct, checksOf, h, upTo, Check.fatal, Check.failed, Check.key,
            Check.result] at this ⊢
          simp [this]
          simp [commitResult, showResult, Check.fatal, Check.failed, Check.key, Check.result]
        | assert =>
          have := runBody_stopped path case as (commitResult path case ⟨id, .assert⟩
            { r with evaluated := r.evaluated ++ [(path, case, id)] })
            (by simp [commitResult, showResult, h])
          simp only [runBody, runAct, checksOf, h, upTo, Check.fatal, Check.failed, Check.key,
            Check.result] at this ⊢
          simp [this]
          simp [commitResult, showResult, Check.fatal, Check.failed, Check.key, Check.result]

theorem showProgress_frame (r : Runner) :
    (showProgress r).stop = r.stop ∧ (showProgress r).numTested = r.numTested ∧
    (showProgress r).numCases = r.numCases ∧ (showProgress r).started = r.started ∧
    (showProgress r).evaluated = r.evaluated ∧ (showProgress r).prevSuite = r.prevSuite := by
  simp only [showProgress]; split <;> simp

theorem runCase_spec (p : List Name) (c : Case) (r : Runner) (h : r.stop = false) :
    (runCase p c r).1.results = c.results ++
      ((upTo Check.fatal (checksOf p c.name c.body)).filter Check.failed).map Check.result ∧
    (runCase p c r).1.name = c.name ∧ (runCase p c r).1.body = c.body ∧
    (runCase p c r).2.stop = fatalItem (p, c) ∧
    (runCase p c r).2.evaluated =
      r.evaluated ++ (upTo Check.fatal (checksOf p c.name c.body)).map Check.key ∧
    (runCase p c r).2.started = r.started ++ [(p, c.name)] ∧
    (runCase p c r).2.numTested = r.numTested + 1 ∧
    (runCase p c r).2.numCases = r.numCases := by
  have hs := runBody_spec p c.name c.body { r with started := r.started ++ [(p, c.name)] } h
  have hf := runBody_frame p c.name c.body { r with started := r.started ++ [(p, c.name)] }
  simp only [runCase, h, Bool.false_eq_true, if_false]
  simp only [showProgress_frame]
  rw [h] at hs hf
  simp [hs, hf, fatalItem]

theorem runFlat_spec (l : List Item) (r : Runner) (h : r.stop = false) :
    (runFlat l r).2.stop = l.any fatalItem ∧
    (runFlat l r).2.started =
      r.started ++ (upTo fatalItem l).map (fun x => (x.1, x.2.name)) ∧
    (runFlat l r).2.evaluated =
      r.evaluated ++ (upTo Check.fatal (allChecks l)).map Check.key ∧
    stored (runFlat l r).1 = stored l +
      ((upTo Check.fatal (allChecks l)).filter Check.failed).length ∧
    (runFlat l r).2.numTested = r.numTested + (upTo fatalItem l).length ∧
    (runFlat l r).2.numCases = r.numCases := by
  induction l generalizing r with
  | nil => simp [runFlat, upTo, allChecks, h, stored]
  | cons x l ih =>
    obtain ⟨p, c⟩ := x
    obtain ⟨h1, h2, h3, h4, h5, h6, h7, h8⟩ := runCase_spec p c r h
    by_cases hf : fatalItem (p, c) = true
    · have e := runFlat_stop l (runCase p c r).2 (by rw [h4, hf])
      simp only [runFlat, e]
      have hu : upTo Check.fatal (allChecks ((p, c) :: l)) =
          upTo Check.fatal (checksOf p c.name c.body) := by
        simp only [allChecks, List.flatMap_cons]
        exact upTo_append_some _ _ _ hf
      rw [hu]
      refine ⟨by simp [h4, hf], by simp [h6, upTo, hf], h5, ?_, by simp [h7, upTo, hf], h8⟩
      simp [stored, h1]; omega
    · have hf' : fatalItem (p, c) = false := by simpa using hf
      have ih' := ih (runCase p c r).2 (by rw [h4, hf'])
      obtain ⟨i1, i2, i3, i4, i5, i6⟩ := ih'
      have hu : upTo Check.fatal (allChecks ((p, c) :: l)) =
          checksOf p c.name c.body ++ upTo Check.fatal (allChecks l) := by
        simp only [allChecks, List.flatMap_cons]
        exact upTo_append_none _ _ _ hf'
      have hb : upTo Check.fatal (checksOf p c.name c.body) = checksOf p c.name c.body :=
        upTo_of_none _ _ hf'
      rw [hb] at h1 h5
      rw [hu]
      simp only [runFlat]
      refine ⟨by simp [i1, hf'], by simp [i2, h6, upTo, hf'], by simp [i3, h5], ?_,
        by simp [i5, h7, upTo, hf']; omega, by simp [i6, h8]⟩
      simp only [stored, List.map_cons, List.sum_cons, h1] at i4 ⊢
      simp [i4]; omega

end Verif.TestFw
