import Verif.TestFw.Lemmas

/-! Helper lemmas about the lines a run writes: progress lines and the reading back
of the results. -/

set_option linter.unusedSimpArgs false
set_option linter.unusedVariables false

namespace Verif.TestFw

/-! ### Progress lines -/

/-- The percentages of the progress lines of a log, in order. -/
def percents (l : List Line) : List Nat :=
  l.filterMap fun | .progress p => some p | _ => none

theorem percents_append (a b : List Line) : percents (a ++ b) = percents a ++ percents b := by
  simp [percents, List.filterMap_append]

theorem percents_display (d : Nat) (p : List Name) : percents (displaySuite d p) = [] := by
  induction p generalizing d with
  | nil => rfl
  | cons n p ih =>
    have := ih (d + 1)
    simpa [percents, displaySuite] using this

theorem percents_commit (p : List Name) (c : Name) (x : Result) (r : Runner) :
    percents (commitResult p c x r).log = percents r.log := by
  simp only [commitResult, showResult]
  split <;> split <;>
    simp [percents_append, percents_display] <;> simp [percents]

theorem percents_runBody (p : List Name) (c : Name) (as : List Act) (r : Runner) :
    percents (runBody p c as r).1.log = percents r.log := by
  induction as generalizing r with
  | nil => rfl
  | cons a as ih =>
    simp only [runBody]
    rw [ih]
    cases a with
    | message t => simp [runAct, percents_append]; simp [percents]
    | check id level ok =>
      simp only [runAct]
      split
      · rfl
      · split
        · rfl
        · rw [percents_commit]

theorem advance_enough (tested total k next : Nat) (hn : 0 < total)
    (h1 : next ≤ tested * 10 / total + 1) (h2 : tested * 10 / total + 1 ≤ next + k) :
    advance tested total k next = tested * 10 / total + 1 := by
  induction k generalizing next with
  | zero => simp only [advance]; omega
  | succ k ih =>
    simp only [advance]
    by_cases h : next * total ≤ tested * 10
    · rw [if_pos h]
      have := (Nat.le_div_iff_mul_le hn).mpr h
      exact ih (next + 1) (by omega) (by omega)
    · rw [if_neg h]
      have : ¬ next ≤ tested * 10 / total := fun h' => h ((Nat.le_div_iff_mul_le hn).mp h')
      omega

/-- The progress line shown after case number `i` of `n`, counted from zero. -/
def progressAfter (n i : Nat) : Option Nat :=
  if i * 10 / n < (i + 1) * 10 / n then some ((i + 1) * 10 / n * 10) else none

theorem showProgress_spec (r : Runner) (t : Nat) (hn : 0 < r.numCases)
    (ht : r.numTested = t + 1) (hx : r.nextProgress = t * 10 / r.numCases + 1) :
    (showProgress r).nextProgress = r.numTested * 10 / r.numCases + 1 ∧
    percents (showProgress r).log = percents r.log ++ (progressAfter r.numCases t).toList := by
  have hm : t * 10 / r.numCases ≤ (t + 1) * 10 / r.numCases :=
    Nat.div_le_div_right (by omega)
  have hd : (t + 1) * 10 / r.numCases ≤ (t + 1) * 10 := Nat.div_le_self _ _
  have e : advance r.numTested r.numCases (r.numTested * 10 + 1) r.nextProgress =
      r.numTested * 10 / r.numCases + 1 := by
    apply advance_enough _ _ _ _ hn
    · rw [hx, ht]; omega
    · rw [ht]; omega
  simp only [showProgress, e]
  rw [hx, ht]
  by_cases h : t * 10 / r.numCases < (t + 1) * 10 / r.numCases
  · rw [if_pos (by omega)]
    refine ⟨rfl, ?_⟩
    simp [progressAfter, h, percents_append]
    simp [percents]
  · rw [if_neg (by omega)]
    refine ⟨by rw [hx]; omega, ?_⟩
    simp [progressAfter, h]

theorem runCase_progress (p : List Name) (c : Case) (r : Runner) (h : r.stop = false)
    (hn : 0 < r.numCases) (hx : r.nextProgress = r.numTested * 10 / r.numCases + 1) :
    (runCase p c r).2.nextProgress = (r.numTested + 1) * 10 / r.numCases + 1 ∧
    percents (runCase p c r).2.log =
      percents r.log ++ (progressAfter r.numCases r.numTested).toList := by
  have hf := runBody_frame p c.name c.body { r with started := r.started ++ [(p, c.name)] }
  simp only [runCase, h, Bool.false_eq_true, if_false]
  rw [h] at hf
  generalize hb : runBody p c.name c.body _ = b at hf
  have hl : percents b.1.log = percents r.log := by
    rw [← hb, percents_runBody]
  have := showProgress_spec { b.1 with numTested := b.1.numTested + 1 } r.numTested
    (by simp [hf]; exact hn) (by simp [hf]) (by simp [hf]; exact hx)
  refine ⟨this.1.trans ?_, this.2.trans ?_⟩
  · simp [hf]
  · simp [hf, hl]

theorem runFlat_progress (l : List Item) (r : Runner) (h : r.stop = false)
    (hn : 0 < r.numCases) (hx : r.nextProgress = r.numTested * 10 / r.numCases + 1) :
    percents (runFlat l r).2.log = percents r.log ++
      (List.range' r.numTested (upTo fatalItem l).length).filterMap
        (progressAfter r.numCases) := by
  induction l generalizing r with
  | nil => simp [runFlat, upTo]
  | cons x l ih =>
    obtain ⟨p, c⟩ := x
    obtain ⟨h1, h2, h3, h4, h5, h6, h7, h8⟩ := runCase_spec p c r h
    obtain ⟨p1, p2⟩ := runCase_progress p c r h hn hx
    by_cases hf : fatalItem (p, c) = true
    · have e := runFlat_stop l (runCase p c r).2 (by rw [h4, hf])
      simp only [runFlat, e, p2]
      simp [upTo, hf, List.range'_succ, List.filterMap_cons]
      cases progressAfter r.numCases r.numTested <;> rfl
    · have hf' : fatalItem (p, c) = false := by simpa using hf
      have ih' := ih (runCase p c r).2 (by rw [h4, hf']) (by rw [h8]; exact hn)
        (by rw [p1, h7, h8])
      simp only [runFlat, ih', p2, h7, h8]
      simp [upTo, hf', List.range'_succ, List.filterMap_cons]
      cases progressAfter r.numCases r.numTested <;> rfl

/-! ### Reading the results back from the log -/

/-- A reader of the log: the suite and case of the last headings, and the results
    read so far with the suite and case they stand under. -/
structure Reader where
  path : List Name
  case : Name
  seen : List (List Name × Name × Result)

/-- Reading one line.  A suite heading with indentation `i` is a child of the
    `i` innermost headings above it; a case heading with indentation `i` belongs to
    the suite whose headings are the first `i`. -/
def Reader.line (rd : Reader) : Line → Reader
  | .started => { rd with path := [] }
  | .suite i n => { rd with path := rd.path.take i ++ [n] }
  | .case i n => { rd with path := rd.path.take i, case := n }
  | .result _ r => { rd with seen := rd.seen ++ [(rd.path, rd.case, r)] }
  | _ => rd

/-- Reading a whole log. -/
def readLog (l : List Line) : Reader := l.foldl Reader.line ⟨[], "", []⟩

theorem display_read (ns : List Name) (d : Nat) (rd : Reader) (h : d ≤ rd.path.length) :
    ((displaySuite d ns).foldl Reader.line rd).path.take (d + ns.length) =
      rd.path.take d ++ ns ∧
    ((displaySuite d ns).foldl Reader.line rd).seen = rd.seen := by
  induction ns generalizing d rd with
  | nil => simp [displaySuite]
  | cons n ns ih =>
    have := ih (d + 1) (rd.line (.suite d n)) (by simp [Reader.line]; omega)
    simp only [displaySuite, List.foldl_cons, List.length_cons]
    rw [show d + (ns.length + 1) = d + 1 + ns.length by omega, this.1, this.2]
    have e : (rd.path.take d ++ [n]).take (d + 1) = rd.path.take d ++ [n] := by
      apply List.take_of_length_le; simp; omega
    simp [Reader.line, e]

theorem showResult_read (p : List Name) (c : Name) (x : Result) (r : Runner)
    (h : (readLog r.log).path = r.prevSuite) :
    (readLog (showResult p c x r).log).path = p ∧
    (readLog (showResult p c x r).log).seen = (readLog r.log).seen ++ [(p, c, x)] := by
  simp only [showResult, readLog, List.foldl_append]
  by_cases hp : p = r.prevSuite
  · simp only [hp, ne_eq, not_true_eq_false, if_false, List.foldl_nil]
    have h' : (List.foldl Reader.line ⟨[], "", []⟩ r.log).path = r.prevSuite := h
    simp [Reader.line, h']
  · simp only [hp, ne_eq, not_false_eq_true, if_true]
    have := display_read p 0 (List.foldl Reader.line ⟨[], "", []⟩ r.log) (by omega)
    simp only [Nat.zero_add, List.take_zero, List.nil_append] at this
    simp [Reader.line, this]

theorem runBody_read (p : List Name) (c : Name) (as : List Act) (r : Runner)
    (hs : r.stop = false) (h : (readLog r.log).path = r.prevSuite) :
    (readLog (runBody p c as r).1.log).path = (runBody p c as r).1.prevSuite ∧
    (readLog (runBody p c as r).1.log).seen = (readLog r.log).seen ++
      ((upTo Check.fatal (checksOf p c as)).filter Check.failed).map
        (fun k => (p, c, k.result)) := by
  -- once stopped, only messages are written
  have stopped : ∀ (as : List Act) (r : Runner), r.stop = true →
      (readLog (runBody p c as r).1.log).path = (readLog r.log).path ∧
      (readLog (runBody p c as r).1.log).seen = (readLog r.log).seen ∧
      (runBody p c as r).1.prevSuite = r.prevSuite := by
    intro as
    induction as with
    | nil => intro r _; exact ⟨rfl, rfl, rfl⟩
    | cons a as ih =>
      intro r hr
      cases a with
      | message t =>
        have := ih { r with log := r.log ++ [.message t] } hr
        simp only [runBody, runAct] at this ⊢
        refine ⟨this.1.trans ?_, this.2.1.trans ?_, this.2.2⟩ <;>
          simp [readLog, Reader.line]
      | check id level ok => simpa [runBody, runAct, hr] using ih r hr
  induction as generalizing r with
  | nil => simp [runBody, checksOf, upTo, h]
  | cons a as ih =>
    cases a with
    | message t =>
      have := ih { r with log := r.log ++ [.message t] } hs
        (by simpa [readLog, Reader.line] using h)
      simp only [runBody, runAct, checksOf] at this ⊢
      refine ⟨this.1, this.2.trans ?_⟩
      simp [readLog, Reader.line]
    | check id level ok =>
      cases ok with
      | true =>
        have := ih { r with evaluated := r.evaluated ++ [(p, c, id)] } hs h
        simp [runBody, runAct, checksOf, hs, upTo, Check.fatal, Check.failed, Check.result]
          at this ⊢
        exact this
      | false =>
        cases level with
        | expect =>
          have hr := showResult_read p c ⟨id, .expect⟩
            { r with evaluated := r.evaluated ++ [(p, c, id)] } h
          have := ih (commitResult p c ⟨id, .expect⟩
            { r with evaluated := r.evaluated ++ [(p, c, id)] })
            (by simp [commitResult, showResult, hs])
            (by simp only [commitResult, reduceCtorEq, if_false]; rw [hr.1]; rfl)
          simp only [runBody, runAct, checksOf, hs, upTo, Check.fatal, Bool.false_eq_true,
            if_false] at this ⊢
          refine ⟨this.1, this.2.trans ?_⟩
          simp only [commitResult, reduceCtorEq, if_false]
          rw [hs] at hr
          rw [hr.2]
          simp [Check.failed, Check.result]
        | assert =>
          have hr := showResult_read p c ⟨id, .assert⟩
            { r with evaluated := r.evaluated ++ [(p, c, id)], stop := true } h
          have := stopped as (commitResult p c ⟨id, .assert⟩
            { r with evaluated := r.evaluated ++ [(p, c, id)] })
            (by simp [commitResult, showResult, hs])
          simp only [runBody, runAct, checksOf, hs, upTo, Check.fatal, Bool.false_eq_true,
            if_false] at this ⊢
          refine ⟨this.1.trans ?_, this.2.1.trans ?_⟩
          · rw [this.2.2]
            simp only [commitResult, if_true]
            rw [hr.1]; rfl
          · simp only [commitResult, if_true]
            rw [hr.2]
            simp [Check.failed, Check.result]

theorem showProgress_read (r : Runner) :
    readLog (showProgress r).log = readLog r.log := by
  simp only [showProgress]
  split
  · simp [readLog, Reader.line]
  · rfl

theorem runCase_read (p : List Name) (c : Case) (r : Runner)
    (hs : r.stop = false) (h : (readLog r.log).path = r.prevSuite) :
    (readLog (runCase p c r).2.log).path = (runCase p c r).2.prevSuite ∧
    (readLog (runCase p c r).2.log).seen = (readLog r.log).seen ++
      ((upTo Check.fatal (checksOf p c.name c.body)).filter Check.failed).map
        (fun k => (p, c.name, k.result)) := by
  have := runBody_read p c.name c.body { r with started := r.started ++ [(p, c.name)] } hs h
  simp only [runCase, hs, Bool.false_eq_true, if_false]
  rw [showProgress_read, (showProgress_frame _).2.2.2.2.2]
  rw [hs] at this
  exact this

theorem checksOf_case (p : List Name) (n : Name) (as : List Act) :
    ∀ k ∈ checksOf p n as, k.path = p ∧ k.case = n := by
  induction as with
  | nil => simp [checksOf]
  | cons a as ih =>
    cases a with
    | message t => simpa [checksOf] using ih
    | check id level ok =>
      intro k hk
      rcases List.mem_cons.mp hk with e | hk
      · subst e; exact ⟨rfl, rfl⟩
      · exact ih k hk

theorem upTo_subset {α : Type} (f : α → Bool) (l : List α) : ∀ x ∈ upTo f l, x ∈ l := by
  obtain ⟨k, _, e, _⟩ := upTo_spec f l
  intro x hx
  rw [e] at hx
  exact List.mem_of_mem_take hx

theorem caseReport (p : List Name) (n : Name) (as : List Act) :
    ((upTo Check.fatal (checksOf p n as)).filter Check.failed).map
        (fun k => (p, n, k.result)) =
    ((upTo Check.fatal (checksOf p n as)).filter Check.failed).map
        (fun k => (k.path, k.case, k.result)) := by
  apply List.map_congr_left
  intro k hk
  have := checksOf_case p n as k (upTo_subset _ _ k (List.mem_filter.mp hk).1)
  rw [this.1, this.2]

theorem runFlat_read (l : List Item) (r : Runner)
    (hs : r.stop = false) (h : (readLog r.log).path = r.prevSuite) :
    (readLog (runFlat l r).2.log).seen = (readLog r.log).seen ++
      ((upTo Check.fatal (allChecks l)).filter Check.failed).map
        (fun k => (k.path, k.case, k.result)) := by
  induction l generalizing r with
  | nil => simp [runFlat, upTo, allChecks]
  | cons x l ih =>
    obtain ⟨p, c⟩ := x
    obtain ⟨h1, h2, h3, h4, h5, h6, h7, h8⟩ := runCase_spec p c r hs
    obtain ⟨q1, q2⟩ := runCase_read p c r hs h
    rw [caseReport] at q2
    by_cases hf : fatalItem (p, c) = true
    · have e := runFlat_stop l (runCase p c r).2 (by rw [h4, hf])
      have hu : upTo Check.fatal (allChecks ((p, c) :: l)) =
          upTo Check.fatal (checksOf p c.name c.body) := by
        simp only [allChecks, List.flatMap_cons]
        exact upTo_append_some _ _ _ hf
      simp only [runFlat, e, q2, hu]
    · have hf' : fatalItem (p, c) = false := by simpa using hf
      have hu : upTo Check.fatal (allChecks ((p, c) :: l)) =
          checksOf p c.name c.body ++ upTo Check.fatal (allChecks l) := by
        simp only [allChecks, List.flatMap_cons]
        exact upTo_append_none _ _ _ hf'
      have hb : upTo Check.fatal (checksOf p c.name c.body) = checksOf p c.name c.body :=
        upTo_of_none _ _ hf'
      rw [hb] at q2
      simp only [runFlat]
      rw [ih _ (by rw [h4, hf']) q1, q2, hu]
      simp

end Verif.TestFw
