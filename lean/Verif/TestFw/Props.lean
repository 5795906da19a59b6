import Verif.TestFw.Log
import Verif.TestFw.Register

/-! Properties of the unit-test framework: which cases and assertions a run
executes (C90), what it counts (C91), its progress lines (C92), registration
(C93), and the attribution of failures in the log (C94, C95). -/

set_option linter.unusedSimpArgs false
set_option linter.unusedVariables false

namespace Verif.TestFw

/-! ### The state before and after the traversal of a run -/

/-- The state `Run` hands to the traversal. -/
def Runner.begin (s : Suite) (r : Runner) : Runner :=
  { r with
    numCases := s.numCases, numTested := 0, nextProgress := 1, prevSuite := [],
    log := r.log ++ [.started] }

theorem run_flat (s : Suite) (r : Runner) :
    order [] (run s r).1 = (runFlat (order [] s) (r.begin s)).1 ∧
    (run s r).2 = showSummary (run s r).1 (runFlat (order [] s) (r.begin s)).2 := by
  have := runSuite_flat [] s (r.begin s)
  rw [this]
  exact ⟨rfl, rfl⟩

theorem fatalItem_iff (x : Item) :
    fatalItem x = true ↔ ∃ id, Act.check id .assert false ∈ x.2.body := by
  obtain ⟨p, c⟩ := x
  have : ∀ as : List Act, (checksOf p c.name as).any Check.fatal = true ↔
      ∃ id, Act.check id .assert false ∈ as := by
    intro as
    induction as with
    | nil => simp [checksOf]
    | cons a as ih =>
      cases a with
      | message t => simp only [checksOf, ih]; simp
      | check id level ok =>
        simp only [checksOf, List.any_cons, Bool.or_eq_true, ih]
        cases level <;> cases ok <;> simp [Check.fatal]
  exact this c.body

theorem check_fatal_iff (c : Check) : c.fatal = true ↔ c.level = .assert ∧ c.ok = false := by
  simp [Check.fatal]

/-! ### C90: what a run executes -/

/-- **C90.** A run starts the cases in the documented order (the cases of a suite
before those of its child suites, each in the order of first registration), each
exactly once, and stops after the first case in which an assertion of level ASSERT
fails; when no such case exists all cases are started. -/
theorem run_starts_in_order (s : Suite) (r : Runner) (hr : r.stop = false) :
    ∃ k, k ≤ (order [] s).length ∧
      (run s r).2.started =
        r.started ++ ((order [] s).take k).map (fun x => (x.1, x.2.name)) ∧
      (∀ i, (h : i < (order [] s).length) → i + 1 < k →
        ¬ ∃ id, Act.check id .assert false ∈ (order [] s)[i].2.body) ∧
      (k < (order [] s).length → ∃ h : k - 1 < (order [] s).length, 0 < k ∧
        ∃ id, Act.check id .assert false ∈ (order [] s)[k - 1].2.body) := by
  obtain ⟨k, hk, hu, hb, he⟩ := upTo_spec fatalItem (order [] s)
  refine ⟨k, hk, ?_, ?_, ?_⟩
  · have := (runFlat_spec (order [] s) (r.begin s) hr).2.1
    rw [(run_flat s r).2]
    simp only [showSummary]
    rw [this, hu]
    rfl
  · intro i h hi hx
    have := (fatalItem_iff _).mpr hx
    rw [hb i h hi] at this
    exact absurd this (by simp)
  · intro hlt
    obtain ⟨h1, h2, h3⟩ := he hlt
    exact ⟨h1, h2, (fatalItem_iff _).mp h3⟩

/-- **C90.** Within the run the expressions of the assertions are evaluated in the
same order, each at most once, and none after the first one of level ASSERT that is
false, neither in the same case nor in a later one. -/
theorem run_evaluates_in_order (s : Suite) (r : Runner) (hr : r.stop = false) :
    ∃ k, k ≤ (allChecks (order [] s)).length ∧
      (run s r).2.evaluated =
        r.evaluated ++ ((allChecks (order [] s)).take k).map (fun c => (c.path, c.case, c.id)) ∧
      (∀ i, (h : i < (allChecks (order [] s)).length) → i + 1 < k →
        ¬ ((allChecks (order [] s))[i].level = .assert ∧ (allChecks (order [] s))[i].ok = false)) ∧
      (k < (allChecks (order [] s)).length → ∃ h : k - 1 < (allChecks (order [] s)).length, 0 < k ∧
        (allChecks (order [] s))[k - 1].level = .assert ∧
        (allChecks (order [] s))[k - 1].ok = false) ∧
      ((run s r).2.stop = true ↔
        ∃ c ∈ allChecks (order [] s), c.level = .assert ∧ c.ok = false) := by
  obtain ⟨k, hk, hu, hb, he⟩ := upTo_spec Check.fatal (allChecks (order [] s))
  have hs := runFlat_spec (order [] s) (r.begin s) hr
  refine ⟨k, hk, ?_, ?_, ?_, ?_⟩
  · rw [(run_flat s r).2]
    simp only [showSummary]
    rw [hs.2.2.1, hu]
    rfl
  · intro i h hi hx
    have := (check_fatal_iff _).mpr hx
    rw [hb i h hi] at this
    exact absurd this (by simp)
  · intro hlt
    obtain ⟨h1, h2, h3⟩ := he hlt
    exact ⟨h1, h2, (check_fatal_iff _).mp h3⟩
  · rw [(run_flat s r).2]
    simp only [showSummary]
    rw [hs.1]
    simp only [List.any_eq_true, allChecks, List.mem_flatMap]
    constructor
    · rintro ⟨x, hx, hf⟩
      simp only [fatalItem, List.any_eq_true] at hf
      obtain ⟨c, hc, hf⟩ := hf
      exact ⟨c, ⟨x, hx, hc⟩, (check_fatal_iff c).mp hf⟩
    · rintro ⟨c, ⟨x, hx, hc⟩, hf⟩
      refine ⟨x, hx, ?_⟩
      simp only [fatalItem, List.any_eq_true]
      exact ⟨c, hc, (check_fatal_iff c).mpr hf⟩

/-! ### C91: the reported number of failures -/

/-- The results of the tree do not depend on anything but what was committed: the
total in the last line of a run is the number of results stored before it plus the
number of false assertions it evaluated. -/
theorem run_total (s : Suite) (r : Runner) (hr : r.stop = false) :
    ∃ k, (run s r).2.evaluated =
        r.evaluated ++ ((allChecks (order [] s)).take k).map (fun c => (c.path, c.case, c.id)) ∧
      k ≤ (allChecks (order [] s)).length ∧
      (run s r).2.log.getLast? = some (.total (s.numFailures +
        ((allChecks (order [] s)).take k).countP (fun c => !c.ok))) ∧
      (run s r).1.numFailures = s.numFailures +
        ((allChecks (order [] s)).take k).countP (fun c => !c.ok) := by
  obtain ⟨k, hk, hu, _, _⟩ := upTo_spec Check.fatal (allChecks (order [] s))
  have hs := runFlat_spec (order [] s) (r.begin s) hr
  have hn : (run s r).1.numFailures = s.numFailures +
      ((allChecks (order [] s)).take k).countP (fun c => !c.ok) := by
    rw [numFailures_order [] (run s r).1, numFailures_order [] s, (run_flat s r).1, hs.2.2.2.1,
      hu, List.countP_eq_length_filter]
    rfl
  refine ⟨k, ?_, hk, ?_, hn⟩
  · rw [(run_flat s r).2]
    simp only [showSummary]
    rw [hs.2.2.1, hu]
    rfl
  · rw [(run_flat s r).2]
    simp only [showSummary]
    rw [hn]
    simp

/-- What one run leaves unchanged: the tree of paths, names and bodies. -/
theorem run_keeps_cases (s : Suite) (r : Runner) :
    (order [] (run s r).1).map (fun x => (x.1, x.2.name, x.2.body)) =
      (order [] s).map (fun x => (x.1, x.2.name, x.2.body)) := by
  have : ∀ (l : List Item) (r : Runner),
      (runFlat l r).1.map (fun x => (x.1, x.2.name, x.2.body)) =
        l.map (fun x => (x.1, x.2.name, x.2.body)) := by
    intro l
    induction l with
    | nil => intro r; rfl
    | cons x l ih =>
      intro r
      obtain ⟨p, c⟩ := x
      simp only [runFlat, List.map_cons, ih]
      congr 1
      simp only [runCase]
      split <;> rfl
  rw [(run_flat s r).1, this]

theorem allChecks_congr (l m : List Item)
    (h : l.map (fun x => (x.1, x.2.name, x.2.body)) = m.map (fun x => (x.1, x.2.name, x.2.body))) :
    allChecks l = allChecks m := by
  have e : ∀ l : List Item, allChecks l =
      (l.map (fun x => (x.1, x.2.name, x.2.body))).flatMap
        (fun y => checksOf y.1 y.2.1 y.2.2) := by
    intro l; simp [allChecks, List.flatMap_map]
  rw [e l, e m, h]

/-- **C91, what holds.** On a fresh program the first run reports exactly the number
of assertions it evaluated and found false; and after any number `m` of runs of a
program without a false ASSERT the last run reports `m` times the number of false
assertions, because no run clears the results of the previous ones. -/
theorem totals_partial (rs : List Reg) :
    (∃ k, k ≤ (allChecks (order [] (build rs))).length ∧
      (run (build rs) .init).2.evaluated =
        ((allChecks (order [] (build rs))).take k).map (fun c => (c.path, c.case, c.id)) ∧
      (run (build rs) .init).2.log.getLast? = some (.total ((build rs).numFailures +
        ((allChecks (order [] (build rs))).take k).countP (fun c => !c.ok)))) ∧
    ((∀ c ∈ allChecks (order [] (build rs)), ¬ (c.level = .assert ∧ c.ok = false)) →
      ∀ m, (runTimes m (build rs) .init).1.numFailures =
          (build rs).numFailures + m * (allChecks (order [] (build rs))).countP (fun c => !c.ok) ∧
        (runTimes (m + 1) (build rs) .init).2.log.getLast? =
          some (.total ((build rs).numFailures +
            (m + 1) * (allChecks (order [] (build rs))).countP (fun c => !c.ok)))) := by
  constructor
  · obtain ⟨k, h1, h2, h3, _⟩ := run_total (build rs) .init rfl
    exact ⟨k, h2, by simpa [Runner.init] using h1, h3⟩
  · intro hno
    have step : ∀ (s : Suite) (r : Runner), r.stop = false →
        allChecks (order [] s) = allChecks (order [] (build rs)) →
        (run s r).2.stop = false ∧
        allChecks (order [] (run s r).1) = allChecks (order [] (build rs)) ∧
        (run s r).1.numFailures = s.numFailures +
          (allChecks (order [] (build rs))).countP (fun c => !c.ok) ∧
        (run s r).2.log.getLast? = some (.total (run s r).1.numFailures) := by
      intro s r hr hs
      have hst : (run s r).2.stop = false := by
        obtain ⟨_, _, _, _, _, hiff⟩ := run_evaluates_in_order s r hr
        rw [hs] at hiff
        cases hstop : (run s r).2.stop with
        | false => rfl
        | true =>
          obtain ⟨c, hc, hf⟩ := hiff.mp hstop
          exact absurd hf (hno c hc)
      have hnone : (allChecks (order [] s)).any Check.fatal = false := by
        rw [hs, List.any_eq_false]
        intro c hc hf
        exact hno c hc ((check_fatal_iff c).mp hf)
      have hfs := runFlat_spec (order [] s) (r.begin s) hr
      refine ⟨hst, ?_, ?_, ?_⟩
      · rw [← hs]
        exact allChecks_congr _ _ (run_keeps_cases s r)
      · rw [numFailures_order [] (run s r).1, numFailures_order [] s, (run_flat s r).1, hfs.2.2.2.1,
          upTo_of_none _ _ hnone, hs, List.countP_eq_length_filter]
        rfl
      · rw [(run_flat s r).2]
        simp [showSummary]
    have all : ∀ m (s : Suite) (r : Runner), r.stop = false →
        allChecks (order [] s) = allChecks (order [] (build rs)) →
        (runTimes m s r).1.numFailures = s.numFailures +
            m * (allChecks (order [] (build rs))).countP (fun c => !c.ok) ∧
        (runTimes (m + 1) s r).2.log.getLast? = some (.total (s.numFailures +
            (m + 1) * (allChecks (order [] (build rs))).countP (fun c => !c.ok))) := by
      intro m
      induction m with
      | zero =>
        intro s r hr hs
        obtain ⟨a1, a2, a3, a4⟩ := step s r hr hs
        refine ⟨by simp [runTimes], ?_⟩
        simp only [runTimes]
        rw [a4, a3]; simp
      | succ m ih =>
        intro s r hr hs
        obtain ⟨a1, a2, a3, a4⟩ := step s r hr hs
        obtain ⟨b1, b2⟩ := ih (run s r).1 (run s r).2 a1 a2
        constructor
        · rw [show runTimes (m + 1) s r = runTimes m (run s r).1 (run s r).2 from rfl, b1, a3]
          rw [Nat.add_mul]; omega
        · rw [show runTimes (m + 1 + 1) s r = runTimes (m + 1) (run s r).1 (run s r).2 from rfl, b2, a3]
          congr 2
          rw [Nat.add_mul (m + 1) 1]; omega
    intro m
    exact all m (build rs) .init rfl rfl

/-- Nothing is stored before the first run. -/
theorem build_no_failures (rs : List Reg) : (build rs).numFailures = 0 := by
  rw [numFailures_order []]
  have h : ∀ x ∈ order [] (build rs), x.2.results = [] := by
    intro x hx
    have hx' : x ∈ (order [] (build rs)).filter (fun y => y.1 = [] ++ x.1) := by
      simp [List.mem_filter, hx]
    rw [order_at [] x.1 _ (build_wf rs), casesAt_build] at hx'
    obtain ⟨c, hc, he⟩ := List.mem_map.mp hx'
    have hcx : x.2 = c := by rw [← he]
    rw [hcx]
    have : ∀ (l : List (Name × List Act)) (cs : List Case), (∀ c ∈ cs, c.results = []) →
        ∀ c ∈ addAll cs l, c.results = [] := by
      intro l
      induction l with
      | nil => intro cs h c hc; exact h c hc
      | cons y l ih =>
        intro cs h
        apply ih
        intro c hc
        simp only [addCaseHere] at hc
        split at hc
        · exact h c hc
        · rcases List.mem_append.mp hc with hc | hc
          · exact h c hc
          · simp at hc; subst hc; rfl
    exact this _ [] (by simp) c hc
  have : ∀ l : List Item, (∀ x ∈ l, x.2.results = []) → stored l = 0 := by
    intro l
    induction l with
    | nil => intro _; rfl
    | cons x l ih =>
      intro h
      have := ih (fun y hy => h y (by simp [hy]))
      simp only [stored, List.map_cons, List.sum_cons] at this ⊢
      rw [h x (by simp), this]; rfl
  exact this _ h

/-- **C91 fails for a second run**: one case with one false EXPECT is reported as one
failure by the first run and as two by the second. -/
theorem second_run_recounts_fails :
    ∃ rs : List Reg,
      (runTimes 1 (build rs) .init).2.log.getLast? = some (.total 1) ∧
      (runTimes 2 (build rs) .init).2.log.getLast? = some (.total 2) :=
  ⟨[.case ["A"] "c" [.check 1 .expect false]], by decide, by decide⟩

/-- **C90 fails for a run after a fatal failure**: the stop flag is never cleared, so a
later run starts no case and evaluates nothing, and reports itself as stopped. -/
theorem stopped_run_does_nothing (s : Suite) (r : Runner) (hr : r.stop = true) :
    (run s r).2.started = r.started ∧ (run s r).2.evaluated = r.evaluated ∧
    (run s r).2.log = r.log ++ [.started, .stopped, .total s.numFailures] := by
  have e := runFlat_stop (order [] s) (r.begin s) hr
  have hn : (run s r).1.numFailures = s.numFailures := by
    rw [numFailures_order [] (run s r).1, numFailures_order [] s, (run_flat s r).1, e]
  rw [(run_flat s r).2]
  simp only [showSummary, e, hn]
  have hb : (r.begin s).stop = true := hr
  simp only [hb, if_true]
  refine ⟨rfl, rfl, ?_⟩
  simp [Runner.begin]

/-- A program whose first run fails an ASSERT, and whose second run starts nothing. -/
theorem run_after_fatal_fails :
    ∃ rs : List Reg,
      (runTimes 1 (build rs) .init).2.started = [([], "a")] ∧
      (runTimes 2 (build rs) .init).2.started = [([], "a")] :=
  ⟨[.case [] "a" [.check 1 .assert false]], by decide, by decide⟩

/-! ### C92: progress lines -/

/-- **C92.** During a run of `n` cases of which `k` are started, the progress lines are
exactly these: after each case the greatest multiple of ten not above the percentage of
finished cases, when it is larger than after the previous case. -/
theorem run_progress (s : Suite) (r : Runner) (hr : r.stop = false) :
    ∃ k, k ≤ (order [] s).length ∧
      (run s r).2.started =
        r.started ++ ((order [] s).take k).map (fun x => (x.1, x.2.name)) ∧
      percents (run s r).2.log = percents r.log ++
        (List.range k).filterMap (fun i =>
          if i * 10 / (order [] s).length < (i + 1) * 10 / (order [] s).length then
            some ((i + 1) * 10 / (order [] s).length * 10) else none) := by
  obtain ⟨k, hk, hu, _, _⟩ := upTo_spec fatalItem (order [] s)
  have hs := runFlat_spec (order [] s) (r.begin s) hr
  refine ⟨k, hk, ?_, ?_⟩
  · rw [(run_flat s r).2]
    simp only [showSummary]
    rw [hs.2.1, hu]; rfl
  · have hsum : percents (run s r).2.log =
        percents (runFlat (order [] s) (r.begin s)).2.log := by
      rw [(run_flat s r).2]
      simp only [showSummary]
      split <;> simp [percents_append] <;> simp [percents]
    have hbeg : percents (r.begin s).log = percents r.log := by
      simp [Runner.begin, percents_append]; simp [percents]
    rw [hsum]
    by_cases h0 : (order [] s).length = 0
    · have : order [] s = [] := List.eq_nil_of_length_eq_zero h0
      have hk0 : k = 0 := by omega
      rw [this, hk0]
      simp [runFlat, hbeg]
    · have := runFlat_progress (order [] s) (r.begin s) hr
        (by simp only [Runner.begin]; rw [numCases_order []]; omega)
        (by simp [Runner.begin])
      rw [this, hbeg, hu]
      have e : (r.begin s).numCases = (order [] s).length := numCases_order [] s
      have e2 : ((order [] s).take k).length = k := by simp; omega
      rw [e, e2, show (r.begin s).numTested = 0 from rfl, ← List.range_eq_range']
      rfl

/-- **C92.** The progress lines of a run are strictly increasing, lie between 10 and
100, and the last one is 100 exactly when every case was started (and there is one). -/
theorem progress_monotone (n k : Nat) (hk : k ≤ n) :
    ∀ l, l = (List.range k).filterMap (fun i =>
        if i * 10 / n < (i + 1) * 10 / n then some ((i + 1) * 10 / n * 10) else none) →
    l.Pairwise (· < ·) ∧ (∀ p ∈ l, 10 ≤ p ∧ p ≤ 100 ∧ 10 ∣ p) ∧
    (l.getLast? = some 100 ↔ 0 < n ∧ k = n) := by
  have key : ∀ k, k ≤ n →
      let l := (List.range k).filterMap (fun i =>
        if i * 10 / n < (i + 1) * 10 / n then some ((i + 1) * 10 / n * 10) else none)
      l.Pairwise (· < ·) ∧ (∀ p ∈ l, 10 ≤ p ∧ 10 ∣ p ∧ p ≤ k * 10 / n * 10) ∧
      l.getLast?.getD 0 = k * 10 / n * 10 := by
    intro k
    induction k with
    | zero => simp
    | succ k ih =>
      intro hk
      obtain ⟨i1, i2, i3⟩ := ih (by omega)
      rw [List.range_succ, List.filterMap_append]
      have hm : k * 10 / n ≤ (k + 1) * 10 / n := Nat.div_le_div_right (by omega)
      by_cases h : k * 10 / n < (k + 1) * 10 / n
      · simp only [List.filterMap_cons, h, if_true, List.filterMap_nil]
        refine ⟨?_, ?_, by simp⟩
        · rw [List.pairwise_append]
          refine ⟨i1, by simp, ?_⟩
          intro a ha b hb
          simp at hb
          have := (i2 a ha).2.2
          omega
        · intro p hp
          rcases List.mem_append.mp hp with hp | hp
          · obtain ⟨a, b, c⟩ := i2 p hp
            exact ⟨a, b, by omega⟩
          · simp at hp
            omega
      · simp only [List.filterMap_cons, h, if_false, List.filterMap_nil, List.append_nil]
        have e : (k + 1) * 10 / n = k * 10 / n := by omega
        rw [e]
        exact ⟨i1, i2, i3⟩
  intro l hl
  obtain ⟨a, b, c⟩ := key k hk
  rw [← hl] at a b c
  refine ⟨a, ?_, ?_⟩
  · intro p hp
    obtain ⟨x, y, z⟩ := b p hp
    have hn : 0 < n := by
      rcases Nat.eq_zero_or_pos n with h | h
      · subst h; simp at z; omega
      · exact h
    have : k * 10 / n ≤ 10 := by
      rw [Nat.div_le_iff_le_mul_add_pred hn]
      have : k * 10 ≤ n * 10 := by omega
      omega
    omega
  · constructor
    · intro h
      rw [h] at c
      simp at c
      have hn : 0 < n := by
        rcases Nat.eq_zero_or_pos n with h | h
        · subst h; simp at c
        · exact h
      refine ⟨hn, ?_⟩
      have : 10 ≤ k * 10 / n := by omega
      have := (Nat.le_div_iff_mul_le hn).mp this
      omega
    · rintro ⟨hn, rfl⟩
      have e : k * 10 / k = 10 := by
        rw [Nat.mul_comm]; exact Nat.mul_div_cancel _ hn
      rw [e] at c
      cases hg : l.getLast? with
      | none => rw [hg] at c; simp at c
      | some p => rw [hg] at c; simp at c; rw [c]

/-- Three cases: 30, 60, 100. -/
theorem progress_example :
    percents (run (build [.case [] "a" [], .case ["S"] "b" [], .case ["S"] "c" []]) .init).2.log =
      [30, 60, 100] := by decide

/-! ### C93: registration -/

theorem addAll_nodup (l : List (Name × List Act)) (cs : List Case)
    (h : (cs.map (·.name) ++ l.map Prod.fst).Nodup) :
    addAll cs l = cs ++ l.map (fun x => { name := x.1, body := x.2, results := [] }) := by
  induction l generalizing cs with
  | nil => simp [addAll]
  | cons x l ih =>
    have hx : cs.any (fun c => c.name == x.1) = false := by
      rw [List.any_eq_false]
      intro c hc he
      rw [List.nodup_append] at h
      exact h.2.2 c.name (List.mem_map.mpr ⟨c, hc, rfl⟩) x.1 (by simp) (by simpa using he)
    have e : addCaseHere cs x.1 x.2 = cs ++ [{ name := x.1, body := x.2, results := [] }] := by
      simp [addCaseHere, hx]
    have := ih (addCaseHere cs x.1 x.2) (by rw [e]; simpa using h)
    simp only [addAll, List.foldl_cons] at this ⊢
    rw [this, e]
    simp

theorem addAll_find (l : List (Name × List Act)) (cs : List Case) (n : Name) :
    (addAll cs l).find? (fun c => c.name == n) =
      match cs.find? (fun c => c.name == n) with
      | some c => some c
      | none => (l.find? (fun x => x.1 == n)).map
          (fun x => { name := x.1, body := x.2, results := [] }) := by
  induction l generalizing cs with
  | nil => simp only [addAll, List.foldl_nil]; cases cs.find? (fun c => c.name == n) <;> simp
  | cons x l ih =>
    have := ih (addCaseHere cs x.1 x.2)
    simp only [addAll, List.foldl_cons] at this ⊢
    rw [this]
    simp only [addCaseHere]
    by_cases ha : cs.any (fun c => c.name == x.1) = true
    · simp only [ha, if_true]
      cases hf : cs.find? (fun c => c.name == n) with
      | some c => rfl
      | none =>
        have hne : ¬ x.1 = n := by
          rintro rfl
          obtain ⟨c, hc, he⟩ := List.any_eq_true.mp ha
          exact List.find?_eq_none.mp hf c hc he
        simp [List.find?_cons, hne]
    · simp only [ha, Bool.false_eq_true, if_false, List.find?_append]
      cases hf : cs.find? (fun c => c.name == n) with
      | some c => simp
      | none =>
        by_cases hne : x.1 = n
        · simp [List.find?_cons, hne]
        · simp [List.find?_cons, hne]

/-- **C93, what holds.** When no two registrations of cases have both the same suite path
and the same name, then for every path the cases a run visits in that suite are exactly
the registered ones, with their bodies, in the order of registration, however the
registrations of different suites are interleaved; and the run visits no other case. -/
theorem registered_cases_partial (rs : List Reg) (q : List Name)
    (h : ((regsAt q rs).map Prod.fst).Nodup) :
    ((order [] (build rs)).filter (fun x => x.1 = q)).map (fun x => (x.2.name, x.2.body)) =
      rs.filterMap (fun | .case p n b => if p = q then some (n, b) else none | .suite _ => none) := by
  have := order_at [] q (build rs) (build_wf rs)
  simp only [List.nil_append] at this
  rw [this, casesAt_build, addAll_nodup _ _ (by simpa using h)]
  simp [List.map_map, Function.comp_def, regsAt]
  rfl

/-- **C93.** In general the case of a name in a suite is the first one registered: a
name occurs at most once in a suite, every registered name occurs, and its body is that
of its first registration. -/
theorem first_registration_wins (rs : List Reg) (q : List Name) :
    (((order [] (build rs)).filter (fun x => x.1 = q)).map (fun x => x.2.name)).Nodup ∧
    ∀ n b, ((∃ x ∈ order [] (build rs), x.1 = q ∧ x.2.name = n ∧ x.2.body = b) ↔
      (regsAt q rs).find? (fun y => y.1 == n) = some (n, b)) := by
  have e := order_at [] q (build rs) (build_wf rs)
  simp only [List.nil_append] at e
  have hnd : ((casesAt q (build rs)).map (·.name)).Nodup := by
    rw [casesAt_build]
    have : ∀ (l : List (Name × List Act)) (cs : List Case), (cs.map (·.name)).Nodup →
        ((addAll cs l).map (·.name)).Nodup := by
      intro l
      induction l with
      | nil => intro cs h; exact h
      | cons x l ih => intro cs h; exact ih _ (addCaseHere_nodup cs x.1 x.2 h)
    exact this _ [] (by simp)
  refine ⟨?_, ?_⟩
  · rw [e]
    simpa [List.map_map, Function.comp_def] using hnd
  · intro n b
    have hf := addAll_find (regsAt q rs) [] n
    simp only [List.find?_nil] at hf
    rw [← casesAt_build] at hf
    constructor
    · rintro ⟨x, hx, rfl, rfl, rfl⟩
      have hx' : x ∈ (order [] (build rs)).filter (fun y => y.1 = x.1) := by
        simp [List.mem_filter, hx]
      rw [e] at hx'
      obtain ⟨c, hc, he⟩ := List.mem_map.mp hx'
      have hcx : c = x.2 := by rw [← he]
      subst hcx
      -- the first case of that name is the only one
      have huniq : (casesAt x.1 (build rs)).find? (fun c => c.name == x.2.name) = some x.2 := by
        generalize casesAt x.1 (build rs) = cs at hnd hc
        clear e hf hx hx' he
        induction cs with
        | nil => simp at hc
        | cons d cs ih =>
          simp only [List.map_cons, List.nodup_cons] at hnd
          rcases List.mem_cons.mp hc with h | h
          · simp [List.find?_cons, h]
          · have : ¬ d.name = x.2.name := fun hh =>
              hnd.1 (List.mem_map.mpr ⟨x.2, h, hh.symm⟩)
            simp [List.find?_cons, this, ih hnd.2 h]
      rw [huniq] at hf
      cases hg : (regsAt x.1 rs).find? (fun y => y.1 == x.2.name) with
      | none => rw [hg] at hf; simp at hf
      | some y =>
        rw [hg] at hf
        simp only [Option.map_some, Option.some.injEq] at hf
        rw [hf]
    · intro hg
      rw [hg] at hf
      simp only [Option.map_some] at hf
      have hm := List.mem_of_find?_eq_some hf
      have : (q, (⟨n, b, []⟩ : Case)) ∈ (order [] (build rs)).filter (fun x => x.1 = q) := by
        rw [e]; exact List.mem_map.mpr ⟨_, hm, rfl⟩
      exact ⟨_, (List.mem_filter.mp this).1, rfl, rfl, rfl⟩

/-- **C93 fails for repeated names**: of two cases registered under one name in one suite
(say from two files that open the same suite) only the first is ever run. -/
theorem repeated_name_fails :
    ∃ rs : List Reg, rs.length = 2 ∧
      (run (build rs) .init).2.evaluated = [(["S"], "c", 1)] ∧
      rs = [.case ["S"] "c" [.check 1 .expect true], .case ["S"] "c" [.check 2 .expect true]] :=
  ⟨_, rfl, by decide, rfl⟩

/-- Distinct names in interleaved suites: a case that meets the hypothesis. -/
theorem registered_cases_example :
    order [] (build [.case ["S"] "a" [], .case [] "m" [], .case ["T", "U"] "b" [], .case ["S"] "c" []])
      = [([], ⟨"m", [], []⟩), (["S"], ⟨"a", [], []⟩), (["S"], ⟨"c", [], []⟩),
         (["T", "U"], ⟨"b", [], []⟩)] := by decide

/-! ### C94: the log attributes every failure -/

/-- **C94.** Someone who reads the log by its headings and indentation attributes every
failure to the suite path and the case it occurred in, sees every failure the run
evaluated, in order, and nothing else. -/
theorem log_attributes_failures (s : Suite) (r : Runner) (hr : r.stop = false) :
    ∃ k, (run s r).2.evaluated =
        r.evaluated ++ ((allChecks (order [] s)).take k).map (fun c => (c.path, c.case, c.id)) ∧
      (readLog (run s r).2.log).seen = (readLog r.log).seen ++
        (((allChecks (order [] s)).take k).filter (fun c => !c.ok)).map
          (fun c => (c.path, c.case, ⟨c.id, c.level⟩)) := by
  obtain ⟨k, hk, hu, _, _⟩ := upTo_spec Check.fatal (allChecks (order [] s))
  have hs := runFlat_spec (order [] s) (r.begin s) hr
  refine ⟨k, ?_, ?_⟩
  · rw [(run_flat s r).2]
    simp only [showSummary]
    rw [hs.2.2.1, hu]; rfl
  · have hp : (readLog (r.begin s).log).path = (r.begin s).prevSuite := by
      simp [Runner.begin, readLog, Reader.line]
    have h0 : (readLog (r.begin s).log).seen = (readLog r.log).seen := by
      simp [Runner.begin, readLog, Reader.line]
    have := runFlat_read (order [] s) (r.begin s) hr hp
    have hsum : (readLog (run s r).2.log).seen =
        (readLog (runFlat (order [] s) (r.begin s)).2.log).seen := by
      rw [(run_flat s r).2]
      simp only [showSummary]
      split <;> simp [readLog, Reader.line]
    rw [hsum, this, h0, hu]
    rfl

/-- Two suites with failures, and one in the master suite. -/
theorem log_example :
    (run (build [.case ["S"] "a" [.check 1 .expect false], .case [] "m" [.check 2 .expect false],
        .case ["S", "T"] "b" [.check 3 .expect false, .check 4 .assert false]]) .init).2.log =
      [.started, .case 0 "m", .result 2 ⟨2, .expect⟩, .progress 30,
       .suite 0 "S", .case 1 "a", .result 3 ⟨1, .expect⟩, .progress 60,
       .suite 0 "S", .suite 1 "T", .case 2 "b", .result 4 ⟨3, .expect⟩,
       .case 2 "b", .result 4 ⟨4, .assert⟩, .progress 100, .stopped, .total 4] := by decide +kernel

/-! ### C95: headings are not repeated -/

/-- **C95, what holds.** After a failure in a suite, a further failure in the same suite is
shown without repeating the headings of the suite. -/
theorem suite_heading_once_partial (p : List Name) (c₁ c₂ : Name) (x₁ x₂ : Result) (r : Runner) :
    (commitResult p c₂ x₂ (commitResult p c₁ x₁ r)).log =
      (commitResult p c₁ x₁ r).log ++ [.case p.length c₂, .result (p.length + 2) x₂] := by
  simp only [commitResult, showResult]
  split <;> split <;> simp

/-- **C95 fails for cases**: two failures in the same case show the heading of the case twice,
against the comment at runner.h 338-345. -/
theorem case_heading_once_fails :
    ∃ rs : List Reg, rs = [.case [] "c" [.check 1 .expect false, .check 2 .expect false]] ∧
      ((run (build rs) .init).2.log.filter (fun l => l == .case 0 "c")).length = 2 :=
  ⟨_, rfl, by decide⟩

end Verif.TestFw
