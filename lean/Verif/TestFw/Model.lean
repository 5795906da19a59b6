/-
Model of the unit-test framework: `/repo/test/{suite,case,runner,tool,builder,logger}.h`.

What is kept: the tree of suites and cases with its two kinds of registration,
the traversal of one run, the stop flag, the stored results, the counters behind
the progress lines, and every line the runner hands to its streams, as a list of
structured lines.

Simplifications.
* A `Suite` holds a vector (insertion order) and a hash map (name to child) with
  the same entries (suite.h 233-237; both are only written together, 113-151).
  The model keeps one list in insertion order and searches it by name.
* A test body is a finite list of actions: assertions, with the level and the
  truth value the expression would have, and messages.  Bodies that throw, loop
  forever or call the runner recursively are not modelled.
* A `Suite*` is identified with its path of names from the master suite.  Two
  different suites have different paths, because names are unique among siblings.
* All streams receive the same text (logger.h 128-137), so one log is kept.
* `(double)numTestedCases_ / numCases_ * 10 >= nextProgress_` (runner.h 167) is
  evaluated exactly, as `numTested * 10 ≥ next * numCases`.
* The texts of a result (file, line, values) are one opaque number.
-/

namespace Verif.TestFw

/-- Names of suites and cases (`std::string`; suite.h 231, case.h 146). -/
abbrev Name := String

/-- Severity of an assertion: `ToolLevel::Value` (tool-level.h 39-44). -/
inductive Level
  | expect
  | assert
  deriving DecidableEq, Repr

/-- What a test body does, one action at a time: an assertion of either level
    (tool.h 254-264, 310-320, 527-537) whose expression has the value `ok`, with
    `id` standing for its source position and texts, or `NSFX_TEST_MESSAGE`
    (tool.h 233-237). -/
inductive Act
  | check (id : Nat) (level : Level) (ok : Bool)
  | message (text : String)
  deriving DecidableEq, Repr

/-- A stored result of a failed assertion: `Result` (result.h 35-87). -/
structure Result where
  id : Nat
  level : Level
  deriving DecidableEq, Repr

/-- A test case: name, body and results (case.h 44-155). -/
structure Case where
  name : Name
  body : List Act
  results : List Result
  deriving DecidableEq, Repr

/-- A test suite: name, child cases and child suites in insertion order
    (suite.h 43-239). -/
inductive Suite
  | mk (name : Name) (cases : List Case) (subs : List Suite)

/-- `Suite::GetName` (suite.h 153-156). -/
def Suite.name : Suite → Name
  | .mk n _ _ => n

/-- `caseVector_` (suite.h 233). -/
def Suite.cases : Suite → List Case
  | .mk _ cs _ => cs

/-- `suiteVector_` (suite.h 236). -/
def Suite.subs : Suite → List Suite
  | .mk _ _ ss => ss

/-- The master suite before anything is registered (suite.h 58-62). -/
def master : Suite := .mk "Master" [] []

/-! ### Registration -/

/-- `Suite::AddCase`: an existing name keeps its case and the new functor is
    dropped (suite.h 134-151; `new Case(this, name, functor)`, case.h 67-68). -/
def addCaseHere (cs : List Case) (n : Name) (body : List Act) : List Case :=
  if cs.any (fun c => c.name == n) then cs
  else cs ++ [{ name := n, body := body, results := [] }]

/-- `Suite::AddSuite`: a child of that name is created when there is none
    (suite.h 113-129). -/
def addSuiteHere (ss : List Suite) (n : Name) : List Suite :=
  if ss.any (fun s => s.name == n) then ss
  else ss ++ [.mk n [] []]

/-- Registration of a case through the macros (builder.h 95-113, 133-149):
    `NSFX_TEST_SUITE` for every name of the path, outermost first, then
    `NSFX_TEST_CASE` in the innermost suite.  `addCaseAt` descends into the
    existing child of each name (`AddSuite` returns it) or creates it. -/
def addCaseAt (path : List Name) (n : Name) (body : List Act) (s : Suite) : Suite :=
  match path with
  | [] => .mk s.name (addCaseHere s.cases n body) s.subs
  | p :: ps =>
    .mk s.name s.cases
      ((addSuiteHere s.subs p).map fun c =>
        if c.name == p then addCaseAt ps n body c else c)

/-- Registration of a suite without cases (builder.h 95-113). -/
def addSuiteAt (path : List Name) (s : Suite) : Suite :=
  match path with
  | [] => s
  | p :: ps =>
    .mk s.name s.cases
      ((addSuiteHere s.subs p).map fun c =>
        if c.name == p then addSuiteAt ps c else c)

/-- One static registration of a test program: a case, or an empty suite.  (builder.h 95-149.) -/
inductive Reg
  | case (path : List Name) (name : Name) (body : List Act)
  | suite (path : List Name)
  deriving DecidableEq, Repr

/-- Effect of one registration (builder.h 95-149). -/
def Reg.apply : Reg → Suite → Suite
  | .case p n b, s => addCaseAt p n b s
  | .suite p, s => addSuiteAt p s

/-- The tree after the static initialisation of a program: the registrations in
    order, starting from the empty master suite (runner.h 321; builder.h 62-63). -/
def build (rs : List Reg) : Suite :=
  rs.foldl (fun s r => r.apply s) master

/-! ### Counting -/

mutual
/-- `Suite::GetNumberOfCases` (suite.h 158-167). -/
def Suite.numCases : Suite → Nat
  | .mk _ cs ss => cs.length + numCasesL ss
/-- The loop over the child suites (suite.h 162-165). -/
def numCasesL : List Suite → Nat
  | [] => 0
  | s :: ss => s.numCases + numCasesL ss
end

/-- The loop over the cases of a suite (suite.h 172-175; case.h 109-112). -/
def failuresC : List Case → Nat
  | [] => 0
  | c :: cs => c.results.length + failuresC cs

mutual
/-- `Suite::GetNumberOfFailures` (suite.h 169-181). -/
def Suite.numFailures : Suite → Nat
  | .mk _ cs ss => failuresC cs + numFailuresL ss
/-- The loop over the child suites (suite.h 176-179). -/
def numFailuresL : List Suite → Nat
  | [] => 0
  | s :: ss => s.numFailures + numFailuresL ss
end

/-! ### The runner -/

/-- A line written to the streams of the logger. -/
inductive Line
  /-- "Test started:" (runner.h 121). -/
  | started
  /-- `os << progress_ * 10 << "%"` (runner.h 157-160). -/
  | progress (percent : Nat)
  /-- A user message (runner.h 137-140). -/
  | message (text : String)
  /-- `DisplaySuite`: indentation, `+`, name (runner.h 205-214). -/
  | suite (indent : Nat) (name : Name)
  /-- `DisplayCase`: indentation, `-`, name (runner.h 216-221). -/
  | case (indent : Nat) (name : Name)
  /-- `DisplayResult` (runner.h 223-237). -/
  | result (indent : Nat) (r : Result)
  /-- "Test stopped due to fatal error." (runner.h 265-268). -/
  | stopped
  /-- "Total number of test failures: n." (runner.h 269-270). -/
  | total (n : Nat)
  deriving DecidableEq, Repr

/-- The state of the `Runner` besides the tree (runner.h 319-345).  `evaluated`
    is a ghost field: the expressions evaluated so far, with their case. -/
structure Runner where
  stop : Bool
  numCases : Nat
  numTested : Nat
  nextProgress : Nat
  /-- path of `prevSuite_` -/
  prevSuite : List Name
  log : List Line
  evaluated : List (List Name × Name × Nat)
  started : List (List Name × Name)

/-- `Runner::Runner` (runner.h 40-47). -/
def Runner.init : Runner :=
  { stop := false, numCases := 0, numTested := 0, nextProgress := 0,
    prevSuite := [], log := [], evaluated := [], started := [] }

/-- `DisplaySuite`: the parent first, then the suite with indentation
    `depth - 1` (runner.h 205-214); the master suite shows nothing.  `done` is the
    number of names above this one. -/
def displaySuite (done : Nat) : List Name → List Line
  | [] => []
  | n :: ns => .suite done n :: displaySuite (done + 1) ns

/-- `Runner::ShowResult` (runner.h 178-250): the suite path unless the previously
    shown result was in the same suite, the case, and the result, with
    `depth = GetDepth()` (suite.h 193-203). -/
def showResult (path : List Name) (case : Name) (res : Result) (r : Runner) : Runner :=
  { r with
    log := r.log
      ++ (if path ≠ r.prevSuite then displaySuite 0 path else [])
      ++ [.case path.length case, .result (path.length + 2) res]
    prevSuite := path }

/-- `Runner::CommitResult` without the final `AddResult` (runner.h 99-107). -/
def commitResult (path : List Name) (case : Name) (res : Result) (r : Runner) : Runner :=
  showResult path case res
    (if res.level = .assert then { r with stop := true } else r)

/-- One action of a body.  An assertion is evaluated only while the stop flag is
    clear (tool.h 256, 312, 529), and a false one commits a result (tool.h
    649-657, 676-682, 736-744).  The second component is what `AddResult` appends
    to the active case (runner.h 106, case.h 104-107). -/
def runAct (path : List Name) (case : Name) (a : Act) (r : Runner) : Runner × List Result :=
  match a with
  | .message t => ({ r with log := r.log ++ [.message t] }, [])
  | .check id level ok =>
    if r.stop then (r, [])
    else
      let r := { r with evaluated := r.evaluated ++ [(path, case, id)] }
      if ok then (r, [])
      else (commitResult path case ⟨id, level⟩ r, [⟨id, level⟩])

/-- `Case::Run` on the modelled body (case.h 99-102). -/
def runBody (path : List Name) (case : Name) : List Act → Runner → Runner × List Result
  | [], r => (r, [])
  | a :: as, r =>
    let (r₁, x) := runAct path case a r
    let (r₂, y) := runBody path case as r₁
    (r₂, x ++ y)

/-- The loop of `ShowProgress` (runner.h 166-171): the least counter above
    `next` that is not yet reached.  The fuel `k` bounds the number of
    iterations; `showProgress` passes enough of it (at most ten values can be
    reached, see `advance_enough`). -/
def advance (tested total : Nat) : Nat → Nat → Nat
  | 0, next => next
  | k + 1, next =>
    if next * total ≤ tested * 10 then advance tested total k (next + 1) else next

/-- `Runner::ShowProgress` (runner.h 148-176). -/
def showProgress (r : Runner) : Runner :=
  let n := advance r.numTested r.numCases (r.numTested * 10 + 1) r.nextProgress
  if n ≠ r.nextProgress then
    { r with nextProgress := n, log := r.log ++ [.progress ((n - 1) * 10)] }
  else r

/-- `Runner::RunCase` (runner.h 296-305). -/
def runCase (path : List Name) (c : Case) (r : Runner) : Case × Runner :=
  if r.stop then (c, r)
  else
    let r₀ := { r with started := r.started ++ [(path, c.name)] }
    let (r₁, new) := runBody path c.name c.body r₀
    ({ c with results := c.results ++ new },
     showProgress { r₁ with numTested := r₁.numTested + 1 })

/-- `Suite::VisitCases` with `RunCase` (suite.h 205-214; runner.h 288). -/
def runCases (path : List Name) : List Case → Runner → List Case × Runner
  | [], r => ([], r)
  | c :: cs, r =>
    let (c', r₁) := runCase path c r
    let (cs', r₂) := runCases path cs r₁
    (c' :: cs', r₂)

mutual
/-- `Runner::RunSuite` (runner.h 284-294); `path` is the path of the suite. -/
def runSuite (path : List Name) : Suite → Runner → Suite × Runner
  | .mk n cs ss, r =>
    let (cs', r₁) := if r.stop then (cs, r) else runCases path cs r
    let (ss', r₂) := if r₁.stop then (ss, r₁) else runSuites path ss r₁
    (.mk n cs' ss', r₂)
/-- `Suite::VisitSuites` with `RunSuite` (suite.h 216-225; runner.h 292). -/
def runSuites (path : List Name) : List Suite → Runner → List Suite × Runner
  | [], r => ([], r)
  | s :: ss, r =>
    let (s', r₁) := runSuite (path ++ [s.name]) s r
    let (ss', r₂) := runSuites path ss r₁
    (s' :: ss', r₂)
end

/-- `Runner::ShowSummary` (runner.h 252-281). -/
def showSummary (s : Suite) (r : Runner) : Runner :=
  { r with log := r.log ++ (if r.stop then [.stopped] else []) ++ [.total s.numFailures] }

/-- `Runner::Run` (runner.h 114-124). -/
def run (s : Suite) (r : Runner) : Suite × Runner :=
  let r₀ := { r with
    numCases := s.numCases, numTested := 0, nextProgress := 1, prevSuite := [],
    log := r.log ++ [.started] }
  let (s', r₁) := runSuite [] s r₀
  (s', showSummary s' r₁)

/-- Any number of calls of `Run` on the same singleton (runner.h 114-124, 311-315). -/
def runTimes : Nat → Suite → Runner → Suite × Runner
  | 0, s, r => (s, r)
  | k + 1, s, r =>
    let (s₁, r₁) := run s r
    runTimes k s₁ r₁

end Verif.TestFw
