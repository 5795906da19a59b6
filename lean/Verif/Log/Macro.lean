set_option linter.unusedSimpArgs false
set_option linter.unusedVariables false
/-!
Property C110: the log macros `NSFX_LOG` and `NSFX_LOG_LEVEL`.

`P` is the state of the program, `X` an exception.  Every part of a log statement is a function from the state; an exception leaves the
state it was thrown in.
-/
namespace Verif.Log.Macro

variable {P X : Type}

/-! ### Model -/

/-- `for (; cond; next) body` run for at most `n` tests of the condition (`none`: the loop has not ended by then).  The second component
of a result is the exception that left the loop.  (The `for` statements of log-tool.h 113-147.) -/
def loop {σ : Type} (cond : σ → Bool) (body next : σ → Option (σ × Option X)) : Nat → σ → Option (σ × Option X)
  | 0, _ => none
  | n + 1, s =>
    if cond s then
      match body s with
      | none => none
      | some (s₁, some x) => some (s₁, some x)
      | some (s₁, none) =>
        match next s₁ with
        | none => none
        | some (s₂, some x) => some (s₂, some x)
        | some (s₂, none) => loop cond body next n s₂
    else some (s, none)

/-- A value in a record; the types are those of /repo/log/std-log-value-traits.h 34-67. -/
inductive Val where
  | text (s : String)
  | line (n : Nat)
  | severity (n : Nat)
deriving DecidableEq

/-- A record: names and values.  (log-record.h 89-92.) -/
abbrev Rec := List (String × Val)

/-- `LogRecord::Add`; /repo/log/log-record.h 96-100: nothing happens for a name that is present. -/
def Rec.add (r : Rec) (n : String) (v : Val) : Rec := if r.any (·.1 = n) then r else r ++ [(n, v)]

/-- The value under a name; log-record.h 117-132. -/
def Rec.get (r : Rec) (n : String) : Option Val := (r.find? (·.1 = n)).map (·.2)

/-- The compile-time switches `NSFX_LOG_ENABLE_FUNCTION_NAME`, `..._FILE_NAME`, `..._LINE_NUMBER`.  (log-tool.h 47-60.) -/
structure Config where
  function : Bool
  file : Bool
  line : Bool

/-- `__FUNCTION__`, `__FILE__`, `__LINE__` at the log statement.  (log-tool.h 113-147.) -/
structure Place where
  function : String
  file : String
  line : Nat

/-- `MakeLogRecord`; /repo/log/log-tool.h 35-62. -/
def makeRecord (c : Config) (w : Place) (message : String) : Rec :=
  let r := Rec.add [] "LogMessage" (.text message)
  let r := if c.function then r.add "LogFunction" (.text w.function) else r
  let r := if c.file then r.add "LogFile" (.text w.file) else r
  if c.line then r.add "LogLine" (.line w.line) else r

/-- `MakeLogRecordWithSeverity`; log-tool.h 70-85, and `MakeLogRecord` for `NSFX_LOG`. -/
def makeRecordWith (c : Config) (w : Place) (message : String) : Option Nat → Rec
  | none => makeRecord c w message
  | some v => (makeRecord c w message).add "LogSeverity" (.severity v)

/-- An operand of `<<`: the text of a variable of the user, or any other expression.
(What the client writes behind `NSFX_LOG(logger)`, log-tool.h 113-147.) -/
inductive Operand (P X : Type) where
  | var (x : String)
  | expr (f : P → P × Except X String)

/-- The type of the expression given as `logger`: a pointer to `ILogEventSink`, a `Ptr<ILogEventSinkEx>` or `ILogEventSinkEx*`, or a
constant pointer of these types (such as a data member in a `const` member function).  (i-log.h 161-177.) -/
inductive SinkType where
  | sink
  | ex
  | constEx
deriving DecidableEq

/-- `MakeLogSinkTag`; /repo/log/i-log.h 161-177: only the two pointer types that are not `const` are specialised. -/
def SinkType.asksEnabled : SinkType → Bool
  | .sink => false
  | .ex => true
  | .constEx => false

/-- What the log statement is about: the type of `logger`, its `IsEnabled()`, its `Fire()`, the text of the user's variables.
(The client's; log-tool.h 94-147, i-log.h 161-201.) -/
structure Env (P X : Type) where
  type : SinkType
  enabled : P → Bool
  fire : P → Rec → P × Option X
  look : P → String → String

/-- `IsLogSinkEnabled`; i-log.h 179-201. -/
def Env.test (e : Env P X) (p : P) : Bool := if e.type.asksEnabled then e.enabled p else true

/-- The variables of the macro: `go`, and the text in `oss`.  (log-tool.h 113-147.) -/
structure Vars (P : Type) where
  p : P
  go : Bool
  oss : String

/-- The text of a variable inside the statement: `go` and `oss` (as `oss.str()`) are the macro's.
(The scopes of log-tool.h 113-147.) -/
def Vars.look (e : Env P X) (v : Vars P) (x : String) : String :=
  if x = "go" then (if v.go then "1" else "0") else if x = "oss" then v.oss else e.look v.p x

/-- `oss << a << b ...`.  (log-tool.h 122-124, 145-147, and the operands.) -/
def stream (e : Env P X) : List (Operand P X) → Vars P → Vars P × Option X
  | [], v => (v, none)
  | .var x :: os, v => stream e os { v with oss := v.oss ++ v.look e x }
  | .expr f :: os, v =>
    match f v.p with
    | (p, .error x) => ({ v with p := p }, some x)
    | (p, .ok t) => stream e os { v with p := p, oss := v.oss ++ t }

/-- The macros `NSFX_LOG` (no severity; log-tool.h 113-124) and `NSFX_LOG_LEVEL` (135-147), followed by the operands; `fuel` bounds the
rounds of each loop. -/
def log (c : Config) (w : Place) (sev : Option Nat) (e : Env P X) (os : List (Operand P X)) (fuel : Nat) (p : P) :
    Option (P × Option X) :=
  (loop (σ := P × Bool) (fun s => s.2)
    (fun s =>
      (loop (σ := Vars P) (fun v => v.go)
        (fun v => some (stream e os v))
        (fun v =>
          match e.fire v.p (makeRecordWith c w v.oss sev) with
          | (p', some x) => some ({ v with p := p' }, some x)
          | (p', none) => some ({ v with p := p', go := false }, none))
        fuel ⟨s.1, s.2, ""⟩).map fun r => ((r.1.p, r.1.go), r.2))
    (fun s => some ((s.1, false), none))
    fuel (p, e.test p)).map fun r => (r.1.1, r.2)

/-! ### Specification -/

/-- The operands are evaluated in their order, in the scope of the caller, up to the first exception; the text is what they print.
(Specification; no code.) -/
def say (look : P → String → String) : List (Operand P X) → P → P × Except X String
  | [], p => (p, .ok "")
  | .var x :: os, p =>
    match say look os p with
    | (p', .ok t) => (p', .ok (look p x ++ t))
    | (p', .error y) => (p', .error y)
  | .expr f :: os, p =>
    match f p with
    | (p', .error y) => (p', .error y)
    | (p', .ok t) =>
      match say look os p' with
      | (p'', .ok t') => (p'', .ok (t ++ t'))
      | (p'', .error y) => (p'', .error y)

/-- A good record for a message.  (Specification; no code.) -/
structure Good (c : Config) (w : Place) (sev : Option Nat) (message : String) (r : Rec) : Prop where
  message : r.get "LogMessage" = some (.text message)
  function : r.get "LogFunction" = if c.function then some (.text w.function) else none
  file : r.get "LogFile" = if c.file then some (.text w.file) else none
  line : r.get "LogLine" = if c.line then some (.line w.line) else none
  severity : r.get "LogSeverity" = sev.map .severity
  only : ∀ n ∈ r.map (·.1), n ∈ ["LogMessage", "LogFunction", "LogFile", "LogLine", "LogSeverity"]

/-- What a log statement shall do.  (Specification; no code.) -/
def Does (c : Config) (w : Place) (sev : Option Nat) (e : Env P X) (os : List (Operand P X)) (p : P) (res : P × Option X) : Prop :=
  (e.type ≠ .sink ∧ e.enabled p = false ∧ res = (p, none)) ∨
  ((e.type = .sink ∨ e.enabled p = true) ∧
    ((∃ y, (say e.look os p).2 = .error y ∧ res = ((say e.look os p).1, some y)) ∨
     (∃ t r, (say e.look os p).2 = .ok t ∧ Good c w sev t r ∧ res = e.fire (say e.look os p).1 r)))

/-! ### Lemmas -/

theorem good (c : Config) (w : Place) (sev : Option Nat) (t : String) : Good c w sev t (makeRecordWith c w t sev) := by
  obtain ⟨a, b, d⟩ := c
  cases a <;> cases b <;> cases d <;> cases sev <;>
    constructor <;> simp [makeRecordWith, makeRecord, Rec.add, Rec.get]

/-- The variables the user may name.  (Specification; no code.) -/
def Operand.Plain : Operand P X → Prop
  | .var x => x ≠ "go" ∧ x ≠ "oss"
  | .expr _ => True

theorem stream_eq (e : Env P X) : ∀ (os : List (Operand P X)) (v : Vars P), (∀ o ∈ os, o.Plain) →
    (∀ y p', say e.look os v.p = (p', .error y) → ∃ t, stream e os v = (⟨p', v.go, t⟩, some y)) ∧
    (∀ t p', say e.look os v.p = (p', .ok t) → stream e os v = (⟨p', v.go, v.oss ++ t⟩, none))
  | [], v, _ => by
    refine ⟨by simp [say], ?_⟩
    intro t p' h
    simp [say] at h
    obtain ⟨rfl, rfl⟩ := h
    simp [stream]
  | .var x :: os, v, h => by
    have hx : x ≠ "go" ∧ x ≠ "oss" := h (.var x) List.mem_cons_self
    obtain ⟨h1, h2⟩ := stream_eq e os { v with oss := v.oss ++ v.look e x } (fun o ho => h o (List.mem_cons_of_mem _ ho))
    have hl : v.look e x = e.look v.p x := by simp [Vars.look, hx.1, hx.2]
    simp only [stream, say]
    dsimp only at h1 h2
    match hs : say e.look os v.p with
    | (p', .ok t) =>
      refine ⟨by simp, ?_⟩
      intro t' p'' h'
      simp at h'
      obtain ⟨rfl, rfl⟩ := h'
      rw [h2 t p' hs, hl, String.append_assoc]
    | (p', .error y) =>
      refine ⟨?_, by simp⟩
      intro y' p'' h'
      simp at h'
      obtain ⟨rfl, rfl⟩ := h'
      exact h1 y p' hs
  | .expr f :: os, v, h => by
    simp only [stream, say]
    match hf : f v.p with
    | (p', .error y) =>
      refine ⟨?_, by simp⟩
      intro y' p'' h'
      simp at h'
      obtain ⟨rfl, rfl⟩ := h'
      exact ⟨v.oss, rfl⟩
    | (p', .ok t) =>
      obtain ⟨h1, h2⟩ := stream_eq e os { v with p := p', oss := v.oss ++ t } (fun o ho => h o (List.mem_cons_of_mem _ ho))
      dsimp only at h1 h2 ⊢
      match hs : say e.look os p' with
      | (p₂, .ok t₂) =>
        refine ⟨by simp, ?_⟩
        intro t' p'' h'
        simp at h'
        obtain ⟨rfl, rfl⟩ := h'
        rw [h2 t₂ p₂ hs, String.append_assoc]
      | (p₂, .error y) =>
        refine ⟨?_, by simp⟩
        intro y' p'' h'
        simp at h'
        obtain ⟨rfl, rfl⟩ := h'
        exact h1 y p₂ hs

/-! ### Properties -/

/-- **C110 (partial).** A log statement ends within two tests of each loop.  If the logger is an extended sink that is disabled, nothing
happens.  Otherwise the operands are evaluated once, in order, in the scope of the caller; an exception of an operand leaves the
statement and nothing is fired; else exactly one record, with the message, place and severity, is fired.

Missing: operands that name a variable `go` or `oss`, and constant pointers to a logger; there the claim is false
(`C110_capture_fails`, `C110_const_fails`). -/
theorem C110_partial (c : Config) (w : Place) (sev : Option Nat) (e : Env P X) (os : List (Operand P X))
    (ht : e.type ≠ .constEx) (ho : ∀ o ∈ os, o.Plain) (fuel : Nat) (p : P) :
    ∃ res, log c w sev e os (fuel + 2) p = some res ∧ Does c w sev e os p res := by
  have main : e.test p = true → ∃ res, log c w sev e os (fuel + 2) p = some res ∧
      ((∃ y, (say e.look os p).2 = .error y ∧ res = ((say e.look os p).1, some y)) ∨
       (∃ t r, (say e.look os p).2 = .ok t ∧ Good c w sev t r ∧ res = e.fire (say e.look os p).1 r)) := by
    intro hg
    obtain ⟨h1, h2⟩ := stream_eq e os ⟨p, true, ""⟩ ho
    match hs : say e.look os p with
    | (p', .error y) =>
      obtain ⟨t, hst⟩ := h1 y p' hs
      refine ⟨(p', some y), ?_, Or.inl ⟨y, rfl, rfl⟩⟩
      simp [log, hg, loop, hst]
    | (p', .ok t) =>
      have hst := h2 t p' hs
      have e0 : "" ++ t = t := by simp
      dsimp only at hst
      rw [e0] at hst
      refine ⟨_, ?_, Or.inr ⟨t, makeRecordWith c w t sev, rfl, good c w sev t, rfl⟩⟩
      match hfi : e.fire p' (makeRecordWith c w t sev) with
      | (p'', some x) => simp [log, hg, loop, hst, hfi]
      | (p'', none) => simp [log, hg, loop, hst, hfi]
  unfold Does
  match hty : e.type, ht with
  | .sink, _ =>
    obtain ⟨res, ha, hb⟩ := main (by simp [Env.test, hty, SinkType.asksEnabled])
    exact ⟨res, ha, Or.inr ⟨Or.inl rfl, hb⟩⟩
  | .ex, _ =>
    cases he : e.enabled p with
    | false =>
      refine ⟨(p, none), ?_, Or.inl ⟨by simp, rfl, rfl⟩⟩
      simp [log, Env.test, hty, SinkType.asksEnabled, he, loop]
    | true =>
      obtain ⟨res, ha, hb⟩ := main (by simp [Env.test, hty, SinkType.asksEnabled, he])
      exact ⟨res, ha, Or.inr ⟨Or.inr rfl, hb⟩⟩

/-- A program that counts evaluated operands and keeps what was fired; its logger is enabled or not.  (An example; no code.) -/
def demo (type : SinkType) (on : Bool) : Env (Nat × List Rec) Unit where
  type := type
  enabled _ := on
  fire p r := ((p.1, p.2 ++ [r]), none)
  look _ x := "my " ++ x

/-- An operand that counts.  (An example; no code.) -/
def tick : Operand (Nat × List Rec) Unit := .expr fun p => ((p.1 + 1, p.2), .ok "tick")

/-- **C110 fails: captured variables.** The text of the user's variable `go` is not in the message. -/
theorem C110_capture_fails (c : Config) (w : Place) (sev : Option Nat) :
    ∃ res, log c w sev (demo .ex true) [.var "go"] 2 (0, []) = some res ∧ ¬ Does c w sev (demo .ex true) [.var "go"] (0, []) res := by
  refine ⟨((0, [makeRecordWith c w "1" sev]), none), ?_, ?_⟩
  · simp [log, loop, demo, Env.test, SinkType.asksEnabled, stream, Vars.look]
  · rintro (⟨_, h, _⟩ | ⟨_, ⟨y, h, _⟩ | ⟨t, r, h, hg, he⟩⟩)
    · simp [demo] at h
    · simp [say, demo] at h
    · simp [say, demo] at h he
      subst he
      have := hg.message.symm.trans (good c w sev "1").message
      rw [← h] at this
      simp at this

/-- **C110 fails: constant pointers.** Through a constant pointer to a disabled logger, operands are evaluated and the record is fired. -/
theorem C110_const_fails (c : Config) (w : Place) (sev : Option Nat) :
    log c w sev (demo .constEx false) [tick] 2 (0, []) = some ((1, [makeRecordWith c w "tick" sev]), none) ∧
    ¬ Does c w sev (demo .constEx false) [tick] (0, []) ((1, [makeRecordWith c w "tick" sev]), none) := by
  constructor
  · simp [log, loop, demo, Env.test, SinkType.asksEnabled, stream, tick]
  · rintro (⟨_, _, h⟩ | ⟨h | h, _⟩) <;> simp [demo] at h

/-- Cases of `C110_partial`. -/
example (c : Config) (w : Place) :
    (demo .ex true).type ≠ .constEx ∧ (∀ o ∈ [tick, .var "x", tick], o.Plain) ∧
    log c w (some 8) (demo .ex true) [tick, .var "x", tick] 2 (0, []) =
      some ((2, [makeRecordWith c w "tickmy xtick" (some 8)]), none) ∧
    log c w (some 8) (demo .ex false) [tick, .var "x", tick] 2 (0, []) = some ((0, []), none) := by
  refine ⟨by decide, by simp [tick, Operand.Plain], ?_, ?_⟩
  · simp [log, loop, demo, Env.test, SinkType.asksEnabled, stream, tick, Vars.look]
  · simp [log, loop, demo, Env.test, SinkType.asksEnabled]

end Verif.Log.Macro
