import Verif.Event.LifeLemmas
set_option linter.unusedSimpArgs false
/-!
Properties C135 (a sink lives while an event calls it) and C136 (a sink lives while the scheduler
calls it).

The full statement of either is that no program ever uses a destroyed sink:
`∀ P script n, exec S P script n ≠ .dead`.  It is false of the code, because a sink is called through
the very `Ptr` that `Disconnect` (or `Cancel`) resets: see the `_fails` theorems.  What is true is
that nothing else than the removal of the connection of a sink that is being called can do it.
-/
namespace Verif.Event
variable {τ : Type}

/-- After `m` steps of the program, a call of the sink `s` of the connection `c` is under way, the
connection exists, and the next act is to disconnect it. -/
def DisconnectsRunning (S : Source τ) (P : Prog) (script : List Act) (m c s : Nat) : Prop :=
  ∃ f fs w r, exec S P script m = .run (f :: fs) w ∧ Frame.call c s r ∈ f :: fs ∧
    S.look w.t c = some s ∧ f.rest.head? = some (.disconnect c)

/-- After `m` steps of the program, two calls under `c` are under way, one inside the other, the outer
one of the sink `s`, and the inner one is about to return. -/
def ReturnsNested (S : Source τ) (P : Prog) (script : List Act) (m c s : Nat) : Prop :=
  ∃ fs w r s', exec S P script m = .run (.call c s' [] :: fs) w ∧ Frame.call c s r ∈ fs

/-- After `j` steps of the program, the sink `s` of the connection `c` is being called and has more to
do, although there is no `Ptr` to it left: no other `Ptr`, and none in any connection. -/
def RunsDestroyed (S : Source τ) (P : Prog) (script : List Act) (j c s : Nat) : Prop :=
  ∃ a r fs w, exec S P script j = .run (.call c s (a :: r) :: fs) w ∧ s ∉ w.held ∧
    ∀ c', S.look w.t c' ≠ some s

theorem lost_event {S : Source τ} (hS : ∀ t c, S.finish t c = t) {P : Prog} {script : List Act}
    {m c s : Nat} (h : Lost S P script m c s) : DisconnectsRunning S P script m c s := by
  obtain ⟨f, fs, w, he, ⟨r, hr⟩, hl, h | ⟨s', rfl, -, hx⟩⟩ := h
  · exact ⟨f, fs, w, r, he, hr, hl, h⟩
  · rw [hS] at hx; exact absurd hl hx

theorem safe_event {S : Source τ} {ok : τ → Prop} (L : S.Lawful ok) (hS : ∀ t c, S.finish t c = t)
    {P : Prog} {script : List Act} {n : Nat} (h : exec S P script n = .dead) :
    ∃ m j c s, m < j ∧ j < n ∧ DisconnectsRunning S P script m c s ∧
      RunsDestroyed S P script j c s := by
  obtain ⟨j, hj, c, s, a, r, fs, w, he, h1, h2, m, hm, hl⟩ := dead_lost L h
  exact ⟨m, j, c, s, hm, hj, lost_event hS hl, a, r, fs, w, he, h1, h2⟩

theorem quiet_event {S : Source τ} {ok : τ → Prop} (L : S.Lawful ok) (hS : ∀ t c, S.finish t c = t)
    {P : Prog} (hP : ∀ tr s c, Act.disconnect c ∉ P tr s) (script : List Act) (n : Nat) :
    exec S P script n ≠ .dead := by
  intro h
  obtain ⟨m, j, c, s, -, -, ⟨f, fs, w, r, he, hr, -, hh⟩, -⟩ := safe_event L hS h
  exact no_disconnect hP he ⟨r, hr⟩ hh

/-! ### C135 -/

/-- C135 (partial; the full statement `exec (voidEvent cap) P script n ≠ .dead` is false, see
`C135_fails`).  An event of any capacity without arguments: if a program of connects, disconnects
and fires, from sinks and to any depth, uses a destroyed sink, then before that the connection of
that sink was disconnected during a call of the sink, and nobody else held a `Ptr` to the sink. -/
theorem C135_void_partial {cap : Nat} (hcap : cap < 2 ^ 32) (P : Prog) (script : List Act) (n : Nat)
    (h : exec (voidEvent cap) P script n = .dead) :
    ∃ m j c s, m < j ∧ j < n ∧ DisconnectsRunning (voidEvent cap) P script m c s ∧
      RunsDestroyed (voidEvent cap) P script j c s :=
  safe_event (voidEvent_lawful hcap) (fun _ _ => rfl) h

/-- C135 (partial), for an event with arguments. -/
theorem C135_args_partial {cap : Nat} (hcap : cap < 2 ^ 32) (P : Prog) (script : List Act) (n : Nat)
    (h : exec (argsEvent cap) P script n = .dead) :
    ∃ m j c s, m < j ∧ j < n ∧ DisconnectsRunning (argsEvent cap) P script m c s ∧
      RunsDestroyed (argsEvent cap) P script j c s :=
  safe_event (argsEvent_lawful hcap) (fun _ _ => rfl) h

/-- C135 (partial), for an event with a single connection. -/
theorem C135_one_partial (P : Prog) (script : List Act) (n : Nat)
    (h : exec oneEvent P script n = .dead) :
    ∃ m j c s, m < j ∧ j < n ∧ DisconnectsRunning oneEvent P script m c s ∧
      RunsDestroyed oneEvent P script j c s :=
  safe_event oneEvent_lawful (fun _ _ => rfl) h

/-- C135, sinks that do not disconnect.  Sinks that create, hold, release and connect sinks and fire
the event again, but leave disconnecting to the program outside of calls, always live while they
are called, whether or not anybody else holds them. -/
theorem C135_quiet {cap : Nat} (hcap : cap < 2 ^ 32) (P : Prog)
    (hP : ∀ tr s c, Act.disconnect c ∉ P tr s) (script : List Act) (n : Nat) :
    exec (voidEvent cap) P script n ≠ .dead ∧ exec (argsEvent cap) P script n ≠ .dead ∧
      exec oneEvent P script n ≠ .dead :=
  ⟨quiet_event (voidEvent_lawful hcap) (fun _ _ => rfl) hP script n,
    quiet_event (argsEvent_lawful hcap) (fun _ _ => rfl) hP script n,
    quiet_event oneEvent_lawful (fun _ _ => rfl) hP script n⟩

/-- C135, sinks held elsewhere.  If at every moment somebody else holds a `Ptr` to each sink that is
being called, then no destroyed sink is used, whatever is disconnected. -/
theorem C135_held (S : Source τ) (P : Prog) (script : List Act)
    (hheld : ∀ n stack w c s r, exec S P script n = .run stack w → Frame.call c s r ∈ stack →
      s ∈ w.held) (n : Nat) : exec S P script n ≠ .dead := by
  intro h
  obtain ⟨j, -, c, s, a, r, fs, w, he, ha⟩ := dead_step h
  have := List.contains_iff_mem.mpr (hheld j _ _ c s (a :: r) he List.mem_cons_self)
  simp [World.alive, this] at ha
  simp_all

/-- C135 is false of the code: a sink that only the event holds and that disconnects itself is
destroyed in the middle of its own call, for each of the three kinds of event. -/
theorem C135_fails : ∃ (P : Prog) (script : List Act) (n : Nat),
    exec (voidEvent 4) P script n = .dead ∧ exec (argsEvent 4) P script n = .dead ∧
      exec oneEvent P script n = .dead :=
  ⟨fun _ _ => [.disconnect 1, .create], [.create, .connect 0, .release 0, .fire 0], 7,
    by decide, by decide, by decide⟩

/-! ### C136 -/

/-- C136 (partial; the full statement `exec handles P script n ≠ .dead` is false, see
`C136_fails`).  If a program of events, some of which are cancelled and fired, uses a destroyed sink,
then before that its event was cancelled during the call of its sink, or a second call of that event
returned inside the first. -/
theorem C136_partial (P : Prog) (script : List Act) (n : Nat)
    (h : exec handles P script n = .dead) :
    ∃ m j c s, m < j ∧ j < n ∧
      (DisconnectsRunning handles P script m c s ∨ ReturnsNested handles P script m c s) ∧
      RunsDestroyed handles P script j c s := by
  obtain ⟨j, hj, c, s, a, r, fs, w, he, h1, h2, m, hm, hl⟩ := dead_lost handles_lawful h
  refine ⟨m, j, c, s, hm, hj, ?_, a, r, fs, w, he, h1, h2⟩
  obtain ⟨f, fs, w, he, ⟨r, hr⟩, hl, h | ⟨s', rfl, ⟨r', ha⟩, -⟩⟩ := hl
  · exact .inl ⟨f, fs, w, r, he, hr, hl, h⟩
  · exact .inr ⟨fs, w, r', s', he, ha⟩

/-- C136, sinks that neither cancel nor run the scheduler again.  A sink that the scheduler calls
lives during the call, whether or not anybody else holds it, if sinks only create, hold, release and
schedule. -/
theorem C136_quiet (P : Prog) (hP : ∀ tr s c, Act.disconnect c ∉ P tr s)
    (hF : ∀ tr s k, Act.fire k ∉ P tr s) (script : List Act) (n : Nat) :
    exec handles P script n ≠ .dead := by
  intro h
  obtain ⟨m, j, c, s, -, -, ⟨f, fs, w, r, he, hr, -, hh⟩ | ⟨fs, w, r, s', he, hr⟩, -⟩ :=
    C136_partial P script n h
  · exact no_disconnect hP he ⟨r, hr⟩ hh
  · have := exec_flat hF script m _ _ he
    cases this <;> simp at hr

/-- C136 is false of the code: an event that only the scheduler holds and that is cancelled by its own
sink destroys the sink in the middle of its call. -/
theorem C136_fails : ∃ (P : Prog) (script : List Act) (n : Nat), exec handles P script n = .dead :=
  ⟨fun _ _ => [.disconnect 0, .create], [.create, .connect 0, .release 0, .fire 0], 7, by decide⟩

/-- A sink that is called again inside its own call, as `Run` inside a sink does with the list and set
schedulers, is destroyed when the inner call returns, although nothing is cancelled. -/
theorem C136_nested_fails : ∃ (P : Prog) (script : List Act) (n : Nat),
    (∀ tr s c, Act.disconnect c ∉ P tr s) ∧ (∀ c, Act.disconnect c ∉ script) ∧
      exec handles P script n = .dead := by
  refine ⟨fun tr _ => if tr = [] then [.fire 0, .create] else [],
    [.create, .connect 0, .release 0, .fire 0], 10, ?_, by simp, by decide⟩
  intro tr s c
  dsimp only
  split <;> simp

/-! ### The hypotheses can be met -/

/-- Sinks that only the event holds: the first makes and connects another one and fires the event
again; the program runs to its end. -/
example : ∃ n w, exec (voidEvent 8)
    (fun tr s => if tr.length < 2 ∧ s = 0 then [.create, .connect (tr.length + 1), .fire 0, .create] else [.create])
    [.create, .connect 0, .release 0, .fire 0] n = .done w ∧ 4 ≤ w.calls.length :=
  ⟨60, _, by rfl, by decide⟩

/-- A sink that disconnects itself while the program still holds it is not destroyed. -/
example : ∃ n w, exec (voidEvent 8) (fun _ _ => [.disconnect 1, .create])
    [.create, .connect 0, .fire 0] n = .done w ∧ w.calls = [(1, 0)] ∧ 0 ∈ w.held :=
  ⟨12, _, by rfl, by decide, by decide⟩

/-- Events whose sinks schedule further events. -/
example : ∃ n w, exec handles (fun tr _ => if tr = [] then [.create, .connect 1, .release 1] else [.create])
    [.create, .connect 0, .release 0, .fire 0, .fire 1] n = .done w ∧ w.calls = [(0, 0), (1, 1)] :=
  ⟨20, _, by rfl, by decide⟩

end Verif.Event
