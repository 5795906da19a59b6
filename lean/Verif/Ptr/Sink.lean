import Verif.Ptr.Kinds
set_option linter.unusedSimpArgs false
set_option linter.unusedVariables false
/-!
Property C108: what `CreateEventSink` gives to its caller.
-/
namespace Verif.Ptr

/-- `EventSinkCreator::operator()`; /repo/event/event-sink.h 219-262.  Both branches of the conditional expression become a temporary
`Ptr<IObject>` (variable `n`): the first by the conversion of `ISink*`, the second directly.  `return` moves it into the `Ptr<ISink>`
of the caller (variable `n + 1`): /repo/component/ptr.h 464-469, 79-111 query the sink interface and release the temporary.  The
interface of an `AggObject` is that of the aggregated object (part 1); /repo/component/object.h 820-833. -/
def createSink (s : State) : Option Ref → List Op
  | none => [.newVar, .newVar, .make (.var s.vars.length) [] 0,
      .moveQuery (.var (s.vars.length + 1)) (.var s.vars.length) (some ⟨s.cells.length, 0⟩)]
  | some ctrl => [.newVar, .newVar, .makeAgg (.var s.vars.length) ctrl [] 0,
      .moveQuery (.var (s.vars.length + 1)) (.var s.vars.length) (some ⟨s.cells.length, 1⟩)]

theorem modify_append_last (l : List Cell) (x : Cell) (f : Cell → Cell) : (l ++ [x]).modify l.length f = l ++ [f x] := by
  induction l with
  | nil => rfl
  | cons a l ih => simp only [List.cons_append, List.length_cons, List.modify_succ_cons, ih]

theorem modify_append_left {d : Nat} {l : List Cell} (h : d < l.length) (x : Cell) (f : Cell → Cell) :
    (l ++ [x]).modify d f = l.modify d f ++ [x] := by
  induction l generalizing d with
  | nil => simp at h
  | cons a l ih =>
    cases d with
    | zero => rfl
    | succ d => simp only [List.cons_append, List.modify_succ_cons, ih (by simpa using h)]

theorem live_append {cs : List Cell} {x : Cell} {vs ws : List (Option Ref)} {raw raw' : List Ref} (r : Ref) (hr : r.cell < cs.length) :
    State.live ⟨cs ++ [x], vs, raw⟩ r = State.live ⟨cs, ws, raw'⟩ r := by
  induction r using ref_ind with
  | h r ih =>
    rw [live_eq, live_eq]
    dsimp only
    rw [List.getElem?_append_left hr]
    cases cs[r.cell]? with
    | none => rfl
    | some y =>
      dsimp only
      cases y.parts[r.part]? with
      | none => rfl
      | some d =>
        cases d with
        | to q =>
          dsimp only
          split
          · rename_i hb
            rw [ih q hb (by rcases hb with hb | ⟨hb, _⟩ <;> omega)]
          · rfl
        | _ => rfl

/-- C108 (partial): without a controller, the caller gets the only reference to a new object that exists; nothing else changes.

Missing: with a controller the claim is false (`C108_aggregated_fails`). -/
theorem C108_partial (s : State) :
    ∃ s', s.run (createSink s none) = some s' ∧
      s'.cells = s.cells ++ [⟨true, 1, [.self], []⟩] ∧
      s'.vars = s.vars ++ [none, some ⟨s.cells.length, 0⟩] ∧ s'.raw = s.raw ∧
      s'.live ⟨s.cells.length, 0⟩ = true := by
  refine ⟨⟨s.cells ++ [⟨true, 1, [.self], []⟩], s.vars ++ [none, some ⟨s.cells.length, 0⟩], s.raw⟩, ?_, rfl, rfl, rfl, ?_⟩
  · simp [createSink, State.run, State.step, State.assign, State.reset, State.alloc, State.get, State.put, State.addRef, live_eq,
      State.shape, counter_eq, drain_cons, drain_nil, State.release, Member.parts, modify_append_last]
  · simp [live_eq]

/-- C108 fails with a controller: the sink is destroyed before the caller gets it.  In every state with a usable controller, the
pointer the caller gets does not refer to an existing object, and even letting go of it is undefined. -/
theorem C108_aggregated_fails (s : State) (ctrl : Ref) (h : s.live ctrl = true) :
    ∃ s', s.run (createSink s (some ctrl)) = some s' ∧
      s'.get (.var (s.vars.length + 1)) = some (some ⟨s.cells.length, 1⟩) ∧
      (s'.cells[s.cells.length]?).map (·.alive) = some false ∧ s'.live ⟨s.cells.length, 1⟩ = false ∧
      s'.step (.reset (.var (s.vars.length + 1))) = none := by
  have hlt := live_lt h
  obtain ⟨cs, vs, raw⟩ := s
  dsimp only at hlt ⊢
  have hL : ∀ x ws, State.live ⟨cs ++ [x], ws, raw⟩ ctrl = true := fun x ws => by
    rw [live_append (ws := vs) (raw' := raw) ctrl hlt]; exact h
  have hb : ctrl.before ⟨cs.length, 1⟩ := Or.inl hlt
  have hC : ∀ p, counter (cs.map (·.parts) ++ [p]) ctrl = counter (cs.map (·.parts)) ctrl := fun p =>
    counter_append _ _ _ (by simpa using hlt)
  cases hc : counter (cs.map (·.parts)) ctrl with
  | none =>
    refine ⟨⟨cs ++ [⟨false, 0, [.self, .to ctrl], []⟩], vs ++ [none, some ⟨cs.length, 1⟩], raw⟩, ?_, ?_, ?_, ?_, ?_⟩
    · simp [createSink, State.run, State.step, State.assign, State.reset, State.alloc, State.get, State.put, State.addRef, live_eq _ ⟨_, 0⟩,
        live_eq _ ⟨_, 1⟩, State.shape, counter_eq _ ⟨_, 0⟩, counter_eq _ ⟨_, 1⟩, drain_cons, drain_nil, State.release, modify_append_last, hL,
        hb, hC, hc, hlt]
    · simp [State.get]
    · simp
    · simp [live_eq _ ⟨_, 1⟩]
    · simp [State.step, State.reset, State.get, State.put, drain_cons, State.release, live_eq _ ⟨_, 1⟩]
  | some d =>
    have hd : d < cs.length := by have := counter_le _ _ _ hc; omega
    refine ⟨⟨cs.modify d (fun y => { y with count := y.count + 1 }) ++ [⟨false, 0, [.self, .to ctrl], []⟩],
      vs ++ [none, some ⟨cs.length, 1⟩], raw⟩, ?_, ?_, ?_, ?_, ?_⟩
    · simp [createSink, State.run, State.step, State.assign, State.reset, State.alloc, State.get, State.put, State.addRef, live_eq _ ⟨_, 0⟩,
        live_eq _ ⟨_, 1⟩, State.shape, counter_eq _ ⟨_, 0⟩, counter_eq _ ⟨_, 1⟩, drain_cons, drain_nil, State.release, modify_append_last, hL,
        hb, hC, hc, hlt, modify_append_left hd]
    · simp [State.get]
    · simp
    · simp [live_eq _ ⟨_, 1⟩]
    · simp [State.step, State.reset, State.get, State.put, drain_cons, State.release, live_eq _ ⟨_, 1⟩]

/-- A case of `C108_aggregated_fails`: a controller held by variable 0. -/
example : State.live ⟨[⟨true, 1, [.self], []⟩], [some ⟨0, 0⟩], []⟩ ⟨0, 0⟩ = true := by simp [live_eq]

end Verif.Ptr
