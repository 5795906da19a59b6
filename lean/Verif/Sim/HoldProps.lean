import Verif.Sim.HoldLemmas

/-!
C157: event handles live exactly as long as somebody holds them.
-/
namespace Verif.Sim

/-- Handle `id` was created and has not been destroyed. -/
def HSt.Alive (s : HSt) (id : Nat) : Prop := ∃ n, s.cells[id]? = some (some n)

/-- Somebody holds handle `id`: the scheduler, a smart pointer of the client, the loop of the simulator, or the heap's
`FireAndRemoveNextEvent`. -/
def HSt.Held (K : HKind) (s : HSt) (id : Nat) : Prop :=
  id ∈ s.queue ∨ id ∈ s.user ∨ ∃ f ∈ s.frames, f.id = id ∧ (f.sim = true ∨ K = .heap)

/-- Events are fired as `Tame` says, at every moment of the history. -/
def TameHist (K : HKind) (ops : List HOp) : Prop := ∀ l o r, ops = l ++ o :: r → Tame K (HSt.run K l) o

private theorem sum_pos {α : Type} (g : α → Nat) : ∀ l : List α, 0 < (l.map g).sum ↔ ∃ x ∈ l, 0 < g x
  | [] => by simp
  | y :: l => by
    have := sum_pos g l
    simp only [List.map_cons, List.sum_cons, List.mem_cons, exists_eq_or_imp, ← this]
    omega

private theorem held_iff (K : HKind) (s : HSt) (id : Nat) : s.Held K id ↔ 0 < s.holders K id := by
  have f : (∃ f ∈ s.frames, f.id = id ∧ (f.sim = true ∨ K = .heap)) ↔ 0 < (s.frames.map (HFrame.weight K id)).sum := by
    rw [sum_pos]
    refine exists_congr fun f => and_congr_right fun _ => ?_
    by_cases e : f.id = id
    · by_cases x : f.sim = true
      · simp only [HFrame.weight, e, x, true_or, and_true, if_true, true_iff]
        omega
      · cases K <;> simp [HFrame.weight, e, x]
    · simp [HFrame.weight, e]
  unfold HSt.Held
  rw [f, ← List.count_pos_iff, ← List.count_pos_iff]
  simp only [HSt.holders]
  omega

/-- With a heap no destroyed handle is ever used, whatever is done: events fired inside calls of sinks to any depth, by the simulator or
directly, sinks that throw, memory that runs out, pointers copied and dropped at any moment. -/
theorem C157_heap (ops : List HOp) : (HSt.run .heap ops).bad = false := by
  obtain ⟨_, h, _⟩ := run_inv (K := .heap) ops fun l o r _ => by cases o <;> trivial
  exact h.bad

/-- With all schedulers no destroyed handle is used and no container misused, when events are fired as `TameHist` says; and everything that
somebody holds is alive. -/
theorem C157_safe_partial (K : HKind) (ops : List HOp) (ht : TameHist K ops) :
    (HSt.run K ops).bad = false ∧ ∀ id, (HSt.run K ops).Held K id → (HSt.run K ops).Alive id := by
  obtain ⟨leak, h, _⟩ := run_inv (K := K) ops ht
  refine ⟨h.bad, fun id hh => ?_⟩
  rw [held_iff] at hh
  exact ⟨_, h.acct.get (by omega)⟩

/-- If moreover nothing of what makes a heap lose references happens, then the handles that are alive are those that somebody holds, and a
handle that nobody holds is destroyed at once. -/
theorem C157_exact_partial (K : HKind) (ops : List HOp) (ht : TameHist K ops) (hl : ∀ o ∈ ops, ¬ Loses K o) (id : Nat) :
    (HSt.run K ops).Alive id ↔ (HSt.run K ops).Held K id := by
  obtain ⟨leak, h, hz⟩ := run_inv (K := K) ops ht
  refine ⟨fun ⟨n, e⟩ => ?_, fun hh => ?_⟩
  · rw [held_iff]
    have li : id < (HSt.run K ops).cells.length := by
      rcases Nat.lt_or_ge id (HSt.run K ops).cells.length with x | x
      · exact x
      · rw [List.getElem?_eq_none x] at e; cases e
    have c := h.acct.cell id li
    rw [e] at c
    rcases Nat.eq_zero_or_pos ((HSt.run K ops).holders K id) with x | x
    · rw [x, hz hl id] at c; cases c
    · exact x
  · rw [held_iff] at hh
    exact ⟨_, h.acct.get (by omega)⟩

/-- Then, when the scheduler has been destroyed, no call is under way and the client has dropped its pointers, all handles that were ever
created have been destroyed. -/
theorem C157_released_partial (K : HKind) (ops : List HOp) (ht : TameHist K ops) (hl : ∀ o ∈ ops, ¬ Loses K o)
    (hd : (HSt.run K ops).up = false) (hu : (HSt.run K ops).user = []) (hf : (HSt.run K ops).frames = []) (id : Nat) :
    ¬ (HSt.run K ops).Alive id := by
  rw [C157_exact_partial K ops ht hl id]
  obtain ⟨_, h, _⟩ := run_inv (K := K) ops ht
  rintro (x | x | ⟨f, x, _⟩)
  · rw [h.down hd] at x; cases x
  · rw [hu] at x; cases x
  · rw [hf] at x; cases x

/-- A heap's handle is never destroyed when its sink throws: the scheduler has given it up, the client dropped its pointer, the scheduler is
destroyed, nobody holds it. -/
theorem C157_throw_fails : ∃ ops : List HOp, TameHist .heap ops ∧ (HSt.run .heap ops).up = false ∧ (HSt.run .heap ops).frames = [] ∧
    (HSt.run .heap ops).user = [] ∧ (HSt.run .heap ops).Alive 0 ∧ ¬ (HSt.run .heap ops).Held .heap 0 :=
  ⟨[.schedule .ok, .drop 0, .fire 0 true, .throw, .destroy], fun l o r _ => by cases o <;> trivial, rfl, rfl, rfl, ⟨1, rfl⟩, by
    rintro (x | x | ⟨f, x, _⟩) <;> cases x⟩

/-- Nor when there is no memory for the entry in the heap: `ScheduleAt` throws and nobody holds the handle. -/
theorem C157_memory_fails : ∃ ops : List HOp, TameHist .heap ops ∧ (HSt.run .heap ops).frames = [] ∧
    (HSt.run .heap ops).user = [] ∧ (HSt.run .heap ops).Alive 0 ∧ ¬ (HSt.run .heap ops).Held .heap 0 :=
  ⟨[.schedule .noNode], fun l o r _ => by cases o <;> trivial, rfl, rfl, ⟨1, rfl⟩, by
    rintro (x | x | ⟨f, x, _⟩) <;> cases x⟩

/-- With a list and with a set, if a sink calls the scheduler's `FireAndRemoveNextEvent`, its own handle is destroyed inside the call, and
used afterwards. -/
theorem C157_nested_fails (K : HKind) (hK : K ≠ .heap) :
    (HSt.run K [.schedule .ok, .drop 0, .fire 0 false, .fire 0 false, .ret 0, .ret 0]).bad = true := by
  cases K with
  | heap => exact absurd rfl hK
  | list => rfl
  | set => rfl

/-- With a set also if the sink runs the simulator and the simulator holds the handles: the node is erased twice. -/
theorem C157_twice_fails : (HSt.run .set [.schedule .ok, .schedule .ok, .fire 0 true, .fire 0 true, .ret 0, .ret 0]).bad = true := rfl

/-- With a list too, if no other event is pending: the list is empty when the outer call pops it. -/
theorem C157_empty_fails : (HSt.run .list [.schedule .ok, .fire 0 true, .fire 0 true, .ret 0, .ret 0]).bad = true := rfl

/-- Whether the rest of a history is tame. -/
def tameFrom (K : HKind) : HSt → List HOp → Bool
  | _, [] => true
  | s, .fire i b :: ops =>
    (match K with
      | .heap => true
      | .list => s.frames.all (·.sim) && decide (s.frames.length < s.queue.length)
      | .set => s.frames.isEmpty) && tameFrom K (s.step K (.fire i b)) ops
  | s, o :: ops => tameFrom K (s.step K o) ops

private theorem tame_from {K : HKind} : ∀ (ops : List HOp) (s : HSt), tameFrom K s ops = true →
    ∀ l o r, ops = l ++ o :: r → Tame K (l.foldl (HSt.step K) s) o := by
  intro ops
  induction ops with
  | nil => intro s _ l o r e; cases l <;> cases e
  | cons x ops ih =>
    intro s h l o r e
    have tl : tameFrom K (s.step K x) ops = true ∧ Tame K s x := by
      cases x with
      | fire i b =>
        simp only [tameFrom, Bool.and_eq_true] at h
        refine ⟨h.2, ?_⟩
        cases K with
        | heap => trivial
        | list => simpa [Tame] using h.1
        | set => simpa [Tame] using h.1
      | _ => exact ⟨h, trivial⟩
    cases l with
    | nil => cases e; exact tl.2
    | cons y l => cases e; exact ih _ tl.1 l o r rfl

/-- Histories in which a client keeps handles of fired events, a sink of a heap or a list runs the simulator, one of a list or a set throws,
and memory runs out. -/
def holdDemo : HKind → List HOp
  | .heap =>
    [.schedule .ok, .schedule .ok, .schedule .noHandle, .schedule .ok, .drop 0, .copy 0, .fire 0 true, .schedule .ok, .fire 1 false, .ret 0,
     .use 1, .ret 0, .next 0, .use 0, .destroy, .use 0, .drop 0, .drop 0, .drop 0, .drop 0, .drop 0]
  | .list =>
    [.schedule .ok, .schedule .ok, .schedule .noHandle, .schedule .noNode, .drop 0, .copy 0, .fire 0 true, .schedule .ok, .fire 1 true, .ret 0,
     .use 1, .ret 0, .next 0, .fire 0 false, .throw, .use 0, .destroy, .use 0, .drop 0, .drop 0, .drop 0, .drop 0]
  | .set =>
    [.schedule .ok, .schedule .ok, .schedule .noHandle, .schedule .noNode, .drop 0, .copy 0, .fire 0 true, .schedule .ok, .ret 0,
     .use 1, .next 0, .fire 0 false, .throw, .use 0, .destroy, .use 0, .drop 0, .drop 0, .drop 0, .drop 0]

example (K : HKind) : TameHist K (holdDemo K) ∧ (∀ o ∈ holdDemo K, ¬ Loses K o) ∧ (HSt.run K (holdDemo K)).up = false ∧
    (HSt.run K (holdDemo K)).user = [] ∧ (HSt.run K (holdDemo K)).frames = [] ∧ (HSt.run K (holdDemo K)).cells.length = 4 := by
  refine ⟨tame_from _ _ ?_, ?_, ?_, ?_, ?_, ?_⟩
  · cases K <;> rfl
  · cases K <;> simp [holdDemo, Loses]
  all_goals cases K <;> rfl

/-- Before the pointers are dropped some handles are alive and some are not. -/
example (K : HKind) : (HSt.run K ((holdDemo K).dropLast.dropLast)).cells ≠ (HSt.run K (holdDemo K)).cells := by
  cases K <;> decide

end Verif.Sim
