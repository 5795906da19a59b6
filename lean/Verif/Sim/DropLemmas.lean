import Verif.Sim.FreeLemmas

/-! Lemmas about the destructors of sinks of events. -/
set_option linter.unusedVariables false
namespace Verif.Sim
section
variable {σ C : Type}

/-- The program has done something undefined, or was terminated. -/
def FFrame.isDead : FFrame σ → Prop
  | .dead => True
  | _ => False

/-- The sink of an event that is being cancelled is being destroyed. -/
def FFrame.isCancelled : FFrame σ → Prop
  | .cancelled _ => True
  | _ => False

/-- An exception thrown on top of the calls `fs` does not reach a destructor. -/
def Lets : List (FFrame σ) → Prop
  | [] => True
  | .guard :: _ => True
  | .body _ _ _ :: fs => Lets fs
  | .mid _ :: fs => Lets fs
  | .loop _ :: fs => Lets fs
  | .last :: fs => Lets fs
  | .cancelled _ :: _ => False
  | .fired _ :: _ => False
  | .dead :: _ => False

/-- No run was started while the sink of a cancelled event was being destroyed. -/
def Still : List (FFrame σ) → Prop
  | [] => True
  | .mid _ :: fs => (∀ f ∈ fs, ¬ f.isCancelled) ∧ Still fs
  | .loop _ :: fs => (∀ f ∈ fs, ¬ f.isCancelled) ∧ Still fs
  | .guard :: fs => Still fs
  | .body _ _ _ :: fs => Still fs
  | .last :: fs => Still fs
  | .cancelled _ :: fs => Still fs
  | .fired _ :: fs => Still fs
  | .dead :: fs => Still fs

/-- The next operation does not cancel an event whose sink is being destroyed, nor run the simulator while the sink of a cancelled event is
being destroyed; and no exception reaches a destructor. -/
def GentleF (I : Impl C) (s : FState σ C) : Prop :=
  match s.1 with
  | .body _ sc n :: fs =>
    match sc n s.2.view with
    | some (.act (.cancel id)) => id ∉ dying fs
    | some (.run c _) => (∀ f ∈ fs, ¬ f.isCancelled) ∧ (s.2.wired = false ∨ I.size s.2.queue = 0 → Lets (guarded c fs))
    | some (.runFor c _) => (∀ f ∈ fs, ¬ f.isCancelled) ∧ (s.2.wired = false ∨ I.size s.2.queue = 0 → Lets (guarded c fs))
    | some .throw => Lets fs
    | _ => True
  | _ => True

theorem lets_mem : ∀ (fs : List (FFrame σ)), Lets fs → ∀ f ∈ unwind fs, f ∈ fs
  | [], _, _, h => h
  | .guard :: _, _, _, h => List.mem_cons_of_mem _ h
  | .body _ _ _ :: fs, l, f, h => List.mem_cons_of_mem _ (lets_mem fs l f h)
  | .mid _ :: fs, l, f, h => List.mem_cons_of_mem _ (lets_mem fs l f h)
  | .loop _ :: fs, l, f, h => List.mem_cons_of_mem _ (lets_mem fs l f h)
  | .last :: fs, l, f, h => List.mem_cons_of_mem _ (lets_mem fs l f h)
  | .cancelled _ :: _, l, _, _ => l.elim
  | .fired _ :: _, l, _, _ => l.elim
  | .dead :: _, l, _, _ => l.elim

theorem lets_still : ∀ (fs : List (FFrame σ)), Lets fs → Still fs → Still (unwind fs)
  | [], _, h => h
  | .guard :: _, _, h => h
  | .body _ _ _ :: fs, l, h => lets_still fs l h
  | .mid _ :: fs, l, h => lets_still fs l h.2
  | .loop _ :: fs, l, h => lets_still fs l h.2
  | .last :: fs, l, h => lets_still fs l h
  | .cancelled _ :: _, l, _ => l.elim
  | .fired _ :: _, l, _ => l.elim
  | .dead :: _, l, _ => l.elim

theorem dying_sub : ∀ (fs : List (FFrame σ)) (id : Nat), id ∈ dying fs → (∃ f ∈ fs, f.isCancelled) ∨ id ∈ fcalled fs
  | [], _, h => by cases h
  | .cancelled _ :: _, _, _ => .inl ⟨_, List.mem_cons_self, trivial⟩
  | .fired k :: fs, id, h => by
    rcases List.mem_cons.mp h with rfl | h
    · exact .inr List.mem_cons_self
    · rcases dying_sub fs id h with ⟨f, m, c⟩ | m
      · exact .inl ⟨f, List.mem_cons_of_mem _ m, c⟩
      · exact .inr (List.mem_cons_of_mem _ m)
  | .body (.sink k) _ _ :: fs, id, h => by
    rcases dying_sub fs id h with ⟨f, m, c⟩ | m
    · exact .inl ⟨f, List.mem_cons_of_mem _ m, c⟩
    · exact .inr (List.mem_cons_of_mem _ m)
  | .body .client _ _ :: fs, id, h => (dying_sub fs id h).imp_left fun ⟨f, m, c⟩ => ⟨f, List.mem_cons_of_mem _ m, c⟩
  | .mid _ :: fs, id, h => (dying_sub fs id h).imp_left fun ⟨f, m, c⟩ => ⟨f, List.mem_cons_of_mem _ m, c⟩
  | .loop _ :: fs, id, h => (dying_sub fs id h).imp_left fun ⟨f, m, c⟩ => ⟨f, List.mem_cons_of_mem _ m, c⟩
  | .last :: fs, id, h => (dying_sub fs id h).imp_left fun ⟨f, m, c⟩ => ⟨f, List.mem_cons_of_mem _ m, c⟩
  | .guard :: fs, id, h => (dying_sub fs id h).imp_left fun ⟨f, m, c⟩ => ⟨f, List.mem_cons_of_mem _ m, c⟩
  | .dead :: fs, id, h => (dying_sub fs id h).imp_left fun ⟨f, m, c⟩ => ⟨f, List.mem_cons_of_mem _ m, c⟩

/-- Nothing undefined has happened. -/
structure Alive (fs : List (FFrame σ)) : Prop where
  alive : ∀ f ∈ fs, ¬ f.isDead
  still : Still fs

theorem Alive.cons {fs : List (FFrame σ)} (h : Alive fs) {f : FFrame σ} (hd : ¬ f.isDead) (hs : Still (f :: fs)) : Alive (f :: fs) := by
  refine ⟨fun g hg => ?_, hs⟩
  rcases List.mem_cons.mp hg with rfl | hg
  · exact hd
  · exact h.alive g hg

theorem Alive.body {fs : List (FFrame σ)} (h : Alive fs) (who : Who) (sc : Script σ) (n : Nat) : Alive (.body who sc n :: fs) :=
  h.cons (fun x => x) h.still

theorem Alive.unwind {fs : List (FFrame σ)} (h : Alive fs) (l : Lets fs) : Alive (unwind fs) :=
  ⟨fun f m => h.alive f (lets_mem fs l f m), lets_still fs l h.still⟩

theorem Alive.guarded {fs : List (FFrame σ)} (h : Alive fs) (c : Bool) : Alive (guarded c fs) := by
  cases c
  · exact h
  · exact h.cons (fun x => x) h.still

theorem Alive.enter (I : Impl C) (P : FProg σ) (t : Option Int) {fs : List (FFrame σ)} {w : World σ C} (h : Alive fs)
    (hc : ∀ f ∈ fs, ¬ f.isCancelled) (hl : w.wired = false ∨ I.size w.queue = 0 → Lets fs) : Alive (w.enterF I P t fs).1 := by
  have m : Alive (.mid t :: fs) := h.cons (fun x => x) ⟨hc, h.still⟩
  unfold World.enterF
  split
  · rename_i hw
    exact h.unwind (hl (.inl (by simpa using hw)))
  · split
    · rename_i hz
      exact h.unwind (hl (.inr hz))
    · split
      · exact m
      · exact m.body _ _ _

theorem cancelled_guarded {c : Bool} {who : Who} {sc : Script σ} {n : Nat} {fs : List (FFrame σ)} (h : ∀ f ∈ fs, ¬ f.isCancelled) :
    ∀ f ∈ guarded c (.body who sc n :: fs), ¬ f.isCancelled := by
  have h1 : ∀ f ∈ FFrame.body who sc n :: fs, ¬ f.isCancelled := by
    intro f hf
    rcases List.mem_cons.mp hf with rfl | hf
    · exact fun x => x
    · exact h f hf
  cases c
  · exact h1
  · intro f hf
    rcases List.mem_cons.mp hf with rfl | hf
    · exact fun x => x
    · exact h1 f hf

theorem lets_guarded {c : Bool} {who : Who} {sc : Script σ} {n : Nat} {fs : List (FFrame σ)} (h : Lets (guarded c fs)) :
    Lets (guarded c (.body who sc n :: fs)) := by
  cases c
  · exact h
  · exact trivial

theorem stepF_alive (A : HeapAlg) (P : FProg σ) (s : FState σ (List Key)) (hs : NJ A (fcalled s.1) s.2) (hg : GentleF (heapImpl A) s)
    (h : Alive s.1) : Alive (stepF (heapImpl A) P s).1 := by
  obtain ⟨fs, w⟩ := s
  cases fs with
  | nil => exact h
  | cons f fs =>
    have tl : Still fs → Alive fs := fun x => ⟨fun g m => h.alive g (List.mem_cons_of_mem _ m), x⟩
    cases f with
    | body who sc n =>
      have t := tl h.still
      simp only [stepF]
      simp only [GentleF] at hg
      cases ho : sc n w.view with
      | some o =>
        rw [ho] at hg
        have h1 := t.body who sc (n + 1)
        cases o with
        | act a =>
          cases a with
          | cancel id =>
            simp only [World.opF, World.cancelF]
            split
            · split
              · rename_i hd
                exact absurd hd hg
              · split
                · exact h1
                · exact (h1.cons (f := .cancelled id) (fun x => x) h1.still).body _ _ _
            · exact h1
          | _ => exact h1
        | run c t' => exact (h1.guarded c).enter _ P t' (cancelled_guarded hg.1) (fun x => lets_guarded (hg.2 x))
        | runFor c dt => exact (h1.guarded c).enter _ P _ (cancelled_guarded hg.1) (fun x => lets_guarded (hg.2 x))
        | throw => exact h1.unwind hg
      | none =>
        cases who with
        | client => exact t
        | sink k =>
          simp only [World.returnF]
          split
          · split
            · exact t
            · exact (t.cons (f := .fired k) (fun x => x) t.still).body _ _ _
          · exact t
    | mid t =>
      have x := (tl h.still.2).cons (f := .loop t) (fun x => x) h.still
      exact x.body _ _ _
    | last =>
      have x := tl h.still
      simp only [stepF]
      split
      · exact x.body _ _ _
      · exact x
    | guard => exact tl h.still
    | cancelled id => exact tl h.still
    | fired k => exact tl h.still
    | dead => exact h
    | loop t =>
      have x := tl h.still.2
      have leave : ∀ w' : World σ (List Key), Alive (w'.leaveF P fs).1 := fun w' =>
        (x.cons (f := .last) (fun x => x) x.still).body _ _ _
      simp only [stepF, World.loopF]
      split
      · exact leave _
      · cases hk : (heapImpl A).front w.queue with
        | none => exact leave _
        | some k =>
          dsimp only
          split
          · exact leave _
          · simp only [World.callF]
            split
            · split
              · rename_i hd
                rcases dying_sub fs k.id hd with ⟨f, m, c⟩ | m
                · exact absurd c (h.still.1 f m)
                · obtain ⟨y, ym, ey⟩ := (hs.2.hit k.id m).1
                  have := hs.1.2.fresh k ((heapSch A).front_mem _ _ hk) y ym
                  rw [ey] at this; cases this
              · exact h.body _ _ _
            · exact h

theorem execF_alive (A : HeapAlg) (P : FProg σ) (u : Script σ) (n : Nat)
    (hg : ∀ m, m < n → GentleF (heapImpl A) (execF (heapImpl A) P u m)) : Alive (execF (heapImpl A) P u n).1 := by
  induction n with
  | zero =>
    refine ⟨fun f m => ?_, trivial⟩
    rw [List.mem_singleton.mp m]
    exact fun x => x
  | succ n ih =>
    have e : execF (heapImpl A) P u (n + 1) = stepF (heapImpl A) P (execF (heapImpl A) P u n) := stepsF_succ _ _ n _
    rw [e]
    exact stepF_alive A P _ (execF_keeps A P u n) (hg n (by omega)) (ih fun m hm => hg m (by omega))

end
end Verif.Sim
