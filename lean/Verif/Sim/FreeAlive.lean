import Verif.Sim.FreeProps

/-!
C156, sinks: no sink is called while it is being destroyed, nor destroyed while it is being called.  The latter is what the model takes for
granted of the client (`Verif.Sim.Free`: somebody else holds a sink that is being called; if not, see C136); it is shown here to hold at every
moment of every execution, so that nothing in C155 and C156 is about programs for which it fails.

In the calls under way, `.body (.sink k) _ _` is the call of the sink of the event `k`; `.cancelled id` is `Cancel` of the event with the number
`id`, and `.fired k` is `Fire` of the event `k`, while they release the sink, whose destructor is running.
-/
namespace Verif.Sim
section
variable {σ C : Type}

/-- No sink is being called and being destroyed.  (Specification; no code.) -/
def AliveF (fs : List (FFrame σ)) : Prop :=
  ∀ k s m, .body (.sink k) s m ∈ fs → .cancelled k.id ∉ fs ∧ ∀ k', .fired k' ∈ fs → k'.id ≠ k.id

theorem mem_calling {fs : List (FFrame σ)} {k : Key} {s : Script σ} {m : Nat} (h : .body (.sink k) s m ∈ fs) : k.id ∈ calling fs := by
  induction fs with
  | nil => cases h
  | cons f fs ih =>
    rcases List.mem_cons.1 h with rfl | h
    · simp [calling]
    · have := ih h
      cases f with
      | body who s' m' => cases who <;> simp [calling, this]
      | _ => simpa [calling] using this

theorem mem_dying {fs : List (FFrame σ)} {id : Nat} (h : .cancelled id ∈ fs ∨ ∃ k, .fired k ∈ fs ∧ k.id = id) : id ∈ dying fs := by
  induction fs with
  | nil => rcases h with h | ⟨k, h, -⟩ <;> cases h
  | cons f fs ih =>
    rcases h with h | ⟨k, h, e⟩
    · rcases List.mem_cons.1 h with rfl | h
      · simp [dying]
      · have := ih (.inl h)
        cases f <;> simp [dying, this]
    · rcases List.mem_cons.1 h with rfl | h
      · simp [dying, e]
      · have := ih (.inr ⟨k, h, e⟩)
        cases f <;> simp [dying, this]

theorem AliveF.sub {fs gs : List (FFrame σ)} (h : AliveF fs) (hs : ∀ f ∈ gs, f ∈ fs) : AliveF gs := fun k s m hm =>
  ⟨fun hc => (h k s m (hs _ hm)).1 (hs _ hc), fun k' hk => (h k s m (hs _ hm)).2 k' (hs _ hk)⟩

/-- A frame that neither calls a sink nor destroys one.  (Specification; no code.) -/
def PlainF : FFrame σ → Prop
  | .body (.sink _) _ _ => False
  | .cancelled _ => False
  | .fired _ => False
  | _ => True

theorem AliveF.plain {fs : List (FFrame σ)} {f : FFrame σ} (h : AliveF fs) (hf : PlainF f) : AliveF (f :: fs) := by
  intro k s m hm
  have go : ∀ {g}, g ∈ f :: fs → ¬ PlainF g → g ∈ fs := by
    intro g hg hp
    rcases List.mem_cons.1 hg with rfl | hg
    · exact absurd hf hp
    · exact hg
  have hm' := go hm (by simp [PlainF])
  exact ⟨fun hc => (h k s m hm').1 (go hc (by simp [PlainF])), fun k' hk => (h k s m hm').2 k' (go hk (by simp [PlainF]))⟩

theorem AliveF.call {fs : List (FFrame σ)} {k : Key} (h : AliveF fs) (hd : k.id ∉ dying fs) (s : Script σ) (m : Nat) :
    AliveF (.body (.sink k) s m :: fs) := by
  intro k0 s0 m0 hm
  rcases List.mem_cons.1 hm with e | hm
  · cases e
    refine ⟨fun hc => ?_, fun k' hk e => ?_⟩
    · rcases List.mem_cons.1 hc with e | hc
      · cases e
      · exact hd (mem_dying (.inl hc))
    · rcases List.mem_cons.1 hk with e | hk
      · cases e
      · exact hd (mem_dying (.inr ⟨k', hk, e⟩))
  · refine ⟨fun hc => ?_, fun k' hk => ?_⟩
    · rcases List.mem_cons.1 hc with e | hc
      · cases e
      · exact (h k0 s0 m0 hm).1 hc
    · rcases List.mem_cons.1 hk with e | hk
      · cases e
      · exact (h k0 s0 m0 hm).2 k' hk

theorem AliveF.cancelled {fs : List (FFrame σ)} {id : Nat} (h : AliveF fs) (hd : id ∉ calling fs) : AliveF (.cancelled id :: fs) := by
  intro k0 s0 m0 hm
  rcases List.mem_cons.1 hm with e | hm
  · cases e
  · refine ⟨fun hc => ?_, fun k' hk => ?_⟩
    · rcases List.mem_cons.1 hc with e | hc
      · injection e with e; rw [← e] at hd; exact hd (mem_calling hm)
      · exact (h k0 s0 m0 hm).1 hc
    · rcases List.mem_cons.1 hk with e | hk
      · cases e
      · exact (h k0 s0 m0 hm).2 k' hk

theorem AliveF.fired {fs : List (FFrame σ)} {k : Key} (h : AliveF fs) (hd : k.id ∉ calling fs) : AliveF (.fired k :: fs) := by
  intro k0 s0 m0 hm
  rcases List.mem_cons.1 hm with e | hm
  · cases e
  · refine ⟨fun hc => ?_, fun k' hk e => ?_⟩
    · rcases List.mem_cons.1 hc with e | hc
      · cases e
      · exact (h k0 s0 m0 hm).1 hc
    · rcases List.mem_cons.1 hk with e' | hk
      · cases e'; rw [e] at hd; exact hd (mem_calling hm)
      · exact (h k0 s0 m0 hm).2 k' hk e

theorem AliveF.unwind {fs : List (FFrame σ)} (h : AliveF fs) : AliveF (unwind fs) := by
  induction fs with
  | nil => exact h
  | cons f fs ih =>
    have ht : AliveF fs := h.sub fun g hg => List.mem_cons_of_mem _ hg
    have dead : AliveF ([.dead] : List (FFrame σ)) := by intro k s m hm; simp at hm
    cases f with
    | guard => exact ht
    | body who s m => exact ih ht
    | mid t => exact ih ht
    | loop t => exact ih ht
    | last => exact ih ht
    | cancelled id => exact dead
    | fired k => exact dead
    | dead => exact h

theorem stepF_apart (I : Impl C) (P : FProg σ) (s : FState σ C) (h : AliveF s.1) : AliveF (stepF I P s).1 := by
  obtain ⟨fs, w⟩ := s
  have own : ∀ (e : Entry) (gs : List (FFrame σ)) (w : World σ C), AliveF gs → AliveF (World.ownF P e gs w).1 :=
    fun e gs w hg => hg.plain trivial
  have enter : ∀ (t : Option Int) (gs : List (FFrame σ)) (w : World σ C), AliveF gs → AliveF (World.enterF I P t gs w).1 := by
    intro t gs w hg
    unfold World.enterF
    split
    · exact hg.unwind
    · split
      · exact hg.unwind
      · split
        · exact hg.plain trivial
        · exact own _ _ _ (hg.plain trivial)
  have guard : ∀ (c : Bool) (gs : List (FFrame σ)), AliveF gs → AliveF (guarded c gs) := by
    intro c gs hg
    unfold guarded
    split
    · exact hg.plain trivial
    · exact hg
  cases fs with
  | nil => exact h
  | cons f fs =>
    have ht : AliveF fs := h.sub fun g hg => List.mem_cons_of_mem _ hg
    cases f with
    | body who s n =>
      simp only [stepF]
      have hb : AliveF (.body who s (n + 1) :: fs) := by
        cases who with
        | client => exact ht.plain trivial
        | sink k =>
          intro k0 s0 m0 hm
          have hm' : ∃ s1 m1, FFrame.body (.sink k0) s1 m1 ∈ (.body (.sink k) s n :: fs) := by
            rcases List.mem_cons.1 hm with e | hm
            · cases e; exact ⟨s, n, by simp⟩
            · exact ⟨s0, m0, List.mem_cons_of_mem _ hm⟩
          obtain ⟨s1, m1, hm'⟩ := hm'
          have := h k0 s1 m1 hm'
          refine ⟨fun hc => this.1 ?_, fun k' hk => this.2 k' ?_⟩
          · rcases List.mem_cons.1 hc with e | hc
            · cases e
            · exact List.mem_cons_of_mem _ hc
          · rcases List.mem_cons.1 hk with e | hk
            · cases e
            · exact List.mem_cons_of_mem _ hk
      split
      · rename_i o ho
        cases o with
        | act a =>
          cases a with
          | cancel id =>
            simp only [World.opF, World.cancelF]
            split
            · split
              · exact hb.plain trivial
              · split
                · exact hb
                · rename_i hn; exact (hb.cancelled hn).plain trivial
            · exact hb
          | _ => exact hb
        | run c t => exact enter _ _ _ (guard _ _ hb)
        | runFor c dt => exact enter _ _ _ (guard _ _ hb)
        | throw => exact hb.unwind
      · split
        · exact ht
        · simp only [World.returnF]
          split
          · split
            · exact ht
            · rename_i hn; exact (ht.fired hn).plain trivial
          · exact ht
    | mid t => exact own _ _ _ (ht.plain trivial)
    | loop t =>
      simp only [stepF, World.loopF]
      split
      · exact own _ _ _ (ht.plain trivial)
      · split
        · exact own _ _ _ (ht.plain trivial)
        · split
          · exact own _ _ _ (ht.plain trivial)
          · have hl := ht.plain (f := .loop t) trivial
            simp only [World.callF]
            split
            · split
              · exact hl.plain trivial
              · rename_i hn; exact hl.call hn _ _
            · exact hl
    | last =>
      simp only [stepF]
      split
      · exact own _ _ _ ht
      · exact ht
    | guard => exact ht
    | cancelled id => exact ht
    | fired k => exact ht
    | dead => exact h

/-- **C156, sinks.**  With any scheduler, whatever sinks and destructors do: no sink is called while it is being destroyed.  (That no sink is
destroyed while it is being called is an assumption about the client; it holds throughout.) -/
theorem C156_apart (I : Impl C) (P : FProg σ) (u : Script σ) (n : Nat) (k : Key) (s : Script σ) (m : Nat)
    (h : .body (.sink k) s m ∈ (execF I P u n).1) :
    .cancelled k.id ∉ (execF I P u n).1 ∧ ∀ k', .fired k' ∈ (execF I P u n).1 → k'.id ≠ k.id := by
  have key : ∀ n (s : FState σ C), AliveF s.1 → AliveF (stepsF I P n s).1 := by
    intro n
    induction n with
    | zero => exact fun s h => h
    | succ n ih => exact fun s h => ih _ (stepF_apart I P s h)
  refine key n _ ?_ k s m h
  intro k s m hm
  simp at hm

/-- A program for the example: the sink 0 cancels the event 1, and then its own (somebody holds it); the destructor of that sink schedules an event. -/
def canceller : FProg Nat where
  sink := fun k _ => scriptOf (if k = 0 then [.act (.cancel 1), .act (.cancel 0)] else [])
  own := fun _ _ => scriptOf []
  dtor := fun _ k _ => scriptOf (if k = 1 then [.act (.at 20 (some 5))] else [])

/-! The sink of the event 0 is being called while that of the event 1 is being destroyed. -/
example : let s := fun m => execF (heapImpl sortAlg) canceller (scriptOf [.act (.at 3 (some 0)), .act (.at 9 (some 1)), .run true none]) m
    calling (s 10).1 = [0] ∧ dying (s 10).1 = [1] := by decide

end
end Verif.Sim
