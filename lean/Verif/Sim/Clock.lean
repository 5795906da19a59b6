import Verif.Sim.Props

/-!
Property C27, what `Run()` does to the clock in every history, including those with cancelled events
(/repo/simulation/simulator.h 114-140).
-/
set_option linter.unusedVariables false
namespace Verif.Sim
section
variable {σ C : Type}

/-- What moved the clock from `now` to `now'` while `body` was appended to a history, which is now `tr`: nothing,
the last event fired, or a cancelled event, which was not fired. -/
def Moved (now now' : Int) (body tr : List (Int × Entry)) : Prop :=
  (fires body = [] ∧ now' = now) ∨ (fires body).getLast?.map Key.t = some now' ∨
    ∃ id, (∃ n, (n, Entry.sched id now') ∈ tr) ∧ (∃ n, (n, Entry.cancel id) ∈ tr) ∧ ∀ n t, (n, Entry.fire id t) ∉ tr

theorem not_fired_of_fires {l : List (Int × Entry)} (h : fires l = []) (n : Int) (id : Nat) (t : Int) :
    (n, Entry.fire id t) ∉ l := by
  intro hm
  have : (⟨t, id⟩ : Key) ∈ fires l := mem_fires.2 ⟨n, hm⟩
  rw [h] at this; cases this

theorem runLoop_clock (P : Prog σ) (n : Nat) : ∀ w : World σ (List Key), Inv (w.st none) →
    ∃ body, (World.runLoop specImpl P n w).1.view.trace = w.view.trace ++ body ∧
      w.view.now ≤ (World.runLoop specImpl P n w).1.view.now ∧
      (∀ k ∈ fires body, w.view.now ≤ k.t ∧ k.t ≤ (World.runLoop specImpl P n w).1.view.now) ∧
      Moved w.view.now (World.runLoop specImpl P n w).1.view.now body (World.runLoop specImpl P n w).1.view.trace := by
  induction n with
  | zero => intro w _; exact ⟨[], by simp [World.runLoop], Int.le_refl _, (fun _ h => by cases h), .inl ⟨rfl, rfl⟩⟩
  | succ n ih =>
    intro w hi
    simp only [World.runLoop]
    split
    · exact ⟨[], by simp, Int.le_refl _, (fun _ h => by cases h), .inl ⟨rfl, rfl⟩⟩
    · rw [show specImpl.front w.queue = w.queue.head? from rfl]
      cases hq : w.queue.head? with
      | none => exact ⟨[], by simp, Int.le_refl _, (fun _ h => by cases h), .inl ⟨rfl, rfl⟩⟩
      | some k =>
        have hi1 := inv_steps (steps_next true P w hi k hq) hi
        obtain ⟨b2, h2, hle, hb2, hm2⟩ := ih _ hi1
        have hif := inv_steps (steps_runLoop true P n _ hi1) hi1
        have hnow : ((w.setNow k.t).fireAndRemove specImpl P).view.now = k.t := fireAndRemove_now _ _ _
        rw [hnow] at hle hb2 hm2
        have hk := (head_le hi hq).2
        dsimp only
        by_cases hc : Cancelled w.view k.id
        · obtain ⟨b1, h1, hb1⟩ := ext_next specImpl P w k hq
          have hkq : k ∈ (w.st none).q := List.mem_of_head? hq
          obtain ⟨h, eh, ht⟩ := hi.keys k hkq
          have hh := hi.handles k.id h eh
          have hnf : ¬ Fired w.view k.id := hh.inq (by rw [key_eta ht]; exact hkq)
          obtain ⟨m, hcm⟩ := hc
          have htr : (World.runLoop specImpl P n ((w.setNow k.t).fireAndRemove specImpl P)).1.view.trace =
              w.view.trace ++ (b1 ++ b2) := by rw [h2, h1.trace, List.append_assoc]
          have honce : (w.view.trace ++ (b1 ++ b2)).Pairwise NotBefore := htr ▸ hif.once
          have hnf' : ∀ a t, (a, Entry.fire k.id t) ∉ w.view.trace ++ (b1 ++ b2) := by
            intro a t hm
            rcases List.mem_append.1 hm with hm | hm
            · exact hnf ⟨a, t, hm⟩
            · exact ((List.pairwise_append.1 honce).2.2 _ hcm _ hm k.id t rfl).1 rfl
          have hb1' : b1 = [] := by
            rcases hb1 with hb1 | ⟨l, hb1, _⟩
            · exact hb1
            · exact absurd (by rw [hb1]; simp) (hnf' k.t k.t)
          subst hb1'
          refine ⟨b2, by rw [htr]; rfl, by omega, fun x hx => ⟨by have := (hb2 x hx).1; omega, (hb2 x hx).2⟩, ?_⟩
          rcases hm2 with ⟨hf, hn⟩ | hl | hx
          · refine .inr (.inr ⟨k.id, ?_, ⟨m, ?_⟩, ?_⟩)
            · obtain ⟨a, ha⟩ := (hh.sched k.t).2 ht.symm
              exact ⟨a, by rw [hn, htr]; exact List.mem_append_left _ ha⟩
            · rw [htr]; exact List.mem_append_left _ hcm
            · rw [htr]; exact hnf'
          · exact .inr (.inl hl)
          · exact .inr (.inr hx)
        · obtain ⟨b1, h1, hf1⟩ := next_fires P w hi k hq hc
          refine ⟨b1 ++ b2, by rw [h2, h1, List.append_assoc], by omega, ?_, ?_⟩
          · intro x hx
            rw [fires_append, hf1] at hx
            rcases List.mem_append.1 hx with hx | hx
            · rw [List.mem_singleton] at hx; subst hx; exact ⟨hk, hle⟩
            · exact ⟨by have := (hb2 x hx).1; omega, (hb2 x hx).2⟩
          · rcases hm2 with ⟨hf, hn⟩ | hl | hx
            · refine .inr (.inl ?_)
              rw [fires_append, hf1, hf, hn]; rfl
            · refine .inr (.inl ?_)
              rw [fires_append, hf1]
              cases hfb : fires b2 with
              | nil => rw [hfb] at hl; cases hl
              | cons x xs => rw [hfb] at hl; rw [← hl]; simp [List.getLast?_cons]
            · exact .inr (.inr hx)

theorem run_clock {I : Impl C} (F : Refine (C := C) I) (P : Prog σ) (fuel : Nat) (os : List (Op σ))
    (w w' : World σ C) (hw : (World.execs I P fuel (World.init I) os).1 = w)
    (h : w.run I P fuel = .ok (w', true)) :
    ∃ l, w'.view.trace = w.view.trace ++ l ∧ w.view.now ≤ w'.view.now ∧
      (∀ k ∈ fires l, w.view.now ≤ k.t ∧ k.t ≤ w'.view.now) ∧ Moved w.view.now w'.view.now l w'.view.trace := by
  obtain ⟨v, hr, _, hl, hi, _, _⟩ := reach F P fuel os
  rw [hw] at hr
  have h1 := rel_run F P fuel hr hl
  rw [orStay_ok h] at h1
  unfold World.run at h
  split at h
  · cases h
  · split at h
    · cases h
    · rename_i hwired hsize
      have hwired' : ¬ (!v.wired) = true := by rw [← hr.wired]; exact hwired
      have hsize' : ¬ specImpl.size v.queue = 0 := by
        show ¬ v.queue.length = 0
        rw [← F.size _ _ hr.queue]; exact hsize
      unfold World.run at h1
      rw [if_neg hwired', if_neg hsize'] at h1
      simp only [World.orStay] at h1
      have hi1 := inv_steps (steps_prologue true P v) hi
      obtain ⟨hR, hL, hb⟩ := h1
      unfold World.close at hR hL hb
      by_cases hfin : (World.runLoop specImpl P fuel (v.prologue specImpl P)).2 = true
      · rw [if_pos hfin] at hR hL hb
        obtain ⟨a0, a1, ht, q, hp, hs, hc0⟩ := shape_prologue specImpl P v
        obtain ⟨a, b, ht2, qa, _, hb2⟩ := shape_epilogue specImpl P
          (World.runLoop specImpl P fuel (v.prologue specImpl P)).1
        have hqf : ∀ l, Quiet l → fires l = [] := by
          intro l hq
          unfold fires
          rw [List.filterMap_eq_nil_iff]
          rintro ⟨n, e⟩ he
          have := hq _ he
          cases e <;> first | rfl | cases this
        have htr : w'.view.trace = (World.runLoop specImpl P fuel (v.prologue specImpl P)).1.view.trace
            ++ ((World.runLoop specImpl P fuel (v.prologue specImpl P)).1.view.now, .pause) ::
              (a ++ b) := by
          rw [hR.view]; exact ht2
        obtain ⟨body, hbd, hle, hbf, hlast⟩ := runLoop_clock P fuel _ hi1
        have hnow : w'.view.now =
            (World.runLoop specImpl P fuel (v.prologue specImpl P)).1.view.now := by
          rw [hR.view]; exact epilogue_now _ _ _
        have hf0 : fires (a0 ++ (v.view.now, .run) :: a1) = [] := by
          rw [fires_append]
          have e1 : fires ((v.view.now, Entry.run) :: a1) = [] := by
            have := hqf a1 q
            unfold fires at *; rw [List.filterMap_cons]; simpa [fireKey] using this
          rw [e1]
          rcases hc0 with ⟨_, rfl⟩ | ⟨_, l, rfl, ql⟩
          · rfl
          · have := hqf l ql
            unfold fires at *; rw [List.filterMap_cons]; simpa [fireKey] using this
        have hf1 : fires (((World.runLoop specImpl P fuel (v.prologue specImpl P)).1.view.now,
            Entry.pause) :: (a ++ b)) = [] := by
          have e1 : fires (a ++ b) = [] := by
            rw [fires_append, hqf a qa]
            rcases hb2 with rfl | ⟨l, rfl, ql⟩
            · rfl
            · have := hqf l ql
              unfold fires at *; rw [List.filterMap_cons]; simpa [fireKey] using this
          unfold fires at *; rw [List.filterMap_cons]; simpa [fireKey] using e1
        have hff : fires ((a0 ++ (v.view.now, .run) :: a1) ++ body ++
            (((World.runLoop specImpl P fuel (v.prologue specImpl P)).1.view.now, .pause) :: (a ++ b))) = fires body := by
          rw [fires_append, fires_append, hf0, hf1, List.nil_append, List.append_nil]
        rw [prologue_now] at hle hbf hlast
        refine ⟨(a0 ++ (v.view.now, .run) :: a1) ++ body ++
          (((World.runLoop specImpl P fuel (v.prologue specImpl P)).1.view.now, .pause) :: (a ++ b)),
          ?_, ?_, ?_, ?_⟩
        · rw [htr, hbd, ht, hr.view]; simp
        · rw [hnow, hr.view]; exact hle
        · rw [hff, hnow, hr.view]; exact hbf
        · unfold Moved at hlast ⊢
          rw [hff, hnow, hr.view]
          rcases hlast with h0 | h0 | ⟨id, ⟨n1, m1⟩, ⟨n2, m2⟩, hn⟩
          · exact .inl h0
          · exact .inr (.inl h0)
          · refine .inr (.inr ⟨id, ⟨n1, ?_⟩, ⟨n2, ?_⟩, fun n t hm => ?_⟩)
            · rw [htr]; exact List.mem_append_left _ m1
            · rw [htr]; exact List.mem_append_left _ m2
            · rw [htr] at hm
              rcases List.mem_append.1 hm with hm | hm
              · exact hn n t hm
              · exact not_fired_of_fires hf1 n id t hm
      · rw [if_neg hfin] at hb
        exact absurd hb.symm hfin

/-- C27 in every history, with cancellations: `Run` never moves the clock back; every event it fires lies between
the old and the new `Now()`; and the new `Now()` is the old one (nothing fired), the time of the last event fired, or
the time of an event that was cancelled and never fired.  The last case is the deviation shown by `C27_fails`. -/
theorem C27_clock_partial (A : HeapAlg) (P : Prog σ) (fuel : Nat) (os : List (Op σ)) (w w' : World σ (List Key))
    (hw : (World.execs (heapImpl A) P fuel (World.init (heapImpl A)) os).1 = w) (h : w.run (heapImpl A) P fuel = .ok (w', true)) :
    ∃ l, w'.view.trace = w.view.trace ++ l ∧ w.view.now ≤ w'.view.now ∧
      (∀ k ∈ fires l, w.view.now ≤ k.t ∧ k.t ≤ w'.view.now) ∧
      ((fires l = [] ∧ w'.view.now = w.view.now) ∨ (fires l).getLast?.map Key.t = some w'.view.now ∨
        ∃ id, (∃ n, (n, Entry.sched id w'.view.now) ∈ w'.view.trace) ∧
          (∃ n, (n, Entry.cancel id) ∈ w'.view.trace) ∧ ∀ n t, (n, Entry.fire id t) ∉ w'.view.trace) :=
  run_clock (heapRefine A) P fuel os w w' hw h

/-- The same for the list scheduler. -/
theorem C27_clock_list_partial (P : Prog σ) (fuel : Nat) (os : List (Op σ)) (w w' : World σ (List Key))
    (hw : (World.execs listImpl P fuel (World.init listImpl) os).1 = w) (h : w.run listImpl P fuel = .ok (w', true)) :
    ∃ l, w'.view.trace = w.view.trace ++ l ∧ w.view.now ≤ w'.view.now ∧
      (∀ k ∈ fires l, w.view.now ≤ k.t ∧ k.t ≤ w'.view.now) ∧
      ((fires l = [] ∧ w'.view.now = w.view.now) ∨ (fires l).getLast?.map Key.t = some w'.view.now ∨
        ∃ id, (∃ n, (n, Entry.sched id w'.view.now) ∈ w'.view.trace) ∧
          (∃ n, (n, Entry.cancel id) ∈ w'.view.trace) ∧ ∀ n t, (n, Entry.fire id t) ∉ w'.view.trace) :=
  run_clock listRefine P fuel os w w' hw h

/-- The same for the set scheduler. -/
theorem C27_clock_set_partial (P : Prog σ) (fuel : Nat) (os : List (Op σ)) (w w' : World σ (List Key))
    (hw : (World.execs setImpl P fuel (World.init setImpl) os).1 = w) (h : w.run setImpl P fuel = .ok (w', true)) :
    ∃ l, w'.view.trace = w.view.trace ++ l ∧ w.view.now ≤ w'.view.now ∧
      (∀ k ∈ fires l, w.view.now ≤ k.t ∧ k.t ≤ w'.view.now) ∧
      ((fires l = [] ∧ w'.view.now = w.view.now) ∨ (fires l).getLast?.map Key.t = some w'.view.now ∨
        ∃ id, (∃ n, (n, Entry.sched id w'.view.now) ∈ w'.view.trace) ∧
          (∃ n, (n, Entry.cancel id) ∈ w'.view.trace) ∧ ∀ n t, (n, Entry.fire id t) ∉ w'.view.trace) :=
  run_clock setRefine P fuel os w w' hw h

/-- Cases of `C27_clock_list_partial`: the last event is a cancelled one here, and a fired one below. -/
example : (match ((World.execs listImpl demo 9 (World.init listImpl)
    [.act (.at 4 (some 0)), .act (.at 9 (some 0)), .act (.cancel 1)]).1.run listImpl demo 9) with
    | .ok r => decide (r.2 = true) && decide (r.1.view.now = 9) && decide (fires r.1.view.trace = [⟨4, 0⟩])
    | .error _ => false) = true := by decide

example : (match ((World.execs listImpl demo 9 (World.init listImpl)
    [.act (.at 4 (some 0)), .act (.at 9 (some 0)), .act (.cancel 0)]).1.run listImpl demo 9) with
    | .ok r => decide (r.2 = true) && decide (r.1.view.now = 9) && decide (fires r.1.view.trace = [⟨9, 1⟩])
    | .error _ => false) = true := by decide

end
end Verif.Sim
