import Verif.Sim.Steps

/-!
The abstract simulator only makes the transitions of `Step`; order invariants; shape of the history.
-/
set_option linter.unusedSimpArgs false
set_option linter.unusedVariables false
namespace Verif.Sim

section
variable {σ : Type}

/-! ### Order of firings -/

/-- The key in a `fire` entry. -/
def fireKey : Int × Entry → Option Key
  | (_, .fire id t) => some ⟨t, id⟩
  | _ => none

/-- The events fired, in order. -/
def fires (tr : List (Int × Entry)) : List Key := tr.filterMap fireKey

theorem mem_fires {tr : List (Int × Entry)} {k : Key} :
    k ∈ fires tr ↔ ∃ n, (n, Entry.fire k.id k.t) ∈ tr := by
  simp only [fires, List.mem_filterMap]
  constructor
  · rintro ⟨⟨n, e⟩, hm, he⟩
    cases e <;> simp only [fireKey] at he <;> first | (cases he; done) | skip
    cases he; exact ⟨n, hm⟩
  · rintro ⟨n, hm⟩; exact ⟨_, hm, rfl⟩

structure Ord (s : St σ) : Prop where
  sorted : Sorted (fires s.v.trace)
  before : ∀ f ∈ fires s.v.trace, ∀ k ∈ s.q, f.lt k = true
  past : ∀ f ∈ fires s.v.trace, f.t ≤ s.v.now
  clock : s.v.trace.Pairwise (fun a b => a.1 ≤ b.1)
  clockNow : ∀ e ∈ s.v.trace, e.1 ≤ s.v.now

theorem ord_init : Ord (⟨⟨0, false, true, [], []⟩, [], none⟩ : St σ) :=
  ⟨by simp [fires], by simp, by simp [fires], by simp, by simp⟩

theorem clock_log {v : View σ} {e : Entry} (h1 : v.trace.Pairwise (fun a b => a.1 ≤ b.1))
    (h2 : ∀ e ∈ v.trace, e.1 ≤ v.now) :
    (v.trace ++ [(v.now, e)]).Pairwise (fun a b => a.1 ≤ b.1) ∧
    ∀ e' ∈ v.trace ++ [(v.now, e)], e'.1 ≤ v.now := by
  constructor
  · refine List.pairwise_append.mpr ⟨h1, List.pairwise_singleton _ _, ?_⟩
    intro a ha b hb
    simp only [List.mem_singleton] at hb; subst hb; exact h2 a ha
  · intro e' he'
    rcases List.mem_append.mp he' with h | h
    · exact h2 e' h
    · simp only [List.mem_singleton] at h; subst h; exact Int.le_refl _

theorem fires_log_other {v : View σ} {e : Entry} (he : ∀ id t, e ≠ .fire id t) :
    fires (v.trace ++ [(v.now, e)]) = fires v.trace := by
  unfold fires
  rw [List.filterMap_append]
  have : List.filterMap fireKey [(v.now, e)] = [] := by
    cases e <;> first | rfl | exact absurd rfl (he _ _)
  rw [this, List.append_nil]

theorem ord_step {s s' : St σ} (hst : Step false s s') (hi : Inv s) (h : Ord s) : Ord s' := by
  cases hst with
  | sched v q cur t x ht =>
    have hc := clock_log (e := .sched v.handles.length t) h.clock h.clockNow
    have hf : fires (v.trace ++ [(v.now, .sched v.handles.length t)]) = fires v.trace :=
      fires_log_other (by intro _ _ h; cases h)
    refine ⟨by rw [View.log, hf]; exact h.sorted, ?_, by rw [View.log, hf]; exact h.past, hc.1, hc.2⟩
    intro f hfm k hk
    rw [View.log, hf] at hfm
    rcases (mem_ins _ _ _).mp hk with rfl | hk
    · have h1 := h.past f hfm
      obtain ⟨n, hm⟩ := mem_fires.mp hfm
      have h2 := hi.bound f.id (.inl ⟨n, f.t, hm⟩)
      rw [Key.lt_iff]; simp only at *; omega
    · exact h.before f hfm k hk
  | cancel v q cur id hid =>
    have hc := clock_log (e := .cancel id) h.clock h.clockNow
    have hf : fires (v.trace ++ [(v.now, .cancel id)]) = fires v.trace :=
      fires_log_other (by intro _ _ h; cases h)
    exact ⟨by rw [View.log, hf]; exact h.sorted, by rw [View.log, hf]; exact h.before,
      by rw [View.log, hf]; exact h.past, hc.1, hc.2⟩
  | note v q cur e s p he hfin =>
    have hc := clock_log (e := e) h.clock h.clockNow
    have hf : fires (v.trace ++ [(v.now, e)]) = fires v.trace :=
      fires_log_other (by rintro _ _ rfl; cases he)
    exact ⟨by rw [View.log, hf]; exact h.sorted, by rw [View.log, hf]; exact h.before,
      by rw [View.log, hf]; exact h.past, hc.1, hc.2⟩
  | flags v q cur s p => exact ⟨h.sorted, h.before, h.past, h.clock, h.clockNow⟩
  | fireBegin v q k t x r hk hnow =>
    have hc := clock_log (e := .fire k.id k.t) h.clock h.clockNow
    have hf : fires (v.trace ++ [(v.now, .fire k.id k.t)]) = fires v.trace ++ [k] := by
      unfold fires; rw [List.filterMap_append]; rfl
    have hsq := List.pairwise_cons.mp hi.sorted
    refine ⟨?_, ?_, ?_, hc.1, hc.2⟩
    · rw [View.log, hf]
      refine List.pairwise_append.mpr ⟨h.sorted, List.pairwise_singleton _ _, ?_⟩
      intro a ha b hb
      simp only [List.mem_singleton] at hb; subst hb
      exact h.before a ha b (by simp)
    · rw [View.log, hf]
      intro f hfm y hy
      rcases List.mem_append.mp hfm with hfm | hfm
      · exact h.before f hfm y (by simp [hy])
      · simp only [List.mem_singleton] at hfm; subst hfm; exact hsq.1 y hy
    · rw [View.log, hf]
      intro f hfm
      rcases List.mem_append.mp hfm with hfm | hfm
      · exact h.past f hfm
      · simp only [List.mem_singleton] at hfm; subst hfm; simp only; omega
  | fireEnd v q k =>
    have hc := clock_log (e := .done k.id) h.clock h.clockNow
    have hf : fires (v.trace ++ [(v.now, .done k.id)]) = fires v.trace :=
      fires_log_other (by intro _ _ h; cases h)
    exact ⟨by rw [View.log, hf]; exact h.sorted, by rw [View.log, hf]; exact h.before,
      by rw [View.log, hf]; exact h.past, hc.1, hc.2⟩
  | drop v q k t r hk =>
    exact ⟨h.sorted, fun f hf y hy => h.before f hf y (by simp [hy]), h.past, h.clock, h.clockNow⟩
  | clock v q t ht hb =>
    have hle : v.now ≤ t := by rcases hb with h | h; cases h; exact h
    exact ⟨h.sorted, h.before, fun f hf => Int.le_trans (h.past f hf) hle, h.clock,
      fun e he => Int.le_trans (h.clockNow e he) hle⟩

theorem ord_steps {s s' : St σ} (hst : Steps false s s') (hi : Inv s) (h : Ord s) : Ord s' := by
  induction hst with
  | refl => exact h
  | tail hss hs ih => exact ord_step hs (inv_steps hss hi) ih

/-! ### The end notification -/

/-- Every event scheduled so far has been fired or cancelled. -/
def AllGone (tr : List (Int × Entry)) : Prop :=
  ∀ m id t, (m, Entry.sched id t) ∈ tr →
    (∃ n u, (n, Entry.fire id u) ∈ tr) ∨ ∃ n, (n, Entry.cancel id) ∈ tr

/-- The end notification comes only when no event is left. -/
def FinOk (tr : List (Int × Entry)) : Prop :=
  ∀ pre n post, tr = pre ++ (n, Entry.finish) :: post → AllGone pre

theorem finOk_append {tr : List (Int × Entry)} {x : Int × Entry} (h : FinOk tr)
    (hx : x.2 = .finish → AllGone tr) : FinOk (tr ++ [x]) := by
  intro pre n post e
  rcases List.eq_nil_or_concat post with rfl | ⟨post', y, rfl⟩
  · have := List.append_inj' e rfl
    obtain ⟨rfl, h2⟩ := this
    simp at h2
    exact hx (by rw [h2])
  · rw [List.concat_eq_append, ← List.cons_append, ← List.append_assoc] at e
    have := List.append_inj' e rfl
    exact h _ _ _ this.1

theorem fin_step {b : Bool} {s s' : St σ} (hst : Step b s s') (hi : Inv s) (h : FinOk s.v.trace) :
    FinOk s'.v.trace := by
  cases hst with
  | sched v q cur t x ht => exact finOk_append h (by intro h; cases h)
  | cancel v q cur id hid => exact finOk_append h (by intro h; cases h)
  | note v q cur e s p he hfin =>
    refine finOk_append h ?_
    intro hf
    obtain ⟨rfl, rfl⟩ := hfin hf
    intro m id t hm
    have hlt := hi.bound id (.inr (.inr (.inr ⟨m, t, hm⟩)))
    have hh := hi.handles id _ (List.getElem?_eq_getElem hlt)
    exact hh.out (by simp)
  | flags v q cur s p => exact h
  | fireBegin v q k t x r hk hnow => exact finOk_append h (by intro h; cases h)
  | fireEnd v q k => exact finOk_append h (by intro h; cases h)
  | drop v q k t r hk => exact h
  | clock v q t ht hb => exact h

theorem fin_steps {b : Bool} {s s' : St σ} (hst : Steps b s s') (hi : Inv s)
    (h : FinOk s.v.trace) : FinOk s'.v.trace := by
  induction hst with
  | refl => exact h
  | tail hss hs ih => exact fin_step hs (inv_steps hss hi) ih

/-! ### The functions make these steps -/

/-- The abstract state of a world. -/
def World.st (w : World σ (List Key)) (cur : Option Key) : St σ := ⟨w.view, w.queue, cur⟩

theorem steps_scheduleAt (b : Bool) (w : World σ (List Key)) (cur : Option Key) (t : Int)
    (s : Option σ) : Steps b (w.st cur) ((w.orKeep (w.scheduleAt specImpl t s)).st cur) := by
  rcases scheduleAt_cases specImpl w t s with ⟨e, he⟩ | ⟨x, hc, hs, ht, he⟩
  · rw [he]; exact .refl _
  · rw [he]; exact .one (.sched _ _ _ t x ht)

theorem steps_perform (b : Bool) (w : World σ (List Key)) (cur : Option Key) (a : Action σ) :
    Steps b (w.st cur) ((w.perform specImpl a).st cur) := by
  cases a with
  | «at» t s => exact steps_scheduleAt b w cur t s
  | now s =>
    simp only [World.perform, World.scheduleNow]
    split
    · exact .refl _
    · exact steps_scheduleAt b w cur _ s
  | «in» dt s =>
    simp only [World.perform, World.scheduleIn]
    split
    · exact .refl _
    · exact steps_scheduleAt b w cur _ s
  | cancel id =>
    simp only [World.perform]
    split
    · exact .one (.cancel _ _ _ id (by assumption))
    · exact .refl _
  | pause => exact .one (.note w.view w.queue cur .pauseReq w.view.started true rfl (by intro h; cases h))

theorem steps_performs (b : Bool) (cur : Option Key) (as : List (Action σ)) :
    ∀ w : World σ (List Key), Steps b (w.st cur) ((w.performs specImpl as).st cur) := by
  induction as with
  | nil => intro w; exact .refl _
  | cons a as ih => intro w; exact (steps_perform b w cur a).trans (ih _)

theorem steps_notify (b : Bool) (w : World σ (List Key)) (e : Entry) (f : View σ → List (Action σ))
    (he : e.neutral = true) (hf : e = .finish → w.queue = []) :
    Steps b (w.st none) ((w.notify specImpl e f).st none) :=
  (Steps.one (.note w.view w.queue none e w.view.started w.view.paused he
    (fun h => ⟨hf h, rfl⟩))).trans
    (steps_performs b none (f (w.view.log e)) { w with view := w.view.log e })

theorem steps_fireAndRemove (b : Bool) (P : Prog σ) (w : World σ (List Key)) (hi : Inv (w.st none))
    (hnow : ∀ k, w.queue.head? = some k → w.view.now = k.t) :
    Steps b (w.st none) ((w.fireAndRemove specImpl P).st none) := by
  unfold World.fireAndRemove
  change Steps b _ (World.st (match w.queue.head? with | none => _ | some k => _) none)
  cases hq : w.queue with
  | nil => exact .refl _
  | cons k s =>
    have hs : w.st none = ⟨w.view, k :: s, none⟩ := by simp [World.st, hq]
    have hid := hi.ids (k := k) (by simp [World.st, hq])
    simp only [List.head?_cons]
    rw [hs]
    change Steps b _ (World.st (World.fire specImpl P k { w with queue := s }) none)
    unfold World.fire
    cases hh : w.view.handles[k.id]? with
    | none =>
      rw [List.getElem?_eq_none_iff] at hh; simp only [World.st] at hid; omega
    | some h =>
      obtain ⟨t, sk, r⟩ := h
      cases sk with
      | none => exact .one (.drop _ _ _ t r hh)
      | some x =>
        dsimp only
        refine (Steps.one (.fireBegin w.view s k t x r hh (hnow k (by simp [hq])))).trans ?_
        refine Steps.trans (steps_performs b (some k)
          (P.sink x (World.fireBegin { w with queue := s } k).view)
          (World.fireBegin { w with queue := s } k)) ?_
        exact .one (.fireEnd _ _ k)

theorem steps_setNow (b : Bool) (w : World σ (List Key)) (t : Int) (hk : ∀ k ∈ w.queue, t ≤ k.t)
    (hb : b = true ∨ w.view.now ≤ t) : Steps b (w.st none) ((w.setNow t).st none) :=
  .one (.clock _ _ t hk hb)

theorem steps_setPaused (b : Bool) (w : World σ (List Key)) (p : Bool) :
    Steps b (w.st none) ((w.setPaused p).st none) :=
  .one (.flags w.view w.queue none w.view.started p)

theorem head_le {w : World σ (List Key)} (hi : Inv (w.st none)) {k : Key}
    (hq : w.queue.head? = some k) : (∀ x ∈ w.queue, k.t ≤ x.t) ∧ w.view.now ≤ k.t := by
  cases hw : w.queue with
  | nil => rw [hw] at hq; cases hq
  | cons k' s =>
    rw [hw] at hq; cases hq
    have hs : Sorted (k :: s) := by rw [← hw]; exact hi.sorted
    refine ⟨?_, hi.due k (by simp [World.st, hw])⟩
    intro x hx
    rcases List.mem_cons.mp hx with rfl | hx
    · exact Int.le_refl _
    · have := (List.pairwise_cons.mp hs).1 x hx
      rw [Key.lt_iff] at this; omega

theorem steps_next (b : Bool) (P : Prog σ) (w : World σ (List Key)) (hi : Inv (w.st none)) (k : Key)
    (hq : w.queue.head? = some k) :
    Steps b (w.st none) (((w.setNow k.t).fireAndRemove specImpl P).st none) := by
  have hl := head_le hi hq
  have h1 := steps_setNow b w k.t hl.1 (.inr hl.2)
  refine h1.trans (steps_fireAndRemove b P _ (inv_steps h1 hi) ?_)
  intro k' hk'
  simp only [World.setNow] at *
  rw [hq] at hk'; cases hk'; rfl

theorem steps_runLoop (b : Bool) (P : Prog σ) (n : Nat) :
    ∀ w : World σ (List Key), Inv (w.st none) →
    Steps b (w.st none) ((World.runLoop specImpl P n w).1.st none) := by
  induction n with
  | zero => intro w hi; exact .refl _
  | succ n ih =>
    intro w hi
    simp only [World.runLoop]
    split
    · exact .refl _
    · change Steps b _ (World.st (Prod.fst (match w.queue.head? with | none => _ | some k => _)) none)
      cases hq : w.queue.head? with
      | none => exact .refl _
      | some k =>
        have h1 := steps_next b P w hi k hq
        exact h1.trans (ih _ (inv_steps h1 hi))

theorem performs_now {C : Type} (I : Impl C) (as : List (Action σ)) : ∀ w : World σ C,
    (w.performs I as).view.now = w.view.now := by
  have h1 : ∀ (w : World σ C) t s, (w.orKeep (w.scheduleAt I t s)).view.now = w.view.now := by
    intro w t s
    rcases scheduleAt_cases I w t s with ⟨e, he⟩ | ⟨x, hc, hs, ht, he⟩ <;> rw [he] <;> rfl
  have : ∀ (w : World σ C) a, (w.perform I a).view.now = w.view.now := by
    intro w a
    cases a with
    | «at» t s => exact h1 w t s
    | now s => simp only [World.perform, World.scheduleNow]; split; rfl; exact h1 _ _ _
    | «in» dt s => simp only [World.perform, World.scheduleIn]; split; rfl; exact h1 _ _ _
    | cancel id => simp only [World.perform]; split <;> rfl
    | pause => rfl
  induction as with
  | nil => intro w; rfl
  | cons a as ih => intro w; exact (ih _).trans (this w a)

theorem notify_now {C : Type} (I : Impl C) (w : World σ C) (e : Entry) (f) :
    (w.notify I e f).view.now = w.view.now := performs_now I _ _

theorem prologue_now {C : Type} (I : Impl C) (P : Prog σ) (w : World σ C) :
    (w.prologue I P).view.now = w.view.now := by
  unfold World.prologue
  rw [notify_now]
  unfold World.checkBegin
  split
  · rfl
  · exact notify_now I _ _ _

theorem epilogue_now {C : Type} (I : Impl C) (P : Prog σ) (w : World σ C) :
    (w.epilogue I P).view.now = w.view.now := by
  unfold World.epilogue World.checkEnd
  split
  · rw [notify_now, notify_now]; rfl
  · rw [notify_now]; rfl

theorem fireAndRemove_now {C : Type} (I : Impl C) (P : Prog σ) (w : World σ C) :
    (w.fireAndRemove I P).view.now = w.view.now := by
  unfold World.fireAndRemove
  split
  · rfl
  · dsimp only
    unfold World.fire
    split
    · show ((World.performs I _ _).view).now = _
      rw [performs_now]; rfl
    · rfl

theorem steps_untilLoop (b : Bool) (P : Prog σ) (t : Int) (n : Nat) :
    ∀ w : World σ (List Key), Inv (w.st none) → (b = true ∨ w.view.now ≤ t) →
    Steps b (w.st none) ((World.untilLoop specImpl P t n w).1.st none) := by
  induction n with
  | zero => intro w hi _; exact .refl _
  | succ n ih =>
    intro w hi hb
    simp only [World.untilLoop]
    split
    · exact .refl _
    · change Steps b _ (World.st (Prod.fst (match w.queue.head? with | none => _ | some k => _)) none)
      cases hq : w.queue.head? with
      | none =>
        refine steps_setNow b w t ?_ hb
        rw [List.head?_eq_none_iff.mp hq]; simp
      | some k =>
        by_cases ht : k.t > t
        · simp only [ht, if_true]
          refine steps_setNow b w t ?_ hb
          intro x hx; have := (head_le hi hq).1 x hx; omega
        · simp only [ht, if_false]
          have h1 := steps_next b P w hi k hq
          refine h1.trans (ih _ (inv_steps h1 hi) ?_)
          right; rw [fireAndRemove_now]; simp only [World.setNow]; omega

theorem steps_prologue (b : Bool) (P : Prog σ) (w : World σ (List Key)) :
    Steps b (w.st none) ((w.prologue specImpl P).st none) := by
  unfold World.prologue
  refine Steps.trans ?_ (steps_notify b _ _ _ rfl (by intro h; cases h))
  refine Steps.trans ?_ (steps_setPaused b _ _)
  unfold World.checkBegin
  split
  · exact .refl _
  · refine Steps.trans ?_ (steps_notify b _ _ _ rfl (by intro h; cases h))
    exact .one (.flags w.view w.queue none true w.view.paused)

theorem steps_epilogue (b : Bool) (P : Prog σ) (w : World σ (List Key)) :
    Steps b (w.st none) ((w.epilogue specImpl P).st none) := by
  unfold World.epilogue
  refine (steps_setPaused b w true).trans ?_
  refine Steps.trans (steps_notify b _ .pause P.onPause rfl (by intro h; cases h)) ?_
  unfold World.checkEnd
  split
  · rename_i h
    exact steps_notify b _ _ _ rfl (fun _ => List.length_eq_zero_iff.mp h)
  · exact .refl _

theorem steps_close (b : Bool) (P : Prog σ) (r : World σ (List Key) × Bool) :
    Steps b (r.1.st none) ((World.close specImpl P r).1.st none) := by
  unfold World.close
  split
  · exact steps_epilogue b P _
  · exact .refl _

/-- The operation does not ask for a time in the past of the world it is applied to. -/
def Op.forward {C : Type} (w : World σ C) : Op σ → Prop
  | .runUntil t => w.view.now ≤ t
  | .runFor dt => 0 ≤ dt
  | _ => True

theorem steps_exec (b : Bool) (P : Prog σ) (fuel : Nat) (w : World σ (List Key))
    (hi : Inv (w.st none)) (o : Op σ) (hb : b = true ∨ o.forward w) :
    Steps b (w.st none) ((w.exec specImpl P fuel o).1.st none) := by
  have hu : ∀ t, (b = true ∨ w.view.now ≤ t) →
      Steps b (w.st none) ((w.orStay (w.runUntil specImpl P fuel t)).1.st none) := by
    intro t hb
    unfold World.runUntil
    split
    · exact .refl _
    · split
      · exact .refl _
      · have h1 := steps_prologue b P w
        refine h1.trans ?_
        refine (steps_untilLoop b P t fuel _ (inv_steps h1 hi) ?_).trans (steps_close b P _)
        rw [prologue_now]; exact hb
  cases o with
  | act a => exact steps_perform b w none a
  | run =>
    simp only [World.exec]
    unfold World.run
    split
    · exact .refl _
    · split
      · exact .refl _
      · have h1 := steps_prologue b P w
        refine h1.trans ?_
        exact (steps_runLoop b P fuel _ (inv_steps h1 hi)).trans (steps_close b P _)
  | runUntil t => exact hu t hb
  | runFor dt =>
    refine hu _ ?_
    rcases hb with hb | hb
    · exact .inl hb
    · right; simp only [Op.forward] at hb; omega

/-- No operation of the history asks for a time in its past. -/
def Forward {C : Type} (I : Impl C) (P : Prog σ) (fuel : Nat) : World σ C → List (Op σ) → Prop
  | _, [] => True
  | w, o :: os => o.forward w ∧ Forward I P fuel (w.exec I P fuel o).1 os

theorem steps_execs (b : Bool) (P : Prog σ) (fuel : Nat) (os : List (Op σ)) :
    ∀ w : World σ (List Key), Inv (w.st none) → (b = true ∨ Forward specImpl P fuel w os) →
    Steps b (w.st none) ((World.execs specImpl P fuel w os).1.st none) := by
  induction os with
  | nil => intro w _ _; exact .refl _
  | cons o os ih =>
    intro w hi hb
    have h1 := steps_exec b P fuel w hi o (by
      rcases hb with h | h
      · exact .inl h
      · exact .inr h.1)
    have hb' : b = true ∨ Forward specImpl P fuel (w.exec specImpl P fuel o).1 os := by
      rcases hb with h | h
      · exact .inl h
      · exact .inr h.2
    simp only [World.execs]
    revert h1 hb'
    generalize w.exec specImpl P fuel o = r
    obtain ⟨w', b'⟩ := r
    intro h1 hb'
    cases b' with
    | true => exact h1.trans (ih _ (inv_steps h1 hi) hb')
    | false => exact h1

theorem forward_rel {C : Type} {I : Impl C} (F : Refine I) (P : Prog σ) (fuel : Nat)
    (os : List (Op σ)) : ∀ {w : World σ C} {w' : World σ (List Key)}, Rel F none w w' →
    Light none w' → (Forward I P fuel w os ↔ Forward specImpl P fuel w' os) := by
  induction os with
  | nil => intro w w' _ _; rfl
  | cons o os ih =>
    intro w w' h hL
    have h1 := rel_exec F P fuel h hL o
    simp only [Forward]
    rw [ih h1.1 h1.2.1]
    have : o.forward w ↔ o.forward w' := by
      cases o <;> simp only [Op.forward, h.view]
    rw [this]

/-- Everything known about the world after a history, for any refined scheduler. -/
theorem reach {C : Type} {I : Impl C} (F : Refine I) (P : Prog σ) (fuel : Nat) (os : List (Op σ)) :
    ∃ w' : World σ (List Key), Rel F none (World.execs I P fuel (World.init I) os).1 w' ∧
      w' = (World.execs specImpl P fuel (World.init specImpl) os).1 ∧
      Light none w' ∧ Inv (w'.st none) ∧ FinOk w'.view.trace ∧
      (Forward I P fuel (World.init I : World σ C) os → Ord (w'.st none)) := by
  have h0 := rel_init (σ := σ) F
  have h1 := rel_execs F P fuel os h0.1 h0.2
  have hi0 : Inv ((World.init specImpl : World σ (List Key)).st none) := inv_init
  have hs := steps_execs true P fuel os (World.init specImpl) hi0 (.inl rfl)
  refine ⟨_, h1.1, rfl, h1.2.1, inv_steps hs hi0, fin_steps hs hi0 ?_, ?_⟩
  · intro pre n post e
    have := congrArg List.length e
    simp [World.st, World.init] at this
  · intro hf
    rw [forward_rel F P fuel os h0.1 h0.2] at hf
    exact ord_steps (steps_execs false P fuel os _ hi0 (.inr hf)) hi0 ord_init

end
end Verif.Sim
