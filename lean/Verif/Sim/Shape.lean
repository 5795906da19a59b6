import Verif.Sim.Exec

/-!
The shape of the history written by one call of `Run` or `RunUntil`.
-/
set_option linter.unusedSimpArgs false
set_option linter.unusedVariables false
namespace Verif.Sim

section
variable {σ C : Type}

/-- Entries written by the actions of sinks. -/
def Entry.quiet : Entry → Bool
  | .sched _ _ | .cancel _ | .pauseReq => true
  | _ => false

def isPauseReq (e : Int × Entry) : Bool := decide (e.2 = .pauseReq)

/-- What a sequence of actions does to the view. -/
structure Ext (v v' : View σ) (l : List (Int × Entry)) : Prop where
  trace : v'.trace = v.trace ++ l
  paused : v'.paused = (v.paused || l.any isPauseReq)
  started : v'.started = v.started

theorem Ext.refl (v : View σ) : Ext v v [] := ⟨by simp, by simp, rfl⟩

theorem Ext.trans {v v' v'' : View σ} {l l'} (h1 : Ext v v' l) (h2 : Ext v' v'' l') :
    Ext v v'' (l ++ l') :=
  ⟨by rw [h2.trace, h1.trace, List.append_assoc],
   by rw [h2.paused, h1.paused, List.any_append, Bool.or_assoc], h2.started.trans h1.started⟩

def Quiet (l : List (Int × Entry)) : Prop := ∀ e ∈ l, e.2.quiet = true

theorem ext_perform (I : Impl C) (w : World σ C) (a : Action σ) :
    ∃ l, Ext w.view (w.perform I a).view l ∧ Quiet l := by
  have h1 : ∀ t s, ∃ l, Ext w.view (w.orKeep (w.scheduleAt I t s)).view l ∧ Quiet l := by
    intro t s
    rcases scheduleAt_cases I w t s with ⟨e, he⟩ | ⟨x, hc, hs, ht, he⟩
    · rw [he]; exact ⟨[], Ext.refl _, by simp [Quiet]⟩
    · rw [he]
      refine ⟨[(w.view.now, .sched w.view.handles.length t)], ⟨rfl, ?_, rfl⟩, ?_⟩
      · simp [World.orKeep, View.log, isPauseReq]
      · simp [Quiet, Entry.quiet]
  cases a with
  | «at» t s => exact h1 t s
  | now s =>
    simp only [World.perform, World.scheduleNow]; split
    · exact ⟨[], Ext.refl _, by simp [Quiet]⟩
    · exact h1 _ s
  | «in» dt s =>
    simp only [World.perform, World.scheduleIn]; split
    · exact ⟨[], Ext.refl _, by simp [Quiet]⟩
    · exact h1 _ s
  | cancel id =>
    simp only [World.perform]; split
    · refine ⟨[(w.view.now, .cancel id)], ⟨rfl, ?_, rfl⟩, ?_⟩
      · simp [World.orKeep, View.log, isPauseReq]
      · simp [Quiet, Entry.quiet]
    · exact ⟨[], Ext.refl _, by simp [Quiet]⟩
  | pause =>
    refine ⟨[(w.view.now, .pauseReq)], ⟨rfl, ?_, rfl⟩, ?_⟩
    · simp [World.perform, View.log, isPauseReq]
    · simp [Quiet, Entry.quiet]

theorem ext_performs (I : Impl C) (as : List (Action σ)) : ∀ w : World σ C,
    ∃ l, Ext w.view (w.performs I as).view l ∧ Quiet l := by
  induction as with
  | nil => intro w; exact ⟨[], Ext.refl _, by simp [Quiet]⟩
  | cons a as ih =>
    intro w
    obtain ⟨l1, h1, q1⟩ := ext_perform I w a
    obtain ⟨l2, h2, q2⟩ := ih (w.perform I a)
    refine ⟨l1 ++ l2, h1.trans h2, ?_⟩
    intro e he
    rcases List.mem_append.mp he with he | he
    · exact q1 e he
    · exact q2 e he

theorem ext_notify (I : Impl C) (w : World σ C) (e : Entry) (f) (he : e ≠ .pauseReq) :
    ∃ l, Ext w.view (w.notify I e f).view ((w.view.now, e) :: l) ∧ Quiet l := by
  obtain ⟨l, h, q⟩ := ext_performs I (f (w.view.log e)) { w with view := w.view.log e }
  refine ⟨l, ?_, q⟩
  have h0 : Ext w.view (w.view.log e) [(w.view.now, e)] :=
    ⟨rfl, by simp [isPauseReq, View.log, he], rfl⟩
  exact h0.trans h

/-- One round of the loop: nothing (a cancelled event), or the event is fired. -/
theorem ext_next (I : Impl C) (P : Prog σ) (w : World σ C) (k : Key)
    (hq : I.front w.queue = some k) :
    ∃ body, Ext w.view ((w.setNow k.t).fireAndRemove I P).view body ∧
      (body = [] ∨ ∃ l, body = (k.t, .fire k.id k.t) :: l ++ [(k.t, .done k.id)] ∧ Quiet l) := by
  unfold World.fireAndRemove
  have : I.front (w.setNow k.t).queue = some k := hq
  rw [this]
  dsimp only
  unfold World.fire
  split
  · rename_i s _ _
    dsimp only
    obtain ⟨l, h, q⟩ := ext_performs I
      (P.sink s (World.fireBegin { (w.setNow k.t) with queue := I.pre (w.setNow k.t).queue } k).view)
      (World.fireBegin { (w.setNow k.t) with queue := I.pre (w.setNow k.t).queue } k)
    have hn := performs_now I
      (P.sink s (World.fireBegin { (w.setNow k.t) with queue := I.pre (w.setNow k.t).queue } k).view)
      (World.fireBegin { (w.setNow k.t) with queue := I.pre (w.setNow k.t).queue } k)
    have h0 : Ext w.view
        (World.fireBegin { (w.setNow k.t) with queue := I.pre (w.setNow k.t).queue } k).view
        [(k.t, .fire k.id k.t)] :=
      ⟨rfl, by simp [isPauseReq, View.log, World.fireBegin, World.setNow], rfl⟩
    refine ⟨(k.t, .fire k.id k.t) :: l ++ [(k.t, .done k.id)], ?_, .inr ⟨l, rfl, q⟩⟩
    have h1 := h0.trans h
    refine h1.trans ⟨?_, ?_, rfl⟩
    · simp only [World.fireEnd, View.log, hn]; rfl
    · simp [isPauseReq, World.fireEnd, View.log]
  · exact ⟨[], ⟨by simp [World.setNow], by simp [World.setNow], rfl⟩, .inl rfl⟩

/-! ### Life cycle -/

/-- The phases of a simulation. -/
inductive Phase where
  | fresh | begun | running | firing (id : Nat) | paused | ended
deriving DecidableEq

/-- The life cycle of a simulation: begin first and once; run, then events one at a time, then pause;
end only directly after pause.  Scheduling, cancelling and asking for a pause are possible at any
time. -/
def life : Phase → Entry → Option Phase
  | p, .sched _ _ => some p
  | p, .cancel _ => some p
  | p, .pauseReq => some p
  | .fresh, .begin => some .begun
  | .begun, .run => some .running
  | .paused, .run => some .running
  | .ended, .run => some .running
  | .running, .fire id _ => some (.firing id)
  | .firing i, .done j => if i = j then some .running else none
  | .running, .pause => some .paused
  | .paused, .finish => some .ended
  | _, _ => none

/-- Follow the life cycle along a history. -/
def lifeRun : Phase → List (Int × Entry) → Option Phase
  | p, [] => some p
  | p, e :: es => match life p e.2 with
    | some p' => lifeRun p' es
    | none => none

theorem lifeRun_append (p p' : Phase) (l l' : List (Int × Entry)) (h : lifeRun p l = some p') :
    lifeRun p (l ++ l') = lifeRun p' l' := by
  induction l generalizing p with
  | nil => simp [lifeRun] at h; subst h; rfl
  | cons e es ih =>
    simp only [lifeRun, List.cons_append] at *
    cases hl : life p e.2 with
    | none => rw [hl] at h; cases h
    | some p2 => rw [hl] at h; exact ih p2 h

theorem lifeRun_quiet (p : Phase) (l : List (Int × Entry)) (h : Quiet l) : lifeRun p l = some p := by
  induction l with
  | nil => rfl
  | cons e es ih =>
    have he := h e (by simp)
    have : life p e.2 = some p := by
      revert he; cases e.2 <;> simp [Entry.quiet] <;> cases p <;> rfl
    simp only [lifeRun, this]
    exact ih (fun x hx => h x (by simp [hx]))

/-- A list of entries that keeps the simulation running. -/
theorem life_next (I : Impl C) (P : Prog σ) (w : World σ C) (k : Key)
    (hq : I.front w.queue = some k) :
    ∃ body, Ext w.view ((w.setNow k.t).fireAndRemove I P).view body ∧
      lifeRun .running body = some .running ∧
      (∀ e ∈ body, ∀ id u, e.2 = .fire id u → u = k.t) := by
  obtain ⟨body, h, hb⟩ := ext_next I P w k hq
  refine ⟨body, h, ?_⟩
  rcases hb with rfl | ⟨l, rfl, q⟩
  · exact ⟨rfl, by simp⟩
  · constructor
    · show lifeRun (.firing k.id) (l ++ [(k.t, .done k.id)]) = _
      rw [lifeRun_append _ _ _ _ (lifeRun_quiet _ l q)]
      simp [lifeRun, life]
    · intro e he id u heq
      simp only [List.cons_append, List.mem_cons, List.mem_append, List.mem_singleton,
        List.not_mem_nil, or_false] at he
      rcases he with rfl | he | rfl
      · cases heq; rfl
      · have := q e he; rw [heq] at this; cases this
      · cases heq

theorem life_runLoop (I : Impl C) (P : Prog σ) (n : Nat) : ∀ w : World σ C,
    ∃ body, Ext w.view (World.runLoop I P n w).1.view body ∧
      lifeRun .running body = some .running := by
  induction n with
  | zero => intro w; exact ⟨[], Ext.refl _, rfl⟩
  | succ n ih =>
    intro w
    simp only [World.runLoop]
    split
    · exact ⟨[], Ext.refl _, rfl⟩
    · split
      · exact ⟨[], Ext.refl _, rfl⟩
      · rename_i k hq
        obtain ⟨b1, h1, l1, _⟩ := life_next I P w k hq
        obtain ⟨b2, h2, l2⟩ := ih ((w.setNow k.t).fireAndRemove I P)
        exact ⟨b1 ++ b2, h1.trans h2, by rw [lifeRun_append _ _ _ _ l1, l2]⟩

theorem ext_setNow (w : World σ C) (t : Int) : Ext w.view (w.setNow t).view [] :=
  ⟨by simp [World.setNow], by simp [World.setNow], rfl⟩

theorem life_untilLoop (I : Impl C) (P : Prog σ) (t : Int) (n : Nat) : ∀ w : World σ C,
    ∃ body, Ext w.view (World.untilLoop I P t n w).1.view body ∧
      lifeRun .running body = some .running ∧
      (∀ e ∈ body, ∀ id u, e.2 = .fire id u → u ≤ t) := by
  induction n with
  | zero => intro w; exact ⟨[], Ext.refl _, rfl, by simp⟩
  | succ n ih =>
    intro w
    simp only [World.untilLoop]
    split
    · exact ⟨[], Ext.refl _, rfl, by simp⟩
    · split
      · exact ⟨[], ext_setNow _ _, rfl, by simp⟩
      · rename_i k hq
        split
        · exact ⟨[], ext_setNow _ _, rfl, by simp⟩
        · rename_i ht
          obtain ⟨b1, h1, l1, f1⟩ := life_next I P w k hq
          obtain ⟨b2, h2, l2, f2⟩ := ih ((w.setNow k.t).fireAndRemove I P)
          refine ⟨b1 ++ b2, h1.trans h2, by rw [lifeRun_append _ _ _ _ l1, l2], ?_⟩
          intro e he id u heq
          rcases List.mem_append.mp he with he | he
          · have := f1 e he id u heq; omega
          · exact f2 e he id u heq

/-- The history written by the prologue. -/
theorem shape_prologue (I : Impl C) (P : Prog σ) (w : World σ C) :
    ∃ a0 a1, (w.prologue I P).view.trace = w.view.trace ++ (a0 ++ (w.view.now, .run) :: a1) ∧
      Quiet a1 ∧ (w.prologue I P).view.paused = a1.any isPauseReq ∧
      (w.prologue I P).view.started = true ∧
      ((w.view.started = true ∧ a0 = []) ∨
        (w.view.started = false ∧ ∃ q, a0 = (w.view.now, .begin) :: q ∧ Quiet q)) := by
  unfold World.prologue
  have h1 : ∃ a0, Ext { w.view with started := true } (w.checkBegin I P).view a0 ∧
      (w.checkBegin I P).view.now = w.view.now ∧
      ((w.view.started = true ∧ a0 = []) ∨
        (w.view.started = false ∧ ∃ q, a0 = (w.view.now, .begin) :: q ∧ Quiet q)) := by
    unfold World.checkBegin
    split
    · rename_i hs; exact ⟨[], ⟨by simp, by simp, hs⟩, rfl, .inl ⟨hs, rfl⟩⟩
    · rename_i hs
      obtain ⟨l, h, q⟩ := ext_notify I { w with view := { w.view with started := true } } .begin
        P.onBegin (by simp)
      exact ⟨_, h, notify_now I _ _ _, .inr ⟨by simpa using hs, l, rfl, q⟩⟩
  obtain ⟨a0, h1, hn, hc⟩ := h1
  obtain ⟨l, h2, q⟩ := ext_notify I ((w.checkBegin I P).setPaused false) .run P.onRun (by simp)
  refine ⟨a0, l, ?_, q, ?_, ?_, hc⟩
  · rw [h2.trace]
    show (w.checkBegin I P).view.trace ++ _ = _
    rw [h1.trace]
    simp [World.setPaused, hn]
  · rw [h2.paused]; simp [World.setPaused, isPauseReq]
  · rw [h2.started]; exact h1.started

/-- The history written by the epilogue. -/
theorem shape_epilogue (I : Impl C) (P : Prog σ) (w : World σ C) :
    ∃ a b, (w.epilogue I P).view.trace = w.view.trace ++ ((w.view.now, .pause) :: (a ++ b)) ∧
      Quiet a ∧ (w.epilogue I P).view.started = w.view.started ∧
      (b = [] ∨ ∃ q, b = (w.view.now, .finish) :: q ∧ Quiet q) := by
  unfold World.epilogue
  obtain ⟨l, h, q⟩ := ext_notify I (w.setPaused true) .pause P.onPause (by simp)
  have hn : ((w.setPaused true).notify I .pause P.onPause).view.now = w.view.now := notify_now I _ _ _
  unfold World.checkEnd
  split
  · obtain ⟨l', h', q'⟩ := ext_notify I ((w.setPaused true).notify I .pause P.onPause) .finish P.onEnd
      (by simp)
    refine ⟨l, (w.view.now, .finish) :: l', ?_, q, ?_, .inr ⟨l', rfl, q'⟩⟩
    · rw [h'.trace, h.trace, hn]; simp [World.setPaused]
    · rw [h'.started, h.started]; rfl
  · exact ⟨l, [], by rw [h.trace]; simp [World.setPaused], q, h.started, .inl rfl⟩

/-- The simulator is between two runs. -/
def Rest (v : View σ) : Prop :=
  ∃ ph, lifeRun .fresh v.trace = some ph ∧
    ((v.started = false ∧ ph = .fresh) ∨ (v.started = true ∧ (ph = .paused ∨ ph = .ended)))

theorem life_prologue (I : Impl C) (P : Prog σ) (w : World σ C) (h : Rest w.view) :
    lifeRun .fresh (w.prologue I P).view.trace = some .running ∧
    (w.prologue I P).view.started = true := by
  obtain ⟨a0, a1, ht, q, _, hs, hc⟩ := shape_prologue I P w
  obtain ⟨ph, hl, hp⟩ := h
  refine ⟨?_, hs⟩
  rw [ht, lifeRun_append _ _ _ _ hl]
  rcases hc with ⟨hst, rfl⟩ | ⟨hst, l, rfl, ql⟩
  · rcases hp with ⟨h', _⟩ | ⟨_, rfl | rfl⟩
    · rw [h'] at hst; cases hst
    · exact lifeRun_quiet _ _ q
    · exact lifeRun_quiet _ _ q
  · rcases hp with ⟨_, rfl⟩ | ⟨h', _⟩
    · show lifeRun .begun (l ++ _) = _
      rw [lifeRun_append _ _ _ _ (lifeRun_quiet _ _ ql)]
      exact lifeRun_quiet _ _ q
    · rw [h'] at hst; cases hst

theorem life_epilogue (I : Impl C) (P : Prog σ) (w : World σ C)
    (h : lifeRun .fresh w.view.trace = some .running) (hs : w.view.started = true) :
    Rest (w.epilogue I P).view := by
  obtain ⟨a, b, ht, q, hs', hb⟩ := shape_epilogue I P w
  have h1 : lifeRun .paused (a ++ b) = lifeRun .paused b :=
    lifeRun_append _ _ _ _ (lifeRun_quiet _ _ q)
  have h2 : lifeRun .fresh (w.epilogue I P).view.trace = lifeRun .paused b := by
    rw [ht, lifeRun_append _ _ _ _ h, ← h1]; rfl
  rcases hb with rfl | ⟨l, rfl, ql⟩
  · exact ⟨.paused, h2, .inr ⟨hs'.trans hs, .inl rfl⟩⟩
  · refine ⟨.ended, ?_, .inr ⟨hs'.trans hs, .inr rfl⟩⟩
    rw [h2]; exact lifeRun_quiet _ _ ql

theorem rest_perform (I : Impl C) (w : World σ C) (a : Action σ) (h : Rest w.view) :
    Rest (w.perform I a).view := by
  obtain ⟨l, he, q⟩ := ext_perform I w a
  obtain ⟨ph, hl, hp⟩ := h
  refine ⟨ph, ?_, by rw [he.started]; exact hp⟩
  rw [he.trace, lifeRun_append _ _ _ _ hl]; exact lifeRun_quiet _ _ q

/-- After a call: at rest, or the run is still going on. -/
theorem rest_exec (I : Impl C) (P : Prog σ) (fuel : Nat) (w : World σ C) (o : Op σ)
    (h : Rest w.view) :
    ((w.exec I P fuel o).2 = true → Rest (w.exec I P fuel o).1.view) ∧
    ((w.exec I P fuel o).2 = false →
      lifeRun .fresh (w.exec I P fuel o).1.view.trace = some .running) := by
  have hclose : ∀ r : World σ C × Bool, lifeRun .fresh r.1.view.trace = some .running →
      r.1.view.started = true →
      ((World.close I P r).2 = true → Rest (World.close I P r).1.view) ∧
      ((World.close I P r).2 = false →
        lifeRun .fresh (World.close I P r).1.view.trace = some .running) := by
    intro r hr hs
    unfold World.close
    split
    · exact ⟨fun _ => life_epilogue I P _ hr hs, by intro h; cases h⟩
    · rename_i hb; exact ⟨fun h' => absurd h' hb, fun _ => hr⟩
  have hp := life_prologue I P w h
  have hu : ∀ t, ((w.orStay (w.runUntil I P fuel t)).2 = true →
      Rest (w.orStay (w.runUntil I P fuel t)).1.view) ∧
      ((w.orStay (w.runUntil I P fuel t)).2 = false →
        lifeRun .fresh (w.orStay (w.runUntil I P fuel t)).1.view.trace = some .running) := by
    intro t
    unfold World.runUntil
    split
    · exact ⟨fun _ => h, by intro h; cases h⟩
    · split
      · exact ⟨fun _ => h, by intro h; cases h⟩
      · obtain ⟨body, hb, hl, _⟩ := life_untilLoop I P t fuel (w.prologue I P)
        refine hclose _ ?_ ?_
        · rw [hb.trace, lifeRun_append _ _ _ _ hp.1, hl]
        · rw [hb.started]; exact hp.2
  cases o with
  | act a => exact ⟨fun _ => rest_perform I w a h, by intro h; cases h⟩
  | run =>
    simp only [World.exec]
    unfold World.run
    split
    · exact ⟨fun _ => h, by intro h; cases h⟩
    · split
      · exact ⟨fun _ => h, by intro h; cases h⟩
      · obtain ⟨body, hb, hl⟩ := life_runLoop I P fuel (w.prologue I P)
        refine hclose _ ?_ ?_
        · rw [hb.trace, lifeRun_append _ _ _ _ hp.1, hl]
        · rw [hb.started]; exact hp.2
  | runUntil t => exact hu t
  | runFor dt => exact hu _

theorem rest_execs (I : Impl C) (P : Prog σ) (fuel : Nat) (os : List (Op σ)) : ∀ w : World σ C,
    Rest w.view →
    ((World.execs I P fuel w os).2 = true → Rest (World.execs I P fuel w os).1.view) ∧
    ((World.execs I P fuel w os).2 = false →
      lifeRun .fresh (World.execs I P fuel w os).1.view.trace = some .running) := by
  induction os with
  | nil => intro w h; exact ⟨fun _ => h, fun h' => by cases h'⟩
  | cons o os ih =>
    intro w h
    have h1 := rest_exec I P fuel w o h
    simp only [World.execs]
    revert h1
    generalize w.exec I P fuel o = r
    obtain ⟨w', b⟩ := r
    intro h1
    cases b with
    | true => exact ih w' (h1.1 rfl)
    | false => exact ⟨fun h' => (by cases h'), h1.2⟩

theorem rest_init (I : Impl C) : Rest (World.init I : World σ C).view :=
  ⟨.fresh, rfl, .inl ⟨rfl, rfl⟩⟩

/-! ### How the loops end (abstract scheduler) -/

theorem runLoop_end (P : Prog σ) (n : Nat) : ∀ w : World σ (List Key),
    (World.runLoop specImpl P n w).2 = true →
    (World.runLoop specImpl P n w).1.view.paused = true ∨
    (World.runLoop specImpl P n w).1.queue = [] := by
  induction n with
  | zero => intro w h; cases h
  | succ n ih =>
    intro w
    simp only [World.runLoop]
    split
    · rename_i hp; intro _; exact .inl hp
    · rw [show specImpl.front w.queue = w.queue.head? from rfl]
      intro h
      cases hq : w.queue.head? with
      | none => exact .inr (List.head?_eq_none_iff.mp hq)
      | some k => rw [hq] at h; exact ih _ h

theorem untilLoop_end (P : Prog σ) (t : Int) (n : Nat) : ∀ w : World σ (List Key),
    Inv (w.st none) →
    (World.untilLoop specImpl P t n w).2 = true →
    (World.untilLoop specImpl P t n w).1.view.paused = true ∨
    ((World.untilLoop specImpl P t n w).1.view.now = t ∧
      ∀ k ∈ (World.untilLoop specImpl P t n w).1.queue, t < k.t) := by
  induction n with
  | zero => intro w _ h; cases h
  | succ n ih =>
    intro w hi
    simp only [World.untilLoop]
    split
    · rename_i hp; intro _; exact .inl hp
    · rw [show specImpl.front w.queue = w.queue.head? from rfl]
      intro h
      cases hq : w.queue.head? with
      | none =>
        right
        refine ⟨rfl, ?_⟩
        have := List.head?_eq_none_iff.mp hq
        simp [World.setNow, this]
      | some k =>
        rw [hq] at h
        by_cases ht : k.t > t
        · simp only [ht, if_true] at h ⊢
          right
          refine ⟨rfl, ?_⟩
          intro x hx
          have := (head_le hi hq).1 x hx
          omega
        · simp only [ht, if_false] at h ⊢
          exact ih _ (inv_steps (steps_next true P w hi k hq) hi) h

/-- Without cancellations the clock of a `Run` is the time of the last event fired. -/
theorem next_fires (P : Prog σ) (w : World σ (List Key)) (hi : Inv (w.st none)) (k : Key)
    (hq : w.queue.head? = some k)
    (hc : ¬ Cancelled w.view k.id) :
    ∃ body, ((w.setNow k.t).fireAndRemove specImpl P).view.trace = w.view.trace ++ body ∧
      fires body = [k] := by
  obtain ⟨k', s, hw⟩ : ∃ k' s, w.queue = k' :: s := by
    cases h : w.queue with
    | nil => rw [h] at hq; cases hq
    | cons a b => exact ⟨a, b, rfl⟩
  rw [hw] at hq; cases hq
  obtain ⟨h, eh, ht⟩ := hi.keys k (by simp [World.st, hw])
  have hh := hi.handles k.id h eh
  have hnf := hh.inq (by rw [key_eta ht]; simp [World.st, hw])
  have hsome := hh.sink.mpr ⟨hc, fun hr => hnf (hh.fired.mpr (.inl hr))⟩
  obtain ⟨t, sk, r⟩ := h
  cases sk with
  | none => cases hsome
  | some x =>
    unfold World.fireAndRemove
    have hfr : specImpl.front (w.setNow k.t).queue = some k := by
      show w.queue.head? = some k; rw [hw]; rfl
    rw [hfr]
    dsimp only
    unfold World.fire
    have eh' : (World.mk (w.setNow k.t).view (specImpl.pre (w.setNow k.t).queue)
        (w.setNow k.t).clocked (w.setNow k.t).wired).view.handles[k.id]? = some ⟨t, some x, r⟩ := eh
    rw [eh']
    dsimp only
    obtain ⟨l, hl, q⟩ := ext_performs specImpl
      (P.sink x (World.fireBegin { (w.setNow k.t) with queue := specImpl.pre (w.setNow k.t).queue } k).view)
      (World.fireBegin { (w.setNow k.t) with queue := specImpl.pre (w.setNow k.t).queue } k)
    refine ⟨(k.t, .fire k.id k.t) :: l ++ [((World.performs specImpl
      (World.fireBegin { (w.setNow k.t) with queue := specImpl.pre (w.setNow k.t).queue } k)
      (P.sink x (World.fireBegin { (w.setNow k.t) with queue := specImpl.pre (w.setNow k.t).queue } k).view)).view.now,
      .done k.id)], ?_, ?_⟩
    · simp only [World.fireEnd, View.log]
      rw [hl.trace]
      simp [World.fireBegin, View.log, World.setNow]
    · have hql : fires l = [] := by
        unfold fires
        rw [List.filterMap_eq_nil_iff]
        intro e he
        have := q e he
        obtain ⟨n, e⟩ := e
        cases e <;> first | rfl | cases this
      unfold fires at *
      rw [List.cons_append, List.filterMap_cons]
      simp only [fireKey, List.filterMap_append, hql]
      rfl

theorem fires_append (a b : List (Int × Entry)) : fires (a ++ b) = fires a ++ fires b := by
  simp [fires, List.filterMap_append]

theorem runLoop_last (P : Prog σ) (n : Nat) : ∀ w : World σ (List Key), Inv (w.st none) →
    (∀ id, ¬ Cancelled (World.runLoop specImpl P n w).1.view id) →
    ∃ body, (World.runLoop specImpl P n w).1.view.trace = w.view.trace ++ body ∧
      ((fires body = [] ∧ (World.runLoop specImpl P n w).1.view.now = w.view.now) ∨
        (fires body).getLast?.map Key.t = some (World.runLoop specImpl P n w).1.view.now) := by
  induction n with
  | zero => intro w _ _; exact ⟨[], by simp [World.runLoop], .inl ⟨rfl, rfl⟩⟩
  | succ n ih =>
    intro w hi
    simp only [World.runLoop]
    split
    · intro _; exact ⟨[], by simp, .inl ⟨rfl, rfl⟩⟩
    · rw [show specImpl.front w.queue = w.queue.head? from rfl]
      cases hq : w.queue.head? with
      | none => intro _; exact ⟨[], by simp, .inl ⟨rfl, rfl⟩⟩
      | some k =>
        intro hc
        obtain ⟨b2, h2, hl2⟩ := ih _ (inv_steps (steps_next true P w hi k hq) hi) hc
        have hnc : ¬ Cancelled w.view k.id := by
          intro ⟨m, hm⟩
          refine hc k.id ⟨m, ?_⟩
          dsimp only
          rw [h2]
          obtain ⟨b1, h1, _⟩ := ext_next specImpl P w k hq
          rw [h1.trace]; simp [hm]
        obtain ⟨b1, h1, hf1⟩ := next_fires P w hi k hq hnc
        refine ⟨b1 ++ b2, by dsimp only; rw [h2, h1, List.append_assoc], .inr ?_⟩
        rw [fires_append, hf1]
        rcases hl2 with ⟨hf, hn⟩ | hl
        · rw [hf]; dsimp only; rw [hn, fireAndRemove_now]; rfl
        · cases hfb : fires b2 with
          | nil => rw [hfb] at hl; cases hl
          | cons x xs =>
            rw [hfb] at hl
            dsimp only
            rw [← hl]; simp [List.getLast?_cons]

end
end Verif.Sim
