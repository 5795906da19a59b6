import Verif.Sim.Word

/-!
Lemmas about simulated time in 64 bits: the history only grows, a 64-bit simulation that stays away
from the ends of the range goes in lockstep with the unbounded one, and all times stay in range.
-/
set_option linter.unusedSimpArgs false
set_option linter.unusedVariables false
namespace Verif.Sim

open Verif.Chrono (i64Min i64Max I64)

section
variable {σ C : Type}

theorem wadd_exact {a b : Int} (h : I64 (a + b)) : wadd a b = a + b := by
  unfold wadd I64 i64Min i64Max at *
  rw [Int.bmod_def]; omega

theorem wadd_range (a b : Int) : I64 (wadd a b) := by
  unfold wadd I64 i64Min i64Max
  have h1 := Int.le_bmod (x := a + b) (m := 2 ^ 64) (by decide)
  have h2 := Int.bmod_lt (x := a + b) (m := 2 ^ 64) (by decide)
  omega

/-- A sum of two counts is off by a multiple of 2^64, and by at most one. -/
theorem wadd_cases {a b : Int} (ha : I64 a) (hb : I64 b) :
    (I64 (a + b) ∧ wadd a b = a + b) ∨
    (i64Max < a + b ∧ wadd a b = a + b - 18446744073709551616) ∨
    (a + b < i64Min ∧ wadd a b = a + b + 18446744073709551616) := by
  unfold wadd I64 i64Min i64Max at *
  rw [Int.bmod_def]; omega

/-! ## The history only grows -/

/-- From `w` to `w'` the history grew and the scheduler kept its clock. -/
structure Grow (w w' : World σ C) : Prop where
  trace : ∀ e ∈ w.view.trace, e ∈ w'.view.trace
  clocked : w'.clocked = w.clocked

theorem Grow.refl (w : World σ C) : Grow w w := ⟨fun _ h => h, rfl⟩

theorem Grow.trans {a b c : World σ C} (h : Grow a b) (h' : Grow b c) : Grow a c :=
  ⟨fun e he => h'.trace e (h.trace e he), h'.clocked.trans h.clocked⟩

theorem grow_log (w : World σ C) (e : Entry) : Grow w { w with view := w.view.log e } :=
  ⟨fun x hx => List.mem_append_left _ hx, rfl⟩

theorem grow_perform (I : Impl C) (w : World σ C) (a : Action σ) : Grow w (w.perform I a) := by
  have h1 : ∀ t s, Grow w (w.orKeep (w.scheduleAt I t s)) := by
    intro t s
    rcases scheduleAt_cases I w t s with ⟨e, he⟩ | ⟨x, hc, hs, ht, he⟩ <;> rw [he]
    · exact .refl w
    · exact ⟨fun x hx => List.mem_append_left _ hx, rfl⟩
  cases a with
  | «at» t s => exact h1 t s
  | now s =>
    simp only [World.perform, World.scheduleNow]; split
    · exact .refl w
    · exact h1 _ s
  | «in» dt s =>
    simp only [World.perform, World.scheduleIn]; split
    · exact .refl w
    · exact h1 _ s
  | cancel id =>
    simp only [World.perform]; split
    · exact ⟨fun x hx => List.mem_append_left _ hx, rfl⟩
    · exact .refl w
  | pause => exact ⟨fun x hx => List.mem_append_left _ hx, rfl⟩

theorem grow_performs (I : Impl C) (as : List (Action σ)) : ∀ w : World σ C, Grow w (w.performs I as) := by
  induction as with
  | nil => intro w; exact .refl w
  | cons a as ih => intro w; exact (grow_perform I w a).trans (ih _)

theorem grow_notify (I : Impl C) (w : World σ C) (e : Entry) (f) : Grow w (w.notify I e f) :=
  (grow_log w e).trans (grow_performs I _ _)

theorem grow_setNow (w : World σ C) (t : Int) : Grow w (w.setNow t) := ⟨fun _ h => h, rfl⟩

theorem grow_setPaused (w : World σ C) (b : Bool) : Grow w (w.setPaused b) := ⟨fun _ h => h, rfl⟩

theorem grow_fire (I : Impl C) (P : Prog σ) (k : Key) (w : World σ C) : Grow w (w.fire I P k) := by
  unfold World.fire
  cases h : w.view.handles[k.id]? with
  | none => exact .refl w
  | some x =>
    obtain ⟨t, s, r⟩ := x
    cases s with
    | none => exact .refl w
    | some s =>
      have h1 : Grow w (w.fireBegin k) := ⟨fun x hx => List.mem_append_left _ hx, rfl⟩
      refine (h1.trans (grow_performs I (P.sink s (w.fireBegin k).view) _)).trans ?_
      exact ⟨fun x hx => List.mem_append_left _ hx, rfl⟩

theorem grow_fireAndRemove (I : Impl C) (P : Prog σ) (w : World σ C) : Grow w (w.fireAndRemove I P) := by
  unfold World.fireAndRemove
  cases h : I.front w.queue with
  | none => exact .refl w
  | some k =>
    have h1 := grow_fire I P k { w with queue := I.pre w.queue }
    exact ⟨h1.trace, h1.clocked⟩

theorem grow_runLoop (I : Impl C) (P : Prog σ) (n : Nat) : ∀ w : World σ C,
    Grow w (World.runLoop I P n w).1 := by
  induction n with
  | zero => intro w; exact .refl w
  | succ n ih =>
    intro w
    simp only [World.runLoop]
    split
    · exact .refl w
    · cases hk : I.front w.queue with
      | none => exact .refl w
      | some k => exact ((grow_setNow w k.t).trans (grow_fireAndRemove I P _)).trans (ih _)

theorem grow_untilLoop (I : Impl C) (P : Prog σ) (t : Int) (n : Nat) : ∀ w : World σ C,
    Grow w (World.untilLoop I P t n w).1 := by
  induction n with
  | zero => intro w; exact .refl w
  | succ n ih =>
    intro w
    simp only [World.untilLoop]
    split
    · exact .refl w
    · cases hk : I.front w.queue with
      | none => exact grow_setNow w t
      | some k =>
        dsimp only
        split
        · exact grow_setNow w t
        · exact ((grow_setNow w k.t).trans (grow_fireAndRemove I P _)).trans (ih _)

theorem grow_checkBegin (I : Impl C) (P : Prog σ) (w : World σ C) : Grow w (w.checkBegin I P) := by
  unfold World.checkBegin
  split
  · exact .refl w
  · exact (⟨fun _ h => h, rfl⟩ : Grow w { w with view := { w.view with started := true } }).trans
      (grow_notify I _ _ _)

theorem grow_checkEnd (I : Impl C) (P : Prog σ) (w : World σ C) : Grow w (w.checkEnd I P) := by
  unfold World.checkEnd
  split
  · exact grow_notify I _ _ _
  · exact .refl w

theorem grow_prologue (I : Impl C) (P : Prog σ) (w : World σ C) : Grow w (w.prologue I P) :=
  ((grow_checkBegin I P w).trans (grow_setPaused _ false)).trans (grow_notify I _ _ _)

theorem grow_epilogue (I : Impl C) (P : Prog σ) (w : World σ C) : Grow w (w.epilogue I P) :=
  ((grow_setPaused w true).trans (grow_notify I _ _ _)).trans (grow_checkEnd I P _)

theorem grow_close (I : Impl C) (P : Prog σ) (r : World σ C × Bool) : Grow r.1 (World.close I P r).1 := by
  unfold World.close
  split
  · exact grow_epilogue I P _
  · exact .refl _

theorem grow_run (I : Impl C) (P : Prog σ) (fuel : Nat) (w : World σ C) :
    Grow w (w.orStay (w.run I P fuel)).1 := by
  unfold World.run
  split
  · exact .refl w
  · split
    · exact .refl w
    · exact ((grow_prologue I P w).trans (grow_runLoop I P fuel _)).trans (grow_close I P _)

theorem grow_runUntil (I : Impl C) (P : Prog σ) (fuel : Nat) (w : World σ C) (t : Int) :
    Grow w (w.orStay (w.runUntil I P fuel t)).1 := by
  unfold World.runUntil
  split
  · exact .refl w
  · split
    · exact .refl w
    · exact ((grow_prologue I P w).trans (grow_untilLoop I P t fuel _)).trans (grow_close I P _)

theorem grow_exec (I : Impl C) (P : Prog σ) (fuel : Nat) (w : World σ C) (o : Op σ) :
    Grow w (w.exec I P fuel o).1 := by
  cases o with
  | act a => exact grow_perform I w a
  | run => exact grow_run I P fuel w
  | runUntil t => exact grow_runUntil I P fuel w t
  | runFor dt => exact grow_runUntil I P fuel w _

theorem grow_execs (I : Impl C) (P : Prog σ) (fuel : Nat) (os : List (Op σ)) : ∀ w : World σ C,
    Grow w (World.execs I P fuel w os).1 := by
  induction os with
  | nil => intro w; exact .refl w
  | cons o os ih =>
    intro w
    have h := grow_exec I P fuel w o
    simp only [World.execs]
    cases he : w.exec I P fuel o with
    | mk w' b =>
      rw [he] at h
      cases b with
      | false => exact h
      | true => exact h.trans (ih w')

/-! ## Lockstep -/

/-- The delay, if there is one, is at most `D` in magnitude. -/
def Action.within (D : Int) : Action σ → Prop
  | .in dt _ => -D ≤ dt ∧ dt ≤ D
  | _ => True

/-- All delays that sinks give to `ScheduleIn` are at most `D` in magnitude. -/
structure Prog.Within (D : Int) (P : Prog σ) : Prop where
  sink : ∀ s v, ∀ a ∈ P.sink s v, a.within D
  onBegin : ∀ v, ∀ a ∈ P.onBegin v, a.within D
  onRun : ∀ v, ∀ a ∈ P.onRun v, a.within D
  onPause : ∀ v, ∀ a ∈ P.onPause v, a.within D
  onEnd : ∀ v, ∀ a ∈ P.onEnd v, a.within D

/-- The same of an operation of the user, including `RunFor`. -/
def Op.within (D : Int) : Op σ → Prop
  | .act a => a.within D
  | .runFor dt => -D ≤ dt ∧ dt ≤ D
  | _ => True

/-- At least `D` away from both ends of the range. -/
def Room (D n : Int) : Prop := i64Min + D ≤ n ∧ n ≤ i64Max - D

/-- Every moment of the history is at least `D` away from both ends of the range. -/
def Good (D : Int) (w : World σ C) : Prop := ∀ e ∈ w.view.trace, Room D e.1

theorem Good.of {D : Int} {w w' : World σ C} (g : Grow w w') (h : Good D w') : Good D w :=
  fun e he => h e (g.trace e he)

theorem wadd_room {D n dt : Int} (h : Room D n) (h' : -D ≤ dt ∧ dt ≤ D) : wadd n dt = n + dt := by
  refine wadd_exact ?_
  unfold Room I64 at *; omega

theorem performW_eq (I : Impl C) {D : Int} (w : World σ C) (a : Action σ) (hr : Room D w.view.now)
    (ha : a.within D) : w.performW I a = w.perform I a := by
  cases a with
  | «in» dt s =>
    simp only [World.performW, World.perform, World.scheduleInW, World.scheduleIn, wadd_room hr ha]
  | _ => rfl

theorem performsW_eq (I : Impl C) {D : Int} (as : List (Action σ)) : ∀ w : World σ C,
    Room D w.view.now → (∀ a ∈ as, a.within D) → w.performsW I as = w.performs I as := by
  induction as with
  | nil => intro w _ _; rfl
  | cons a as ih =>
    intro w hr ha
    have h1 : w.performsW I (a :: as) = (w.performW I a).performsW I as := rfl
    have hn : (w.perform I a).view.now = w.view.now := performs_now I [a] w
    rw [h1, performW_eq I w a hr (ha a List.mem_cons_self),
      ih _ (by rw [hn]; exact hr) (fun b hb => ha b (List.mem_cons_of_mem _ hb))]
    rfl

theorem notifyW_eq (I : Impl C) {D : Int} (w : World σ C) (e : Entry) (f : View σ → List (Action σ))
    (hf : ∀ v, ∀ a ∈ f v, a.within D) (g : Good D (w.notify I e f)) :
    w.notifyW I e f = w.notify I e f := by
  have hr : Room D w.view.now :=
    g (w.view.now, e) ((grow_performs I _ { w with view := w.view.log e }).trace _
      (List.mem_append_right _ (List.mem_singleton.mpr rfl)))
  unfold World.notifyW World.notify
  exact performsW_eq I _ _ hr (hf _)

variable {D : Int} {P : Prog σ}

theorem fireW_eq (I : Impl C) (hP : P.Within D) (k : Key) (w : World σ C)
    (g : Good D (w.fire I P k)) : w.fireW I P k = w.fire I P k := by
  unfold World.fireW
  unfold World.fire at g ⊢
  cases h : w.view.handles[k.id]? with
  | none => rfl
  | some x =>
    obtain ⟨t, s, r⟩ := x
    cases s with
    | none => rfl
    | some s =>
      rw [h] at g
      dsimp only at g ⊢
      have hr : Room D (w.fireBegin k).view.now := by
        refine g (w.view.now, .fire k.id k.t) ?_
        refine List.mem_append_left _ ((grow_performs I _ (w.fireBegin k)).trace _ ?_)
        exact List.mem_append_right _ (List.mem_singleton.mpr rfl)
      rw [performsW_eq I _ _ hr (hP.sink s _)]

theorem fireAndRemoveW_eq (I : Impl C) (hP : P.Within D) (w : World σ C)
    (g : Good D (w.fireAndRemove I P)) : w.fireAndRemoveW I P = w.fireAndRemove I P := by
  unfold World.fireAndRemoveW
  unfold World.fireAndRemove at g ⊢
  cases h : I.front w.queue with
  | none => rfl
  | some k =>
    rw [h] at g
    dsimp only at g ⊢
    rw [fireW_eq I hP k _ g]

theorem runLoopW_eq (I : Impl C) (hP : P.Within D) (n : Nat) : ∀ w : World σ C,
    Good D (World.runLoop I P n w).1 → World.runLoopW I P n w = World.runLoop I P n w := by
  induction n with
  | zero => intro w _; rfl
  | succ n ih =>
    intro w g
    simp only [World.runLoopW]
    simp only [World.runLoop] at g ⊢
    split
    · rfl
    · rename_i hp
      rw [if_neg hp] at g
      cases hk : I.front w.queue with
      | none => rfl
      | some k =>
        rw [hk] at g
        dsimp only at g ⊢
        rw [fireAndRemoveW_eq I hP _ (g.of (grow_runLoop I P n _)), ih _ g]

theorem untilLoopW_eq (I : Impl C) (hP : P.Within D) (t : Int) (n : Nat) : ∀ w : World σ C,
    Good D (World.untilLoop I P t n w).1 → World.untilLoopW I P t n w = World.untilLoop I P t n w := by
  induction n with
  | zero => intro w _; rfl
  | succ n ih =>
    intro w g
    simp only [World.untilLoopW]
    simp only [World.untilLoop] at g ⊢
    split
    · rfl
    · rename_i hp
      rw [if_neg hp] at g
      cases hk : I.front w.queue with
      | none => rfl
      | some k =>
        rw [hk] at g
        dsimp only at g ⊢
        split
        · rfl
        · rename_i ht
          rw [if_neg ht] at g
          rw [fireAndRemoveW_eq I hP _ (g.of (grow_untilLoop I P t n _)), ih _ g]

theorem prologueW_eq (I : Impl C) (hP : P.Within D) (w : World σ C) (g : Good D (w.prologue I P)) :
    w.prologueW I P = w.prologue I P := by
  have hb : w.checkBeginW I P = w.checkBegin I P := by
    have g1 : Good D (w.checkBegin I P) :=
      g.of ((grow_setPaused _ false).trans (grow_notify I _ _ _))
    unfold World.checkBeginW
    unfold World.checkBegin at g1 ⊢
    split
    · rfl
    · rename_i hs
      rw [if_neg hs] at g1
      exact notifyW_eq I _ _ _ hP.onBegin g1
  unfold World.prologueW
  unfold World.prologue at g ⊢
  rw [hb]
  exact notifyW_eq I _ _ _ hP.onRun g

theorem epilogueW_eq (I : Impl C) (hP : P.Within D) (w : World σ C) (g : Good D (w.epilogue I P)) :
    w.epilogueW I P = w.epilogue I P := by
  have g1 : Good D ((w.setPaused true).notify I .pause P.onPause) := g.of (grow_checkEnd I P _)
  unfold World.epilogueW
  unfold World.epilogue at g ⊢
  rw [notifyW_eq I _ _ _ hP.onPause g1]
  unfold World.checkEndW
  unfold World.checkEnd at g ⊢
  split
  · rename_i hs
    rw [if_pos hs] at g
    exact notifyW_eq I _ _ _ hP.onEnd g
  · rfl

theorem closeW_eq (I : Impl C) (hP : P.Within D) (r : World σ C × Bool) (g : Good D (World.close I P r).1) :
    World.closeW I P r = World.close I P r := by
  unfold World.closeW
  unfold World.close at g ⊢
  split
  · rename_i hs
    rw [if_pos hs] at g
    rw [epilogueW_eq I hP _ g]
  · rfl

theorem runW_eq (I : Impl C) (hP : P.Within D) (fuel : Nat) (w : World σ C)
    (g : Good D (w.orStay (w.run I P fuel)).1) : w.runW I P fuel = w.run I P fuel := by
  unfold World.runW
  unfold World.run at g ⊢
  split
  · rfl
  · rename_i h1
    rw [if_neg h1] at g
    split
    · rfl
    · rename_i h2
      rw [if_neg h2] at g
      have g2 := g.of (grow_close I P (World.runLoop I P fuel (w.prologue I P)))
      have g1 := g2.of (grow_runLoop I P fuel _)
      rw [prologueW_eq I hP w g1, runLoopW_eq I hP fuel _ g2, closeW_eq I hP _ g]

theorem runUntilW_eq (I : Impl C) (hP : P.Within D) (fuel : Nat) (w : World σ C) (t : Int)
    (g : Good D (w.orStay (w.runUntil I P fuel t)).1) : w.runUntilW I P fuel t = w.runUntil I P fuel t := by
  unfold World.runUntilW
  unfold World.runUntil at g ⊢
  split
  · rfl
  · rename_i h1
    rw [if_neg h1] at g
    split
    · rfl
    · rename_i h2
      rw [if_neg h2] at g
      have g2 := g.of (grow_close I P (World.untilLoop I P t fuel (w.prologue I P)))
      have g1 := g2.of (grow_untilLoop I P t fuel _)
      rw [prologueW_eq I hP w g1, untilLoopW_eq I hP t fuel _ g2, closeW_eq I hP _ g]

/-- The clock shows its initial value or a moment of the history. -/
def Shown (w : World σ C) : Prop := w.view.now = 0 ∨ ∃ e ∈ w.view.trace, e.1 = w.view.now

theorem Shown.room {w : World σ C} (h : Shown w) (h0 : Room D 0) (g : Good D w) : Room D w.view.now := by
  rcases h with h | ⟨e, he, h⟩
  · rw [h]; exact h0
  · rw [← h]; exact g e he

theorem shown_notify (I : Impl C) (w : World σ C) (e : Entry) (f) : Shown (w.notify I e f) := by
  right
  have hn : (w.notify I e f).view.now = w.view.now := performs_now I _ _
  refine ⟨(w.view.now, e), ?_, hn.symm⟩
  exact (grow_performs I _ { w with view := w.view.log e }).trace _
      (List.mem_append_right _ (List.mem_singleton.mpr rfl))

theorem shown_epilogue (I : Impl C) (P : Prog σ) (w : World σ C) : Shown (w.epilogue I P) := by
  unfold World.epilogue World.checkEnd
  split
  · exact shown_notify I _ _ _
  · exact shown_notify I _ _ _

theorem shown_close (I : Impl C) (P : Prog σ) (r : World σ C × Bool) (h : (World.close I P r).2 = true) :
    Shown (World.close I P r).1 := by
  unfold World.close at h ⊢
  split at h
  · rename_i hs
    rw [if_pos hs]; exact shown_epilogue I P _
  · rename_i hs; exact absurd h hs

theorem shown_exec (I : Impl C) (P : Prog σ) (fuel : Nat) (w : World σ C) (o : Op σ) (h : Shown w)
    (he : (w.exec I P fuel o).2 = true) : Shown (w.exec I P fuel o).1 := by
  have hu : ∀ t, (w.orStay (w.runUntil I P fuel t)).2 = true → Shown (w.orStay (w.runUntil I P fuel t)).1 := by
    intro t
    unfold World.runUntil
    split
    · exact fun _ => h
    · split
      · exact fun _ => h
      · exact shown_close I P _
  cases o with
  | act a =>
    have hn : (w.perform I a).view.now = w.view.now := performs_now I [a] w
    simp only [World.exec, Shown, hn]
    exact h.imp id (fun ⟨e, m, q⟩ => ⟨e, (grow_perform I w a).trace e m, q⟩)
  | run =>
    revert he
    simp only [World.exec, World.run]
    split
    · exact fun _ => h
    · split
      · exact fun _ => h
      · exact shown_close I P _
  | runUntil t => exact hu t he
  | runFor dt => exact hu _ he

theorem execW_eq (I : Impl C) (hP : P.Within D) (fuel : Nat) (w : World σ C) (o : Op σ) (ho : o.within D)
    (h0 : Room D 0) (hs : Shown w) (g : Good D (w.exec I P fuel o).1) :
    w.execW I P fuel o = w.exec I P fuel o := by
  have hr : Room D w.view.now := hs.room h0 (g.of (grow_exec I P fuel w o))
  cases o with
  | act a => simp only [World.execW, World.exec, performW_eq I w a hr ho]
  | run => simp only [World.execW, World.exec]; rw [runW_eq I hP fuel w g]
  | runUntil t => simp only [World.execW, World.exec]; rw [runUntilW_eq I hP fuel w t g]
  | runFor dt =>
    simp only [World.execW, World.exec, World.runForW, World.runFor, wadd_room hr ho]
    rw [runUntilW_eq I hP fuel w _ g]

theorem execsW_eq (I : Impl C) (hP : P.Within D) (fuel : Nat) (h0 : Room D 0) (os : List (Op σ)) :
    ∀ w : World σ C, (∀ o ∈ os, o.within D) → Shown w → Good D (World.execs I P fuel w os).1 →
    World.execsW I P fuel w os = World.execs I P fuel w os := by
  induction os with
  | nil => intro w _ _ _; rfl
  | cons o os ih =>
    intro w ho hs g
    simp only [World.execsW]
    simp only [World.execs] at g ⊢
    have hsh := shown_exec I P fuel w o hs
    have heq := execW_eq I hP fuel w o (ho o List.mem_cons_self) h0 hs
    cases he : w.exec I P fuel o with
    | mk w' b =>
      rw [he] at g hsh heq
      cases b with
      | false => rw [heq g]
      | true =>
        rw [heq (Good.of (grow_execs I P fuel os w') g)]
        exact ih w' (fun o' h => ho o' (List.mem_cons_of_mem _ h)) (hsh rfl) g

/-! ## All times stay in range -/

/-- The time given, if there is one, is a count of 64 bits, and no delay is added to it. -/
def Action.lit : Action σ → Prop
  | .at t _ => I64 t
  | .in _ _ => False
  | _ => True

/-- All times that sinks give are counts of 64 bits. -/
structure Prog.Lit (P : Prog σ) : Prop where
  sink : ∀ s v, ∀ a ∈ P.sink s v, a.lit
  onBegin : ∀ v, ∀ a ∈ P.onBegin v, a.lit
  onRun : ∀ v, ∀ a ∈ P.onRun v, a.lit
  onPause : ∀ v, ∀ a ∈ P.onPause v, a.lit
  onEnd : ∀ v, ∀ a ∈ P.onEnd v, a.lit

/-- The same of the user's operations. -/
def Op.lit : Op σ → Prop
  | .act a => a.lit
  | .runUntil t => I64 t
  | .runFor _ => False
  | .run => True

/-- All times are counts of 64 bits. -/
structure Ranged (w : World σ (List Key)) : Prop where
  now : I64 w.view.now
  queue : ∀ k ∈ w.queue, I64 k.t
  handles : ∀ h ∈ w.view.handles, I64 h.t
  trace : ∀ e ∈ w.view.trace, I64 e.1

theorem mem_snoc_cases {α : Type} {x a : α} {l : List α} (h : x ∈ l ++ [a]) : x ∈ l ∨ x = a := by
  rcases List.mem_append.mp h with h | h
  · exact .inl h
  · exact .inr (List.mem_singleton.mp h)

theorem Ranged.log {w : World σ (List Key)} (h : Ranged w) (e : Entry) :
    Ranged { w with view := w.view.log e } :=
  ⟨h.now, h.queue, h.handles, fun x hx => by
    rcases mem_snoc_cases hx with hx | rfl
    · exact h.trace x hx
    · exact h.now⟩

theorem Ranged.modify {w : World σ (List Key)} (h : Ranged w) (i : Nat) (f : Handle σ → Handle σ)
    (hf : ∀ x, (f x).t = x.t) :
    Ranged { w with view := { w.view with handles := w.view.handles.modify i f } } :=
  ⟨h.now, h.queue, fun x hx => by
    obtain ⟨j, hj, rfl⟩ := List.getElem_of_mem hx
    rw [List.getElem_modify]
    rw [List.length_modify] at hj
    split
    · rw [hf]; exact h.handles _ (List.getElem_mem hj)
    · exact h.handles _ (List.getElem_mem hj), h.trace⟩

theorem ranged_scheduleAt {w : World σ (List Key)} (h : Ranged w) (t : Int) (s : Option σ) (ht : I64 t) :
    Ranged (w.orKeep (w.scheduleAt specImpl t s)) := by
  rcases scheduleAt_cases specImpl w t s with ⟨e, he⟩ | ⟨x, hc, hs, hlt, he⟩ <;> rw [he]
  · exact h
  · refine ⟨h.now, fun k hk => ?_, fun x hx => ?_, fun x hx => ?_⟩
    · rcases (mem_ins _ _ _).mp hk with rfl | hk
      · exact ht
      · exact h.queue k hk
    · rcases mem_snoc_cases hx with hx | rfl
      · exact h.handles x hx
      · exact ht
    · rcases mem_snoc_cases hx with hx | rfl
      · exact h.trace x hx
      · exact h.now

theorem ranged_perform {w : World σ (List Key)} (h : Ranged w) (a : Action σ) (ha : a.lit) :
    Ranged (w.perform specImpl a) := by
  cases a with
  | «at» t s => exact ranged_scheduleAt h t s ha
  | now s =>
    simp only [World.perform, World.scheduleNow]; split
    · exact h
    · exact ranged_scheduleAt h _ s h.now
  | «in» dt s => exact absurd ha id
  | cancel id =>
    simp only [World.perform]; split
    · exact (h.log (.cancel id)).modify id Handle.cancel (fun _ => rfl)
    · exact h
  | pause => exact ⟨h.now, h.queue, h.handles, (h.log .pauseReq).trace⟩

theorem ranged_performs (as : List (Action σ)) : ∀ w : World σ (List Key), Ranged w → (∀ a ∈ as, a.lit) →
    Ranged (w.performs specImpl as) := by
  induction as with
  | nil => intro w h _; exact h
  | cons a as ih =>
    intro w h ha
    exact ih _ (ranged_perform h a (ha a List.mem_cons_self)) (fun b hb => ha b (List.mem_cons_of_mem _ hb))

theorem ranged_notify {w : World σ (List Key)} (h : Ranged w) (e : Entry) (f : View σ → List (Action σ))
    (hf : ∀ v, ∀ a ∈ f v, a.lit) : Ranged (w.notify specImpl e f) :=
  ranged_performs _ _ (h.log e) (hf _)

theorem ranged_setNow {w : World σ (List Key)} (h : Ranged w) {t : Int} (ht : I64 t) : Ranged (w.setNow t) :=
  ⟨ht, h.queue, h.handles, h.trace⟩

theorem ranged_setPaused {w : World σ (List Key)} (h : Ranged w) (b : Bool) : Ranged (w.setPaused b) :=
  ⟨h.now, h.queue, h.handles, h.trace⟩

theorem ranged_fire (hP : P.Lit) (k : Key) {w : World σ (List Key)} (h : Ranged w) :
    Ranged (w.fire specImpl P k) := by
  unfold World.fire
  cases hx : w.view.handles[k.id]? with
  | none => exact h
  | some x =>
    obtain ⟨t, s, r⟩ := x
    cases s with
    | none => exact h
    | some s =>
      have h1 : Ranged (w.fireBegin k) := (h.log _).modify k.id Handle.fireBegin (fun _ => rfl)
      have h2 := ranged_performs (P.sink s (w.fireBegin k).view) _ h1 (hP.sink s _)
      exact (h2.log _).modify k.id Handle.fireEnd (fun _ => rfl)

theorem ranged_fireAndRemove (hP : P.Lit) {w : World σ (List Key)} (h : Ranged w) :
    Ranged (w.fireAndRemove specImpl P) := by
  unfold World.fireAndRemove
  cases hk : specImpl.front w.queue with
  | none => exact h
  | some k =>
    have h1 : Ranged { w with queue := specImpl.pre w.queue } :=
      ⟨h.now, fun x hx => h.queue x (List.mem_of_mem_tail hx), h.handles, h.trace⟩
    have h2 := ranged_fire hP k h1
    exact ⟨h2.now, h2.queue, h2.handles, h2.trace⟩

theorem ranged_front {w : World σ (List Key)} (h : Ranged w) {k : Key} (hk : specImpl.front w.queue = some k) :
    I64 k.t := h.queue k (List.mem_of_mem_head? hk)

theorem ranged_runLoop (hP : P.Lit) (n : Nat) : ∀ w : World σ (List Key), Ranged w →
    Ranged (World.runLoop specImpl P n w).1 := by
  induction n with
  | zero => intro w h; exact h
  | succ n ih =>
    intro w h
    simp only [World.runLoop]
    split
    · exact h
    · cases hk : specImpl.front w.queue with
      | none => exact h
      | some k => exact ih _ (ranged_fireAndRemove hP (ranged_setNow h (ranged_front h hk)))

theorem ranged_untilLoop (hP : P.Lit) {t : Int} (ht : I64 t) (n : Nat) : ∀ w : World σ (List Key), Ranged w →
    Ranged (World.untilLoop specImpl P t n w).1 := by
  induction n with
  | zero => intro w h; exact h
  | succ n ih =>
    intro w h
    simp only [World.untilLoop]
    split
    · exact h
    · cases hk : specImpl.front w.queue with
      | none => exact ranged_setNow h ht
      | some k =>
        dsimp only
        split
        · exact ranged_setNow h ht
        · exact ih _ (ranged_fireAndRemove hP (ranged_setNow h (ranged_front h hk)))

theorem ranged_prologue (hP : P.Lit) {w : World σ (List Key)} (h : Ranged w) :
    Ranged (w.prologue specImpl P) := by
  refine ranged_notify (ranged_setPaused ?_ false) _ _ hP.onRun
  unfold World.checkBegin
  split
  · exact h
  · exact ranged_notify (w := { w with view := { w.view with started := true } })
      ⟨h.now, h.queue, h.handles, h.trace⟩ _ _ hP.onBegin

theorem ranged_close (hP : P.Lit) {r : World σ (List Key) × Bool} (h : Ranged r.1) :
    Ranged (World.close specImpl P r).1 := by
  unfold World.close
  split
  · unfold World.epilogue World.checkEnd
    have h1 := ranged_notify (ranged_setPaused h true) .pause _ hP.onPause
    split
    · exact ranged_notify h1 _ _ hP.onEnd
    · exact h1
  · exact h

theorem ranged_exec (hP : P.Lit) (fuel : Nat) {w : World σ (List Key)} (h : Ranged w) (o : Op σ) (ho : o.lit) :
    Ranged (w.exec specImpl P fuel o).1 := by
  cases o with
  | act a => exact ranged_perform h a ho
  | run =>
    simp only [World.exec, World.run]
    split
    · exact h
    · split
      · exact h
      · exact ranged_close hP (ranged_runLoop hP fuel _ (ranged_prologue hP h))
  | runUntil t =>
    simp only [World.exec, World.runUntil]
    split
    · exact h
    · split
      · exact h
      · exact ranged_close hP (ranged_untilLoop hP ho fuel _ (ranged_prologue hP h))
  | runFor dt => exact absurd ho id

theorem ranged_execs (hP : P.Lit) (fuel : Nat) (os : List (Op σ)) : ∀ w : World σ (List Key), Ranged w →
    (∀ o ∈ os, o.lit) → Ranged (World.execs specImpl P fuel w os).1 := by
  induction os with
  | nil => intro w h _; exact h
  | cons o os ih =>
    intro w h ho
    have h1 := ranged_exec hP fuel h o (ho o List.mem_cons_self)
    simp only [World.execs]
    cases he : w.exec specImpl P fuel o with
    | mk w' b =>
      rw [he] at h1
      cases b with
      | false => exact h1
      | true => exact ih w' h1 (fun o' h => ho o' (List.mem_cons_of_mem _ h))

/-- The time points the program names are values of the type; delays are irrelevant here. -/
def Action.typed : Action σ → Prop
  | .at t _ => I64 t
  | _ => True

/-- The time points sinks give to `ScheduleAt` are values of the type. -/
structure Prog.Typed (P : Prog σ) : Prop where
  sink : ∀ s v, ∀ a ∈ P.sink s v, a.typed
  onBegin : ∀ v, ∀ a ∈ P.onBegin v, a.typed
  onRun : ∀ v, ∀ a ∈ P.onRun v, a.typed
  onPause : ∀ v, ∀ a ∈ P.onPause v, a.typed
  onEnd : ∀ v, ∀ a ∈ P.onEnd v, a.typed

/-- The time points the user gives to `ScheduleAt` and `RunUntil` are values of the type. -/
def Op.typed : Op σ → Prop
  | .act a => a.typed
  | .runUntil t => I64 t
  | _ => True

theorem lit_map {as : List (Action σ)} (n : Int) (h : ∀ a ∈ as, a.typed) :
    ∀ a ∈ as.map (Action.word n), a.lit := by
  intro a ha
  obtain ⟨b, hb, rfl⟩ := List.mem_map.mp ha
  have := h b hb
  cases b with
  | «in» dt s => exact wadd_range _ _
  | «at» t s => exact this
  | _ => trivial

theorem lit_word (h : P.Typed) : P.word.Lit :=
  ⟨fun s v => lit_map _ (h.sink s v), fun v => lit_map _ (h.onBegin v), fun v => lit_map _ (h.onRun v),
   fun v => lit_map _ (h.onPause v), fun v => lit_map _ (h.onEnd v)⟩

theorem lit_words (I : Impl C) (fuel : Nat) (os : List (Op σ)) : ∀ w : World σ C, (∀ o ∈ os, o.typed) →
    ∀ o ∈ World.words I P fuel w os, o.lit := by
  induction os with
  | nil => intro w _ o h; cases h
  | cons o os ih =>
    intro w ho o' h
    rcases List.mem_cons.mp h with rfl | h
    · have := ho o List.mem_cons_self
      cases o with
      | act a =>
        exact lit_map (as := [a]) w.view.now (fun b hb => by rw [List.mem_singleton.mp hb]; exact this) _
          (by simp)
      | run => trivial
      | runUntil t => exact this
      | runFor dt => exact wadd_range _ _
    · exact ih _ (fun x hx => ho x (List.mem_cons_of_mem _ hx)) o' h

end
end Verif.Sim
