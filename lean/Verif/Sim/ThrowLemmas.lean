import Verif.Sim.Throw
import Verif.Sim.Props

namespace Verif.Sim
section
variable {σ C : Type}

/-! ## Without exceptions, the model of `Model` -/

/-- The sink of event `k`, if there is one. -/
theorem sink_cases (w : World σ C) (k : Key) :
    (∃ t s r, w.view.handles[k.id]? = some ⟨t, some s, r⟩) ∨ (∀ t s r, w.view.handles[k.id]? ≠ some ⟨t, some s, r⟩) := by
  by_cases h : ∃ t s r, w.view.handles[k.id]? = some ⟨t, some s, r⟩
  · exact .inl h
  · exact .inr fun t s r e => h ⟨t, s, r, e⟩

theorem fire_some (I : Impl C) (P : Prog σ) {k : Key} {w : World σ C} {t : Int} {s : σ} {r : Bool}
    (h : w.view.handles[k.id]? = some ⟨t, some s, r⟩) :
    w.fire I P k = ((w.fireBegin k).performs I (P.sink s (w.fireBegin k).view)).fireEnd k := by
  simp only [World.fire, h]

theorem fire_none (I : Impl C) (P : Prog σ) {k : Key} {w : World σ C}
    (h : ∀ t s r, w.view.handles[k.id]? ≠ some ⟨t, some s, r⟩) : w.fire I P k = w := by
  unfold World.fire
  split
  · rename_i e; exact absurd e (h _ _ _)
  · rfl

theorem fireT_some (I : Impl C) (P : TProg σ) {k : Key} {w : World σ C} {t : Int} {s : σ} {r : Bool}
    (h : w.view.handles[k.id]? = some ⟨t, some s, r⟩) :
    w.fireT I P k = if P.throws s (w.fireBegin k).view then
      ((w.fireBegin k).performs I (P.prog.sink s (w.fireBegin k).view), true)
      else (((w.fireBegin k).performs I (P.prog.sink s (w.fireBegin k).view)).fireEnd k, false) := by
  simp only [World.fireT, h]

theorem fireT_none (I : Impl C) (P : TProg σ) {k : Key} {w : World σ C}
    (h : ∀ t s r, w.view.handles[k.id]? ≠ some ⟨t, some s, r⟩) : w.fireT I P k = (w, false) := by
  unfold World.fireT
  split
  · rename_i e; exact absurd e (h _ _ _)
  · rfl

theorem fireT_calm (I : Impl C) (P : TProg σ) (k : Key) (w : World σ C) (h : (w.fireT I P k).2 = false) :
    (w.fireT I P k).1 = w.fire I P.prog k := by
  rcases sink_cases w k with ⟨t, s, r, e⟩ | e
  · rw [fireT_some I P e] at h ⊢
    rw [fire_some I _ e]
    split at h
    · cases h
    · rename_i c; rw [if_neg c]
  · rw [fireT_none I P e, fire_none I _ e]

theorem fireAndRemoveT_calm (I : Impl C) (P : TProg σ) (w : World σ C) (h : (w.fireAndRemoveT I P).2 = false) :
    (w.fireAndRemoveT I P).1 = w.fireAndRemove I P.prog := by
  unfold World.fireAndRemoveT World.fireAndRemove at *
  cases hk : I.front w.queue with
  | none => rfl
  | some k =>
    rw [hk] at h
    simp only at h ⊢
    have e := fireT_calm I P k { w with queue := I.pre w.queue }
    cases hf : World.fireT I P k { w with queue := I.pre w.queue } with
    | mk w2 b =>
      rw [hf] at h e
      cases b with
      | true => cases h
      | false => simp only; rw [← e rfl]

/-- A program that never throws. -/
def TProg.calm (P : TProg σ) : Prop := ∀ s v, P.throws s v = false

theorem fireT_never {P : TProg σ} (hP : P.calm) (I : Impl C) (k : Key) (w : World σ C) : (w.fireT I P k).2 = false := by
  rcases sink_cases w k with ⟨t, s, r, e⟩ | e
  · rw [fireT_some I P e, if_neg (by rw [hP]; decide)]
  · rw [fireT_none I P e]

theorem fireAndRemoveT_never {P : TProg σ} (hP : P.calm) (I : Impl C) (w : World σ C) :
    w.fireAndRemoveT I P = (w.fireAndRemove I P.prog, false) := by
  have h : (w.fireAndRemoveT I P).2 = false := by
    unfold World.fireAndRemoveT
    cases I.front w.queue with
    | none => rfl
    | some k =>
      simp only
      have e := fireT_never hP I k { w with queue := I.pre w.queue }
      cases hf : World.fireT I P k { w with queue := I.pre w.queue } with
      | mk w2 b =>
        rw [hf] at e
        cases b with
        | true => cases e
        | false => rfl
  exact Prod.ext (fireAndRemoveT_calm I P w h) h

/-- The outcome of a run without exceptions. -/
def Outcome.of (b : Bool) : Outcome := if b then .ended else .going

theorem runLoopT_never {P : TProg σ} (hP : P.calm) (I : Impl C) (n : Nat) : ∀ w : World σ C,
    World.runLoopT I P n w = ((World.runLoop I P.prog n w).1, .of (World.runLoop I P.prog n w).2) := by
  induction n with
  | zero => intro w; rfl
  | succ n ih =>
    intro w
    simp only [World.runLoopT, World.runLoop]
    split
    · rfl
    · cases I.front w.queue with
      | none => rfl
      | some k => simp only [fireAndRemoveT_never hP]; exact ih _

theorem untilLoopT_never {P : TProg σ} (hP : P.calm) (I : Impl C) (t : Int) (n : Nat) : ∀ w : World σ C,
    World.untilLoopT I P t n w = ((World.untilLoop I P.prog t n w).1, .of (World.untilLoop I P.prog t n w).2) := by
  induction n with
  | zero => intro w; rfl
  | succ n ih =>
    intro w
    simp only [World.untilLoopT, World.untilLoop]
    split
    · rfl
    · cases I.front w.queue with
      | none => rfl
      | some k =>
        simp only
        split
        · rfl
        · simp only [fireAndRemoveT_never hP]; exact ih _

theorem closeT_never (P : TProg σ) (I : Impl C) (r : World σ C × Bool) :
    World.closeT I P (r.1, .of r.2) = ((World.close I P.prog r).1, .of (World.close I P.prog r).2) := by
  obtain ⟨w, b⟩ := r
  cases b <;> rfl

theorem execT_never {P : TProg σ} (hP : P.calm) (I : Impl C) (fuel : Nat) (w : World σ C) (o : Op σ) :
    w.execT I P fuel o = ((w.exec I P.prog fuel o).1, .of (w.exec I P.prog fuel o).2) := by
  have hu : ∀ t, w.orStayT (w.runUntilT I P fuel t) =
      ((w.orStay (w.runUntil I P.prog fuel t)).1, .of (w.orStay (w.runUntil I P.prog fuel t)).2) := by
    intro t
    unfold World.runUntilT World.runUntil
    split
    · rfl
    · split
      · rfl
      · simp only [World.orStayT, World.orStay, untilLoopT_never hP, closeT_never]
  cases o with
  | act a => rfl
  | run =>
    simp only [World.execT, World.exec]
    unfold World.runT World.run
    split
    · rfl
    · split
      · rfl
      · simp only [World.orStayT, World.orStay, runLoopT_never hP, closeT_never]
  | runUntil t => exact hu t
  | runFor dt => exact hu _

theorem execsT_never {P : TProg σ} (hP : P.calm) (I : Impl C) (fuel : Nat) (os : List (Op σ)) : ∀ w : World σ C,
    World.execsT I P fuel w os = ((World.execs I P.prog fuel w os).1, .of (World.execs I P.prog fuel w os).2) := by
  induction os with
  | nil => intro w; rfl
  | cons o os ih =>
    intro w
    simp only [World.execsT, World.execs, execT_never hP]
    cases h : w.exec I P.prog fuel o with
    | mk w' b => cases b with
      | false => rfl
      | true => exact ih w'

/-! ## Invariants of histories -/

/-- What every operation keeps. -/
structure Keeps (I : Impl C) (P : TProg σ) (J : World σ C → Prop) : Prop where
  perf : ∀ w a, J w → J (w.perform I a)
  flags : ∀ w now started paused, J w → J { w with view := { w.view with now := now, started := started, paused := paused } }
  mark : ∀ w e, e = .begin ∨ e = .run ∨ e = .pause ∨ e = .finish → J w → J { w with view := w.view.log e }
  next : ∀ w k, I.front w.queue = some k → J w → J ((w.setNow k.t).fireAndRemoveT I P).1

variable {I : Impl C} {P : TProg σ} {J : World σ C → Prop}

theorem Keeps.performs (K : Keeps I P J) (as : List (Action σ)) : ∀ w, J w → J (w.performs I as) := by
  induction as with
  | nil => intro w h; exact h
  | cons a as ih => intro w h; exact ih _ (K.perf w a h)

theorem Keeps.notify (K : Keeps I P J) {w : World σ C} {e : Entry} (he : e = .begin ∨ e = .run ∨ e = .pause ∨ e = .finish)
    (f : View σ → List (Action σ)) (h : J w) : J (w.notify I e f) :=
  K.performs _ _ (K.mark w e he h)

theorem Keeps.setNow (K : Keeps I P J) {w : World σ C} (t : Int) (h : J w) : J (w.setNow t) :=
  K.flags w t w.view.started w.view.paused h

theorem Keeps.prologue (K : Keeps I P J) {w : World σ C} (h : J w) : J (w.prologue I P.prog) := by
  refine K.notify (by simp) _ (K.flags _ _ _ false ?_)
  unfold World.checkBegin
  split
  · exact h
  · exact K.notify (by simp) _ (K.flags w w.view.now true w.view.paused h)

theorem Keeps.epilogue (K : Keeps I P J) {w : World σ C} (h : J w) : J (w.epilogue I P.prog) := by
  have h1 : J ((w.setPaused true).notify I .pause P.prog.onPause) :=
    K.notify (by simp) _ (K.flags w w.view.now w.view.started true h)
  unfold World.epilogue World.checkEnd
  split
  · exact K.notify (by simp) _ h1
  · exact h1

theorem Keeps.runLoop (K : Keeps I P J) (n : Nat) : ∀ w, J w → J (World.runLoopT I P n w).1 := by
  induction n with
  | zero => intro w h; exact h
  | succ n ih =>
    intro w h
    simp only [World.runLoopT]
    split
    · exact h
    · cases hk : I.front w.queue with
      | none => exact h
      | some k =>
        have x := K.next w k hk h
        simp only
        cases hf : (w.setNow k.t).fireAndRemoveT I P with
        | mk w1 b =>
          rw [hf] at x
          cases b with
          | true => exact x
          | false => exact ih w1 x

theorem Keeps.untilLoop (K : Keeps I P J) (t : Int) (n : Nat) : ∀ w, J w → J (World.untilLoopT I P t n w).1 := by
  induction n with
  | zero => intro w h; exact h
  | succ n ih =>
    intro w h
    simp only [World.untilLoopT]
    split
    · exact h
    · cases hk : I.front w.queue with
      | none => exact K.setNow t h
      | some k =>
        have x := K.next w k hk h
        simp only
        split
        · exact K.setNow t h
        · cases hf : (w.setNow k.t).fireAndRemoveT I P with
          | mk w1 b =>
            rw [hf] at x
            cases b with
            | true => exact x
            | false => exact ih w1 x

theorem Keeps.close (K : Keeps I P J) {r : World σ C × Outcome} (h : J r.1) : J (World.closeT I P r).1 := by
  unfold World.closeT
  split
  · exact K.epilogue h
  · exact h

theorem Keeps.exec (K : Keeps I P J) (fuel : Nat) {w : World σ C} (o : Op σ) (h : J w) : J (w.execT I P fuel o).1 := by
  have hu : ∀ t, J (w.orStayT (w.runUntilT I P fuel t)).1 := by
    intro t
    unfold World.runUntilT
    split
    · exact h
    · split
      · exact h
      · exact K.close (K.untilLoop t fuel _ (K.prologue h))
  cases o with
  | act a => exact K.perf w a h
  | run =>
    simp only [World.execT]
    unfold World.runT
    split
    · exact h
    · split
      · exact h
      · exact K.close (K.runLoop fuel _ (K.prologue h))
  | runUntil t => exact hu t
  | runFor dt => exact hu _

theorem Keeps.execs (K : Keeps I P J) (fuel : Nat) (os : List (Op σ)) : ∀ w, J w → J (World.execsT I P fuel w os).1 := by
  induction os with
  | nil => intro w h; exact h
  | cons o os ih =>
    intro w h
    have x := K.exec fuel o h
    simp only [World.execsT]
    cases hf : w.execT I P fuel o with
    | mk w1 b =>
      rw [hf] at x
      cases b with
      | going => exact x
      | ended => exact ih w1 x
      | thrown => exact ih w1 x

end
end Verif.Sim
