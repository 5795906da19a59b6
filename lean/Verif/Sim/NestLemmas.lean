import Verif.Sim.Nest
import Verif.Sim.ThrowProps

/-! Lemmas about nested runs. -/
set_option linter.unusedVariables false
namespace Verif.Sim
section
variable {σ C : Type}

/-! ### Invariants of the simulator's own notifications -/

/-- What the operations outside of the loop keep. -/
structure Keeps0 (I : Impl C) (J : World σ C → Prop) : Prop where
  perf : ∀ w a, J w → J (w.perform I a)
  flags : ∀ w started paused, J w → J { w with view := { w.view with started := started, paused := paused } }
  mark : ∀ w e, e = .begin ∨ e = .run ∨ e = .pause ∨ e = .finish → J w → J { w with view := w.view.log e }

variable {I : Impl C} {P : Prog σ} {J : World σ C → Prop}

theorem Keeps0.performs (K : Keeps0 I J) (as : List (Action σ)) : ∀ w, J w → J (w.performs I as) := by
  induction as with
  | nil => intro w h; exact h
  | cons a as ih => intro w h; exact ih _ (K.perf w a h)

theorem Keeps0.notify (K : Keeps0 I J) {w : World σ C} {e : Entry} (he : e = .begin ∨ e = .run ∨ e = .pause ∨ e = .finish)
    (f : View σ → List (Action σ)) (h : J w) : J (w.notify I e f) :=
  K.performs _ _ (K.mark w e he h)

theorem Keeps0.prologue (K : Keeps0 I J) {w : World σ C} (h : J w) : J (w.prologue I P) := by
  refine K.notify (by simp) _ (K.flags _ _ false ?_)
  unfold World.checkBegin
  split
  · exact h
  · exact K.notify (by simp) _ (K.flags w true w.view.paused h)

theorem Keeps0.epilogue (K : Keeps0 I J) {w : World σ C} (h : J w) : J (w.epilogue I P) := by
  have h1 : J ((w.setPaused true).notify I .pause P.onPause) :=
    K.notify (by simp) _ (K.flags w w.view.started true h)
  unfold World.epilogue World.checkEnd
  split
  · exact K.notify (by simp) _ h1
  · exact h1

/-! ### What is true of a view when the sinks of `ids` are being called -/

structure NV (ids : List Nat) (v : View σ) : Prop where
  hit : ∀ id ∈ ids, Hit isFireOf v id ∧ id < v.handles.length
  time : ∀ e ∈ v.trace, ∀ id t, e.2 = .fire id t → e.1 = t ∧ ∃ m, (m, Entry.sched id t) ∈ v.trace
  born : ∀ id h, v.handles[id]? = some h → ∃ m, (m, Entry.sched id h.t) ∈ v.trace

variable {ids : List Nat} {v : View σ}

theorem NV.log (n : NV ids v) {e : Entry}
    (he : ∀ id t, e = .fire id t → v.now = t ∧ ∃ m, (m, Entry.sched id t) ∈ v.trace) : NV ids (v.log e) where
  hit id h := ⟨hit_mono (n.hit id h).1, (n.hit id h).2⟩
  time x hx id t hxe := by
    rcases List.mem_append.mp hx with m | m
    · obtain ⟨a, k, b⟩ := n.time x m id t hxe
      exact ⟨a, k, List.mem_append_left _ b⟩
    · rw [List.mem_singleton.mp m] at hxe ⊢
      obtain ⟨a, k, b⟩ := he id t hxe
      exact ⟨a, k, List.mem_append_left _ b⟩
  born id h hh := by
    obtain ⟨m, b⟩ := n.born id h hh
    exact ⟨m, List.mem_append_left _ b⟩

theorem NV.modify (n : NV ids v) (i : Nat) {f : Handle σ → Handle σ} (ft : ∀ h, (f h).t = h.t) :
    NV ids ({ v with handles := v.handles.modify i f } : View σ) where
  hit id h := ⟨(n.hit id h).1, by simpa using (n.hit id h).2⟩
  time := n.time
  born id h hh := by
    obtain ⟨h0, e0, rfl⟩ := modify_get hh
    obtain ⟨m, b⟩ := n.born id h0 e0
    refine ⟨m, ?_⟩
    split
    · rw [ft]; exact b
    · exact b

theorem NV.flags (n : NV ids v) (now : Int) (started paused : Bool) :
    NV ids ({ v with now := now, started := started, paused := paused } : View σ) :=
  ⟨n.hit, n.time, fun (id : Nat) (h : Handle σ) hh => n.born id h hh⟩

theorem NV.sched (n : NV ids v) (t : Int) (s : σ) :
    NV ids { v.log (.sched v.handles.length t) with handles := v.handles ++ [⟨t, some s, false⟩] } := by
  have l := n.log (e := .sched v.handles.length t) (fun _ _ e => by cases e)
  refine ⟨fun id h => ⟨(l.hit id h).1, ?_⟩, l.time, ?_⟩
  · have := (n.hit id h).2
    simp only [List.length_append, List.length_singleton]; omega
  · intro id h hh
    by_cases lt : id < v.handles.length
    · have hh' : (v.handles ++ [(⟨t, some s, false⟩ : Handle σ)])[id]? = some h := hh
      rw [List.getElem?_append_left lt] at hh'
      exact l.born id h hh'
    · have hh' : (v.handles ++ [(⟨t, some s, false⟩ : Handle σ)])[id]? = some h := hh
      rw [List.getElem?_append_right (by omega)] at hh'
      have b := (List.getElem?_eq_some_iff.mp hh').1
      simp only [List.length_singleton] at b
      have z : id = v.handles.length := by omega
      subst z
      simp only [Nat.sub_self, List.getElem?_cons_zero, Option.some.injEq] at hh'
      subst hh'
      exact ⟨v.now, List.mem_append_right _ (List.mem_singleton.mpr rfl)⟩

theorem NV.perform (I : Impl C) (w : World σ C) (a : Action σ) (n : NV ids w.view) : NV ids (w.perform I a).view := by
  have h1 : ∀ t s, NV ids (w.orKeep (w.scheduleAt I t s)).view := by
    intro t s
    rcases scheduleAt_cases I w t s with ⟨e, he⟩ | ⟨x, hc, hs, ht, he⟩
    · rw [he]; exact n
    · rw [he]; exact n.sched t x
  cases a with
  | «at» t s => exact h1 t s
  | now s =>
    simp only [World.perform, World.scheduleNow]; split
    · exact n
    · exact h1 _ s
  | «in» dt s =>
    simp only [World.perform, World.scheduleIn]; split
    · exact n
    · exact h1 _ s
  | cancel id =>
    simp only [World.perform]; split
    · exact (n.log (e := .cancel id) (fun _ _ e => by cases e)).modify id (fun _ => rfl)
    · exact n
  | pause => exact (n.log (e := .pauseReq) (fun _ _ e => by cases e)).flags w.view.now w.view.started true

theorem NV.sub {ids' : List Nat} (n : NV ids v) (h : ∀ id ∈ ids', id ∈ ids) : NV ids' v :=
  ⟨fun id m => n.hit id (h id m), n.time, n.born⟩

/-! ### The invariant of nested runs with a heap -/

/-- The events whose sinks are being called. -/
def called : List (NFrame σ) → List Nat
  | [] => []
  | .sink k _ :: fs => k.id :: called fs
  | .user _ :: fs => called fs
  | .loop _ :: fs => called fs

def NJ (A : HeapAlg) (ids : List Nat) (w : World σ (List Key)) : Prop := (heapSch A).J w ∧ NV ids w.view

theorem NJ.keeps (A : HeapAlg) (ids : List Nat) : Keeps0 (heapImpl A) (NJ (σ := σ) A ids) where
  perf w a h := ⟨(heapSch A).perform w a h.1, h.2.perform (heapImpl A) w a⟩
  flags w _ _ h := ⟨⟨h.1.1, h.1.2.flags _ _ _⟩, h.2.flags _ _ _⟩
  mark w e he h := by
    refine ⟨⟨h.1.1, ?_⟩, h.2.log ?_⟩
    · rcases he with rfl | rfl | rfl | rfl
      · exact h.1.2.mark (heapSch A).counted.begin (by simp) (by simp) (by simp)
      · exact h.1.2.mark (heapSch A).counted.run (by simp) (by simp) (by simp)
      · exact h.1.2.mark (heapSch A).counted.pause (by simp) (by simp) (by simp)
      · exact h.1.2.mark (heapSch A).counted.finish (by simp) (by simp) (by simp)
    · rintro id t rfl
      simp at he

theorem NJ.setNow {A : HeapAlg} {ids : List Nat} {w : World σ (List Key)} (h : NJ A ids w) (t : Int) : NJ A ids (w.setNow t) :=
  ⟨⟨h.1.1, h.1.2.flags _ _ _⟩, h.2.flags _ _ _⟩

theorem NJ.lateN {A : HeapAlg} {ids : List Nat} {w : World σ (List Key)} (h : NJ A ids w) (t : Option Int) : NJ A ids (w.lateN t) := by
  cases t with
  | none => exact h
  | some t => exact h.setNow t

theorem opN_keeps (A : HeapAlg) (P : NProg σ) {fs : List (NFrame σ)} {w : World σ (List Key)} (o : Op σ)
    (h : NJ A (called fs) w) : NJ A (called (w.opN (heapImpl A) P fs o).1) (w.opN (heapImpl A) P fs o).2 := by
  have enter : ∀ t, NJ A (called (w.enterN (heapImpl A) P t fs).1) (w.enterN (heapImpl A) P t fs).2 := by
    intro t
    unfold World.enterN
    split
    · exact h
    · split
      · exact h
      · exact (NJ.keeps A (called fs)).prologue h
  cases o with
  | act a => exact (NJ.keeps A (called fs)).perf w a h
  | run => exact enter none
  | runUntil t => exact enter (some t)
  | runFor dt => exact enter _

theorem callN_keeps (A : HeapAlg) (P : NProg σ) {fs : List (NFrame σ)} {w : World σ (List Key)} {k : Key}
    (hk : (heapImpl A).front w.queue = some k) (hn : w.view.now = k.t) (h : NJ A (called fs) w) :
    NJ A (called (w.callN (heapImpl A) P k fs).1) (w.callN (heapImpl A) P k fs).2 := by
  have hkm := (heapSch A).front_mem _ _ hk
  obtain ⟨hd, hd1, hd2⟩ := h.1.2.timed k hkm
  rcases sink_cases w k with ⟨t, s, r, e⟩ | e
  · have F : w.callN (heapImpl A) P k fs =
        (.sink k (P.sink s (({ w with queue := (heapImpl A).pre w.queue } : World σ (List Key)).fireBegin k).view) :: fs,
          ({ w with queue := (heapImpl A).pre w.queue } : World σ (List Key)).fireBegin k) := by
      simp only [World.callN, e]
    rw [F]
    refine ⟨(heapSch A).during ⟨P.own, fun _ _ => false⟩ hk h.1 e [], ?_⟩
    have b := h.2.born _ _ hd1
    rw [hd2] at b
    have n1 := (h.2.log (e := .fire k.id k.t) (fun id t e => by cases e; exact ⟨hn, b⟩)).modify k.id
      (f := Handle.fireBegin) (fun _ => rfl)
    refine ⟨?_, n1.time, n1.born⟩
    intro id hid
    rcases List.mem_cons.mp hid with rfl | hid
    · refine ⟨hit_log (by simp [isFireOf]), ?_⟩
      have := (List.getElem?_eq_some_iff.mp hd1).1
      simpa [World.fireBegin, View.log] using this
    · exact n1.hit id hid
  · have F : w.callN (heapImpl A) P k fs = (fs, { w with queue := (heapImpl A).pre w.queue }) := by
      unfold World.callN
      dsimp only
      split
      · rename_i e'; exact absurd e' (e _ _ _)
      · rfl
    rw [F]
    refine ⟨⟨(heapSch A).pre _ _ h.1.1, ?_⟩, h.2⟩
    refine h.1.2.drop (fun x hx => (heapSch A).pre_sub _ _ hx) ?_
    intro x hx
    by_cases exk : x = k
    · subst exk
      right
      refine h.1.2.dead x.id hd hd1 ?_
      cases hs : hd.sink with
      | none => rfl
      | some s =>
        obtain ⟨a, b, c⟩ := hd
        simp only at hs
        subst hs
        exact absurd hd1 (e _ _ _)
    · exact .inl ((heapSch A).pre_rest _ _ k h.1.1 hk x hx exk)

theorem stepN_keeps (A : HeapAlg) (P : NProg σ) (s : NState σ (List Key)) (h : NJ A (called s.1) s.2) :
    NJ A (called (stepN (heapImpl A) P s).1) (stepN (heapImpl A) P s).2 := by
  obtain ⟨fs, w⟩ := s
  cases fs with
  | nil => exact h
  | cons f fs =>
    cases f with
    | user r =>
      cases r with
      | nil => exact h
      | cons o r => exact opN_keeps A P (fs := .user r :: fs) o h
    | sink k r =>
      cases r with
      | cons o r => exact opN_keeps A P (fs := .sink k r :: fs) o h
      | nil =>
        have hk := h.2.hit k.id List.mem_cons_self
        have nk : ∀ x ∈ w.queue, x.id ≠ k.id := by
          intro x hx e
          obtain ⟨y, m, ey⟩ := hk.1
          have := h.1.2.fresh x hx y m
          rw [e, ey] at this; cases this
        refine ⟨⟨?_, ?_⟩, ?_⟩
        · have := (heapSch A).post _ _ k h.1.1
          simpa only [stepN, World.fireEnd, View.log, List.length_modify] using this
        · exact h.1.2.fireEnd (heapSch A).counted (hit_mono hk.1) hk.2 (fun _ m => m) (fun _ m => .inl m) nk
            (.inl fun id => rfl)
        · exact ((h.2.sub (fun id m => List.mem_cons_of_mem _ m)).log (e := .done k.id) (fun _ _ e => by cases e)).modify k.id
            (fun _ => rfl)
    | loop t =>
      simp only [stepN, World.loopN]
      have K := NJ.keeps (σ := σ) A (called fs)
      split
      · exact K.epilogue h
      · cases hk : (heapImpl A).front w.queue with
        | none => exact K.epilogue (NJ.lateN h t)
        | some k =>
          dsimp only
          split
          · exact K.epilogue (NJ.lateN h t)
          · refine callN_keeps A P (fs := .loop t :: fs) (w := w.setNow k.t) hk rfl ?_
            exact NJ.setNow h k.t

theorem stepsN_keeps (A : HeapAlg) (P : NProg σ) (n : Nat) : ∀ s : NState σ (List Key), NJ A (called s.1) s.2 →
    NJ A (called (stepsN (heapImpl A) P n s).1) (stepsN (heapImpl A) P n s).2 := by
  induction n with
  | zero => intro s h; exact h
  | succ n ih => intro s h; exact ih _ (stepN_keeps A P s h)

theorem execN_keeps (A : HeapAlg) (P : NProg σ) (os : List (Op σ)) (n : Nat) :
    NJ A (called (execN (heapImpl A) P os n).1) (execN (heapImpl A) P os n).2 := by
  refine stepsN_keeps A P n _ ⟨(heapSch A).reach ⟨P.own, fun _ _ => false⟩ 0 [], ?_⟩
  refine ⟨?_, ?_, ?_⟩
  · intro id h; simp [called] at h
  · intro e he; simp [World.init] at he
  · intro id h hh; simp [World.init] at hh

/-! ### The clock -/

/-- The clock has not gone back, and no event in the queue is overdue. -/
structure CV (w : World σ (List Key)) : Prop where
  ahead : ∀ k ∈ w.queue, w.view.now ≤ k.t
  mono : w.view.trace.Pairwise fun a b => a.1 ≤ b.1
  upto : ∀ e ∈ w.view.trace, e.1 ≤ w.view.now

theorem log_mono {v : View σ} (h : v.trace.Pairwise fun a b => a.1 ≤ b.1) (u : ∀ e ∈ v.trace, e.1 ≤ v.now) (e : Entry) :
    ((v.log e).trace.Pairwise fun a b => a.1 ≤ b.1) ∧ ∀ x ∈ (v.log e).trace, x.1 ≤ v.now := by
  refine ⟨List.pairwise_append.mpr ⟨h, List.pairwise_singleton _ _, ?_⟩, ?_⟩
  · intro a ha b hb
    rw [List.mem_singleton.mp hb]; exact u a ha
  · intro x hx
    rcases List.mem_append.mp hx with m | m
    · exact u x m
    · rw [List.mem_singleton.mp m]; exact Int.le_refl _

theorem perform_trace (I : Impl C) (w : World σ C) (a : Action σ) :
    (w.perform I a).view.trace = w.view.trace ∨ ∃ e, (w.perform I a).view.trace = (w.view.log e).trace := by
  have h1 : ∀ t s, (w.orKeep (w.scheduleAt I t s)).view.trace = w.view.trace ∨
      ∃ e, (w.orKeep (w.scheduleAt I t s)).view.trace = (w.view.log e).trace := by
    intro t s
    rcases scheduleAt_cases I w t s with ⟨e, he⟩ | ⟨x, hc, hs, ht, he⟩
    · rw [he]; exact .inl rfl
    · rw [he]; exact .inr ⟨_, rfl⟩
  cases a with
  | «at» t s => exact h1 t s
  | now s =>
    simp only [World.perform, World.scheduleNow]; split
    · exact .inl rfl
    · exact h1 _ s
  | «in» dt s =>
    simp only [World.perform, World.scheduleIn]; split
    · exact .inl rfl
    · exact h1 _ s
  | cancel id =>
    simp only [World.perform]; split
    · exact .inr ⟨_, rfl⟩
    · exact .inl rfl
  | pause => exact .inr ⟨_, rfl⟩

/-- The invariant, with the clock not behind `n0`. -/
def CJ (A : HeapAlg) (n0 : Int) (w : World σ (List Key)) : Prop := (heapSch A).J w ∧ CV w ∧ w.view.now = n0

theorem CJ.keeps (A : HeapAlg) (n0 : Int) : Keeps0 (heapImpl A) (CJ (σ := σ) A n0) where
  perf w a h := by
    obtain ⟨a1, a2, a3, -, -⟩ := perform_queue (heapSch A) w a h.1
    refine ⟨(heapSch A).perform w a h.1, ⟨?_, ?_, ?_⟩, a3.trans h.2.2⟩
    · intro k hk
      rw [a3]
      rcases a2 k hk with m | m
      · exact h.2.1.ahead k m
      · exact m.2
    · rcases perform_trace (heapImpl A) w a with e | ⟨x, e⟩
      · rw [e]; exact h.2.1.mono
      · rw [e]; exact (log_mono h.2.1.mono h.2.1.upto x).1
    · rw [a3]
      rcases perform_trace (heapImpl A) w a with e | ⟨x, e⟩
      · rw [e]; exact h.2.1.upto
      · rw [e]; exact (log_mono h.2.1.mono h.2.1.upto x).2
  flags w _ _ h := ⟨⟨h.1.1, h.1.2.flags _ _ _⟩, ⟨h.2.1.ahead, h.2.1.mono, h.2.1.upto⟩, h.2.2⟩
  mark w e he h := by
    refine ⟨((heapSch A).keeps (σ := σ) ⟨⟨fun _ _ => [], fun _ => [], fun _ => [], fun _ => [], fun _ => []⟩, fun _ _ => false⟩).mark
      w e he h.1, ⟨h.2.1.ahead, ?_, ?_⟩, h.2.2⟩
    · exact (log_mono h.2.1.mono h.2.1.upto e).1
    · exact (log_mono h.2.1.mono h.2.1.upto e).2

theorem CJ.to {A : HeapAlg} {n0 : Int} {w : World σ (List Key)} (h : CJ A n0 w) {t : Int} (ht : n0 ≤ t)
    (hq : ∀ k ∈ w.queue, t ≤ k.t) : CJ A t (w.setNow t) := by
  refine ⟨⟨h.1.1, h.1.2.flags _ _ _⟩, ⟨hq, h.2.1.mono, ?_⟩, rfl⟩
  intro e he
  exact Int.le_trans (h.2.1.upto e he) (by rw [h.2.2]; exact ht)

theorem front_least (A : HeapAlg) {c : List Key} {n : Nat} {k : Key} (h : (heapSch A).V c n)
    (hk : (heapImpl A).front c = some k) : ∀ x ∈ c, k.t ≤ x.t := by
  obtain ⟨s, rfl, -⟩ := heap_pre A h hk
  intro x hx
  have := heap_head_min h.1 x hx
  simp only [Key.lt, Bool.or_eq_false_iff, decide_eq_false_iff_not] at this
  omega

/-- The innermost loop under way. -/
def topLoop : List (NFrame σ) → Option (Option Int)
  | [] => none
  | .loop t :: _ => some t
  | .user _ :: fs => topLoop fs
  | .sink _ _ :: fs => topLoop fs

/-- The innermost loop has not passed its end, or will leave at once. -/
def InTime (s : NState σ (List Key)) : Prop :=
  ∀ t, topLoop s.1 = some (some t) → s.2.view.now ≤ t ∨ s.2.view.paused = true

/-- The next operation does not run the simulator to a time in the past. -/
def ForwardN (s : NState σ C) : Prop :=
  match s.1 with
  | .user (o :: _) :: _ => o.forward s.2
  | .sink _ (o :: _) :: _ => o.forward s.2
  | _ => True

/-- Nothing but `Run` and `RunUntil` takes a pause back. -/
theorem performs_paused (I : Impl C) (as : List (Action σ)) (w : World σ C) (h : w.view.paused = true) :
    (w.performs I as).view.paused = true := by
  obtain ⟨l, e, -⟩ := ext_performs I as w
  rw [e.paused, h]; rfl

theorem epilogue_paused (I : Impl C) (P : Prog σ) (w : World σ C) : (w.epilogue I P).view.paused = true := by
  have h : ((w.setPaused true).notify I .pause P.onPause).view.paused = true := performs_paused I _ _ rfl
  unfold World.epilogue World.checkEnd
  split
  · exact performs_paused I _ _ h
  · exact h

theorem opN_clock (A : HeapAlg) (P : NProg σ) {fs : List (NFrame σ)} {w : World σ (List Key)} (o : Op σ) (ho : o.forward w)
    (h : CJ A w.view.now w) (ht : InTime (fs, w)) :
    CJ A w.view.now (w.opN (heapImpl A) P fs o).2 ∧ InTime (w.opN (heapImpl A) P fs o) := by
  have enter : ∀ t, (∀ t', t = some t' → w.view.now ≤ t') →
      CJ A w.view.now (w.enterN (heapImpl A) P t fs).2 ∧ InTime (w.enterN (heapImpl A) P t fs) := by
    intro t hf
    unfold World.enterN
    split
    · exact ⟨h, ht⟩
    · split
      · exact ⟨h, ht⟩
      · have h' := (CJ.keeps A w.view.now).prologue (P := P.own) h
        refine ⟨h', fun t' e => .inl ?_⟩
        simp only [topLoop, Option.some.injEq] at e
        rw [h'.2.2]; exact hf t' e
  cases o with
  | act a =>
    have h' := (CJ.keeps A w.view.now).perf w a h
    refine ⟨h', fun t e => ?_⟩
    rcases ht t e with x | x
    · exact .inl (Int.le_trans (Int.le_of_eq h'.2.2) x)
    · exact .inr (performs_paused (heapImpl A) [a] w x)
  | run => exact enter none (fun _ e => by cases e)
  | runUntil t => exact enter _ (fun t' e => by cases e; exact ho)
  | runFor dt =>
    refine enter _ (fun t' e => ?_)
    cases e
    have : 0 ≤ dt := ho
    omega

theorem stepN_clock (A : HeapAlg) (P : NProg σ) (s : NState σ (List Key)) (hs : NJ A (called s.1) s.2) (hf : ForwardN s)
    (h : CJ A s.2.view.now s.2) (ht : InTime s) :
    ∃ n1, s.2.view.now ≤ n1 ∧ CJ A n1 (stepN (heapImpl A) P s).2 ∧ InTime (stepN (heapImpl A) P s) := by
  have hs' := stepN_keeps A P s hs
  obtain ⟨fs, w⟩ := s
  cases fs with
  | nil => exact ⟨_, Int.le_refl _, h, ht⟩
  | cons f fs =>
    cases f with
    | user r =>
      cases r with
      | nil => exact ⟨_, Int.le_refl _, h, fun t e => ht t e⟩
      | cons o r => exact ⟨_, Int.le_refl _, opN_clock A P (fs := .user r :: fs) o hf h (fun t e => ht t e)⟩
    | sink k r =>
      cases r with
      | cons o r => exact ⟨_, Int.le_refl _, opN_clock A P (fs := .sink k r :: fs) o hf h (fun t e => ht t e)⟩
      | nil =>
        refine ⟨_, Int.le_refl _, ⟨hs'.1, ⟨h.2.1.ahead, ?_, ?_⟩, rfl⟩, fun t e => ht t e⟩
        · exact (log_mono h.2.1.mono h.2.1.upto (.done k.id)).1
        · exact (log_mono h.2.1.mono h.2.1.upto (.done k.id)).2
    | loop t =>
      have leave : ∀ (n1 : Int) (w' : World σ (List Key)), CJ A n1 w' →
          CJ A n1 (w'.epilogue (heapImpl A) P.own) ∧ InTime (fs, w'.epilogue (heapImpl A) P.own) :=
        fun n1 w' h' => ⟨(CJ.keeps A n1).epilogue h', fun _ _ => .inr (epilogue_paused _ _ _)⟩
      have late : w.view.paused = false → (∀ t', t = some t' → ∀ k ∈ w.queue, t' ≤ k.t) →
          ∃ n1, w.view.now ≤ n1 ∧ CJ A n1 (w.lateN t) := by
        intro hp hq
        cases t with
        | none => exact ⟨_, Int.le_refl _, h⟩
        | some t =>
          have := ht t rfl
          rw [hp] at this
          have hle : w.view.now ≤ t := by simpa using this
          exact ⟨t, hle, h.to hle (hq t rfl)⟩
      simp only [stepN, World.loopN] at hs' ⊢
      by_cases hp : w.view.paused = true
      · rw [if_pos hp]
        exact ⟨_, Int.le_refl _, leave _ _ h⟩
      · rw [if_neg hp] at hs' ⊢
        have hp' : w.view.paused = false := by simpa using hp
        cases hk : (heapImpl A).front w.queue with
        | none =>
          have hq : w.queue = [] := List.head?_eq_none_iff.mp hk
          obtain ⟨n1, a, b⟩ := late hp' (fun _ _ k m => by rw [hq] at m; cases m)
          exact ⟨n1, a, leave _ _ b⟩
        | some k =>
          rw [hk] at hs'
          have least := front_least A h.1.1 hk
          dsimp only at hs' ⊢
          by_cases hpast : pastN t k = true
          · rw [if_pos hpast]
            obtain ⟨n1, a, b⟩ := late hp' (fun t' e x m => by
              subst e
              simp only [pastN, decide_eq_true_eq] at hpast
              have := least x m
              omega)
            exact ⟨n1, a, leave _ _ b⟩
          · rw [if_neg hpast] at hs' ⊢
            have hkm := (heapSch A).front_mem _ _ hk
            have h1 : CJ A k.t (w.setNow k.t) := h.to (h.2.1.ahead k hkm) least
            refine ⟨k.t, h.2.1.ahead k hkm, ?_⟩
            have hJ := hs'.1
            have inl : ∀ t', t = some t' → k.t ≤ t' := by
              intro t' e
              subst e
              simp only [pastN, decide_eq_true_eq] at hpast
              omega
            rcases sink_cases (w.setNow k.t) k with ⟨u, s, r, e⟩ | e
            · simp only [World.callN, e] at hJ ⊢
              refine ⟨⟨hJ, ⟨?_, ?_, ?_⟩, rfl⟩, ?_⟩
              · intro x hx
                exact h1.2.1.ahead x ((heapSch A).pre_sub _ _ hx)
              · exact (log_mono h1.2.1.mono h1.2.1.upto (.fire k.id k.t)).1
              · exact (log_mono h1.2.1.mono h1.2.1.upto (.fire k.id k.t)).2
              · intro t' e'
                simp only [topLoop, Option.some.injEq] at e'
                exact .inl (inl t' e')
            · have G : (w.setNow k.t).callN (heapImpl A) P k (.loop t :: fs) =
                  (.loop t :: fs, { w.setNow k.t with queue := (heapImpl A).pre w.queue }) := by
                unfold World.callN
                dsimp only
                split
                · rename_i e'; exact absurd e' (e _ _ _)
                · rfl
              rw [G] at hJ ⊢
              refine ⟨⟨hJ, ⟨?_, h1.2.1.mono, h1.2.1.upto⟩, rfl⟩, ?_⟩
              · intro x hx
                exact h1.2.1.ahead x ((heapSch A).pre_sub _ _ hx)
              · intro t' e'
                simp only [topLoop, Option.some.injEq] at e'
                exact .inl (inl t' e')

theorem stepsN_succ (I : Impl C) (P : NProg σ) (n : Nat) : ∀ s : NState σ C,
    stepsN I P (n + 1) s = stepN I P (stepsN I P n s) := by
  induction n with
  | zero => intro s; rfl
  | succ n ih => intro s; exact ih (stepN I P s)

theorem execN_clock (A : HeapAlg) (P : NProg σ) (os : List (Op σ)) (n : Nat)
    (hf : ∀ m, m < n → ForwardN (execN (heapImpl A) P os m)) :
    CJ A (execN (heapImpl A) P os n).2.view.now (execN (heapImpl A) P os n).2 ∧ InTime (execN (heapImpl A) P os n) ∧
      ∀ m, m ≤ n → (execN (heapImpl A) P os m).2.view.now ≤ (execN (heapImpl A) P os n).2.view.now := by
  induction n with
  | zero =>
    refine ⟨⟨(execN_keeps A P os 0).1, ⟨?_, ?_, ?_⟩, rfl⟩, ?_, ?_⟩
    · intro k hk
      exact absurd hk (by simp [execN, stepsN, World.init, heapImpl])
    · simp [execN, stepsN, World.init]
    · intro e he; simp [execN, stepsN, World.init] at he
    · intro t e; simp [execN, stepsN, topLoop] at e
    · intro m hm
      have : m = 0 := by omega
      subst this
      exact Int.le_refl _
  | succ n ih =>
    obtain ⟨h1, h2, h3⟩ := ih (fun m hm => hf m (by omega))
    obtain ⟨n1, a, b, c⟩ := stepN_clock A P _ (execN_keeps A P os n) (hf n (by omega)) h1 h2
    have e : execN (heapImpl A) P os (n + 1) = stepN (heapImpl A) P (execN (heapImpl A) P os n) := stepsN_succ _ _ n _
    rw [e]
    refine ⟨?_, c, ?_⟩
    · have := b.2.2
      rw [this]; exact b
    · intro m hm
      rw [b.2.2]
      rcases Nat.lt_or_eq_of_le hm with l | l
      · exact Int.le_trans (h3 m (by omega)) a
      · subst l
        rw [e, b.2.2]
        exact Int.le_refl _

/-! ### Programs without nested runs -/

/-- `s'` is reached from `s`. -/
def Leads (I : Impl C) (P : NProg σ) (s s' : NState σ C) : Prop := ∃ n, stepsN I P n s = s'

theorem stepsN_add (I : Impl C) (P : NProg σ) (m n : Nat) : ∀ s : NState σ C,
    stepsN I P (m + n) s = stepsN I P n (stepsN I P m s) := by
  induction m with
  | zero => intro s; rw [Nat.zero_add]; rfl
  | succ m ih => intro s; rw [show m + 1 + n = m + n + 1 by omega]; exact ih _

theorem Leads.refl (I : Impl C) (P : NProg σ) (s : NState σ C) : Leads I P s s := ⟨0, rfl⟩

theorem Leads.trans {P : NProg σ} {s s' s'' : NState σ C} (h : Leads I P s s') (h' : Leads I P s' s'') :
    Leads I P s s'' := by
  obtain ⟨m, rfl⟩ := h
  obtain ⟨n, rfl⟩ := h'
  exact ⟨m + n, stepsN_add I P m n s⟩

theorem Leads.step {P : NProg σ} {s s' : NState σ C} (h : Leads I P (stepN I P s) s') : Leads I P s s' := by
  obtain ⟨n, rfl⟩ := h
  exact ⟨n + 1, rfl⟩

theorem sink_flat (P : NProg σ) (k : Key) (fs : List (NFrame σ)) (as : List (Action σ)) : ∀ w : World σ C,
    Leads I P (.sink k (as.map .act) :: fs, w) (fs, { (w.performs I as).fireEnd k with queue := I.post k (w.performs I as).queue }) := by
  induction as with
  | nil => intro w; exact Leads.step (Leads.refl I P _)
  | cons a as ih => intro w; exact Leads.step (ih (w.perform I a))

theorem callN_flat (P : Prog σ) (k : Key) (fs : List (NFrame σ)) (w : World σ C) (hk : I.front w.queue = some k) :
    Leads I (.flat P) (w.callN I (.flat P) k fs) (fs, w.fireAndRemove I P) := by
  have F : w.fireAndRemove I P = { ({ w with queue := I.pre w.queue } : World σ C).fire I P k with
      queue := I.post k (({ w with queue := I.pre w.queue } : World σ C).fire I P k).queue } := by
    simp only [World.fireAndRemove, hk]
  rcases sink_cases w k with ⟨t, s, r, e⟩ | e
  · have G : w.callN I (.flat P) k fs =
        (.sink k ((P.sink s (({ w with queue := I.pre w.queue } : World σ C).fireBegin k).view).map .act) :: fs,
          ({ w with queue := I.pre w.queue } : World σ C).fireBegin k) := by
      simp only [World.callN, e]; rfl
    rw [G, F, fire_some I P (w := { w with queue := I.pre w.queue }) e]
    exact sink_flat _ k fs _ _
  · rw [F, fire_none I P (w := { w with queue := I.pre w.queue }) e]
    have G : w.callN I (.flat P) k fs = (fs, { w with queue := I.post k (I.pre w.queue) }) := by
      unfold World.callN
      dsimp only
      split
      · rename_i e'; exact absurd e' (e _ _ _)
      · rfl
    rw [G]
    exact Leads.refl _ _ _

theorem runLoop_flat (P : Prog σ) (fs : List (NFrame σ)) (n : Nat) : ∀ w w' : World σ C,
    World.runLoop I P n w = (w', true) → Leads I (.flat P) (.loop none :: fs, w) (fs, w'.epilogue I P) := by
  induction n with
  | zero => intro w w' h; simp [World.runLoop] at h
  | succ n ih =>
    intro w w' h
    simp only [World.runLoop] at h
    apply Leads.step
    simp only [stepN, World.loopN]
    by_cases c : w.view.paused = true
    · rw [if_pos c] at h ⊢
      cases h; exact Leads.refl _ _ _
    · rw [if_neg c] at h ⊢
      cases hk : I.front w.queue with
      | none => rw [hk] at h; cases h; exact Leads.refl _ _ _
      | some k =>
        rw [hk] at h
        exact (callN_flat P k (.loop none :: fs) (w.setNow k.t) hk).trans (ih _ _ h)

theorem untilLoop_flat (P : Prog σ) (t : Int) (fs : List (NFrame σ)) (n : Nat) : ∀ w w' : World σ C,
    World.untilLoop I P t n w = (w', true) → Leads I (.flat P) (.loop (some t) :: fs, w) (fs, w'.epilogue I P) := by
  induction n with
  | zero => intro w w' h; simp [World.untilLoop] at h
  | succ n ih =>
    intro w w' h
    simp only [World.untilLoop] at h
    apply Leads.step
    simp only [stepN, World.loopN]
    by_cases c : w.view.paused = true
    · rw [if_pos c] at h ⊢
      cases h; exact Leads.refl _ _ _
    · rw [if_neg c] at h ⊢
      cases hk : I.front w.queue with
      | none => rw [hk] at h; cases h; exact Leads.refl _ _ _
      | some k =>
        rw [hk] at h
        simp only at h ⊢
        by_cases d : k.t > t
        · rw [if_pos d] at h
          rw [if_pos (by simpa [pastN] using d)]
          cases h; exact Leads.refl _ _ _
        · rw [if_neg d] at h
          rw [if_neg (by simpa [pastN] using d)]
          exact (callN_flat P k (.loop (some t) :: fs) (w.setNow k.t) hk).trans (ih _ _ h)

theorem execs_flat (P : Prog σ) (fuel : Nat) (os : List (Op σ)) : ∀ w w' : World σ C,
    World.execs I P fuel w os = (w', true) → Leads I (.flat P) ([.user os], w) ([], w') := by
  induction os with
  | nil =>
    intro w w' h
    simp only [World.execs, Prod.mk.injEq, and_true] at h
    subst h
    exact Leads.step (Leads.refl _ _ _)
  | cons o os ih =>
    intro w w' h
    simp only [World.execs] at h
    cases hx : w.exec I P fuel o with
    | mk w1 b =>
      rw [hx] at h
      cases b with
      | false => simp at h
      | true =>
        refine Leads.trans ?_ (ih w1 w' h)
        apply Leads.step
        simp only [stepN]
        have hu : ∀ t, w.orStay (w.runUntil I P fuel t) = (w1, true) →
            Leads I (.flat P) (w.enterN I (.flat P) (some t) [.user os]) ([.user os], w1) := by
          intro t hx
          unfold World.runUntil at hx
          unfold World.enterN
          split at hx
          · rename_i c; rw [if_pos c]; cases hx; exact Leads.refl _ _ _
          · rename_i c; rw [if_neg c]
            split at hx
            · rename_i d; rw [if_pos d]; cases hx; exact Leads.refl _ _ _
            · rename_i d; rw [if_neg d]
              simp only [World.orStay, World.close] at hx
              cases hl : World.untilLoop I P t fuel (w.prologue I P) with
              | mk w2 b =>
                rw [hl] at hx
                cases b with
                | false => cases hx
                | true => cases hx; exact untilLoop_flat P t _ fuel _ _ hl
        cases o with
        | act a => cases hx; exact Leads.refl _ _ _
        | run =>
          simp only [World.exec] at hx
          simp only [World.opN]
          unfold World.run at hx
          unfold World.enterN
          split at hx
          · rename_i c; rw [if_pos c]; cases hx; exact Leads.refl _ _ _
          · rename_i c; rw [if_neg c]
            split at hx
            · rename_i d; rw [if_pos d]; cases hx; exact Leads.refl _ _ _
            · rename_i d; rw [if_neg d]
              simp only [World.orStay, World.close] at hx
              cases hl : World.runLoop I P fuel (w.prologue I P) with
              | mk w2 b =>
                rw [hl] at hx
                cases b with
                | false => cases hx
                | true => cases hx; exact runLoop_flat P _ fuel _ _ hl
        | runUntil t => exact hu t hx
        | runFor dt => exact hu _ hx

end
end Verif.Sim
