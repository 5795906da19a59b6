import Verif.Sim.Free
import Verif.Sim.NestProps

/-! Lemmas about simulators in which every sink may do everything. -/
set_option linter.unusedVariables false
namespace Verif.Sim
section
variable {σ C : Type}

/-! ### The invariant with a heap -/

/-- The events whose sinks are being called, or destroyed after the call. -/
def fcalled : List (FFrame σ) → List Nat
  | [] => []
  | .body (.sink k) _ _ :: fs => k.id :: fcalled fs
  | .body .client _ _ :: fs => fcalled fs
  | .mid _ :: fs => fcalled fs
  | .loop _ :: fs => fcalled fs
  | .last :: fs => fcalled fs
  | .guard :: fs => fcalled fs
  | .cancelled _ :: fs => fcalled fs
  | .fired k :: fs => k.id :: fcalled fs
  | .dead :: fs => fcalled fs

theorem unwind_sub : ∀ (fs : List (FFrame σ)) (id : Nat), id ∈ fcalled (unwind fs) → id ∈ fcalled fs
  | [], _, h => h
  | .guard :: _, _, h => h
  | .body (.sink k) _ _ :: fs, id, h => List.mem_cons_of_mem _ (unwind_sub fs id h)
  | .body .client _ _ :: fs, id, h => unwind_sub fs id h
  | .mid _ :: fs, id, h => unwind_sub fs id h
  | .loop _ :: fs, id, h => unwind_sub fs id h
  | .last :: fs, id, h => unwind_sub fs id h
  | .cancelled _ :: _, _, h => by cases h
  | .fired _ :: _, _, h => by cases h
  | .dead :: _, _, h => h

theorem fcalled_guarded (c : Bool) (fs : List (FFrame σ)) : fcalled (guarded c fs) = fcalled fs := by
  cases c <;> rfl

theorem NJ.sub {A : HeapAlg} {ids ids' : List Nat} {w : World σ (List Key)} (h : NJ A ids w) (hs : ∀ id ∈ ids', id ∈ ids) :
    NJ A ids' w := ⟨h.1, h.2.sub hs⟩

/-- What a step of the machine keeps, apart from calls of sinks of events. -/
theorem ownF_keeps {A : HeapAlg} (P : FProg σ) {e : Entry} (he : e = .begin ∨ e = .run ∨ e = .pause ∨ e = .finish)
    {fs : List (FFrame σ)} {w : World σ (List Key)} (h : NJ A (fcalled fs) w) :
    NJ A (fcalled (w.ownF P e fs).1) (w.ownF P e fs).2 :=
  (NJ.keeps A (fcalled fs)).mark w e he h

theorem enterF_keeps {A : HeapAlg} (P : FProg σ) (t : Option Int) {fs : List (FFrame σ)} {w : World σ (List Key)}
    (h : NJ A (fcalled fs) w) :
    NJ A (fcalled (w.enterF (heapImpl A) P t fs).1) (w.enterF (heapImpl A) P t fs).2 := by
  unfold World.enterF
  split
  · exact h.sub (unwind_sub fs)
  · split
    · exact h.sub (unwind_sub fs)
    · split
      · exact h
      · exact ownF_keeps P (by simp) (fs := .mid t :: fs) ((NJ.keeps A (fcalled fs)).flags w true w.view.paused h)

theorem opF_keeps {A : HeapAlg} (P : FProg σ) {fs : List (FFrame σ)} {w : World σ (List Key)} (o : FOp σ)
    (h : NJ A (fcalled fs) w) : NJ A (fcalled (w.opF (heapImpl A) P fs o).1) (w.opF (heapImpl A) P fs o).2 := by
  cases o with
  | act a =>
    have p := (NJ.keeps A (fcalled fs)).perf w a h
    cases a with
    | cancel id =>
      simp only [World.opF, World.cancelF]
      split
      · split
        · exact h
        · split
          · exact p
          · exact h
      · exact p
    | _ => exact p
  | run c t => exact enterF_keeps P t (by rw [fcalled_guarded]; exact h)
  | runFor c dt => exact enterF_keeps P _ (by rw [fcalled_guarded]; exact h)
  | throw => exact h.sub (unwind_sub fs)

theorem callF_keeps (A : HeapAlg) (P : FProg σ) {fs : List (FFrame σ)} {w : World σ (List Key)} {k : Key}
    (hk : (heapImpl A).front w.queue = some k) (hn : w.view.now = k.t) (h : NJ A (fcalled fs) w) :
    NJ A (fcalled (w.callF (heapImpl A) P k fs).1) (w.callF (heapImpl A) P k fs).2 := by
  have hkm := (heapSch A).front_mem _ _ hk
  obtain ⟨hd, hd1, hd2⟩ := h.1.2.timed k hkm
  rcases sink_cases w k with ⟨t, s, r, e⟩ | e
  · by_cases dy : k.id ∈ dying fs
    · have F : w.callF (heapImpl A) P k fs = (.dead :: fs, w) := by
        simp only [World.callF, e, if_pos dy]
      rw [F]
      exact h
    have F : w.callF (heapImpl A) P k fs =
        (.body (.sink k) (P.sink s (({ w with queue := (heapImpl A).pre w.queue } : World σ (List Key)).fireBegin k).view) 0 :: fs,
          ({ w with queue := (heapImpl A).pre w.queue } : World σ (List Key)).fireBegin k) := by
      simp only [World.callF, e, if_neg dy]
    rw [F]
    refine ⟨(heapSch A).during ⟨⟨fun _ _ => [], fun _ => [], fun _ => [], fun _ => [], fun _ => []⟩, fun _ _ => false⟩ hk h.1 e [], ?_⟩
    have b := h.2.born _ _ hd1
    rw [hd2] at b
    have n1 := (h.2.log (e := .fire k.id k.t) (fun id t e => by cases e; exact ⟨hn, b⟩)).modify k.id
      (f := Handle.fireBegin) (fun _ => rfl)
    refine ⟨?_, n1.time, n1.born⟩
    intro id hid
    rcases List.mem_cons.mp hid with rfl | hid
    · refine ⟨hit_log (by simp [isFireOf]), ?_⟩
      have := (List.getElem?_eq_some_iff.mp hd1).1
      simpa [World.fireBegin, View.log] using this
    · exact n1.hit id hid
  · have F : w.callF (heapImpl A) P k fs = (fs, { w with queue := (heapImpl A).pre w.queue }) := by
      unfold World.callF
      dsimp only
      split
      · rename_i e'; exact absurd e' (e _ _ _)
      · rfl
    rw [F]
    refine ⟨⟨(heapSch A).pre _ _ h.1.1, ?_⟩, h.2⟩
    refine h.1.2.drop (fun x hx => (heapSch A).pre_sub _ _ hx) ?_
    intro x hx
    by_cases exk : x = k
    · subst exk
      right
      refine h.1.2.dead x.id hd hd1 ?_
      cases hs : hd.sink with
      | none => rfl
      | some s =>
        obtain ⟨a, b, c⟩ := hd
        simp only at hs
        subst hs
        exact absurd hd1 (e _ _ _)
    · exact .inl ((heapSch A).pre_rest _ _ k h.1.1 hk x hx exk)

theorem leaveF_keeps {A : HeapAlg} (P : FProg σ) {fs : List (FFrame σ)} {w : World σ (List Key)} (h : NJ A (fcalled fs) w) :
    NJ A (fcalled (w.leaveF P fs).1) (w.leaveF P fs).2 :=
  ownF_keeps P (by simp) (fs := .last :: fs) ((NJ.keeps A (fcalled fs)).flags w w.view.started true h)

/-- Forgetting the sink of an event whose sink was called. -/
theorem JV.forget {E : Nat → Entry → Bool} {q : List Key} {v : View σ} (j : JV E q v) {i : Nat} (hi : Hit E v i) :
    JV E q { v with handles := v.handles.modify i Handle.cancel } := by
  have tt : ∀ (c : Prop) [Decidable c] (h : Handle σ), (if c then h.cancel else h).t = h.t := by
    intro c _ h; split <;> rfl
  refine ⟨?_, ?_, ?_, ?_, ?_, j.once, j.fresh, j.order⟩
  · intro k hk
    obtain ⟨h, hh, e⟩ := j.timed k hk
    exact ⟨_, get_modify i Handle.cancel hh, by rw [tt]; exact e⟩
  · intro id h hh
    obtain ⟨h0, e0, rfl⟩ := modify_get hh
    rw [tt]
    exact j.kept id h0 e0
  · intro id h hh hn
    obtain ⟨h0, e0, rfl⟩ := modify_get hh
    by_cases c : i = id
    · subst c
      exact .inl hi
    · rw [if_neg c] at hn
      exact j.dead id h0 e0 hn
  · intro id hc h hh
    obtain ⟨h0, e0, rfl⟩ := modify_get hh
    by_cases ci : i = id
    · rw [if_pos ci]; rfl
    · rw [if_neg ci]
      exact j.gone id hc h0 e0
  · intro x hx
    simp only [List.length_modify]
    obtain ⟨a, b, d⟩ := j.known x hx
    refine ⟨fun id u e => ?_, b, d⟩
    obtain ⟨h, hh, e⟩ := a id u e
    exact ⟨_, get_modify i Handle.cancel hh, by rw [tt]; exact e⟩

theorem returnF_keeps (A : HeapAlg) (P : FProg σ) {k : Key} {fs : List (FFrame σ)} {w : World σ (List Key)}
    (h : NJ A (k.id :: fcalled fs) w) :
    NJ A (fcalled (w.returnF (heapImpl A) P k fs).1) (w.returnF (heapImpl A) P k fs).2 := by
  have hk := h.2.hit k.id List.mem_cons_self
  have nk : ∀ x ∈ w.queue, x.id ≠ k.id := by
    intro x hx e
    obtain ⟨y, m, ey⟩ := hk.1
    have := h.1.2.fresh x hx y m
    rw [e, ey] at this; cases this
  have direct : NJ A (fcalled fs) { w.fireEnd k with queue := (heapImpl A).post k w.queue } := by
    refine ⟨⟨?_, ?_⟩, ?_⟩
    · have := (heapSch A).post _ _ k h.1.1
      simpa only [World.fireEnd, View.log, List.length_modify] using this
    · exact h.1.2.fireEnd (heapSch A).counted (hit_mono hk.1) hk.2 (fun _ m => m) (fun _ m => .inl m) nk
        (.inl fun id => rfl)
    · exact ((h.2.sub (fun id m => List.mem_cons_of_mem _ m)).log (e := .done k.id) (fun _ _ e => by cases e)).modify k.id
        (fun _ => rfl)
  unfold World.returnF
  split
  · split
    · exact direct
    · refine ⟨⟨?_, ?_⟩, ?_⟩
      · have := h.1.1
        simpa only [View.log, List.length_modify] using this
      · exact h.1.2.change (fun _ => rfl) (fun _ m => m) (fun x m => .inl m)
          (fun h0 e0 hn => .inl (hit_mono hk.1)) (fun h0 e0 x => by
            rcases x with x | x
            · exact x
            · cases x) (fun id e => by cases e) (fun _ _ e => by cases e) (fun id e => by cases e)
          (fun id e => by cases e) (fun x _ => rfl) (fun _ _ e => by cases e)
      · exact (h.2.log (e := .done k.id) (fun _ _ e => by cases e)).modify k.id (fun _ => rfl)
  · exact direct

theorem stepF_keeps (A : HeapAlg) (P : FProg σ) (s : FState σ (List Key)) (h : NJ A (fcalled s.1) s.2) :
    NJ A (fcalled (stepF (heapImpl A) P s).1) (stepF (heapImpl A) P s).2 := by
  obtain ⟨fs, w⟩ := s
  cases fs with
  | nil => exact h
  | cons f fs =>
    cases f with
    | body who sc n =>
      simp only [stepF]
      cases hs : sc n w.view with
      | some o =>
        refine opF_keeps P (fs := .body who sc (n + 1) :: fs) o ?_
        cases who <;> exact h
      | none =>
        cases who with
        | client => exact h
        | sink k => exact returnF_keeps A P h
    | mid t => exact ownF_keeps P (by simp) (fs := .loop t :: fs) ((NJ.keeps A (fcalled fs)).flags w w.view.started false h)
    | last =>
      simp only [stepF]
      split
      · exact ownF_keeps P (by simp) h
      · exact h
    | guard => exact h
    | cancelled id => exact (NJ.keeps A (fcalled fs)).perf w (.cancel id) h
    | fired k =>
      have hk := h.2.hit k.id List.mem_cons_self
      refine ⟨⟨?_, h.1.2.forget hk.1⟩, (h.2.sub (fun id m => List.mem_cons_of_mem _ m)).modify k.id (fun _ => rfl)⟩
      have := (heapSch A).post _ _ k h.1.1
      simpa only [stepF, List.length_modify] using this
    | dead => exact h
    | loop t =>
      simp only [stepF, World.loopF]
      split
      · exact leaveF_keeps P h
      · cases hk : (heapImpl A).front w.queue with
        | none => exact leaveF_keeps P (NJ.lateN h t)
        | some k =>
          dsimp only
          split
          · exact leaveF_keeps P (NJ.lateN h t)
          · refine callF_keeps A P (fs := .loop t :: fs) (w := w.setNow k.t) hk rfl ?_
            exact NJ.setNow h k.t

theorem stepsF_keeps (A : HeapAlg) (P : FProg σ) (n : Nat) : ∀ s : FState σ (List Key), NJ A (fcalled s.1) s.2 →
    NJ A (fcalled (stepsF (heapImpl A) P n s).1) (stepsF (heapImpl A) P n s).2 := by
  induction n with
  | zero => intro s h; exact h
  | succ n ih => intro s h; exact ih _ (stepF_keeps A P s h)

theorem execF_keeps (A : HeapAlg) (P : FProg σ) (u : Script σ) (n : Nat) :
    NJ A (fcalled (execF (heapImpl A) P u n).1) (execF (heapImpl A) P u n).2 := by
  refine stepsF_keeps A P n _
    ⟨(heapSch A).reach ⟨⟨fun _ _ => [], fun _ => [], fun _ => [], fun _ => [], fun _ => []⟩, fun _ _ => false⟩ 0 [], ?_⟩
  refine ⟨?_, ?_, ?_⟩
  · intro id h; simp [fcalled] at h
  · intro e he; simp [World.init] at he
  · intro id h hh; simp [World.init] at hh

/-! ### The clock -/

/-- A call that is not part of a run. -/
def FFrame.isBody : FFrame σ → Prop
  | .body _ _ _ => True
  | .dead => True
  | _ => False

/-- A run whose begin event is being fired. -/
def FFrame.isMid : FFrame σ → Prop
  | .mid _ => True
  | _ => False

/-- An exception thrown on top of the calls `fs` that leaves the loop of a run is caught only by a function that no run has called. -/
def Safe : List (FFrame σ) → Prop
  | [] => True
  | .guard :: _ => True
  | .body _ _ _ :: fs => Safe fs
  | .last :: fs => Safe fs
  | .mid _ :: fs => ∀ f ∈ unwind fs, f.isBody
  | .loop _ :: fs => ∀ f ∈ unwind fs, f.isBody
  | .cancelled _ :: _ => True
  | .fired _ :: _ => True
  | .dead :: _ => True

/-- A run may be started on top of the calls `fs`: not while the begin event is being fired; and it is safe to throw if the run is
refused. -/
def CalmRun (I : Impl C) (caught : Bool) (fs : List (FFrame σ)) (w : World σ C) : Prop :=
  (∀ f ∈ fs, ¬ f.isMid) ∧ (w.wired = false ∨ I.size w.queue = 0 → Safe (guarded caught fs))

/-- The next operation does not run the simulator to a time in the past, nor while the begin event is being fired; and its exceptions are
safe. -/
def ForwardF (I : Impl C) (s : FState σ C) : Prop :=
  match s.1 with
  | .body _ sc n :: fs =>
    match sc n s.2.view with
    | some (.run c t) => (∀ t', t = some t' → s.2.view.now ≤ t') ∧ CalmRun I c fs s.2
    | some (.runFor c dt) => 0 ≤ dt ∧ CalmRun I c fs s.2
    | some .throw => Safe fs
    | _ => True
  | _ => True

/-- The begin event is being fired only by the innermost run. -/
def Shape : List (FFrame σ) → Prop
  | [] => True
  | .body _ _ _ :: fs => Shape fs
  | .guard :: fs => Shape fs
  | .mid _ :: fs => (∀ f ∈ fs, ¬ f.isMid) ∧ Shape fs
  | .loop _ :: fs => (∀ f ∈ fs, ¬ f.isMid) ∧ Shape fs
  | .last :: fs => (∀ f ∈ fs, ¬ f.isMid) ∧ Shape fs
  | .cancelled _ :: fs => Shape fs
  | .fired _ :: fs => Shape fs
  | .dead :: _ => True

/-- The innermost run under way, and whether its begin event is being fired. -/
def due : List (FFrame σ) → Option (Bool × Option Int)
  | [] => none
  | .mid t :: _ => some (true, t)
  | .loop t :: _ => some (false, t)
  | .body _ _ _ :: fs => due fs
  | .last :: fs => due fs
  | .guard :: fs => due fs
  | .cancelled _ :: fs => due fs
  | .fired _ :: fs => due fs
  | .dead :: _ => none

/-- The innermost run has not passed its end, or will leave at once. -/
def InTimeF (s : FState σ (List Key)) : Prop :=
  ∀ m t, due s.1 = some (m, some t) → s.2.view.now ≤ t ∨ (m = false ∧ s.2.view.paused = true)

theorem due_bodies : ∀ (fs : List (FFrame σ)), (∀ f ∈ fs, f.isBody) → due fs = none
  | [], _ => rfl
  | .body _ _ _ :: fs, h => due_bodies fs (fun f hf => h f (List.mem_cons_of_mem _ hf))
  | .mid _ :: _, h => (h _ List.mem_cons_self).elim
  | .loop _ :: _, h => (h _ List.mem_cons_self).elim
  | .last :: _, h => (h _ List.mem_cons_self).elim
  | .guard :: _, h => (h _ List.mem_cons_self).elim
  | .cancelled _ :: _, h => (h _ List.mem_cons_self).elim
  | .fired _ :: _, h => (h _ List.mem_cons_self).elim
  | .dead :: _, _ => rfl

theorem due_unwind : ∀ (fs : List (FFrame σ)), Safe fs → due (unwind fs) = due fs ∨ due (unwind fs) = none
  | [], _ => .inl rfl
  | .guard :: fs, h => .inl rfl
  | .body _ _ _ :: fs, h => due_unwind fs h
  | .mid _ :: fs, h => .inr (due_bodies _ h)
  | .loop _ :: fs, h => .inr (due_bodies _ h)
  | .last :: fs, h => due_unwind fs h
  | .cancelled _ :: _, _ => .inr rfl
  | .fired _ :: _, _ => .inr rfl
  | .dead :: _, _ => .inr rfl

theorem shape_unwind : ∀ (fs : List (FFrame σ)), Shape fs → Shape (unwind fs)
  | [], h => h
  | .guard :: fs, h => h
  | .body _ _ _ :: fs, h => shape_unwind fs h
  | .mid _ :: fs, h => shape_unwind fs h.2
  | .loop _ :: fs, h => shape_unwind fs h.2
  | .last :: fs, h => shape_unwind fs h.2
  | .cancelled _ :: _, _ => trivial
  | .fired _ :: _, _ => trivial
  | .dead :: _, _ => trivial

theorem due_mid : ∀ (fs : List (FFrame σ)), (∀ f ∈ fs, ¬ f.isMid) → ∀ m t, due fs = some (m, t) → m = false
  | [], _, _, _, e => by cases e
  | .mid _ :: _, h, _, _, _ => (h _ List.mem_cons_self trivial).elim
  | .loop _ :: _, _, _, _, e => by cases e; rfl
  | .body _ _ _ :: fs, h, m, t, e => due_mid fs (fun f hf => h f (List.mem_cons_of_mem _ hf)) m t e
  | .last :: fs, h, m, t, e => due_mid fs (fun f hf => h f (List.mem_cons_of_mem _ hf)) m t e
  | .guard :: fs, h, m, t, e => due_mid fs (fun f hf => h f (List.mem_cons_of_mem _ hf)) m t e
  | .cancelled _ :: fs, h, m, t, e => due_mid fs (fun f hf => h f (List.mem_cons_of_mem _ hf)) m t e
  | .fired _ :: fs, h, m, t, e => due_mid fs (fun f hf => h f (List.mem_cons_of_mem _ hf)) m t e
  | .dead :: _, _, _, _, e => by cases e

theorem due_guarded (c : Bool) (fs : List (FFrame σ)) : due (guarded c fs) = due fs := by
  cases c <;> rfl

theorem shape_guarded {c : Bool} {fs : List (FFrame σ)} (h : Shape fs) : Shape (guarded c fs) := by
  cases c <;> exact h

theorem safe_body {c : Bool} {who : Who} {sc : Script σ} {n : Nat} {fs : List (FFrame σ)} (h : Safe (guarded c fs)) :
    Safe (guarded c (.body who sc n :: fs)) := by
  cases c
  · exact h
  · exact trivial

theorem mid_guarded {c : Bool} {fs : List (FFrame σ)} (h : ∀ f ∈ fs, ¬ f.isMid) : ∀ f ∈ guarded c fs, ¬ f.isMid := by
  cases c
  · exact h
  · intro f hf
    rcases List.mem_cons.mp hf with rfl | hf
    · exact fun x => x
    · exact h f hf

theorem InTimeF.unwind {fs : List (FFrame σ)} {w : World σ (List Key)} (hs : Safe fs) (h : InTimeF (fs, w)) :
    InTimeF (unwind fs, w) := by
  intro m t e
  rcases due_unwind fs hs with x | x
  · exact h m t (x.symm.trans e)
  · rw [show due (Sim.unwind fs, w).1 = due (Sim.unwind fs) from rfl, x] at e; cases e

/-- The state of the clock in a calm program. -/
structure Tick (A : HeapAlg) (n0 : Int) (s : FState σ (List Key)) : Prop where
  clock : CJ A n0 s.2
  time : InTimeF s
  shape : Shape s.1

theorem enterF_clock (A : HeapAlg) (P : FProg σ) {fs : List (FFrame σ)} {w : World σ (List Key)} {t : Option Int}
    (ht : ∀ t', t = some t' → w.view.now ≤ t') (hm : ∀ f ∈ fs, ¬ f.isMid)
    (hsafe : w.wired = false ∨ (heapImpl A).size w.queue = 0 → Safe fs) (h : Tick A w.view.now (fs, w)) :
    Tick A w.view.now (w.enterF (heapImpl A) P t fs) := by
  have stop : Safe fs → Tick A w.view.now (unwind fs, w) := fun x =>
    ⟨h.clock, h.time.unwind x, shape_unwind fs h.shape⟩
  unfold World.enterF
  split
  · rename_i hw
    exact stop (hsafe (.inl (by simpa using hw)))
  · split
    · rename_i hz
      exact stop (hsafe (.inr hz))
    · split
      · exact ⟨h.clock, fun m t' e => by cases e; exact .inl (ht t' rfl), hm, h.shape⟩
      · have h1 := (CJ.keeps A w.view.now).mark _ .begin (by simp) ((CJ.keeps A w.view.now).flags w true w.view.paused h.clock)
        exact ⟨h1, fun m t' e => by cases e; exact .inl (ht t' rfl), hm, h.shape⟩

theorem perform_clock {A : HeapAlg} {fs : List (FFrame σ)} {w : World σ (List Key)} (h : Tick A w.view.now (fs, w)) (a : Action σ) :
    Tick A w.view.now (fs, w.perform (heapImpl A) a) := by
  have h' := (CJ.keeps A w.view.now).perf w a h.clock
  refine ⟨h', fun m t e => ?_, h.shape⟩
  rcases h.time m t e with x | ⟨x, y⟩
  · exact .inl (Int.le_trans (Int.le_of_eq h'.2.2) x)
  · exact .inr ⟨x, performs_paused (heapImpl A) [a] w y⟩

theorem opF_clock (A : HeapAlg) (P : FProg σ) {who : Who} {sc : Script σ} {n : Nat} {fs : List (FFrame σ)} {w : World σ (List Key)}
    {o : FOp σ} (ho : sc n w.view = some o) (hf : ForwardF (heapImpl A) (.body who sc n :: fs, w))
    (h : Tick A w.view.now (.body who sc n :: fs, w)) :
    Tick A w.view.now (w.opF (heapImpl A) P (.body who sc (n + 1) :: fs) o) := by
  simp only [ForwardF, ho] at hf
  have sub : (∀ f ∈ fs, ¬ f.isMid) → ∀ f ∈ FFrame.body who sc (n + 1) :: fs, ¬ f.isMid := by
    intro hm f hf
    rcases List.mem_cons.mp hf with rfl | hf
    · exact fun x => x
    · exact hm f hf
  have h' : ∀ c, Tick A w.view.now (guarded c (.body who sc (n + 1) :: fs), w) := fun c =>
    ⟨h.clock, fun m t e => h.time m t
      ((show due (guarded c (.body who sc (n + 1) :: fs)) = due fs from due_guarded _ _).symm.trans e), shape_guarded h.shape⟩
  cases o with
  | act a =>
    have p : Tick A w.view.now (.body who sc (n + 1) :: fs, w.perform (heapImpl A) a) := perform_clock (h' false) a
    cases a with
    | cancel id =>
      simp only [World.opF, World.cancelF]
      split
      · split
        · exact ⟨h.clock, fun m t e => (by cases e), trivial⟩
        · split
          · exact p
          · exact ⟨h.clock, fun m t e => h.time m t e, h.shape⟩
      · exact p
    | _ => exact p
  | run c t =>
    exact enterF_clock A P hf.1 (mid_guarded (sub hf.2.1)) (fun x => safe_body (hf.2.2 x)) (h' c)
  | runFor c dt =>
    refine enterF_clock A P (fun t' e => ?_) (mid_guarded (sub hf.2.1)) (fun x => safe_body (hf.2.2 x)) (h' c)
    cases e
    have := hf.1
    omega
  | throw =>
    refine ⟨h.clock, InTimeF.unwind (fs := fs) hf (fun m t e => h.time m t e), shape_unwind fs h.shape⟩

theorem stepF_clock (A : HeapAlg) (P : FProg σ) (s : FState σ (List Key)) (hs : NJ A (fcalled s.1) s.2) (hf : ForwardF (heapImpl A) s)
    (h : Tick A s.2.view.now s) : ∃ n1, s.2.view.now ≤ n1 ∧ Tick A n1 (stepF (heapImpl A) P s) := by
  have hs' := stepF_keeps A P s hs
  obtain ⟨fs, w⟩ := s
  cases fs with
  | nil => exact ⟨_, Int.le_refl _, h⟩
  | cons f fs =>
    cases f with
    | body who sc n =>
      simp only [stepF] at hs' ⊢
      cases hsc : sc n w.view with
      | some o => exact ⟨_, Int.le_refl _, opF_clock A P hsc hf h⟩
      | none =>
        rw [hsc] at hs'
        cases who with
        | client => exact ⟨_, Int.le_refl _, h.clock, h.time, h.shape⟩
        | sink k =>
          have lm := log_mono h.clock.2.1.mono h.clock.2.1.upto (.done k.id)
          simp only [World.returnF] at hs' ⊢
          split at hs'
          · split at hs'
            · rename_i e1 c1
              rw [if_pos c1]
              exact ⟨_, Int.le_refl _, ⟨hs'.1, ⟨h.clock.2.1.ahead, lm.1, lm.2⟩, rfl⟩, h.time, h.shape⟩
            · rename_i e1 c1
              rw [if_neg c1]
              exact ⟨_, Int.le_refl _, ⟨hs'.1, ⟨h.clock.2.1.ahead, lm.1, lm.2⟩, rfl⟩, h.time, h.shape⟩
          · exact ⟨_, Int.le_refl _, ⟨hs'.1, ⟨h.clock.2.1.ahead, lm.1, lm.2⟩, rfl⟩, h.time, h.shape⟩
    | cancelled id =>
      exact ⟨_, Int.le_refl _, perform_clock (fs := fs) ⟨h.clock, h.time, h.shape⟩ (.cancel id)⟩
    | fired k =>
      exact ⟨_, Int.le_refl _, ⟨hs'.1, ⟨h.clock.2.1.ahead, h.clock.2.1.mono, h.clock.2.1.upto⟩, rfl⟩, h.time, h.shape⟩
    | dead => exact ⟨_, Int.le_refl _, h⟩
    | guard => exact ⟨_, Int.le_refl _, h.clock, h.time, h.shape⟩
    | mid t =>
      have h1 := (CJ.keeps A w.view.now).mark _ .run (by simp) ((CJ.keeps A w.view.now).flags w w.view.started false h.clock)
      refine ⟨_, Int.le_refl _, h1, fun m t' e => ?_, h.shape⟩
      cases e
      rcases h.time true t' rfl with x | ⟨x, -⟩
      · exact .inl x
      · cases x
    | last =>
      have sh : Shape fs := h.shape.2
      have hm := h.shape.1
      simp only [stepF]
      split
      · have h1 := (CJ.keeps A w.view.now).mark w .finish (by simp) h.clock
        exact ⟨_, Int.le_refl _, h1, fun m t e => h.time m t e, sh⟩
      · exact ⟨_, Int.le_refl _, h.clock, fun m t e => h.time m t e, sh⟩
    | loop t =>
      have hm : ∀ f ∈ fs, ¬ f.isMid := h.shape.1
      have leave : ∀ (n1 : Int) (w' : World σ (List Key)), CJ A n1 w' → Tick A n1 (w'.leaveF P fs) := by
        intro n1 w' h'
        have h1 := (CJ.keeps A n1).mark _ .pause (by simp) ((CJ.keeps A n1).flags w' w'.view.started true h')
        exact ⟨h1, fun m t' e => .inr ⟨due_mid fs hm m _ e, rfl⟩, hm, h.shape.2⟩
      have late : w.view.paused = false → (∀ t', t = some t' → ∀ k ∈ w.queue, t' ≤ k.t) →
          ∃ n1, w.view.now ≤ n1 ∧ CJ A n1 (w.lateN t) := by
        intro hp hq
        cases t with
        | none => exact ⟨_, Int.le_refl _, h.clock⟩
        | some t =>
          rcases h.time false t rfl with x | ⟨-, x⟩
          · exact ⟨t, x, h.clock.to x (hq t rfl)⟩
          · rw [show (FFrame.loop (some t) :: fs, w).2.view.paused = w.view.paused from rfl, hp] at x; cases x
      simp only [stepF, World.loopF] at hs' ⊢
      by_cases hp : w.view.paused = true
      · rw [if_pos hp]
        exact ⟨_, Int.le_refl _, leave _ _ h.clock⟩
      · rw [if_neg hp] at hs' ⊢
        have hp' : w.view.paused = false := by simpa using hp
        cases hk : (heapImpl A).front w.queue with
        | none =>
          have hq : w.queue = [] := List.head?_eq_none_iff.mp hk
          obtain ⟨n1, a, b⟩ := late hp' (fun _ _ k m => by rw [hq] at m; cases m)
          exact ⟨n1, a, leave _ _ b⟩
        | some k =>
          rw [hk] at hs'
          have least := front_least A h.clock.1.1 hk
          dsimp only at hs' ⊢
          by_cases hpast : pastN t k = true
          · rw [if_pos hpast]
            obtain ⟨n1, a, b⟩ := late hp' (fun t' e x m => by
              subst e
              simp only [pastN, decide_eq_true_eq] at hpast
              have := least x m
              omega)
            exact ⟨n1, a, leave _ _ b⟩
          · rw [if_neg hpast] at hs' ⊢
            have hkm := (heapSch A).front_mem _ _ hk
            have h1 : CJ A k.t (w.setNow k.t) := h.clock.to (h.clock.2.1.ahead k hkm) least
            refine ⟨k.t, h.clock.2.1.ahead k hkm, ?_⟩
            have hJ := hs'.1
            have inl : ∀ t', t = some t' → k.t ≤ t' := by
              intro t' e
              subst e
              simp only [pastN, decide_eq_true_eq] at hpast
              omega
            rcases sink_cases (w.setNow k.t) k with ⟨u, s, r, e⟩ | e
            · by_cases dy : k.id ∈ dying (.loop t :: fs)
              · simp only [World.callF, e, if_pos dy] at hJ ⊢
                exact ⟨h1, fun m t' e => (by cases e), trivial⟩
              simp only [World.callF, e, if_neg dy] at hJ ⊢
              refine ⟨⟨hJ, ⟨?_, ?_, ?_⟩, rfl⟩, ?_, h.shape⟩
              · intro x hx
                exact h1.2.1.ahead x ((heapSch A).pre_sub _ _ hx)
              · exact (log_mono h1.2.1.mono h1.2.1.upto (.fire k.id k.t)).1
              · exact (log_mono h1.2.1.mono h1.2.1.upto (.fire k.id k.t)).2
              · intro m t' e'
                cases e'
                exact .inl (inl t' rfl)
            · have G : (w.setNow k.t).callF (heapImpl A) P k (.loop t :: fs) =
                  (.loop t :: fs, { w.setNow k.t with queue := (heapImpl A).pre w.queue }) := by
                unfold World.callF
                dsimp only
                split
                · rename_i e'; exact absurd e' (e _ _ _)
                · rfl
              rw [G] at hJ ⊢
              refine ⟨⟨hJ, ⟨?_, h1.2.1.mono, h1.2.1.upto⟩, rfl⟩, ?_, h.shape⟩
              · intro x hx
                exact h1.2.1.ahead x ((heapSch A).pre_sub _ _ hx)
              · intro m t' e'
                cases e'
                exact .inl (inl t' rfl)

theorem stepsF_succ (I : Impl C) (P : FProg σ) (n : Nat) : ∀ s : FState σ C,
    stepsF I P (n + 1) s = stepF I P (stepsF I P n s) := by
  induction n with
  | zero => intro s; rfl
  | succ n ih => intro s; exact ih (stepF I P s)

theorem execF_clock (A : HeapAlg) (P : FProg σ) (u : Script σ) (n : Nat)
    (hf : ∀ m, m < n → ForwardF (heapImpl A) (execF (heapImpl A) P u m)) :
    Tick A (execF (heapImpl A) P u n).2.view.now (execF (heapImpl A) P u n) ∧
      ∀ m, m ≤ n → (execF (heapImpl A) P u m).2.view.now ≤ (execF (heapImpl A) P u n).2.view.now := by
  induction n with
  | zero =>
    refine ⟨⟨⟨(execF_keeps A P u 0).1, ⟨?_, ?_, ?_⟩, rfl⟩, ?_, trivial⟩, ?_⟩
    · intro k hk
      exact absurd hk (by simp [execF, stepsF, World.init, heapImpl])
    · simp [execF, stepsF, World.init]
    · intro e he; simp [execF, stepsF, World.init] at he
    · intro m t e; simp [execF, stepsF, due] at e
    · intro m hm
      have : m = 0 := by omega
      subst this
      exact Int.le_refl _
  | succ n ih =>
    obtain ⟨h1, h3⟩ := ih (fun m hm => hf m (by omega))
    obtain ⟨n1, a, b⟩ := stepF_clock A P _ (execF_keeps A P u n) (hf n (by omega)) h1
    have e : execF (heapImpl A) P u (n + 1) = stepF (heapImpl A) P (execF (heapImpl A) P u n) := stepsF_succ _ _ n _
    have hn := b.clock.2.2
    rw [e]
    refine ⟨?_, ?_⟩
    · rw [hn]; exact b
    · intro m hm
      rw [hn]
      rcases Nat.lt_or_eq_of_le hm with l | l
      · exact Int.le_trans (h3 m (by omega)) a
      · subst l
        rw [e, hn]
        exact Int.le_refl _

/-! ### The begin event -/

/-- An entry that may come only after the begin event. -/
def Entry.late : Entry → Bool
  | .run => true
  | .fire _ _ => true
  | _ => false

/-- The begin event was fired once or never, as the simulator has been started or not, and the rest comes after it. -/
structure Begun (v : View σ) : Prop where
  count : (v.trace.filter fun e => e.2 == Entry.begin).length = if v.started then 1 else 0
  first : v.trace.Pairwise fun a b => b.2 = .begin → a.2.late = false
  still : v.started = false → ∀ e ∈ v.trace, e.2.late = false

theorem Begun.log {v : View σ} (h : Begun v) {e : Entry} (hb : e ≠ .begin) (hl : e.late = true → v.started = true) :
    Begun (v.log e) := by
  refine ⟨?_, ?_, ?_⟩
  · have : (e == Entry.begin) = false := by simpa using hb
    simp only [View.log, List.filter_append, List.filter_cons, List.filter_nil, this, List.length_append]
    exact h.count
  · refine List.pairwise_append.mpr ⟨h.first, List.pairwise_singleton _ _, ?_⟩
    intro a _ b hb' eb
    rw [List.mem_singleton.mp hb'] at eb
    exact absurd eb hb
  · intro hs x hx
    rcases List.mem_append.mp hx with m | m
    · exact h.still hs x m
    · rw [List.mem_singleton.mp m]
      cases hx : e.late with
      | false => rfl
      | true => have := hl hx; rw [show v.started = false from hs] at this; cases this

theorem Begun.start {v : View σ} (h : Begun v) (hs : v.started = false) : Begun ({ v with started := true }.log .begin) := by
  refine ⟨?_, ?_, ?_⟩
  · have := h.count
    rw [hs] at this
    simp only [View.log, List.filter_append, List.length_append]
    rw [this]; rfl
  · refine List.pairwise_append.mpr ⟨h.first, List.pairwise_singleton _ _, ?_⟩
    intro a ha _ _ _
    exact h.still hs a ha
  · intro x; cases x

theorem Begun.congr {v v' : View σ} (h : Begun v) (ht : v'.trace = v.trace) (hs : v'.started = v.started) : Begun v' := by
  refine ⟨?_, ?_, ?_⟩
  · rw [ht, hs]; exact h.count
  · rw [ht]; exact h.first
  · rw [ht, hs]; exact h.still

theorem Begun.perform (I : Impl C) {w : World σ C} (h : Begun w.view) (a : Action σ) :
    Begun (w.perform I a).view ∧ (w.perform I a).view.started = w.view.started := by
  have h1 : ∀ t s, Begun (w.orKeep (w.scheduleAt I t s)).view ∧
      (w.orKeep (w.scheduleAt I t s)).view.started = w.view.started := by
    intro t s
    rcases scheduleAt_cases I w t s with ⟨e, he⟩ | ⟨x, hc, hs, ht, he⟩
    · rw [he]; exact ⟨h, rfl⟩
    · rw [he]
      exact ⟨(h.log (e := .sched w.view.handles.length t) (by simp) (by simp [Entry.late])).congr rfl rfl, rfl⟩
  cases a with
  | «at» t s => exact h1 t s
  | now s =>
    simp only [World.perform, World.scheduleNow]; split
    · exact ⟨h, rfl⟩
    · exact h1 _ s
  | «in» dt s =>
    simp only [World.perform, World.scheduleIn]; split
    · exact ⟨h, rfl⟩
    · exact h1 _ s
  | cancel id =>
    simp only [World.perform]; split
    · exact ⟨(h.log (e := .cancel id) (by simp) (by simp [Entry.late])).congr rfl rfl, rfl⟩
    · exact ⟨h, rfl⟩
  | pause => exact ⟨(h.log (e := .pauseReq) (by simp) (by simp [Entry.late])).congr rfl rfl, rfl⟩

/-- A run. -/
def FFrame.isRun : FFrame σ → Prop
  | .mid _ => True
  | .loop _ => True
  | _ => False

/-- The begin event, and runs only after it. -/
structure BeginOk (s : FState σ C) : Prop where
  begun : Begun s.2.view
  runs : (∃ f ∈ s.1, f.isRun) → s.2.view.started = true

theorem unwind_mem : ∀ (fs : List (FFrame σ)) (f : FFrame σ), f ∈ unwind fs → f.isRun → f ∈ fs
  | [], _, h, _ => h
  | .guard :: _, _, h, _ => List.mem_cons_of_mem _ h
  | .body _ _ _ :: fs, f, h, r => List.mem_cons_of_mem _ (unwind_mem fs f h r)
  | .mid _ :: fs, f, h, r => List.mem_cons_of_mem _ (unwind_mem fs f h r)
  | .loop _ :: fs, f, h, r => List.mem_cons_of_mem _ (unwind_mem fs f h r)
  | .last :: fs, f, h, r => List.mem_cons_of_mem _ (unwind_mem fs f h r)
  | .cancelled _ :: _, f, h, r => by rw [List.mem_singleton.mp h] at r; cases r
  | .fired _ :: _, f, h, r => by rw [List.mem_singleton.mp h] at r; cases r
  | .dead :: fs, f, h, _ => h

theorem BeginOk.sub {fs gs : List (FFrame σ)} {w : World σ C} (h : BeginOk (fs, w)) (hs : ∀ f ∈ gs, f.isRun → f ∈ fs) :
    BeginOk (gs, w) := ⟨h.begun, fun ⟨f, m, r⟩ => h.runs ⟨f, hs f m r, r⟩⟩

theorem BeginOk.frame {fs : List (FFrame σ)} {w : World σ C} (h : BeginOk (fs, w)) {f : FFrame σ} (hf : ¬ f.isRun) :
    BeginOk (f :: fs, w) := h.sub fun g m r => by
  rcases List.mem_cons.mp m with rfl | m
  · exact absurd r hf
  · exact m

theorem BeginOk.note {fs : List (FFrame σ)} {w : World σ C} (h : BeginOk (fs, w)) {e : Entry} (hb : e ≠ .begin)
    (hl : e.late = true → w.view.started = true) : BeginOk (fs, { w with view := w.view.log e }) :=
  ⟨h.begun.log hb hl, h.runs⟩

theorem enterF_begin (I : Impl C) (P : FProg σ) (t : Option Int) {fs : List (FFrame σ)} {w : World σ C} (h : BeginOk (fs, w)) :
    BeginOk (w.enterF I P t fs) := by
  unfold World.enterF
  split
  · exact h.sub fun f m r => unwind_mem fs f m r
  · split
    · exact h.sub fun f m r => unwind_mem fs f m r
    · split
      · rename_i hs
        exact ⟨h.begun, fun _ => hs⟩
      · rename_i hs
        exact ⟨h.begun.start (by simpa using hs), fun _ => rfl⟩

theorem stepF_begin (I : Impl C) (P : FProg σ) (s : FState σ C) (h : BeginOk s) : BeginOk (stepF I P s) := by
  obtain ⟨fs, w⟩ := s
  cases fs with
  | nil => exact h
  | cons f fs =>
    have tl : BeginOk (fs, w) := h.sub fun f m _ => List.mem_cons_of_mem _ m
    cases f with
    | body who sc n =>
      simp only [stepF]
      cases hs : sc n w.view with
      | some o =>
        have h1 : BeginOk (.body who sc (n + 1) :: fs, w) := tl.frame (fun x => x)
        have h2 : ∀ c, BeginOk (guarded c (.body who sc (n + 1) :: fs), w) := by
          intro c
          cases c
          · exact h1
          · exact h1.frame (fun x => x)
        cases o with
        | act a =>
          obtain ⟨x, y⟩ := h.begun.perform I a
          have p : BeginOk (.body who sc (n + 1) :: fs, w.perform I a) := ⟨x, fun z => y.trans (h1.runs z)⟩
          cases a with
          | cancel id =>
            simp only [World.opF, World.cancelF]
            split
            · split
              · exact h1.frame (fun x => x)
              · split
                · exact p
                · exact (h1.frame (f := .cancelled id) (fun x => x)).frame (fun x => x)
            · exact p
          | _ => exact p
        | run c t => exact enterF_begin I P t (h2 c)
        | runFor c dt => exact enterF_begin I P _ (h2 c)
        | throw => exact h1.sub fun f m r => unwind_mem _ f m r
      | none =>
        cases who with
        | client => exact tl
        | sink k =>
          have b := h.begun.log (e := .done k.id) (by simp) (by simp [Entry.late])
          have direct : BeginOk (fs, ({ w.fireEnd k with queue := I.post k w.queue } : World σ C)) := ⟨b.congr rfl rfl, tl.runs⟩
          simp only [World.returnF]
          split
          · split
            · exact direct
            · rename_i s r _ _
              have b' : BeginOk (fs, ({ w with view := { w.view.log (.done k.id) with
                  handles := w.view.handles.modify k.id Handle.stopped } } : World σ C)) := ⟨b.congr rfl rfl, tl.runs⟩
              exact (b'.frame (f := .fired k) (fun x => x)).frame (fun x => x)
          · exact direct
    | guard => exact tl
    | cancelled id =>
      obtain ⟨x, y⟩ := h.begun.perform I (.cancel id)
      exact ⟨x, fun z => y.trans (tl.runs z)⟩
    | fired k => exact ⟨h.begun.congr rfl rfl, tl.runs⟩
    | dead => exact h
    | mid t =>
      have hr : w.view.started = true := h.runs ⟨_, List.mem_cons_self, trivial⟩
      exact ⟨(h.begun.congr (v' := { w.view with paused := false }) rfl rfl).log (by simp) (fun _ => hr), fun _ => hr⟩
    | last =>
      simp only [stepF]
      split
      · exact (tl.note (e := .finish) (by simp) (by simp [Entry.late])).frame (fun x => x)
      · exact tl
    | loop t =>
      have hr : w.view.started = true := h.runs ⟨_, List.mem_cons_self, trivial⟩
      have leave : ∀ w' : World σ C, Begun w'.view → w'.view.started = true → BeginOk (w'.leaveF P fs) := by
        intro w' b hs
        exact ⟨(b.congr (v' := { w'.view with paused := true }) rfl rfl).log (by simp) (by simp [Entry.late]), fun _ => hs⟩
      have late : Begun (w.lateN t).view ∧ (w.lateN t).view.started = true := by
        cases t with
        | none => exact ⟨h.begun, hr⟩
        | some t => exact ⟨h.begun.congr rfl rfl, hr⟩
      simp only [stepF, World.loopF]
      split
      · exact leave w h.begun hr
      · split
        · exact leave _ late.1 late.2
        · split
          · exact leave _ late.1 late.2
          · rename_i k _ _
            have b : Begun (w.setNow k.t).view := h.begun.congr rfl rfl
            simp only [World.callF]
            split
            · split
              · exact ⟨b, fun _ => hr⟩
              · exact ⟨(b.log (e := .fire k.id k.t) (by simp) (fun _ => hr)).congr rfl rfl, fun _ => hr⟩
            · exact ⟨b, fun _ => hr⟩

theorem execF_begin (I : Impl C) (P : FProg σ) (u : Script σ) (n : Nat) : BeginOk (execF I P u n) := by
  induction n with
  | zero =>
    refine ⟨⟨rfl, List.Pairwise.nil, ?_⟩, ?_⟩
    · intro _ e he; cases he
    · rintro ⟨f, m, r⟩
      rw [List.mem_singleton.mp m] at r
      exact r.elim
  | succ n ih =>
    rw [show execF I P u (n + 1) = stepF I P (execF I P u n) from stepsF_succ _ _ n _]
    exact stepF_begin I P _ ih

/-! ### Programs whose sinks catch everything -/

/-- `s'` is reached from `s`. -/
def LeadsF (I : Impl C) (P : FProg σ) (s s' : FState σ C) : Prop := ∃ n, stepsF I P n s = s'

theorem stepsF_add (I : Impl C) (P : FProg σ) (m n : Nat) : ∀ s : FState σ C,
    stepsF I P (m + n) s = stepsF I P n (stepsF I P m s) := by
  induction m with
  | zero => intro s; rw [Nat.zero_add]; rfl
  | succ m ih => intro s; rw [show m + 1 + n = m + n + 1 by omega]; exact ih _

variable {I : Impl C}

theorem LeadsF.refl (I : Impl C) (P : FProg σ) (s : FState σ C) : LeadsF I P s s := ⟨0, rfl⟩

theorem LeadsF.trans {P : FProg σ} {s s' s'' : FState σ C} (h : LeadsF I P s s') (h' : LeadsF I P s' s'') :
    LeadsF I P s s'' := by
  obtain ⟨m, rfl⟩ := h
  obtain ⟨n, rfl⟩ := h'
  exact ⟨m + n, stepsF_add I P m n s⟩

theorem LeadsF.step {P : FProg σ} {s s' : FState σ C} (h : LeadsF I P (stepF I P s) s') : LeadsF I P s s' := by
  obtain ⟨n, rfl⟩ := h
  exact ⟨n + 1, rfl⟩

theorem cancel_free (P : NProg σ) (fs : List (FFrame σ)) (hd : dying fs = []) (id : Nat) (w : World σ C) :
    LeadsF I P.free (w.cancelF I P.free id fs) (fs, w.perform I (.cancel id)) := by
  unfold World.cancelF
  split
  · rw [hd, if_neg (by simp)]
    split
    · exact LeadsF.refl _ _ _
    · exact LeadsF.step (LeadsF.step (LeadsF.refl _ _ _))
  · exact LeadsF.refl _ _ _

theorem act_free (P : NProg σ) (fs : List (FFrame σ)) (hd : dying fs = []) (a : Action σ) (w : World σ C) :
    LeadsF I P.free (w.opF I P.free fs (.act a)) (fs, w.perform I a) := by
  cases a with
  | cancel id => exact cancel_free P fs hd id w
  | _ => exact LeadsF.refl _ _ _

theorem return_free (P : NProg σ) (k : Key) (fs : List (FFrame σ)) (w : World σ C) :
    LeadsF I P.free (w.returnF I P.free k fs) (fs, { w.fireEnd k with queue := I.post k w.queue }) := by
  unfold World.returnF
  split
  · split
    · exact LeadsF.refl _ _ _
    · refine LeadsF.step (LeadsF.step ?_)
      have e : (w.view.handles.modify k.id Handle.stopped).modify k.id Handle.cancel = w.view.handles.modify k.id Handle.fireEnd := by
        rw [List.modify_modify_eq]; rfl
      have : ({ w.fireEnd k with queue := I.post k w.queue } : World σ C) =
          { w with view := { w.view.log (.done k.id) with
            handles := (w.view.handles.modify k.id Handle.stopped).modify k.id Handle.cancel }, queue := I.post k w.queue } := by
        rw [e]; rfl
      rw [this]
      exact LeadsF.refl _ _ _
  · exact LeadsF.refl _ _ _

theorem acts_free (P : NProg σ) (fs : List (FFrame σ)) (hd : dying fs = []) (sc : Script σ) (as : List (Action σ)) : ∀ (i : Nat) (w : World σ C),
    (∀ j v, sc (i + j) v = (as.map FOp.act)[j]?) → LeadsF I P.free (.body .client sc i :: fs, w) (fs, w.performs I as) := by
  induction as with
  | nil =>
    intro i w h
    apply LeadsF.step
    have := h 0 w.view
    simp only [Nat.add_zero, List.map_nil, List.getElem?_nil] at this
    simp only [stepF, this]
    exact LeadsF.refl _ _ _
  | cons a as ih =>
    intro i w h
    apply LeadsF.step
    have := h 0 w.view
    simp only [Nat.add_zero, List.map_cons, List.getElem?_cons_zero] at this
    simp only [stepF, this]
    refine (act_free P (.body .client sc (i + 1) :: fs) hd a w).trans (ih (i + 1) (w.perform I a) (fun j v => ?_))
    have := h (j + 1) v
    rw [show i + 1 + j = i + (j + 1) by omega, this]
    rfl

theorem own_free (P : NProg σ) (e : Entry) (fs : List (FFrame σ)) (hd : dying fs = []) (w : World σ C) (f : View σ → List (Action σ))
    (hf : ∀ v, P.own.ownOf e v = f v) : LeadsF I P.free (World.ownF P.free e fs w) (fs, w.notify I e f) := by
  have := acts_free (I := I) P fs hd (P.free.own e (w.view.log e)) (f (w.view.log e)) 0 { w with view := w.view.log e }
    (fun j v => by simp [NProg.free, scriptOf, hf])
  exact this

/-- The stacks of the two models. -/
inductive RelF : List (NFrame σ) → List (FFrame σ) → Prop
  | nil : RelF [] []
  | user {r fs gs sc} {i : Nat} : (∀ j v, sc (i + j) v = (r.map Op.free)[j]?) → RelF fs gs →
      RelF (.user r :: fs) (.body .client sc i :: gs)
  | sink {k r fs gs sc} {i : Nat} : (∀ j v, sc (i + j) v = (r.map Op.free)[j]?) → RelF fs gs →
      RelF (.sink k r :: fs) (.body (.sink k) sc i :: gs)
  | loop {t fs gs} : RelF fs gs → RelF (.loop t :: fs) (.loop t :: .guard :: gs)

theorem dying_rel {fs : List (NFrame σ)} {gs : List (FFrame σ)} (h : RelF fs gs) : dying gs = [] := by
  induction h with
  | nil => rfl
  | user _ _ ih => exact ih
  | sink _ _ ih => exact ih
  | loop _ ih => exact ih

theorem enter_free (P : NProg σ) (t : Option Int) {fs : List (NFrame σ)} {gs : List (FFrame σ)} (hr : RelF fs gs) (w : World σ C) :
    ∃ gs', LeadsF I P.free (w.enterF I P.free t (.guard :: gs)) (gs', (w.enterN I P t fs).2) ∧ RelF (w.enterN I P t fs).1 gs' := by
  unfold World.enterF World.enterN
  split
  · exact ⟨gs, LeadsF.refl _ _ _, hr⟩
  · split
    · exact ⟨gs, LeadsF.refl _ _ _, hr⟩
    · refine ⟨.loop t :: .guard :: gs, ?_, .loop hr⟩
      have fin : ∀ w' : World σ C, LeadsF I P.free (.mid t :: .guard :: gs, w')
          (.loop t :: .guard :: gs, (w'.setPaused false).notify I .run P.own.onRun) := fun w' =>
        LeadsF.step (own_free P .run (.loop t :: .guard :: gs) (dying_rel hr :) (w'.setPaused false) P.own.onRun (fun _ => rfl))
      simp only [World.prologue, World.checkBegin]
      split
      · exact fin w
      · exact (own_free P .begin (.mid t :: .guard :: gs) (dying_rel hr :) _ P.own.onBegin (fun _ => rfl)).trans (fin _)

theorem op_free (P : NProg σ) (o : Op σ) {fs : List (NFrame σ)} {gs : List (FFrame σ)} (hr : RelF fs gs) (w : World σ C) :
    ∃ gs', LeadsF I P.free (w.opF I P.free gs o.free) (gs', (w.opN I P fs o).2) ∧ RelF (w.opN I P fs o).1 gs' := by
  cases o with
  | act a => exact ⟨gs, act_free P gs (dying_rel hr) a w, hr⟩
  | run => exact enter_free P none hr w
  | runUntil t => exact enter_free P (some t) hr w
  | runFor dt => exact enter_free P _ hr w

theorem leave_free (P : NProg σ) {fs : List (NFrame σ)} {gs : List (FFrame σ)} (hr : RelF fs gs) (w : World σ C) :
    LeadsF I P.free (w.leaveF P.free (.guard :: gs)) (gs, w.epilogue I P.own) := by
  refine (own_free P .pause (.last :: .guard :: gs) (dying_rel hr :) (w.setPaused true) P.own.onPause (fun _ => rfl)).trans ?_
  apply LeadsF.step
  simp only [stepF, World.epilogue, World.checkEnd]
  split
  · exact (own_free P .finish (.guard :: gs) (dying_rel hr :) _ P.own.onEnd (fun _ => rfl)).trans (LeadsF.step (LeadsF.refl _ _ _))
  · exact LeadsF.step (LeadsF.refl _ _ _)

theorem step_free (P : NProg σ) {fs : List (NFrame σ)} {gs : List (FFrame σ)} (hr : RelF fs gs) (w : World σ C) :
    ∃ gs', LeadsF I P.free (gs, w) (gs', (stepN I P (fs, w)).2) ∧ RelF (stepN I P (fs, w)).1 gs' := by
  have next : ∀ {r : List (Op σ)} {o : Op σ} {sc : Script σ} {i : Nat}, (∀ j v, sc (i + j) v = ((o :: r).map Op.free)[j]?) →
      (∀ v, sc i v = some o.free) ∧ ∀ j v, sc (i + 1 + j) v = (r.map Op.free)[j]? := by
    intro r o sc i h
    refine ⟨fun v => ?_, fun j v => ?_⟩
    · simpa using h 0 v
    · rw [show i + 1 + j = i + (j + 1) by omega, h (j + 1) v]; rfl
  have done : ∀ {sc : Script σ} {i : Nat}, (∀ j v, sc (i + j) v = (([] : List (Op σ)).map Op.free)[j]?) → ∀ v, sc i v = none := by
    intro sc i h v
    simpa using h 0 v
  cases hr with
  | nil => exact ⟨[], LeadsF.refl _ _ _, .nil⟩
  | @user r fs gs sc i h hr =>
    cases r with
    | nil =>
      refine ⟨gs, LeadsF.step ?_, hr⟩
      simp only [stepF, done h]
      exact LeadsF.refl _ _ _
    | cons o r =>
      obtain ⟨h1, h2⟩ := next h
      obtain ⟨gs', a, b⟩ := op_free (I := I) P o (RelF.user h2 hr) w
      refine ⟨gs', LeadsF.step ?_, b⟩
      simp only [stepF, h1]
      exact a
  | @sink k r fs gs sc i h hr =>
    cases r with
    | nil =>
      refine ⟨gs, LeadsF.step ?_, hr⟩
      simp only [stepF, done h]
      exact return_free P k gs w
    | cons o r =>
      obtain ⟨h1, h2⟩ := next h
      obtain ⟨gs', a, b⟩ := op_free (I := I) P o (RelF.sink (k := k) h2 hr) w
      refine ⟨gs', LeadsF.step ?_, b⟩
      simp only [stepF, h1]
      exact a
  | @loop t fs gs hr =>
    simp only [stepN, World.loopN]
    by_cases c : w.view.paused = true
    · rw [if_pos c]
      refine ⟨gs, LeadsF.step ?_, hr⟩
      simp only [stepF, World.loopF, if_pos c]
      exact leave_free P hr w
    · rw [if_neg c]
      cases hk : I.front w.queue with
      | none =>
        refine ⟨gs, LeadsF.step ?_, hr⟩
        simp only [stepF, World.loopF, if_neg c, hk]
        exact leave_free P hr _
      | some k =>
        dsimp only
        by_cases d : pastN t k = true
        · rw [if_pos d]
          refine ⟨gs, LeadsF.step ?_, hr⟩
          simp only [stepF, World.loopF, if_neg c, hk, if_pos d]
          exact leave_free P hr _
        · rw [if_neg d]
          rcases sink_cases w k with ⟨u, s, r, e⟩ | e
          · have G : (w.setNow k.t).callN I P k (.loop t :: fs) =
                (.sink k (P.sink s (({ w.setNow k.t with queue := I.pre w.queue } : World σ C).fireBegin k).view) :: .loop t :: fs,
                  ({ w.setNow k.t with queue := I.pre w.queue } : World σ C).fireBegin k) := by
              simp only [World.callN, World.setNow, e]
            rw [G]
            refine ⟨_, LeadsF.step ?_, .sink (i := 0)
              (sc := P.free.sink s (({ w.setNow k.t with queue := I.pre w.queue } : World σ C).fireBegin k).view) ?_ (.loop hr)⟩
            · have H : (w.setNow k.t).callF I P.free k (.loop t :: .guard :: gs) =
                  (.body (.sink k) (P.free.sink s (({ w.setNow k.t with queue := I.pre w.queue } : World σ C).fireBegin k).view) 0 ::
                    .loop t :: .guard :: gs, ({ w.setNow k.t with queue := I.pre w.queue } : World σ C).fireBegin k) := by
                have dy : ¬ k.id ∈ dying (.loop t :: .guard :: gs) := by
                  rw [show dying (.loop t :: .guard :: gs) = dying gs from rfl, dying_rel hr]; simp
                simp only [World.callF, World.setNow, e, if_neg dy]
              simp only [stepF, World.loopF, if_neg c, hk, if_neg d]
              rw [H]
              exact LeadsF.refl _ _ _
            · intro j v
              simp [NProg.free, scriptOf]
          · have G : (w.setNow k.t).callN I P k (.loop t :: fs) =
                (.loop t :: fs, { w.setNow k.t with queue := I.post k (I.pre w.queue) }) := by
              unfold World.callN
              dsimp only
              split
              · rename_i e'; exact absurd e' (e _ _ _)
              · rfl
            have H : (w.setNow k.t).callF I P.free k (.loop t :: .guard :: gs) =
                (.loop t :: .guard :: gs, { w.setNow k.t with queue := I.post k (I.pre w.queue) }) := by
              unfold World.callF
              dsimp only
              split
              · rename_i e'; exact absurd e' (e _ _ _)
              · rfl
            rw [G]
            refine ⟨_, LeadsF.step ?_, .loop hr⟩
            simp only [stepF, World.loopF, if_neg c, hk, if_neg d]
            rw [H]
            exact LeadsF.refl _ _ _

theorem exec_free (P : NProg σ) (os : List (Op σ)) (n : Nat) :
    ∃ gs, LeadsF I P.free ([.body .client (scriptOf (os.map Op.free)) 0], World.init I) (gs, (execN I P os n).2) ∧
      RelF (execN I P os n).1 gs := by
  induction n with
  | zero => exact ⟨_, LeadsF.refl _ _ _, .user (fun j v => by simp [scriptOf]) .nil⟩
  | succ n ih =>
    obtain ⟨gs, a, b⟩ := ih
    obtain ⟨gs', c, d⟩ := step_free (I := I) P b (execN I P os n).2
    have e : execN I P os (n + 1) = stepN I P (execN I P os n) := stepsN_succ _ _ n _
    rw [e]
    exact ⟨gs', a.trans c, d⟩

end
end Verif.Sim
