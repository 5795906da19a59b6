import Verif.Sim.Direct

/-!
Properties C21-C33: schedulers and simulator.

Vocabulary: a history is `World.execs I P fuel (World.init I) os`: `os` are the operations of the user
(`ScheduleAt/Now/In`, `Cancel`, `Pause`, `Run`, `RunUntil`, `RunFor`) in any order, `P` is the program of
all sinks, `I` is one of the three schedulers, and `fuel` bounds the number of loop iterations per
run; a history whose last run did not end within `fuel` iterations is a prefix of an execution, so a
statement for every `fuel` covers also simulations that never end.
-/
set_option linter.unusedSimpArgs false
set_option linter.unusedVariables false
namespace Verif.Sim

section
variable {σ C : Type}

/-! ### Concrete programs for the examples -/

/-- A heap implementation meeting the contract: keep everything sorted. -/
def isort (l : List Key) : List Key := l.foldr ins []

theorem isort_perm (l : List Key) : (isort l).Perm l := by
  induction l with
  | nil => exact List.Perm.refl _
  | cons a l ih => exact (ins_perm a _).trans (ih.cons a)

abbrev WeakSorted (l : List Key) : Prop := l.Pairwise (fun a b => b.lt a = false)

theorem weak_ins {k : Key} {q : List Key} (hs : WeakSorted q) : WeakSorted (ins k q) := by
  induction q with
  | nil => simp [ins]
  | cons h r ih =>
    have hs' := List.pairwise_cons.mp hs
    simp only [ins]; split
    · rename_i hk
      refine List.pairwise_cons.mpr ⟨fun x hx => ?_, ih hs'.2⟩
      rcases (mem_ins _ _ _).mp hx with rfl | hx
      · exact Key.lt_asymm hk
      · exact hs'.1 x hx
    · rename_i hk
      refine List.pairwise_cons.mpr ⟨fun x hx => ?_, hs⟩
      rcases List.mem_cons.mp hx with rfl | hx
      · simpa using hk
      · have := hs'.1 x hx
        rw [← Bool.not_eq_true, Key.lt_iff] at this ⊢
        rw [Key.lt_iff] at hk; omega

theorem weak_isort (l : List Key) : WeakSorted (isort l) := by
  induction l with
  | nil => exact List.Pairwise.nil
  | cons a l ih => exact weak_ins ih

theorem weak_heap {l : List Key} (h : WeakSorted l) : IsHeap l := by
  intro i a b hi ha hb
  obtain ⟨h1, rfl⟩ := List.getElem?_eq_some_iff.mp ha
  obtain ⟨h2, rfl⟩ := List.getElem?_eq_some_iff.mp hb
  exact List.pairwise_iff_getElem.mp h _ _ h1 h2 (by omega)

def sortAlg : HeapAlg where
  push := isort
  pop := fun | [] => [] | k :: s => isort s ++ [k]
  push_perm := isort_perm
  push_heap _ _ _ := weak_heap (weak_isort _)
  pop_perm := fun
    | [] => List.Perm.refl _
    | k :: s => List.perm_append_comm.trans ((isort_perm s).cons k)
  pop_last := by intro k l _; simp
  pop_heap := fun
    | [], _ => by intro i a b _ h; simp at h
    | k :: s, _ => by rw [List.dropLast_concat]; exact weak_heap (weak_isort _)

/-- Sink 0 does nothing; sink 1 schedules two more events and cancels event 2; sink 2 pauses; sink 3
cancels itself (event 0); sink 4 schedules an event for the current time. -/
def demo : Prog Nat where
  sink s _ := match s with
    | 1 => [.in 5 (some 0), .now (some 0), .cancel 2]
    | 2 => [.pause]
    | 3 => [.cancel 0]
    | 4 => [.now (some 0)]
    | _ => []
  onBegin _ := []
  onRun _ := []
  onPause _ := []
  onEnd _ := []

/-! ### C21 -/

/-- Whatever was done with a list scheduler before (any clock, any sinks), taking the events one
after another yields all events it holds, sorted by time and, for equal times, by scheduling
order. -/
theorem C21_list_order (P : Prog σ) (os : List (DOp σ)) (n : Nat)
    (hn : (World.directs listImpl P (World.init listImpl) os).queue.length ≤ n) :
    let w := World.directs listImpl P (World.init listImpl) os
    let d := drain listImpl quietProg n w
    d.Perm w.queue ∧ d.Pairwise (fun a b => a.t < b.t ∨ (a.t = b.t ∧ a.id < b.id)) := by
  have hv := valid_directs listValid P os (World.init listImpl) listValid.empty
  dsimp only
  rw [drain_sorted n _ hv.1, List.take_of_length_le hn]
  exact ⟨List.Perm.refl _, hv.1.imp (fun h => (Key.lt_iff _ _).mp h)⟩

/-- The same for a set scheduler. -/
theorem C21_set_order (P : Prog σ) (os : List (DOp σ)) (n : Nat)
    (hn : (World.directs setImpl P (World.init setImpl) os).queue.length ≤ n) :
    let w := World.directs setImpl P (World.init setImpl) os
    let d := drain setImpl quietProg n w
    d.Perm w.queue ∧ d.Pairwise (fun a b => a.t < b.t ∨ (a.t = b.t ∧ a.id < b.id)) := by
  have hv := valid_directs setValid P os (World.init setImpl) setValid.empty
  dsimp only
  rw [drain_set n _ hv.1, List.take_of_length_le hn]
  exact ⟨List.Perm.refl _, hv.1.imp (fun h => (Key.lt_iff _ _).mp h)⟩

/-- The same for a heap scheduler, for every correct `push_heap`/`pop_heap`. -/
theorem C21_heap_order (A : HeapAlg) (P : Prog σ) (os : List (DOp σ)) (n : Nat)
    (hn : (World.directs (heapImpl A) P (World.init (heapImpl A)) os).queue.length ≤ n) :
    let w := World.directs (heapImpl A) P (World.init (heapImpl A)) os
    let d := drain (heapImpl A) quietProg n w
    d.Perm w.queue ∧ d.Pairwise (fun a b => a.t < b.t ∨ (a.t = b.t ∧ a.id < b.id)) := by
  have hv := valid_directs (heapValid A) P os (World.init (heapImpl A)) (heapValid A).empty
  have := drain_heap A n _ hv.1 hv.2.1 hn
  exact ⟨this.2, this.1.imp (fun h => (Key.lt_iff _ _).mp h)⟩

/-- In a simulation whose sinks schedule and cancel arbitrarily, the events are fired in the order
of time, and in scheduling order for equal times. -/
theorem fired_sorted (F : Refine (C := C) I) (P : Prog σ) (fuel : Nat) (os : List (Op σ))
    (hf : Forward I P fuel (World.init I : World σ C) os) :
    (fires (World.execs I P fuel (World.init I) os).1.view.trace).Pairwise
      (fun a b => a.t < b.t ∨ (a.t = b.t ∧ a.id < b.id)) := by
  obtain ⟨w', hr, _, _, _, _, ho⟩ := reach F P fuel os
  rw [hr.view]
  exact (ho hf).sorted.imp (fun h => (Key.lt_iff _ _).mp h)

theorem C21_fired_in_order (A : HeapAlg) (P : Prog σ) (fuel : Nat) (os : List (Op σ))
    (hf : Forward (heapImpl A) P fuel (World.init (heapImpl A) : World σ _) os) :
    (fires (World.execs (heapImpl A) P fuel (World.init (heapImpl A)) os).1.view.trace).Pairwise
      (fun a b => a.t < b.t ∨ (a.t = b.t ∧ a.id < b.id)) :=
  fired_sorted (heapRefine A) P fuel os hf

example : drain listImpl quietProg 9 (World.directs listImpl demo (World.init listImpl)
    [.act (.at 5 (some 0)), .act (.at 3 (some 0)), .act (.at 5 (some 0)), .act (.at 3 (some 0))]) =
    [⟨3, 1⟩, ⟨3, 3⟩, ⟨5, 0⟩, ⟨5, 2⟩] := by decide

/-- **C23.** With a clock that may show any time: after any history of direct use, and the clock then showing `now`, an event
before `now` is refused and leaves the events, the handles and what was fired as they were; any other is added, last in identity. -/
theorem C23_clock (I : Impl C) (P : Prog σ) (w : World σ C) (os : List (DOp σ)) (now t : Int) (x : σ)
    (hc : (w.directs I P os).clocked = true) :
    let a := w.directs I P os
    let b := w.directs I P (os ++ [.clock now, .act (.at t (some x))])
    (t < now → b.queue = a.queue ∧ b.view.handles = a.view.handles ∧ b.view.trace = a.view.trace) ∧
    (now ≤ t → b.queue = I.insert ⟨t, a.view.handles.length⟩ a.queue ∧
      b.view.handles = a.view.handles ++ [⟨t, some x, false⟩]) := by
  intro a b
  have hb : b = (a.setNow now).orKeep ((a.setNow now).scheduleAt I t (some x)) := by
    simp only [b, a, World.directs, List.foldl_append, List.foldl_cons, List.foldl_nil, World.direct, World.perform]
  have hc' : (a.setNow now).clocked = true := hc
  have hn : (a.setNow now).view.now = now := rfl
  refine ⟨fun h => ?_, fun h => ?_⟩
  · have hs : (a.setNow now).scheduleAt I t (some x) = .error .invalidArgument := by
      simp [World.scheduleAt, hc', hn, h]
    rw [hb, hs]
    exact ⟨rfl, rfl, rfl⟩
  · have hs := Int.not_lt.mpr h
    rw [hb]
    simp only [World.scheduleAt, hc', hn, hs, Bool.not_true, Bool.false_eq_true, if_false, World.orKeep]
    exact ⟨rfl, rfl⟩

/-- The clock shows 4: the event at 3 is refused.  It is set back to 1: the event at 2 is accepted, and is the first. -/
example : drain listImpl quietProg 9 (World.directs listImpl demo (World.init listImpl)
    [.act (.at 5 (some 0)), .clock 4, .act (.at 3 (some 0)), .act (.at 4 (some 0)), .clock 1, .act (.at 2 (some 0))]) =
    [⟨2, 2⟩, ⟨4, 1⟩, ⟨5, 0⟩] := by decide

/-! ### C22 -/

theorem views_eq {D : Type} {J : Impl D} (F : Refine (C := C) I) (G : Refine J) (P : Prog σ)
    (fuel : Nat) (os : List (Op σ)) :
    (World.execs I P fuel (World.init I) os).1.view =
      (World.execs J P fuel (World.init J) os).1.view ∧
    (World.execs I P fuel (World.init I) os).2 = (World.execs J P fuel (World.init J) os).2 ∧
    I.front (World.execs I P fuel (World.init I : World σ C) os).1.queue =
      J.front (World.execs J P fuel (World.init J : World σ D) os).1.queue := by
  have h1 := rel_execs F P fuel os (rel_init (σ := σ) F).1 (rel_init (σ := σ) F).2
  have h2 := rel_execs G P fuel os (rel_init (σ := σ) G).1 (rel_init (σ := σ) G).2
  exact ⟨h1.1.view.trans h2.1.view.symm, h1.2.2.trans h2.2.2.symm,
    (F.front _ _ h1.1.queue h1.2.1.sorted).trans (G.front _ _ h2.1.queue h2.2.1.sorted).symm⟩

/-- For every program and every history, a simulation over a list scheduler, over a set scheduler and
over a heap scheduler do the same: same clock, same handles, same events fired at the same times in
the same order, same notifications, and the same next event. -/
theorem C22_interchangeable (A : HeapAlg) (P : Prog σ) (fuel : Nat) (os : List (Op σ)) :
    let l := World.execs listImpl P fuel (World.init listImpl) os
    let s := World.execs setImpl P fuel (World.init setImpl) os
    let h := World.execs (heapImpl A) P fuel (World.init (heapImpl A)) os
    (l.1.view = s.1.view ∧ l.2 = s.2 ∧ listImpl.front l.1.queue = setImpl.front s.1.queue) ∧
    (l.1.view = h.1.view ∧ l.2 = h.2 ∧
      listImpl.front l.1.queue = (heapImpl A).front h.1.queue) :=
  ⟨views_eq listRefine setRefine P fuel os, views_eq listRefine (heapRefine A) P fuel os⟩

example : (World.execs (heapImpl sortAlg) demo 9 (World.init (heapImpl sortAlg))
    [.act (.at 4 (some 1)), .act (.at 4 (some 0)), .act (.at 7 (some 0)), .run]).1.view.trace =
    [(0, .sched 0 4), (0, .sched 1 4), (0, .sched 2 7), (0, .begin), (0, .run),
     (4, .fire 0 4), (4, .sched 3 9), (4, .sched 4 4), (4, .cancel 2), (4, .done 0),
     (4, .fire 1 4), (4, .done 1), (4, .fire 4 4), (4, .done 4),
     (9, .fire 3 9), (9, .done 3), (9, .pause), (9, .finish)] := by decide

/-! ### C23 -/

/-- `ScheduleAt` fails exactly in the three cases (checked in this order) and then changes nothing;
otherwise it adds exactly one event with the given time, which is pending. -/
theorem C23_scheduleAt (I : Impl C) (w : World σ C) (t : Int) (sink : Option σ) :
    (w.clocked = false → w.scheduleAt I t sink = .error .uninitialized) ∧
    (w.clocked = true → sink = none → w.scheduleAt I t sink = .error .invalidPointer) ∧
    (w.clocked = true → sink.isSome → t < w.view.now →
      w.scheduleAt I t sink = .error .invalidArgument) ∧
    (w.clocked = true → sink.isSome → w.view.now ≤ t →
      ∃ w', w.scheduleAt I t sink = .ok (w.view.handles.length, w') ∧
        w'.queue = I.insert ⟨t, w.view.handles.length⟩ w.queue ∧
        w'.view.handles = w.view.handles ++ [⟨t, sink, false⟩] ∧
        (∃ h, w'.view.handles[w.view.handles.length]? = some h ∧ h.isPending = true ∧ h.t = t) ∧
        w'.view.now = w.view.now ∧ w'.view.paused = w.view.paused ∧
        w'.view.started = w.view.started) := by
  refine ⟨?_, ?_, ?_, ?_⟩
  · intro h; simp [World.scheduleAt, h]
  · intro h h'; subst h'; simp [World.scheduleAt, h]
  · intro h hs ht
    cases sink with
    | none => cases hs
    | some x => simp [World.scheduleAt, h, ht]
  · intro h hs ht
    cases sink with
    | none => cases hs
    | some x =>
      have : ¬ t < w.view.now := by omega
      have e : w.scheduleAt I t (some x) = .ok (w.view.handles.length,
          { w with
            view := { w.view.log (.sched w.view.handles.length t) with
              handles := w.view.handles ++ [⟨t, some x, false⟩] },
            queue := I.insert ⟨t, w.view.handles.length⟩ w.queue }) := by
        unfold World.scheduleAt; rw [if_neg (by simp [h])]; dsimp only
        rw [if_neg this]
      refine ⟨_, e, rfl, rfl, ?_, rfl, rfl, rfl⟩
      exact ⟨⟨t, some x, false⟩, by simp, rfl, rfl⟩

/-- A rejected `ScheduleAt` (or `ScheduleIn`, `ScheduleNow`) leaves the whole world as it was: the
events and all later identities are unaffected. -/
theorem C23_rejected (I : Impl C) (w : World σ C) (t : Int) (sink : Option σ) (e : Err)
    (h : w.scheduleAt I t sink = .error e) : w.perform I (.at t sink) = w := by
  simp [World.perform, h, World.orKeep]

/-- "Exactly one event is added": for the list, the set and the heap, in every state that direct use
can reach, the container afterwards holds the new event and what it held before. -/
theorem C23_added (A : HeapAlg) (q : List Key) (n : Nat) (t : Int) :
    (SortedIds q n → (listImpl.insert ⟨t, n⟩ q).Perm (⟨t, n⟩ :: q)) ∧
    (SortedIds q n → (setImpl.insert ⟨t, n⟩ q).Perm (⟨t, n⟩ :: q)) ∧
    ((heapImpl A).insert ⟨t, n⟩ q).Perm (⟨t, n⟩ :: q) := by
  refine ⟨fun h => ?_, fun h => ?_, ?_⟩
  · show (listInsert _ _).Perm _
    rw [listInsert_eq h.2]; exact ins_perm _ _
  · show (setInsert _ _).Perm _
    rw [setInsert_eq h.2]; exact ins_perm _ _
  · exact (A.push_perm _).trans List.perm_append_comm

/-- The documentation promises `Uninitialized` from `ScheduleNow` and `ScheduleIn` too; without a clock
they dereference the null clock pointer instead. -/
theorem C23_scheduleNow_fails (I : Impl C) (w : World σ C) (sink : Option σ) (dt : Int)
    (h : w.clocked = false) :
    w.scheduleNow I sink = .error .nullDeref ∧ w.scheduleIn I dt sink = .error .nullDeref := by
  simp [World.scheduleNow, World.scheduleIn, h]

example : (World.init listImpl : World Nat _).clocked = true ∧ (some 7 : Option Nat).isSome ∧
    (World.init listImpl : World Nat _).view.now ≤ 3 := by decide

/-! ### C24 -/

theorem ids_range (F : Refine (C := C) I) (P : Prog σ) (fuel : Nat) (os : List (Op σ)) :
    (World.execs I P fuel (World.init I) os).1.view.trace.filterMap schedId =
      List.range (World.execs I P fuel (World.init I) os).1.view.handles.length := by
  obtain ⟨w', hr, _, _, hi, _, _⟩ := reach F P fuel os
  rw [hr.view]; exact hi.scheds

/-- The identities given to the events of a scheduler are 0, 1, 2, ... in scheduling order; so they
are unique and increasing.  Holds for each of the three schedulers. -/
theorem C24_identities (A : HeapAlg) (P : Prog σ) (fuel : Nat) (os : List (Op σ)) :
    (let w := (World.execs listImpl P fuel (World.init listImpl) os).1
     w.view.trace.filterMap schedId = List.range w.view.handles.length) ∧
    (let w := (World.execs setImpl P fuel (World.init setImpl) os).1
     w.view.trace.filterMap schedId = List.range w.view.handles.length) ∧
    (let w := (World.execs (heapImpl A) P fuel (World.init (heapImpl A)) os).1
     w.view.trace.filterMap schedId = List.range w.view.handles.length) :=
  ⟨ids_range listRefine P fuel os, ids_range setRefine P fuel os,
    ids_range (heapRefine A) P fuel os⟩

/-- In particular the identities are strictly increasing. -/
theorem C24_increasing (P : Prog σ) (fuel : Nat) (os : List (Op σ)) :
    ((World.execs listImpl P fuel (World.init listImpl) os).1.view.trace.filterMap
      schedId).Pairwise (· < ·) := by
  rw [ids_range listRefine]; exact List.pairwise_lt_range

example : ((World.execs listImpl demo 9 (World.init listImpl)
    [.act (.at 4 (some 1)), .act (.at (-4) (some 0)), .act (.at 7 (some 0)), .run]).1.view.trace.filterMap
    schedId) = [0, 1, 2, 3] := by decide

/-! ### C25 -/

/-- A firing of event `id`. -/
def isFire (id : Nat) (e : Int × Entry) : Bool := match e.2 with
  | .fire i _ => decide (i = id)
  | _ => false

theorem once_count {tr : List (Int × Entry)} (h : tr.Pairwise NotBefore) (id : Nat) :
    (tr.filter (isFire id)).length ≤ 1 := by
  have h2 := h.filter (isFire id)
  match hf : tr.filter (isFire id) with
  | [] => simp
  | [_] => simp
  | a :: b :: r =>
    exfalso
    rw [hf] at h2
    have hab := (List.pairwise_cons.mp h2).1 b (by simp)
    have ha : isFire id a = true := (List.mem_filter.mp (by rw [hf]; simp : a ∈ tr.filter _)).2
    have hb : isFire id b = true := (List.mem_filter.mp (by rw [hf]; simp : b ∈ tr.filter _)).2
    obtain ⟨na, ea⟩ := a; obtain ⟨nb, eb⟩ := b
    cases ea <;> simp [isFire] at ha
    cases eb <;> simp [isFire] at hb
    rename_i i t j u
    have := (hab j u rfl).2 t
    simp at this; omega

theorem atMostOnce (F : Refine (C := C) I) (P : Prog σ) (fuel : Nat) (os : List (Op σ)) :
    let w := (World.execs I P fuel (World.init I) os).1
    (∀ id, (w.view.trace.filter (isFire id)).length ≤ 1) ∧
    (∀ pre n id t post, w.view.trace = pre ++ (n, .fire id t) :: post →
      ∀ m, (m, Entry.cancel id) ∉ pre) ∧
    (I.front w.queue = none → ∀ m id t, (m, Entry.sched id t) ∈ w.view.trace →
      (∀ n, (n, Entry.cancel id) ∉ w.view.trace) →
      (w.view.trace.filter (isFire id)).length = 1) := by
  obtain ⟨w', hr, _, hl, hi, _, _⟩ := reach F P fuel os
  dsimp only
  rw [hr.view, F.front _ _ hr.queue hl.sorted]
  refine ⟨once_count hi.once, ?_, ?_⟩
  · intro pre n id t post e m hm
    have := hi.once
    simp only [World.st] at this
    rw [e] at this
    have := (List.pairwise_append.mp this).2.2 _ hm _ (List.mem_cons_self) id t rfl
    exact this.1 rfl
  · intro hq m id t hm hnc
    have hq' : w'.queue = [] := List.head?_eq_none_iff.mp hq
    have hlt := hi.bound id (.inr (.inr (.inr ⟨m, t, hm⟩)))
    have hh := hi.handles id _ (List.getElem?_eq_getElem hlt)
    have h1 := once_count hi.once id
    simp only [World.st] at h1
    rcases hh.out (by simp [World.st, hq']) with ⟨n, u, hf⟩ | ⟨n, hc⟩
    · have : 0 < (w'.view.trace.filter (isFire id)).length :=
        List.length_pos_of_mem (List.mem_filter.mpr ⟨hf, by simp [isFire]⟩)
      omega
    · exact absurd hc (hnc n)

/-- For each scheduler, every program and every history: no event is fired twice; no event is fired
after it was cancelled; and when no event is left, every event that was never cancelled has been
fired exactly once. -/
theorem C25_exactly_once (A : HeapAlg) (P : Prog σ) (fuel : Nat) (os : List (Op σ)) :
    let w := (World.execs (heapImpl A) P fuel (World.init (heapImpl A)) os).1
    (∀ id, (w.view.trace.filter (isFire id)).length ≤ 1) ∧
    (∀ pre n id t post, w.view.trace = pre ++ (n, .fire id t) :: post →
      ∀ m, (m, Entry.cancel id) ∉ pre) ∧
    ((heapImpl A).front w.queue = none → ∀ m id t, (m, Entry.sched id t) ∈ w.view.trace →
      (∀ n, (n, Entry.cancel id) ∉ w.view.trace) →
      (w.view.trace.filter (isFire id)).length = 1) :=
  atMostOnce (heapRefine A) P fuel os

theorem C25_exactly_once_list (P : Prog σ) (fuel : Nat) (os : List (Op σ)) :
    let w := (World.execs listImpl P fuel (World.init listImpl) os).1
    (∀ id, (w.view.trace.filter (isFire id)).length ≤ 1) ∧
    (∀ pre n id t post, w.view.trace = pre ++ (n, .fire id t) :: post →
      ∀ m, (m, Entry.cancel id) ∉ pre) ∧
    (listImpl.front w.queue = none → ∀ m id t, (m, Entry.sched id t) ∈ w.view.trace →
      (∀ n, (n, Entry.cancel id) ∉ w.view.trace) →
      (w.view.trace.filter (isFire id)).length = 1) :=
  atMostOnce listRefine P fuel os

theorem C25_exactly_once_set (P : Prog σ) (fuel : Nat) (os : List (Op σ)) :
    let w := (World.execs setImpl P fuel (World.init setImpl) os).1
    (∀ id, (w.view.trace.filter (isFire id)).length ≤ 1) ∧
    (∀ pre n id t post, w.view.trace = pre ++ (n, .fire id t) :: post →
      ∀ m, (m, Entry.cancel id) ∉ pre) ∧
    (setImpl.front w.queue = none → ∀ m id t, (m, Entry.sched id t) ∈ w.view.trace →
      (∀ n, (n, Entry.cancel id) ∉ w.view.trace) →
      (w.view.trace.filter (isFire id)).length = 1) :=
  atMostOnce setRefine P fuel os

/-- Turning an `ok` result into the state of the history. -/
theorem orStay_ok {w : World σ C} {x : Except Err (World σ C × Bool)} {r : World σ C × Bool}
    (h : x = .ok r) : w.orStay x = r := by subst h; rfl

theorem run_completes (F : Refine (C := C) I) (P : Prog σ) (fuel : Nat) (os : List (Op σ))
    (w w' : World σ C) (hw : (World.execs I P fuel (World.init I) os).1 = w)
    (h : w.run I P fuel = .ok (w', true)) :
    ∃ a0 a1 b, w'.view.trace =
        w.view.trace ++ (a0 ++ (w.view.now, .run) :: a1) ++ (w'.view.now, .pause) :: b ∧
      fires b = [] ∧
      ((∀ e ∈ a1, e.2 ≠ .pauseReq) →
        AllGone (w.view.trace ++ (a0 ++ (w.view.now, .run) :: a1))) := by
  obtain ⟨v, hr, _, hl, hi, _, _⟩ := reach F P fuel os
  rw [hw] at hr
  have h1 := rel_run F P fuel hr hl
  rw [orStay_ok h] at h1
  unfold World.run at h
  split at h
  · cases h
  · split at h
    · cases h
    · rename_i hwired hsize
      have hwired' : ¬ (!v.wired) = true := by rw [← hr.wired]; exact hwired
      have hsize' : ¬ specImpl.size v.queue = 0 := by
        show ¬ v.queue.length = 0
        rw [← F.size _ _ hr.queue]; exact hsize
      unfold World.run at h1
      rw [if_neg hwired', if_neg hsize'] at h1
      simp only [World.orStay] at h1
      set_option linter.unusedVariables false in
      have hi1 := inv_steps (steps_prologue true P v) hi
      have hsl := steps_runLoop true P fuel _ hi1
      have hi2 := inv_steps hsl hi1
      obtain ⟨hR, hL, hb⟩ := h1
      unfold World.close at hR hL hb
      by_cases hfin : (World.runLoop specImpl P fuel (v.prologue specImpl P)).2 = true
      · rw [if_pos hfin] at hR hL hb
        have hend := runLoop_end P fuel _ hfin
        obtain ⟨body, hbx, _⟩ := life_runLoop specImpl P fuel (v.prologue specImpl P)
        obtain ⟨a0, a1, ht, q, hp, hs, _⟩ := shape_prologue specImpl P v
        obtain ⟨a, b, ht2, qa, _, hb2⟩ := shape_epilogue specImpl P
          (World.runLoop specImpl P fuel (v.prologue specImpl P)).1
        have hnow : w'.view.now =
            (World.runLoop specImpl P fuel (v.prologue specImpl P)).1.view.now := by
          rw [hR.view]; exact epilogue_now _ _ _
        refine ⟨a0, a1 ++ body, a ++ b, ?_, ?_, ?_⟩
        · rw [hR.view]
          show (World.epilogue specImpl P _).view.trace = _
          rw [ht2, hbx.trace, ht, hr.view, ← hnow]
          simp [hR.view]
        · have hqf : ∀ l, Quiet l → fires l = [] := by
            intro l hq
            unfold fires
            rw [List.filterMap_eq_nil_iff]
            rintro ⟨n, e⟩ he
            have := hq _ he
            cases e <;> first | rfl | cases this
          rw [fires_append, hqf a qa]
          rcases hb2 with rfl | ⟨l, rfl, ql⟩
          · rfl
          · have := hqf l ql
            unfold fires at *
            rw [List.filterMap_cons]; simpa [fireKey] using this
        · intro hnp
          have hnp' : (World.runLoop specImpl P fuel (v.prologue specImpl P)).1.view.paused = false := by
            rw [hbx.paused, hp, ← List.any_append, List.any_eq_false]
            intro e he
            simpa [isPauseReq] using hnp e he
          have hqe : (World.runLoop specImpl P fuel (v.prologue specImpl P)).1.queue = [] := by
            rcases hend with h' | h'
            · rw [hnp'] at h'; cases h'
            · exact h'
          have htr : w.view.trace ++ (a0 ++ (w.view.now, .run) :: (a1 ++ body)) =
              (World.runLoop specImpl P fuel (v.prologue specImpl P)).1.view.trace := by
            rw [hbx.trace, ht, hr.view]; simp
          rw [htr]
          intro m id t hm
          have hlt := hi2.bound id (.inr (.inr (.inr ⟨m, t, hm⟩)))
          have hh := hi2.handles id _ (List.getElem?_eq_getElem hlt)
          exact hh.out (by simp [World.st, hqe])
      · rw [if_neg hfin] at hb
        exact absurd hb.symm hfin

/-- `Run` that is not paused fires every event: when its pause notification is sent, every event ever
scheduled has been fired or cancelled. -/
theorem C25_run_completes (A : HeapAlg) (P : Prog σ) (fuel : Nat) (os : List (Op σ))
    (w w' : World σ (List Key))
    (hw : (World.execs (heapImpl A) P fuel (World.init (heapImpl A)) os).1 = w)
    (h : w.run (heapImpl A) P fuel = .ok (w', true)) :
    ∃ a0 a1 b, w'.view.trace =
        w.view.trace ++ (a0 ++ (w.view.now, .run) :: a1) ++ (w'.view.now, .pause) :: b ∧
      fires b = [] ∧
      ((∀ e ∈ a1, e.2 ≠ .pauseReq) →
        AllGone (w.view.trace ++ (a0 ++ (w.view.now, .run) :: a1))) :=
  run_completes (heapRefine A) P fuel os w w' hw h

example : (World.execs (heapImpl sortAlg) demo 9 (World.init (heapImpl sortAlg))
    [.act (.at 4 (some 1)), .act (.at 4 (some 0)), .act (.at 7 (some 0)), .run]).2 = true := by
  decide

/-! ### C26 -/

theorem clock_forward (F : Refine (C := C) I) (P : Prog σ) (fuel : Nat) (os : List (Op σ))
    (hf : Forward I P fuel (World.init I : World σ C) os) :
    let w := (World.execs I P fuel (World.init I) os).1
    w.view.trace.Pairwise (fun a b => a.1 ≤ b.1) ∧ (∀ e ∈ w.view.trace, e.1 ≤ w.view.now) ∧
    (∀ n id t, (n, Entry.fire id t) ∈ w.view.trace → n = t ∧
      ∃ m, (m, Entry.sched id t) ∈ w.view.trace) := by
  obtain ⟨w', hr, _, _, hi, _, ho⟩ := reach F P fuel os
  dsimp only
  rw [hr.view]
  refine ⟨(ho hf).clock, (ho hf).clockNow, ?_⟩
  intro n id t hm
  refine ⟨hi.atTime n id t hm, ?_⟩
  have hlt := hi.bound id (.inl ⟨n, t, hm⟩)
  have hh := hi.handles id _ (List.getElem?_eq_getElem hlt)
  exact (hh.sched t).mpr (hh.time n t hm)

/-- As long as no run asks for a time in the past, the clock read at successive moments of the
history is non-decreasing, and while an event fires the clock shows the time it was scheduled for. -/
theorem C26_clock (A : HeapAlg) (P : Prog σ) (fuel : Nat) (os : List (Op σ))
    (hf : Forward (heapImpl A) P fuel (World.init (heapImpl A) : World σ _) os) :
    let w := (World.execs (heapImpl A) P fuel (World.init (heapImpl A)) os).1
    w.view.trace.Pairwise (fun a b => a.1 ≤ b.1) ∧ (∀ e ∈ w.view.trace, e.1 ≤ w.view.now) ∧
    (∀ n id t, (n, Entry.fire id t) ∈ w.view.trace → n = t ∧
      ∃ m, (m, Entry.sched id t) ∈ w.view.trace) :=
  clock_forward (heapRefine A) P fuel os hf

example : Forward (heapImpl sortAlg) demo 9 (World.init (heapImpl sortAlg))
    [.act (.at 4 (some 1)), .runUntil 3, .run, .act (.in 2 (some 0)), .runFor 1] := by
  refine ⟨trivial, ?_, trivial, trivial, ?_, trivial⟩ <;> simp only [Op.forward] <;> decide

/-! ### C27 -/

/-- After `Run`, `Now()` need not be the time of the last fired event: event 1 is cancelled by the
user, `Run` still moves the clock to its time. -/
theorem C27_fails :
    let w := (World.execs listImpl demo 9 (World.init listImpl)
      [.act (.at 4 (some 0)), .act (.at 9 (some 0)), .act (.cancel 1), .run]).1
    w.view.now = 9 ∧ fires w.view.trace = [⟨4, 0⟩] := by decide

theorem run_last (F : Refine (C := C) I) (P : Prog σ) (fuel : Nat) (os : List (Op σ))
    (w w' : World σ C) (hw : (World.execs I P fuel (World.init I) os).1 = w)
    (h : w.run I P fuel = .ok (w', true))
    (hc : ∀ n id, (n, Entry.cancel id) ∉ w'.view.trace) :
    ∃ l, w'.view.trace = w.view.trace ++ l ∧
      ((fires l = [] ∧ w'.view.now = w.view.now) ∨
        (fires l).getLast?.map Key.t = some w'.view.now) := by
  obtain ⟨v, hr, _, hl, hi, _, _⟩ := reach F P fuel os
  rw [hw] at hr
  have h1 := rel_run F P fuel hr hl
  rw [orStay_ok h] at h1
  unfold World.run at h
  split at h
  · cases h
  · split at h
    · cases h
    · rename_i hwired hsize
      have hwired' : ¬ (!v.wired) = true := by rw [← hr.wired]; exact hwired
      have hsize' : ¬ specImpl.size v.queue = 0 := by
        show ¬ v.queue.length = 0
        rw [← F.size _ _ hr.queue]; exact hsize
      unfold World.run at h1
      rw [if_neg hwired', if_neg hsize'] at h1
      simp only [World.orStay] at h1
      have hi1 := inv_steps (steps_prologue true P v) hi
      obtain ⟨hR, hL, hb⟩ := h1
      unfold World.close at hR hL hb
      by_cases hfin : (World.runLoop specImpl P fuel (v.prologue specImpl P)).2 = true
      · rw [if_pos hfin] at hR hL hb
        obtain ⟨a0, a1, ht, q, hp, hs, hc0⟩ := shape_prologue specImpl P v
        obtain ⟨a, b, ht2, qa, _, hb2⟩ := shape_epilogue specImpl P
          (World.runLoop specImpl P fuel (v.prologue specImpl P)).1
        have hqf : ∀ l, Quiet l → fires l = [] := by
          intro l hq
          unfold fires
          rw [List.filterMap_eq_nil_iff]
          rintro ⟨n, e⟩ he
          have := hq _ he
          cases e <;> first | rfl | cases this
        have htr : w'.view.trace = (World.runLoop specImpl P fuel (v.prologue specImpl P)).1.view.trace
            ++ ((World.runLoop specImpl P fuel (v.prologue specImpl P)).1.view.now, .pause) ::
              (a ++ b) := by
          rw [hR.view]; exact ht2
        have hnc : ∀ id, ¬ Cancelled (World.runLoop specImpl P fuel (v.prologue specImpl P)).1.view id := by
          rintro id ⟨n, hm⟩
          exact hc n id (by rw [htr]; exact List.mem_append_left _ hm)
        obtain ⟨body, hbd, hlast⟩ := runLoop_last P fuel _ hi1 hnc
        have hnow : w'.view.now =
            (World.runLoop specImpl P fuel (v.prologue specImpl P)).1.view.now := by
          rw [hR.view]; exact epilogue_now _ _ _
        have hf0 : fires (a0 ++ (v.view.now, .run) :: a1) = [] := by
          rw [fires_append]
          have e1 : fires ((v.view.now, Entry.run) :: a1) = [] := by
            have := hqf a1 q
            unfold fires at *; rw [List.filterMap_cons]; simpa [fireKey] using this
          rw [e1]
          rcases hc0 with ⟨_, rfl⟩ | ⟨_, l, rfl, ql⟩
          · rfl
          · have := hqf l ql
            unfold fires at *; rw [List.filterMap_cons]; simpa [fireKey] using this
        have hf1 : fires (((World.runLoop specImpl P fuel (v.prologue specImpl P)).1.view.now,
            Entry.pause) :: (a ++ b)) = [] := by
          have e1 : fires (a ++ b) = [] := by
            rw [fires_append, hqf a qa]
            rcases hb2 with rfl | ⟨l, rfl, ql⟩
            · rfl
            · have := hqf l ql
              unfold fires at *; rw [List.filterMap_cons]; simpa [fireKey] using this
          unfold fires at *; rw [List.filterMap_cons]; simpa [fireKey] using e1
        refine ⟨(a0 ++ (v.view.now, .run) :: a1) ++ body ++
          (((World.runLoop specImpl P fuel (v.prologue specImpl P)).1.view.now, .pause) :: (a ++ b)),
          ?_, ?_⟩
        · rw [htr, hbd, ht, hr.view]; simp
        · rw [fires_append, fires_append, hf0, hf1, List.nil_append, List.append_nil, hnow]
          rw [prologue_now] at hlast
          rw [hr.view]
          exact hlast
      · rw [if_neg hfin] at hb
        exact absurd hb.symm hfin

/-- Without cancellations the documented postcondition holds: if this `Run` fired any event, `Now()` is
the time of the last one; otherwise (paused at once) `Now()` is unchanged.  Missing: histories with
cancelled events, for which the property is false. -/
theorem C27_after_run_partial (A : HeapAlg) (P : Prog σ) (fuel : Nat) (os : List (Op σ))
    (w w' : World σ (List Key))
    (hw : (World.execs (heapImpl A) P fuel (World.init (heapImpl A)) os).1 = w)
    (h : w.run (heapImpl A) P fuel = .ok (w', true))
    (hc : ∀ n id, (n, Entry.cancel id) ∉ w'.view.trace) :
    ∃ l, w'.view.trace = w.view.trace ++ l ∧
      ((fires l = [] ∧ w'.view.now = w.view.now) ∨
        (fires l).getLast?.map Key.t = some w'.view.now) :=
  run_last (heapRefine A) P fuel os w w' hw h hc

example : (match ((World.execs (heapImpl sortAlg) demo 9 (World.init (heapImpl sortAlg))
    [.act (.at 4 (some 0)), .act (.at 9 (some 0))]).1.run (heapImpl sortAlg) demo 9) with
    | .ok r => decide (r.2 = true) && r.1.view.trace.all (fun e => match e.2 with
      | .cancel _ => false | _ => true)
    | .error _ => false) = true := by decide

/-! ### C28 -/

theorem until_spec (F : Refine (C := C) I) (P : Prog σ) (fuel : Nat) (os : List (Op σ))
    (w w' : World σ C) (hw : (World.execs I P fuel (World.init I) os).1 = w) (t : Int)
    (h : w.runUntil I P fuel t = .ok (w', true)) :
    ∃ a0 a1 b, w'.view.trace =
        w.view.trace ++ (a0 ++ (w.view.now, .run) :: a1) ++ (w'.view.now, .pause) :: b ∧
      fires b = [] ∧
      (∀ e ∈ a0 ++ (w.view.now, .run) :: a1, ∀ id u, e.2 = .fire id u → u ≤ t) ∧
      ((∀ e ∈ a1, e.2 ≠ .pauseReq) →
        w'.view.now = t ∧
        ∀ m id u, (m, Entry.sched id u) ∈ w.view.trace ++ (a0 ++ (w.view.now, .run) :: a1) →
          u ≤ t →
          (∃ n, (n, Entry.fire id u) ∈ w.view.trace ++ (a0 ++ (w.view.now, .run) :: a1)) ∨
          (∃ n, (n, Entry.cancel id) ∈ w.view.trace ++ (a0 ++ (w.view.now, .run) :: a1))) := by
  obtain ⟨v, hr, _, hl, hi, _, _⟩ := reach F P fuel os
  rw [hw] at hr
  have h1 := rel_runUntil F P fuel hr hl t
  rw [orStay_ok h] at h1
  unfold World.runUntil at h
  split at h
  · cases h
  · split at h
    · cases h
    · rename_i hwired hsize
      have hwired' : ¬ (!v.wired) = true := by rw [← hr.wired]; exact hwired
      have hsize' : ¬ specImpl.size v.queue = 0 := by
        show ¬ v.queue.length = 0
        rw [← F.size _ _ hr.queue]; exact hsize
      unfold World.runUntil at h1
      rw [if_neg hwired', if_neg hsize'] at h1
      simp only [World.orStay] at h1
      have hi1 := inv_steps (steps_prologue true P v) hi
      have hsl := steps_untilLoop true P t fuel _ hi1 (.inl rfl)
      have hi2 := inv_steps hsl hi1
      obtain ⟨hR, hL, hb⟩ := h1
      unfold World.close at hR hL hb
      by_cases hfin : (World.untilLoop specImpl P t fuel (v.prologue specImpl P)).2 = true
      · rw [if_pos hfin] at hR hL hb
        have hend := untilLoop_end P t fuel _ hi1 hfin
        obtain ⟨body, hbx, _, hfire⟩ := life_untilLoop specImpl P t fuel (v.prologue specImpl P)
        obtain ⟨a0, a1, ht, q, hp, hs, hc0⟩ := shape_prologue specImpl P v
        obtain ⟨a, b, ht2, qa, _, hb2⟩ := shape_epilogue specImpl P
          (World.untilLoop specImpl P t fuel (v.prologue specImpl P)).1
        have hnow : w'.view.now =
            (World.untilLoop specImpl P t fuel (v.prologue specImpl P)).1.view.now := by
          rw [hR.view]; exact epilogue_now _ _ _
        refine ⟨a0, a1 ++ body, a ++ b, ?_, ?_, ?_, ?_⟩
        · rw [hR.view]
          show (World.epilogue specImpl P _).view.trace = _
          rw [ht2, hbx.trace, ht, hr.view, ← hnow]
          simp [hR.view]
        · have hqf : ∀ l, Quiet l → fires l = [] := by
            intro l hq
            unfold fires
            rw [List.filterMap_eq_nil_iff]
            rintro ⟨n, e⟩ he
            have := hq _ he
            cases e <;> first | rfl | cases this
          rw [fires_append, hqf a qa]
          rcases hb2 with rfl | ⟨l, rfl, ql⟩
          · rfl
          · have := hqf l ql
            unfold fires at *
            rw [List.filterMap_cons]; simpa [fireKey] using this
        · intro e he id u heq
          have hqn : ∀ l, Quiet l → e ∈ l → False := by
            intro l hq hm; have := hq e hm; rw [heq] at this; cases this
          rcases List.mem_append.mp he with he | he
          · rcases hc0 with ⟨_, rfl⟩ | ⟨_, l, rfl, ql⟩
            · cases he
            · rcases List.mem_cons.mp he with rfl | he
              · cases heq
              · exact (hqn l ql he).elim
          · rcases List.mem_cons.mp he with rfl | he
            · cases heq
            · rcases List.mem_append.mp he with he | he
              · exact (hqn a1 q he).elim
              · exact hfire e he id u heq
        · intro hnp
          have hnp' : (World.untilLoop specImpl P t fuel (v.prologue specImpl P)).1.view.paused = false := by
            rw [hbx.paused, hp, ← List.any_append, List.any_eq_false]
            intro e he
            simpa [isPauseReq] using hnp e he
          obtain ⟨hnt, hqe⟩ : (World.untilLoop specImpl P t fuel (v.prologue specImpl P)).1.view.now = t ∧
              ∀ k ∈ (World.untilLoop specImpl P t fuel (v.prologue specImpl P)).1.queue, t < k.t := by
            rcases hend with h' | h'
            · rw [hnp'] at h'; cases h'
            · exact h'
          have htr : w.view.trace ++ (a0 ++ (w.view.now, .run) :: (a1 ++ body)) =
              (World.untilLoop specImpl P t fuel (v.prologue specImpl P)).1.view.trace := by
            rw [hbx.trace, ht, hr.view]; simp
          rw [htr]
          refine ⟨hnow.trans hnt, ?_⟩
          intro m id u hm hu
          have hlt := hi2.bound id (.inr (.inr (.inr ⟨m, u, hm⟩)))
          have hh := hi2.handles id _ (List.getElem?_eq_getElem hlt)
          have hut := (hh.sched u).mp ⟨m, hm⟩
          rcases hh.out (by
            intro hq; have := hqe _ hq; simp only at this; rw [← hut] at this; omega) with ⟨n, u', hf⟩ | hc
          · left
            have := hh.time n u' hf
            rw [hut, ← this]; exact ⟨n, hf⟩
          · exact .inr hc
      · rw [if_neg hfin] at hb
        exact absurd hb.symm hfin

/-- `RunUntil(t)`: it fires no event later than `t`; and unless a pause was asked for, the clock ends
at `t` and every event with time at most `t` - including those scheduled meanwhile - has been fired (or
was cancelled) when the pause notification is sent. -/
theorem C28_runUntil (A : HeapAlg) (P : Prog σ) (fuel : Nat) (os : List (Op σ))
    (w w' : World σ (List Key))
    (hw : (World.execs (heapImpl A) P fuel (World.init (heapImpl A)) os).1 = w) (t : Int)
    (h : w.runUntil (heapImpl A) P fuel t = .ok (w', true)) :
    ∃ a0 a1 b, w'.view.trace =
        w.view.trace ++ (a0 ++ (w.view.now, .run) :: a1) ++ (w'.view.now, .pause) :: b ∧
      fires b = [] ∧
      (∀ e ∈ a0 ++ (w.view.now, .run) :: a1, ∀ id u, e.2 = .fire id u → u ≤ t) ∧
      ((∀ e ∈ a1, e.2 ≠ .pauseReq) →
        w'.view.now = t ∧
        ∀ m id u, (m, Entry.sched id u) ∈ w.view.trace ++ (a0 ++ (w.view.now, .run) :: a1) →
          u ≤ t →
          (∃ n, (n, Entry.fire id u) ∈ w.view.trace ++ (a0 ++ (w.view.now, .run) :: a1)) ∨
          (∃ n, (n, Entry.cancel id) ∈ w.view.trace ++ (a0 ++ (w.view.now, .run) :: a1))) :=
  until_spec (heapRefine A) P fuel os w w' hw t h

example : (World.execs (heapImpl sortAlg) demo 9 (World.init (heapImpl sortAlg))
    [.act (.at 4 (some 1)), .act (.at 8 (some 0)), .runUntil 6]).1.view.trace =
    [(0, .sched 0 4), (0, .sched 1 8), (0, .begin), (0, .run), (4, .fire 0 4), (4, .sched 2 9),
     (4, .sched 3 4), (4, .cancel 2), (4, .done 0), (4, .fire 3 4), (4, .done 3),
     (6, .pause)] := by decide

/-! ### C29 -/

/-- `RunUntil` with a time in the past moves the clock back. -/
theorem C29_fails :
    (World.execs listImpl demo 9 (World.init listImpl)
      [.act (.at 10 (some 0)), .act (.at 20 (some 0)), .runUntil 15]).1.view.now = 15 ∧
    (World.execs listImpl demo 9 (World.init listImpl)
      [.act (.at 10 (some 0)), .act (.at 20 (some 0)), .runUntil 15, .runUntil 5]).1.view.now = 5 ∧
    (World.execs listImpl demo 9 (World.init listImpl)
      [.act (.at 10 (some 0)), .act (.at 20 (some 0)), .runUntil 15, .runFor (-12)]).1.view.now = 3 := by
  decide

theorem step_now {s s' : St σ} (h : Step false s s') : s.v.now ≤ s'.v.now := by
  cases h with
  | clock v q t h1 h2 =>
    rcases h2 with h2 | h2
    · cases h2
    · exact h2
  | _ => exact Int.le_refl _

theorem steps_now {s s' : St σ} (h : Steps false s s') : s.v.now ≤ s'.v.now := by
  induction h with
  | refl => exact Int.le_refl _
  | tail _ hs ih => exact Int.le_trans ih (step_now hs)

theorem exec_forward (F : Refine (C := C) I) (P : Prog σ) (fuel : Nat) (os : List (Op σ)) (o : Op σ)
    (ho : o.forward (World.execs I P fuel (World.init I : World σ C) os).1) :
    (World.execs I P fuel (World.init I : World σ C) os).1.view.now ≤
      ((World.execs I P fuel (World.init I : World σ C) os).1.exec I P fuel o).1.view.now := by
  obtain ⟨v, hr, _, hl, hi, _, _⟩ := reach F P fuel os
  have h1 := rel_exec F P fuel hr hl o
  have ho' : o.forward v := by
    cases o <;> simp only [Op.forward, hr.view] at * <;> exact ho
  rw [hr.view, h1.1.view]
  exact steps_now (steps_exec false P fuel v hi o (.inr ho'))

/-- No call of `Run`, and no call of `RunUntil`/`RunFor` with a target that is not in the past, makes
`Now()` smaller.  Missing: targets in the past, for which the property is false. -/
theorem C29_no_step_back_partial (A : HeapAlg) (P : Prog σ) (fuel : Nat) (os : List (Op σ)) (o : Op σ)
    (ho : o.forward (World.execs (heapImpl A) P fuel (World.init (heapImpl A) : World σ _) os).1) :
    (World.execs (heapImpl A) P fuel (World.init (heapImpl A) : World σ _) os).1.view.now ≤
      ((World.execs (heapImpl A) P fuel (World.init (heapImpl A) : World σ _) os).1.exec
        (heapImpl A) P fuel o).1.view.now :=
  exec_forward (heapRefine A) P fuel os o ho

example : (Op.runUntil 20 : Op Nat).forward (World.execs (heapImpl sortAlg) demo 9
    (World.init (heapImpl sortAlg)) [.act (.at 10 (some 0)), .runUntil 15]).1 := by
  simp only [Op.forward]; decide

/-! ### C30 -/

theorem fold_size (I : Impl C) (n : Nat → Nat) (hI : ∀ k c, I.size (I.insert k c) = I.size c + 1)
    (ks : List Key) : ∀ c, I.size (ks.foldl (fun q k => I.insert k q) c) = I.size c + ks.length := by
  induction ks with
  | nil => intro c; rfl
  | cons k ks ih => intro c; rw [List.foldl_cons, ih, hI]; simp; omega

/-- The state while the sink of the next event `k` runs, after it performed the actions `as`. -/
def World.firing (I : Impl C) (w : World σ C) (k : Key) (as : List (Action σ)) : World σ C :=
  (World.fireBegin { w with queue := I.pre w.queue } k).performs I as

/-- Heap scheduler: while an event is firing, `GetNumEvents()` is the number of events before, minus the
running one, plus the ones scheduled meanwhile. -/
theorem C30_heap_partial (A : HeapAlg) (w : World σ (List Key)) (k : Key) (as : List (Action σ))
    (hk : (heapImpl A).front w.queue = some k) :
    (heapImpl A).size (w.firing (heapImpl A) k as).queue + 1 =
      (heapImpl A).size w.queue +
        ((w.firing (heapImpl A) k as).view.handles.length - w.view.handles.length) := by
  obtain ⟨ks, hn, _⟩ := performs_new (heapImpl A) as
    (World.fireBegin { w with queue := (heapImpl A).pre w.queue } k)
  have hl := hn.len
  have hq := hn.queue
  unfold World.firing
  rw [hq, hl, fold_size (heapImpl A) id (fun k c => by
    show (A.push _).length = _
    rw [(A.push_perm _).length_eq]; simp [heapImpl])]
  have hpre : (heapImpl A).size (World.fireBegin { w with queue := (heapImpl A).pre w.queue } k).queue + 1 =
      (heapImpl A).size w.queue := by
    show ((A.pop w.queue).dropLast).length + 1 = w.queue.length
    have hne : 0 < w.queue.length := by
      cases h : w.queue with
      | nil => rw [h] at hk; cases hk
      | cons a b => simp
    rw [List.length_dropLast, (A.pop_perm _).length_eq]; omega
  have : (World.fireBegin { w with queue := (heapImpl A).pre w.queue } k).view.handles.length =
      w.view.handles.length := by simp [World.fireBegin, View.log]
  rw [this]; omega

/-- List scheduler: the running event is counted, in every state; the property is false. -/
theorem C30_list_fails (w : World σ (List Key)) (k : Key) (as : List (Action σ)) :
    listImpl.size (w.firing listImpl k as).queue = listImpl.size w.queue +
      ((w.firing listImpl k as).view.handles.length - w.view.handles.length) := by
  obtain ⟨ks, hn, _⟩ := performs_new listImpl as (World.fireBegin { w with queue := listImpl.pre w.queue } k)
  have hl := hn.len
  have hq := hn.queue
  unfold World.firing
  have hli : ∀ (k : Key) (c : List Key), (listInsert k c).length = c.length + 1 := by
    intro k c; induction c with
    | nil => rfl
    | cons a b ih => simp only [listInsert]; split <;> simp [ih]
  rw [hq, hl, fold_size listImpl id hli]
  have : (World.fireBegin { w with queue := listImpl.pre w.queue } k).view.handles.length =
      w.view.handles.length := by simp [World.fireBegin, View.log]
  rw [this]
  show w.queue.length + ks.length = w.queue.length + _
  omega

/-- Set scheduler: a concrete run in which the running event is counted. -/
theorem C30_set_fails :
    let w := (World.init setImpl : World Nat _).performs setImpl [.at 4 (some 0), .at 5 (some 0)]
    setImpl.front w.queue = some ⟨4, 0⟩ ∧ setImpl.size (w.firing setImpl ⟨4, 0⟩ []).queue = 2 := by
  decide

example : (heapImpl sortAlg).front ((World.init (heapImpl sortAlg) : World Nat _).performs
    (heapImpl sortAlg) [.at 5 (some 0), .at 4 (some 1)]).queue = some ⟨4, 1⟩ ∧
    (heapImpl sortAlg).size (((World.init (heapImpl sortAlg) : World Nat _).performs
    (heapImpl sortAlg) [.at 5 (some 0), .at 4 (some 1)]).firing (heapImpl sortAlg) ⟨4, 1⟩
      [.at 6 (some 0)]).queue = 2 := by decide

/-! ### C31 -/

/-- Set scheduler, after any direct use with any clock: firing the next event removes that event and
no other, whatever its sink schedules. -/
theorem C31_set (P : Prog σ) (os : List (DOp σ)) (k : Key) :
    let w := World.directs setImpl P (World.init setImpl) os
    setImpl.front w.queue = some k → RemovesOnly w (w.fireAndRemove setImpl P) k := by
  intro w hk
  exact set_removesOnly P w
    (valid_directs setValid P os (World.init setImpl) setValid.empty) k hk

/-- Heap scheduler, likewise. -/
theorem C31_heap (A : HeapAlg) (P : Prog σ) (os : List (DOp σ)) (k : Key) :
    let w := World.directs (heapImpl A) P (World.init (heapImpl A)) os
    (heapImpl A).front w.queue = some k → RemovesOnly w (w.fireAndRemove (heapImpl A) P) k := by
  intro w hk
  exact heap_removesOnly A P w
    (valid_directs (heapValid A) P os (World.init (heapImpl A)) (heapValid A).empty) k hk

/-- List scheduler: only if the clock has reached the time of the event, as the simulator makes sure.
Missing: firing an event before its time, for which the property is false. -/
theorem C31_list_partial (P : Prog σ) (os : List (DOp σ)) (k : Key) :
    let w := World.directs listImpl P (World.init listImpl) os
    listImpl.front w.queue = some k → k.t ≤ w.view.now →
    RemovesOnly w (w.fireAndRemove listImpl P) k := by
  intro w hk hdue
  exact list_removesOnly P w
    (valid_directs listValid P os (World.init listImpl) listValid.empty) k hk hdue

/-- List scheduler, clock at 0: the event at 10 is fired, its sink schedules an event for now, and
that new event is removed instead of the fired one. -/
theorem C31_list_fails :
    let w := World.directs listImpl demo (World.init listImpl) [.act (.at 10 (some 4))]
    listImpl.front w.queue = some ⟨10, 0⟩ ∧
    ⟨10, 0⟩ ∈ (w.fireAndRemove listImpl demo).queue ∧
    ⟨0, 1⟩ ∉ (w.fireAndRemove listImpl demo).queue ∧
    ((w.fireAndRemove listImpl demo).view.handles[1]?.map Handle.isPending) = some true := by
  decide

example : (World.directs listImpl demo (World.init listImpl)
    [.act (.at 10 (some 1)), .act (.at 12 (some 0)), .clock 11]).queue.head? = some ⟨10, 0⟩ := by decide

/-! ### C32 -/

/-- A handle: `IsValid` is pending or running, never both; `Cancel` makes it dead, is idempotent and
leaves the time and the identity alone; a dead handle stays dead. -/
theorem C32_handle (h : Handle σ) :
    h.isValid = (h.isPending || h.isRunning) ∧ (h.isPending && h.isRunning) = false ∧
    h.cancel.isValid = false ∧ h.cancel.cancel = h.cancel ∧ h.cancel.t = h.t ∧
    (h.isValid = false → h.cancel = h ∧ h.fireBegin.isValid = false ∧ h.fireEnd.isValid = false) := by
  obtain ⟨t, s, r⟩ := h
  cases s <;> cases r <;>
    simp [Handle.isValid, Handle.isPending, Handle.isRunning, Handle.cancel, Handle.fireBegin,
      Handle.fireEnd]

theorem handle_idle {s : St σ} (hi : Inv s) (hc : s.cur = none) (id : Nat) (h : Handle σ)
    (hh : s.v.handles[id]? = some h) :
    (h.isPending = true ↔ ¬ Fired s.v id ∧ ¬ Cancelled s.v id) ∧ h.isRunning = false := by
  have hi' := hi.handles id h hh
  have hr : h.running = false := by
    rw [← Bool.not_eq_true, hi'.running, hc]; simp
  refine ⟨?_, by simp [Handle.isRunning, hr]⟩
  simp only [Handle.isPending, hr, Bool.not_false, Bool.and_true]
  rw [hi'.sink, hi'.fired, hc]; simp; exact And.comm

theorem handle_firing {s : St σ} (hi : Inv s) (k : Key) (hc : s.cur = some k) (id : Nat)
    (h : Handle σ) (hh : s.v.handles[id]? = some h) :
    (h.isPending = true ↔ ¬ Fired s.v id ∧ ¬ Cancelled s.v id) ∧
    (h.isRunning = true ↔ id = k.id ∧ ¬ Cancelled s.v id ∧ ¬ Returned s.v id) := by
  have hi' := hi.handles id h hh
  have hrun : h.running = true ↔ k.id = id := by
    rw [hi'.running, hc]; simp
  have hf := hi'.fired
  rw [hc] at hf
  have hf' : Fired s.v id ↔ Returned s.v id ∨ k.id = id := by simpa using hf
  have hs := hi'.sink
  constructor
  · simp only [Handle.isPending, Bool.and_eq_true, Bool.not_eq_true']
    rw [hs, ← Bool.not_eq_true, hrun, hf']; grind
  · simp only [Handle.isRunning, Bool.and_eq_true]
    rw [hs, hrun]; grind

theorem life_of_handle (F : Refine (C := C) I) (P : Prog σ) (fuel : Nat) (os : List (Op σ)) :
    let w := (World.execs I P fuel (World.init I) os).1
    (∀ id h, w.view.handles[id]? = some h →
      (h.isPending = true ↔ ¬ Fired w.view id ∧ ¬ Cancelled w.view id) ∧ h.isRunning = false) ∧
    (∀ k as h0, I.front w.queue = some k → w.view.handles[k.id]? = some h0 → h0.isPending = true →
      let m := (w.setNow k.t).firing I k as
      ∀ id h, m.view.handles[id]? = some h →
        (h.isPending = true ↔ ¬ Fired m.view id ∧ ¬ Cancelled m.view id) ∧
        (h.isRunning = true ↔ id = k.id ∧ ¬ Cancelled m.view id)) := by
  obtain ⟨v, hr, _, hl, hi, _, _⟩ := reach F P fuel os
  dsimp only
  refine ⟨?_, ?_⟩
  · rw [hr.view]; exact handle_idle hi rfl
  · intro k as h0 hk hh0 hp0 id h hh
    rw [F.front _ _ hr.queue hl.sorted] at hk
    obtain ⟨s, hq⟩ : ∃ s, v.queue = k :: s := by
      cases h : v.queue with
      | nil => rw [h] at hk; cases hk
      | cons a b => rw [h] at hk; cases hk; exact ⟨b, rfl⟩
    -- the abstract state while firing
    have hsq : Sorted (k :: s) := by rw [← hq]; exact hl.sorted
    have hm := rel_performs F (cur := some k) as
      (w := World.fireBegin { ((World.execs I P fuel (World.init I) os).1.setNow k.t) with
        queue := I.pre ((World.execs I P fuel (World.init I) os).1.setNow k.t).queue } k)
      (w' := World.fireBegin { (v.setNow k.t) with queue := s } k)
      ⟨by simp [World.fireBegin, World.setNow, hr.view], hr.clocked, hr.wired,
        F.pre k _ s (by have := hr.queue; rw [hq] at this; exact this) hsq⟩
      ⟨(List.pairwise_cons.mp hsq).2, fun x hx => by
        have := hl.ids x (by rw [hq]; exact List.mem_cons_of_mem _ hx); simpa [World.fireBegin, World.setNow, View.log] using this,
       by rintro k' ⟨⟩
          have := hl.ids k (by simp [hq])
          simpa [World.fireBegin, World.setNow, View.log] using this⟩
    obtain ⟨t0, sk, r0⟩ := h0
    cases sk with
    | none => cases hp0
    | some x =>
      rw [hr.view] at hh0
      have hle := head_le hi (by rw [hq]; rfl : v.queue.head? = some k)
      have st1 := steps_setNow true v k.t hle.1 (.inl rfl)
      have e1 : (v.setNow k.t).st none = ⟨(v.setNow k.t).view, k :: s, none⟩ := by
        simp [World.st, World.setNow, hq]
      have st2 : Step true ((v.setNow k.t).st none)
          ((World.fireBegin { (v.setNow k.t) with queue := s } k).st (some k)) := by
        rw [e1]; exact .fireBegin _ s k t0 x r0 hh0 rfl
      have st3 := steps_performs true (some k) as (World.fireBegin { (v.setNow k.t) with queue := s } k)
      have hinv := inv_steps ((st1.tail st2).trans st3) hi
      have hv : (((World.execs I P fuel (World.init I) os).1.setNow k.t).firing I k as).view =
          (World.performs specImpl (World.fireBegin { (v.setNow k.t) with queue := s } k) as).view :=
        hm.1.view
      rw [hv] at hh ⊢
      have := handle_firing hinv k rfl id h hh
      refine ⟨this.1, this.2.trans ?_⟩
      constructor
      · rintro ⟨a, b, _⟩; exact ⟨a, b⟩
      · rintro ⟨a, b⟩
        refine ⟨a, b, ?_⟩
        subst a
        -- not returned: it had not been fired before
        rintro ⟨n, hret⟩
        obtain ⟨l, he, q⟩ := ext_performs specImpl as (World.fireBegin { (v.setNow k.t) with queue := s } k)
        simp only [World.st] at hret
        rw [he.trace] at hret
        have hh0' := hi.handles k.id _ hh0
        have htk : (⟨t0, k.id⟩ : Key) ∈ v.queue := by
          obtain ⟨h', e', ht'⟩ := hi.keys k (by simp [World.st, hq])
          have : h' = ⟨t0, some x, r0⟩ := by
            simp only [World.st] at e'; rw [hh0] at e'; exact (Option.some.inj e').symm
          subst this
          rw [key_eta ht', hq]; simp
        have hnf := hh0'.inq htk
        rcases List.mem_append.mp hret with h' | h'
        · have : (n, Entry.done k.id) ∈ v.view.trace := by
            simpa [World.fireBegin, World.setNow, View.log] using h'
          exact hnf (hh0'.fired.mpr (.inl ⟨n, this⟩))
        · have := q _ h'; cases this

/-- Between two events a handle is pending exactly if its event has been neither fired nor cancelled,
and no handle is running.  While the sink of event `k` runs (after any actions `as`), a handle is
pending exactly if its event has been neither fired nor cancelled, and running exactly if it is `k` and
has not been cancelled.  As firings and cancellations are never undone, a handle never becomes pending
again.
Missing: a running event that cancels itself no longer reports `IsRunning`, see `C32_fails`. -/
theorem C32_life_partial (A : HeapAlg) (P : Prog σ) (fuel : Nat) (os : List (Op σ)) :
    let w := (World.execs (heapImpl A) P fuel (World.init (heapImpl A)) os).1
    (∀ id h, w.view.handles[id]? = some h →
      (h.isPending = true ↔ ¬ Fired w.view id ∧ ¬ Cancelled w.view id) ∧ h.isRunning = false) ∧
    (∀ k as h0, (heapImpl A).front w.queue = some k → w.view.handles[k.id]? = some h0 →
      h0.isPending = true →
      let m := (w.setNow k.t).firing (heapImpl A) k as
      ∀ id h, m.view.handles[id]? = some h →
        (h.isPending = true ↔ ¬ Fired m.view id ∧ ¬ Cancelled m.view id) ∧
        (h.isRunning = true ↔ id = k.id ∧ ¬ Cancelled m.view id)) :=
  life_of_handle (heapRefine A) P fuel os

theorem C32_life_list_partial (P : Prog σ) (fuel : Nat) (os : List (Op σ)) :
    let w := (World.execs listImpl P fuel (World.init listImpl) os).1
    (∀ id h, w.view.handles[id]? = some h →
      (h.isPending = true ↔ ¬ Fired w.view id ∧ ¬ Cancelled w.view id) ∧ h.isRunning = false) ∧
    (∀ k as h0, listImpl.front w.queue = some k → w.view.handles[k.id]? = some h0 →
      h0.isPending = true →
      let m := (w.setNow k.t).firing listImpl k as
      ∀ id h, m.view.handles[id]? = some h →
        (h.isPending = true ↔ ¬ Fired m.view id ∧ ¬ Cancelled m.view id) ∧
        (h.isRunning = true ↔ id = k.id ∧ ¬ Cancelled m.view id)) :=
  life_of_handle listRefine P fuel os

/-- Event 0 cancels itself while its sink runs: the sink is still running, but the handle reports
neither running nor valid. -/
theorem C32_fails :
    let w := (World.init listImpl : World Nat _).performs listImpl [.at 4 (some 3)]
    let m := (w.setNow 4).firing listImpl ⟨4, 0⟩ [.cancel 0]
    listImpl.front w.queue = some ⟨4, 0⟩ ∧
    m.view.handles[0]?.map Handle.isRunning = some false ∧
    m.view.handles[0]?.map Handle.isValid = some false := by decide

example : let w := (World.execs listImpl demo 9 (World.init listImpl)
      [.act (.at 4 (some 1)), .act (.at 5 (some 0))]).1
    listImpl.front w.queue = some ⟨4, 0⟩ ∧ w.view.handles[0]?.map Handle.isPending = some true := by
  decide

/-! ### C33 -/

/-- Any history of any scheduler follows the life cycle (`life`): the begin notification comes once
and before every run; each run sends the run notification, then fires events one at a time, then
sends the pause notification; the end notification comes only directly after a pause.  And the end
notification is sent only when every event scheduled so far has been fired or cancelled. -/
theorem lifecycle (F : Refine (C := C) I) (P : Prog σ) (fuel : Nat) (os : List (Op σ)) :
    let r := World.execs I P fuel (World.init I : World σ C) os
    (r.2 = true → ∃ ph, lifeRun .fresh r.1.view.trace = some ph ∧
      (ph = .fresh ∨ ph = .paused ∨ ph = .ended)) ∧
    (r.2 = false → lifeRun .fresh r.1.view.trace = some .running) ∧
    (∀ pre n post, r.1.view.trace = pre ++ (n, .finish) :: post → AllGone pre) := by
  have h := rest_execs I P fuel os (World.init I : World σ C) (rest_init I)
  obtain ⟨w', hr, _, _, _, hfin, _⟩ := reach F P fuel os
  refine ⟨?_, h.2, ?_⟩
  · intro h'
    obtain ⟨ph, hl, hp⟩ := h.1 h'
    refine ⟨ph, hl, ?_⟩
    rcases hp with ⟨_, h⟩ | ⟨_, h | h⟩
    · exact .inl h
    · exact .inr (.inl h)
    · exact .inr (.inr h)
  · rw [hr.view]; exact hfin

theorem C33_lifecycle (A : HeapAlg) (P : Prog σ) (fuel : Nat) (os : List (Op σ)) :
    let r := World.execs (heapImpl A) P fuel (World.init (heapImpl A) : World σ _) os
    (r.2 = true → ∃ ph, lifeRun .fresh r.1.view.trace = some ph ∧
      (ph = .fresh ∨ ph = .paused ∨ ph = .ended)) ∧
    (r.2 = false → lifeRun .fresh r.1.view.trace = some .running) ∧
    (∀ pre n post, r.1.view.trace = pre ++ (n, .finish) :: post → AllGone pre) :=
  lifecycle (heapRefine A) P fuel os

theorem C33_lifecycle_list (P : Prog σ) (fuel : Nat) (os : List (Op σ)) :
    let r := World.execs listImpl P fuel (World.init listImpl : World σ _) os
    (r.2 = true → ∃ ph, lifeRun .fresh r.1.view.trace = some ph ∧
      (ph = .fresh ∨ ph = .paused ∨ ph = .ended)) ∧
    (r.2 = false → lifeRun .fresh r.1.view.trace = some .running) ∧
    (∀ pre n post, r.1.view.trace = pre ++ (n, .finish) :: post → AllGone pre) :=
  lifecycle listRefine P fuel os

/-- What following the life cycle means for the begin notification: at most one, and no run, firing,
pause or end before it. -/
theorem C33_begin (tr : List (Int × Entry)) (ph : Phase) (h : lifeRun .fresh tr = some ph)
    (pre post : List (Int × Entry)) (n : Int) (e : tr = pre ++ (n, .begin) :: post) :
    (∀ x ∈ pre, x.2.quiet = true) ∧ ∀ x ∈ post, x.2 ≠ .begin := by
  subst e
  have key : ∀ (l : List (Int × Entry)) (p q : Phase), lifeRun p l = some q → p ≠ .fresh →
      q ≠ .fresh ∧ ∀ x ∈ l, x.2 ≠ .begin := by
    intro l
    induction l with
    | nil => intro p q h hp; simp [lifeRun] at h; subst h; exact ⟨hp, by simp⟩
    | cons a l ih =>
      intro p q h hp
      simp only [lifeRun] at h
      cases hl : life p a.2 with
      | none => rw [hl] at h; cases h
      | some p2 =>
        rw [hl] at h
        have hp2 : p2 ≠ .fresh ∧ a.2 ≠ .begin := by
          revert hl
          cases a.2 <;> cases p <;> simp [life] <;> grind
        have := ih p2 q h hp2.1
        refine ⟨this.1, ?_⟩
        intro x hx
        rcases List.mem_cons.mp hx with rfl | hx
        · exact hp2.2
        · exact this.2 x hx
  have main : ∀ (pre : List (Int × Entry)), lifeRun .fresh (pre ++ (n, .begin) :: post) = some ph →
      (∀ x ∈ pre, x.2.quiet = true) ∧ ∀ x ∈ post, x.2 ≠ .begin := by
    intro pre
    induction pre with
    | nil =>
      intro h
      refine ⟨by simp, ?_⟩
      exact (key post .begun ph h (by simp)).2
    | cons a pre ih =>
      intro h
      simp only [List.cons_append, lifeRun] at h
      cases hl : life .fresh a.2 with
      | none => rw [hl] at h; cases h
      | some p2 =>
        rw [hl] at h
        by_cases hp : p2 = .fresh
        · subst hp
          have := ih h
          refine ⟨?_, this.2⟩
          intro x hx
          rcases List.mem_cons.mp hx with rfl | hx
          · revert hl; cases x.2 <;> simp [life, Entry.quiet]
          · exact this.1 x hx
        · exact absurd rfl ((key _ p2 ph h hp).2 (n, .begin) (by simp))
  exact main pre h

example : lifeRun .fresh (World.execs listImpl demo 9 (World.init listImpl)
    [.act (.at 4 (some 2)), .act (.at 5 (some 0)), .run, .run]).1.view.trace = some .ended := by
  decide

/-! ### The same for the list and set schedulers -/

theorem C21_fired_in_order_list (P : Prog σ) (fuel : Nat) (os : List (Op σ))
    (hf : Forward listImpl P fuel (World.init listImpl : World σ _) os) :
    (fires (World.execs listImpl P fuel (World.init listImpl) os).1.view.trace).Pairwise
      (fun a b => a.t < b.t ∨ (a.t = b.t ∧ a.id < b.id)) :=
  fired_sorted listRefine P fuel os hf

theorem C21_fired_in_order_set (P : Prog σ) (fuel : Nat) (os : List (Op σ))
    (hf : Forward setImpl P fuel (World.init setImpl : World σ _) os) :
    (fires (World.execs setImpl P fuel (World.init setImpl) os).1.view.trace).Pairwise
      (fun a b => a.t < b.t ∨ (a.t = b.t ∧ a.id < b.id)) :=
  fired_sorted setRefine P fuel os hf

theorem C25_run_completes_list (P : Prog σ) (fuel : Nat) (os : List (Op σ))
    (w w' : World σ (List Key))
    (hw : (World.execs listImpl P fuel (World.init listImpl) os).1 = w)
    (h : w.run listImpl P fuel = .ok (w', true)) :
    ∃ a0 a1 b, w'.view.trace =
        w.view.trace ++ (a0 ++ (w.view.now, .run) :: a1) ++ (w'.view.now, .pause) :: b ∧
      fires b = [] ∧
      ((∀ e ∈ a1, e.2 ≠ .pauseReq) →
        AllGone (w.view.trace ++ (a0 ++ (w.view.now, .run) :: a1))) :=
  run_completes listRefine P fuel os w w' hw h

theorem C25_run_completes_set (P : Prog σ) (fuel : Nat) (os : List (Op σ))
    (w w' : World σ (List Key))
    (hw : (World.execs setImpl P fuel (World.init setImpl) os).1 = w)
    (h : w.run setImpl P fuel = .ok (w', true)) :
    ∃ a0 a1 b, w'.view.trace =
        w.view.trace ++ (a0 ++ (w.view.now, .run) :: a1) ++ (w'.view.now, .pause) :: b ∧
      fires b = [] ∧
      ((∀ e ∈ a1, e.2 ≠ .pauseReq) →
        AllGone (w.view.trace ++ (a0 ++ (w.view.now, .run) :: a1))) :=
  run_completes setRefine P fuel os w w' hw h

theorem C26_clock_list (P : Prog σ) (fuel : Nat) (os : List (Op σ))
    (hf : Forward listImpl P fuel (World.init listImpl : World σ _) os) :
    let w := (World.execs listImpl P fuel (World.init listImpl) os).1
    w.view.trace.Pairwise (fun a b => a.1 ≤ b.1) ∧ (∀ e ∈ w.view.trace, e.1 ≤ w.view.now) ∧
    (∀ n id t, (n, Entry.fire id t) ∈ w.view.trace → n = t ∧
      ∃ m, (m, Entry.sched id t) ∈ w.view.trace) :=
  clock_forward listRefine P fuel os hf

theorem C26_clock_set (P : Prog σ) (fuel : Nat) (os : List (Op σ))
    (hf : Forward setImpl P fuel (World.init setImpl : World σ _) os) :
    let w := (World.execs setImpl P fuel (World.init setImpl) os).1
    w.view.trace.Pairwise (fun a b => a.1 ≤ b.1) ∧ (∀ e ∈ w.view.trace, e.1 ≤ w.view.now) ∧
    (∀ n id t, (n, Entry.fire id t) ∈ w.view.trace → n = t ∧
      ∃ m, (m, Entry.sched id t) ∈ w.view.trace) :=
  clock_forward setRefine P fuel os hf

theorem C27_after_run_list_partial (P : Prog σ) (fuel : Nat) (os : List (Op σ))
    (w w' : World σ (List Key))
    (hw : (World.execs listImpl P fuel (World.init listImpl) os).1 = w)
    (h : w.run listImpl P fuel = .ok (w', true))
    (hc : ∀ n id, (n, Entry.cancel id) ∉ w'.view.trace) :
    ∃ l, w'.view.trace = w.view.trace ++ l ∧
      ((fires l = [] ∧ w'.view.now = w.view.now) ∨
        (fires l).getLast?.map Key.t = some w'.view.now) :=
  run_last listRefine P fuel os w w' hw h hc

theorem C27_after_run_set_partial (P : Prog σ) (fuel : Nat) (os : List (Op σ))
    (w w' : World σ (List Key))
    (hw : (World.execs setImpl P fuel (World.init setImpl) os).1 = w)
    (h : w.run setImpl P fuel = .ok (w', true))
    (hc : ∀ n id, (n, Entry.cancel id) ∉ w'.view.trace) :
    ∃ l, w'.view.trace = w.view.trace ++ l ∧
      ((fires l = [] ∧ w'.view.now = w.view.now) ∨
        (fires l).getLast?.map Key.t = some w'.view.now) :=
  run_last setRefine P fuel os w w' hw h hc

theorem C28_runUntil_list (P : Prog σ) (fuel : Nat) (os : List (Op σ))
    (w w' : World σ (List Key))
    (hw : (World.execs listImpl P fuel (World.init listImpl) os).1 = w) (t : Int)
    (h : w.runUntil listImpl P fuel t = .ok (w', true)) :
    ∃ a0 a1 b, w'.view.trace =
        w.view.trace ++ (a0 ++ (w.view.now, .run) :: a1) ++ (w'.view.now, .pause) :: b ∧
      fires b = [] ∧
      (∀ e ∈ a0 ++ (w.view.now, .run) :: a1, ∀ id u, e.2 = .fire id u → u ≤ t) ∧
      ((∀ e ∈ a1, e.2 ≠ .pauseReq) →
        w'.view.now = t ∧
        ∀ m id u, (m, Entry.sched id u) ∈ w.view.trace ++ (a0 ++ (w.view.now, .run) :: a1) →
          u ≤ t →
          (∃ n, (n, Entry.fire id u) ∈ w.view.trace ++ (a0 ++ (w.view.now, .run) :: a1)) ∨
          (∃ n, (n, Entry.cancel id) ∈ w.view.trace ++ (a0 ++ (w.view.now, .run) :: a1))) :=
  until_spec listRefine P fuel os w w' hw t h

theorem C28_runUntil_set (P : Prog σ) (fuel : Nat) (os : List (Op σ))
    (w w' : World σ (List Key))
    (hw : (World.execs setImpl P fuel (World.init setImpl) os).1 = w) (t : Int)
    (h : w.runUntil setImpl P fuel t = .ok (w', true)) :
    ∃ a0 a1 b, w'.view.trace =
        w.view.trace ++ (a0 ++ (w.view.now, .run) :: a1) ++ (w'.view.now, .pause) :: b ∧
      fires b = [] ∧
      (∀ e ∈ a0 ++ (w.view.now, .run) :: a1, ∀ id u, e.2 = .fire id u → u ≤ t) ∧
      ((∀ e ∈ a1, e.2 ≠ .pauseReq) →
        w'.view.now = t ∧
        ∀ m id u, (m, Entry.sched id u) ∈ w.view.trace ++ (a0 ++ (w.view.now, .run) :: a1) →
          u ≤ t →
          (∃ n, (n, Entry.fire id u) ∈ w.view.trace ++ (a0 ++ (w.view.now, .run) :: a1)) ∨
          (∃ n, (n, Entry.cancel id) ∈ w.view.trace ++ (a0 ++ (w.view.now, .run) :: a1))) :=
  until_spec setRefine P fuel os w w' hw t h

theorem C29_no_step_back_list_partial (P : Prog σ) (fuel : Nat) (os : List (Op σ)) (o : Op σ)
    (ho : o.forward (World.execs listImpl P fuel (World.init listImpl : World σ _) os).1) :
    (World.execs listImpl P fuel (World.init listImpl : World σ _) os).1.view.now ≤
      ((World.execs listImpl P fuel (World.init listImpl : World σ _) os).1.exec
        listImpl P fuel o).1.view.now :=
  exec_forward listRefine P fuel os o ho

theorem C29_no_step_back_set_partial (P : Prog σ) (fuel : Nat) (os : List (Op σ)) (o : Op σ)
    (ho : o.forward (World.execs setImpl P fuel (World.init setImpl : World σ _) os).1) :
    (World.execs setImpl P fuel (World.init setImpl : World σ _) os).1.view.now ≤
      ((World.execs setImpl P fuel (World.init setImpl : World σ _) os).1.exec
        setImpl P fuel o).1.view.now :=
  exec_forward setRefine P fuel os o ho

theorem C32_life_set_partial (P : Prog σ) (fuel : Nat) (os : List (Op σ)) :
    let w := (World.execs setImpl P fuel (World.init setImpl) os).1
    (∀ id h, w.view.handles[id]? = some h →
      (h.isPending = true ↔ ¬ Fired w.view id ∧ ¬ Cancelled w.view id) ∧ h.isRunning = false) ∧
    (∀ k as h0, setImpl.front w.queue = some k → w.view.handles[k.id]? = some h0 →
      h0.isPending = true →
      let m := (w.setNow k.t).firing setImpl k as
      ∀ id h, m.view.handles[id]? = some h →
        (h.isPending = true ↔ ¬ Fired m.view id ∧ ¬ Cancelled m.view id) ∧
        (h.isRunning = true ↔ id = k.id ∧ ¬ Cancelled m.view id)) :=
  life_of_handle setRefine P fuel os

theorem C33_lifecycle_set (P : Prog σ) (fuel : Nat) (os : List (Op σ)) :
    let r := World.execs setImpl P fuel (World.init setImpl : World σ _) os
    (r.2 = true → ∃ ph, lifeRun .fresh r.1.view.trace = some ph ∧
      (ph = .fresh ∨ ph = .paused ∨ ph = .ended)) ∧
    (r.2 = false → lifeRun .fresh r.1.view.trace = some .running) ∧
    (∀ pre n post, r.1.view.trace = pre ++ (n, .finish) :: post → AllGone pre) :=
  lifecycle setRefine P fuel os

end
end Verif.Sim
