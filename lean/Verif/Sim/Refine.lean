import Verif.Sim.Model

/-!
Refinement of the three schedulers to one abstract queue (a list sorted by time and identity from
which the event is taken before it is fired).
-/
set_option linter.unusedSimpArgs false
set_option linter.unusedVariables false
namespace Verif.Sim

theorem Key.lt_iff (a b : Key) : a.lt b = true ↔ a.t < b.t ∨ (a.t = b.t ∧ a.id < b.id) := by
  simp [Key.lt]

theorem Key.lt_trans {a b c : Key} (h1 : a.lt b = true) (h2 : b.lt c = true) : a.lt c = true := by
  rw [Key.lt_iff] at *; omega

theorem Key.lt_irrefl (a : Key) : a.lt a = false := by
  rw [← Bool.not_eq_true, Key.lt_iff]; omega

theorem Key.lt_asymm {a b : Key} (h : a.lt b = true) : b.lt a = false := by
  rw [← Bool.not_eq_true, Key.lt_iff]; rw [Key.lt_iff] at h; omega

theorem Key.eq_of_not_lt {a b : Key} (h1 : a.lt b = false) (h2 : b.lt a = false) : a = b := by
  rw [← Bool.not_eq_true, Key.lt_iff] at h1 h2
  obtain ⟨t, i⟩ := a; obtain ⟨t', i'⟩ := b
  simp only [Key.mk.injEq]; simp only at h1 h2; omega

theorem Key.lt_ne {a b : Key} (h : a.lt b = true) : a ≠ b := by
  intro e; subst e; rw [Key.lt_irrefl] at h; cases h

abbrev Sorted (q : List Key) : Prop := q.Pairwise (fun a b => a.lt b = true)

/-- Insertion into a sorted list. -/
def ins (k : Key) : List Key → List Key
  | [] => [k]
  | h :: rest => if h.lt k then h :: ins k rest else k :: h :: rest

theorem mem_ins (k x : Key) (q : List Key) : x ∈ ins k q ↔ x = k ∨ x ∈ q := by
  induction q with
  | nil => simp [ins]
  | cons h r ih =>
    simp only [ins]; split
    · simp [ih]; grind
    · simp

theorem ins_perm (k : Key) (q : List Key) : (ins k q).Perm (k :: q) := by
  induction q with
  | nil => simp [ins]
  | cons h r ih =>
    simp only [ins]; split
    · exact (ih.cons h).trans (List.Perm.swap k h r)
    · exact List.Perm.refl _

theorem ins_length (k : Key) (q : List Key) : (ins k q).length = q.length + 1 := by
  simpa using (ins_perm k q).length_eq

theorem ins_sorted {k : Key} {q : List Key} (hs : Sorted q) (hid : ∀ x ∈ q, x.id < k.id) :
    Sorted (ins k q) := by
  induction q with
  | nil => simp [ins]
  | cons h r ih =>
    have hs' := List.pairwise_cons.mp hs
    simp only [ins]; split
    · rename_i hk
      refine List.pairwise_cons.mpr ⟨fun x hx => ?_, ih hs'.2 (fun x hx => hid x (by simp [hx]))⟩
      rcases (mem_ins _ _ _).mp hx with rfl | hx
      · exact hk
      · exact hs'.1 x hx
    · rename_i hk
      have hkh : k.lt h = true := by
        have := hid h (by simp)
        rw [Key.lt_iff] at *; omega
      refine List.pairwise_cons.mpr ⟨fun x hx => ?_, hs⟩
      rcases List.mem_cons.mp hx with rfl | hx
      · exact hkh
      · exact Key.lt_trans hkh (hs'.1 x hx)

theorem sorted_nodup {q : List Key} (h : Sorted q) : q.Nodup :=
  List.Pairwise.imp (fun h => Key.lt_ne h) h

/-- The abstract scheduler. -/
def specImpl : Impl (List Key) where
  empty := []
  insert := ins
  size := List.length
  front := List.head?
  pre := List.tail
  post _ l := l

/-- A refinement of the abstract scheduler; `R (some k)` relates the containers while `k` is being
fired. -/
structure Refine {C : Type} (I : Impl C) where
  R : Option Key → C → List Key → Prop
  empty : R none I.empty []
  front : ∀ c s, R none c s → Sorted s → I.front c = s.head?
  size : ∀ c s, R none c s → I.size c = s.length
  ins : ∀ cur c s key, R cur c s → Sorted s → (∀ x ∈ s, x.id < key.id) →
    (∀ k, cur = some k → k.t ≤ key.t ∧ k.id < key.id) → R cur (I.insert key c) (ins key s)
  pre : ∀ k c s, R none c (k :: s) → Sorted (k :: s) → R (some k) (I.pre c) s
  post : ∀ k c s, R (some k) c s → R none (I.post k c) s

/-! ### list -/

theorem listInsert_eq {k : Key} {q : List Key} (hid : ∀ x ∈ q, x.id < k.id) :
    listInsert k q = ins k q := by
  induction q with
  | nil => rfl
  | cons h r ih =>
    have hh := hid h (by simp)
    simp only [listInsert, ins]
    rw [ih (fun x hx => hid x (by simp [hx]))]
    by_cases hl : h.t > k.t
    · rw [if_pos hl, if_neg]; rw [Key.lt_iff]; omega
    · rw [if_neg hl, if_pos]; rw [Key.lt_iff]; omega

theorem setInsert_eq {k : Key} {q : List Key} (hid : ∀ x ∈ q, x.id < k.id) :
    setInsert k q = ins k q := by
  induction q with
  | nil => rfl
  | cons h r ih =>
    have hh := hid h (by simp)
    simp only [setInsert, ins]
    rw [ih (fun x hx => hid x (by simp [hx]))]
    by_cases hl : h.lt k = true
    · rw [if_pos hl, if_pos hl]
    · rw [if_neg hl, if_neg hl, if_pos]; rw [Key.lt_iff] at *; omega

def inPlaceR : Option Key → List Key → List Key → Prop
  | none, c, s => c = s
  | some k, c, s => c = k :: s ∧ ∀ x ∈ s, k.lt x = true

theorem inPlace_ins (I : Impl (List Key))
    (hI : ∀ k q, (∀ x ∈ q, x.id < k.id) → I.insert k q = ins k q) :
    ∀ cur c s key, inPlaceR cur c s → Sorted s → (∀ x ∈ s, x.id < key.id) →
    (∀ k, cur = some k → k.t ≤ key.t ∧ k.id < key.id) → inPlaceR cur (I.insert key c) (ins key s) := by
  intro cur c s key hR hs hid hc
  cases cur with
  | none => cases hR; exact hI _ _ hid
  | some k =>
    obtain ⟨rfl, hk⟩ := hR
    obtain ⟨h1, h2⟩ := hc k rfl
    have hlt : k.lt key = true := by rw [Key.lt_iff]; omega
    refine ⟨?_, fun x hx => ?_⟩
    · rw [hI]
      · simp [ins, hlt]
      · intro x hx; rcases List.mem_cons.mp hx with rfl | hx
        · exact h2
        · exact hid x hx
    · rcases (mem_ins _ _ _).mp hx with rfl | hx
      · exact hlt
      · exact hk x hx

def listRefine : Refine listImpl where
  R := inPlaceR
  empty := rfl
  front := by rintro c s rfl _; rfl
  size := by rintro c s rfl; rfl
  ins := inPlace_ins listImpl (fun k q h => listInsert_eq h)
  pre := by rintro k c s rfl h; exact ⟨rfl, (List.pairwise_cons.mp h).1⟩
  post := by rintro k c s ⟨rfl, h⟩; rfl

def setRefine : Refine setImpl where
  R := inPlaceR
  empty := rfl
  front := by rintro c s rfl _; rfl
  size := by rintro c s rfl; rfl
  ins := inPlace_ins setImpl (fun k q h => setInsert_eq h)
  pre := by rintro k c s rfl h; exact ⟨rfl, (List.pairwise_cons.mp h).1⟩
  post := by
    rintro k c s ⟨rfl, h⟩
    change (k :: s).filter (fun x => decide (x ≠ k)) = s
    rw [List.filter_cons_of_neg (by simp)]
    refine List.filter_eq_self.mpr fun x hx => ?_
    simpa using fun e => Key.lt_ne (h x hx) e.symm

/-! ### heap -/

/-- No element of a heap is earlier than its first element. -/
theorem heap_head_min {k : Key} {l : List Key} (h : IsHeap (k :: l)) :
    ∀ x ∈ k :: l, x.lt k = false := by
  have key : ∀ (i : Nat) (x : Key), (k :: l)[i]? = some x → x.lt k = false := by
    intro i
    induction i using Nat.strongRecOn with
    | ind i ih =>
      intro x hx
      cases i with
      | zero => simp at hx; subst hx; exact Key.lt_irrefl _
      | succ n =>
        have hlt : (n + 1 - 1) / 2 < n + 1 := by omega
        have hlen : n + 1 < (k :: l).length := (List.getElem?_eq_some_iff.mp hx).1
        have hp : (k :: l)[(n + 1 - 1) / 2]? = some ((k :: l)[(n + 1 - 1) / 2]'(by omega)) :=
          List.getElem?_eq_getElem (by omega)
        have h1 := ih _ hlt _ hp
        have h2 := h (n + 1) _ _ (by omega) hp hx
        revert h1 h2
        generalize (k :: l)[(n + 1 - 1) / 2]'(by omega) = p
        intro h1 h2
        rw [← Bool.not_eq_true, Key.lt_iff] at *; omega
  intro x hx
  obtain ⟨i, hi⟩ := List.mem_iff_getElem?.mp hx
  exact key i x hi

theorem dropLast_perm {k : Key} {l m : List Key} (hp : m.Perm (k :: l)) (hl : m.getLast? = some k) :
    m.dropLast.Perm l := by
  have hne : m ≠ [] := by rintro rfl; simp at hl
  have e : m = m.dropLast ++ [k] := by
    have := List.dropLast_concat_getLast hne
    rw [List.getLast?_eq_some_getLast hne] at hl
    cases hl; exact this.symm
  have h2 : (k :: m.dropLast).Perm (k :: l) := by
    refine List.Perm.trans ?_ hp
    conv => rhs; rw [e]
    exact (List.perm_append_comm (l₁ := [k]) (l₂ := m.dropLast))
  exact (List.perm_cons k).mp h2

theorem heap_front {c s : List Key} (hp : c.Perm s) (hh : IsHeap c) (hs : Sorted s) :
    c.head? = s.head? := by
  cases c with
  | nil => rw [List.nil_perm.mp hp]
  | cons k l =>
    cases s with
    | nil => exact absurd (List.perm_nil.mp hp) (by simp)
    | cons m r =>
      have hm := heap_head_min hh m (hp.mem_iff.mpr (by simp))
      have hk := List.mem_cons.mp (hp.mem_iff.mp (List.mem_cons_self (a := k) (l := l)))
      rcases hk with rfl | hk
      · rfl
      · have := (List.pairwise_cons.mp hs).1 k hk
        rw [hm] at this; cases this

def heapRefine (A : HeapAlg) : Refine (heapImpl A) where
  R _ c s := c.Perm s ∧ IsHeap c
  empty := ⟨List.Perm.refl _, by intro i a b _ h; simp [heapImpl] at h⟩
  front := by rintro c s ⟨hp, hh⟩ hs; exact heap_front hp hh hs
  size := by rintro c s ⟨hp, _⟩; exact hp.length_eq
  ins := by
    rintro cur c s key ⟨hp, hh⟩ hs hid _
    refine ⟨?_, A.push_heap _ _ hh⟩
    refine (A.push_perm _).trans ?_
    refine (List.perm_append_comm (l₁ := c) (l₂ := [key])).trans ?_
    exact (hp.cons key).trans (ins_perm key s).symm
  pre := by
    rintro k c s ⟨hp, hh⟩ hs
    have hf := heap_front hp hh hs
    cases c with
    | nil => simp at hf
    | cons k' l =>
      simp at hf; subst hf
      exact ⟨(dropLast_perm (A.pop_perm _) (A.pop_last _ _ hh)).trans ((List.perm_cons _).mp hp),
        A.pop_heap _ hh⟩
  post := by rintro k c s h; exact h

/-! ### The simulator over a refined scheduler -/

section
variable {σ C : Type} {I : Impl C} (F : Refine I)

/-- Related worlds: same view, related queues. -/
structure Rel (cur : Option Key) (w : World σ C) (w' : World σ (List Key)) : Prop where
  view : w.view = w'.view
  clocked : w.clocked = w'.clocked
  wired : w.wired = w'.wired
  queue : F.R cur w.queue w'.queue

/-- The invariant of the abstract world needed for the refinement. -/
structure Light (cur : Option Key) (w : World σ (List Key)) : Prop where
  sorted : Sorted w.queue
  ids : ∀ k ∈ w.queue, k.id < w.view.handles.length
  cur : ∀ k, cur = some k → k.id < w.view.handles.length ∧ k.t ≤ w.view.now

/-- The condition under which `ScheduleAt` succeeds. -/
theorem scheduleAt_cases (I : Impl C) (w : World σ C) (t : Int) (s : Option σ) :
    (∃ e, w.scheduleAt I t s = .error e) ∨
    (∃ x, w.clocked = true ∧ s = some x ∧ ¬ t < w.view.now ∧
      w.scheduleAt I t s = .ok (w.view.handles.length, { w with
          view := { w.view.log (.sched w.view.handles.length t) with
            handles := w.view.handles ++ [⟨t, some x, false⟩] },
          queue := I.insert ⟨t, w.view.handles.length⟩ w.queue })) := by
  unfold World.scheduleAt
  cases hc : w.clocked with
  | false => left; exact ⟨.uninitialized, by simp⟩
  | true =>
    cases s with
    | none => left; exact ⟨.invalidPointer, by simp⟩
    | some x =>
      by_cases ht : t < w.view.now
      · left; exact ⟨.invalidArgument, by simp [ht]⟩
      · right; exact ⟨x, rfl, rfl, ht, by simp [ht]⟩

theorem rel_scheduleAt {cur : Option Key} {w : World σ C} {w' : World σ (List Key)}
    (h : Rel F cur w w') (hL : Light cur w') (t : Int) (s : Option σ) :
    Rel F cur (w.orKeep (w.scheduleAt I t s)) (w'.orKeep (w'.scheduleAt specImpl t s)) ∧
    Light cur (w'.orKeep (w'.scheduleAt specImpl t s)) := by
  unfold World.scheduleAt
  rw [h.view, h.clocked]
  cases hc : w'.clocked with
  | false => simp [World.orKeep, h, hL]
  | true =>
    cases s with
    | none => simp [World.orKeep, h, hL]
    | some x =>
      by_cases ht : t < w'.view.now
      · simp [World.orKeep, h, hL, ht]
      · simp only [Bool.not_true, Bool.false_eq_true, if_false, ht, World.orKeep]
        have hkey : ∀ k, cur = some k → k.t ≤ t ∧ k.id < w'.view.handles.length := by
          intro k hk; have := hL.cur k hk; omega
        refine ⟨⟨rfl, by simp, h.wired, ?_⟩, ⟨?_, ?_, ?_⟩⟩
        · exact F.ins cur _ _ _ h.queue hL.sorted (fun x hx => hL.ids x hx) hkey
        · exact ins_sorted hL.sorted (fun x hx => hL.ids x hx)
        · intro k hk
          simp only [View.log, List.length_append, List.length_cons, List.length_nil]
          rcases (mem_ins _ _ _).mp hk with rfl | hk
          · simp
          · have := hL.ids k hk; omega
        · intro k hk
          simp only [View.log, List.length_append, List.length_cons, List.length_nil]
          have := hL.cur k hk; omega

theorem rel_perform {cur : Option Key} {w : World σ C} {w' : World σ (List Key)}
    (h : Rel F cur w w') (hL : Light cur w') (a : Action σ) :
    Rel F cur (w.perform I a) (w'.perform specImpl a) ∧ Light cur (w'.perform specImpl a) := by
  cases a with
  | «at» t s => exact rel_scheduleAt F h hL t s
  | now s =>
    simp only [World.perform, World.scheduleNow]
    rw [h.clocked, h.view]
    cases hc : w'.clocked with
    | false => simp [World.orKeep, h, hL]
    | true => simpa using rel_scheduleAt F h hL w'.view.now s
  | «in» dt s =>
    simp only [World.perform, World.scheduleIn]
    rw [h.clocked, h.view]
    cases hc : w'.clocked with
    | false => simp [World.orKeep, h, hL]
    | true => simpa using rel_scheduleAt F h hL (w'.view.now + dt) s
  | cancel id =>
    simp only [World.perform]
    rw [h.view]
    split
    · refine ⟨⟨rfl, h.clocked, h.wired, h.queue⟩, ⟨hL.sorted, ?_, ?_⟩⟩
      · simpa [View.log] using hL.ids
      · simpa [View.log] using hL.cur
    · exact ⟨h, hL⟩
  | pause =>
    simp only [World.perform]
    rw [h.view]
    exact ⟨⟨rfl, h.clocked, h.wired, h.queue⟩, ⟨hL.sorted, hL.ids, hL.cur⟩⟩

theorem rel_performs {cur : Option Key} (as : List (Action σ)) :
    ∀ {w : World σ C} {w' : World σ (List Key)}, Rel F cur w w' → Light cur w' →
    Rel F cur (w.performs I as) (w'.performs specImpl as) ∧ Light cur (w'.performs specImpl as) := by
  induction as with
  | nil => intro w w' h hL; exact ⟨h, hL⟩
  | cons a as ih =>
    intro w w' h hL
    have := rel_perform F h hL a
    exact ih this.1 this.2

theorem rel_notify {cur : Option Key} {w : World σ C} {w' : World σ (List Key)}
    (h : Rel F cur w w') (hL : Light cur w') (e : Entry) (f : View σ → List (Action σ)) :
    Rel F cur (w.notify I e f) (w'.notify specImpl e f) ∧ Light cur (w'.notify specImpl e f) := by
  unfold World.notify
  rw [h.view]
  exact rel_performs F _ ⟨rfl, h.clocked, h.wired, h.queue⟩ ⟨hL.sorted, hL.ids, hL.cur⟩

theorem rel_fire {k : Key} (P : Prog σ) {w : World σ C} {w' : World σ (List Key)}
    (h : Rel F (some k) w w') (hL : Light (some k) w') :
    Rel F (some k) (w.fire I P k) (w'.fire specImpl P k) ∧
    Light (some k) (w'.fire specImpl P k) := by
  unfold World.fire
  rw [h.view]
  split
  · rename_i s _ _
    have h1 : Rel F (some k) (w.fireBegin k) (w'.fireBegin k) :=
      ⟨by simp [World.fireBegin, h.view], h.clocked, h.wired, h.queue⟩
    have hL1 : Light (some k) (w'.fireBegin k) :=
      ⟨hL.sorted, by simpa [World.fireBegin, View.log] using hL.ids,
        by simpa [World.fireBegin, View.log] using hL.cur⟩
    have := rel_performs F (P.sink s (w'.fireBegin k).view) h1 hL1
    dsimp only
    rw [h1.view]
    refine ⟨⟨?_, this.1.clocked, this.1.wired, this.1.queue⟩, ⟨this.2.sorted, ?_, ?_⟩⟩
    · simp [World.fireEnd, this.1.view]
    · simpa [World.fireEnd, View.log] using this.2.ids
    · simpa [World.fireEnd, View.log] using this.2.cur
  · exact ⟨h, hL⟩

theorem rel_fireAndRemove (P : Prog σ) {w : World σ C} {w' : World σ (List Key)}
    (h : Rel F none w w') (hL : Light none w')
    (hnow : ∀ k, w'.queue.head? = some k → k.t ≤ w'.view.now) :
    Rel F none (w.fireAndRemove I P) (w'.fireAndRemove specImpl P) ∧
    Light none (w'.fireAndRemove specImpl P) := by
  unfold World.fireAndRemove
  rw [F.front _ _ h.queue hL.sorted]
  show _ ∧ Light none (match w'.queue.head? with | none => _ | some k => _)
  change Rel F none _ (match w'.queue.head? with | none => _ | some k => _) ∧ _
  cases hq : w'.queue with
  | nil => exact ⟨h, hL⟩
  | cons k s =>
    have hsorted := hL.sorted
    rw [hq] at hsorted
    have hR := h.queue
    rw [hq] at hR
    simp only [List.head?_cons]
    have hk := hL.ids k (by simp [hq])
    have ht := hnow k (by simp [hq])
    have := rel_fire F P (k := k)
      (w := { w with queue := I.pre w.queue }) (w' := { w' with queue := s })
      ⟨h.view, h.clocked, h.wired, F.pre k _ _ hR hsorted⟩
      ⟨(List.pairwise_cons.mp hsorted).2, fun x hx => hL.ids x (by simp [hq, hx]),
        by rintro k' ⟨⟩; exact ⟨hk, ht⟩⟩
    refine ⟨⟨this.1.view, this.1.clocked, this.1.wired, F.post k _ _ this.1.queue⟩,
      ⟨this.2.sorted, this.2.ids, by simp⟩⟩

theorem rel_setNow {w : World σ C} {w' : World σ (List Key)} (h : Rel F none w w')
    (hL : Light none w') (t : Int) :
    Rel F none (w.setNow t) (w'.setNow t) ∧ Light none (w'.setNow t) :=
  ⟨⟨by simp [World.setNow, h.view], h.clocked, h.wired, h.queue⟩, ⟨hL.sorted, hL.ids, by simp⟩⟩

theorem rel_setPaused {w : World σ C} {w' : World σ (List Key)} (h : Rel F none w w')
    (hL : Light none w') (b : Bool) :
    Rel F none (w.setPaused b) (w'.setPaused b) ∧ Light none (w'.setPaused b) :=
  ⟨⟨by simp [World.setPaused, h.view], h.clocked, h.wired, h.queue⟩, ⟨hL.sorted, hL.ids, by simp⟩⟩

theorem rel_runLoop (P : Prog σ) (n : Nat) :
    ∀ {w : World σ C} {w' : World σ (List Key)}, Rel F none w w' → Light none w' →
    Rel F none (World.runLoop I P n w).1 (World.runLoop specImpl P n w').1 ∧
    Light none (World.runLoop specImpl P n w').1 ∧
    (World.runLoop I P n w).2 = (World.runLoop specImpl P n w').2 := by
  induction n with
  | zero => intro w w' h hL; exact ⟨h, hL, rfl⟩
  | succ n ih =>
    intro w w' h hL
    simp only [World.runLoop]
    rw [h.view]
    split
    · exact ⟨h, hL, rfl⟩
    · rw [F.front _ _ h.queue hL.sorted]
      change Rel F none _ (Prod.fst (match w'.queue.head? with | none => _ | some k => _)) ∧
        Light none (Prod.fst (match w'.queue.head? with | none => _ | some k => _)) ∧
        _ = Prod.snd (match w'.queue.head? with | none => _ | some k => _)
      cases hq : w'.queue.head? with
      | none => exact ⟨h, hL, rfl⟩
      | some k =>
        have h1 := rel_setNow F h hL k.t
        have h2 := rel_fireAndRemove F P h1.1 h1.2 (by
          intro k' hk'; simp only [World.setNow] at *; rw [hq] at hk'; cases hk'; exact Int.le_refl _)
        exact ih h2.1 h2.2

theorem rel_untilLoop (P : Prog σ) (t : Int) (n : Nat) :
    ∀ {w : World σ C} {w' : World σ (List Key)}, Rel F none w w' → Light none w' →
    Rel F none (World.untilLoop I P t n w).1 (World.untilLoop specImpl P t n w').1 ∧
    Light none (World.untilLoop specImpl P t n w').1 ∧
    (World.untilLoop I P t n w).2 = (World.untilLoop specImpl P t n w').2 := by
  induction n with
  | zero => intro w w' h hL; exact ⟨h, hL, rfl⟩
  | succ n ih =>
    intro w w' h hL
    simp only [World.untilLoop]
    rw [h.view]
    split
    · exact ⟨h, hL, rfl⟩
    · rw [F.front _ _ h.queue hL.sorted]
      change Rel F none _ (Prod.fst (match w'.queue.head? with | none => _ | some k => _)) ∧
        Light none (Prod.fst (match w'.queue.head? with | none => _ | some k => _)) ∧
        _ = Prod.snd (match w'.queue.head? with | none => _ | some k => _)
      cases hq : w'.queue.head? with
      | none => exact ⟨(rel_setNow F h hL t).1, (rel_setNow F h hL t).2, rfl⟩
      | some k =>
        by_cases ht : k.t > t
        · simp only [ht, if_true]
          exact ⟨(rel_setNow F h hL t).1, (rel_setNow F h hL t).2, trivial⟩
        · simp only [ht, if_false]
          have h1 := rel_setNow F h hL k.t
          have h2 := rel_fireAndRemove F P h1.1 h1.2 (by
            intro k' hk'; simp only [World.setNow] at *; rw [hq] at hk'; cases hk'
            exact Int.le_refl _)
          exact ih h2.1 h2.2

theorem rel_prologue (P : Prog σ) {w : World σ C} {w' : World σ (List Key)} (h : Rel F none w w')
    (hL : Light none w') : Rel F none (w.prologue I P) (w'.prologue specImpl P) ∧
    Light none (w'.prologue specImpl P) := by
  unfold World.prologue
  have h1 : Rel F none (w.checkBegin I P) (w'.checkBegin specImpl P) ∧
      Light none (w'.checkBegin specImpl P) := by
    unfold World.checkBegin
    rw [h.view]
    split
    · exact ⟨h, hL⟩
    · refine rel_notify F (w := { w with view := { w'.view with started := true } })
        (w' := { w' with view := { w'.view with started := true } }) ⟨rfl, h.clocked, h.wired, h.queue⟩ ⟨hL.sorted, hL.ids, by simp⟩ _ _
  have h2 := rel_setPaused F h1.1 h1.2 false
  exact rel_notify F h2.1 h2.2 _ _

theorem rel_epilogue (P : Prog σ) {w : World σ C} {w' : World σ (List Key)} (h : Rel F none w w')
    (hL : Light none w') : Rel F none (w.epilogue I P) (w'.epilogue specImpl P) ∧
    Light none (w'.epilogue specImpl P) := by
  unfold World.epilogue
  have h2 := rel_setPaused F h hL true
  have h3 := rel_notify F h2.1 h2.2 .pause P.onPause
  unfold World.checkEnd
  rw [F.size _ _ h3.1.queue]
  change Rel F none _ (if List.length _ = 0 then _ else _) ∧
    Light none (if List.length _ = 0 then _ else _)
  split
  · exact rel_notify F h3.1 h3.2 _ _
  · exact h3

theorem rel_close (P : Prog σ) {r : World σ C × Bool} {r' : World σ (List Key) × Bool}
    (h : Rel F none r.1 r'.1) (hL : Light none r'.1) (hb : r.2 = r'.2) :
    Rel F none (World.close I P r).1 (World.close specImpl P r').1 ∧
    Light none (World.close specImpl P r').1 ∧
    (World.close I P r).2 = (World.close specImpl P r').2 := by
  unfold World.close
  rw [hb]
  split
  · have := rel_epilogue F P h hL; exact ⟨this.1, this.2, rfl⟩
  · exact ⟨h, hL, hb⟩

theorem rel_runUntil (P : Prog σ) (fuel : Nat) {w : World σ C} {w' : World σ (List Key)}
    (h : Rel F none w w') (hL : Light none w') (t : Int) :
    Rel F none (w.orStay (w.runUntil I P fuel t)).1 (w'.orStay (w'.runUntil specImpl P fuel t)).1 ∧
    Light none (w'.orStay (w'.runUntil specImpl P fuel t)).1 ∧
    (w.orStay (w.runUntil I P fuel t)).2 = (w'.orStay (w'.runUntil specImpl P fuel t)).2 := by
  unfold World.runUntil
  rw [h.wired, F.size _ _ h.queue]
  change Rel F none _ (Prod.fst (w'.orStay (if _ then _ else if List.length _ = 0 then _ else _))) ∧
    Light none (Prod.fst (w'.orStay (if _ then _ else if List.length _ = 0 then _ else _))) ∧
    _ = (Prod.snd (w'.orStay (if _ then _ else if List.length _ = 0 then _ else _)))
  split
  · exact ⟨h, hL, rfl⟩
  · split
    · exact ⟨h, hL, rfl⟩
    · have h1 := rel_prologue F P h hL
      have h2 := rel_untilLoop F P t fuel h1.1 h1.2
      exact rel_close F P h2.1 h2.2.1 h2.2.2

theorem rel_run (P : Prog σ) (fuel : Nat) {w : World σ C} {w' : World σ (List Key)}
    (h : Rel F none w w') (hL : Light none w') :
    Rel F none (w.orStay (w.run I P fuel)).1 (w'.orStay (w'.run specImpl P fuel)).1 ∧
    Light none (w'.orStay (w'.run specImpl P fuel)).1 ∧
    (w.orStay (w.run I P fuel)).2 = (w'.orStay (w'.run specImpl P fuel)).2 := by
  unfold World.run
  rw [h.wired, F.size _ _ h.queue]
  change Rel F none _ (Prod.fst (w'.orStay (if _ then _ else if List.length _ = 0 then _ else _))) ∧
    Light none (Prod.fst (w'.orStay (if _ then _ else if List.length _ = 0 then _ else _))) ∧
    _ = (Prod.snd (w'.orStay (if _ then _ else if List.length _ = 0 then _ else _)))
  split
  · exact ⟨h, hL, rfl⟩
  · split
    · exact ⟨h, hL, rfl⟩
    · have h1 := rel_prologue F P h hL
      have h2 := rel_runLoop F P fuel h1.1 h1.2
      exact rel_close F P h2.1 h2.2.1 h2.2.2

theorem rel_exec (P : Prog σ) (fuel : Nat) {w : World σ C} {w' : World σ (List Key)}
    (h : Rel F none w w') (hL : Light none w') (o : Op σ) :
    Rel F none (w.exec I P fuel o).1 (w'.exec specImpl P fuel o).1 ∧
    Light none (w'.exec specImpl P fuel o).1 ∧
    (w.exec I P fuel o).2 = (w'.exec specImpl P fuel o).2 := by
  cases o with
  | act a => have := rel_perform F h hL a; exact ⟨this.1, this.2, rfl⟩
  | run => exact rel_run F P fuel h hL
  | runUntil t => exact rel_runUntil F P fuel h hL t
  | runFor dt =>
    simp only [World.exec, World.runFor]
    rw [h.view]
    exact rel_runUntil F P fuel h hL _

theorem rel_execs (P : Prog σ) (fuel : Nat) (os : List (Op σ)) :
    ∀ {w : World σ C} {w' : World σ (List Key)}, Rel F none w w' → Light none w' →
    Rel F none (World.execs I P fuel w os).1 (World.execs specImpl P fuel w' os).1 ∧
    Light none (World.execs specImpl P fuel w' os).1 ∧
    (World.execs I P fuel w os).2 = (World.execs specImpl P fuel w' os).2 := by
  induction os with
  | nil => intro w w' h hL; exact ⟨h, hL, rfl⟩
  | cons o os ih =>
    intro w w' h hL
    have h1 := rel_exec F P fuel h hL o
    simp only [World.execs]
    revert h1
    generalize w.exec I P fuel o = r
    generalize w'.exec specImpl P fuel o = r'
    obtain ⟨a, b⟩ := r; obtain ⟨a', b'⟩ := r'
    rintro ⟨h1, h2, h3⟩
    simp only at h1 h2 h3
    subst h3
    cases b with
    | true => exact ih h1 h2
    | false => exact ⟨h1, h2, rfl⟩

theorem rel_init : Rel F none (World.init I : World σ C) (World.init specImpl) ∧
    Light none (World.init specImpl : World σ (List Key)) :=
  ⟨⟨rfl, rfl, rfl, F.empty⟩, ⟨List.Pairwise.nil, by simp [World.init, specImpl], by simp⟩⟩

end
end Verif.Sim
