import Verif.Sim.Refine

/-!
The abstract simulator as a transition system, and its invariants.
-/
set_option linter.unusedSimpArgs false
set_option linter.unusedVariables false
namespace Verif.Sim

section
variable {σ : Type}

/-- The event `id` has been fired. -/
def Fired (v : View σ) (id : Nat) : Prop := ∃ n t, (n, Entry.fire id t) ∈ v.trace
/-- The event `id` has been cancelled. -/
def Cancelled (v : View σ) (id : Nat) : Prop := ∃ n, (n, Entry.cancel id) ∈ v.trace
/-- The sink of event `id` has returned. -/
def Returned (v : View σ) (id : Nat) : Prop := ∃ n, (n, Entry.done id) ∈ v.trace

/-- A state of the abstract simulator: `cur` is the event being fired. -/
structure St (σ : Type) where
  v : View σ
  q : List Key
  cur : Option Key

def Entry.neutral : Entry → Bool
  | .begin | .run | .pause | .finish | .pauseReq => true
  | _ => false

/-- The transitions; the clock may go back only if `b`. -/
inductive Step (b : Bool) : St σ → St σ → Prop where
  | sched (v : View σ) (q cur) (t : Int) (x : σ) : ¬ t < v.now →
      Step b ⟨v, q, cur⟩ ⟨{ v.log (.sched v.handles.length t) with
        handles := v.handles ++ [⟨t, some x, false⟩] }, ins ⟨t, v.handles.length⟩ q, cur⟩
  | cancel (v : View σ) (q cur) (id : Nat) : id < v.handles.length →
      Step b ⟨v, q, cur⟩ ⟨{ v.log (.cancel id) with
        handles := v.handles.modify id Handle.cancel }, q, cur⟩
  | note (v : View σ) (q cur) (e : Entry) (s p : Bool) : e.neutral = true →
      (e = .finish → q = [] ∧ cur = none) →
      Step b ⟨v, q, cur⟩ ⟨{ v.log e with started := s, paused := p }, q, cur⟩
  | flags (v : View σ) (q cur) (s p : Bool) :
      Step b ⟨v, q, cur⟩ ⟨{ v with started := s, paused := p }, q, cur⟩
  | fireBegin (v : View σ) (q) (k : Key) (t : Int) (x : σ) (r : Bool) :
      v.handles[k.id]? = some ⟨t, some x, r⟩ → v.now = k.t →
      Step b ⟨v, k :: q, none⟩ ⟨{ v.log (.fire k.id k.t) with
        handles := v.handles.modify k.id Handle.fireBegin }, q, some k⟩
  | fireEnd (v : View σ) (q) (k : Key) :
      Step b ⟨v, q, some k⟩ ⟨{ v.log (.done k.id) with
        handles := v.handles.modify k.id Handle.fireEnd }, q, none⟩
  | drop (v : View σ) (q) (k : Key) (t : Int) (r : Bool) :
      v.handles[k.id]? = some ⟨t, none, r⟩ →
      Step b ⟨v, k :: q, none⟩ ⟨v, q, none⟩
  | clock (v : View σ) (q) (t : Int) : (∀ k ∈ q, t ≤ k.t) → (b = true ∨ v.now ≤ t) →
      Step b ⟨v, q, none⟩ ⟨{ v with now := t }, q, none⟩

inductive Steps (b : Bool) : St σ → St σ → Prop where
  | refl (s) : Steps b s s
  | tail {s s' s''} : Steps b s s' → Step b s' s'' → Steps b s s''

theorem Steps.trans {b : Bool} {s s' s'' : St σ} (h1 : Steps b s s') (h2 : Steps b s' s'') :
    Steps b s s'' := by
  induction h2 with
  | refl => exact h1
  | tail _ hs ih => exact .tail ih hs

theorem Steps.one {b : Bool} {s s' : St σ} (h : Step b s s') : Steps b s s' := .tail (.refl _) h

/-- What is known about one handle. -/
structure HInv (s : St σ) (id : Nat) (h : Handle σ) : Prop where
  sink : h.sink.isSome = true ↔ ¬ Cancelled s.v id ∧ ¬ Returned s.v id
  running : h.running = true ↔ ∃ k, s.cur = some k ∧ k.id = id
  inq : (⟨h.t, id⟩ : Key) ∈ s.q → ¬ Fired s.v id
  out : (⟨h.t, id⟩ : Key) ∉ s.q → Fired s.v id ∨ Cancelled s.v id
  fired : Fired s.v id ↔ Returned s.v id ∨ ∃ k, s.cur = some k ∧ k.id = id
  time : ∀ n t, (n, Entry.fire id t) ∈ s.v.trace → t = h.t
  sched : ∀ t, (∃ n, (n, Entry.sched id t) ∈ s.v.trace) ↔ t = h.t

/-- The identity in a `sched` entry. -/
def schedId : Int × Entry → Option Nat
  | (_, .sched id _) => some id
  | _ => none

/-- `b` is a firing: it must not come after a firing or a cancellation of the same event. -/
def NotBefore (a b : Int × Entry) : Prop :=
  ∀ id t, b.2 = .fire id t → a.2 ≠ .cancel id ∧ ∀ t', a.2 ≠ .fire id t'

/-- The structural invariant. -/
structure Inv (s : St σ) : Prop where
  sorted : Sorted s.q
  keys : ∀ k ∈ s.q, ∃ h, s.v.handles[k.id]? = some h ∧ h.t = k.t
  due : ∀ k ∈ s.q, s.v.now ≤ k.t
  cur : ∀ k, s.cur = some k →
    (∃ h, s.v.handles[k.id]? = some h ∧ h.t = k.t) ∧ k.t = s.v.now ∧ ∀ x ∈ s.q, k.lt x = true
  bound : ∀ id, Fired s.v id ∨ Cancelled s.v id ∨ Returned s.v id ∨
    (∃ n t, (n, Entry.sched id t) ∈ s.v.trace) → id < s.v.handles.length
  handles : ∀ id h, s.v.handles[id]? = some h → HInv s id h
  scheds : s.v.trace.filterMap schedId = List.range s.v.handles.length
  once : s.v.trace.Pairwise NotBefore
  atTime : ∀ n id t, (n, Entry.fire id t) ∈ s.v.trace → n = t

theorem Inv.ids {s : St σ} (h : Inv s) {k : Key} (hk : k ∈ s.q) : k.id < s.v.handles.length := by
  obtain ⟨h', e, _⟩ := h.keys k hk
  exact (List.getElem?_eq_some_iff.mp e).1

theorem key_eta {k : Key} {t : Int} (h : t = k.t) : (⟨t, k.id⟩ : Key) = k := by
  subst h; rfl

theorem inv_init : Inv (⟨⟨0, false, true, [], []⟩, [], none⟩ : St σ) where
  sorted := List.Pairwise.nil
  keys := by simp
  due := by simp
  cur := by simp
  bound := by simp [Fired, Cancelled, Returned]
  handles := by simp
  scheds := by simp
  once := List.Pairwise.nil
  atTime := by simp

theorem fired_log (v : View σ) (e : Entry) (hs) (id : Nat) :
    Fired ({ v.log e with handles := hs } : View σ) id ↔ Fired v id ∨ ∃ t, e = .fire id t := by
  simp only [Fired, View.log, List.mem_append, List.mem_singleton, Prod.mk.injEq]
  grind

theorem cancelled_log (v : View σ) (e : Entry) (hs) (id : Nat) :
    Cancelled ({ v.log e with handles := hs } : View σ) id ↔ Cancelled v id ∨ e = .cancel id := by
  simp only [Cancelled, View.log, List.mem_append, List.mem_singleton, Prod.mk.injEq]
  grind

theorem returned_log (v : View σ) (e : Entry) (hs) (id : Nat) :
    Returned ({ v.log e with handles := hs } : View σ) id ↔ Returned v id ∨ e = .done id := by
  simp only [Returned, View.log, List.mem_append, List.mem_singleton, Prod.mk.injEq]
  grind

theorem sched_log (v : View σ) (e : Entry) (hs) (id : Nat) (t : Int) :
    (∃ n, (n, Entry.sched id t) ∈ ({ v.log e with handles := hs } : View σ).trace) ↔
    (∃ n, (n, Entry.sched id t) ∈ v.trace) ∨ e = .sched id t := by
  simp only [View.log, List.mem_append, List.mem_singleton, Prod.mk.injEq]
  grind

theorem fire_log (v : View σ) (e : Entry) (hs) (n : Int) (id : Nat) (t : Int) :
    ((n, Entry.fire id t) ∈ ({ v.log e with handles := hs } : View σ).trace) ↔
    ((n, Entry.fire id t) ∈ v.trace) ∨ (n = v.now ∧ e = .fire id t) := by
  simp only [View.log, List.mem_append, List.mem_singleton, Prod.mk.injEq]
  grind

theorem once_log {v : View σ} {e : Entry} (h : v.trace.Pairwise NotBefore)
    (he : ∀ id t, e = .fire id t → ¬ Fired v id ∧ ¬ Cancelled v id) :
    (v.trace ++ [(v.now, e)]).Pairwise NotBefore := by
  refine List.pairwise_append.mpr ⟨h, List.pairwise_singleton _ _, ?_⟩
  intro a ha b hb id t hbe
  simp only [List.mem_singleton] at hb
  subst hb
  obtain ⟨h1, h2⟩ := he id t hbe
  refine ⟨fun hc => h2 ⟨a.1, ?_⟩, fun t' hc => h1 ⟨a.1, t', ?_⟩⟩
  · rw [← hc]; exact ha
  · rw [← hc]; exact ha

theorem inv_step {b : Bool} {s s' : St σ} (hst : Step b s s') (h : Inv s) : Inv s' := by
  cases hst with
  | sched v q cur t x ht =>
    have hnew : ∀ k ∈ q, k.id < v.handles.length := fun k hk => h.ids hk
    have nob := fun h' => Nat.lt_irrefl _ (h.bound v.handles.length h')
    refine ⟨ins_sorted h.sorted hnew, ?_, ?_, ?_, ?_, ?_, ?_, ?_, ?_⟩
    · intro k hk
      rcases (mem_ins _ _ _).mp hk with rfl | hk
      · exact ⟨⟨t, some x, false⟩, by simp, rfl⟩
      · obtain ⟨h', e, ht'⟩ := h.keys k hk
        refine ⟨h', ?_, ht'⟩
        rw [List.getElem?_append_left (hnew k hk)]; exact e
    · intro k hk
      rcases (mem_ins _ _ _).mp hk with rfl | hk
      · simp only [View.log]; omega
      · exact h.due k hk
    · intro k hk
      obtain ⟨⟨h', e, ht'⟩, e2, e3⟩ := h.cur k hk
      have hlt : k.id < v.handles.length := (List.getElem?_eq_some_iff.mp e).1
      refine ⟨⟨h', ?_, ht'⟩, e2, ?_⟩
      · rw [List.getElem?_append_left hlt]; exact e
      · intro y hy
        rcases (mem_ins _ _ _).mp hy with rfl | hy
        · rw [Key.lt_iff]; simp only at e2 ⊢; omega
        · exact e3 y hy
    · intro id
      simp only [fired_log, cancelled_log, returned_log]
      rintro (h' | h' | h' | ⟨n, t', h'⟩)
      · have := h.bound id (by grind); simp at this ⊢; omega
      · have := h.bound id (by grind); simp at this ⊢; omega
      · have := h.bound id (by grind); simp at this ⊢; omega
      · rcases (sched_log _ _ _ _ _).mp ⟨n, h'⟩ with ⟨n, h'⟩ | h'
        · have := h.bound id (.inr (.inr (.inr ⟨n, t', h'⟩))); simp; simp at this; omega
        · cases h'; simp
    · intro id h' e
      rcases Nat.lt_or_ge id v.handles.length with hlt | hge
      · rw [List.getElem?_append_left hlt] at e
        have hi := h.handles id h' e
        have hmem : (⟨h'.t, id⟩ : Key) ∈ ins ⟨t, v.handles.length⟩ q ↔ (⟨h'.t, id⟩ : Key) ∈ q := by
          rw [mem_ins]; constructor
          · rintro (h' | h')
            · cases h'; omega
            · exact h'
          · exact .inr
        refine ⟨?_, hi.running, ?_, ?_, ?_, ?_, ?_⟩
        · simp only [cancelled_log, returned_log]; simpa using hi.sink
        · simp only [fired_log, hmem]; simpa using hi.inq
        · simp only [fired_log, cancelled_log, hmem]; simpa using hi.out
        · simp only [fired_log, returned_log]; simpa using hi.fired
        · intro n t' hm
          rcases (fire_log _ _ _ _ _ _).mp hm with hm | ⟨_, hm⟩
          · exact hi.time n t' hm
          · cases hm
        · intro t'
          rw [sched_log, hi.sched t']
          constructor
          · rintro (h' | h')
            · exact h'
            · cases h'; omega
          · exact .inl
      · have hid : id = v.handles.length := by
          have := (List.getElem?_eq_some_iff.mp e).1; simp at this; omega
        subst hid
        simp at e; subst e
        refine ⟨?_, ?_, ?_, ?_, ?_, ?_, ?_⟩
        · simp only [cancelled_log, returned_log]
          simp only [Option.isSome_some, true_iff]
          grind
        · constructor
          · intro h'; cases h'
          · rintro ⟨k, hk, hid⟩
            obtain ⟨⟨h', e, ht'⟩, _⟩ := h.cur k hk
            have := (List.getElem?_eq_some_iff.mp e).1
            simp only at this; omega
        · intro _; simp only [fired_log]; grind
        · intro h'; exact absurd ((mem_ins _ _ _).mpr (.inl rfl)) h'
        · simp only [fired_log, returned_log]
          constructor
          · rintro (h' | ⟨t, h'⟩)
            · exact absurd (.inl h') nob
            · cases h'
          · rintro ((h' | h') | ⟨k, hk, hid⟩)
            · exact absurd (.inr (.inr (.inl h'))) nob
            · cases h'
            · obtain ⟨⟨h', e, ht'⟩, _⟩ := h.cur k hk
              have := (List.getElem?_eq_some_iff.mp e).1
              simp only at this; omega
        · intro n t' h'
          rcases (fire_log _ _ _ _ _ _).mp h' with h' | ⟨_, h'⟩
          · exact absurd (.inl ⟨n, t', h'⟩) nob
          · cases h'
        · intro t'
          rw [sched_log]
          constructor
          · rintro (⟨n, h'⟩ | h')
            · exact absurd (.inr (.inr (.inr ⟨n, t', h'⟩))) nob
            · cases h'; rfl
          · rintro rfl; exact .inr rfl
    · have := h.scheds
      simp only [View.log, List.filterMap_append, List.length_append, List.length_cons,
        List.length_nil] at *
      rw [this, List.range_succ]; rfl
    · exact once_log h.once (by intro id t h'; cases h')
    · intro n id t' h'
      rcases (fire_log _ _ _ _ _ _).mp h' with h' | ⟨_, h'⟩
      · exact h.atTime _ _ _ h'
      · cases h'
  | cancel v q cur id hid =>
    have hget : ∀ (i : Nat) (h' : Handle σ), (v.handles.modify id Handle.cancel)[i]? = some h' →
        ∃ h0 : Handle σ, v.handles[i]? = some h0 ∧ h'.t = h0.t ∧ h'.running = h0.running ∧
          ((i = id ∧ h'.sink = none) ∨ (i ≠ id ∧ h'.sink = h0.sink)) := by
      intro i h' e
      rw [List.getElem?_modify] at e
      cases hh : v.handles[i]? with
      | none => rw [hh] at e; cases e
      | some h0 =>
        rw [hh] at e
        by_cases hi : id = i
        · simp [hi, Handle.cancel] at e; subst e; exact ⟨h0, rfl, rfl, rfl, .inl ⟨hi.symm, rfl⟩⟩
        · simp [hi] at e; subst e; exact ⟨h0, rfl, rfl, rfl, .inr ⟨fun h => hi h.symm, rfl⟩⟩
    have hput : ∀ (i : Nat) (h0 : Handle σ), v.handles[i]? = some h0 →
        ∃ h' : Handle σ, (v.handles.modify id Handle.cancel)[i]? = some h' ∧ h'.t = h0.t := by
      intro i h0 e
      rw [List.getElem?_modify, e]
      by_cases hi : id = i
      · exact ⟨Handle.cancel h0, by simp [hi], rfl⟩
      · exact ⟨h0, by simp [hi], rfl⟩
    refine ⟨h.sorted, ?_, h.due, ?_, ?_, ?_, ?_, ?_, ?_⟩
    · intro k hk
      obtain ⟨h0, e, ht⟩ := h.keys k hk
      obtain ⟨h', e', ht'⟩ := hput _ _ e
      exact ⟨h', e', ht'.trans ht⟩
    · intro k hk
      obtain ⟨⟨h0, e, ht⟩, e2⟩ := h.cur k hk
      obtain ⟨h', e', ht'⟩ := hput _ _ e
      exact ⟨⟨h', e', ht'.trans ht⟩, e2⟩
    · intro i
      simp only [fired_log, cancelled_log, returned_log, List.length_modify]
      rintro (h' | h' | h' | ⟨n, t', h'⟩)
      · exact h.bound i (by grind)
      · rcases h' with h' | h'
        · exact h.bound i (by grind)
        · cases h'; exact hid
      · exact h.bound i (by grind)
      · rcases (sched_log _ _ _ _ _).mp ⟨n, h'⟩ with ⟨n, h'⟩ | h'
        · exact h.bound i (.inr (.inr (.inr ⟨n, t', h'⟩)))
        · cases h'
    · intro i h' e
      obtain ⟨h0, e0, ht, hr, hs⟩ := hget i h' e
      have hi := h.handles i h0 e0
      refine ⟨?_, by rw [hr]; exact hi.running, ?_, ?_, ?_, ?_, ?_⟩
      · simp only [cancelled_log, returned_log]
        rcases hs with ⟨rfl, hs⟩ | ⟨hne, hs⟩
        · rw [hs]; simp
        · rw [hs, hi.sink]; simp; grind
      · rw [ht]; simp only [fired_log]; simpa using hi.inq
      · rw [ht]; simp only [fired_log, cancelled_log]
        intro h'; rcases hi.out h' with h' | h'
        · exact .inl (.inl h')
        · exact .inr (.inl h')
      · simp only [fired_log, returned_log]; simpa using hi.fired
      · rw [ht]; intro n t' hm
        rcases (fire_log _ _ _ _ _ _).mp hm with hm | ⟨_, hm⟩
        · exact hi.time n t' hm
        · cases hm
      · intro t'; rw [sched_log, ht, hi.sched t']; simp
    · have := h.scheds
      simp only [View.log, List.filterMap_append, List.length_modify] at *
      rw [this]; exact List.append_nil _
    · exact once_log h.once (by intro id t h'; cases h')
    · intro n id t' h'
      rcases (fire_log _ _ _ _ _ _).mp h' with h' | ⟨_, h'⟩
      · exact h.atTime _ _ _ h'
      · cases h'
  | note v q cur e s p he hfin =>
    have hv : ({ v.log e with started := s, paused := p } : View σ).handles = v.handles := rfl
    have F : ∀ i, Fired ({ v.log e with started := s, paused := p } : View σ) i ↔ Fired v i := by
      intro i; refine (fired_log v e v.handles i).trans ?_
      constructor
      · rintro (h | ⟨t, rfl⟩); exact h; cases he
      · exact .inl
    have Cc : ∀ i, Cancelled ({ v.log e with started := s, paused := p } : View σ) i ↔
        Cancelled v i := by
      intro i; refine (cancelled_log v e v.handles i).trans ?_
      constructor
      · rintro (h | rfl); exact h; cases he
      · exact .inl
    have Rr : ∀ i, Returned ({ v.log e with started := s, paused := p } : View σ) i ↔
        Returned v i := by
      intro i; refine (returned_log v e v.handles i).trans ?_
      constructor
      · rintro (h | rfl); exact h; cases he
      · exact .inl
    have Sc : ∀ i t, (∃ n, (n, Entry.sched i t) ∈
        ({ v.log e with started := s, paused := p } : View σ).trace) ↔
        ∃ n, (n, Entry.sched i t) ∈ v.trace := by
      intro i t; refine (sched_log v e v.handles i t).trans ?_
      constructor
      · rintro (h | rfl); exact h; cases he
      · exact .inl
    have Fi : ∀ n i t, (n, Entry.fire i t) ∈
        ({ v.log e with started := s, paused := p } : View σ).trace ↔
        (n, Entry.fire i t) ∈ v.trace := by
      intro n i t; refine (fire_log v e v.handles n i t).trans ?_
      constructor
      · rintro (h | ⟨_, rfl⟩); exact h; cases he
      · exact .inl
    refine ⟨h.sorted, h.keys, h.due, h.cur, ?_, ?_, ?_, ?_, ?_⟩
    · intro i
      simp only [F, Cc, Rr]
      rintro (h' | h' | h' | ⟨n, t, h'⟩)
      · exact h.bound i (.inl h')
      · exact h.bound i (.inr (.inl h'))
      · exact h.bound i (.inr (.inr (.inl h')))
      · obtain ⟨n, h'⟩ := (Sc i t).mp ⟨n, h'⟩
        exact h.bound i (.inr (.inr (.inr ⟨n, t, h'⟩)))
    · intro i h' e'
      have hi := h.handles i h' e'
      refine ⟨?_, hi.running, ?_, ?_, ?_, ?_, ?_⟩
      · simp only [Cc, Rr]; exact hi.sink
      · simp only [F]; exact hi.inq
      · simp only [F, Cc]; exact hi.out
      · simp only [F, Rr]; exact hi.fired
      · intro n t; simp only [Fi]; exact hi.time n t
      · intro t; simp only [Sc]; exact hi.sched t
    · have := h.scheds
      simp only [View.log, List.filterMap_append] at *
      rw [this]
      cases e <;> first | (cases he; done) | exact List.append_nil _
    · exact once_log h.once (by rintro id t rfl; cases he)
    · intro n i t; simp only [Fi]; exact h.atTime n i t
  | flags v q cur s p =>
    exact ⟨h.sorted, h.keys, h.due, h.cur, h.bound,
      fun i h' e => ⟨(h.handles i h' e).sink, (h.handles i h' e).running, (h.handles i h' e).inq,
        (h.handles i h' e).out, (h.handles i h' e).fired, (h.handles i h' e).time,
        (h.handles i h' e).sched⟩, h.scheds, h.once, h.atTime⟩
  | fireBegin v q k t x r hk hnow =>
    have hkin : k ∈ (⟨v, k :: q, none⟩ : St σ).q := by simp
    obtain ⟨hk0, ek, htk⟩ := h.keys k hkin
    have : hk0 = ⟨t, some x, r⟩ := by
      have := hk.symm.trans ek; simpa using this.symm
    subst this
    simp only at htk
    have hik := h.handles k.id _ hk
    have hkeq : (⟨t, k.id⟩ : Key) = k := key_eta htk
    have hnf : ¬ Fired v k.id := hik.inq (by rw [hkeq]; exact hkin)
    have hnc : ¬ Cancelled v k.id := (hik.sink.mp rfl).1
    have hget : ∀ (i : Nat) (h' : Handle σ), (v.handles.modify k.id Handle.fireBegin)[i]? = some h' →
        ∃ h0 : Handle σ, v.handles[i]? = some h0 ∧ h'.t = h0.t ∧ h'.sink = h0.sink ∧
          ((i = k.id ∧ h'.running = true) ∨ (i ≠ k.id ∧ h'.running = h0.running)) := by
      intro i h' e
      rw [List.getElem?_modify] at e
      cases hh : v.handles[i]? with
      | none => rw [hh] at e; cases e
      | some h0 =>
        rw [hh] at e
        by_cases hi : k.id = i
        · simp [hi, Handle.fireBegin] at e; subst e
          exact ⟨h0, rfl, rfl, rfl, .inl ⟨hi.symm, rfl⟩⟩
        · simp [hi] at e; subst e; exact ⟨h0, rfl, rfl, rfl, .inr ⟨fun h => hi h.symm, rfl⟩⟩
    have hput : ∀ (i : Nat) (h0 : Handle σ), v.handles[i]? = some h0 →
        ∃ h' : Handle σ, (v.handles.modify k.id Handle.fireBegin)[i]? = some h' ∧ h'.t = h0.t := by
      intro i h0 e
      rw [List.getElem?_modify, e]
      by_cases hi : k.id = i
      · exact ⟨Handle.fireBegin h0, by simp [hi], rfl⟩
      · exact ⟨h0, by simp [hi], rfl⟩
    have hsq := List.pairwise_cons.mp h.sorted
    refine ⟨hsq.2, ?_, ?_, ?_, ?_, ?_, ?_, ?_, ?_⟩
    · intro y hy
      obtain ⟨h0, e, ht⟩ := h.keys y (by simp [hy])
      obtain ⟨h', e', ht'⟩ := hput _ _ e
      exact ⟨h', e', ht'.trans ht⟩
    · intro y hy; exact h.due y (by simp [hy])
    · rintro k' ⟨⟩
      obtain ⟨h', e', ht'⟩ := hput _ _ hk
      exact ⟨⟨h', e', ht'.trans htk⟩, hnow.symm, hsq.1⟩
    · intro i
      simp only [fired_log, cancelled_log, returned_log, List.length_modify]
      rintro (h' | h' | h' | ⟨n, t', h'⟩)
      · rcases h' with h' | ⟨t', h'⟩
        · exact h.bound i (by grind)
        · cases h'; exact (List.getElem?_eq_some_iff.mp hk).1
      · exact h.bound i (by grind)
      · exact h.bound i (by grind)
      · rcases (sched_log _ _ _ _ _).mp ⟨n, h'⟩ with ⟨n, h'⟩ | h'
        · exact h.bound i (.inr (.inr (.inr ⟨n, t', h'⟩)))
        · cases h'
    · intro i h' e
      obtain ⟨h0, e0, ht, hs, hr⟩ := hget i h' e
      have hi := h.handles i h0 e0
      have hkq : i ≠ k.id → ((⟨h0.t, i⟩ : Key) ∈ q ↔ (⟨h0.t, i⟩ : Key) ∈ k :: q) := by
        intro hne
        rw [List.mem_cons]
        constructor
        · exact .inr
        · rintro (h' | h')
          · exact absurd (by rw [← h']) hne
          · exact h'
      refine ⟨?_, ?_, ?_, ?_, ?_, ?_, ?_⟩
      · rw [hs]; simp only [cancelled_log, returned_log]; simpa using hi.sink
      · rcases hr with ⟨rfl, hr⟩ | ⟨hne, hr⟩
        · simp [hr]
        · rw [hr, hi.running]; simp; exact fun h => hne h.symm
      · rw [ht]; simp only [fired_log]
        rcases hr with ⟨rfl, hr⟩ | ⟨hne, hr⟩
        · intro hq
          have h0t : h0.t = k.t := by rw [e0] at hk; cases hk; exact htk
          rw [key_eta h0t] at hq
          have := hsq.1 _ hq
          rw [Key.lt_irrefl] at this; cases this
        · intro hq
          rintro (h' | ⟨t', h'⟩)
          · exact hi.inq ((hkq hne).mp hq) h'
          · cases h'; exact hne rfl
      · rw [ht]; simp only [fired_log, cancelled_log]
        rcases hr with ⟨rfl, hr⟩ | ⟨hne, hr⟩
        · intro _; exact .inl (.inr ⟨_, rfl⟩)
        · intro hq; rcases hi.out (fun h' => hq ((hkq hne).mpr h')) with h' | h'
          · exact .inl (.inl h')
          · exact .inr (.inl h')
      · simp only [fired_log, returned_log]
        rcases hr with ⟨rfl, hr⟩ | ⟨hne, hr⟩
        · simp
        · rw [hi.fired]; simp
      · rw [ht]; intro n t' hm
        rcases (fire_log _ _ _ _ _ _).mp hm with h' | ⟨_, h'⟩
        · exact hi.time n t' h'
        · cases h'; rw [e0] at hk; cases hk; exact htk.symm
      · intro t'; rw [sched_log, ht, hi.sched t']; simp
    · have := h.scheds
      simp only [View.log, List.filterMap_append, List.length_modify] at *
      rw [this]; exact List.append_nil _
    · refine once_log h.once ?_
      intro id t h'; cases h'; exact ⟨hnf, hnc⟩
    · intro n id t' h'
      rcases (fire_log _ _ _ _ _ _).mp h' with h' | ⟨hn, h'⟩
      · exact h.atTime _ _ _ h'
      · cases h'; rw [hn]; exact hnow
  | fireEnd v q k =>
    obtain ⟨⟨hk0, ek, htk⟩, hnow, hlt⟩ := h.cur k rfl
    have hik := h.handles k.id _ ek
    have hfk : Fired v k.id := hik.fired.mpr (.inr ⟨k, rfl, rfl⟩)
    have hget : ∀ (i : Nat) (h' : Handle σ), (v.handles.modify k.id Handle.fireEnd)[i]? = some h' →
        ∃ h0 : Handle σ, v.handles[i]? = some h0 ∧ h'.t = h0.t ∧
          ((i = k.id ∧ h'.running = false ∧ h'.sink = none) ∨
            (i ≠ k.id ∧ h'.running = h0.running ∧ h'.sink = h0.sink)) := by
      intro i h' e
      rw [List.getElem?_modify] at e
      cases hh : v.handles[i]? with
      | none => rw [hh] at e; cases e
      | some h0 =>
        rw [hh] at e
        by_cases hi : k.id = i
        · simp [hi, Handle.fireEnd] at e; subst e
          exact ⟨h0, rfl, rfl, .inl ⟨hi.symm, rfl, rfl⟩⟩
        · simp [hi] at e; subst e; exact ⟨h0, rfl, rfl, .inr ⟨fun h => hi h.symm, rfl, rfl⟩⟩
    have hput : ∀ (i : Nat) (h0 : Handle σ), v.handles[i]? = some h0 →
        ∃ h' : Handle σ, (v.handles.modify k.id Handle.fireEnd)[i]? = some h' ∧ h'.t = h0.t := by
      intro i h0 e
      rw [List.getElem?_modify, e]
      by_cases hi : k.id = i
      · exact ⟨Handle.fireEnd h0, by simp [hi], rfl⟩
      · exact ⟨h0, by simp [hi], rfl⟩
    refine ⟨h.sorted, ?_, h.due, by simp, ?_, ?_, ?_, ?_, ?_⟩
    · intro y hy
      obtain ⟨h0, e, ht⟩ := h.keys y hy
      obtain ⟨h', e', ht'⟩ := hput _ _ e
      exact ⟨h', e', ht'.trans ht⟩
    · intro i
      simp only [fired_log, cancelled_log, returned_log, List.length_modify]
      rintro (h' | h' | h' | ⟨n, t', h'⟩)
      · exact h.bound i (by grind)
      · exact h.bound i (by grind)
      · rcases h' with h' | h'
        · exact h.bound i (by grind)
        · cases h'; exact (List.getElem?_eq_some_iff.mp ek).1
      · rcases (sched_log _ _ _ _ _).mp ⟨n, h'⟩ with ⟨n, h'⟩ | h'
        · exact h.bound i (.inr (.inr (.inr ⟨n, t', h'⟩)))
        · cases h'
    · intro i h' e
      obtain ⟨h0, e0, ht, hr⟩ := hget i h' e
      have hi := h.handles i h0 e0
      refine ⟨?_, ?_, ?_, ?_, ?_, ?_, ?_⟩
      · simp only [cancelled_log, returned_log]
        rcases hr with ⟨rfl, hr, hs⟩ | ⟨hne, hr, hs⟩
        · rw [hs]; simp
        · rw [hs, hi.sink]; simp; grind
      · rcases hr with ⟨rfl, hr, hs⟩ | ⟨hne, hr, hs⟩
        · rw [hr]; simp
        · rw [hr, hi.running]; simp; exact fun h => hne h.symm
      · rw [ht]; simp only [fired_log]; simpa using hi.inq
      · rw [ht]; simp only [fired_log, cancelled_log]; simpa using hi.out
      · simp only [fired_log, returned_log]
        rcases hr with ⟨rfl, hr, hs⟩ | ⟨hne, hr, hs⟩
        · simp [hfk]
        · rw [hi.fired]; simp
      · rw [ht]; intro n t' hm
        rcases (fire_log _ _ _ _ _ _).mp hm with hm | ⟨_, hm⟩
        · exact hi.time n t' hm
        · cases hm
      · intro t'; rw [sched_log, ht, hi.sched t']; simp
    · have := h.scheds
      simp only [View.log, List.filterMap_append, List.length_modify] at *
      rw [this]; exact List.append_nil _
    · exact once_log h.once (by intro id t h'; cases h')
    · intro n id t' h'
      rcases (fire_log _ _ _ _ _ _).mp h' with h' | ⟨_, h'⟩
      · exact h.atTime _ _ _ h'
      · cases h'
  | drop v q k t r hk =>
    have hsq := List.pairwise_cons.mp h.sorted
    obtain ⟨hk0, ek, htk⟩ := h.keys k (by simp)
    have hkeq : hk0 = ⟨t, none, r⟩ := by
      have := hk.symm.trans ek; simpa using this.symm
    subst hkeq
    simp only at htk
    have hik := h.handles k.id _ hk
    have hnf : ¬ Fired v k.id := hik.inq (by simp [key_eta htk])
    have hc : Cancelled v k.id := by
      have hr : ¬ Returned v k.id := fun hr => hnf (hik.fired.mpr (.inl hr))
      by_cases hc : Cancelled v k.id
      · exact hc
      · have := hik.sink.mpr ⟨hc, hr⟩
        cases this
    refine ⟨hsq.2, fun y hy => h.keys y (by simp [hy]), fun y hy => h.due y (by simp [hy]), by simp,
      h.bound, ?_, h.scheds, h.once, h.atTime⟩
    intro i h' e
    have hi := h.handles i h' e
    refine ⟨hi.sink, hi.running, fun hq => hi.inq (by simp [hq]), ?_, hi.fired, hi.time, hi.sched⟩
    intro hq
    by_cases hik' : (⟨h'.t, i⟩ : Key) = k
    · have : i = k.id := by rw [← hik']
      subst this; exact .inr hc
    · exact hi.out (by simp only [List.mem_cons, not_or]; exact ⟨hik', hq⟩)
  | clock v q t ht hb =>
    exact ⟨h.sorted, h.keys, ht, by simp, h.bound,
      fun i h' e => ⟨(h.handles i h' e).sink, (h.handles i h' e).running, (h.handles i h' e).inq,
        (h.handles i h' e).out, (h.handles i h' e).fired, (h.handles i h' e).time,
        (h.handles i h' e).sched⟩, h.scheds, h.once, h.atTime⟩

theorem inv_steps {b : Bool} {s s' : St σ} (hst : Steps b s s') (h : Inv s) : Inv s' := by
  induction hst with
  | refl => exact h
  | tail _ hs ih => exact inv_step hs ih

end
end Verif.Sim
