import Verif.Sim.ThrowLemmas

/-! The invariant of histories with exceptions. -/
set_option linter.unusedVariables false
namespace Verif.Sim
section
variable {σ : Type}

/-- What is counted: calls of sinks, or returns from sinks. -/
structure Counted (E : Nat → Entry → Bool) : Prop where
  sched : ∀ id i t, E id (.sched i t) = false
  cancel : ∀ id i, E id (.cancel i) = false
  pauseReq : ∀ id, E id .pauseReq = false
  begin : ∀ id, E id .begin = false
  run : ∀ id, E id .run = false
  pause : ∀ id, E id .pause = false
  finish : ∀ id, E id .finish = false
  fire : ∀ id i t, E id (.fire i t) = true → id = i
  done : ∀ id i, E id (.done i) = true → id = i

/-- No cancellation before a call of the sink. -/
def Uncancelled (a b : Int × Entry) : Prop := ∀ id t, b.2 = .fire id t → a.2 ≠ .cancel id

/-- What is counted has happened to event `id`. -/
def Hit (E : Nat → Entry → Bool) (v : View σ) (id : Nat) : Prop := ∃ e ∈ v.trace, E id e.2 = true

structure JV (E : Nat → Entry → Bool) (q : List Key) (v : View σ) : Prop where
  timed : ∀ k ∈ q, ∃ h, v.handles[k.id]? = some h ∧ h.t = k.t
  kept : ∀ id h, v.handles[id]? = some h → (⟨h.t, id⟩ : Key) ∈ q ∨ Hit E v id ∨ Cancelled v id
  dead : ∀ id h, v.handles[id]? = some h → h.sink = none → Hit E v id ∨ Cancelled v id
  gone : ∀ id, Cancelled v id → ∀ h, v.handles[id]? = some h → h.sink = none
  known : ∀ e ∈ v.trace, (∀ id t, e.2 = .sched id t → ∃ h, v.handles[id]? = some h ∧ h.t = t) ∧
    (∀ id, e.2 = .cancel id → id < v.handles.length) ∧ ∀ id, E id e.2 = true → id < v.handles.length
  once : ∀ id, (v.trace.filter fun e => E id e.2).length ≤ 1
  fresh : ∀ k ∈ q, ∀ e ∈ v.trace, E k.id e.2 = false
  order : v.trace.Pairwise Uncancelled

variable {E : Nat → Entry → Bool} {q : List Key} {v : View σ}

theorem hit_mono {v : View σ} {e : Entry} {id : Nat} (h : Hit E v id) : Hit E (v.log e) id := by
  obtain ⟨x, m, h⟩ := h
  exact ⟨x, List.mem_append_left _ m, h⟩

theorem hit_log {v : View σ} {e : Entry} {id : Nat} (h : E id e = true) : Hit E (v.log e) id :=
  ⟨(v.now, e), List.mem_append_right _ (List.mem_singleton.mpr rfl), h⟩

theorem cancelled_mono {v : View σ} {e : Entry} {id : Nat} (h : Cancelled v id) : Cancelled (v.log e) id := by
  obtain ⟨n, h⟩ := h
  exact ⟨n, List.mem_append_left _ h⟩

theorem cancelled_of_log {v : View σ} {e : Entry} {id : Nat} (h : Cancelled (v.log e) id) : Cancelled v id ∨ e = .cancel id := by
  obtain ⟨n, h⟩ := h
  rcases List.mem_append.mp h with m | m
  · exact .inl ⟨n, m⟩
  · have := List.mem_singleton.mp m
    exact .inr (by cases this; rfl)

theorem order_log (h : v.trace.Pairwise Uncancelled) {e : Entry} (he : ∀ id t, e ≠ .fire id t) :
    (v.log e).trace.Pairwise Uncancelled := by
  refine List.pairwise_append.mpr ⟨h, List.pairwise_singleton _ _, ?_⟩
  intro a _ b hb id t e2
  rw [List.mem_singleton.mp hb] at e2
  exact absurd e2 (he id t)

theorem count_log (h : ∀ id, (v.trace.filter fun e => E id e.2).length ≤ 1) {e : Entry}
    (he : ∀ id, E id e = true → ∀ x ∈ v.trace, E id x.2 = false) (id : Nat) :
    ((v.log e).trace.filter fun e => E id e.2).length ≤ 1 := by
  simp only [View.log, List.filter_append, List.length_append]
  by_cases c : E id e = true
  · have : (v.trace.filter fun e => E id e.2) = [] := by
      rw [List.filter_eq_nil_iff]
      intro x hx; rw [he id c x hx]; decide
    rw [this]; simp [c]
  · have := h id
    simp [c]; exact this

theorem fresh_log (h : ∀ k ∈ q, ∀ e ∈ v.trace, E k.id e.2 = false) {e : Entry} (he : ∀ k ∈ q, E k.id e = false) :
    ∀ k ∈ q, ∀ x ∈ (v.log e).trace, E k.id x.2 = false := by
  intro k hk x hx
  rcases List.mem_append.mp hx with m | m
  · exact h k hk x m
  · rw [List.mem_singleton.mp m]; exact he k hk

/-- An entry that concerns no event. -/
theorem JV.mark (j : JV E q v) {e : Entry} (h0 : ∀ id, E id e = false) (h1 : ∀ id t, e ≠ .fire id t) (h2 : ∀ id t, e ≠ .sched id t)
    (h3 : ∀ id, e ≠ .cancel id) : JV E q (v.log e) where
  timed := j.timed
  kept id h hh := (j.kept id h hh).imp_right (Or.imp hit_mono cancelled_mono)
  dead id h hh hs := (j.dead id h hh hs).imp hit_mono cancelled_mono
  gone id hc h hh := by
    rcases cancelled_of_log hc with c | c
    · exact j.gone id c h hh
    · exact absurd c (h3 id)
  known x hx := by
    rcases List.mem_append.mp hx with m | m
    · exact j.known x m
    · rw [List.mem_singleton.mp m]
      exact ⟨fun id t e => absurd e (h2 id t), fun id e => absurd e (h3 id), fun id e => by rw [h0 id] at e; cases e⟩
  once := count_log j.once fun id c => by rw [h0 id] at c; cases c
  fresh := fresh_log j.fresh fun k _ => h0 k.id
  order := order_log j.order h1

theorem JV.flags (j : JV E q v) (now : Int) (started paused : Bool) :
    JV E q ({ v with now := now, started := started, paused := paused } : View σ) :=
  ⟨j.timed, fun (id : Nat) (h : Handle σ) hh => j.kept id h hh, fun (id : Nat) (h : Handle σ) hh => j.dead id h hh,
    fun (id : Nat) hc (h : Handle σ) hh => j.gone id hc h hh, j.known, j.once, j.fresh, j.order⟩

theorem JV.sched (c : Counted E) (j : JV E q v) {q' : List Key} {t : Int} (s : σ)
    (hq : ∀ x, x ∈ q' ↔ x = ⟨t, v.handles.length⟩ ∨ x ∈ q) :
    JV E q' { v.log (.sched v.handles.length t) with handles := v.handles ++ [⟨t, some s, false⟩] } := by
  have old : ∀ (id : Nat) (h : Handle σ), v.handles[id]? = some h → (v.handles ++ [(⟨t, some s, false⟩ : Handle σ)])[id]? = some h := by
    intro id h hh
    rw [List.getElem?_append_left (List.getElem?_eq_some_iff.mp hh).1]; exact hh
  have new : ∀ (id : Nat) (h : Handle σ), (v.handles ++ [(⟨t, some s, false⟩ : Handle σ)])[id]? = some h →
      v.handles[id]? = some h ∨ (id = v.handles.length ∧ h = ⟨t, some s, false⟩) := by
    intro id h hh
    by_cases lt : id < v.handles.length
    · rw [List.getElem?_append_left lt] at hh; exact .inl hh
    · rw [List.getElem?_append_right (by omega)] at hh
      have l := (List.getElem?_eq_some_iff.mp hh).1
      simp only [List.length_singleton] at l
      have z : id - v.handles.length = 0 := by omega
      rw [z] at hh
      exact .inr ⟨by omega, by simpa using hh.symm⟩
  have last : (v.handles ++ [(⟨t, some s, false⟩ : Handle σ)])[v.handles.length]? = some ⟨t, some s, false⟩ := by simp
  have noC : ∀ id, Cancelled v id → id < v.handles.length := by
    rintro id ⟨n, hn⟩
    exact (j.known _ hn).2.1 id rfl
  refine ⟨?_, ?_, ?_, ?_, ?_, ?_, ?_, ?_⟩
  · intro k hk
    rcases (hq k).mp hk with rfl | hk
    · exact ⟨_, last, rfl⟩
    · obtain ⟨h, hh, e⟩ := j.timed k hk
      exact ⟨h, old _ _ hh, e⟩
  · intro id h hh
    rcases new id h hh with o | ⟨rfl, rfl⟩
    · rcases j.kept id h o with a | a
      · exact .inl ((hq _).mpr (.inr a))
      · exact .inr (a.imp hit_mono cancelled_mono)
    · exact .inl ((hq _).mpr (.inl rfl))
  · intro id h hh hs
    rcases new id h hh with o | ⟨rfl, rfl⟩
    · exact (j.dead id h o hs).imp hit_mono cancelled_mono
    · cases hs
  · intro id hc h hh
    have hc' : Cancelled v id := by
      rcases cancelled_of_log (v := v) (e := .sched v.handles.length t) hc with c | c
      · exact c
      · cases c
    rcases new id h hh with o | ⟨rfl, rfl⟩
    · exact j.gone id hc' h o
    · exact absurd (noC _ hc') (Nat.lt_irrefl _)
  · intro x hx
    simp only [List.length_append, List.length_singleton]
    rcases List.mem_append.mp hx with m | m
    · obtain ⟨a, b, d⟩ := j.known x m
      refine ⟨fun id u e => ?_, fun id e => by have := b id e; omega, fun id e => by have := d id e; omega⟩
      obtain ⟨h, hh, e⟩ := a id u e
      exact ⟨h, old _ _ hh, e⟩
    · rw [List.mem_singleton.mp m]
      refine ⟨fun id u e => ?_, fun id e => (by cases e), fun id e => (by rw [c.sched] at e; cases e)⟩
      cases e
      exact ⟨_, last, rfl⟩
  · exact count_log j.once fun id e => by rw [c.sched] at e; cases e
  · intro k hk x hx
    rcases List.mem_append.mp hx with m | m
    · rcases (hq k).mp hk with rfl | hk
      · cases hE : E v.handles.length x.2 with
        | false => rfl
        | true => exact absurd ((j.known x m).2.2 _ hE) (Nat.lt_irrefl _)
      · exact j.fresh k hk x m
    · rw [List.mem_singleton.mp m]; exact c.sched _ _ _
  · exact order_log j.order (by simp)

theorem modify_get {l : List (Handle σ)} {i id : Nat} {f : Handle σ → Handle σ} {h : Handle σ} (e : (l.modify i f)[id]? = some h) :
    ∃ h0, l[id]? = some h0 ∧ h = if i = id then f h0 else h0 := by
  rw [List.getElem?_modify] at e
  obtain ⟨h0, h1, h2⟩ := Option.map_eq_some_iff.mp e
  exact ⟨h0, h1, h2.symm⟩

theorem get_modify {l : List (Handle σ)} (i : Nat) {id : Nat} (f : Handle σ → Handle σ) {h : Handle σ} (e : l[id]? = some h) :
    (l.modify i f)[id]? = some (if i = id then f h else h) := by
  rw [List.getElem?_modify, e]
  rfl

/-- Logging an entry about event `i` and changing its handle, but not its time. -/
theorem JV.change (j : JV E q v) {q' : List Key} {e : Entry} {i : Nat} {f : Handle σ → Handle σ} (ft : ∀ h, (f h).t = h.t)
    (sub : ∀ x ∈ q', x ∈ q)
    (rest : ∀ x ∈ q, x ∈ q' ∨ Hit E (v.log e) x.id ∨ Cancelled (v.log e) x.id)
    (hdead : ∀ h, v.handles[i]? = some h → (f h).sink = none → Hit E (v.log e) i ∨ Cancelled (v.log e) i)
    (hgone : ∀ h, v.handles[i]? = some h → h.sink = none ∨ e = .cancel i → (f h).sink = none)
    (hcan : ∀ id, e = .cancel id → id = i ∧ i < v.handles.length) (hs : ∀ id t, e ≠ .sched id t)
    (hrange : ∀ id, E id e = true → id < v.handles.length)
    (honce : ∀ id, E id e = true → ∀ x ∈ v.trace, E id x.2 = false)
    (hfresh : ∀ k ∈ q', E k.id e = false)
    (hord : ∀ id t, e = .fire id t → ¬ Cancelled v id) :
    JV E q' { v.log e with handles := v.handles.modify i f } := by
  have tt : ∀ (c : Prop) [Decidable c] (h : Handle σ), (if c then f h else h).t = h.t := by
    intro c _ h; split
    · exact ft h
    · rfl
  refine ⟨?_, ?_, ?_, ?_, ?_, ?_, ?_, ?_⟩
  · intro k hk
    obtain ⟨h, hh, e⟩ := j.timed k (sub k hk)
    exact ⟨_, get_modify i f hh, by rw [tt]; exact e⟩
  · intro id h hh
    obtain ⟨h0, e0, rfl⟩ := modify_get hh
    rw [tt]
    rcases j.kept id h0 e0 with a | a
    · rcases rest _ a with b | b
      · exact .inl b
      · exact .inr b
    · exact .inr (a.imp hit_mono cancelled_mono)
  · intro id h hh hn
    obtain ⟨h0, e0, rfl⟩ := modify_get hh
    by_cases c : i = id
    · subst c
      rw [if_pos rfl] at hn
      exact hdead h0 e0 hn
    · rw [if_neg c] at hn
      exact (j.dead id h0 e0 hn).imp hit_mono cancelled_mono
  · intro id hc h hh
    obtain ⟨h0, e0, rfl⟩ := modify_get hh
    rcases cancelled_of_log (v := v) (e := e) hc with c | c
    · by_cases ci : i = id
      · subst ci
        rw [if_pos rfl]
        exact hgone h0 e0 (.inl (j.gone i c h0 e0))
      · rw [if_neg ci]
        exact j.gone id c h0 e0
    · have := (hcan id c).1
      subst this
      rw [if_pos rfl]
      exact hgone h0 e0 (.inr c)
  · intro x hx
    simp only [List.length_modify]
    rcases List.mem_append.mp hx with m | m
    · obtain ⟨a, b, d⟩ := j.known x m
      refine ⟨fun id u e => ?_, b, d⟩
      obtain ⟨h, hh, e⟩ := a id u e
      exact ⟨_, get_modify i f hh, by rw [tt]; exact e⟩
    · rw [List.mem_singleton.mp m]
      exact ⟨fun id u e => absurd e (hs id u), fun id e => by obtain ⟨rfl, h⟩ := hcan id e; exact h, hrange⟩
  · exact count_log j.once honce
  · exact fresh_log (fun k hk => j.fresh k (sub k hk)) hfresh
  · refine List.pairwise_append.mpr ⟨j.order, List.pairwise_singleton _ _, ?_⟩
    intro a ha b hb id t e2 ea
    rw [List.mem_singleton.mp hb] at e2
    exact hord id t e2 ⟨a.1, by rw [← ea]; exact ha⟩

theorem JV.cancel (c : Counted E) (j : JV E q v) {i : Nat} (hi : i < v.handles.length) :
    JV E q { v.log (.cancel i) with handles := v.handles.modify i Handle.cancel } := by
  have ci : Cancelled (v.log (.cancel i)) i := ⟨v.now, List.mem_append_right _ (List.mem_singleton.mpr rfl)⟩
  refine j.change (fun _ => rfl) (fun _ h => h) (fun x h => .inl h) (fun _ _ _ => .inr ci) (fun _ _ _ => rfl) ?_ (by simp)
    (fun id e => by rw [c.cancel] at e; cases e) (fun id e => by rw [c.cancel] at e; cases e) (fun k _ => c.cancel _ _)
    (fun _ _ e => by cases e)
  intro id e
  cases e
  exact ⟨rfl, hi⟩

/-- The sink of `k` is called. -/
theorem JV.fireBegin (c : Counted E) (j : JV E q v) {q' : List Key} {k : Key} (hk : k ∈ q) {t : Int} {s : σ} {r : Bool}
    (hh : v.handles[k.id]? = some ⟨t, some s, r⟩) (sub : ∀ x ∈ q', x ∈ q) (rest : ∀ x ∈ q, x ≠ k → x ∈ q')
    (hf : ((∀ id, E id (.fire k.id k.t) = false) ∧ k ∈ q') ∨ (E k.id (.fire k.id k.t) = true ∧ k ∉ q')) :
    JV E q' { v.log (.fire k.id k.t) with handles := v.handles.modify k.id Handle.fireBegin } := by
  have hi := (List.getElem?_eq_some_iff.mp hh).1
  refine j.change (fun _ => rfl) sub ?_ (fun h e n => by rw [hh] at e; cases e; cases n) ?_ (fun _ e => by cases e) (by simp) ?_ ?_ ?_ ?_
  · intro x hx
    by_cases e : x = k
    · subst e
      rcases hf with ⟨_, hf⟩ | ⟨hf, _⟩
      · exact .inl hf
      · exact .inr (.inl (hit_log hf))
    · exact .inl (rest x hx e)
  · rintro h _ (e | e)
    · exact e
    · cases e
  · intro id e
    rw [c.fire _ _ _ e]; exact hi
  · intro id e x hx
    rw [c.fire _ _ _ e]; exact j.fresh k hk x hx
  · intro x hx
    rcases hf with ⟨hf, _⟩ | ⟨_, hf⟩
    · exact hf _
    · cases hE : E x.id (.fire k.id k.t) with
      | false => rfl
      | true =>
        have e := c.fire _ _ _ hE
        obtain ⟨h1, a1, b1⟩ := j.timed x (sub x hx)
        obtain ⟨h2, a2, b2⟩ := j.timed k hk
        rw [e, a2] at a1
        cases a1
        have : x = k := by cases x; cases k; simp_all
        exact absurd (this ▸ hx) hf
  · intro id t' e hc
    cases e
    have := j.gone _ hc _ hh
    cases this

/-- The sink of `k` has returned. -/
theorem JV.fireEnd (c : Counted E) (j : JV E q v) {q' : List Key} {k : Key} (hf : Hit E (v.log (.done k.id)) k.id) (hi : k.id < v.handles.length)
    (sub : ∀ x ∈ q', x ∈ q) (rest : ∀ x ∈ q, x ∈ q' ∨ Hit E (v.log (.done k.id)) x.id ∨ Cancelled v x.id) (hk : ∀ x ∈ q', x.id ≠ k.id)
    (ho : (∀ id, E id (.done k.id) = false) ∨ ∀ x ∈ v.trace, E k.id x.2 = false) :
    JV E q' { v.log (.done k.id) with handles := v.handles.modify k.id Handle.fireEnd } := by
  refine j.change (fun _ => rfl) sub (fun x hx => (rest x hx).imp_right (Or.imp_right cancelled_mono)) (fun _ _ _ => .inl hf)
    (fun _ _ _ => rfl) (fun _ e => by cases e) (by simp) ?_ ?_ ?_ (fun _ _ e => by cases e)
  · intro id e
    rw [c.done _ _ e]; exact hi
  · intro id e x hx
    rcases ho with ho | ho
    · rw [ho] at e; cases e
    · rw [c.done _ _ e]; exact ho x hx
  · intro x hx
    cases hE : E x.id (.done k.id) with
    | false => rfl
    | true => exact absurd (c.done _ _ hE) (hk x hx)

/-- Removing an event whose sink is gone. -/
theorem JV.drop (j : JV E q v) {q' : List Key} (sub : ∀ x ∈ q', x ∈ q) (rest : ∀ x ∈ q, x ∈ q' ∨ Hit E v x.id ∨ Cancelled v x.id) :
    JV E q' v :=
  ⟨fun k hk => j.timed k (sub k hk), fun id h hh => (j.kept id h hh).elim (fun a => rest _ a) .inr, j.dead, j.gone, j.known, j.once,
    fun k hk => j.fresh k (sub k hk), j.order⟩

/-! ### The schedulers -/

/-- What is used of a scheduler and of what is counted. -/
structure Sch (I : Impl (List Key)) (E : Nat → Entry → Bool) extends Valid I where
  counted : Counted E
  bound : ∀ c n, V c n → ∀ k ∈ c, k.id < n
  mem_ins : ∀ c n t, V c n → ∀ x, x ∈ I.insert ⟨t, n⟩ c ↔ x = ⟨t, n⟩ ∨ x ∈ c
  front_mem : ∀ c k, I.front c = some k → k ∈ c
  pre_sub : ∀ c x, x ∈ I.pre c → x ∈ c
  pre_rest : ∀ c n k, V c n → I.front c = some k → ∀ x ∈ c, x ≠ k → x ∈ I.pre c
  pre_gone : ∀ c n k, V c n → I.front c = some k →
    ((∀ id, E id (.fire k.id k.t) = false) ∧ k ∈ I.pre c) ∨ (E k.id (.fire k.id k.t) = true ∧ k ∉ I.pre c)
  post_sub : ∀ c k x, x ∈ I.post k c → x ∈ c
  removes : ∀ {σ : Type} (P : Prog σ) (w : World σ (List Key)) (k : Key), V w.queue w.view.handles.length →
    I.front w.queue = some k → k.t ≤ w.view.now → RemovesOnly w (w.fireAndRemove I P) k
  kind : ((∀ id i t, E id (.fire i t) = false) ∧ ∀ i, E i (.done i) = true) ∨
    ((∀ id i, E id (.done i) = false) ∧ ∀ i t, E i (.fire i t) = true)

variable {I : Impl (List Key)}

/-- The invariant. -/
def Sch.J (S : Sch I E) (w : World σ (List Key)) : Prop := S.V w.queue w.view.handles.length ∧ JV E w.queue w.view

theorem Sch.perform (S : Sch I E) (w : World σ (List Key)) (a : Action σ) (h : S.J w) : S.J (w.perform I a) := by
  refine ⟨valid_perform S.toValid w a h.1, ?_⟩
  have h1 : ∀ t s, JV E (w.orKeep (w.scheduleAt I t s)).queue (w.orKeep (w.scheduleAt I t s)).view := by
    intro t s
    rcases scheduleAt_cases I w t s with ⟨e, he⟩ | ⟨x, hc, hs, ht, he⟩
    · rw [he]; exact h.2
    · rw [he]
      exact h.2.sched S.counted x (S.mem_ins _ _ t h.1)
  cases a with
  | «at» t s => exact h1 t s
  | now s =>
    simp only [World.perform, World.scheduleNow]; split
    · exact h.2
    · exact h1 _ s
  | «in» dt s =>
    simp only [World.perform, World.scheduleIn]; split
    · exact h.2
    · exact h1 _ s
  | cancel id =>
    simp only [World.perform]; split
    · rename_i hi; exact h.2.cancel S.counted hi
    · exact h.2
  | pause =>
    have := (h.2.mark (e := .pauseReq) S.counted.pauseReq (by simp) (by simp) (by simp)).flags w.view.now w.view.started true
    exact this

theorem Sch.performs (S : Sch I E) (as : List (Action σ)) : ∀ w : World σ (List Key), S.J w → S.J (w.performs I as) := by
  induction as with
  | nil => intro w h; exact h
  | cons a as ih => intro w h; exact ih _ (S.perform w a h)

/-- The state when the sink has done its work. -/
theorem Sch.during (S : Sch I E) (P : TProg σ) {w : World σ (List Key)} {k : Key} (hk : I.front w.queue = some k) (h : S.J w)
    {t : Int} {s : σ} {r : Bool} (hh : w.view.handles[k.id]? = some ⟨t, some s, r⟩) (as : List (Action σ)) :
    S.J ((({ w with queue := I.pre w.queue } : World σ (List Key)).fireBegin k).performs I as) := by
  apply S.performs
  refine ⟨?_, ?_⟩
  · have := S.pre _ _ h.1
    simpa only [World.fireBegin, View.log, List.length_modify] using this
  · exact h.2.fireBegin S.counted (S.front_mem _ _ hk) hh (S.pre_sub _) (S.pre_rest _ _ k h.1 hk) (S.pre_gone _ _ k h.1 hk)

/-- The state that an exception leaves. -/
theorem thrown {I : Impl (List Key)} {P : TProg σ} {w : World σ (List Key)} {k : Key} (hk : I.front w.queue = some k)
    (h : (w.fireAndRemoveT I P).2 = true) :
    ∃ t s r, w.view.handles[k.id]? = some ⟨t, some s, r⟩ ∧
      P.throws s (({ w with queue := I.pre w.queue } : World σ (List Key)).fireBegin k).view = true ∧
      (w.fireAndRemoveT I P).1 = (({ w with queue := I.pre w.queue } : World σ (List Key)).fireBegin k).performs I
        (P.prog.sink s (({ w with queue := I.pre w.queue } : World σ (List Key)).fireBegin k).view) := by
  have F : w.fireAndRemoveT I P = match ({ w with queue := I.pre w.queue } : World σ (List Key)).fireT I P k with
    | (w2, true) => (w2, true)
    | (w2, false) => ({ w2 with queue := I.post k w2.queue }, false) := by
    simp only [World.fireAndRemoveT, hk]
    cases World.fireT I P k { w with queue := I.pre w.queue } with
    | mk a b => cases b <;> rfl
  rcases sink_cases w k with ⟨t, s, r, e⟩ | e
  · have e' : ({ w with queue := I.pre w.queue } : World σ (List Key)).view.handles[k.id]? = some ⟨t, some s, r⟩ := e
    rw [fireT_some I P e'] at F
    by_cases c : P.throws s (({ w with queue := I.pre w.queue } : World σ (List Key)).fireBegin k).view = true
    · rw [if_pos c] at F
      exact ⟨t, s, r, e, c, by rw [F]⟩
    · rw [if_neg c] at F
      rw [F] at h; cases h
  · rw [fireT_none I P (w := { w with queue := I.pre w.queue }) e] at F
    rw [F] at h; cases h

theorem key_ext {v : View σ} (j : JV E q v) {x k : Key} (hx : x ∈ q) (e : x.id = k.id) {h : Handle σ}
    (hh : v.handles[k.id]? = some h) (ht : h.t = k.t) : x = k := by
  obtain ⟨h1, a1, b1⟩ := j.timed x hx
  rw [e, hh] at a1
  cases a1
  cases x; cases k; simp_all

theorem Sch.next (S : Sch I E) (P : TProg σ) (w : World σ (List Key)) (k : Key) (hk : I.front w.queue = some k) (h0 : S.J w) :
    S.J ((w.setNow k.t).fireAndRemoveT I P).1 := by
  have h : S.J (w.setNow k.t) := ⟨h0.1, h0.2.flags _ _ _⟩
  have hkm : k ∈ w.queue := S.front_mem _ _ hk
  generalize hw : w.setNow k.t = w0 at h
  have hk0 : I.front w0.queue = some k := by rw [← hw]; exact hk
  have hn0 : k.t ≤ w0.view.now := by rw [← hw]; exact Int.le_refl _
  cases hthr : (w0.fireAndRemoveT I P).2 with
  | true =>
    obtain ⟨t, s, r, e, c, e2⟩ := thrown hk0 hthr
    rw [e2]
    exact S.during P hk0 h e _
  | false =>
    have R := S.removes P.prog w0 k h.1 hk0 hn0
    have V := valid_fireAndRemove S.toValid P.prog w0 h.1
    rw [fireAndRemoveT_calm I P w0 hthr]
    refine ⟨V, ?_⟩
    have hkq : k ∈ w0.queue := S.front_mem _ _ hk0
    obtain ⟨hd, hd1, hd2⟩ := h.2.timed k hkq
    rcases sink_cases w0 k with ⟨t, s, r, e⟩ | e
    · have e' : ({ w0 with queue := I.pre w0.queue } : World σ (List Key)).view.handles[k.id]? = some ⟨t, some s, r⟩ := e
      have F : w0.fireAndRemove I P.prog = { (((({ w0 with queue := I.pre w0.queue } : World σ (List Key)).fireBegin k).performs I
          (P.prog.sink s (({ w0 with queue := I.pre w0.queue } : World σ (List Key)).fireBegin k).view)).fireEnd k) with
          queue := I.post k ((({ w0 with queue := I.pre w0.queue } : World σ (List Key)).fireBegin k).performs I
          (P.prog.sink s (({ w0 with queue := I.pre w0.queue } : World σ (List Key)).fireBegin k).view)).queue } := by
        unfold World.fireAndRemove
        rw [hk0]
        simp only
        rw [fire_some I P.prog e']
        rfl
      have D := S.during P hk0 h e (P.prog.sink s (({ w0 with queue := I.pre w0.queue } : World σ (List Key)).fireBegin k).view)
      obtain ⟨l, hx, hq⟩ := ext_performs I (P.prog.sink s (({ w0 with queue := I.pre w0.queue } : World σ (List Key)).fireBegin k).view)
        (({ w0 with queue := I.pre w0.queue } : World σ (List Key)).fireBegin k)
      have hN := performs_new I (P.prog.sink s (({ w0 with queue := I.pre w0.queue } : World σ (List Key)).fireBegin k).view)
        (({ w0 with queue := I.pre w0.queue } : World σ (List Key)).fireBegin k)
      rw [F] at R ⊢
      generalize hw2 : (({ w0 with queue := I.pre w0.queue } : World σ (List Key)).fireBegin k).performs I
          (P.prog.sink s (({ w0 with queue := I.pre w0.queue } : World σ (List Key)).fireBegin k).view) = w2 at R D hx hN ⊢
      have htr : w2.view.trace = w0.view.trace ++ [(w0.view.now, .fire k.id k.t)] ++ l := hx.trace
      have hfk : Hit E (w2.view.log (.done k.id)) k.id := by
        rcases S.kind with ⟨_, f⟩ | ⟨_, f⟩
        · exact hit_log (f k.id)
        · exact hit_mono ⟨(w0.view.now, .fire k.id k.t), by rw [htr]; simp, f k.id k.t⟩
      obtain ⟨ks, hnew, hold⟩ := hN
      obtain ⟨h2, h2a, h2b⟩ := hold k.id _ (get_modify k.id Handle.fireBegin hd1)
      rw [if_pos rfl] at h2b
      have h2t : h2.t = k.t := by rw [h2b]; exact hd2
      have hi2 := (List.getElem?_eq_some_iff.mp h2a).1
      refine D.2.fireEnd S.counted hfk hi2 (S.post_sub _ _) ?_ ?_ ?_
      · intro x hxq
        by_cases exk : x = k
        · subst exk; exact .inr (.inl hfk)
        · obtain ⟨hh, a, b⟩ := D.2.timed x hxq
          by_cases lt : x.id < w0.view.handles.length
          · -- an old event: it was in the queue
            obtain ⟨y, hy⟩ : ∃ y, w0.view.handles[x.id]? = some y := ⟨_, List.getElem?_eq_getElem lt⟩
            have hy1 : (({ w0 with queue := I.pre w0.queue } : World σ (List Key)).fireBegin k).view.handles[x.id]? =
                some (if k.id = x.id then y.fireBegin else y) := get_modify k.id Handle.fireBegin hy
            obtain ⟨z, z1, z2⟩ := hold x.id _ hy1
            rw [a] at z1
            cases z1
            have ht : y.t = x.t := by
              rw [← b, z2]; split <;> rfl
            rcases h.2.kept x.id y hy with m | m | m
            · have : (⟨y.t, x.id⟩ : Key) = x := by rw [ht]
              rw [this] at m
              exact .inl (R.kept x m exk)
            · obtain ⟨y, m, ey⟩ := m
              exact .inr (.inl (hit_mono ⟨y, by rw [htr]; simp [m], ey⟩))
            · obtain ⟨n, m⟩ := m
              exact .inr (.inr ⟨n, by rw [htr]; simp [m]⟩)
          · have := R.added x.id (if k.id = x.id then hh.fireEnd else hh) (by omega) (get_modify k.id Handle.fireEnd a)
            have et : (if k.id = x.id then hh.fireEnd else hh).t = x.t := by
              split
              · exact b
              · exact b
            rw [et] at this
            exact .inl this
      · intro x hxq e
        have := key_ext D.2 (S.post_sub _ _ _ hxq) e h2a h2t
        exact R.gone (this ▸ hxq)
      · rcases S.kind with ⟨f, _⟩ | ⟨f, _⟩
        · right
          intro x hxm
          rw [htr] at hxm
          rcases List.mem_append.mp hxm with m | m
          · rcases List.mem_append.mp m with m | m
            · exact h.2.fresh k hkq x m
            · rw [List.mem_singleton.mp m]; exact f _ _ _
          · have qx := hq x m
            cases hx2 : x.2 <;> rw [hx2] at qx <;> try (cases qx)
            · exact S.counted.sched _ _ _
            · exact S.counted.cancel _ _
            · exact S.counted.pauseReq _
        · exact .inl fun id => f id k.id
    · have F : w0.fireAndRemove I P.prog = { w0 with queue := I.post k (I.pre w0.queue) } := by
        unfold World.fireAndRemove
        rw [hk0]
        simp only
        rw [fire_none I P.prog (w := { w0 with queue := I.pre w0.queue }) e]
      rw [F] at R ⊢
      refine h.2.drop (fun x hx => S.pre_sub _ _ (S.post_sub _ _ _ hx)) ?_
      intro x hx
      by_cases exk : x = k
      · subst exk
        right
        refine h.2.dead x.id hd hd1 ?_
        cases hs : hd.sink with
        | none => rfl
        | some s =>
          obtain ⟨a, b, c⟩ := hd
          simp only at hs
          subst hs
          exact absurd hd1 (e _ _ _)
      · exact .inl (R.kept x hx exk)

theorem Sch.keeps (S : Sch I E) (P : TProg σ) : Keeps I P (S.J (σ := σ)) where
  perf w a h := S.perform w a h
  flags w _ _ _ h := ⟨h.1, h.2.flags _ _ _⟩
  mark w e he h := by
    refine ⟨h.1, ?_⟩
    rcases he with rfl | rfl | rfl | rfl
    · exact h.2.mark S.counted.begin (by simp) (by simp) (by simp)
    · exact h.2.mark S.counted.run (by simp) (by simp) (by simp)
    · exact h.2.mark S.counted.pause (by simp) (by simp) (by simp)
    · exact h.2.mark S.counted.finish (by simp) (by simp) (by simp)
  next w k hk h := S.next P w k hk h

theorem Sch.reach (S : Sch I E) (P : TProg σ) (fuel : Nat) (os : List (Op σ)) :
    S.J (World.execsT I P fuel (World.init I) os).1 := by
  refine (S.keeps P).execs fuel os _ ⟨S.empty, ?_⟩
  have z : ∀ k, k ∉ I.empty := fun k hk => absurd (S.bound _ _ S.empty k hk) (Nat.not_lt_zero _)
  refine ⟨fun k hk => absurd hk (z k), ?_, ?_, ?_, ?_, ?_, fun k hk => absurd hk (z k), List.Pairwise.nil⟩
  · intro id h hh; simp [World.init] at hh
  · intro id h hh; simp [World.init] at hh
  · intro id _ h hh; simp [World.init] at hh
  · intro e he; simp [World.init] at he
  · intro id; simp [World.init]

/-! ### What a throwing sink leaves -/

theorem perform_queue (S : Sch I E) (w : World σ (List Key)) (a : Action σ) (h : S.J w) :
    (∀ x ∈ w.queue, x ∈ (w.perform I a).queue) ∧
    (∀ x ∈ (w.perform I a).queue, x ∈ w.queue ∨ (w.view.handles.length ≤ x.id ∧ w.view.now ≤ x.t)) ∧
    (w.perform I a).view.now = w.view.now ∧ w.view.handles.length ≤ (w.perform I a).view.handles.length ∧
    ∀ i hd, w.view.handles[i]? = some hd → ∃ hd', (w.perform I a).view.handles[i]? = some hd' ∧ hd'.running = hd.running ∧
      (hd'.sink = hd.sink ∨ Cancelled (w.perform I a).view i) := by
  have h1 : ∀ t s, (∀ x ∈ w.queue, x ∈ (w.orKeep (w.scheduleAt I t s)).queue) ∧
      (∀ x ∈ (w.orKeep (w.scheduleAt I t s)).queue, x ∈ w.queue ∨ (w.view.handles.length ≤ x.id ∧ w.view.now ≤ x.t)) ∧
      (w.orKeep (w.scheduleAt I t s)).view.now = w.view.now ∧
      w.view.handles.length ≤ (w.orKeep (w.scheduleAt I t s)).view.handles.length ∧
      ∀ i hd, w.view.handles[i]? = some hd → ∃ hd', (w.orKeep (w.scheduleAt I t s)).view.handles[i]? = some hd' ∧
        hd'.running = hd.running ∧ (hd'.sink = hd.sink ∨ Cancelled (w.orKeep (w.scheduleAt I t s)).view i) := by
    intro t s
    rcases scheduleAt_cases I w t s with ⟨e, he⟩ | ⟨x, hc, hs, ht, he⟩
    · rw [he]
      exact ⟨fun _ h => h, fun _ h => .inl h, rfl, Nat.le_refl _, fun i hd e => ⟨hd, e, rfl, .inl rfl⟩⟩
    · rw [he]
      have m := S.mem_ins _ _ t h.1
      refine ⟨fun y hy => (m y).mpr (.inr hy), ?_, rfl, by simp [World.orKeep], ?_⟩
      · intro y hy
        rcases (m y).mp hy with rfl | hy
        · exact .inr ⟨Nat.le_refl _, by simp only; omega⟩
        · exact .inl hy
      · intro i hd e
        refine ⟨hd, ?_, rfl, .inl rfl⟩
        simp only [World.orKeep]
        rw [List.getElem?_append_left (List.getElem?_eq_some_iff.mp e).1]; exact e
  have h0 : (∀ x ∈ w.queue, x ∈ w.queue) ∧
      (∀ x ∈ w.queue, x ∈ w.queue ∨ (w.view.handles.length ≤ x.id ∧ w.view.now ≤ x.t)) ∧
      w.view.now = w.view.now ∧ w.view.handles.length ≤ w.view.handles.length ∧
      ∀ (i : Nat) (hd : Handle σ), w.view.handles[i]? = some hd → ∃ hd', w.view.handles[i]? = some hd' ∧
        hd'.running = hd.running ∧ (hd'.sink = hd.sink ∨ Cancelled w.view i) :=
    ⟨fun _ h => h, fun _ h => .inl h, rfl, Nat.le_refl _, fun i hd e => ⟨hd, e, rfl, .inl rfl⟩⟩
  cases a with
  | «at» t s => exact h1 t s
  | now s =>
    simp only [World.perform, World.scheduleNow]; split
    · exact h0
    · exact h1 _ s
  | «in» dt s =>
    simp only [World.perform, World.scheduleIn]; split
    · exact h0
    · exact h1 _ s
  | cancel id =>
    simp only [World.perform]; split
    · refine ⟨fun _ h => h, fun _ h => .inl h, rfl, by simp, ?_⟩
      intro i hd e
      refine ⟨_, get_modify id Handle.cancel e, ?_, ?_⟩
      · split <;> rfl
      · by_cases c : id = i
        · subst c
          exact .inr ⟨w.view.now, List.mem_append_right _ (List.mem_singleton.mpr rfl)⟩
        · rw [if_neg c]; exact .inl rfl
    · exact h0
  | pause => exact ⟨fun _ h => h, fun _ h => .inl h, rfl, Nat.le_refl _, fun i hd e => ⟨hd, e, rfl, .inl rfl⟩⟩

theorem performs_queue (S : Sch I E) (as : List (Action σ)) : ∀ w : World σ (List Key), S.J w →
    (∀ x ∈ w.queue, x ∈ (w.performs I as).queue) ∧
    (∀ x ∈ (w.performs I as).queue, x ∈ w.queue ∨ (w.view.handles.length ≤ x.id ∧ w.view.now ≤ x.t)) ∧
    (w.performs I as).view.now = w.view.now ∧ w.view.handles.length ≤ (w.performs I as).view.handles.length ∧
    ∀ i hd, w.view.handles[i]? = some hd → ∃ hd', (w.performs I as).view.handles[i]? = some hd' ∧ hd'.running = hd.running ∧
      (hd'.sink = hd.sink ∨ Cancelled (w.performs I as).view i) := by
  induction as with
  | nil => intro w _; exact ⟨fun _ h => h, fun _ h => .inl h, rfl, Nat.le_refl _, fun i hd e => ⟨hd, e, rfl, .inl rfl⟩⟩
  | cons a as ih =>
    intro w h
    obtain ⟨a1, a2, a3, a4, a5⟩ := perform_queue S w a h
    obtain ⟨b1, b2, b3, b4, b5⟩ := ih _ (S.perform w a h)
    refine ⟨fun x hx => b1 x (a1 x hx), ?_, b3.trans a3, Nat.le_trans a4 b4, ?_⟩
    · intro x hx
      rcases b2 x hx with m | ⟨m1, m2⟩
      · exact a2 x m
      · exact .inr ⟨Nat.le_trans a4 m1, by rw [a3] at m2; exact m2⟩
    · intro i hd e
      obtain ⟨h1, e1, r1, s1⟩ := a5 i hd e
      obtain ⟨h2, e2, r2, s2⟩ := b5 i h1 e1
      refine ⟨h2, e2, r2.trans r1, ?_⟩
      rcases s2 with s2 | s2
      · rcases s1 with s1 | ⟨n, s1⟩
        · exact .inl (s2.trans s1)
        · obtain ⟨l, hl, _⟩ := ext_performs I as (w.perform I a)
          exact .inr ⟨n, by
            show _ ∈ ((w.perform I a).performs I as).view.trace
            rw [hl.trace]; exact List.mem_append_left _ s1⟩
      · exact .inr s2

/-- The handle of an event whose sink threw still says that it is running, unless it was cancelled. -/
theorem thrown_handle (S : Sch I E) (P : TProg σ) {w : World σ (List Key)} {k : Key} (hk : I.front w.queue = some k) (h : S.J w)
    (ht : (w.fireAndRemoveT I P).2 = true) :
    (w.fireAndRemoveT I P).1.view.now = w.view.now ∧
    ∃ hd, (w.fireAndRemoveT I P).1.view.handles[k.id]? = some hd ∧ hd.running = true ∧
      (hd.sink.isSome ∨ Cancelled (w.fireAndRemoveT I P).1.view k.id) := by
  obtain ⟨t, s, r, e, c, e2⟩ := thrown hk ht
  rw [e2]
  have h1 := S.during P hk h e []
  obtain ⟨b1, b2, b3, b4, b5⟩ := performs_queue S
    (P.prog.sink s (({ w with queue := I.pre w.queue } : World σ (List Key)).fireBegin k).view) _ h1
  obtain ⟨hd, x1, x2, x3⟩ := b5 k.id _ (get_modify k.id Handle.fireBegin e)
  rw [if_pos rfl] at x2 x3
  refine ⟨b3, hd, x1, x2, x3.imp_left fun x => by rw [x]; rfl⟩

end
end Verif.Sim
