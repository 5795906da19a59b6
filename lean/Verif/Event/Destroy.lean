import Verif.Event.Lemmas
/-!
Model of `nsfx::Event` whose sinks use it in their destructors.

`Disconnect()` lets go of a sink by `sinks_[cookie] = nullptr` (/repo/event/event.h 143-157), and
`Ptr::Reset()` calls `Release()` before it forgets the pointer (/repo/component/ptr.h 183-190,
524-528).  If that was the last `Ptr`, the destructor of the sink runs inside of `Disconnect()`: the
number of sinks is already smaller by one, the slot still has the pointer, and `last_` has not been
adapted.

Simplifications: destructors connect and disconnect; the exceptions of `Connect` are caught there (they
would end the program otherwise).  Firing the event or `GetSink()` of the slot in a destructor would use
the sink that is being destroyed and is not modelled.
-/
namespace Verif.Event
variable {σ : Type}

/-- What the destructors do, given the state of the event and the slots whose sinks are being destroyed.
(It is `[]` for a sink that somebody else holds.).
(They run in /repo/event/event.h 150 by way of /repo/component/ptr.h 183-190; the bodies are the client's.) -/
abbrev Destructors (σ : Type) := Table σ → List Nat → σ → List (Op σ)

/-- The outcome: the event, or a sink that is being destroyed has been released again.
(Releasing again: /repo/component/ptr.h 183-190.) -/
inductive DRes (τ : Type)
  | ok (t : τ)
  | dead
  | running
deriving DecidableEq

mutual
/-- `Disconnect()`; /repo/event/event.h 143-157; `dy` are the slots whose sinks are being destroyed. -/
def disc (cap : Nat) (D : Destructors σ) : Nat → List Nat → Table σ → Nat → DRes (Table σ)
  | 0, _, _, _ => .running
  | n + 1, dy, t, cookie =>
    let i := dec32 cookie
    if i < t.slots.length then
      match t.slots[i]? with
      | some (some s) =>
        if i ∈ dy then .dead
        else
          match acts cap D n (i :: dy) { t with num := t.num - 1 } (D t (i :: dy) s) with
          | .ok t' =>
            let slots := t'.slots.set i none
            .ok ⟨slots, t'.num, shrink slots t'.last⟩
          | .dead => .dead
          | .running => .running
      | _ => .ok t
    else .ok t

/-- What a destructor does, one operation after the other; /repo/event/event.h 125-198. -/
def acts (cap : Nat) (D : Destructors σ) : Nat → List Nat → Table σ → List (Op σ) → DRes (Table σ)
  | 0, _, _, _ => .running
  | _ + 1, _, t, [] => .ok t
  | n + 1, dy, t, .connect s :: r =>
    match t.connect cap s with
    | .ok x => acts cap D n dy x.2 r
    | .error _ => acts cap D n dy t r
  | n + 1, dy, t, .disconnect c :: r =>
    match disc cap D n dy t c with
    | .ok t' => acts cap D n dy t' r
    | .dead => .dead
    | .running => .running
end

/-- What the destructor of the only sink of an `Event<..., 1>` does; /repo/event/event.h 327-347: `sink_`
still has the pointer. -/
def One.acts (t : One σ) : List (Op σ) → DRes (One σ)
  | [] => .ok t
  | .connect s :: r =>
    match t.connect s with
    | .ok x => One.acts x.2 r
    | .error _ => t.acts r
  | .disconnect c :: r => if c = 1 ∧ t.sink.isSome then .dead else t.acts r

/-- `Event<..., 1>::Disconnect()`; /repo/event/event.h 341-347. -/
def One.disc (D : σ → List (Op σ)) (t : One σ) (cookie : Nat) : DRes (One σ) :=
  if cookie = 1 then
    match t.sink with
    | none => .ok t
    | some s =>
      match t.acts (D s) with
      | .ok _ => .ok ⟨none⟩
      | .dead => .dead
      | .running => .running
  else .ok t

/-! ## Lemmas -/

/-- The table as it would be if the sinks that are being destroyed still counted.  (Specification; no code.) -/
def Table.up (dy : List Nat) (t : Table σ) : Table σ := { t with num := t.num + dy.length }

/-- Helper invariant (no code): the table inside of `Disconnect()`, while the sinks `dy` are being destroyed. -/
structure Mid (cap : Nat) (dy : List Nat) (t : Table σ) : Prop where
  wf : WF cap (t.up dy)
  nodup : dy.Nodup
  live : ∀ i ∈ dy, (t.sl i).isSome

theorem up_sl (dy : List Nat) (t : Table σ) (i : Nat) : (t.up dy).sl i = t.sl i := rfl

theorem live_length {cap : Nat} {t : Table σ} (w : WF cap t) {l : List Nat} (hn : l.Nodup)
    (hl : ∀ i ∈ l, (t.sl i).isSome) : l.length ≤ t.num := by
  rw [← liveFrom_length w]
  have h1 : (l.map (· + 1)).Nodup := by
    rw [List.nodup_iff_pairwise_ne] at *
    rw [List.pairwise_map]
    exact hn.imp (fun h e => h (by omega))
  have h2 : l.map (· + 1) ⊆ liveFrom t 0 cap := by
    intro c hc
    obtain ⟨i, hi, rfl⟩ := List.mem_map.1 hc
    have := hl i hi
    have h3 := sl_lt this
    have h4 := w.size
    rw [liveFrom, List.mem_filter, List.mem_range'_1]
    exact ⟨by omega, by simpa using this⟩
  have := (List.nodup_iff_pairwise_ne.1 h1)
  simpa using h1.length_le_of_subset h2

theorem insert_free {t : Table σ} (s : σ) (h : t.num < t.slots.length) {i : Nat} (hf : findFree t.slots 0 = some i) :
    t.insert s = (i + 1, ⟨t.slots.set i (some s), t.num + 1, max t.last (i + 1)⟩) := by
  simp only [Table.insert, h, if_true, hf]

theorem insert_none {t : Table σ} (s : σ) (h : t.num < t.slots.length) (hf : findFree t.slots 0 = none) :
    t.insert s = (0, t) := by
  simp only [Table.insert, h, if_true, hf]

theorem mid_num {cap : Nat} {dy : List Nat} {t : Table σ} (h : Mid cap dy t) :
    t.num + dy.length ≤ t.slots.length ∧ t.slots.length ≤ cap := by
  refine ⟨?_, h.wf.size⟩
  have := h.wf.num
  simp only [Table.up] at this
  rw [this]; exact List.countP_le_length

/-- `Connect` in a destructor that succeeds. -/
theorem connect_mid {cap : Nat} {dy : List Nat} (hd : dy ≠ []) {t : Table σ} (h : Mid cap dy t) (s : Option σ)
    {x : Nat × Table σ} (hc : t.connect cap s = .ok x) :
    x.2.up dy = (t.up dy).apply cap (.connect s) := by
  cases s with
  | none => simp [Table.connect] at hc
  | some s =>
    have hpos : 0 < dy.length := List.length_pos_iff.2 hd
    obtain ⟨hnum, hsz⟩ := mid_num h
    simp only [Table.connect] at hc
    rw [if_neg (by omega)] at hc
    cases hf : findFree t.slots 0 with
    | none => rw [insert_none s (by omega) hf] at hc; simp at hc
    | some i =>
      rw [insert_free s (by omega) hf] at hc
      simp only [Nat.add_eq_zero_iff, Nat.one_ne_zero, and_false, if_false, Except.ok.injEq] at hc
      subst hc
      have hfree := (findFree_spec t.slots 0).1 i hf
      have hlt : t.num + dy.length < t.slots.length := by
        have h1 := h.wf.num
        simp only [Table.up] at h1
        refine Nat.lt_of_le_of_ne hnum ?_
        intro e
        rw [h1] at e
        have := List.countP_eq_length.1 e none (List.mem_of_getElem? hfree.2)
        simp at this
      have e := insert_free (t := t.up dy) s hlt hf
      simp only [Table.apply, Table.connect]
      rw [if_neg (by simp only [Table.up]; omega), e]
      simp [Table.up, Nat.add_right_comm]

/-- `Connect` in a destructor fails exactly if there is no unused slot. -/
theorem connect_mid_fails {cap : Nat} {dy : List Nat} (hd : dy ≠ []) {t : Table σ} (h : Mid cap dy t) (s : σ) :
    t.connect cap (some s) = .error .connectionLimit ↔ ∀ i < t.slots.length, (t.sl i).isSome := by
  have hpos : 0 < dy.length := List.length_pos_iff.2 hd
  obtain ⟨hnum, hsz⟩ := mid_num h
  simp only [Table.connect]
  rw [if_neg (by omega)]
  cases hf : findFree t.slots 0 with
  | none =>
    rw [insert_none s (by omega) hf]
    have := (findFree_spec t.slots 0).2 hf
    rw [List.countP_eq_length] at this
    simp only [if_true, true_iff]
    intro i hi
    have := this t.slots[i] (List.getElem_mem hi)
    rw [Table.sl, List.getElem?_eq_getElem hi]
    simpa using this
  | some i =>
    rw [insert_free s (by omega) hf]
    have hfree := (findFree_spec t.slots 0).1 i hf
    simp only [Nat.sub_zero] at hfree
    simp only [Nat.add_eq_zero_iff, Nat.one_ne_zero, and_false, if_false, reduceCtorEq, false_iff]
    intro hall
    have := hall i (by have := hfree.2; rw [List.getElem?_eq_some_iff] at this; exact this.1)
    rw [Table.sl, hfree.2] at this
    simp at this

/-- The operations of the destructors that count.  (Specification; no code.) -/
structure Run (cap : Nat) (D : Destructors σ) (own : List (Op σ)) (dy : List Nat) (t t' : Table σ) (ops : List (Op σ)) : Prop where
  mid : Mid cap dy t'
  run : t'.up dy = (t.up dy).run cap ops
  from' : ∀ o ∈ ops, o ∈ own ∨ ∃ u dy' s, o ∈ D u dy' s
  keep : ∀ i ∈ dy, ∀ c, Op.disconnect c ∈ ops → dec32 c ≠ i

theorem keep_live {cap : Nat} (hcap : cap < 2 ^ 32) {dy : List Nat} {t t' : Table σ} {ops : List (Op σ)} (h : Mid cap dy t)
    (hr : t'.up dy = (t.up dy).run cap ops) (hk : ∀ i ∈ dy, ∀ c, Op.disconnect c ∈ ops → dec32 c ≠ i) :
    ∀ i ∈ dy, t'.sl i = t.sl i := by
  intro i hi
  obtain ⟨x, hx⟩ := Option.isSome_iff_exists.1 (h.live i hi)
  have := run_keep (ops := ops) h.wf hcap (j := i) (x := x) hx
    (fun hm => hk i hi _ hm (by simp [dec32]))
  rw [← hr] at this
  rw [hx]; exact this

theorem destroy_spec {cap : Nat} (hcap : cap < 2 ^ 32) (D : Destructors σ) (n : Nat) :
    (∀ dy t c t', Mid cap dy t → disc cap D n dy t c = .ok t' → ∃ ops,
      Run cap D [.disconnect c] dy t t' ops ∧
      ∃ ops', ops = ops' ++ [.disconnect c] ∧ ∀ o ∈ ops', ∃ u dy' s, o ∈ D u dy' s) ∧
    (∀ dy t os t', dy ≠ [] → Mid cap dy t → acts cap D n dy t os = .ok t' → ∃ ops, Run cap D os dy t t' ops) := by
  induction n with
  | zero => exact ⟨fun _ _ _ _ _ h => by simp [disc] at h, fun _ _ _ _ _ _ h => by simp [acts] at h⟩
  | succ n ih =>
    obtain ⟨ihD, ihA⟩ := ih
    constructor
    · intro dy t c t' hm h
      rw [disc] at h
      dsimp only at h
      have noop : (t.up dy).disconnect c = t.up dy → (∀ i ∈ dy, dec32 c ≠ i) → t = t' →
          ∃ ops, Run cap D [.disconnect c] dy t t' ops ∧
          ∃ ops', ops = ops' ++ [.disconnect c] ∧ ∀ o ∈ ops', ∃ u dy' s, o ∈ D u dy' s := by
        rintro e hk rfl
        refine ⟨[.disconnect c], ⟨hm, e.symm, fun o ho => .inl ho, ?_⟩, [], rfl, by simp⟩
        intro i hi c' hc'
        rw [List.mem_singleton] at hc'
        cases hc'
        exact hk i hi
      by_cases hlt : dec32 c < t.slots.length
      · rw [if_pos hlt] at h
        rcases hq : t.slots[dec32 c]? with _ | _ | s
        · rw [List.getElem?_eq_none_iff] at hq; omega
        · rw [hq] at h
          refine noop ?_ ?_ (by cases h; rfl)
          · simp only [Table.disconnect, Table.up, hlt, if_true, hq]
          · rintro i hi rfl
            have := hm.live _ hi
            simp [Table.sl, hq] at this
        · rw [hq] at h
          dsimp only at h
          by_cases hdy : dec32 c ∈ dy
          · rw [if_pos hdy] at h; cases h
          · rw [if_neg hdy] at h
            have hlive : (t.sl (dec32 c)).isSome := by simp [Table.sl, hq]
            have hnd : (dec32 c :: dy).Nodup := List.nodup_cons.2 ⟨hdy, hm.nodup⟩
            have hall : ∀ i ∈ dec32 c :: dy, (t.sl i).isSome := by
              intro i hi
              rcases List.mem_cons.1 hi with rfl | hi
              · exact hlive
              · exact hm.live i hi
            have hnum := live_length hm.wf hnd hall
            simp only [Table.up, List.length_cons] at hnum
            have hup : Table.up (dec32 c :: dy) { t with num := t.num - 1 } = t.up dy := by
              simp only [Table.up, List.length_cons, Table.mk.injEq, true_and, and_true]; omega
            have hm' : Mid cap (dec32 c :: dy) { t with num := t.num - 1 } := ⟨by rw [hup]; exact hm.wf, hnd, hall⟩
            cases ha : acts cap D n (dec32 c :: dy) { t with num := t.num - 1 } (D t (dec32 c :: dy) s) with
            | dead => rw [ha] at h; cases h
            | running => rw [ha] at h; cases h
            | ok t1 =>
              rw [ha] at h
              dsimp only at h
              cases h
              obtain ⟨ops, R⟩ := ihA _ _ _ _ (by simp) hm' ha
              have hk := keep_live hcap hm' R.run R.keep
              have hsl : t1.slots[dec32 c]? = some (some s) := by
                apply slots_of_sl
                rw [hk _ List.mem_cons_self]
                simp [Table.sl, hq]
              have hl1 : dec32 c < t1.slots.length := by
                rw [List.getElem?_eq_some_iff] at hsl; exact hsl.1
              have e : (t1.up (dec32 c :: dy)).disconnect c =
                  Table.up dy ⟨t1.slots.set (dec32 c) none, t1.num, shrink (t1.slots.set (dec32 c) none) t1.last⟩ := by
                simp only [Table.disconnect, Table.up, hl1, if_true, hsl, List.length_cons, Table.mk.injEq, true_and, and_true]
                omega
              have erun : Table.up dy ⟨t1.slots.set (dec32 c) none, t1.num, shrink (t1.slots.set (dec32 c) none) t1.last⟩ =
                  (t.up dy).run cap (ops ++ [.disconnect c]) := by
                rw [← e, R.run, hup]; simp [Table.run, Table.apply]
              have hkeep : ∀ i ∈ dy, ∀ c', Op.disconnect c' ∈ ops ++ [.disconnect c] → dec32 c' ≠ i := by
                intro i hi c' hc'
                rcases List.mem_append.1 hc' with hc' | hc'
                · exact R.keep i (List.mem_cons_of_mem _ hi) c' hc'
                · rw [List.mem_singleton] at hc'
                  cases hc'
                  rintro rfl; exact hdy hi
              have hfrom : ∀ o ∈ ops, ∃ u dy' s, o ∈ D u dy' s := by
                intro o ho
                rcases R.from' o ho with h | h
                · exact ⟨_, _, _, h⟩
                · exact h
              refine ⟨ops ++ [.disconnect c], ⟨⟨?_, hm.nodup, ?_⟩, erun, ?_, hkeep⟩, ops, rfl, hfrom⟩
              · rw [erun]; exact run_wf hm.wf hcap _
              · intro i hi
                have := keep_live hcap hm erun hkeep i hi
                rw [this]; exact hm.live i hi
              · intro o ho
                rcases List.mem_append.1 ho with ho | ho
                · exact .inr (hfrom o ho)
                · exact .inl ho
      · rw [if_neg hlt] at h
        refine noop ?_ ?_ (by cases h; rfl)
        · simp only [Table.disconnect, Table.up, hlt, if_false]
        · rintro i hi rfl
          exact hlt (sl_lt (hm.live _ hi))
    · intro dy t os t' hne hm h
      cases os with
      | nil =>
        rw [acts] at h
        cases h
        exact ⟨[], hm, rfl, by simp, by simp⟩
      | cons o r =>
        cases o with
        | connect s =>
          rw [acts] at h
          cases hc : t.connect cap s with
          | error e =>
            rw [hc] at h
            obtain ⟨ops, R⟩ := ihA dy t r t' hne hm h
            exact ⟨ops, R.mid, R.run, fun o ho => (R.from' o ho).imp_left (List.mem_cons_of_mem _), R.keep⟩
          | ok x =>
            rw [hc] at h
            dsimp only at h
            have e := connect_mid hne hm s hc
            have hm' : Mid cap dy x.2 := by
              refine ⟨by rw [e]; exact apply_wf hm.wf hcap _, hm.nodup, ?_⟩
              intro i hi
              have := keep_live (t' := x.2) (ops := [.connect s]) hcap hm e (by simp) i hi
              rw [this]; exact hm.live i hi
            obtain ⟨ops, R⟩ := ihA dy x.2 r t' hne hm' h
            refine ⟨.connect s :: ops, R.mid, by rw [R.run, e]; rfl, ?_, ?_⟩
            · intro o ho
              rcases List.mem_cons.1 ho with rfl | ho
              · exact .inl List.mem_cons_self
              · exact (R.from' o ho).imp_left (List.mem_cons_of_mem _)
            · intro i hi c hc'
              rcases List.mem_cons.1 hc' with h | h
              · cases h
              · exact R.keep i hi c h
        | disconnect c =>
          rw [acts] at h
          cases hc : disc cap D n dy t c with
          | dead => rw [hc] at h; cases h
          | running => rw [hc] at h; cases h
          | ok t1 =>
            rw [hc] at h
            dsimp only at h
            obtain ⟨ops1, R1, -⟩ := ihD dy t c t1 hm hc
            obtain ⟨ops2, R2⟩ := ihA dy t1 r t' hne R1.mid h
            refine ⟨ops1 ++ ops2, R2.mid, by rw [R2.run, R1.run]; simp [Table.run], ?_, ?_⟩
            · intro o ho
              rcases List.mem_append.1 ho with ho | ho
              · refine (R1.from' o ho).imp_left (fun h => ?_)
                rw [List.mem_singleton] at h; rw [h]; exact List.mem_cons_self
              · exact (R2.from' o ho).imp_left (List.mem_cons_of_mem _)
            · intro i hi c hc'
              rcases List.mem_append.1 hc' with h | h
              · exact R1.keep i hi c h
              · exact R2.keep i hi c h
theorem destroy_alive {cap : Nat} (D : Destructors σ)
    (hD : ∀ t dy s c, Op.disconnect c ∈ D t dy s → dec32 c ∉ dy) (n : Nat) :
    (∀ dy t c, dec32 c ∉ dy → disc cap D n dy t c ≠ .dead) ∧
    (∀ dy t os, (∀ c, Op.disconnect c ∈ os → dec32 c ∉ dy) → acts cap D n dy t os ≠ .dead) := by
  induction n with
  | zero => exact ⟨fun _ _ _ _ => by simp [disc], fun _ _ _ _ => by simp [acts]⟩
  | succ n ih =>
    obtain ⟨ihD, ihA⟩ := ih
    constructor
    · intro dy t c hc
      rw [disc]
      dsimp only
      split
      · rcases hq : t.slots[dec32 c]? with _ | _ | s
        · simp
        · simp
        · dsimp only
          have := ihA (dec32 c :: dy) { t with num := t.num - 1 } (D t (dec32 c :: dy) s) (fun c' => hD _ _ _ c')
          cases ha : acts cap D n (dec32 c :: dy) { t with num := t.num - 1 } (D t (dec32 c :: dy) s) with
          | dead => exact absurd ha this
          | running => simp
          | ok t1 => simp
      · simp
    · intro dy t os hos
      cases os with
      | nil => simp [acts]
      | cons o r =>
        cases o with
        | connect s =>
          rw [acts]
          cases t.connect cap s with
          | ok x => exact ihA _ _ _ (fun c h => hos c (List.mem_cons_of_mem _ h))
          | error e => exact ihA _ _ _ (fun c h => hos c (List.mem_cons_of_mem _ h))
        | disconnect c =>
          rw [acts]
          cases hc : disc cap D n dy t c with
          | dead => exact absurd hc (ihD _ _ _ (hos c List.mem_cons_self))
          | running => simp
          | ok t1 => exact ihA _ _ _ (fun c h => hos c (List.mem_cons_of_mem _ h))

end Verif.Event
