import Verif.Event.Throw
set_option linter.unusedSimpArgs false
/-! Lemmas for C144. -/
namespace Verif.Event
variable {σ : Type} {args : Bool} {cap : Nat} {P : Sinks σ} {safe : Nat → Prop}

theorem callsAt_append (d : Nat) (a b : List Ev) : callsAt d (a ++ b) = callsAt d a ++ callsAt d b := by
  simp [callsAt]

theorem callsAt_deep {d : Nat} {a : List Ev} (h : ∀ e ∈ a, d < e.depth) : callsAt d a = [] := by
  rw [callsAt, List.filterMap_eq_nil_iff]
  intro e he
  cases e with
  | call d' c => have := h _ he; simp only [Ev.depth] at this; simp; omega
  | ret _ _ _ => rfl

/-- What is true of the end of a sink. -/
def ScriptSpec (cap : Nat) (safe : Nat → Prop) (d : Nat) (tr : List Ev) (t : Table σ) : Res σ → Prop
  | .ended _ tr' t' => ∃ new, tr' = tr ++ new ∧ Moves cap safe t t' ∧ ∀ e ∈ new, d < e.depth
  | _ => True

/-- What is true of the end of `Fire`, from index `i` on. -/
def FireSpec (cap : Nat) (safe : Nat → Prop) (d i : Nat) (tr : List Ev) (t : Table σ) : Res σ → Prop
  | .ended b tr' t' => ∃ new, tr' = tr ++ new ∧ Moves cap safe t t' ∧ (∀ e ∈ new, d ≤ e.depth) ∧
      (callsAt d new).Pairwise (· < ·) ∧ (∀ c ∈ callsAt d new, i < c ∧ c ≤ cap) ∧
      (b = false → ∀ j x, i ≤ j → t.sl j = some x → safe (j + 1) → j + 1 ∈ callsAt d new) ∧
      (b = true → ∃ pre c, callsAt d new = pre ++ [c] ∧ new.getLast? = some (.ret d c true) ∧
        ∀ j x, i ≤ j → j + 1 < c → t.sl j = some x → safe (j + 1) → j + 1 ∈ callsAt d new) ∧
      (∀ c, Ev.ret d c true ∈ new → b = true)
  | _ => True

theorem next_call {i : Nat} {t : Table σ} {s : σ} (h : t.next args i = .call s) :
    t.slots[i]? = some (some s) ∧ i < t.slots.length := by
  have : t.slots[i]? = some (some s) := by
    simp only [Table.next] at h
    (repeat' split at h) <;> simp_all
  exact ⟨this, by rw [List.getElem?_eq_some_iff] at this; exact this.1⟩

theorem next_skip {i : Nat} {t : Table σ} (h : t.next args i = .skip) : t.sl i = none := by
  have : t.slots[i]? = some none := by
    simp only [Table.next] at h
    (repeat' split at h) <;> simp_all
  simp [Table.sl, this]

theorem next_stop {i : Nat} {t : Table σ} (h : t.next args i = .stop) : t.last ≤ i := by
  simp only [Table.next] at h
  (repeat' split at h) <;> first | omega | simp_all

theorem next_callLast {i : Nat} {t : Table σ} {s : σ} (w : WF cap t) (h : t.next args i = .callLast s) :
    t.slots[i]? = some (some s) ∧ i < t.slots.length ∧ t.last = i + 1 := by
  have h1 : t.slots[i]? = some (some s) ∧ ¬ i < dec32 t.last := by
    simp only [Table.next] at h
    (repeat' split at h) <;> simp_all
  have h2 : i < t.slots.length := by
    have := h1.1; rw [List.getElem?_eq_some_iff] at this; exact this.1
  refine ⟨h1.1, h2, ?_⟩
  have := w.lt_last (i := i) (by simp [Table.sl, h1.1])
  have h3 := h1.2
  rw [dec32, if_neg (by omega)] at h3
  omega

theorem fire_call {d i : Nat} {tr : List Ev} {t : Table σ} {s : σ} {b : Bool} {new : List Ev} {t' : Table σ}
    (hs : t.slots[i]? = some (some s)) (w : WF cap t)
    (hm : Moves cap safe t t') (hd : ∀ e ∈ new, d < e.depth)
    (hlast : b = true ∨ t.last = i + 1) :
    FireSpec cap safe d i tr t (.ended b ((tr ++ [.call d (i + 1)]) ++ new ++ [.ret d (i + 1) b]) t') := by
  have hlt : i < t.slots.length := by rw [List.getElem?_eq_some_iff] at hs; exact hs.1
  have hsz := w.size
  have hc : callsAt d ([.call d (i + 1)] ++ new ++ [.ret d (i + 1) b]) = [i + 1] := by
    rw [callsAt_append, callsAt_append, callsAt_deep hd]; simp [callsAt]
  refine ⟨[.call d (i + 1)] ++ new ++ [.ret d (i + 1) b], by simp, hm, ?_, ?_, ?_, ?_, ?_, ?_⟩
  · intro e he
    simp only [List.mem_append, List.mem_singleton] at he
    rcases he with (rfl | he) | rfl
    · exact Nat.le_refl _
    · exact Nat.le_of_lt (hd e he)
    · exact Nat.le_refl _
  · rw [hc]; simp
  · rw [hc]; intro c hc'; simp only [List.mem_singleton] at hc'; omega
  · intro hb j x hj hx _
    rw [hc]
    have := w.lt_last (i := j) (by simp [hx])
    rcases hlast with h | h
    · simp [h] at hb
    · simp only [List.mem_singleton]; omega
  · intro hb
    subst hb
    exact ⟨[], i + 1, by rw [hc]; rfl, List.getLast?_concat, fun j x hj hj' => by omega⟩
  · intro c hm'
    simp only [List.mem_append, List.mem_singleton, reduceCtorEq, false_or, Ev.ret.injEq] at hm'
    rcases hm' with h | h
    · have := hd _ h; simp [Ev.depth] at this
    · exact h.2.2.symm

theorem fire_more {d i : Nat} {tr : List Ev} {t : Table σ} {s : σ} {new : List Ev} {t1 : Table σ} {r : Res σ}
    (hcap : cap < 2 ^ 32) (hs : t.slots[i]? = some (some s)) (w : WF cap t)
    (hm : Moves cap safe t t1) (hd : ∀ e ∈ new, d < e.depth)
    (h : FireSpec cap safe d (i + 1) ((tr ++ [.call d (i + 1)]) ++ new ++ [.ret d (i + 1) false]) t1 r) :
    FireSpec cap safe d i tr t r := by
  cases r with
  | fault => trivial
  | running => trivial
  | ended b tr' t' =>
    have hlt : i < t.slots.length := by rw [List.getElem?_eq_some_iff] at hs; exact hs.1
    have hsz := w.size
    obtain ⟨new', e1, m1, d1, p1, r1, f1, t1', x1⟩ := h
    have hc : callsAt d ([.call d (i + 1)] ++ new ++ [.ret d (i + 1) false] ++ new') = (i + 1) :: callsAt d new' := by
      rw [callsAt_append, callsAt_append, callsAt_append, callsAt_deep hd]; simp [callsAt]
    refine ⟨[.call d (i + 1)] ++ new ++ [.ret d (i + 1) false] ++ new', by simp [e1], hm.trans m1, ?_, ?_, ?_, ?_, ?_, ?_⟩
    · intro e he
      simp only [List.mem_append, List.mem_singleton] at he
      rcases he with ((rfl | he) | rfl) | he
      · exact Nat.le_refl _
      · exact Nat.le_of_lt (hd e he)
      · exact Nat.le_refl _
      · exact d1 e he
    · rw [hc, List.pairwise_cons]
      exact ⟨fun c hc' => (r1 c hc').1, p1⟩
    · rw [hc]; intro c hc'
      rcases List.mem_cons.1 hc' with rfl | hc'
      · omega
      · have := r1 c hc'; omega
    · intro hb j x hj hx hsafe
      rw [hc]
      by_cases e : j = i
      · subst e; exact List.mem_cons_self
      · exact List.mem_cons_of_mem _ (f1 hb j x (by omega) (hm.keep hcap w hx hsafe) hsafe)
    · intro hb
      obtain ⟨pre, c, e, hl, hall⟩ := t1' hb
      refine ⟨(i + 1) :: pre, c, by rw [hc, e]; rfl, ?_, ?_⟩
      · rw [List.getLast?_append, hl]; rfl
      · intro j x hj hjc hx hsafe
        rw [hc]
        by_cases e : j = i
        · subst e; exact List.mem_cons_self
        · exact List.mem_cons_of_mem _ (hall j x (by omega) hjc (hm.keep hcap w hx hsafe) hsafe)
    · intro c hm'
      simp only [List.mem_append, List.mem_singleton, reduceCtorEq, false_or, Ev.ret.injEq, Bool.true_eq_false,
        and_false, or_false] at hm'
      rcases hm' with h | h
      · have := hd _ h; simp [Ev.depth] at this
      · exact x1 c h

theorem spec (hcap : cap < 2 ^ 32) (hP : ∀ c, safe c → ∀ tr s, (P tr s).Spares c) (n : Nat) :
    (∀ d sc tr t, WF cap t → (∀ c, safe c → sc.Spares c) →
      ScriptSpec cap safe d tr t (runScript args cap P n d sc tr t)) ∧
    (∀ d i tr t, WF cap t → FireSpec cap safe d i tr t (fireLoop args cap P n d i tr t)) := by
  induction n with
  | zero => exact ⟨fun _ _ _ _ _ _ => by simp [runScript, ScriptSpec], fun _ _ _ _ _ => by simp [fireLoop, FireSpec]⟩
  | succ n ih =>
    obtain ⟨ihS, ihF⟩ := ih
    constructor
    · intro d sc tr t w hsc
      cases sc with
      | ret => rw [runScript]; exact ⟨[], by simp, .refl t, by simp⟩
      | throw => rw [runScript]; exact ⟨[], by simp, .refl t, by simp⟩
      | connect s mem k =>
        rw [runScript]
        cases hc : t.connectM cap s mem with
        | error e => exact ihS d _ tr t w (fun c h => hsc c h _)
        | ok r =>
          have hm : Moves cap safe t r.2 := by
            rw [connectM_apply hc]; exact .one _ (by simp)
          have := ihS d (k (.ok r.1)) tr r.2 (hm.wf hcap w) (fun c h => hsc c h _)
          dsimp only
          cases hr : runScript args cap P n d (k (.ok r.1)) tr r.2 with
          | fault => trivial
          | running => trivial
          | ended b tr' t' =>
            rw [hr] at this
            obtain ⟨new, e, m, dd⟩ := this
            exact ⟨new, e, hm.trans m, dd⟩
      | disconnect c k =>
        rw [runScript]
        have hm : Moves cap safe t (t.disconnect c) :=
          .one (.disconnect c) (fun c' h e => (hsc c' h).1 (by injection e with e; exact e.symm))
        have := ihS d k tr _ (hm.wf hcap w) (fun c h => (hsc c h).2)
        cases hr : runScript args cap P n d k tr (t.disconnect c) with
        | fault => trivial
        | running => trivial
        | ended b tr' t' =>
          rw [hr] at this
          obtain ⟨new, e, m, dd⟩ := this
          exact ⟨new, e, hm.trans m, dd⟩
      | fire k =>
        rw [runScript]
        have h1 := ihF (d + 1) 0 tr t w
        cases hf : fireLoop args cap P n (d + 1) 0 tr t with
        | fault => trivial
        | running => trivial
        | ended b tr1 t1 =>
          rw [hf] at h1
          obtain ⟨new1, e1, m1, d1, -⟩ := h1
          dsimp only
          have := ihS d (k b) tr1 t1 (m1.wf hcap w) (fun c h => hsc c h _)
          cases hr : runScript args cap P n d (k b) tr1 t1 with
          | fault => trivial
          | running => trivial
          | ended b' tr' t' =>
            rw [hr] at this
            obtain ⟨new, e, m, dd⟩ := this
            refine ⟨new1 ++ new, by rw [e, e1, List.append_assoc], m1.trans m, ?_⟩
            intro x hx
            rcases List.mem_append.1 hx with hx | hx
            · exact d1 x hx
            · exact dd x hx
    · intro d i tr t w
      rw [fireLoop]
      cases hn : t.next args i with
      | stop =>
        have := next_stop hn
        refine ⟨[], by simp, .refl t, by simp, by simp [callsAt], by simp [callsAt], ?_, by simp, by simp⟩
        intro _ j x hj hx
        have := w.lt_last (i := j) (by simp [hx])
        omega
      | null => trivial
      | skip =>
        have h0 := next_skip hn
        have := ihF d (i + 1) tr t w
        dsimp only
        cases hr : fireLoop args cap P n d (i + 1) tr t with
        | fault => trivial
        | running => trivial
        | ended b tr' t' =>
          rw [hr] at this
          obtain ⟨new, e1, m1, d1, p1, r1, f1, t1, x1⟩ := this
          have hne : ∀ j x, t.sl j = some x → j ≠ i := by
            rintro j x hx rfl; rw [h0] at hx; cases hx
          refine ⟨new, e1, m1, d1, p1, fun c hc => ⟨by have := (r1 c hc).1; omega, (r1 c hc).2⟩, ?_, ?_, x1⟩
          · intro hb j x hj hx hs
            have := hne j x hx
            exact f1 hb j x (by omega) hx hs
          · intro hb
            obtain ⟨pre, c, h1, h2, h3⟩ := t1 hb
            refine ⟨pre, c, h1, h2, fun j x hj hjc hx hs => ?_⟩
            have := hne j x hx
            exact h3 j x (by omega) hjc hx hs
      | call s =>
        obtain ⟨hs, hlt⟩ := next_call hn
        have := ihS d (P tr s) (tr ++ [.call d (i + 1)]) t w (fun c h => hP c h tr s)
        dsimp only
        cases hr : runScript args cap P n d (P tr s) (tr ++ [.call d (i + 1)]) t with
        | fault => trivial
        | running => trivial
        | ended b tr' t' =>
          rw [hr] at this
          obtain ⟨new, rfl, m, dd⟩ := this
          cases b with
          | true => exact fire_call hs w m dd (.inl rfl)
          | false => exact fire_more hcap hs w m dd (ihF _ _ _ _ (m.wf hcap w))
      | callLast s =>
        obtain ⟨hs, hlt, hl⟩ := next_callLast w hn
        have := ihS d (P tr s) (tr ++ [.call d (i + 1)]) t w (fun c h => hP c h tr s)
        dsimp only
        cases hr : runScript args cap P n d (P tr s) (tr ++ [.call d (i + 1)]) t with
        | fault => trivial
        | running => trivial
        | ended b tr' t' =>
          rw [hr] at this
          obtain ⟨new, rfl, m, dd⟩ := this
          exact fire_call hs w m dd (.inr hl)

/-! ### No null pointers -/

theorem next_void {t : Table σ} {i : Nat} (w : WF cap t) : t.next false i ≠ .null := by
  have := w.last_le
  simp only [Table.next, Bool.false_eq_true, if_false]
  split
  · split
    · rename_i h1 h2; rw [List.getElem?_eq_none_iff] at h2; omega
    · simp
    · simp
  · simp

theorem script_wf (hcap : cap < 2 ^ 32) {n d : Nat} {sc : Script σ} {tr : List Ev} {t : Table σ} (w : WF cap t)
    {b : Bool} {tr' : List Ev} {t' : Table σ} (h : runScript args cap P n d sc tr t = .ended b tr' t') : WF cap t' := by
  have := (spec (args := args) (P := P) (safe := fun _ => False) hcap (by simp) n).1 d sc tr t w (by simp)
  rw [h] at this
  obtain ⟨_, _, m, _⟩ := this
  exact m.wf hcap w

theorem loop_wf (hcap : cap < 2 ^ 32) {n d i : Nat} {tr : List Ev} {t : Table σ} (w : WF cap t)
    {b : Bool} {tr' : List Ev} {t' : Table σ} (h : fireLoop args cap P n d i tr t = .ended b tr' t') : WF cap t' := by
  have := (spec (args := args) (P := P) (safe := fun _ => False) hcap (by simp) n).2 d i tr t w
  rw [h] at this
  obtain ⟨_, _, m, _⟩ := this
  exact m.wf hcap w

theorem void_ok (hcap : cap < 2 ^ 32) (n : Nat) :
    (∀ d sc tr t, WF cap t → runScript false cap P n d sc tr t ≠ .fault) ∧
    (∀ d i tr t, WF cap t → fireLoop false cap P n d i tr t ≠ .fault) := by
  induction n with
  | zero => exact ⟨fun _ _ _ _ _ => by simp [runScript], fun _ _ _ _ _ => by simp [fireLoop]⟩
  | succ n ih =>
    obtain ⟨ihS, ihF⟩ := ih
    constructor
    · intro d sc tr t w
      cases sc with
      | ret => simp [runScript]
      | throw => simp [runScript]
      | connect s mem k =>
        rw [runScript]
        cases hc : t.connectM cap s mem with
        | error e => exact ihS d _ tr t w
        | ok r => exact ihS d _ tr _ (by rw [connectM_apply hc]; exact apply_wf w hcap _)
      | disconnect c k =>
        rw [runScript]
        exact ihS d k tr _ (apply_wf w hcap (.disconnect c))
      | fire k =>
        rw [runScript]
        cases hf : fireLoop false cap P n (d + 1) 0 tr t with
        | fault => exact absurd hf (ihF _ _ _ _ w)
        | running => simp
        | ended b tr1 t1 => exact ihS d _ tr1 t1 (loop_wf hcap w hf)
    · intro d i tr t w
      rw [fireLoop]
      cases hn : t.next false i with
      | stop => simp
      | null => exact absurd hn (next_void w)
      | skip => exact ihF _ _ _ _ w
      | call s =>
        dsimp only
        cases hr : runScript false cap P n d (P tr s) (tr ++ [.call d (i + 1)]) t with
        | fault => exact absurd hr (ihS _ _ _ _ w)
        | running => simp
        | ended b tr' t' =>
          cases b with
          | true => simp
          | false => exact ihF _ _ _ _ (script_wf hcap w hr)
      | callLast s =>
        dsimp only
        cases hr : runScript false cap P n d (P tr s) (tr ++ [.call d (i + 1)]) t with
        | fault => exact absurd hr (ihS _ _ _ _ w)
        | running => simp
        | ended b tr' t' => simp

theorem next_args {t : Table σ} {i : Nat} (w : WF cap t) (hi : i < t.last) : t.next true i ≠ .null := by
  have hl := w.last_le
  simp only [Table.next, if_true]
  have hd : dec32 t.last = t.last - 1 := by rw [dec32, if_neg (by omega)]
  rw [if_neg (by omega), hd]
  split
  · split
    · rename_i h1 h2; rw [List.getElem?_eq_none_iff] at h2; omega
    · simp
    · simp
  · have he : i = t.last - 1 := by omega
    have hs := w.lastSome (by omega)
    rw [← he] at hs
    obtain ⟨s, hs⟩ := Option.isSome_iff_exists.mp hs
    rw [slots_of_sl hs]
    simp

/-- The connection with the highest cookie stays. -/
theorem args_ok (hcap : cap < 2 ^ 32) (k : Nat) (k0 : k ≠ 0)
    (hP : ∀ c, k ≤ c → ∀ tr s, (P tr s).Spares c) (n : Nat) :
    (∀ d sc tr t, WF cap t → k ≤ t.last → (∀ c, k ≤ c → sc.Spares c) →
      runScript true cap P n d sc tr t ≠ .fault) ∧
    (∀ d i tr t, WF cap t → k ≤ t.last → i < t.last → fireLoop true cap P n d i tr t ≠ .fault) := by
  have grow : ∀ {t t' : Table σ}, WF cap t → k ≤ t.last → Moves cap (fun c => k ≤ c) t t' → t.last ≤ t'.last := by
    intro t t' w hk m
    obtain ⟨x, hx⟩ := Option.isSome_iff_exists.mp (w.lastSome (by omega))
    have := m.keep hcap w hx (by omega)
    have := (m.wf hcap w).lt_last (i := t.last - 1) (by rw [this]; rfl)
    omega
  induction n with
  | zero => exact ⟨fun _ _ _ _ _ _ _ => by simp [runScript], fun _ _ _ _ _ _ _ => by simp [fireLoop]⟩
  | succ n ih =>
    obtain ⟨ihS, ihF⟩ := ih
    have sp := spec (args := true) (P := P) (safe := fun c => k ≤ c) hcap hP n
    constructor
    · intro d sc tr t w hk hsc
      cases sc with
      | ret => simp [runScript]
      | throw => simp [runScript]
      | connect s mem kk =>
        rw [runScript]
        cases hc : t.connectM cap s mem with
        | error e => exact ihS d _ tr t w hk (fun c h => hsc c h _)
        | ok r =>
          have hm : Moves cap (fun c => k ≤ c) t r.2 := by rw [connectM_apply hc]; exact .one _ (by simp)
          exact ihS d _ tr _ (hm.wf hcap w) (Nat.le_trans hk (grow w hk hm)) (fun c h => hsc c h _)
      | disconnect c kk =>
        rw [runScript]
        have hm : Moves cap (fun c => k ≤ c) t (t.disconnect c) :=
          .one (.disconnect c) (fun c' h e => (hsc c' h).1 (by injection e with e; exact e.symm))
        exact ihS d kk tr _ (hm.wf hcap w) (Nat.le_trans hk (grow w hk hm)) (fun c h => (hsc c h).2)
      | fire kk =>
        rw [runScript]
        have h1 := sp.2 (d + 1) 0 tr t w
        cases hf : fireLoop true cap P n (d + 1) 0 tr t with
        | fault => exact absurd hf (ihF _ _ _ _ w hk (by omega))
        | running => simp
        | ended b tr1 t1 =>
          rw [hf] at h1
          obtain ⟨_, _, m, _⟩ := h1
          exact ihS d _ tr1 t1 (m.wf hcap w) (Nat.le_trans hk (grow w hk m)) (fun c h => hsc c h _)
    · intro d i tr t w hk hi
      rw [fireLoop]
      cases hn : t.next true i with
      | stop => simp
      | null => exact absurd hn (next_args w hi)
      | skip =>
        refine ihF _ _ _ _ w hk ?_
        have h0 := next_skip hn
        by_cases e : i + 1 = t.last
        · have := w.lastSome (by omega)
          rw [← e, Nat.add_sub_cancel, h0] at this; cases this
        · omega
      | call s =>
        have h1 := sp.1 d (P tr s) (tr ++ [.call d (i + 1)]) t w (fun c h => hP c h tr s)
        have hil : i + 1 < t.last := by
          simp only [Table.next, if_true] at hn
          have hd : dec32 t.last = t.last - 1 := by rw [dec32, if_neg (by omega)]
          rw [if_neg (by omega), hd] at hn
          refine Classical.byContradiction fun hh => ?_
          rw [if_neg (by omega)] at hn
          split at hn <;> cases hn
        dsimp only
        cases hr : runScript true cap P n d (P tr s) (tr ++ [.call d (i + 1)]) t with
        | fault => exact absurd hr (ihS _ _ _ _ w hk (fun c h => hP c h tr s))
        | running => simp
        | ended b tr' t' =>
          rw [hr] at h1
          obtain ⟨_, _, m, _⟩ := h1
          have := grow w hk m
          cases b with
          | true => simp
          | false => exact ihF _ _ _ _ (m.wf hcap w) (by omega) (by omega)
      | callLast s =>
        dsimp only
        cases hr : runScript true cap P n d (P tr s) (tr ++ [.call d (i + 1)]) t with
        | fault => exact absurd hr (ihS _ _ _ _ w hk (fun c h => hP c h tr s))
        | running => simp
        | ended b tr' t' => simp

/-! ### Termination -/

theorem more_fuel (n : Nat) :
    (∀ d sc tr (t : Table σ), runScript args cap P n d sc tr t ≠ .running →
      runScript args cap P (n + 1) d sc tr t = runScript args cap P n d sc tr t) ∧
    (∀ d i tr (t : Table σ), fireLoop args cap P n d i tr t ≠ .running →
      fireLoop args cap P (n + 1) d i tr t = fireLoop args cap P n d i tr t) := by
  induction n with
  | zero => exact ⟨fun _ _ _ _ h => by simp [runScript] at h, fun _ _ _ _ h => by simp [fireLoop] at h⟩
  | succ n ih =>
    obtain ⟨ihS, ihF⟩ := ih
    constructor
    · intro d sc tr t h
      cases sc with
      | ret => simp [runScript]
      | throw => simp [runScript]
      | connect s mem k =>
        rw [runScript] at h ⊢
        rw [runScript]
        cases hc : t.connectM cap s mem with
        | error e => rw [hc] at h; exact ihS _ _ _ _ h
        | ok r => rw [hc] at h; exact ihS _ _ _ _ h
      | disconnect c k =>
        rw [runScript] at h ⊢
        rw [runScript]
        exact ihS _ _ _ _ h
      | fire k =>
        rw [runScript] at h ⊢
        rw [runScript]
        cases hf : fireLoop args cap P n (d + 1) 0 tr t with
        | running => rw [hf] at h; exact absurd rfl h
        | fault => rw [ihF _ _ _ _ (by rw [hf]; simp), hf]
        | ended b tr1 t1 =>
          rw [hf] at h
          rw [ihF _ _ _ _ (by rw [hf]; simp), hf]
          exact ihS _ _ _ _ h
    · intro d i tr t h
      rw [fireLoop] at h
      conv => rhs; rw [fireLoop]
      conv => lhs; rw [fireLoop]
      cases hn : t.next args i with
      | stop => rfl
      | null => rfl
      | skip => rw [hn] at h; exact ihF _ _ _ _ h
      | call s =>
        rw [hn] at h
        dsimp only at h ⊢
        cases hr : runScript args cap P n d (P tr s) (tr ++ [.call d (i + 1)]) t with
        | running => rw [hr] at h; exact absurd rfl h
        | fault => rw [ihS _ _ _ _ (by rw [hr]; simp), hr]
        | ended b tr' t' =>
          rw [hr] at h
          rw [ihS _ _ _ _ (by rw [hr]; simp), hr]
          cases b with
          | true => rfl
          | false => exact ihF _ _ _ _ h
      | callLast s =>
        rw [hn] at h
        dsimp only at h ⊢
        cases hr : runScript args cap P n d (P tr s) (tr ++ [.call d (i + 1)]) t with
        | running => rw [hr] at h; exact absurd rfl h
        | fault => rw [ihS _ _ _ _ (by rw [hr]; simp), hr]
        | ended b tr' t' => rw [ihS _ _ _ _ (by rw [hr]; simp), hr]

theorem script_fuel {n m d : Nat} {sc : Script σ} {tr : List Ev} {t : Table σ} (h : n ≤ m)
    (hr : runScript args cap P n d sc tr t ≠ .running) :
    runScript args cap P m d sc tr t = runScript args cap P n d sc tr t := by
  induction h with
  | refl => rfl
  | step _ ih => rw [(more_fuel _).1 _ _ _ _ (by rw [ih]; exact hr), ih]

theorem loop_fuel {n m d i : Nat} {tr : List Ev} {t : Table σ} (h : n ≤ m)
    (hr : fireLoop args cap P n d i tr t ≠ .running) :
    fireLoop args cap P m d i tr t = fireLoop args cap P n d i tr t := by
  induction h with
  | refl => rfl
  | step _ ih => rw [(more_fuel _).2 _ _ _ _ (by rw [ih]; exact hr), ih]

theorem script_ends (d : Nat) (sc : Script σ) (hf : sc.Flat) :
    ∀ tr (t : Table σ), ∃ n, runScript args cap P n d sc tr t ≠ .running := by
  induction sc with
  | ret => intro tr t; exact ⟨1, by simp [runScript]⟩
  | throw => intro tr t; exact ⟨1, by simp [runScript]⟩
  | connect s mem k ih =>
    intro tr t
    cases hc : t.connectM cap s mem with
    | error e =>
      obtain ⟨n, h⟩ := ih (.error e) (hf _) tr t
      exact ⟨n + 1, by rw [runScript, hc]; exact h⟩
    | ok r =>
      obtain ⟨n, h⟩ := ih (.ok r.1) (hf _) tr r.2
      exact ⟨n + 1, by rw [runScript, hc]; exact h⟩
  | disconnect c k ih =>
    intro tr t
    obtain ⟨n, h⟩ := ih hf tr (t.disconnect c)
    exact ⟨n + 1, by rw [runScript]; exact h⟩
  | fire k => exact hf.elim

theorem loop_ends (hcap : cap < 2 ^ 32) (hP : ∀ tr s, (P tr s).Flat) (d : Nat) (m : Nat) :
    ∀ i tr (t : Table σ), WF cap t → cap ≤ i + m → ∃ n, fireLoop args cap P n d i tr t ≠ .running := by
  induction m with
  | zero =>
    intro i tr t w hi
    refine ⟨1, ?_⟩
    have hz := w.size
    rw [fireLoop]
    cases hn : t.next args i with
    | stop => simp
    | null => simp
    | skip =>
      have : i < t.slots.length := by
        have : t.slots[i]? = some none := by
          simp only [Table.next] at hn
          (repeat' split at hn) <;> simp_all
        rw [List.getElem?_eq_some_iff] at this; exact this.1
      omega
    | call s => have := (next_call hn).2; omega
    | callLast s => have := (next_callLast w hn).2.1; omega
  | succ m ih =>
    intro i tr t w hi
    cases hn : t.next args i with
    | stop => exact ⟨1, by rw [fireLoop, hn]; simp⟩
    | null => exact ⟨1, by rw [fireLoop, hn]; simp⟩
    | skip =>
      obtain ⟨n, h⟩ := ih (i + 1) tr t w (by omega)
      exact ⟨n + 1, by rw [fireLoop, hn]; exact h⟩
    | call s =>
      obtain ⟨n1, h1⟩ := script_ends (args := args) (cap := cap) (P := P) d (P tr s) (hP tr s) (tr ++ [.call d (i + 1)]) t
      cases hr : runScript args cap P n1 d (P tr s) (tr ++ [.call d (i + 1)]) t with
      | running => exact absurd hr h1
      | fault => exact ⟨n1 + 1, by rw [fireLoop, hn]; dsimp only; rw [hr]; simp⟩
      | ended b tr' t' =>
        cases b with
        | true => exact ⟨n1 + 1, by rw [fireLoop, hn]; dsimp only; rw [hr]; simp⟩
        | false =>
          obtain ⟨n2, h2⟩ := ih (i + 1) (tr' ++ [.ret d (i + 1) false]) t' (script_wf hcap w hr) (by omega)
          refine ⟨max n1 n2 + 1, ?_⟩
          rw [fireLoop, hn]
          dsimp only
          rw [script_fuel (Nat.le_max_left n1 n2) h1, hr]
          dsimp only
          rw [loop_fuel (Nat.le_max_right n1 n2) h2]
          exact h2
    | callLast s =>
      obtain ⟨n1, h1⟩ := script_ends (args := args) (cap := cap) (P := P) d (P tr s) (hP tr s) (tr ++ [.call d (i + 1)]) t
      cases hr : runScript args cap P n1 d (P tr s) (tr ++ [.call d (i + 1)]) t with
      | running => exact absurd hr h1
      | fault => exact ⟨n1 + 1, by rw [fireLoop, hn]; dsimp only; rw [hr]; simp⟩
      | ended b tr' t' => exact ⟨n1 + 1, by rw [fireLoop, hn]; dsimp only; rw [hr]; simp⟩

end Verif.Event
