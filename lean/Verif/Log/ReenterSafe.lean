import Verif.Log.ReenterLemmas
set_option linter.unusedSimpArgs false
/-! Lemmas for C168: objects destroyed during their calls, invalid iterators and null pointers. -/
namespace Verif.Log.Re
open Verif.Event (Table WF)
variable {cap : Nat} {own : Who → Bool} {P : Progs}

/-! ### Objects destroyed during their calls -/

theorem any_slot {t : Table Nat} {s : Nat} : (t.slots.any fun e => decide (e = some s)) = true ↔ ∃ j, t.sl j = some s := by
  simp only [List.any_eq_true, decide_eq_true_eq]
  constructor
  · rintro ⟨e, he, rfl⟩
    obtain ⟨j, hj, e⟩ := List.mem_iff_getElem.1 he
    exact ⟨j, by simp [Table.sl, List.getElem?_eq_getElem hj, e]⟩
  · rintro ⟨j, hj⟩
    exact ⟨some s, List.mem_of_getElem? (Event.slots_of_sl hj), rfl⟩

theorem alive_act (hcap : cap < 2 ^ 32) {l : Lg} (h : Ok cap l) {a : Act} {x : Who} (h1 : alive own l x = true)
    (h2 : alive own (l.act cap a) x = false) : own x = false ∧ a.releases x = true := by
  have ho : own x = false := by
    cases e : own x with
    | false => rfl
    | true => simp [alive, e] at h2
  refine ⟨ho, ?_⟩
  simp only [alive, ho, Bool.false_or] at h1 h2
  have no : ∀ {b : Bool} {p : Prop}, b = true → b = false → p := fun e e' => by rw [e] at e'; cases e'
  cases x with
  | value v =>
    cases a with
    | update n w => rfl
    | remove n => rfl
    | add n w =>
      simp only [Lg.act] at h2
      split at h2
      · exact no h1 h2
      · simp only [List.any_append, Bool.or_eq_false_iff] at h2; exact no h1 h2.1
    | setFilter f => exact no h1 h2
    | connect s => exact no h1 h2
    | disconnect c => exact no h1 h2
  | filter f =>
    cases a with
    | setFilter g => rfl
    | add n w => simp only [Lg.act] at h2; split at h2 <;> exact no h1 h2
    | update n w => simp only [Lg.act] at h2; split at h2 <;> exact no h1 h2
    | remove n => exact no h1 h2
    | connect s => exact no h1 h2
    | disconnect c => exact no h1 h2
  | sink s =>
    cases a with
    | disconnect c => rfl
    | add n w => simp only [Lg.act] at h2; split at h2 <;> exact no h1 h2
    | update n w => simp only [Lg.act] at h2; split at h2 <;> exact no h1 h2
    | remove n => exact no h1 h2
    | setFilter f => exact no h1 h2
    | connect s' =>
      obtain ⟨j, hj⟩ := any_slot.1 h1
      exact no (any_slot.2 ⟨j, act_keep hcap h (a := .connect s') hj (by simp)⟩) h2

/-- What is true when callees are running that exist. -/
def Lives {α : Type} (own : Who → Bool) (stk : List Who) : Res α → Prop
  | .dead x a => own x = false ∧ a.releases x = true
  | .ended _ _ l => ∀ x ∈ stk, alive own l x = true
  | _ => True

theorem alive_value {l : Lg} {prev : Option Nat} {nm v : Nat} {t : List (Nat × Nat)} (h : rest prev l.pend = (nm, v) :: t) :
    alive own l (.value v) = true := by
  have : (nm, v) ∈ l.pend := by
    have hm : (nm, v) ∈ rest prev l.pend := by rw [h]; simp
    cases prev with
    | none => exact hm
    | some m => exact (List.dropWhile_sublist _).subset ((List.drop_sublist _ _).subset hm)
  simp only [alive, Bool.or_eq_true, List.any_eq_true, decide_eq_true_eq]
  exact .inr ⟨_, this, rfl⟩

theorem alive_sink {l : Lg} {j s : Nat} (h : l.ev.sl j = some s) : alive own l (.sink s) = true := by
  simp only [alive, any_slot.2 ⟨j, h⟩, Bool.or_true]

theorem alive_filter {l : Lg} {f : Nat} (h : l.filter = some f) : alive own l (.filter f) = true := by
  simp [alive, h]

theorem run_ok (hcap : cap < 2 ^ 32) {n d : Nat} {stk : List Who} {sc : Script} {tr : List Ev} {l : Lg} (h : Ok cap l) {o : Option Nat}
    {tr' : List Ev} {l' : Lg} (hr : run cap own P n d stk sc tr l = .ended o tr' l') : Ok cap l' := by
  have := (spec (own := own) (P := P) hcap n).1 d stk sc tr l h
  rw [hr] at this
  obtain ⟨new, -, rfl, -⟩ := this
  exact h.acts hcap _

theorem fire_ok (hcap : cap < 2 ^ 32) {n d : Nat} {stk : List Who} {r : Rec} {tr : List Ev} {l : Lg} (h : Ok cap l) {o : Option Unit}
    {tr' : List Ev} {l' : Lg} (hr : fire cap own P n d stk r tr l = .ended o tr' l') : Ok cap l' := by
  have := (spec (own := own) (P := P) hcap n).2.2.2 d stk r tr l h
  rw [hr] at this
  obtain ⟨new, -, rfl, -⟩ := this
  exact h.acts hcap _

theorem apply_ok (hcap : cap < 2 ^ 32) {n d : Nat} {stk : List Who} {prev : Option Nat} {r : Rec} {tr : List Ev} {l : Lg} (h : Ok cap l)
    {o : Option Rec} {tr' : List Ev} {l' : Lg} (hr : applyLoop cap own P n d stk prev r tr l = .ended o tr' l') : Ok cap l' := by
  have := (spec (own := own) (P := P) hcap n).2.1 d stk prev r tr l h
  rw [hr] at this
  cases o with
  | none => obtain ⟨new, -, rfl, -⟩ := this; exact h.acts hcap _
  | some r' => obtain ⟨new, vs, -, rfl, -⟩ := this; exact h.acts hcap _

theorem lives (hcap : cap < 2 ^ 32) (n : Nat) :
    (∀ d stk sc tr l, Ok cap l → (∀ x ∈ stk, alive own l x = true) → Lives own stk (run cap own P n d stk sc tr l)) ∧
    (∀ d stk prev r tr l, Ok cap l → (∀ x ∈ stk, alive own l x = true) → Lives own stk (applyLoop cap own P n d stk prev r tr l)) ∧
    (∀ d stk i r tr l, Ok cap l → (∀ x ∈ stk, alive own l x = true) → Lives own stk (sinkLoop cap own P n d stk i r tr l)) ∧
    (∀ d stk r tr l, Ok cap l → (∀ x ∈ stk, alive own l x = true) → Lives own stk (fire cap own P n d stk r tr l)) := by
  induction n with
  | zero => refine ⟨?_, ?_, ?_, ?_⟩ <;> intros <;> simp [run, applyLoop, sinkLoop, fire, Lives]
  | succ n ih =>
    obtain ⟨ihR, ihA, ihS, ihF⟩ := ih
    have push : ∀ {l : Lg} {y : Who} {stk : List Who}, alive own l y = true → (∀ x ∈ stk, alive own l x = true) →
        ∀ x ∈ y :: stk, alive own l x = true := by
      intro l y stk hy hs x hx
      rcases List.mem_cons.1 hx with rfl | hx
      · exact hy
      · exact hs x hx
    refine ⟨?_, ?_, ?_, ?_⟩
    · intro d stk sc tr l h hl
      cases sc with
      | ret x => rw [run]; exact hl
      | throw => rw [run]; exact hl
      | act a k =>
        rw [run]
        cases hf : stk.find? fun x => !alive own (l.act cap a) x with
        | some x =>
          exact alive_act hcap h (hl x (List.mem_of_find?_eq_some hf)) (by simpa using List.find?_some hf)
        | none =>
          refine ihR d stk k _ _ (h.act hcap a) ?_
          intro x hx
          have := List.find?_eq_none.1 hf x hx
          simpa using this
      | fire r k =>
        rw [run]
        have h1 := ihF (d + 1) stk r tr l h hl
        cases hf : fire cap own P n (d + 1) stk r tr l with
        | fault => trivial
        | dead x a => rw [hf] at h1; exact h1
        | running => trivial
        | ended o tr1 l1 =>
          rw [hf] at h1
          exact ihR d stk _ tr1 l1 (fire_ok hcap h hf) h1
    · intro d stk prev r tr l h hl
      rw [applyLoop]
      cases hh : rest prev l.pend with
      | nil => exact hl
      | cons e t =>
        obtain ⟨nm, v⟩ := e
        dsimp only [List.head?_cons]
        have h1 := ihR d (.value v :: stk) (P tr (.value v) []) (tr ++ [.call d (.value v) nm []]) l h (push (alive_value hh) hl)
        cases hr : run cap own P n d (.value v :: stk) (P tr (.value v) []) (tr ++ [.call d (.value v) nm []]) l with
        | fault => trivial
        | dead x a => rw [hr] at h1; exact h1
        | running => trivial
        | ended o tr' l' =>
          rw [hr] at h1
          have h2 : ∀ x ∈ stk, alive own l' x = true := fun x hx => h1 x (List.mem_cons_of_mem _ hx)
          cases o with
          | none => exact h2
          | some x =>
            dsimp only
            split
            · exact ihA d stk _ _ _ _ (run_ok hcap h hr) h2
            · trivial
    · intro d stk i r tr l h hl
      rw [sinkLoop]
      cases hn : l.ev.next true i with
      | stop => exact hl
      | null => trivial
      | skip => exact ihS d stk (i + 1) r tr l h hl
      | call s =>
        have hs : l.ev.sl i = some s := by simp [Table.sl, (Event.next_call hn).1]
        have h1 := ihR d (.sink s :: stk) (P tr (.sink s) r) (tr ++ [.call d (.sink s) (i + 1) r]) l h (push (alive_sink hs) hl)
        dsimp only
        cases hr : run cap own P n d (.sink s :: stk) (P tr (.sink s) r) (tr ++ [.call d (.sink s) (i + 1) r]) l with
        | fault => trivial
        | dead x a => rw [hr] at h1; exact h1
        | running => trivial
        | ended o tr' l' =>
          rw [hr] at h1
          have h2 : ∀ x ∈ stk, alive own l' x = true := fun x hx => h1 x (List.mem_cons_of_mem _ hx)
          cases o with
          | none => exact h2
          | some x => exact ihS d stk (i + 1) r _ _ (run_ok hcap h hr) h2
      | callLast s =>
        obtain ⟨hs, -⟩ := next_callLast h hn
        have h1 := ihR d (.sink s :: stk) (P tr (.sink s) r) (tr ++ [.call d (.sink s) (i + 1) r]) l h (push (alive_sink hs) hl)
        dsimp only
        cases hr : run cap own P n d (.sink s :: stk) (P tr (.sink s) r) (tr ++ [.call d (.sink s) (i + 1) r]) l with
        | fault => trivial
        | dead x a => rw [hr] at h1; exact h1
        | running => trivial
        | ended o tr' l' =>
          rw [hr] at h1
          exact fun x hx => h1 x (List.mem_cons_of_mem _ hx)
    · intro d stk r tr l h hl
      rw [fire]
      have hA := ihA d stk none r tr l h hl
      cases ha : applyLoop cap own P n d stk none r tr l with
      | fault => trivial
      | dead x a => rw [ha] at hA; exact hA
      | running => trivial
      | ended o tr1 l1 =>
        rw [ha] at hA
        have hok := apply_ok hcap h ha
        cases o with
        | none => exact hA
        | some r' =>
          dsimp only
          cases hf : l1.filter with
          | none => exact ihS d stk 0 r' tr1 l1 hok hA
          | some f =>
            dsimp only
            have h1 := ihR d (.filter f :: stk) (P tr1 (.filter f) r') (tr1 ++ [.call d (.filter f) 0 r']) l1 hok
              (push (alive_filter hf) hA)
            cases hr : run cap own P n d (.filter f :: stk) (P tr1 (.filter f) r') (tr1 ++ [.call d (.filter f) 0 r']) l1 with
            | fault => trivial
            | dead x a => rw [hr] at h1; exact h1
            | running => trivial
            | ended o tr2 l2 =>
              rw [hr] at h1
              have h2 : ∀ x ∈ stk, alive own l2 x = true := fun x hx => h1 x (List.mem_cons_of_mem _ hx)
              cases o with
              | none => exact h2
              | some x =>
                dsimp only
                split
                · exact ihS d stk 0 r' _ _ (run_ok hcap hok hr) h2
                · exact h2

/-! ### What the callees do -/

/-- Only a call that satisfies `q` destroys a callee. -/
def Made {α : Type} (q : Act → Prop) : Res α → Prop
  | .dead _ a => q a
  | _ => True

theorem made {q : Act → Prop} (hP : ∀ tr x r, (P tr x r).All q) (n : Nat) :
    (∀ d stk sc tr l, sc.All q → Made q (run cap own P n d stk sc tr l)) ∧
    (∀ d stk prev r tr l, Made q (applyLoop cap own P n d stk prev r tr l)) ∧
    (∀ d stk i r tr l, Made q (sinkLoop cap own P n d stk i r tr l)) ∧
    (∀ d stk r tr l, Made q (fire cap own P n d stk r tr l)) := by
  induction n with
  | zero => refine ⟨?_, ?_, ?_, ?_⟩ <;> intros <;> simp [run, applyLoop, sinkLoop, fire, Made]
  | succ n ih =>
    obtain ⟨ihR, ihA, ihS, ihF⟩ := ih
    refine ⟨?_, ?_, ?_, ?_⟩
    · intro d stk sc tr l hsc
      cases sc with
      | ret x => rw [run]; trivial
      | throw => rw [run]; trivial
      | act a k =>
        rw [run]
        cases hf : stk.find? fun x => !alive own (l.act cap a) x with
        | some x => exact hsc.1
        | none => exact ihR d stk k _ _ hsc.2
      | fire r k =>
        rw [run]
        have h1 := ihF (d + 1) stk r tr l
        cases hf : fire cap own P n (d + 1) stk r tr l with
        | fault => trivial
        | dead x a => rw [hf] at h1; exact h1
        | running => trivial
        | ended o tr1 l1 => exact ihR d stk _ tr1 l1 (hsc _)
    · intro d stk prev r tr l
      rw [applyLoop]
      cases hh : rest prev l.pend with
      | nil => trivial
      | cons e t =>
        obtain ⟨nm, v⟩ := e
        dsimp only [List.head?_cons]
        have h1 := ihR d (.value v :: stk) (P tr (.value v) []) (tr ++ [.call d (.value v) nm []]) l (hP _ _ _)
        cases hr : run cap own P n d (.value v :: stk) (P tr (.value v) []) (tr ++ [.call d (.value v) nm []]) l with
        | fault => trivial
        | dead x a => rw [hr] at h1; exact h1
        | running => trivial
        | ended o tr' l' =>
          cases o with
          | none => trivial
          | some x =>
            dsimp only
            split
            · exact ihA d stk _ _ _ _
            · trivial
    · intro d stk i r tr l
      rw [sinkLoop]
      cases hn : l.ev.next true i with
      | stop => trivial
      | null => trivial
      | skip => exact ihS d stk (i + 1) r tr l
      | call s =>
        have h1 := ihR d (.sink s :: stk) (P tr (.sink s) r) (tr ++ [.call d (.sink s) (i + 1) r]) l (hP _ _ _)
        dsimp only
        cases hr : run cap own P n d (.sink s :: stk) (P tr (.sink s) r) (tr ++ [.call d (.sink s) (i + 1) r]) l with
        | fault => trivial
        | dead x a => rw [hr] at h1; exact h1
        | running => trivial
        | ended o tr' l' =>
          cases o with
          | none => trivial
          | some x => exact ihS d stk (i + 1) r _ _
      | callLast s =>
        have h1 := ihR d (.sink s :: stk) (P tr (.sink s) r) (tr ++ [.call d (.sink s) (i + 1) r]) l (hP _ _ _)
        dsimp only
        cases hr : run cap own P n d (.sink s :: stk) (P tr (.sink s) r) (tr ++ [.call d (.sink s) (i + 1) r]) l with
        | fault => trivial
        | dead x a => rw [hr] at h1; exact h1
        | running => trivial
        | ended o tr' l' => trivial
    · intro d stk r tr l
      rw [fire]
      have hA := ihA d stk none r tr l
      cases ha : applyLoop cap own P n d stk none r tr l with
      | fault => trivial
      | dead x a => rw [ha] at hA; exact hA
      | running => trivial
      | ended o tr1 l1 =>
        cases o with
        | none => trivial
        | some r' =>
          dsimp only
          cases hf : l1.filter with
          | none => exact ihS d stk 0 r' tr1 l1
          | some f =>
            dsimp only
            have h1 := ihR d (.filter f :: stk) (P tr1 (.filter f) r') (tr1 ++ [.call d (.filter f) 0 r']) l1 (hP _ _ _)
            cases hr : run cap own P n d (.filter f :: stk) (P tr1 (.filter f) r') (tr1 ++ [.call d (.filter f) 0 r']) l1 with
            | fault => trivial
            | dead x a => rw [hr] at h1; exact h1
            | running => trivial
            | ended o tr2 l2 =>
              cases o with
              | none => trivial
              | some x =>
                dsimp only
                split
                · exact ihS d stk 0 r' _ _
                · trivial

/-- Every name in `S` has a pending value.  (Specification; no code.) -/
def Pending (S : Nat → Prop) (l : Lg) : Prop := ∀ m, S m → has l.pend m = true

theorem has_names {p : List (Nat × Nat)} {n : Nat} : has p n = true ↔ n ∈ p.map (·.1) := by
  simp only [has, List.any_eq_true, decide_eq_true_eq, List.mem_map]

theorem Pending.act {S : Nat → Prop} {l : Lg} (h : Pending S l) {a : Act} (ha : ∀ m, S m → a ≠ .remove m) : Pending S (l.act cap a) := by
  intro m hm
  have h0 := has_names.1 (h m hm)
  rw [has_names]
  cases a with
  | add n v => simp only [Lg.act]; split; exact h0; rw [List.map_append]; exact List.mem_append_left _ h0
  | update n v =>
    simp only [Lg.act]
    split
    · rw [List.map_map]
      obtain ⟨e, he, rfl⟩ := List.mem_map.1 h0
      refine List.mem_map.2 ⟨e, he, ?_⟩
      simp only [Function.comp]
      split
      · rename_i g; exact g.symm
      · rfl
    · rw [List.map_append]; exact List.mem_append_left _ h0
  | remove n =>
    obtain ⟨e, he, rfl⟩ := List.mem_map.1 h0
    refine List.mem_map.2 ⟨e, List.mem_filter.2 ⟨he, ?_⟩, rfl⟩
    have : e.1 ≠ n := fun g => ha e.1 hm (by rw [g])
    simpa using this
  | setFilter f => exact h0
  | connect s => exact h0
  | disconnect c => exact h0

theorem known_same {S : Nat → Prop} {l : Lg} (h : Pending S l) {a : Act} (ha : a.onKnown S) :
    (l.act cap a).ins = l.ins ∧ (l.act cap a).cuts = l.cuts := by
  cases a with
  | add n v => simp only [Lg.act]; rw [if_pos (h n ha)]; exact ⟨rfl, rfl⟩
  | update n v => simp only [Lg.act]; rw [if_pos (h n ha)]; exact ⟨rfl, rfl⟩
  | remove n => exact absurd ha id
  | setFilter f => exact ⟨rfl, rfl⟩
  | connect s => exact ⟨rfl, rfl⟩
  | disconnect c => exact ⟨rfl, rfl⟩

/-- A functor that adds and removes no pending values and fires nothing leaves the iterators valid, and `run` does not fault. -/
theorem flat_run {S : Nat → Prop} {n d : Nat} {stk : List Who} {sc : Script} {tr : List Ev} {l : Lg} (h0 : Pending S l) (h1 : sc.Flat)
    (h2 : sc.All fun a => a.onKnown S) :
    match run cap own P n d stk sc tr l with
    | .ended _ _ l' => l'.ins = l.ins ∧ l'.cuts = l.cuts
    | .fault => False
    | _ => True := by
  induction n generalizing sc tr l with
  | zero => simp [run]
  | succ n ih =>
    cases sc with
    | ret x => simp [run]
    | throw => simp [run]
    | act a k =>
      rw [run]
      cases hf : stk.find? fun x => !alive own (l.act cap a) x with
      | some x => trivial
      | none =>
        dsimp only
        have hs : Pending S (l.act cap a) := h0.act fun m hm e => by
          have := h2.1; rw [e] at this; exact this
        have := ih (sc := k) (tr := tr ++ [.act a]) (l := l.act cap a) hs h1 h2.2
        obtain ⟨a2, a3⟩ := known_same (cap := cap) h0 h2.1
        cases hr : run cap own P n d stk k (tr ++ [.act a]) (l.act cap a) with
        | fault => rw [hr] at this; exact this
        | dead x a => trivial
        | running => trivial
        | ended o tr' l' => rw [hr] at this; exact ⟨this.1.trans a2, this.2.trans a3⟩
    | fire r k => exact absurd h1 id

/-! ### No invalid iterators and null pointers -/

theorem act_last (hcap : cap < 2 ^ 32) {l : Lg} (h : Ok cap l) {a : Act} {k : Nat} (ha : ∀ c, k ≤ c → a ≠ .disconnect c)
    (hk : k ≤ l.ev.last ∨ k = 1) : l.ev.last ≤ (l.act cap a).ev.last := by
  by_cases h0 : l.ev.last = 0
  · omega
  · have h1 := h.wf.lastSome h0
    obtain ⟨x, hx⟩ := Option.isSome_iff_exists.1 h1
    have e : l.ev.last - 1 + 1 = l.ev.last := by omega
    have := act_keep hcap h hx (a := a) (by rw [e]; exact ha _ (by omega))
    have := (h.act hcap a).wf.lt_last (i := l.ev.last - 1) (by simp [this])
    omega

theorem acts_last (hcap : cap < 2 ^ 32) {l : Lg} (h : Ok cap l) {as : List Act} {k : Nat}
    (ha : ∀ a ∈ as, ∀ c, k ≤ c → a ≠ .disconnect c) (hk : k ≤ l.ev.last ∨ k = 1) : l.ev.last ≤ (l.acts cap as).ev.last := by
  induction as generalizing l with
  | nil => exact Nat.le_refl _
  | cons a as ih =>
    have h1 := act_last hcap h (ha a (by simp)) hk
    exact Nat.le_trans h1 (ih (h.act hcap a) (fun b hb => ha b (by simp [hb])) (by omega))

theorem next_null {l : Lg} (h : Ok cap l) {i : Nat} (hi : i = 0 ∨ i < l.ev.last) : l.ev.next true i ≠ .null := by
  have hle := h.wf.last_le
  simp only [Table.next, if_true]
  split
  · simp
  · rename_i h0
    have hl : l.ev.last ≠ 0 := by omega
    have hd : Event.dec32 l.ev.last = l.ev.last - 1 := by simp [Event.dec32, hl]
    split
    · rename_i h1
      split
      · rename_i h2; rw [List.getElem?_eq_none_iff] at h2; omega
      · simp
      · simp
    · rename_i h1
      have e : i = l.ev.last - 1 := by omega
      obtain ⟨x, hx⟩ := Option.isSome_iff_exists.1 (h.wf.lastSome hl)
      rw [e, Event.slots_of_sl hx]
      simp

theorem next_more {l : Lg} {i : Nat} (hi : i = 0 ∨ i < l.ev.last) {st : Event.Step Nat} (hn : l.ev.next true i = st)
    (hst : st = .skip ∨ ∃ x, st = .call x) : i + 1 < l.ev.last := by
  have h := hst
  rw [← hn] at h
  simp only [Table.next, if_true] at h
  by_cases h0 : i = 0 ∧ l.ev.last = 0
  · simp [h0] at h
  · rw [if_neg h0] at h
    by_cases h1 : i < Event.dec32 l.ev.last
    · have hd : Event.dec32 l.ev.last = l.ev.last - 1 := by simp [Event.dec32, show l.ev.last ≠ 0 by omega]
      omega
    · rw [if_neg h1] at h
      split at h <;> simp at h

/-- No invalid iterator or null pointer is used, and the highest cookie does not get smaller and names stay pending. -/
def Sound {α : Type} (S : Nat → Prop) (l : Lg) : Res α → Prop
  | .fault => False
  | .ended _ _ l' => l.ev.last ≤ l'.ev.last ∧ Pending S l'
  | _ => True

theorem Sound.mono {α : Type} {S : Nat → Prop} {l l' : Lg} {res : Res α} (h : Sound S l' res) (hl : l.ev.last ≤ l'.ev.last) : Sound S l res := by
  cases res with
  | fault => exact h
  | dead x a => trivial
  | running => trivial
  | ended o tr' l' => exact ⟨Nat.le_trans hl h.1, h.2⟩

theorem sound (hcap : cap < 2 ^ 32) {k : Nat} {S : Nat → Prop}
    (hP : ∀ tr x r, (P tr x r).All fun a => (∀ c, k ≤ c → a ≠ .disconnect c) ∧ ∀ m, S m → a ≠ .remove m)
    (hV : ∀ tr v r, (P tr (.value v) r).Flat ∧ (P tr (.value v) r).All fun a => a.onKnown S) (n : Nat) :
    (∀ d stk sc tr l, Ok cap l → Pending S l → (sc.All fun a => (∀ c, k ≤ c → a ≠ .disconnect c) ∧ ∀ m, S m → a ≠ .remove m) → (k ≤ l.ev.last ∨ k = 1) →
      Sound S l (run cap own P n d stk sc tr l)) ∧
    (∀ d stk prev r tr l, Ok cap l → Pending S l → (k ≤ l.ev.last ∨ k = 1) → Sound S l (applyLoop cap own P n d stk prev r tr l)) ∧
    (∀ d stk i r tr l, Ok cap l → Pending S l → (k ≤ l.ev.last ∨ k = 1) → (i = 0 ∨ i < l.ev.last) → Sound S l (sinkLoop cap own P n d stk i r tr l)) ∧
    (∀ d stk r tr l, Ok cap l → Pending S l → (k ≤ l.ev.last ∨ k = 1) → Sound S l (fire cap own P n d stk r tr l)) := by
  induction n with
  | zero => refine ⟨?_, ?_, ?_, ?_⟩ <;> intros <;> simp [run, applyLoop, sinkLoop, fire, Sound]
  | succ n ih =>
    obtain ⟨ihR, ihA, ihS, ihF⟩ := ih
    refine ⟨?_, ?_, ?_, ?_⟩
    · intro d stk sc tr l h hs hsc hk
      cases sc with
      | ret x => rw [run]; exact ⟨Nat.le_refl _, hs⟩
      | throw => rw [run]; exact ⟨Nat.le_refl _, hs⟩
      | act a k' =>
        rw [run]
        cases hf : stk.find? fun x => !alive own (l.act cap a) x with
        | some x => trivial
        | none =>
          have h1 := act_last hcap h hsc.1.1 hk
          exact (ihR d stk k' _ _ (h.act hcap a) (hs.act hsc.1.2) hsc.2 (by omega)).mono h1
      | fire r k' =>
        rw [run]
        have h1 := ihF (d + 1) stk r tr l h hs hk
        cases hf : fire cap own P n (d + 1) stk r tr l with
        | fault => rw [hf] at h1; exact h1
        | dead x a => trivial
        | running => trivial
        | ended o tr1 l1 =>
          rw [hf] at h1
          obtain ⟨h2, hs1⟩ : l.ev.last ≤ l1.ev.last ∧ Pending S l1 := h1
          exact (ihR d stk _ tr1 l1 (fire_ok hcap h hf) hs1 (hsc _) (by omega)).mono h2
    · intro d stk prev r tr l h hs hk
      rw [applyLoop]
      cases hh : rest prev l.pend with
      | nil => exact ⟨Nat.le_refl _, hs⟩
      | cons e t =>
        obtain ⟨nm, v⟩ := e
        dsimp only [List.head?_cons]
        have h1 := ihR d (.value v :: stk) (P tr (.value v) []) (tr ++ [.call d (.value v) nm []]) l h hs (hP _ _ _) hk
        have h3 := flat_run (cap := cap) (own := own) (P := P) (n := n) (d := d) (stk := .value v :: stk)
          (tr := tr ++ [.call d (.value v) nm []]) (l := l) hs (hV tr v []).1 (hV tr v []).2
        cases hr : run cap own P n d (.value v :: stk) (P tr (.value v) []) (tr ++ [.call d (.value v) nm []]) l with
        | fault => rw [hr] at h1; exact h1
        | dead x a => trivial
        | running => trivial
        | ended o tr' l' =>
          rw [hr] at h1 h3
          obtain ⟨h2, hs1⟩ : l.ev.last ≤ l'.ev.last ∧ Pending S l' := h1
          cases o with
          | none => exact ⟨h2, hs1⟩
          | some x =>
            dsimp only
            dsimp only at h3
            rw [if_pos ⟨h3.1, by rw [h3.2]⟩]
            exact (ihA d stk _ _ _ _ (run_ok hcap h hr) hs1 (by omega)).mono h2
    · intro d stk i r tr l h hs hk hi
      rw [sinkLoop]
      cases hn : l.ev.next true i with
      | stop => exact ⟨Nat.le_refl _, hs⟩
      | null => exact absurd hn (next_null h hi)
      | skip =>
        refine ihS d stk (i + 1) r tr l h hs hk ?_
        have := next_more hi hn (by simp)
        omega
      | call s =>
        have h1 := ihR d (.sink s :: stk) (P tr (.sink s) r) (tr ++ [.call d (.sink s) (i + 1) r]) l h hs (hP _ _ _) hk
        have hi := next_more hi hn (by simp)
        dsimp only
        cases hr : run cap own P n d (.sink s :: stk) (P tr (.sink s) r) (tr ++ [.call d (.sink s) (i + 1) r]) l with
        | fault => rw [hr] at h1; exact h1
        | dead x a => trivial
        | running => trivial
        | ended o tr' l' =>
          rw [hr] at h1
          obtain ⟨h2, hs1⟩ : l.ev.last ≤ l'.ev.last ∧ Pending S l' := h1
          cases o with
          | none => exact ⟨h2, hs1⟩
          | some x => exact (ihS d stk (i + 1) r _ _ (run_ok hcap h hr) hs1 (by omega) (by omega)).mono h2
      | callLast s =>
        have h1 := ihR d (.sink s :: stk) (P tr (.sink s) r) (tr ++ [.call d (.sink s) (i + 1) r]) l h hs (hP _ _ _) hk
        dsimp only
        cases hr : run cap own P n d (.sink s :: stk) (P tr (.sink s) r) (tr ++ [.call d (.sink s) (i + 1) r]) l with
        | fault => rw [hr] at h1; exact h1
        | dead x a => trivial
        | running => trivial
        | ended o tr' l' => rw [hr] at h1; exact h1
    · intro d stk r tr l h hs hk
      rw [fire]
      have hA := ihA d stk none r tr l h hs hk
      cases ha : applyLoop cap own P n d stk none r tr l with
      | fault => rw [ha] at hA; exact hA
      | dead x a => trivial
      | running => trivial
      | ended o tr1 l1 =>
        rw [ha] at hA
        have hok := apply_ok hcap h ha
        obtain ⟨h0, hs1⟩ : l.ev.last ≤ l1.ev.last ∧ Pending S l1 := hA
        cases o with
        | none => exact ⟨h0, hs1⟩
        | some r' =>
          dsimp only
          cases hf : l1.filter with
          | none => exact (ihS d stk 0 r' tr1 l1 hok hs1 (by omega) (.inl rfl)).mono h0
          | some f =>
            dsimp only
            have h1 := ihR d (.filter f :: stk) (P tr1 (.filter f) r') (tr1 ++ [.call d (.filter f) 0 r']) l1 hok hs1 (hP _ _ _) (by omega)
            cases hr : run cap own P n d (.filter f :: stk) (P tr1 (.filter f) r') (tr1 ++ [.call d (.filter f) 0 r']) l1 with
            | fault => rw [hr] at h1; exact h1
            | dead x a => trivial
            | running => trivial
            | ended o tr2 l2 =>
              rw [hr] at h1
              obtain ⟨h2, hs2⟩ : l1.ev.last ≤ l2.ev.last ∧ Pending S l2 := h1
              cases o with
              | none => exact ⟨Nat.le_trans h0 h2, hs2⟩
              | some x =>
                dsimp only
                split
                · exact (ihS d stk 0 r' _ _ (run_ok hcap hok hr) hs2 (by omega) (.inl rfl)).mono (by omega)
                · exact ⟨Nat.le_trans h0 h2, hs2⟩

/-! ### Termination -/

theorem next_skip_lt {l : Lg} {i : Nat} (h : l.ev.next true i = .skip) : l.ev.slots[i]? = some none := by
  simp only [Table.next] at h
  (repeat' split at h) <;> simp_all

/-- The outcome for all large amounts of fuel.  (Specification; no code.) -/
def Ends {α : Type} (f : Nat → Res α) (res : Res α) : Prop := res ≠ .running ∧ ∃ n, ∀ m, n ≤ m → f m = res

theorem Ends.step {α : Type} {f : Nat → Res α} {g : Nat → Res α} {res : Res α} (hg : Ends g res) (h : ∀ m, f (m + 1) = g m) : Ends f res := by
  obtain ⟨h0, n, hn⟩ := hg
  refine ⟨h0, n + 1, fun m hm => ?_⟩
  obtain ⟨m, rfl⟩ : ∃ k, m = k + 1 := ⟨m - 1, by omega⟩
  rw [h]; exact hn m (by omega)

theorem Ends.const {α : Type} {res : Res α} (h : res ≠ .running) : Ends (fun _ => res) res := ⟨h, 0, fun _ _ => rfl⟩

/-- A sequel of something that ends. -/
theorem Ends.bind {α β : Type} {f : Nat → Res α} {res : Res α} (h : Ends f res) {g : Nat → Res α → Res β} {res' : Res β}
    (hg : Ends (fun m => g m res) res') : Ends (fun m => g m (f m)) res' := by
  obtain ⟨-, n, hn⟩ := h
  obtain ⟨h0, n', hn'⟩ := hg
  refine ⟨h0, max n n', fun m hm => ?_⟩
  dsimp only
  rw [hn m (by omega)]
  exact hn' m (by omega)

theorem run_ends {d : Nat} {stk : List Who} {sc : Script} (h : sc.Flat) (tr : List Ev) (l : Lg) :
    ∃ res, Ends (fun m => run cap own P m d stk sc tr l) res := by
  induction sc generalizing tr l with
  | ret x => exact ⟨_, (Ends.const (res := .ended (some x) tr l) (by simp)).step fun m => by rw [run]⟩
  | throw => exact ⟨_, (Ends.const (res := .ended none tr l) (by simp)).step fun m => by rw [run]⟩
  | act a k ih =>
    cases hf : stk.find? fun x => !alive own (l.act cap a) x with
    | some x => exact ⟨_, (Ends.const (res := .dead x a) (by simp)).step fun m => by rw [run, hf]⟩
    | none =>
      obtain ⟨res, hr⟩ := ih h (tr ++ [.act a]) (l.act cap a)
      exact ⟨res, hr.step fun m => by rw [run, hf]⟩
  | fire r k => exact absurd h id

theorem Ends.ok (hcap : cap < 2 ^ 32) {d : Nat} {stk : List Who} {sc : Script} {tr : List Ev} {l : Lg} (h : Ok cap l) {o : Option Nat}
    {tr' : List Ev} {l' : Lg} (he : Ends (fun m => run cap own P m d stk sc tr l) (.ended o tr' l')) :
    ∃ new, tr' = tr ++ new ∧ l' = l.acts cap (actsOf new) ∧ Quiet d new := by
  obtain ⟨-, n, hn⟩ := he
  have := (spec (own := own) (P := P) hcap n).1 d stk sc tr l h
  have hn' : run cap own P n d stk sc tr l = _ := hn n (Nat.le_refl _)
  rw [hn'] at this
  exact this

theorem apply_ends (hcap : cap < 2 ^ 32) (hP : ∀ tr x r, (P tr x r).Flat) {d : Nat} {stk : List Who} (k : Nat) :
    ∀ (prev : Option Nat) (r : Rec) (tr : List Ev) (l : Lg), Ok cap l → (rest prev l.pend).length ≤ k →
      ∃ res, Ends (fun m => applyLoop cap own P m d stk prev r tr l) res := by
  induction k with
  | zero =>
    intro prev r tr l h hk
    have hh : rest prev l.pend = [] := List.eq_nil_of_length_eq_zero (by omega)
    exact ⟨_, (Ends.const (res := .ended (some r) tr l) (by simp)).step fun m => by rw [applyLoop, hh]; rfl⟩
  | succ k ih =>
    intro prev r tr l h hk
    cases hh : rest prev l.pend with
    | nil => exact ⟨_, (Ends.const (res := .ended (some r) tr l) (by simp)).step fun m => by rw [applyLoop, hh]; rfl⟩
    | cons e t =>
      obtain ⟨nm, v⟩ := e
      obtain ⟨res, hr⟩ := run_ends (cap := cap) (own := own) (P := P) (d := d) (stk := .value v :: stk) (hP tr (.value v) [])
        (tr ++ [.call d (.value v) nm []]) l
      let g : Nat → Res Nat → Res Rec := fun m q => match q with
        | .ended none tr' l' => .ended none (tr' ++ [.ret d (.value v) nm none]) l'
        | .ended (some x) tr' l' =>
          if l'.ins = l.ins ∧ l'.cuts.count nm = l.cuts.count nm then
            applyLoop cap own P m d stk (some nm) (recAdd r nm x) (tr' ++ [.ret d (.value v) nm (some x)]) l'
          else .fault
        | .fault => .fault
        | .dead x a => .dead x a
        | .running => .running
      have key : ∀ m, applyLoop cap own P (m + 1) d stk prev r tr l =
          g m (run cap own P m d (.value v :: stk) (P tr (.value v) []) (tr ++ [.call d (.value v) nm []]) l) := by
        intro m; rw [applyLoop, hh]
        dsimp only [List.head?_cons, g]
        cases run cap own P m d (.value v :: stk) (P tr (.value v) []) (tr ++ [.call d (.value v) nm []]) l with
        | ended o tr' l' => cases o <;> rfl
        | fault => rfl
        | dead x a => rfl
        | running => rfl
      have fin : ∃ res', Ends (fun m => g m res) res' := by
        cases res with
        | fault => exact ⟨_, Ends.const (by simp)⟩
        | dead x a => exact ⟨_, Ends.const (by simp)⟩
        | running => exact absurd rfl hr.1
        | ended o tr' l' =>
          cases o with
          | none => exact ⟨_, Ends.const (by simp)⟩
          | some x =>
            dsimp only [g]
            obtain ⟨new, rfl, rfl, hq⟩ := hr.ok hcap h
            split
            · rename_i hv
              refine ih (some nm) _ _ _ (h.acts hcap _) ?_
              have hl := congrArg List.length (rest_acts h hh hv.1 hv.2)
              have h1 := List.length_filter_le (fun m => decide (m ∉ removed (actsOf new))) (names t)
              rw [hh] at hk
              simp only [names, List.length_map, List.length_cons] at hl h1 hk
              omega
            · exact ⟨_, Ends.const (by simp)⟩
      obtain ⟨res', hf⟩ := fin
      exact ⟨res', (hr.bind hf).step key⟩

theorem sink_ends (hcap : cap < 2 ^ 32) (hP : ∀ tr x r, (P tr x r).Flat) {d : Nat} {stk : List Who} (k : Nat) :
    ∀ (i : Nat) (r : Rec) (tr : List Ev) (l : Lg), Ok cap l → cap - i ≤ k →
      ∃ res, Ends (fun m => sinkLoop cap own P m d stk i r tr l) res := by
  induction k with
  | zero =>
    intro i r tr l h hk
    have hsz := h.wf.size
    have hgt : l.ev.slots[i]? = none := by rw [List.getElem?_eq_none_iff]; omega
    cases hn : l.ev.next true i with
    | stop => exact ⟨_, (Ends.const (res := .ended (some ()) tr l) (by simp)).step fun m => by rw [sinkLoop, hn]⟩
    | null => exact ⟨_, (Ends.const (res := .fault) (by simp)).step fun m => by rw [sinkLoop, hn]⟩
    | skip => have := next_skip_lt hn; rw [hgt] at this; cases this
    | call s => have := (Event.next_call hn).1; rw [hgt] at this; cases this
    | callLast s => have := (Event.next_callLast h.wf hn).1; rw [hgt] at this; cases this
  | succ k ih =>
    intro i r tr l h hk
    have hsz := h.wf.size
    cases hn : l.ev.next true i with
    | stop => exact ⟨_, (Ends.const (res := .ended (some ()) tr l) (by simp)).step fun m => by rw [sinkLoop, hn]⟩
    | null => exact ⟨_, (Ends.const (res := .fault) (by simp)).step fun m => by rw [sinkLoop, hn]⟩
    | skip =>
      obtain ⟨res, hr⟩ := ih (i + 1) r tr l h (by omega)
      exact ⟨res, hr.step fun m => by rw [sinkLoop, hn]⟩
    | call s =>
      obtain ⟨res, hr⟩ := run_ends (cap := cap) (own := own) (P := P) (d := d) (stk := .sink s :: stk) (hP tr (.sink s) r)
        (tr ++ [.call d (.sink s) (i + 1) r]) l
      let g : Nat → Res Nat → Res Unit := fun m q => match q with
        | .ended none tr' l' => .ended none (tr' ++ [.ret d (.sink s) (i + 1) none]) l'
        | .ended (some x) tr' l' => sinkLoop cap own P m d stk (i + 1) r (tr' ++ [.ret d (.sink s) (i + 1) (some x)]) l'
        | .fault => .fault
        | .dead x a => .dead x a
        | .running => .running
      have key : ∀ m, sinkLoop cap own P (m + 1) d stk i r tr l =
          g m (run cap own P m d (.sink s :: stk) (P tr (.sink s) r) (tr ++ [.call d (.sink s) (i + 1) r]) l) := by
        intro m; rw [sinkLoop, hn]
        dsimp only [g]
        cases run cap own P m d (.sink s :: stk) (P tr (.sink s) r) (tr ++ [.call d (.sink s) (i + 1) r]) l with
        | ended o tr' l' => cases o <;> rfl
        | fault => rfl
        | dead x a => rfl
        | running => rfl
      have fin : ∃ res', Ends (fun m => g m res) res' := by
        cases res with
        | fault => exact ⟨_, Ends.const (by simp)⟩
        | dead x a => exact ⟨_, Ends.const (by simp)⟩
        | running => exact absurd rfl hr.1
        | ended o tr' l' =>
          cases o with
          | none => exact ⟨_, Ends.const (by simp)⟩
          | some x =>
            obtain ⟨new, rfl, rfl, hq⟩ := hr.ok hcap h
            exact ih (i + 1) r _ _ (h.acts hcap _) (by omega)
      obtain ⟨res', hf⟩ := fin
      exact ⟨res', (hr.bind hf).step key⟩
    | callLast s =>
      obtain ⟨res, hr⟩ := run_ends (cap := cap) (own := own) (P := P) (d := d) (stk := .sink s :: stk) (hP tr (.sink s) r)
        (tr ++ [.call d (.sink s) (i + 1) r]) l
      let g : Nat → Res Nat → Res Unit := fun m q => match q with
        | .ended o tr' l' => .ended (o.map fun _ => ()) (tr' ++ [.ret d (.sink s) (i + 1) o]) l'
        | .fault => .fault
        | .dead x a => .dead x a
        | .running => .running
      have key : ∀ m, sinkLoop cap own P (m + 1) d stk i r tr l =
          g m (run cap own P m d (.sink s :: stk) (P tr (.sink s) r) (tr ++ [.call d (.sink s) (i + 1) r]) l) := by
        intro m; rw [sinkLoop, hn]
        dsimp only [g]
        cases run cap own P m d (.sink s :: stk) (P tr (.sink s) r) (tr ++ [.call d (.sink s) (i + 1) r]) l <;> rfl
      have fin : ∃ res', Ends (fun m => g m res) res' := by
        cases res with
        | running => exact absurd rfl hr.1
        | _ => exact ⟨_, Ends.const (by simp [g])⟩
      obtain ⟨res', hf⟩ := fin
      exact ⟨res', (hr.bind hf).step key⟩

theorem fire_ends (hcap : cap < 2 ^ 32) (hP : ∀ tr x r, (P tr x r).Flat) {d : Nat} {stk : List Who} (r : Rec) (tr : List Ev) (l : Lg)
    (h : Ok cap l) : ∃ res, Ends (fun m => fire cap own P m d stk r tr l) res := by
  obtain ⟨res, hr⟩ := apply_ends (own := own) hcap hP (d := d) (stk := stk) (rest none l.pend).length none r tr l h (Nat.le_refl _)
  let gf : Nat → Rec → Nat → Res Nat → Res Unit := fun f r' m q => match q with
    | .fault => .fault
    | .dead x a => .dead x a
    | .running => .running
    | .ended none tr2 l2 => .ended none (tr2 ++ [.ret d (.filter f) 0 none]) l2
    | .ended (some x) tr2 l2 =>
      if x = 1 then sinkLoop cap own P m d stk 0 r' (tr2 ++ [.ret d (.filter f) 0 (some x)]) l2
      else .ended (some ()) (tr2 ++ [.ret d (.filter f) 0 (some x)]) l2
  let g : Nat → Res Rec → Res Unit := fun m q => match q with
    | .fault => .fault
    | .dead x a => .dead x a
    | .running => .running
    | .ended none tr' l' => .ended none tr' l'
    | .ended (some r') tr' l' =>
      match l'.filter with
      | none => sinkLoop cap own P m d stk 0 r' tr' l'
      | some f => gf f r' m (run cap own P m d (.filter f :: stk) (P tr' (.filter f) r') (tr' ++ [.call d (.filter f) 0 r']) l')
  have key : ∀ m, fire cap own P (m + 1) d stk r tr l = g m (applyLoop cap own P m d stk none r tr l) := by
    intro m; rw [fire]
    dsimp only [g, gf]
    cases applyLoop cap own P m d stk none r tr l with
    | fault => rfl
    | dead x a => rfl
    | running => rfl
    | ended o tr' l' =>
      cases o with
      | none => rfl
      | some r' =>
        dsimp only
        cases l'.filter with
        | none => rfl
        | some f =>
          dsimp only
          cases run cap own P m d (.filter f :: stk) (P tr' (.filter f) r') (tr' ++ [.call d (.filter f) 0 r']) l' with
          | ended o tr' l' => cases o <;> rfl
          | fault => rfl
          | dead x a => rfl
          | running => rfl
  have fin : ∃ res', Ends (fun m => g m res) res' := by
    cases res with
    | fault => exact ⟨_, Ends.const (by simp)⟩
    | dead x a => exact ⟨_, Ends.const (by simp)⟩
    | running => exact absurd rfl hr.1
    | ended o tr' l' =>
      have hok : Ok cap l' := by
        obtain ⟨-, n, hn⟩ := hr
        exact apply_ok hcap h (hn n (Nat.le_refl _))
      cases o with
      | none => exact ⟨_, Ends.const (by simp)⟩
      | some r' =>
        dsimp only [g]
        cases hf : l'.filter with
        | none => exact sink_ends hcap hP cap 0 r' tr' l' hok (by omega)
        | some f =>
          dsimp only
          obtain ⟨res2, hr2⟩ := run_ends (cap := cap) (own := own) (P := P) (d := d) (stk := .filter f :: stk) (hP tr' (.filter f) r')
            (tr' ++ [.call d (.filter f) 0 r']) l'
          have fin2 : ∃ res', Ends (fun m => gf f r' m res2) res' := by
            cases res2 with
            | fault => exact ⟨_, Ends.const (by simp)⟩
            | dead x a => exact ⟨_, Ends.const (by simp)⟩
            | running => exact absurd rfl hr2.1
            | ended o tr2 l2 =>
              cases o with
              | none => exact ⟨_, Ends.const (by simp)⟩
              | some x =>
                dsimp only [gf]
                split
                · obtain ⟨new, -, rfl, -⟩ := hr2.ok hcap hok
                  exact sink_ends hcap hP cap 0 r' _ _ (hok.acts hcap _) (by omega)
                · exact ⟨_, Ends.const (by simp)⟩
          obtain ⟨res', hf2⟩ := fin2
          exact ⟨res', hr2.bind hf2⟩
  obtain ⟨res', hf⟩ := fin
  exact ⟨res', (hr.bind hf).step key⟩

end Verif.Log.Re
