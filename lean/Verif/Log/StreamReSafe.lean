import Verif.Log.StreamReLemmas
set_option linter.unusedSimpArgs false
/-! Lemmas for C170: objects destroyed during their calls, invalid iterators and null pointers, who is called, and termination. -/
namespace Verif.Log.Ss
open Verif.Log.Re (has rest Rec recAdd names rest_cons)
variable {grow : Nat → Nat} {own : Who → Bool} {P : Progs}

theorem act_fmt {l : Sk} {a : Act} (h : l.fmt.isSome = true) : (l.act grow a).fmt.isSome = true := by
  cases a with
  | add n v => simp only [Sk.act]; split <;> exact h
  | update n v => simp only [Sk.act]; split <;> exact h
  | remove n => exact h
  | setFilter f => exact h
  | use f => cases f with
    | none => exact h
    | some f => rfl
  | addStream k =>
    cases k with
    | none => exact h
    | some k => simp only [Sk.act]; split <;> exact h

theorem acts_fmt {l : Sk} {as : List Act} (h : l.fmt.isSome = true) : (l.acts grow as).fmt.isSome = true := by
  induction as generalizing l with
  | nil => exact h
  | cons a as ih => exact ih (act_fmt h)

/-! ### Objects destroyed during their calls -/

theorem alive_act {l : Sk} {a : Act} {x : Who} (h1 : alive own l x = true)
    (h2 : alive own (l.act grow a) x = false) : own x = false ∧ a.releases x = true := by
  have ho : own x = false := by
    cases e : own x with
    | false => rfl
    | true => simp [alive, e] at h2
  refine ⟨ho, ?_⟩
  simp only [alive, ho, Bool.false_or] at h1 h2
  have no : ∀ {b : Bool} {p : Prop}, b = true → b = false → p := fun e e' => by rw [e] at e'; cases e'
  cases a with
  | add n w =>
    cases x with
    | value v =>
      simp only [Sk.act] at h2
      split at h2
      · exact no h1 h2
      · simp only [List.any_append, Bool.or_eq_false_iff] at h2; exact no h1 h2.1
    | filter f => simp only [Sk.act] at h2; split at h2 <;> exact no h1 h2
    | formatter f => simp only [Sk.act] at h2; split at h2 <;> exact no h1 h2
  | update n w =>
    cases x with
    | value v => rfl
    | filter f => simp only [Sk.act] at h2; split at h2 <;> exact no h1 h2
    | formatter f => simp only [Sk.act] at h2; split at h2 <;> exact no h1 h2
  | remove n =>
    cases x with
    | value v => rfl
    | filter f => exact no h1 h2
    | formatter f => exact no h1 h2
  | setFilter g =>
    cases x with
    | value v => exact no h1 h2
    | filter f => rfl
    | formatter f => exact no h1 h2
  | use g =>
    cases x with
    | value v => cases g <;> exact no h1 h2
    | filter f => cases g <;> exact no h1 h2
    | formatter f => rfl
  | addStream k =>
    cases k with
    | none => exact no h1 h2
    | some k => cases x <;> simp only [Sk.act] at h2 <;> split at h2 <;> exact no h1 h2

/-- What is true when callees are running that exist. -/
def Lives {α : Type} (own : Who → Bool) (stk : List Who) : Res α → Prop
  | .dead x a => own x = false ∧ a.releases x = true
  | .ended _ _ l => ∀ x ∈ stk, alive own l x = true
  | _ => True

theorem alive_value {l : Sk} {prev : Option Nat} {nm v : Nat} {t : List (Nat × Nat)} (h : rest prev l.pend = (nm, v) :: t) :
    alive own l (.value v) = true := by
  have : (nm, v) ∈ l.pend := by
    have hm : (nm, v) ∈ rest prev l.pend := by rw [h]; simp
    cases prev with
    | none => exact hm
    | some m => exact (List.dropWhile_sublist _).subset ((List.drop_sublist _ _).subset hm)
  simp only [alive, Bool.or_eq_true, List.any_eq_true, decide_eq_true_eq]
  exact .inr ⟨_, this, rfl⟩

theorem alive_fmt {l : Sk} {f : Nat} (h : l.fmt = some f) : alive own l (.formatter f) = true := by
  simp [alive, h]

theorem alive_filter {l : Sk} {f : Nat} (h : l.filter = some f) : alive own l (.filter f) = true := by
  simp [alive, h]

theorem run_ok {n d : Nat} {stk : List Who} {sc : Script} {tr : List Ev} {l : Sk} (h : Ok l) {o : Option Nat}
    {tr' : List Ev} {l' : Sk} (hr : run grow own P n d stk sc tr l = .ended o tr' l') : Ok l' := by
  have := (spec (grow := grow) (own := own) (P := P) n).1 d stk sc tr l h
  rw [hr] at this
  obtain ⟨new, -, rfl, -⟩ := this
  exact h.acts _

theorem fire_ok {n d : Nat} {stk : List Who} {r : Rec} {tr : List Ev} {l : Sk} (h : Ok l) {o : Option Unit}
    {tr' : List Ev} {l' : Sk} (hr : fire grow own P n d stk r tr l = .ended o tr' l') : Ok l' := by
  have := (spec (grow := grow) (own := own) (P := P) n).2.2.2 d stk r tr l h
  rw [hr] at this
  obtain ⟨new, -, rfl, -⟩ := this
  exact h.acts _

theorem apply_ok {n d : Nat} {stk : List Who} {prev : Option Nat} {r : Rec} {tr : List Ev} {l : Sk} (h : Ok l)
    {o : Option Rec} {tr' : List Ev} {l' : Sk} (hr : applyLoop grow own P n d stk prev r tr l = .ended o tr' l') : Ok l' := by
  have := (spec (grow := grow) (own := own) (P := P) n).2.1 d stk prev r tr l h
  rw [hr] at this
  cases o with
  | none => obtain ⟨new, -, rfl, -⟩ := this; exact h.acts _
  | some r' => obtain ⟨new, vs, -, rfl, -⟩ := this; exact h.acts _

theorem run_fmt {n d : Nat} {stk : List Who} {sc : Script} {tr : List Ev} {l : Sk} (h : Ok l) (hk : l.fmt.isSome = true) {o : Option Nat}
    {tr' : List Ev} {l' : Sk} (hr : run grow own P n d stk sc tr l = .ended o tr' l') : l'.fmt.isSome = true := by
  have := (spec (grow := grow) (own := own) (P := P) n).1 d stk sc tr l h
  rw [hr] at this
  obtain ⟨new, -, rfl, -⟩ := this
  exact acts_fmt hk

theorem apply_fmt {n d : Nat} {stk : List Who} {prev : Option Nat} {r : Rec} {tr : List Ev} {l : Sk} (h : Ok l)
    (hk : l.fmt.isSome = true) {o : Option Rec} {tr' : List Ev} {l' : Sk} (hr : applyLoop grow own P n d stk prev r tr l = .ended o tr' l') :
    l'.fmt.isSome = true := by
  have := (spec (grow := grow) (own := own) (P := P) n).2.1 d stk prev r tr l h
  rw [hr] at this
  cases o with
  | none => obtain ⟨new, -, rfl, -⟩ := this; exact acts_fmt hk
  | some r' => obtain ⟨new, vs, -, rfl, -⟩ := this; exact acts_fmt hk

theorem lives (n : Nat) :
    (∀ d stk sc tr l, Ok l → (∀ x ∈ stk, alive own l x = true) → Lives own stk (run grow own P n d stk sc tr l)) ∧
    (∀ d stk prev r tr l, Ok l → (∀ x ∈ stk, alive own l x = true) → Lives own stk (applyLoop grow own P n d stk prev r tr l)) ∧
    (∀ d stk i r tr l, Ok l → (∀ x ∈ stk, alive own l x = true) → Lives own stk (streamLoop grow own P n d stk i r tr l)) ∧
    (∀ d stk r tr l, Ok l → (∀ x ∈ stk, alive own l x = true) → Lives own stk (fire grow own P n d stk r tr l)) := by
  induction n with
  | zero => refine ⟨?_, ?_, ?_, ?_⟩ <;> intros <;> simp [run, applyLoop, streamLoop, fire, Lives]
  | succ n ih =>
    obtain ⟨ihR, ihA, ihS, ihF⟩ := ih
    have push : ∀ {l : Sk} {y : Who} {stk : List Who}, alive own l y = true → (∀ x ∈ stk, alive own l x = true) →
        ∀ x ∈ y :: stk, alive own l x = true := by
      intro l y stk hy hs x hx
      rcases List.mem_cons.1 hx with rfl | hx
      · exact hy
      · exact hs x hx
    refine ⟨?_, ?_, ?_, ?_⟩
    · intro d stk sc tr l h hl
      cases sc with
      | ret x => rw [run]; exact hl
      | throw => rw [run]; exact hl
      | act a k =>
        rw [run]
        cases hf : stk.find? fun x => !alive own (l.act grow a) x with
        | some x =>
          exact alive_act (hl x (List.mem_of_find?_eq_some hf)) (by simpa using List.find?_some hf)
        | none =>
          refine ihR d stk k _ _ (h.act a) ?_
          intro x hx
          have := List.find?_eq_none.1 hf x hx
          simpa using this
      | fire r k =>
        rw [run]
        have h1 := ihF (d + 1) stk r tr l h hl
        cases hf : fire grow own P n (d + 1) stk r tr l with
        | fault => trivial
        | dead x a => rw [hf] at h1; exact h1
        | running => trivial
        | ended o tr1 l1 =>
          rw [hf] at h1
          exact ihR d stk _ tr1 l1 (fire_ok h hf) h1
    · intro d stk prev r tr l h hl
      rw [applyLoop]
      cases hh : rest prev l.pend with
      | nil => exact hl
      | cons e t =>
        obtain ⟨nm, v⟩ := e
        dsimp only [List.head?_cons]
        have h1 := ihR d (.value v :: stk) (P tr (.value v) nm []) (tr ++ [.call d (.value v) nm []]) l h (push (alive_value hh) hl)
        cases hr : run grow own P n d (.value v :: stk) (P tr (.value v) nm []) (tr ++ [.call d (.value v) nm []]) l with
        | fault => trivial
        | dead x a => rw [hr] at h1; exact h1
        | running => trivial
        | ended o tr' l' =>
          rw [hr] at h1
          have h2 : ∀ x ∈ stk, alive own l' x = true := fun x hx => h1 x (List.mem_cons_of_mem _ hx)
          cases o with
          | none => exact h2
          | some x =>
            dsimp only
            split
            · exact ihA d stk _ _ _ _ (run_ok h hr) h2
            · trivial
    · intro d stk i r tr l h hl
      rw [streamLoop]
      cases hs : l.strs[i]? with
      | none => exact hl
      | some k =>
        dsimp only
        cases hf : l.fmt with
        | none => trivial
        | some f =>
          dsimp only
          have h1 := ihR d (.formatter f :: stk) (P tr (.formatter f) k r) (tr ++ [.call d (.formatter f) k r]) l h (push (alive_fmt hf) hl)
          cases hr : run grow own P n d (.formatter f :: stk) (P tr (.formatter f) k r) (tr ++ [.call d (.formatter f) k r]) l with
          | fault => trivial
          | dead x a => rw [hr] at h1; exact h1
          | running => trivial
          | ended o tr' l' =>
            rw [hr] at h1
            have h2 : ∀ x ∈ stk, alive own l' x = true := fun x hx => h1 x (List.mem_cons_of_mem _ hx)
            cases o with
            | none => exact h2
            | some x =>
              dsimp only
              split
              · exact ihS d stk (i + 1) r _ _ (run_ok h hr) h2
              · trivial
    · intro d stk r tr l h hl
      rw [fire]
      cases hfm : l.fmt with
      | none => exact hl
      | some fm =>
      dsimp only
      have hA := ihA d stk none r tr l h hl
      cases ha : applyLoop grow own P n d stk none r tr l with
      | fault => trivial
      | dead x a => rw [ha] at hA; exact hA
      | running => trivial
      | ended o tr1 l1 =>
        rw [ha] at hA
        have hok := apply_ok h ha
        cases o with
        | none => exact hA
        | some r' =>
          dsimp only
          cases hf : l1.filter with
          | none => exact ihS d stk 0 r' tr1 l1 hok hA
          | some f =>
            dsimp only
            have h1 := ihR d (.filter f :: stk) (P tr1 (.filter f) 0 r') (tr1 ++ [.call d (.filter f) 0 r']) l1 hok
              (push (alive_filter hf) hA)
            cases hr : run grow own P n d (.filter f :: stk) (P tr1 (.filter f) 0 r') (tr1 ++ [.call d (.filter f) 0 r']) l1 with
            | fault => trivial
            | dead x a => rw [hr] at h1; exact h1
            | running => trivial
            | ended o tr2 l2 =>
              rw [hr] at h1
              have h2 : ∀ x ∈ stk, alive own l2 x = true := fun x hx => h1 x (List.mem_cons_of_mem _ hx)
              cases o with
              | none => exact h2
              | some x =>
                dsimp only
                split
                · exact ihS d stk 0 r' _ _ (run_ok hok hr) h2
                · exact h2

/-! ### What the callees do -/

/-- Only a call that satisfies `q` destroys a callee. -/
def Made {α : Type} (q : Act → Prop) : Res α → Prop
  | .dead _ a => q a
  | _ => True

theorem made {q : Act → Prop} (hP : ∀ tr x c r, (P tr x c r).All q) (n : Nat) :
    (∀ d stk sc tr l, sc.All q → Made q (run grow own P n d stk sc tr l)) ∧
    (∀ d stk prev r tr l, Made q (applyLoop grow own P n d stk prev r tr l)) ∧
    (∀ d stk i r tr l, Made q (streamLoop grow own P n d stk i r tr l)) ∧
    (∀ d stk r tr l, Made q (fire grow own P n d stk r tr l)) := by
  induction n with
  | zero => refine ⟨?_, ?_, ?_, ?_⟩ <;> intros <;> simp [run, applyLoop, streamLoop, fire, Made]
  | succ n ih =>
    obtain ⟨ihR, ihA, ihS, ihF⟩ := ih
    refine ⟨?_, ?_, ?_, ?_⟩
    · intro d stk sc tr l hsc
      cases sc with
      | ret x => rw [run]; trivial
      | throw => rw [run]; trivial
      | act a k =>
        rw [run]
        cases hf : stk.find? fun x => !alive own (l.act grow a) x with
        | some x => exact hsc.1
        | none => exact ihR d stk k _ _ hsc.2
      | fire r k =>
        rw [run]
        have h1 := ihF (d + 1) stk r tr l
        cases hf : fire grow own P n (d + 1) stk r tr l with
        | fault => trivial
        | dead x a => rw [hf] at h1; exact h1
        | running => trivial
        | ended o tr1 l1 => exact ihR d stk _ tr1 l1 (hsc _)
    · intro d stk prev r tr l
      rw [applyLoop]
      cases hh : rest prev l.pend with
      | nil => trivial
      | cons e t =>
        obtain ⟨nm, v⟩ := e
        dsimp only [List.head?_cons]
        have h1 := ihR d (.value v :: stk) (P tr (.value v) nm []) (tr ++ [.call d (.value v) nm []]) l (hP _ _ _ _)
        cases hr : run grow own P n d (.value v :: stk) (P tr (.value v) nm []) (tr ++ [.call d (.value v) nm []]) l with
        | fault => trivial
        | dead x a => rw [hr] at h1; exact h1
        | running => trivial
        | ended o tr' l' =>
          cases o with
          | none => trivial
          | some x =>
            dsimp only
            split
            · exact ihA d stk _ _ _ _
            · trivial
    · intro d stk i r tr l
      rw [streamLoop]
      cases hs : l.strs[i]? with
      | none => trivial
      | some k =>
        dsimp only
        cases hf : l.fmt with
        | none => trivial
        | some f =>
          dsimp only
          have h1 := ihR d (.formatter f :: stk) (P tr (.formatter f) k r) (tr ++ [.call d (.formatter f) k r]) l (hP _ _ _ _)
          cases hr : run grow own P n d (.formatter f :: stk) (P tr (.formatter f) k r) (tr ++ [.call d (.formatter f) k r]) l with
          | fault => trivial
          | dead x a => rw [hr] at h1; exact h1
          | running => trivial
          | ended o tr' l' =>
            cases o with
            | none => trivial
            | some x =>
              dsimp only
              split
              · exact ihS d stk (i + 1) r _ _
              · trivial
    · intro d stk r tr l
      rw [fire]
      cases hfm : l.fmt with
      | none => trivial
      | some fm =>
      dsimp only
      have hA := ihA d stk none r tr l
      cases ha : applyLoop grow own P n d stk none r tr l with
      | fault => trivial
      | dead x a => rw [ha] at hA; exact hA
      | running => trivial
      | ended o tr1 l1 =>
        cases o with
        | none => trivial
        | some r' =>
          dsimp only
          cases hf : l1.filter with
          | none => exact ihS d stk 0 r' tr1 l1
          | some f =>
            dsimp only
            have h1 := ihR d (.filter f :: stk) (P tr1 (.filter f) 0 r') (tr1 ++ [.call d (.filter f) 0 r']) l1 (hP _ _ _ _)
            cases hr : run grow own P n d (.filter f :: stk) (P tr1 (.filter f) 0 r') (tr1 ++ [.call d (.filter f) 0 r']) l1 with
            | fault => trivial
            | dead x a => rw [hr] at h1; exact h1
            | running => trivial
            | ended o tr2 l2 =>
              cases o with
              | none => trivial
              | some x =>
                dsimp only
                split
                · exact ihS d stk 0 r' _ _
                · trivial

/-- Whether a call adds a stream.  (Specification; no code.) -/
def Act.onStreams : Act → Bool
  | .addStream _ => true
  | _ => false

theorem act_moves {l : Sk} {a : Act} (h : a.onStreams = false) : (l.act grow a).moves = l.moves := by
  cases a with
  | add n v => simp only [Sk.act]; split <;> rfl
  | update n v => simp only [Sk.act]; split <;> rfl
  | remove n => rfl
  | setFilter f => rfl
  | use f => cases f <;> rfl
  | addStream k => cases h

/-- Every name in `S` has a pending value.  (Specification; no code.) -/
def Pending (S : Nat → Prop) (l : Sk) : Prop := ∀ m, S m → has l.pend m = true

theorem Pending.act {S : Nat → Prop} {l : Sk} (h : Pending S l) {a : Act} (ha : ∀ m, S m → a ≠ .remove m) : Pending S (l.act grow a) := by
  have hn : ∀ {p : List (Nat × Nat)} {n : Nat}, has p n = true ↔ n ∈ p.map (·.1) := by
    intro p n
    simp only [has, List.any_eq_true, decide_eq_true_eq, List.mem_map]
  intro m hm
  have h0 := hn.1 (h m hm)
  rw [hn]
  cases a with
  | add n v => simp only [Sk.act]; split; exact h0; rw [List.map_append]; exact List.mem_append_left _ h0
  | update n v =>
    simp only [Sk.act]
    split
    · rw [List.map_map]
      obtain ⟨e, he, rfl⟩ := List.mem_map.1 h0
      refine List.mem_map.2 ⟨e, he, ?_⟩
      simp only [Function.comp]
      split
      · rename_i g; exact g.symm
      · rfl
    · rw [List.map_append]; exact List.mem_append_left _ h0
  | remove n =>
    obtain ⟨e, he, rfl⟩ := List.mem_map.1 h0
    refine List.mem_map.2 ⟨e, List.mem_filter.2 ⟨he, ?_⟩, rfl⟩
    have : e.1 ≠ n := fun g => ha e.1 hm (by rw [g])
    simpa using this
  | setFilter f => exact h0
  | use f => cases f <;> exact h0
  | addStream k =>
    cases k with
    | none => exact h0
    | some k => simp only [Sk.act]; split <;> exact h0

theorem known_same {S : Nat → Prop} {l : Sk} (h : Pending S l) {a : Act} (ha : a.onKnown S) :
    ((l.act grow a).ins, (l.act grow a).cuts) = (l.ins, l.cuts) := by
  cases a with
  | add n v => simp only [Sk.act]; rw [if_pos (h n ha)]
  | update n v => simp only [Sk.act]; rw [if_pos (h n ha)]
  | remove n => exact absurd ha id
  | setFilter f => rfl
  | use f => cases f <;> rfl
  | addStream k =>
    cases k with
    | none => rfl
    | some k => simp only [Sk.act]; split <;> rfl

/-- A callee that fires nothing and makes only calls that leave something as it is leaves it so, and `run` does not fault. -/
theorem flat_run {α : Type} {p : Act → Prop} {g : Sk → α} {Q : Sk → Prop} (hg : ∀ l a, Q l → p a → g (l.act grow a) = g l ∧ Q (l.act grow a)) {n d : Nat} {stk : List Who} {sc : Script}
    {tr : List Ev} {l : Sk} (h0 : Q l) (h1 : sc.Flat) (h2 : sc.All p) :
    match run grow own P n d stk sc tr l with
    | .ended _ _ l' => g l' = g l
    | .fault => False
    | _ => True := by
  induction n generalizing sc tr l with
  | zero => simp [run]
  | succ n ih =>
    cases sc with
    | ret x => simp [run]
    | throw => simp [run]
    | act a k =>
      rw [run]
      cases hf : stk.find? fun x => !alive own (l.act grow a) x with
      | some x => trivial
      | none =>
        dsimp only
        have := ih (sc := k) (tr := tr ++ [.act a]) (l := l.act grow a) (hg l a h0 h2.1).2 h1 h2.2
        have hm := (hg l a h0 h2.1).1
        cases hr : run grow own P n d stk k (tr ++ [.act a]) (l.act grow a) with
        | fault => rw [hr] at this; exact this
        | dead x a => trivial
        | running => trivial
        | ended o tr' l' => rw [hr] at this; exact this.trans hm
    | fire r k => exact absurd h1 id

/-- No invalid iterator or null pointer is used, and names stay pending. -/
def Sound {α : Type} (S : Nat → Prop) : Res α → Prop
  | .fault => False
  | .ended _ _ l' => Pending S l'
  | _ => True

theorem sound {S : Nat → Prop}
    (hP : ∀ tr x c r, (P tr x c r).All fun a => ∀ m, S m → a ≠ .remove m)
    (hV : ∀ tr v c r, (P tr (.value v) c r).Flat ∧ (P tr (.value v) c r).All fun a => a.onKnown S)
    (hF : ∀ tr f c r, (P tr (.formatter f) c r).Flat ∧ (P tr (.formatter f) c r).All fun a => a.onStreams = false) (n : Nat) :
    (∀ d stk sc tr l, Ok l → Pending S l → (sc.All fun a => ∀ m, S m → a ≠ .remove m) → Sound S (run grow own P n d stk sc tr l)) ∧
    (∀ d stk prev r tr l, Ok l → Pending S l → Sound S (applyLoop grow own P n d stk prev r tr l)) ∧
    (∀ d stk i r tr l, Ok l → Pending S l → l.fmt.isSome = true → Sound S (streamLoop grow own P n d stk i r tr l)) ∧
    (∀ d stk r tr l, Ok l → Pending S l → Sound S (fire grow own P n d stk r tr l)) := by
  induction n with
  | zero => refine ⟨?_, ?_, ?_, ?_⟩ <;> intros <;> simp [run, applyLoop, streamLoop, fire, Sound]
  | succ n ih =>
    obtain ⟨ihR, ihA, ihS, ihF⟩ := ih
    refine ⟨?_, ?_, ?_, ?_⟩
    · intro d stk sc tr l h hs hsc
      cases sc with
      | ret x => rw [run]; exact hs
      | throw => rw [run]; exact hs
      | act a k' =>
        rw [run]
        cases hf : stk.find? fun x => !alive own (l.act grow a) x with
        | some x => trivial
        | none => exact ihR d stk k' _ _ (h.act a) (hs.act hsc.1) hsc.2
      | fire r k' =>
        rw [run]
        have h1 := ihF (d + 1) stk r tr l h hs
        cases hf : fire grow own P n (d + 1) stk r tr l with
        | fault => rw [hf] at h1; exact h1
        | dead x a => trivial
        | running => trivial
        | ended o tr1 l1 => rw [hf] at h1; exact ihR d stk _ tr1 l1 (fire_ok h hf) h1 (hsc _)
    · intro d stk prev r tr l h hs
      rw [applyLoop]
      cases hh : rest prev l.pend with
      | nil => exact hs
      | cons e t =>
        obtain ⟨nm, v⟩ := e
        dsimp only [List.head?_cons]
        have h3 := flat_run (grow := grow) (own := own) (P := P) (n := n) (d := d) (stk := .value v :: stk) (g := fun l => (l.ins, l.cuts))
          (tr := tr ++ [.call d (.value v) nm []]) (l := l) (p := fun a => a.onKnown S) (Q := Pending S)
          (fun l a hl ha => ⟨known_same hl ha, hl.act fun m hm e => by rw [e] at ha; exact ha⟩) hs (hV tr v nm []).1 (hV tr v nm []).2
        have h1 := ihR d (.value v :: stk) (P tr (.value v) nm []) (tr ++ [.call d (.value v) nm []]) l h hs (hP _ _ _ _)
        cases hr : run grow own P n d (.value v :: stk) (P tr (.value v) nm []) (tr ++ [.call d (.value v) nm []]) l with
        | fault => rw [hr] at h3; exact h3
        | dead x a => trivial
        | running => trivial
        | ended o tr' l' =>
          rw [hr] at h1 h3
          cases o with
          | none => exact h1
          | some x =>
            dsimp only
            have h4 : (l'.ins, l'.cuts) = (l.ins, l.cuts) := h3
            rw [if_pos ⟨(Prod.mk.inj h4).1, by rw [(Prod.mk.inj h4).2]⟩]
            exact ihA d stk _ _ _ _ (run_ok h hr) h1
    · intro d stk i r tr l h hp hk
      rw [streamLoop]
      cases hs : l.strs[i]? with
      | none => exact hp
      | some k =>
        dsimp only
        cases hf : l.fmt with
        | none => rw [hf] at hk; cases hk
        | some f =>
          dsimp only
          have h0 := ihR d (.formatter f :: stk) (P tr (.formatter f) k r) (tr ++ [.call d (.formatter f) k r]) l h hp (hP _ _ _ _)
          have h1 := flat_run (grow := grow) (own := own) (P := P) (n := n) (d := d) (stk := .formatter f :: stk) (g := fun l => l.moves)
            (tr := tr ++ [.call d (.formatter f) k r]) (l := l) (p := fun a => a.onStreams = false) (Q := fun _ => True)
            (fun l a _ ha => ⟨act_moves ha, trivial⟩) trivial (hF tr f k r).1 (hF tr f k r).2
          cases hr : run grow own P n d (.formatter f :: stk) (P tr (.formatter f) k r) (tr ++ [.call d (.formatter f) k r]) l with
          | fault => rw [hr] at h1; exact h1
          | dead x a => trivial
          | running => trivial
          | ended o tr' l' =>
            rw [hr] at h0 h1
            cases o with
            | none => exact h0
            | some x =>
              dsimp only
              have h4 : l'.moves = l.moves := h1
              rw [if_pos h4]
              exact ihS d stk (i + 1) r _ _ (run_ok h hr) h0 (run_fmt h hk hr)
    · intro d stk r tr l h hs
      rw [fire]
      cases hfm : l.fmt with
      | none => exact hs
      | some fm =>
      have hk : l.fmt.isSome = true := by rw [hfm]; rfl
      dsimp only
      have hA := ihA d stk none r tr l h hs
      cases ha : applyLoop grow own P n d stk none r tr l with
      | fault => rw [ha] at hA; exact hA
      | dead x a => trivial
      | running => trivial
      | ended o tr1 l1 =>
        rw [ha] at hA
        have hok := apply_ok h ha
        have hk1 := apply_fmt h hk ha
        cases o with
        | none => exact hA
        | some r' =>
          dsimp only
          cases hf : l1.filter with
          | none => exact ihS d stk 0 r' tr1 l1 hok hA hk1
          | some f =>
            dsimp only
            have h1 := ihR d (.filter f :: stk) (P tr1 (.filter f) 0 r') (tr1 ++ [.call d (.filter f) 0 r']) l1 hok hA (hP _ _ _ _)
            cases hr : run grow own P n d (.filter f :: stk) (P tr1 (.filter f) 0 r') (tr1 ++ [.call d (.filter f) 0 r']) l1 with
            | fault => rw [hr] at h1; exact h1
            | dead x a => trivial
            | running => trivial
            | ended o tr2 l2 =>
              rw [hr] at h1
              cases o with
              | none => exact h1
              | some x =>
                dsimp only
                split
                · exact ihS d stk 0 r' _ _ (run_ok hok hr) h1 (run_fmt hok hk1 hr)
                · exact h1

/-! ### Who is called -/

theorem current_append {l : Sk} {a b : List Ev} : Current grow l (a ++ b) ↔ Current grow l a ∧ Current grow (l.acts grow (actsOf a)) b := by
  induction a generalizing l with
  | nil => simp [Current, actsOf, Sk.acts]
  | cons e t ih =>
    cases e with
    | act x => exact ih
    | ret d x c o => exact ih
    | call d x c r =>
      cases x with
      | value v => exact (and_congr_right fun _ => ih).trans and_assoc.symm
      | filter f => exact (and_congr_right fun _ => ih).trans and_assoc.symm
      | formatter f =>
        simp only [List.cons_append, Current, ih]
        have : actsOf (.call d (.formatter f) c r :: t) = actsOf t := rfl
        rw [this]
        simp only [and_assoc]

/-- Whom the sink may call for `c`. -/
def Now (l : Sk) : Who → Nat → Prop
  | .value v, c => (c, v) ∈ l.pend
  | .filter f, _ => l.filter = some f
  | .formatter f, k => l.fmt = some f ∧ k ∈ l.strs

theorem current_call {d c : Nat} {x : Who} {r : Rec} {o : Option Nat} {l : Sk} {new : List Ev} (h : Now l x c) (h' : Current grow l new) :
    Current grow l ([.call d x c r] ++ new ++ [.ret d x c o]) := by
  rw [List.append_assoc]
  have : Current grow l (new ++ [.ret d x c o]) := current_append.2 ⟨h', trivial⟩
  cases x with
  | value v => exact ⟨h, this⟩
  | filter f => exact ⟨h, this⟩
  | formatter f => exact ⟨h.1, h.2, this⟩

/-- Whatever has been added to the trace, everybody in it was called rightly. -/
def Right {α : Type} (grow : Nat → Nat) (tr : List Ev) (l : Sk) : Res α → Prop
  | .ended _ tr' l' => ∃ new, tr' = tr ++ new ∧ l' = l.acts grow (actsOf new) ∧ Current grow l new
  | _ => True

theorem Right.more {α : Type} {tr new : List Ev} {l : Sk} {res : Res α} (h : Current grow l new)
    (hr : Right grow (tr ++ new) (l.acts grow (actsOf new)) res) : Right grow tr l res := by
  cases res with
  | ended o tr' l' =>
    obtain ⟨new', e1, e2, c⟩ := hr
    exact ⟨new ++ new', by simp [e1], by rw [actsOf_append, acts_append, e2], current_append.2 ⟨h, c⟩⟩
  | fault => trivial
  | dead x a => trivial
  | running => trivial

theorem mem_rest {prev : Option Nat} {p : List (Nat × Nat)} {e : Nat × Nat} (h : e ∈ rest prev p) : e ∈ p := by
  cases prev with
  | none => exact h
  | some m => exact (List.dropWhile_sublist _).subset ((List.drop_sublist _ _).subset h)

theorem right (n : Nat) :
    (∀ d stk sc tr l, Right grow tr l (run grow own P n d stk sc tr l)) ∧
    (∀ d stk prev r tr l, Right grow tr l (applyLoop grow own P n d stk prev r tr l)) ∧
    (∀ d stk i r tr l, Right grow tr l (streamLoop grow own P n d stk i r tr l)) ∧
    (∀ d stk r tr l, Right grow tr l (fire grow own P n d stk r tr l)) := by
  induction n with
  | zero => refine ⟨?_, ?_, ?_, ?_⟩ <;> intros <;> simp [run, applyLoop, streamLoop, fire, Right]
  | succ n ih =>
    obtain ⟨ihR, ihA, ihS, ihF⟩ := ih
    have stop : ∀ {α : Type} {o : Option α} {tr : List Ev} {l : Sk}, Right grow tr l (.ended o tr l) := fun {α} {o} {tr} {l} =>
      ⟨[], by simp, rfl, trivial⟩
    have called : ∀ {α : Type} {d c : Nat} {x : Who} {r : Rec} {q : Option Nat} {tr new : List Ev} {l : Sk} {res : Res α}, Now l x c →
        Current grow l new →
        Right grow ((tr ++ [.call d x c r]) ++ new ++ [.ret d x c q]) (l.acts grow (actsOf new)) res → Right grow tr l res := by
      intro α d c x r q tr new l res h1 h2 h3
      refine Right.more (current_call (d := d) (r := r) (o := q) h1 h2) ?_
      rw [acts_call]
      simpa using h3
    refine ⟨?_, ?_, ?_, ?_⟩
    · intro d stk sc tr l
      cases sc with
      | ret x => rw [run]; exact stop
      | throw => rw [run]; exact stop
      | act a k =>
        rw [run]
        cases hf : stk.find? fun x => !alive own (l.act grow a) x with
        | some x => trivial
        | none => exact Right.more (new := [.act a]) trivial (ihR d stk k _ _)
      | fire r k =>
        rw [run]
        have h1 := ihF (d + 1) stk r tr l
        cases hf : fire grow own P n (d + 1) stk r tr l with
        | fault => trivial
        | dead x a => trivial
        | running => trivial
        | ended o tr1 l1 =>
          rw [hf] at h1
          obtain ⟨new, rfl, rfl, c⟩ := h1
          exact Right.more c (ihR d stk _ _ _)
    · intro d stk prev r tr l
      rw [applyLoop]
      cases hh : rest prev l.pend with
      | nil => exact stop
      | cons e t =>
        obtain ⟨nm, v⟩ := e
        dsimp only [List.head?_cons]
        have hm : Now l (.value v) nm := mem_rest (prev := prev) (by rw [hh]; simp)
        have h1 := ihR d (.value v :: stk) (P tr (.value v) nm []) (tr ++ [.call d (.value v) nm []]) l
        cases hr : run grow own P n d (.value v :: stk) (P tr (.value v) nm []) (tr ++ [.call d (.value v) nm []]) l with
        | fault => trivial
        | dead x a => trivial
        | running => trivial
        | ended o tr' l' =>
          rw [hr] at h1
          obtain ⟨new, rfl, rfl, c⟩ := h1
          cases o with
          | none => exact called hm c stop
          | some x =>
            dsimp only
            split
            · exact called hm c (ihA d stk _ _ _ _)
            · trivial
    · intro d stk i r tr l
      rw [streamLoop]
      cases hs : l.strs[i]? with
      | none => exact stop
      | some k =>
        dsimp only
        cases hf : l.fmt with
        | none => trivial
        | some f =>
          dsimp only
          have h1 := ihR d (.formatter f :: stk) (P tr (.formatter f) k r) (tr ++ [.call d (.formatter f) k r]) l
          cases hr : run grow own P n d (.formatter f :: stk) (P tr (.formatter f) k r) (tr ++ [.call d (.formatter f) k r]) l with
          | fault => trivial
          | dead x a => trivial
          | running => trivial
          | ended o tr' l' =>
            rw [hr] at h1
            obtain ⟨new, rfl, rfl, c⟩ := h1
            have hm : Now l (.formatter f) k := ⟨hf, List.mem_of_getElem? hs⟩
            cases o with
            | none => exact called hm c stop
            | some x =>
              dsimp only
              split
              · exact called hm c (ihS d stk (i + 1) r _ _)
              · trivial
    · intro d stk r tr l
      rw [fire]
      cases hfm : l.fmt with
      | none => exact stop
      | some fm =>
      dsimp only
      have hA := ihA d stk none r tr l
      cases ha : applyLoop grow own P n d stk none r tr l with
      | fault => trivial
      | dead x a => trivial
      | running => trivial
      | ended o tr1 l1 =>
        rw [ha] at hA
        obtain ⟨a, rfl, rfl, ca⟩ := hA
        cases o with
        | none => exact Right.more ca stop
        | some r' =>
          dsimp only
          cases hf : (l.acts grow (actsOf a)).filter with
          | none => exact Right.more ca (ihS d stk 0 r' _ _)
          | some f =>
            dsimp only
            have hm : Now (l.acts grow (actsOf a)) (.filter f) 0 := hf
            have h1 := ihR d (.filter f :: stk) (P (tr ++ a) (.filter f) 0 r') ((tr ++ a) ++ [.call d (.filter f) 0 r']) (l.acts grow (actsOf a))
            cases hr : run grow own P n d (.filter f :: stk) (P (tr ++ a) (.filter f) 0 r') ((tr ++ a) ++ [.call d (.filter f) 0 r'])
                (l.acts grow (actsOf a)) with
            | fault => trivial
            | dead x a => trivial
            | running => trivial
            | ended o tr2 l2 =>
              rw [hr] at h1
              obtain ⟨new, rfl, rfl, c⟩ := h1
              cases o with
              | none => exact Right.more ca (called hm c stop)
              | some x =>
                dsimp only
                split
                · exact Right.more ca (called hm c (ihS d stk 0 r' _ _))
                · exact Right.more ca (called hm c stop)

/-! ### Termination -/

/-- The outcome for all large amounts of fuel.  (Specification; no code.) -/
def Ends {α : Type} (f : Nat → Res α) (res : Res α) : Prop := res ≠ .running ∧ ∃ n, ∀ m, n ≤ m → f m = res

theorem Ends.step {α : Type} {f : Nat → Res α} {g : Nat → Res α} {res : Res α} (hg : Ends g res) (h : ∀ m, f (m + 1) = g m) : Ends f res := by
  obtain ⟨h0, n, hn⟩ := hg
  refine ⟨h0, n + 1, fun m hm => ?_⟩
  obtain ⟨m, rfl⟩ : ∃ k, m = k + 1 := ⟨m - 1, by omega⟩
  rw [h]; exact hn m (by omega)

theorem Ends.const {α : Type} {res : Res α} (h : res ≠ .running) : Ends (fun _ => res) res := ⟨h, 0, fun _ _ => rfl⟩

/-- A sequel of something that ends. -/
theorem Ends.bind {α β : Type} {f : Nat → Res α} {res : Res α} (h : Ends f res) {g : Nat → Res α → Res β} {res' : Res β}
    (hg : Ends (fun m => g m res) res') : Ends (fun m => g m (f m)) res' := by
  obtain ⟨-, n, hn⟩ := h
  obtain ⟨h0, n', hn'⟩ := hg
  refine ⟨h0, max n n', fun m hm => ?_⟩
  dsimp only
  rw [hn m (by omega)]
  exact hn' m (by omega)

theorem run_ends {d : Nat} {stk : List Who} {sc : Script} (h : sc.Flat) (tr : List Ev) (l : Sk) :
    ∃ res, Ends (fun m => run grow own P m d stk sc tr l) res := by
  induction sc generalizing tr l with
  | ret x => exact ⟨_, (Ends.const (res := .ended (some x) tr l) (by simp)).step fun m => by rw [run]⟩
  | throw => exact ⟨_, (Ends.const (res := .ended none tr l) (by simp)).step fun m => by rw [run]⟩
  | act a k ih =>
    cases hf : stk.find? fun x => !alive own (l.act grow a) x with
    | some x => exact ⟨_, (Ends.const (res := .dead x a) (by simp)).step fun m => by rw [run, hf]⟩
    | none =>
      obtain ⟨res, hr⟩ := ih h (tr ++ [.act a]) (l.act grow a)
      exact ⟨res, hr.step fun m => by rw [run, hf]⟩
  | fire r k => exact absurd h id

theorem Ends.ok {d : Nat} {stk : List Who} {sc : Script} {tr : List Ev} {l : Sk} (h : Ok l) {o : Option Nat}
    {tr' : List Ev} {l' : Sk} (he : Ends (fun m => run grow own P m d stk sc tr l) (.ended o tr' l')) :
    ∃ new, tr' = tr ++ new ∧ l' = l.acts grow (actsOf new) ∧ Quiet d new := by
  obtain ⟨-, n, hn⟩ := he
  have := (spec (grow := grow) (own := own) (P := P) n).1 d stk sc tr l h
  have hn' : run grow own P n d stk sc tr l = _ := hn n (Nat.le_refl _)
  rw [hn'] at this
  exact this

theorem apply_ends (hP : ∀ tr x c r, (P tr x c r).Flat) {d : Nat} {stk : List Who} (k : Nat) :
    ∀ (prev : Option Nat) (r : Rec) (tr : List Ev) (l : Sk), Ok l → (rest prev l.pend).length ≤ k →
      ∃ res, Ends (fun m => applyLoop grow own P m d stk prev r tr l) res := by
  induction k with
  | zero =>
    intro prev r tr l h hk
    have hh : rest prev l.pend = [] := List.eq_nil_of_length_eq_zero (by omega)
    exact ⟨_, (Ends.const (res := .ended (some r) tr l) (by simp)).step fun m => by rw [applyLoop, hh]; rfl⟩
  | succ k ih =>
    intro prev r tr l h hk
    cases hh : rest prev l.pend with
    | nil => exact ⟨_, (Ends.const (res := .ended (some r) tr l) (by simp)).step fun m => by rw [applyLoop, hh]; rfl⟩
    | cons e t =>
      obtain ⟨nm, v⟩ := e
      obtain ⟨res, hr⟩ := run_ends (grow := grow) (own := own) (P := P) (d := d) (stk := .value v :: stk) (hP tr (.value v) nm [])
        (tr ++ [.call d (.value v) nm []]) l
      let g : Nat → Res Nat → Res Rec := fun m q => match q with
        | .ended none tr' l' => .ended none (tr' ++ [.ret d (.value v) nm none]) l'
        | .ended (some x) tr' l' =>
          if l'.ins = l.ins ∧ l'.cuts.count nm = l.cuts.count nm then
            applyLoop grow own P m d stk (some nm) (recAdd r nm x) (tr' ++ [.ret d (.value v) nm (some x)]) l'
          else .fault
        | .fault => .fault
        | .dead x a => .dead x a
        | .running => .running
      have key : ∀ m, applyLoop grow own P (m + 1) d stk prev r tr l =
          g m (run grow own P m d (.value v :: stk) (P tr (.value v) nm []) (tr ++ [.call d (.value v) nm []]) l) := by
        intro m; rw [applyLoop, hh]
        dsimp only [List.head?_cons, g]
        cases run grow own P m d (.value v :: stk) (P tr (.value v) nm []) (tr ++ [.call d (.value v) nm []]) l with
        | ended o tr' l' => cases o <;> rfl
        | fault => rfl
        | dead x a => rfl
        | running => rfl
      have fin : ∃ res', Ends (fun m => g m res) res' := by
        cases res with
        | fault => exact ⟨_, Ends.const (by simp)⟩
        | dead x a => exact ⟨_, Ends.const (by simp)⟩
        | running => exact absurd rfl hr.1
        | ended o tr' l' =>
          cases o with
          | none => exact ⟨_, Ends.const (by simp)⟩
          | some x =>
            dsimp only [g]
            obtain ⟨new, rfl, rfl, hq⟩ := hr.ok h
            split
            · rename_i hv
              refine ih (some nm) _ _ _ (h.acts _) ?_
              have hl := congrArg List.length (rest_acts h hh hv.1 hv.2)
              have h1 := List.length_filter_le (fun m => decide (m ∉ removed (actsOf new))) (names t)
              rw [hh] at hk
              simp only [names, List.length_map, List.length_cons] at hl h1 hk
              omega
            · exact ⟨_, Ends.const (by simp)⟩
      obtain ⟨res', hf⟩ := fin
      exact ⟨res', (hr.bind hf).step key⟩

theorem act_room {l : Sk} {a : Act} (h : (l.act grow a).moves = l.moves) : (l.act grow a).room = l.room := by
  cases a with
  | add n v => simp only [Sk.act]; split <;> rfl
  | update n v => simp only [Sk.act]; split <;> rfl
  | remove n => rfl
  | setFilter f => rfl
  | use f => cases f <;> rfl
  | addStream k =>
    cases k with
    | none => rfl
    | some k =>
      simp only [Sk.act] at h ⊢
      split
      · rfl
      · rename_i h0; rw [if_neg h0] at h; simp at h

theorem act_moves_le (l : Sk) (a : Act) : l.moves ≤ (l.act grow a).moves := by
  cases a with
  | addStream k =>
    cases k with
    | none => exact Nat.le_refl _
    | some k => simp only [Sk.act]; split <;> simp
  | _ => rw [act_moves rfl]; exact Nat.le_refl _

theorem acts_moves_le (l : Sk) (as : List Act) : l.moves ≤ (l.acts grow as).moves := by
  induction as generalizing l with
  | nil => exact Nat.le_refl _
  | cons a as ih => exact Nat.le_trans (act_moves_le l a) (ih _)

theorem acts_room {l : Sk} {as : List Act} (h : (l.acts grow as).moves = l.moves) : (l.acts grow as).room = l.room := by
  induction as generalizing l with
  | nil => rfl
  | cons a as ih =>
    have h1 := act_moves_le (grow := grow) l a
    have h2 := acts_moves_le (grow := grow) (l.act grow a) as
    have e : l.acts grow (a :: as) = (l.act grow a).acts grow as := rfl
    rw [e] at h ⊢
    rw [ih (by omega), act_room (by omega)]

theorem stream_ends (hP : ∀ tr x c r, (P tr x c r).Flat) {d : Nat} {stk : List Who} (q : Nat) :
    ∀ (i : Nat) (r : Rec) (tr : List Ev) (l : Sk), Ok l → l.room - i ≤ q →
      ∃ res, Ends (fun m => streamLoop grow own P m d stk i r tr l) res := by
  induction q with
  | zero =>
    intro i r tr l h hk
    have hsz := h.room
    have hgt : l.strs[i]? = none := by rw [List.getElem?_eq_none_iff]; omega
    exact ⟨_, (Ends.const (res := .ended (some ()) tr l) (by simp)).step fun m => by rw [streamLoop, hgt]⟩
  | succ q ih =>
    intro i r tr l h hk
    have hsz := h.room
    cases hs : l.strs[i]? with
    | none => exact ⟨_, (Ends.const (res := .ended (some ()) tr l) (by simp)).step fun m => by rw [streamLoop, hs]⟩
    | some k =>
      cases hf : l.fmt with
      | none => exact ⟨_, (Ends.const (res := .fault) (by simp)).step fun m => by rw [streamLoop, hs]; dsimp only; rw [hf]⟩
      | some f =>
        obtain ⟨res, hr⟩ := run_ends (grow := grow) (own := own) (P := P) (d := d) (stk := .formatter f :: stk) (hP tr (.formatter f) k r)
          (tr ++ [.call d (.formatter f) k r]) l
        let g : Nat → Res Nat → Res Unit := fun m q => match q with
          | .ended none tr' l' => .ended none (tr' ++ [.ret d (.formatter f) k none]) l'
          | .ended (some x) tr' l' =>
            if l'.moves = l.moves then streamLoop grow own P m d stk (i + 1) r (tr' ++ [.ret d (.formatter f) k (some x)]) l'
            else .fault
          | .fault => .fault
          | .dead x a => .dead x a
          | .running => .running
        have key : ∀ m, streamLoop grow own P (m + 1) d stk i r tr l =
            g m (run grow own P m d (.formatter f :: stk) (P tr (.formatter f) k r) (tr ++ [.call d (.formatter f) k r]) l) := by
          intro m; rw [streamLoop, hs]
          dsimp only
          rw [hf]
          dsimp only [g]
          cases run grow own P m d (.formatter f :: stk) (P tr (.formatter f) k r) (tr ++ [.call d (.formatter f) k r]) l with
          | ended o tr' l' => cases o <;> rfl
          | fault => rfl
          | dead x a => rfl
          | running => rfl
        have fin : ∃ res', Ends (fun m => g m res) res' := by
          cases res with
          | fault => exact ⟨_, Ends.const (by simp)⟩
          | dead x a => exact ⟨_, Ends.const (by simp)⟩
          | running => exact absurd rfl hr.1
          | ended o tr' l' =>
            cases o with
            | none => exact ⟨_, Ends.const (by simp)⟩
            | some x =>
              obtain ⟨new, rfl, rfl, hq⟩ := hr.ok h
              dsimp only [g]
              split
              · rename_i hm
                refine ih (i + 1) r _ _ (h.acts _) ?_
                rw [acts_room hm]; omega
              · exact ⟨_, Ends.const (by simp)⟩
        obtain ⟨res', hf⟩ := fin
        exact ⟨res', (hr.bind hf).step key⟩

theorem fire_ends (hP : ∀ tr x c r, (P tr x c r).Flat) {d : Nat} {stk : List Who} (r : Rec) (tr : List Ev) (l : Sk)
    (h : Ok l) : ∃ res, Ends (fun m => fire grow own P m d stk r tr l) res := by
  cases hfm : l.fmt with
  | none => exact ⟨_, (Ends.const (res := .ended none tr l) (by simp)).step fun m => by rw [fire, hfm]⟩
  | some fm =>
  obtain ⟨res, hr⟩ := apply_ends (own := own) hP (d := d) (stk := stk) (rest none l.pend).length none r tr l h (Nat.le_refl _)
  let gf : Nat → Rec → Nat → Res Nat → Res Unit := fun f r' m q => match q with
    | .fault => .fault
    | .dead x a => .dead x a
    | .running => .running
    | .ended none tr2 l2 => .ended none (tr2 ++ [.ret d (.filter f) 0 none]) l2
    | .ended (some x) tr2 l2 =>
      if x = 1 then streamLoop grow own P m d stk 0 r' (tr2 ++ [.ret d (.filter f) 0 (some x)]) l2
      else .ended (some ()) (tr2 ++ [.ret d (.filter f) 0 (some x)]) l2
  let g : Nat → Res Rec → Res Unit := fun m q => match q with
    | .fault => .fault
    | .dead x a => .dead x a
    | .running => .running
    | .ended none tr' l' => .ended none tr' l'
    | .ended (some r') tr' l' =>
      match l'.filter with
      | none => streamLoop grow own P m d stk 0 r' tr' l'
      | some f => gf f r' m (run grow own P m d (.filter f :: stk) (P tr' (.filter f) 0 r') (tr' ++ [.call d (.filter f) 0 r']) l')
  have key : ∀ m, fire grow own P (m + 1) d stk r tr l = g m (applyLoop grow own P m d stk none r tr l) := by
    intro m; rw [fire, hfm]
    dsimp only [g, gf]
    cases applyLoop grow own P m d stk none r tr l with
    | fault => rfl
    | dead x a => rfl
    | running => rfl
    | ended o tr' l' =>
      cases o with
      | none => rfl
      | some r' =>
        dsimp only
        cases l'.filter with
        | none => rfl
        | some f =>
          dsimp only
          cases run grow own P m d (.filter f :: stk) (P tr' (.filter f) 0 r') (tr' ++ [.call d (.filter f) 0 r']) l' with
          | ended o tr' l' => cases o <;> rfl
          | fault => rfl
          | dead x a => rfl
          | running => rfl
  have fin : ∃ res', Ends (fun m => g m res) res' := by
    cases res with
    | fault => exact ⟨_, Ends.const (by simp)⟩
    | dead x a => exact ⟨_, Ends.const (by simp)⟩
    | running => exact absurd rfl hr.1
    | ended o tr' l' =>
      have hok : Ok l' := by
        obtain ⟨-, n, hn⟩ := hr
        exact apply_ok h (hn n (Nat.le_refl _))
      cases o with
      | none => exact ⟨_, Ends.const (by simp)⟩
      | some r' =>
        dsimp only [g]
        cases hf : l'.filter with
        | none => exact stream_ends hP _ 0 r' tr' l' hok (Nat.le_refl _)
        | some f =>
          dsimp only
          obtain ⟨res2, hr2⟩ := run_ends (grow := grow) (own := own) (P := P) (d := d) (stk := .filter f :: stk) (hP tr' (.filter f) 0 r')
            (tr' ++ [.call d (.filter f) 0 r']) l'
          have fin2 : ∃ res', Ends (fun m => gf f r' m res2) res' := by
            cases res2 with
            | fault => exact ⟨_, Ends.const (by simp)⟩
            | dead x a => exact ⟨_, Ends.const (by simp)⟩
            | running => exact absurd rfl hr2.1
            | ended o tr2 l2 =>
              cases o with
              | none => exact ⟨_, Ends.const (by simp)⟩
              | some x =>
                dsimp only [gf]
                split
                · obtain ⟨new, -, rfl, -⟩ := hr2.ok hok
                  exact stream_ends hP _ 0 r' _ _ (hok.acts _) (Nat.le_refl _)
                · exact ⟨_, Ends.const (by simp)⟩
          obtain ⟨res', hf2⟩ := fin2
          exact ⟨res', hr2.bind hf2⟩
  obtain ⟨res', hf⟩ := fin
  exact ⟨res', (hr.bind hf).step key⟩

end Verif.Log.Ss
