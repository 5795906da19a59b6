import Verif.Log.Reenter
import Verif.Event.ThrowLemmas
import Verif.Event.Props
set_option linter.unusedSimpArgs false
/-! Lemmas for C168. -/
namespace Verif.Log.Re
open Verif.Event (Table WF)
variable {cap : Nat} {own : Who → Bool} {P : Progs}

theorem actsOf_append (a b : List Ev) : actsOf (a ++ b) = actsOf a ++ actsOf b := by simp [actsOf]
theorem callsAt_append (d : Nat) (a b : List Ev) : callsAt d (a ++ b) = callsAt d a ++ callsAt d b := by simp [callsAt]
theorem retsAt_append (d : Nat) (a b : List Ev) : retsAt d (a ++ b) = retsAt d a ++ retsAt d b := by simp [retsAt]
theorem acts_append (l : Lg) (a b : List Act) : l.acts cap (a ++ b) = (l.acts cap a).acts cap b := by simp [Lg.acts]

/-- Nothing of depth `d` or less happens.  (Specification; no code.) -/
def Quiet (d : Nat) (tr : List Ev) : Prop := ∀ d', d' ≤ d → callsAt d' tr = [] ∧ retsAt d' tr = []

theorem Quiet.nil {d : Nat} : Quiet d [] := fun _ _ => ⟨rfl, rfl⟩
theorem Quiet.append {d : Nat} {a b : List Ev} (h : Quiet d a) (h' : Quiet d b) : Quiet d (a ++ b) := fun d' hd => by
  rw [callsAt_append, retsAt_append, (h d' hd).1, (h d' hd).2, (h' d' hd).1, (h' d' hd).2]; exact ⟨rfl, rfl⟩
theorem Quiet.act {d : Nat} (a : Act) : Quiet d [.act a] := fun _ _ => ⟨rfl, rfl⟩
theorem Quiet.mono {d e : Nat} {a : List Ev} (h : Quiet d a) (he : e ≤ d) : Quiet e a := fun d' hd => h d' (by omega)

/-- Nothing of a depth below `d` happens.  (Specification; no code.) -/
def Below (d : Nat) (tr : List Ev) : Prop := ∀ d', d' < d → callsAt d' tr = [] ∧ retsAt d' tr = []

theorem Below.nil {d : Nat} : Below d [] := fun _ _ => ⟨rfl, rfl⟩
theorem Below.append {d : Nat} {a b : List Ev} (h : Below d a) (h' : Below d b) : Below d (a ++ b) := fun d' hd => by
  rw [callsAt_append, retsAt_append, (h d' hd).1, (h d' hd).2, (h' d' hd).1, (h' d' hd).2]; exact ⟨rfl, rfl⟩
theorem Quiet.below {d : Nat} {a : List Ev} (h : Quiet d a) : Below d a := fun d' hd => h d' (by omega)
theorem Below.quiet {d : Nat} {a : List Ev} (h : Below (d + 1) a) : Quiet d a := fun d' hd => h d' (by omega)

/-- A call and its end. -/
theorem below_call {d c : Nat} {x : Who} {r : Rec} {o : Option Nat} {new : List Ev} (h : Quiet d new) :
    Below d ([.call d x c r] ++ new ++ [.ret d x c o]) := fun d' hd => by
  have h1 := h d' (by omega)
  have : d ≠ d' := by omega
  rw [callsAt_append, callsAt_append, retsAt_append, retsAt_append, h1.1, h1.2]
  simp [callsAt, retsAt, this]

theorem calls_call {d c : Nat} {x : Who} {r : Rec} {o : Option Nat} {new : List Ev} (h : Quiet d new) :
    callsAt d ([.call d x c r] ++ new ++ [.ret d x c o]) = [(x, c, r)] := by
  rw [callsAt_append, callsAt_append, (h d (Nat.le_refl _)).1]; simp [callsAt]

theorem rets_call {d c : Nat} {x : Who} {r : Rec} {o : Option Nat} {new : List Ev} (h : Quiet d new) :
    retsAt d ([.call d x c r] ++ new ++ [.ret d x c o]) = [(x, c, o)] := by
  rw [retsAt_append, retsAt_append, (h d (Nat.le_refl _)).2]; simp [retsAt]

theorem acts_call {d c : Nat} {x : Who} {r : Rec} {o : Option Nat} {new : List Ev} :
    actsOf ([.call d x c r] ++ new ++ [.ret d x c o]) = actsOf new := by
  rw [actsOf_append, actsOf_append]; simp [actsOf]

/-! ### The pending values -/

/-- The names of pairs.  (Specification; no code.) -/
def names (p : List (Nat × Nat)) : List Nat := p.map (·.1)

theorem names_map (p : List (Nat × Nat)) (n v : Nat) : names (p.map fun e => if e.1 = n then (n, v) else e) = names p := by
  induction p with
  | nil => rfl
  | cons e t ih =>
    simp only [names, List.map_cons, List.map_map, List.cons.injEq] at ih ⊢
    refine ⟨?_, ih⟩
    by_cases h : e.1 = n <;> simp [h]

/-- The names removed.  (Specification; no code.) -/
def removed (as : List Act) : List Nat := as.filterMap fun a => match a with
  | .remove n => some n
  | _ => none

theorem act_ins (l : Lg) (a : Act) : l.ins ≤ (l.act cap a).ins := by
  cases a <;> simp only [Lg.act] <;> (repeat' split) <;> simp

theorem act_names {l : Lg} {a : Act} (h : (l.act cap a).ins = l.ins) :
    names (l.act cap a).pend = (names l.pend).filter (fun m => m ∉ removed [a]) ∧
      (l.act cap a).cuts = l.cuts ++ removed [a] := by
  have key : ∀ as : List Nat, as = as.filter (fun m => m ∉ ([] : List Nat)) := fun as => by
    rw [List.filter_eq_self.2 (by simp)]
  cases a with
  | add n v =>
    simp only [Lg.act] at h ⊢
    split at h
    · rename_i hh; rw [if_pos hh]; exact ⟨key _, by simp [removed]⟩
    · simp at h
  | update n v =>
    simp only [Lg.act] at h ⊢
    split at h
    · rename_i hh
      rw [if_pos hh]; exact ⟨(names_map _ _ _).trans (key _), by simp [removed]⟩
    · simp at h
  | remove n =>
    simp only [Lg.act, removed, List.filterMap_cons, List.filterMap_nil, and_true]
    simp only [names, List.mem_singleton, decide_not]
    rw [List.filter_map]; rfl
  | setFilter f => exact ⟨key _, by simp [removed, Lg.act]⟩
  | connect s => exact ⟨key _, by simp [removed, Lg.act]⟩
  | disconnect c => exact ⟨key _, by simp [removed, Lg.act]⟩

theorem acts_ins (l : Lg) (as : List Act) : l.ins ≤ (l.acts cap as).ins := by
  induction as generalizing l with
  | nil => exact Nat.le_refl _
  | cons a as ih => exact Nat.le_trans (act_ins l a) (ih _)

theorem acts_names {l : Lg} {as : List Act} (h : (l.acts cap as).ins = l.ins) :
    names (l.acts cap as).pend = (names l.pend).filter (fun m => m ∉ removed as) ∧
      (l.acts cap as).cuts = l.cuts ++ removed as := by
  induction as generalizing l with
  | nil => exact ⟨(List.filter_eq_self.2 (by simp [removed])).symm, by simp [removed, Lg.acts]⟩
  | cons a as ih =>
    have h1 := act_ins (cap := cap) l a
    have h2 := acts_ins (cap := cap) (l.act cap a) as
    have e : l.acts cap (a :: as) = (l.act cap a).acts cap as := rfl
    rw [e] at h ⊢
    obtain ⟨i1, i2⟩ := ih (l := l.act cap a) (by omega)
    obtain ⟨j1, j2⟩ := act_names (cap := cap) (l := l) (a := a) (by omega)
    have hr : removed (a :: as) = removed [a] ++ removed as := by
      rw [removed, removed, removed, ← List.filterMap_append]; rfl
    refine ⟨?_, by rw [i2, j2, hr, List.append_assoc]⟩
    rw [i1, j1, List.filter_filter, hr]
    congr 1
    funext m
    by_cases h1 : m ∈ removed [a] <;> by_cases h2 : m ∈ removed as <;> simp [h1, h2]

theorem act_same {l : Lg} {a : Act} (h : a.onValues = false) :
    (l.act cap a).pend = l.pend ∧ (l.act cap a).ins = l.ins ∧ (l.act cap a).cuts = l.cuts := by
  cases a <;> simp_all [Act.onValues, Lg.act]

theorem acts_same {l : Lg} {as : List Act} (h : ∀ a ∈ as, a.onValues = false) :
    (l.acts cap as).pend = l.pend ∧ (l.acts cap as).ins = l.ins ∧ (l.acts cap as).cuts = l.cuts := by
  induction as generalizing l with
  | nil => exact ⟨rfl, rfl, rfl⟩
  | cons a as ih =>
    obtain ⟨a1, a2, a3⟩ := act_same (cap := cap) (l := l) (h a (by simp))
    obtain ⟨b1, b2, b3⟩ := ih (l := l.act cap a) (fun b hb => h b (by simp [hb]))
    exact ⟨b1.trans a1, b2.trans a2, b3.trans a3⟩

/-- The names before which the loop stands. -/
theorem names_rest (prev : Option Nat) (p : List (Nat × Nat)) : names (rest prev p) = match prev with
    | none => names p
    | some m => ((names p).dropWhile fun e => e ≠ m).drop 1 := by
  cases prev with
  | none => rfl
  | some m =>
    simp only [rest, names, List.map_drop]
    congr 1
    induction p with
    | nil => rfl
    | cons e t ih =>
      by_cases h : e.1 = m
      · simp [List.dropWhile_cons, h]
      · simp only [List.dropWhile_cons, List.map_cons, ne_eq, h, not_false_eq_true, decide_true, if_true]; exact ih

theorem dropWhile_filter {p : Nat → Bool} {m : Nat} (h : p m = true) (as : List Nat) :
    (as.filter p).dropWhile (fun e => e ≠ m) = (as.dropWhile fun e => e ≠ m).filter p := by
  induction as with
  | nil => rfl
  | cons a t ih =>
    by_cases ha : a = m
    · subst ha; simp [List.filter_cons, List.dropWhile_cons, h]
    · by_cases hp : p a = true
      · simp [List.filter_cons, List.dropWhile_cons, hp, ha]
        simpa using ih
      · simp [List.filter_cons, List.dropWhile_cons, hp, ha]
        simpa using ih

theorem rest_cons {prev : Option Nat} {p : List (Nat × Nat)} {nm v : Nat} {t : List (Nat × Nat)} (hn : (names p).Nodup)
    (h : rest prev p = (nm, v) :: t) : rest (some nm) p = t := by
  have hsub : ∃ pre, p = pre ++ (nm, v) :: t := by
    cases prev with
    | none => exact ⟨[], h⟩
    | some m =>
      simp only [rest] at h
      have h1 := List.takeWhile_append_dropWhile (p := fun e : Nat × Nat => decide (e.1 ≠ m)) (l := p)
      cases hd : p.dropWhile (fun e : Nat × Nat => decide (e.1 ≠ m)) with
      | nil => rw [hd] at h; simp at h
      | cons e u =>
        rw [hd] at h h1
        simp only [List.drop_one, List.tail_cons] at h
        exact ⟨p.takeWhile (fun e : Nat × Nat => decide (e.1 ≠ m)) ++ [e], by rw [List.append_assoc, List.singleton_append, ← h, h1]⟩
  obtain ⟨pre, rfl⟩ := hsub
  simp only [rest]
  have hnot : ∀ e ∈ pre, e.1 ≠ nm := by
    intro e he e1
    simp only [names, List.map_append, List.map_cons] at hn
    rw [List.nodup_append] at hn
    exact hn.2.2 e.1 (List.mem_map_of_mem he) nm (by simp) e1
  rw [List.dropWhile_append_of_pos (by intro a ha; simpa using hnot a ha)]
  simp [List.dropWhile_cons]

theorem act_nodup {l : Lg} (h : (names l.pend).Nodup) (a : Act) : (names (l.act cap a).pend).Nodup := by
  have key : ∀ n v, has l.pend n = false → (names (l.pend ++ [(n, v)])).Nodup := by
    intro n v hh
    simp only [names, List.map_append, List.map_cons, List.map_nil]
    rw [List.nodup_append]
    refine ⟨h, by simp, ?_⟩
    intro x hx y hy e
    simp only [List.mem_singleton] at hy
    obtain ⟨z, hz, rfl⟩ := List.mem_map.1 hx
    simp only [has, List.any_eq_false, decide_eq_true_eq] at hh
    exact hh z hz (by rw [e, hy])
  cases a with
  | add n v =>
    simp only [Lg.act]
    cases hh : has l.pend n with
    | true => simpa [hh] using h
    | false => simpa [hh] using key n v hh
  | update n v =>
    simp only [Lg.act]
    cases hh : has l.pend n with
    | true => simp only [if_true, names_map]; exact h
    | false => simpa [hh] using key n v hh
  | remove n =>
    simp only [Lg.act, names]
    exact (List.filter_sublist.map _).nodup h
  | setFilter f => exact h
  | connect s => exact h
  | disconnect c => exact h

/-- What is always true of a logger. -/
structure Ok (cap : Nat) (l : Lg) : Prop where
  nodup : (names l.pend).Nodup
  wf : WF cap l.ev

theorem Ok.init : Ok cap Lg.init := ⟨by simp [Lg.init, names], Event.wf_init⟩

theorem Ok.act {l : Lg} (hcap : cap < 2 ^ 32) (h : Ok cap l) (a : Act) : Ok cap (l.act cap a) := by
  refine ⟨act_nodup h.nodup a, ?_⟩
  cases a with
  | add n v => simp only [Lg.act]; split <;> exact h.wf
  | update n v => simp only [Lg.act]; split <;> exact h.wf
  | remove n => exact h.wf
  | setFilter f => exact h.wf
  | connect s => exact Event.apply_wf h.wf hcap (.connect s)
  | disconnect c => exact Event.apply_wf h.wf hcap (.disconnect c)

theorem Ok.acts {l : Lg} (hcap : cap < 2 ^ 32) (h : Ok cap l) (as : List Act) : Ok cap (l.acts cap as) := by
  induction as generalizing l with
  | nil => exact h
  | cons a as ih => exact ih (h.act hcap a)

theorem act_keep {l : Lg} (hcap : cap < 2 ^ 32) (h : Ok cap l) {a : Act} {j x : Nat} (hx : l.ev.sl j = some x)
    (ha : a ≠ .disconnect (j + 1)) : (l.act cap a).ev.sl j = some x := by
  cases a with
  | add n v => simp only [Lg.act]; split <;> exact hx
  | update n v => simp only [Lg.act]; split <;> exact hx
  | remove n => exact hx
  | setFilter f => exact hx
  | connect s => exact Event.apply_keep h.wf hcap hx (by simp)
  | disconnect c => exact Event.apply_keep (op := .disconnect c) h.wf hcap hx (by simpa using ha)

theorem acts_keep {l : Lg} (hcap : cap < 2 ^ 32) (h : Ok cap l) {as : List Act} {j x : Nat} (hx : l.ev.sl j = some x)
    (ha : Act.disconnect (j + 1) ∉ as) : (l.acts cap as).ev.sl j = some x := by
  induction as generalizing l with
  | nil => exact hx
  | cons a as ih =>
    simp only [List.mem_cons, not_or] at ha
    exact ih (h.act hcap a) (act_keep hcap h hx (Ne.symm ha.1)) ha.2

theorem act_back {l : Lg} (hcap : cap < 2 ^ 32) (h : Ok cap l) {a : Act} {j x : Nat} (ha : ∀ s, a ≠ .connect s)
    (hx : (l.act cap a).ev.sl j = some x) : l.ev.sl j = some x := by
  cases a with
  | add n v => simp only [Lg.act] at hx; split at hx <;> exact hx
  | update n v => simp only [Lg.act] at hx; split at hx <;> exact hx
  | remove n => exact hx
  | setFilter f => exact hx
  | connect s => exact absurd rfl (ha s)
  | disconnect c =>
    have := (Event.disconnect_spec h.wf hcap c).1 j
    simp only [Lg.act] at hx
    rw [this] at hx
    split at hx
    · cases hx
    · exact hx

theorem acts_back {l : Lg} (hcap : cap < 2 ^ 32) (h : Ok cap l) {as : List Act} {j x : Nat} (ha : ∀ s, Act.connect s ∉ as)
    (hx : (l.acts cap as).ev.sl j = some x) : l.ev.sl j = some x := by
  induction as generalizing l with
  | nil => exact hx
  | cons a as ih =>
    refine act_back hcap h (a := a) (fun s e => ha s (by simp [e])) (ih (h.act hcap a) (fun s hs => ha s (by simp [hs])) hx)

/-! ### What happens -/

/-- What is true of the end of a callee. -/
def RunSpec (cap d : Nat) (tr : List Ev) (l : Lg) : Res Nat → Prop
  | .ended _ tr' l' => ∃ new, tr' = tr ++ new ∧ l' = l.acts cap (actsOf new) ∧ Quiet d new
  | _ => True

/-- What is true of the end of `Apply`, coming from a name. -/
def ApplySpec (cap d : Nat) (prev : Option Nat) (r : Rec) (tr : List Ev) (l : Lg) : Res Rec → Prop
  | .ended none tr' l' => ∃ new, tr' = tr ++ new ∧ l' = l.acts cap (actsOf new) ∧ Below d new ∧ Threw d new
  | .ended (some r') tr' l' => ∃ (new : List Ev) (vs : List (Nat × Nat × Nat)), tr' = tr ++ new ∧ l' = l.acts cap (actsOf new) ∧ Below d new ∧
      callsAt d new = vs.map (fun v : Nat × Nat × Nat => (.value v.2.1, v.1, [])) ∧
      retsAt d new = vs.map (fun v => (.value v.2.1, v.1, some v.2.2)) ∧
      r' = vs.foldl (fun r v => recAdd r v.1 v.2.2) r ∧
      (vs.map (·.1)).Sublist (names (rest prev l.pend)) ∧ l'.ins = l.ins ∧
      (∀ m ∈ names (rest prev l.pend), m ∈ names l'.pend → m ∈ vs.map (·.1)) ∧
      ((∀ a ∈ actsOf new, a.onValues = false) → vs.map (fun v => (v.1, v.2.1)) = rest prev l.pend)
  | _ => True

/-- What is true of the end of the loop over the sinks, from index `i`. -/
def SinkSpec (cap d i : Nat) (r : Rec) (tr : List Ev) (l : Lg) : Res Unit → Prop
  | .ended o tr' l' => ∃ (new : List Ev) (cs : List (Nat × Nat)), tr' = tr ++ new ∧ l' = l.acts cap (actsOf new) ∧ Below d new ∧
      callsAt d new = cs.map (fun e : Nat × Nat => (.sink e.2, e.1, r)) ∧
      (cs.map (·.1)).Pairwise (· < ·) ∧ (∀ e ∈ cs, i < e.1 ∧ e.1 ≤ cap) ∧
      (∀ j x, i ≤ j → l.ev.sl j = some x → Act.disconnect (j + 1) ∉ actsOf new →
        (j + 1, x) ∈ cs ∨ o = none ∧ ∀ e ∈ cs, e.1 < j + 1) ∧
      ((∀ s, Act.connect s ∉ actsOf new) → ∀ e ∈ cs, l.ev.sl (e.1 - 1) = some e.2) ∧
      (o = none → Threw d new) ∧ (o ≠ none → ∀ x ∈ retsAt d new, x.2.2 ≠ none)
  | _ => True

/-- What is true of the end of `Fire`. -/
def FireSpec (cap d : Nat) (r : Rec) (tr : List Ev) (l : Lg) : Res Unit → Prop
  | .ended o tr' l' => ∃ new, tr' = tr ++ new ∧ l' = l.acts cap (actsOf new) ∧ Below d new ∧
      (o = none → Threw d new) ∧
      (o ≠ none → ∃ a b c vs r', new = a ++ b ++ c ∧ Applied cap d l r a vs r' ∧ (l.acts cap (actsOf a)).ins = l.ins ∧
        (∀ x ∈ retsAt d new, x.2.2 ≠ none) ∧
        match (l.acts cap (actsOf a)).filter with
        | none => b = [] ∧ ∃ cs, Delivered cap d (l.acts cap (actsOf a)) r' false c cs
        | some f => ∃ x, callsAt d b = [(.filter f, 0, r')] ∧ retsAt d b = [(.filter f, 0, some x)] ∧
            (x ≠ 1 → c = []) ∧ (x = 1 → ∃ cs, Delivered cap d (l.acts cap (actsOf (a ++ b))) r' false c cs))
  | _ => True

theorem threw_last {d c : Nat} {x : Who} (pre : List Ev) : Threw d (pre ++ [.ret d x c none]) :=
  ⟨x, c, List.getLast?_concat⟩

theorem Threw.append {d : Nat} {a b : List Ev} (h : Threw d b) : Threw d (a ++ b) := by
  obtain ⟨x, c, h⟩ := h
  exact ⟨x, c, by rw [List.getLast?_append, h]; rfl⟩

theorem sinkAt_sl {t : Table Nat} {c s : Nat} : Event.sinkAt t c = some s ↔ c ≠ 0 ∧ t.sl (c - 1) = some s := by
  rw [Event.sinkAt_eq]
  split <;> simp_all

theorem next_callLast {i s : Nat} {l : Lg} (h : Ok cap l) (hn : l.ev.next true i = .callLast s) :
    l.ev.sl i = some s ∧ l.ev.last = i + 1 := by
  obtain ⟨h1, -, h3⟩ := Event.next_callLast h.wf hn
  exact ⟨by simp [Table.sl, h1], h3⟩

theorem sink_call {d i s : Nat} {r : Rec} {tr new : List Ev} {l : Lg} {o : Option Nat} {o' : Option Unit} (h : Ok cap l)
    (hs : l.ev.sl i = some s) (hq : Quiet d new) (ho : o' = none ↔ o = none) (hl : o' = none ∨ l.ev.last = i + 1) :
    SinkSpec cap d i r tr l (.ended o' ((tr ++ [.call d (.sink s) (i + 1) r]) ++ new ++ [.ret d (.sink s) (i + 1) o])
      (l.acts cap (actsOf new))) := by
  have hlt := Event.sl_lt (t := l.ev) (i := i) (by simp [hs])
  have hsz := h.wf.size
  refine ⟨[.call d (.sink s) (i + 1) r] ++ new ++ [.ret d (.sink s) (i + 1) o], [(i + 1, s)], by simp, by rw [acts_call],
    below_call hq, by rw [calls_call hq]; rfl, by simp, ?_, ?_, ?_, ?_, ?_⟩
  · intro e he; simp only [List.mem_singleton] at he; subst he; simp only; omega
  · intro j x hj hx _
    by_cases e : j = i
    · subst e; rw [hs] at hx; cases hx; left; simp
    · rcases hl with hl | hl
      · right; refine ⟨hl, ?_⟩; intro e' he'; simp only [List.mem_singleton] at he'; subst he'; simp only; omega
      · have := h.wf.lt_last (i := j) (by simp [hx]); omega
  · intro _ e he; simp only [List.mem_singleton] at he; subst he; simpa using hs
  · intro h0; rw [ho.1 h0]; exact threw_last _
  · intro h0 x hx
    rw [rets_call hq, List.mem_singleton] at hx
    subst hx
    exact fun h1 => h0 (ho.2 h1)

theorem sink_more (hcap : cap < 2 ^ 32) {d i s x0 : Nat} {r : Rec} {tr new : List Ev} {l : Lg} {res : Res Unit} (h : Ok cap l)
    (hs : l.ev.sl i = some s) (hq : Quiet d new)
    (hres : SinkSpec cap d (i + 1) r ((tr ++ [.call d (.sink s) (i + 1) r]) ++ new ++ [.ret d (.sink s) (i + 1) (some x0)])
      (l.acts cap (actsOf new)) res) : SinkSpec cap d i r tr l res := by
  cases res with
  | fault => trivial
  | dead x a => trivial
  | running => trivial
  | ended o tr' l' =>
    obtain ⟨new', cs, e1, e2, b, c1, c2, c3, c4, c5, c6, c7⟩ := hres
    have hlt := Event.sl_lt (t := l.ev) (i := i) (by simp [hs])
    have hsz := h.wf.size
    have ha : actsOf ([.call d (.sink s) (i + 1) r] ++ new ++ [.ret d (.sink s) (i + 1) (some x0)] ++ new') = actsOf new ++ actsOf new' := by
      rw [actsOf_append, acts_call]
    refine ⟨[.call d (.sink s) (i + 1) r] ++ new ++ [.ret d (.sink s) (i + 1) (some x0)] ++ new', (i + 1, s) :: cs, by simp [e1], ?_,
      (below_call hq).append b, ?_, ?_, ?_, ?_, ?_, ?_, ?_⟩
    · rw [ha, acts_append, e2]
    · rw [callsAt_append, calls_call hq, c1]; rfl
    · rw [List.map_cons, List.pairwise_cons]
      refine ⟨?_, c2⟩
      intro c hc
      obtain ⟨e, he, rfl⟩ := List.mem_map.1 hc
      exact (c3 e he).1
    · intro e he
      rcases List.mem_cons.1 he with rfl | he
      · simp only; omega
      · have := c3 e he; omega
    · intro j x hj hx hd
      rw [ha, List.mem_append, not_or] at hd
      by_cases e : j = i
      · subst e; rw [hs] at hx; cases hx; left; simp
      · rcases c4 j x (by omega) (acts_keep hcap h hx hd.1) hd.2 with h1 | ⟨h1, h2⟩
        · left; exact List.mem_cons_of_mem _ h1
        · right; refine ⟨h1, ?_⟩
          intro e' he'
          rcases List.mem_cons.1 he' with rfl | he'
          · simp only; omega
          · exact h2 e' he'
    · intro hn e he
      rw [ha] at hn
      rcases List.mem_cons.1 he with rfl | he
      · simpa using hs
      · exact acts_back hcap h (fun s hs => hn s (by simp [hs])) (c5 (fun s hs => hn s (by simp [hs])) e he)
    · intro h0; exact (c6 h0).append
    · intro h0 x hx
      rw [retsAt_append, rets_call hq, List.mem_append] at hx
      rcases hx with hx | hx
      · rw [List.mem_singleton] at hx; subst hx; simp
      · exact c7 h0 x hx

/-- What is before the loop after a call that left the iterator valid. -/
theorem rest_acts {nm v : Nat} {prev : Option Nat} {t : List (Nat × Nat)} {as : List Act} {l : Lg} (h : Ok cap l)
    (hr : rest prev l.pend = (nm, v) :: t) (hins : (l.acts cap as).ins = l.ins)
    (hcut : (l.acts cap as).cuts.count nm = l.cuts.count nm) :
    names (rest (some nm) (l.acts cap as).pend) = (names t).filter fun m => m ∉ removed as := by
  have ht := rest_cons h.nodup hr
  obtain ⟨hn1, hn2⟩ := acts_names hins
  have hnm : nm ∉ removed as := by
    rw [hn2, List.count_append] at hcut
    intro hm
    have := List.count_pos_iff.2 hm
    omega
  rw [names_rest, hn1, ← ht, names_rest]
  dsimp only
  rw [dropWhile_filter (by simpa using hnm)]
  cases hd : (names l.pend).dropWhile (fun e => decide (e ≠ nm)) with
  | nil => rfl
  | cons a u =>
    have : a = nm := by
      have := List.head_dropWhile_not (p := fun e => decide (e ≠ nm)) (l := names l.pend) (w := by rw [hd]; simp)
      simp only [hd, List.head_cons] at this
      simpa using this
    subst this
    rw [List.filter_cons, if_pos (by simpa using hnm)]
    rfl

theorem apply_more {d nm v x0 : Nat} {prev : Option Nat} {t : List (Nat × Nat)} {r : Rec} {tr new : List Ev} {l : Lg}
    {res : Res Rec} (h : Ok cap l) (hr : rest prev l.pend = (nm, v) :: t) (hq : Quiet d new)
    (hins : (l.acts cap (actsOf new)).ins = l.ins) (hcut : (l.acts cap (actsOf new)).cuts.count nm = l.cuts.count nm)
    (hres : ApplySpec cap d (some nm) (recAdd r nm x0)
      ((tr ++ [.call d (.value v) nm []]) ++ new ++ [.ret d (.value v) nm (some x0)]) (l.acts cap (actsOf new)) res) :
    ApplySpec cap d prev r tr l res := by
  have ht := rest_cons h.nodup hr
  obtain ⟨hn1, hn2⟩ := acts_names hins
  have hrest := rest_acts h hr hins hcut
  have ha : ∀ new', actsOf ([.call d (.value v) nm []] ++ new ++ [.ret d (.value v) nm (some x0)] ++ new') = actsOf new ++ actsOf new' := by
    intro new'; rw [actsOf_append, acts_call]
  cases res with
  | fault => trivial
  | dead x a => trivial
  | running => trivial
  | ended o tr' l' =>
    cases o with
    | none =>
      obtain ⟨new', e1, e2, b, th⟩ := hres
      exact ⟨[.call d (.value v) nm []] ++ new ++ [.ret d (.value v) nm (some x0)] ++ new', by simp [e1], by rw [ha, acts_append, e2],
        (below_call hq).append b, th.append⟩
    | some r' =>
      obtain ⟨new', vs, e1, e2, b, c1, c2, c3, c4, c5, c6, c7⟩ := hres
      refine ⟨[.call d (.value v) nm []] ++ new ++ [.ret d (.value v) nm (some x0)] ++ new', (nm, v, x0) :: vs, by simp [e1],
        by rw [ha, acts_append, e2], (below_call hq).append b, ?_, ?_, ?_, ?_, c5.trans hins, ?_, ?_⟩
      · rw [callsAt_append, calls_call hq, c1]; rfl
      · rw [retsAt_append, rets_call hq, c2]; rfl
      · rw [c3]; rfl
      · rw [hr]
        simp only [names, List.map_cons]
        rw [hrest] at c4
        exact (c4.trans List.filter_sublist).cons_cons _
      · intro m hm hm'
        rw [hr] at hm
        simp only [names, List.map_cons] at hm
        rcases List.mem_cons.1 hm with rfl | hm
        · simp
        · refine List.mem_cons_of_mem _ (c6 m ?_ hm')
          have h1 : m ∈ names (l.acts cap (actsOf new)).pend := by
            rw [e2, (acts_names (cap := cap) (l := l.acts cap (actsOf new)) (as := actsOf new') (by rw [← e2]; exact c5)).1] at hm'
            exact (List.mem_filter.1 hm').1
          rw [hn1] at h1
          rw [hrest]
          exact List.mem_filter.2 ⟨hm, (List.mem_filter.1 h1).2⟩
      · intro hall
        rw [ha] at hall
        have h1 := (acts_same (cap := cap) (l := l) (as := actsOf new) (fun a h => hall a (by simp [h]))).1
        have := c7 (fun a h => hall a (by simp [h]))
        rw [h1, ht] at this
        rw [hr, List.map_cons, this]

theorem lookup_append (r : Rec) (n x m : Nat) : (r ++ [(n, x)]).lookup m = (r.lookup m).or (if m = n then some x else none) := by
  induction r with
  | nil => by_cases h : m = n <;> simp [List.lookup, h]
  | cons e t ih =>
    obtain ⟨a, b⟩ := e
    by_cases h : m = a
    · subst h; simp [List.lookup]
    · have hb : (m == a) = false := by simpa using h
      simp only [List.cons_append, List.lookup, hb]; exact ih

theorem lookup_has (r : Rec) (n : Nat) : has r n = (r.lookup n).isSome := by
  induction r with
  | nil => rfl
  | cons e t ih =>
    obtain ⟨a, b⟩ := e
    by_cases h : n = a
    · subst h; simp [List.lookup, has]
    · have hb : (n == a) = false := by simpa using h
      have h' : a ≠ n := fun e => h e.symm
      simp only [List.lookup, hb, has, List.any_cons, h', decide_false, Bool.false_or]; exact ih

theorem lookup_add (r : Rec) (n x m : Nat) : (recAdd r n x).lookup m = (r.lookup m).or (if m = n then some x else none) := by
  rw [recAdd]
  split
  · rename_i h
    rw [lookup_has] at h
    by_cases e : m = n
    · subst e
      obtain ⟨y, hy⟩ := Option.isSome_iff_exists.1 h
      simp [hy]
    · simp [e]
  · exact lookup_append r n x m

theorem lookup_fold (vs : List (Nat × Nat × Nat)) (r : Rec) (m : Nat) :
    (vs.foldl (fun r v => recAdd r v.1 v.2.2) r).lookup m = (r.lookup m).or ((vs.map fun v => (v.1, v.2.2)).lookup m) := by
  induction vs generalizing r with
  | nil => simp
  | cons v t ih =>
    rw [List.foldl_cons, ih, lookup_add, List.map_cons]
    by_cases e : m = v.1
    · subst e; cases r.lookup v.1 <;> simp [List.lookup]
    · have hb : (m == v.1) = false := by simpa using e
      simp [List.lookup, hb, e]

theorem spec (hcap : cap < 2 ^ 32) (n : Nat) :
    (∀ d stk sc tr l, Ok cap l → RunSpec cap d tr l (run cap own P n d stk sc tr l)) ∧
    (∀ d stk prev r tr l, Ok cap l → ApplySpec cap d prev r tr l (applyLoop cap own P n d stk prev r tr l)) ∧
    (∀ d stk i r tr l, Ok cap l → SinkSpec cap d i r tr l (sinkLoop cap own P n d stk i r tr l)) ∧
    (∀ d stk r tr l, Ok cap l → FireSpec cap d r tr l (fire cap own P n d stk r tr l)) := by
  induction n with
  | zero =>
    refine ⟨?_, ?_, ?_, ?_⟩ <;> intros <;> simp [run, applyLoop, sinkLoop, fire, RunSpec, ApplySpec, SinkSpec, FireSpec]
  | succ n ih =>
    obtain ⟨ihR, ihA, ihS, ihF⟩ := ih
    refine ⟨?_, ?_, ?_, ?_⟩
    · intro d stk sc tr l h
      cases sc with
      | ret x => rw [run]; exact ⟨[], by simp, rfl, .nil⟩
      | throw => rw [run]; exact ⟨[], by simp, rfl, .nil⟩
      | act a k =>
        rw [run]
        cases hf : stk.find? fun x => !alive own (l.act cap a) x with
        | some x => trivial
        | none =>
          dsimp only
          have := ihR d stk k (tr ++ [.act a]) (l.act cap a) (h.act hcap a)
          cases hr : run cap own P n d stk k (tr ++ [.act a]) (l.act cap a) with
          | fault => trivial
          | dead x a => trivial
          | running => trivial
          | ended o tr' l' =>
            rw [hr] at this
            obtain ⟨new, rfl, rfl, q⟩ := this
            exact ⟨.act a :: new, by simp, rfl, (Quiet.act a).append q⟩
      | fire r k =>
        rw [run]
        have h1 := ihF (d + 1) stk r tr l h
        cases hf : fire cap own P n (d + 1) stk r tr l with
        | fault => trivial
        | dead x a => trivial
        | running => trivial
        | ended o tr1 l1 =>
          rw [hf] at h1
          obtain ⟨new1, rfl, rfl, b1, -⟩ := h1
          dsimp only
          have := ihR d stk (k o.isSome) (tr ++ new1) _ (h.acts hcap (actsOf new1))
          cases hr : run cap own P n d stk (k o.isSome) (tr ++ new1) (l.acts cap (actsOf new1)) with
          | fault => trivial
          | dead x a => trivial
          | running => trivial
          | ended o tr' l' =>
            rw [hr] at this
            obtain ⟨new, rfl, rfl, q⟩ := this
            exact ⟨new1 ++ new, by simp, by rw [actsOf_append, acts_append], b1.quiet.append q⟩
    · intro d stk prev r tr l h
      rw [applyLoop]
      cases hh : rest prev l.pend with
      | nil =>
        dsimp only [List.head?_nil]
        exact ⟨[], [], by simp, rfl, .nil, rfl, rfl, rfl, by simp, rfl, by simp [hh, names], by simp [hh]⟩
      | cons e t =>
        obtain ⟨nm, v⟩ := e
        dsimp only [List.head?_cons]
        have := ihR d (.value v :: stk) (P tr (.value v) []) (tr ++ [.call d (.value v) nm []]) l h
        cases hr : run cap own P n d (.value v :: stk) (P tr (.value v) []) (tr ++ [.call d (.value v) nm []]) l with
        | fault => trivial
        | dead x a => trivial
        | running => trivial
        | ended o tr' l' =>
          rw [hr] at this
          obtain ⟨new, rfl, rfl, q⟩ := this
          cases o with
          | none =>
            exact ⟨[.call d (.value v) nm []] ++ new ++ [.ret d (.value v) nm none], by simp, by rw [acts_call], below_call q,
              threw_last _⟩
          | some x =>
            dsimp only
            split
            · rename_i hv
              exact apply_more h hh q hv.1 hv.2 (ihA d stk (some nm) _ _ _ (h.acts hcap _))
            · trivial
    · intro d stk i r tr l h
      rw [sinkLoop]
      cases hn : l.ev.next true i with
      | stop =>
        have hst := Event.next_stop hn
        refine ⟨[], [], by simp, rfl, .nil, rfl, by simp, by simp, ?_, by simp, by simp, by simp [retsAt]⟩
        intro j x hj hx
        have := h.wf.lt_last (i := j) (by simp [hx])
        omega
      | null => trivial
      | skip =>
        have h0 := Event.next_skip hn
        have := ihS d stk (i + 1) r tr l h
        dsimp only
        cases hr : sinkLoop cap own P n d stk (i + 1) r tr l with
        | fault => trivial
        | dead x a => trivial
        | running => trivial
        | ended o tr' l' =>
          rw [hr] at this
          obtain ⟨new, cs, e1, e2, b, c1, c2, c3, c4, c5, c6, c7⟩ := this
          refine ⟨new, cs, e1, e2, b, c1, c2, fun e he => ⟨by have := (c3 e he).1; omega, (c3 e he).2⟩, ?_, c5, c6, c7⟩
          intro j x hj hx
          have : j ≠ i := by rintro rfl; rw [h0] at hx; cases hx
          exact c4 j x (by omega) hx
      | call s =>
        have hs : l.ev.sl i = some s := by simp [Table.sl, (Event.next_call hn).1]
        have := ihR d (.sink s :: stk) (P tr (.sink s) r) (tr ++ [.call d (.sink s) (i + 1) r]) l h
        dsimp only
        cases hr : run cap own P n d (.sink s :: stk) (P tr (.sink s) r) (tr ++ [.call d (.sink s) (i + 1) r]) l with
        | fault => trivial
        | dead x a => trivial
        | running => trivial
        | ended o tr' l' =>
          rw [hr] at this
          obtain ⟨new, rfl, rfl, q⟩ := this
          cases o with
          | none => exact sink_call h hs q (by simp) (.inl rfl)
          | some x => exact sink_more hcap h hs q (ihS d stk (i + 1) r _ _ (h.acts hcap _))
      | callLast s =>
        obtain ⟨hs, hl⟩ := next_callLast h hn
        have := ihR d (.sink s :: stk) (P tr (.sink s) r) (tr ++ [.call d (.sink s) (i + 1) r]) l h
        dsimp only
        cases hr : run cap own P n d (.sink s :: stk) (P tr (.sink s) r) (tr ++ [.call d (.sink s) (i + 1) r]) l with
        | fault => trivial
        | dead x a => trivial
        | running => trivial
        | ended o tr' l' =>
          rw [hr] at this
          obtain ⟨new, rfl, rfl, q⟩ := this
          exact sink_call h hs q (by simp) (.inr hl)
    · intro d stk r tr l h
      rw [fire]
      have hA := ihA d stk none r tr l h
      cases ha : applyLoop cap own P n d stk none r tr l with
      | fault => trivial
      | dead x a => trivial
      | running => trivial
      | ended o tr1 l1 =>
        rw [ha] at hA
        cases o with
        | none =>
          obtain ⟨new, rfl, rfl, b, th⟩ := hA
          exact ⟨new, rfl, rfl, b, fun _ => th, by simp⟩
        | some r' =>
          obtain ⟨a, vs, rfl, rfl, ba, c1, c2, c3, c4, c5, c6, c7⟩ := hA
          have hok := h.acts hcap (actsOf a)
          have hap : Applied cap d l r a vs r' := by
            refine ⟨c1, c2, fun n => by rw [c3]; exact lookup_fold vs r n, c4, ?_, c7⟩
            intro e he
            have h1 : e.1 ∈ names (l.acts cap (actsOf a)).pend := List.mem_map_of_mem he
            refine c6 e.1 ?_ h1
            rw [(acts_names c5).1] at h1
            exact (List.mem_filter.1 h1).1
          have hra : ∀ x ∈ retsAt d a, x.2.2 ≠ none := by
            rw [c2]; intro x hx
            obtain ⟨v, -, rfl⟩ := List.mem_map.1 hx
            simp
          have deliver : ∀ {l0 : Lg} {tr0 : List Ev} {cs : List (Nat × Nat)} {c : List Ev} {o : Option Unit}, o ≠ none →
              callsAt d c = cs.map (fun e : Nat × Nat => (.sink e.2, e.1, r')) →
              (cs.map (·.1)).Pairwise (· < ·) → (∀ e ∈ cs, 0 < e.1 ∧ e.1 ≤ cap) →
              (∀ j x, 0 ≤ j → l0.ev.sl j = some x → Act.disconnect (j + 1) ∉ actsOf c →
                (j + 1, x) ∈ cs ∨ o = none ∧ ∀ e ∈ cs, e.1 < j + 1) →
              ((∀ s, Act.connect s ∉ actsOf c) → ∀ e ∈ cs, l0.ev.sl (e.1 - 1) = some e.2) →
              Delivered cap d l0 r' false c cs := by
            intro l0 tr0 cs c o ho d1 d2 d3 d4 d5
            refine ⟨d1, d2, fun e he => ⟨by have := (d3 e he).1; omega, (d3 e he).2⟩, ?_, ?_⟩
            · intro k s hk hd
              obtain ⟨k0, k1⟩ := sinkAt_sl.1 hk
              have e : k - 1 + 1 = k := by omega
              have := d4 (k - 1) s (Nat.zero_le _) k1 (by rwa [e])
              rw [e] at this
              rcases this with h1 | h1
              · exact .inl h1
              · exact absurd h1.1 ho
            · intro hc e he
              exact sinkAt_sl.2 ⟨by have := (d3 e he).1; omega, d5 hc e he⟩
          dsimp only
          cases hf : (l.acts cap (actsOf a)).filter with
          | none =>
            dsimp only
            have hS := ihS d stk 0 r' (tr ++ a) _ hok
            cases hs : sinkLoop cap own P n d stk 0 r' (tr ++ a) (l.acts cap (actsOf a)) with
            | fault => trivial
            | dead x a => trivial
            | running => trivial
            | ended o tr2 l2 =>
              rw [hs] at hS
              obtain ⟨c, cs, rfl, rfl, bc, d1, d2, d3, d4, d5, d6, d7⟩ := hS
              refine ⟨a ++ c, by simp, by rw [actsOf_append, acts_append], ba.append bc, fun h0 => (d6 h0).append, ?_⟩
              intro ho
              refine ⟨a, [], c, vs, r', by simp, hap, c5, ?_, ?_⟩
              · intro x hx
                rw [retsAt_append, List.mem_append] at hx
                rcases hx with hx | hx
                · exact hra x hx
                · exact d7 ho x hx
              · rw [hf]
                exact ⟨rfl, cs, deliver (tr0 := []) ho d1 d2 d3 d4 d5⟩
          | some f =>
            dsimp only
            have hR := ihR d (.filter f :: stk) (P (tr ++ a) (.filter f) r') (tr ++ a ++ [.call d (.filter f) 0 r']) _ hok
            cases hr : run cap own P n d (.filter f :: stk) (P (tr ++ a) (.filter f) r') (tr ++ a ++ [.call d (.filter f) 0 r'])
                (l.acts cap (actsOf a)) with
            | fault => trivial
            | dead x a => trivial
            | running => trivial
            | ended o tr2 l2 =>
              rw [hr] at hR
              obtain ⟨b, rfl, rfl, q⟩ := hR
              cases o with
              | none =>
                dsimp only
                refine ⟨a ++ ([.call d (.filter f) 0 r'] ++ b ++ [.ret d (.filter f) 0 none]), by simp,
                  by rw [actsOf_append, acts_append, acts_call], ba.append (below_call q), fun _ => (threw_last _).append, by simp⟩
              | some x =>
                have hab : actsOf (a ++ ([.call d (.filter f) 0 r'] ++ b ++ [.ret d (.filter f) 0 (some x)])) = actsOf a ++ actsOf b := by
                  rw [actsOf_append, acts_call]
                have hrb : ∀ y ∈ retsAt d ([.call d (.filter f) 0 r'] ++ b ++ [.ret d (.filter f) 0 (some x)]), y.2.2 ≠ none := by
                  rw [rets_call q]; simp
                dsimp only
                split
                · rename_i hx
                  have hS := ihS d stk 0 r' (tr ++ a ++ [.call d (.filter f) 0 r'] ++ b ++ [.ret d (.filter f) 0 (some x)]) _
                    (hok.acts hcap (actsOf b))
                  cases hs : sinkLoop cap own P n d stk 0 r' (tr ++ a ++ [.call d (.filter f) 0 r'] ++ b ++ [.ret d (.filter f) 0 (some x)])
                      ((l.acts cap (actsOf a)).acts cap (actsOf b)) with
                  | fault => trivial
                  | dead x a => trivial
                  | running => trivial
                  | ended o tr3 l3 =>
                    rw [hs] at hS
                    obtain ⟨c, cs, rfl, rfl, bc, d1, d2, d3, d4, d5, d6, d7⟩ := hS
                    refine ⟨a ++ ([.call d (.filter f) 0 r'] ++ b ++ [.ret d (.filter f) 0 (some x)]) ++ c, by simp,
                      by rw [actsOf_append, hab, acts_append, acts_append], (ba.append (below_call q)).append bc,
                      fun h0 => (d6 h0).append, ?_⟩
                    intro ho
                    refine ⟨a, [.call d (.filter f) 0 r'] ++ b ++ [.ret d (.filter f) 0 (some x)], c, vs, r', rfl, hap, c5, ?_, ?_⟩
                    · intro y hy
                      rw [retsAt_append, retsAt_append, List.mem_append, List.mem_append] at hy
                      rcases hy with (hy | hy) | hy
                      · exact hra y hy
                      · exact hrb y hy
                      · exact d7 ho y hy
                    · rw [hf]
                      refine ⟨x, calls_call q, rets_call q, fun h0 => absurd hx h0, fun _ => ⟨cs, ?_⟩⟩
                      rw [hab, acts_append]
                      exact deliver (tr0 := []) ho d1 d2 d3 d4 d5
                · rename_i hx
                  refine ⟨a ++ ([.call d (.filter f) 0 r'] ++ b ++ [.ret d (.filter f) 0 (some x)]), by simp,
                    by rw [hab, acts_append], ba.append (below_call q), by simp, fun _ => ?_⟩
                  refine ⟨a, [.call d (.filter f) 0 r'] ++ b ++ [.ret d (.filter f) 0 (some x)], [], vs, r', by simp, hap, c5, ?_, ?_⟩
                  · intro y hy
                    rw [retsAt_append, List.mem_append] at hy
                    rcases hy with hy | hy
                    · exact hra y hy
                    · exact hrb y hy
                  · rw [hf]
                    exact ⟨x, calls_call q, rets_call q, fun _ => rfl, fun h0 => absurd h0 hx⟩

end Verif.Log.Re
