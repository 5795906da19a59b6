import Verif.Log.StreamRe
import Verif.Log.ReenterLemmas
set_option linter.unusedSimpArgs false
/-! Lemmas for C170. -/
namespace Verif.Log.Ss
open Verif.Log.Re (has rest Rec recAdd names names_map names_rest dropWhile_filter rest_cons lookup_fold)
variable {grow : Nat → Nat} {own : Who → Bool} {P : Progs}

theorem actsOf_append (a b : List Ev) : actsOf (a ++ b) = actsOf a ++ actsOf b := by simp [actsOf]
theorem callsAt_append (d : Nat) (a b : List Ev) : callsAt d (a ++ b) = callsAt d a ++ callsAt d b := by simp [callsAt]
theorem retsAt_append (d : Nat) (a b : List Ev) : retsAt d (a ++ b) = retsAt d a ++ retsAt d b := by simp [retsAt]
theorem acts_append (l : Sk) (a b : List Act) : l.acts grow (a ++ b) = (l.acts grow a).acts grow b := by simp [Sk.acts]

/-- Nothing of depth `d` or less happens.  (Specification; no code.) -/
def Quiet (d : Nat) (tr : List Ev) : Prop := ∀ d', d' ≤ d → callsAt d' tr = [] ∧ retsAt d' tr = []

theorem Quiet.nil {d : Nat} : Quiet d [] := fun _ _ => ⟨rfl, rfl⟩
theorem Quiet.append {d : Nat} {a b : List Ev} (h : Quiet d a) (h' : Quiet d b) : Quiet d (a ++ b) := fun d' hd => by
  rw [callsAt_append, retsAt_append, (h d' hd).1, (h d' hd).2, (h' d' hd).1, (h' d' hd).2]; exact ⟨rfl, rfl⟩
theorem Quiet.act {d : Nat} (a : Act) : Quiet d [.act a] := fun _ _ => ⟨rfl, rfl⟩
theorem Quiet.mono {d e : Nat} {a : List Ev} (h : Quiet d a) (he : e ≤ d) : Quiet e a := fun d' hd => h d' (by omega)

/-- Nothing of a depth below `d` happens.  (Specification; no code.) -/
def Below (d : Nat) (tr : List Ev) : Prop := ∀ d', d' < d → callsAt d' tr = [] ∧ retsAt d' tr = []

theorem Below.nil {d : Nat} : Below d [] := fun _ _ => ⟨rfl, rfl⟩
theorem Below.append {d : Nat} {a b : List Ev} (h : Below d a) (h' : Below d b) : Below d (a ++ b) := fun d' hd => by
  rw [callsAt_append, retsAt_append, (h d' hd).1, (h d' hd).2, (h' d' hd).1, (h' d' hd).2]; exact ⟨rfl, rfl⟩
theorem Quiet.below {d : Nat} {a : List Ev} (h : Quiet d a) : Below d a := fun d' hd => h d' (by omega)
theorem Below.quiet {d : Nat} {a : List Ev} (h : Below (d + 1) a) : Quiet d a := fun d' hd => h d' (by omega)

/-- A call and its end. -/
theorem below_call {d c : Nat} {x : Who} {r : Rec} {o : Option Nat} {new : List Ev} (h : Quiet d new) :
    Below d ([.call d x c r] ++ new ++ [.ret d x c o]) := fun d' hd => by
  have h1 := h d' (by omega)
  have : d ≠ d' := by omega
  rw [callsAt_append, callsAt_append, retsAt_append, retsAt_append, h1.1, h1.2]
  simp [callsAt, retsAt, this]

theorem calls_call {d c : Nat} {x : Who} {r : Rec} {o : Option Nat} {new : List Ev} (h : Quiet d new) :
    callsAt d ([.call d x c r] ++ new ++ [.ret d x c o]) = [(x, c, r)] := by
  rw [callsAt_append, callsAt_append, (h d (Nat.le_refl _)).1]; simp [callsAt]

theorem rets_call {d c : Nat} {x : Who} {r : Rec} {o : Option Nat} {new : List Ev} (h : Quiet d new) :
    retsAt d ([.call d x c r] ++ new ++ [.ret d x c o]) = [(x, c, o)] := by
  rw [retsAt_append, retsAt_append, (h d (Nat.le_refl _)).2]; simp [retsAt]

theorem acts_call {d c : Nat} {x : Who} {r : Rec} {o : Option Nat} {new : List Ev} :
    actsOf ([.call d x c r] ++ new ++ [.ret d x c o]) = actsOf new := by
  rw [actsOf_append, actsOf_append]; simp [actsOf]

/-! ### The pending values -/

/-- The names removed.  (Specification; no code.) -/
def removed (as : List Act) : List Nat := as.filterMap fun a => match a with
  | .remove n => some n
  | _ => none

theorem act_ins (l : Sk) (a : Act) : l.ins ≤ (l.act grow a).ins := by
  cases a <;> simp only [Sk.act] <;> (repeat' split) <;> simp

theorem act_names {l : Sk} {a : Act} (h : (l.act grow a).ins = l.ins) :
    names (l.act grow a).pend = (names l.pend).filter (fun m => m ∉ removed [a]) ∧
      (l.act grow a).cuts = l.cuts ++ removed [a] := by
  have key : ∀ as : List Nat, as = as.filter (fun m => m ∉ ([] : List Nat)) := fun as => by
    rw [List.filter_eq_self.2 (by simp)]
  cases a with
  | add n v =>
    simp only [Sk.act] at h ⊢
    split at h
    · rename_i hh; rw [if_pos hh]; exact ⟨key _, by simp [removed]⟩
    · simp at h
  | update n v =>
    simp only [Sk.act] at h ⊢
    split at h
    · rename_i hh
      rw [if_pos hh]; exact ⟨(names_map _ _ _).trans (key _), by simp [removed]⟩
    · simp at h
  | remove n =>
    simp only [Sk.act, removed, List.filterMap_cons, List.filterMap_nil, and_true]
    simp only [names, List.mem_singleton, decide_not]
    rw [List.filter_map]; rfl
  | setFilter f => exact ⟨key _, by simp [removed, Sk.act]⟩
  | use f => cases f <;> exact ⟨key _, by simp [removed, Sk.act]⟩
  | addStream k =>
    cases k with
    | none => exact ⟨key _, by simp [removed, Sk.act]⟩
    | some k => simp only [Sk.act]; split <;> exact ⟨key _, by simp [removed]⟩

theorem acts_ins (l : Sk) (as : List Act) : l.ins ≤ (l.acts grow as).ins := by
  induction as generalizing l with
  | nil => exact Nat.le_refl _
  | cons a as ih => exact Nat.le_trans (act_ins l a) (ih _)

theorem acts_names {l : Sk} {as : List Act} (h : (l.acts grow as).ins = l.ins) :
    names (l.acts grow as).pend = (names l.pend).filter (fun m => m ∉ removed as) ∧
      (l.acts grow as).cuts = l.cuts ++ removed as := by
  induction as generalizing l with
  | nil => exact ⟨(List.filter_eq_self.2 (by simp [removed])).symm, by simp [removed, Sk.acts]⟩
  | cons a as ih =>
    have h1 := act_ins (grow := grow) l a
    have h2 := acts_ins (grow := grow) (l.act grow a) as
    have e : l.acts grow (a :: as) = (l.act grow a).acts grow as := rfl
    rw [e] at h ⊢
    obtain ⟨i1, i2⟩ := ih (l := l.act grow a) (by omega)
    obtain ⟨j1, j2⟩ := act_names (grow := grow) (l := l) (a := a) (by omega)
    have hr : removed (a :: as) = removed [a] ++ removed as := by
      rw [removed, removed, removed, ← List.filterMap_append]; rfl
    refine ⟨?_, by rw [i2, j2, hr, List.append_assoc]⟩
    rw [i1, j1, List.filter_filter, hr]
    congr 1
    funext m
    by_cases h1 : m ∈ removed [a] <;> by_cases h2 : m ∈ removed as <;> simp [h1, h2]

theorem act_same {l : Sk} {a : Act} (h : a.onValues = false) :
    (l.act grow a).pend = l.pend ∧ (l.act grow a).ins = l.ins ∧ (l.act grow a).cuts = l.cuts := by
  cases a with
  | add n v => cases h
  | update n v => cases h
  | remove n => cases h
  | setFilter f => exact ⟨rfl, rfl, rfl⟩
  | use f => cases f <;> exact ⟨rfl, rfl, rfl⟩
  | addStream k =>
    cases k with
    | none => exact ⟨rfl, rfl, rfl⟩
    | some k => simp only [Sk.act]; split <;> exact ⟨rfl, rfl, rfl⟩

theorem acts_same {l : Sk} {as : List Act} (h : ∀ a ∈ as, a.onValues = false) :
    (l.acts grow as).pend = l.pend ∧ (l.acts grow as).ins = l.ins ∧ (l.acts grow as).cuts = l.cuts := by
  induction as generalizing l with
  | nil => exact ⟨rfl, rfl, rfl⟩
  | cons a as ih =>
    obtain ⟨a1, a2, a3⟩ := act_same (grow := grow) (l := l) (h a (by simp))
    obtain ⟨b1, b2, b3⟩ := ih (l := l.act grow a) (fun b hb => h b (by simp [hb]))
    exact ⟨b1.trans a1, b2.trans a2, b3.trans a3⟩

theorem act_nodup {l : Sk} (h : (names l.pend).Nodup) (a : Act) : (names (l.act grow a).pend).Nodup := by
  have key : ∀ n v, has l.pend n = false → (names (l.pend ++ [(n, v)])).Nodup := by
    intro n v hh
    simp only [names, List.map_append, List.map_cons, List.map_nil]
    rw [List.nodup_append]
    refine ⟨h, by simp, ?_⟩
    intro x hx y hy e
    simp only [List.mem_singleton] at hy
    obtain ⟨z, hz, rfl⟩ := List.mem_map.1 hx
    simp only [has, List.any_eq_false, decide_eq_true_eq] at hh
    exact hh z hz (by rw [e, hy])
  cases a with
  | add n v =>
    simp only [Sk.act]
    cases hh : has l.pend n with
    | true => simpa [hh] using h
    | false => simpa [hh] using key n v hh
  | update n v =>
    simp only [Sk.act]
    cases hh : has l.pend n with
    | true => simp only [if_true, names_map]; exact h
    | false => simpa [hh] using key n v hh
  | remove n =>
    simp only [Sk.act, names]
    exact (List.filter_sublist.map _).nodup h
  | setFilter f => exact h
  | use f => cases f <;> exact h
  | addStream k =>
    cases k with
    | none => exact h
    | some k => simp only [Sk.act]; split <;> exact h

/-- What is always true of a sink. -/
structure Ok (l : Sk) : Prop where
  nodup : (names l.pend).Nodup
  room : l.strs.length ≤ l.room

theorem Ok.init : Ok Sk.init := ⟨by simp [Sk.init, names], by simp [Sk.init]⟩

theorem Ok.act {l : Sk} (h : Ok l) (a : Act) : Ok (l.act grow a) := by
  refine ⟨act_nodup h.nodup a, ?_⟩
  have hr := h.room
  cases a with
  | add n v => simp only [Sk.act]; split <;> exact hr
  | update n v => simp only [Sk.act]; split <;> exact hr
  | remove n => exact hr
  | setFilter f => exact hr
  | use f => cases f <;> exact hr
  | addStream k =>
    cases k with
    | none => exact hr
    | some k =>
      simp only [Sk.act]
      split
      · simp only [List.length_append, List.length_singleton]; omega
      · simp only [List.length_append, List.length_singleton]; omega

theorem Ok.acts {l : Sk} (h : Ok l) (as : List Act) : Ok (l.acts grow as) := by
  induction as generalizing l with
  | nil => exact h
  | cons a as ih => exact ih (h.act a)

theorem act_strs (l : Sk) (a : Act) : l.strs <+: (l.act grow a).strs := by
  cases a with
  | add n v => simp only [Sk.act]; split <;> exact List.prefix_rfl
  | update n v => simp only [Sk.act]; split <;> exact List.prefix_rfl
  | remove n => exact List.prefix_rfl
  | setFilter f => exact List.prefix_rfl
  | use f => cases f <;> exact List.prefix_rfl
  | addStream k =>
    cases k with
    | none => exact List.prefix_rfl
    | some k => simp only [Sk.act]; split <;> exact List.prefix_append _ _

theorem acts_strs (l : Sk) (as : List Act) : l.strs <+: (l.acts grow as).strs := by
  induction as generalizing l with
  | nil => exact List.prefix_rfl
  | cons a as ih => exact (act_strs l a).trans (ih _)

theorem drop_cons {l l' : List Nat} (h : l <+: l') {i k : Nat} (hk : l[i]? = some k) : l'.drop i = k :: l'.drop (i + 1) := by
  obtain ⟨t, rfl⟩ := h
  obtain ⟨hi, e⟩ := List.getElem?_eq_some_iff.1 hk
  have hi' : i < (l ++ t).length := by rw [List.length_append]; omega
  rw [List.drop_eq_getElem_cons hi', List.getElem_append_left hi, e]

/-! ### What happens -/

/-- What is true of the end of a callee. -/
def RunSpec (grow : Nat → Nat) (d : Nat) (tr : List Ev) (l : Sk) : Res Nat → Prop
  | .ended _ tr' l' => ∃ new, tr' = tr ++ new ∧ l' = l.acts grow (actsOf new) ∧ Quiet d new
  | _ => True

/-- What is true of the end of `Apply`, coming from a name. -/
def ApplySpec (grow : Nat → Nat) (d : Nat) (prev : Option Nat) (r : Rec) (tr : List Ev) (l : Sk) : Res Rec → Prop
  | .ended none tr' l' => ∃ new, tr' = tr ++ new ∧ l' = l.acts grow (actsOf new) ∧ Below d new ∧ Threw d new ∧
      ∀ x ∈ callsAt d new, ∃ v, x.1 = .value v
  | .ended (some r') tr' l' => ∃ (new : List Ev) (vs : List (Nat × Nat × Nat)), tr' = tr ++ new ∧ l' = l.acts grow (actsOf new) ∧ Below d new ∧
      callsAt d new = vs.map (fun v : Nat × Nat × Nat => (.value v.2.1, v.1, [])) ∧
      retsAt d new = vs.map (fun v => (.value v.2.1, v.1, some v.2.2)) ∧
      r' = vs.foldl (fun r v => recAdd r v.1 v.2.2) r ∧
      (vs.map (·.1)).Sublist (names (rest prev l.pend)) ∧ l'.ins = l.ins ∧
      (∀ m ∈ names (rest prev l.pend), m ∈ names l'.pend → m ∈ vs.map (·.1)) ∧
      ((∀ a ∈ actsOf new, a.onValues = false) → vs.map (fun v => (v.1, v.2.1)) = rest prev l.pend)
  | _ => True

/-- What is true of the end of the loop over the streams, from index `i`. -/
def StreamSpec (grow : Nat → Nat) (d i : Nat) (r : Rec) (tr : List Ev) (l : Sk) : Res Unit → Prop
  | .ended o tr' l' => ∃ (new : List Ev) (ks : List (Nat × Nat)), tr' = tr ++ new ∧ l' = l.acts grow (actsOf new) ∧ Below d new ∧
      callsAt d new = ks.map (fun e : Nat × Nat => (.formatter e.1, e.2, r)) ∧
      (retsAt d new).map (fun e => (e.1, e.2.1)) = ks.map (fun e : Nat × Nat => (.formatter e.1, e.2)) ∧
      (o = none → Threw d new ∧ ks ≠ [] ∧ ks.map (·.2) <+: l'.strs.drop i) ∧
      (o ≠ none → (∀ x ∈ retsAt d new, x.2.2 ≠ none) ∧ ks.map (·.2) = l'.strs.drop i)
  | _ => True

/-- What is true of the end of `Fire`. -/
def FireSpec (grow : Nat → Nat) (d : Nat) (r : Rec) (tr : List Ev) (l : Sk) : Res Unit → Prop
  | .ended o tr' l' => ∃ new, tr' = tr ++ new ∧ l' = l.acts grow (actsOf new) ∧ Below d new ∧
      (l.fmt = none → o = none ∧ new = []) ∧
      (l.fmt ≠ none → o = none → Threw d new) ∧
      (o ≠ none → ∀ x ∈ retsAt d new, x.2.2 ≠ none) ∧
      ((∃ x c r', (x, c, r') ∈ callsAt d new ∧ ∃ f, x = .formatter f) ∨ o ≠ none →
        ∃ a b c vs r', new = a ++ b ++ c ∧ Applied grow d l r a vs r' ∧ (l.acts grow (actsOf a)).ins = l.ins ∧
        match (l.acts grow (actsOf a)).filter with
        | none => b = [] ∧ ∃ ks, Written grow d (l.acts grow (actsOf a)) r' o.isNone c ks
        | some f => ∃ x, callsAt d b = [(.filter f, 0, r')] ∧ retsAt d b = [(.filter f, 0, some x)] ∧
            (x ≠ 1 → c = []) ∧ (x = 1 → ∃ ks, Written grow d (l.acts grow (actsOf (a ++ b))) r' o.isNone c ks))
  | _ => True

theorem threw_last {d c : Nat} {x : Who} (pre : List Ev) : Threw d (pre ++ [.ret d x c none]) :=
  ⟨x, c, List.getLast?_concat⟩

theorem Threw.append {d : Nat} {a b : List Ev} (h : Threw d b) : Threw d (a ++ b) := by
  obtain ⟨x, c, h⟩ := h
  exact ⟨x, c, by rw [List.getLast?_append, h]; rfl⟩

theorem stream_throw {d i f k : Nat} {r : Rec} {tr new : List Ev} {l : Sk} (hs : l.strs[i]? = some k) (hq : Quiet d new) :
    StreamSpec grow d i r tr l (.ended none ((tr ++ [.call d (.formatter f) k r]) ++ new ++ [.ret d (.formatter f) k none])
      (l.acts grow (actsOf new))) := by
  refine ⟨[.call d (.formatter f) k r] ++ new ++ [.ret d (.formatter f) k none], [(f, k)], by simp, by rw [acts_call], below_call hq,
    by rw [calls_call hq]; rfl, by rw [rets_call hq]; rfl, fun _ => ⟨threw_last _, by simp, ?_⟩, by simp⟩
  rw [drop_cons (acts_strs l _) hs]
  exact ⟨(l.acts grow (actsOf new)).strs.drop (i + 1), rfl⟩

theorem stream_more {d i f k x0 : Nat} {r : Rec} {tr new : List Ev} {l : Sk} {res : Res Unit} (hs : l.strs[i]? = some k) (hq : Quiet d new)
    (hres : StreamSpec grow d (i + 1) r ((tr ++ [.call d (.formatter f) k r]) ++ new ++ [.ret d (.formatter f) k (some x0)])
      (l.acts grow (actsOf new)) res) : StreamSpec grow d i r tr l res := by
  cases res with
  | fault => trivial
  | dead x a => trivial
  | running => trivial
  | ended o tr' l' =>
    obtain ⟨new', ks, e1, e2, b, c1, c2, c3, c4⟩ := hres
    have ha : actsOf ([.call d (.formatter f) k r] ++ new ++ [.ret d (.formatter f) k (some x0)] ++ new') = actsOf new ++ actsOf new' := by
      rw [actsOf_append, acts_call]
    have hl : l' = l.acts grow (actsOf new ++ actsOf new') := by rw [acts_append, e2]
    have hd : l'.strs.drop i = k :: l'.strs.drop (i + 1) := by rw [hl]; exact drop_cons (acts_strs l _) hs
    refine ⟨[.call d (.formatter f) k r] ++ new ++ [.ret d (.formatter f) k (some x0)] ++ new', (f, k) :: ks, by simp [e1],
      by rw [ha, hl], (below_call hq).append b, ?_, ?_, ?_, ?_⟩
    · rw [callsAt_append, calls_call hq, c1]; rfl
    · rw [retsAt_append, rets_call hq, List.map_append, c2]; rfl
    · intro h0
      obtain ⟨d1, -, d3⟩ := c3 h0
      refine ⟨d1.append, by simp, ?_⟩
      rw [hd, List.map_cons]
      exact List.cons_prefix_cons.2 ⟨rfl, d3⟩
    · intro h0
      obtain ⟨d1, d2⟩ := c4 h0
      refine ⟨?_, by rw [hd, List.map_cons, d2]⟩
      intro x hx
      rw [retsAt_append, rets_call hq, List.mem_append] at hx
      rcases hx with hx | hx
      · rw [List.mem_singleton] at hx; subst hx; simp
      · exact d1 x hx

theorem StreamSpec.written {d : Nat} {r : Rec} {l : Sk} {o : Option Unit} {c : List Ev} {ks : List (Nat × Nat)}
    (c1 : callsAt d c = ks.map (fun e : Nat × Nat => (.formatter e.1, e.2, r)))
    (c2 : (retsAt d c).map (fun e => (e.1, e.2.1)) = ks.map (fun e : Nat × Nat => (.formatter e.1, e.2)))
    (c3 : o = none → Threw d c ∧ ks ≠ [] ∧ ks.map (·.2) <+: (l.acts grow (actsOf c)).strs.drop 0)
    (c4 : o ≠ none → (∀ x ∈ retsAt d c, x.2.2 ≠ none) ∧ ks.map (·.2) = (l.acts grow (actsOf c)).strs.drop 0) :
    Written grow d l r o.isNone c ks := by
  refine ⟨c1, c2, ?_⟩
  cases o with
  | none => obtain ⟨-, h1, h2⟩ := c3 rfl; simpa using ⟨h1, h2⟩
  | some u => simpa using (c4 (by simp)).2

/-- What is before the loop after a call that left the iterator valid. -/
theorem rest_acts {nm v : Nat} {prev : Option Nat} {t : List (Nat × Nat)} {as : List Act} {l : Sk} (h : Ok l)
    (hr : rest prev l.pend = (nm, v) :: t) (hins : (l.acts grow as).ins = l.ins)
    (hcut : (l.acts grow as).cuts.count nm = l.cuts.count nm) :
    names (rest (some nm) (l.acts grow as).pend) = (names t).filter fun m => m ∉ removed as := by
  have ht := rest_cons h.nodup hr
  obtain ⟨hn1, hn2⟩ := acts_names hins
  have hnm : nm ∉ removed as := by
    rw [hn2, List.count_append] at hcut
    intro hm
    have := List.count_pos_iff.2 hm
    omega
  rw [names_rest, hn1, ← ht, names_rest]
  dsimp only
  rw [dropWhile_filter (by simpa using hnm)]
  cases hd : (names l.pend).dropWhile (fun e => decide (e ≠ nm)) with
  | nil => rfl
  | cons a u =>
    have : a = nm := by
      have := List.head_dropWhile_not (p := fun e => decide (e ≠ nm)) (l := names l.pend) (w := by rw [hd]; simp)
      simp only [hd, List.head_cons] at this
      simpa using this
    subst this
    rw [List.filter_cons, if_pos (by simpa using hnm)]
    rfl

theorem apply_more {d nm v x0 : Nat} {prev : Option Nat} {t : List (Nat × Nat)} {r : Rec} {tr new : List Ev} {l : Sk}
    {res : Res Rec} (h : Ok l) (hr : rest prev l.pend = (nm, v) :: t) (hq : Quiet d new)
    (hins : (l.acts grow (actsOf new)).ins = l.ins) (hcut : (l.acts grow (actsOf new)).cuts.count nm = l.cuts.count nm)
    (hres : ApplySpec grow d (some nm) (recAdd r nm x0)
      ((tr ++ [.call d (.value v) nm []]) ++ new ++ [.ret d (.value v) nm (some x0)]) (l.acts grow (actsOf new)) res) :
    ApplySpec grow d prev r tr l res := by
  have ht := rest_cons h.nodup hr
  obtain ⟨hn1, hn2⟩ := acts_names hins
  have hrest := rest_acts h hr hins hcut
  have ha : ∀ new', actsOf ([.call d (.value v) nm []] ++ new ++ [.ret d (.value v) nm (some x0)] ++ new') = actsOf new ++ actsOf new' := by
    intro new'; rw [actsOf_append, acts_call]
  cases res with
  | fault => trivial
  | dead x a => trivial
  | running => trivial
  | ended o tr' l' =>
    cases o with
    | none =>
      obtain ⟨new', e1, e2, b, th, hc⟩ := hres
      exact ⟨[.call d (.value v) nm []] ++ new ++ [.ret d (.value v) nm (some x0)] ++ new', by simp [e1], by rw [ha, acts_append, e2],
        (below_call hq).append b, th.append, fun x hx => by
          rw [callsAt_append, calls_call hq, List.mem_append] at hx
          rcases hx with hx | hx
          · rw [List.mem_singleton] at hx; subst hx; exact ⟨v, rfl⟩
          · exact hc x hx⟩
    | some r' =>
      obtain ⟨new', vs, e1, e2, b, c1, c2, c3, c4, c5, c6, c7⟩ := hres
      refine ⟨[.call d (.value v) nm []] ++ new ++ [.ret d (.value v) nm (some x0)] ++ new', (nm, v, x0) :: vs, by simp [e1],
        by rw [ha, acts_append, e2], (below_call hq).append b, ?_, ?_, ?_, ?_, c5.trans hins, ?_, ?_⟩
      · rw [callsAt_append, calls_call hq, c1]; rfl
      · rw [retsAt_append, rets_call hq, c2]; rfl
      · rw [c3]; rfl
      · rw [hr]
        simp only [names, List.map_cons]
        rw [hrest] at c4
        exact (c4.trans List.filter_sublist).cons_cons _
      · intro m hm hm'
        rw [hr] at hm
        simp only [names, List.map_cons] at hm
        rcases List.mem_cons.1 hm with rfl | hm
        · simp
        · refine List.mem_cons_of_mem _ (c6 m ?_ hm')
          have h1 : m ∈ names (l.acts grow (actsOf new)).pend := by
            rw [e2, (acts_names (grow := grow) (l := l.acts grow (actsOf new)) (as := actsOf new') (by rw [← e2]; exact c5)).1] at hm'
            exact (List.mem_filter.1 hm').1
          rw [hn1] at h1
          rw [hrest]
          exact List.mem_filter.2 ⟨hm, (List.mem_filter.1 h1).2⟩
      · intro hall
        rw [ha] at hall
        have h1 := (acts_same (grow := grow) (l := l) (as := actsOf new) (fun a h => hall a (by simp [h]))).1
        have := c7 (fun a h => hall a (by simp [h]))
        rw [h1, ht] at this
        rw [hr, List.map_cons, this]

theorem spec (n : Nat) :
    (∀ d stk sc tr l, Ok l → RunSpec grow d tr l (run grow own P n d stk sc tr l)) ∧
    (∀ d stk prev r tr l, Ok l → ApplySpec grow d prev r tr l (applyLoop grow own P n d stk prev r tr l)) ∧
    (∀ d stk i r tr l, Ok l → StreamSpec grow d i r tr l (streamLoop grow own P n d stk i r tr l)) ∧
    (∀ d stk r tr l, Ok l → FireSpec grow d r tr l (fire grow own P n d stk r tr l)) := by
  induction n with
  | zero =>
    refine ⟨?_, ?_, ?_, ?_⟩ <;> intros <;> simp [run, applyLoop, streamLoop, fire, RunSpec, ApplySpec, StreamSpec, FireSpec]
  | succ n ih =>
    obtain ⟨ihR, ihA, ihS, ihF⟩ := ih
    refine ⟨?_, ?_, ?_, ?_⟩
    · intro d stk sc tr l h
      cases sc with
      | ret x => rw [run]; exact ⟨[], by simp, rfl, .nil⟩
      | throw => rw [run]; exact ⟨[], by simp, rfl, .nil⟩
      | act a k =>
        rw [run]
        cases hf : stk.find? fun x => !alive own (l.act grow a) x with
        | some x => trivial
        | none =>
          dsimp only
          have := ihR d stk k (tr ++ [.act a]) (l.act grow a) (h.act a)
          cases hr : run grow own P n d stk k (tr ++ [.act a]) (l.act grow a) with
          | fault => trivial
          | dead x a => trivial
          | running => trivial
          | ended o tr' l' =>
            rw [hr] at this
            obtain ⟨new, rfl, rfl, q⟩ := this
            exact ⟨.act a :: new, by simp, rfl, (Quiet.act a).append q⟩
      | fire r k =>
        rw [run]
        have h1 := ihF (d + 1) stk r tr l h
        cases hf : fire grow own P n (d + 1) stk r tr l with
        | fault => trivial
        | dead x a => trivial
        | running => trivial
        | ended o tr1 l1 =>
          rw [hf] at h1
          obtain ⟨new1, rfl, rfl, b1, -⟩ := h1
          dsimp only
          have := ihR d stk (k o.isSome) (tr ++ new1) _ (h.acts (grow := grow) (actsOf new1))
          cases hr : run grow own P n d stk (k o.isSome) (tr ++ new1) (l.acts grow (actsOf new1)) with
          | fault => trivial
          | dead x a => trivial
          | running => trivial
          | ended o tr' l' =>
            rw [hr] at this
            obtain ⟨new, rfl, rfl, q⟩ := this
            exact ⟨new1 ++ new, by simp, by rw [actsOf_append, acts_append], b1.quiet.append q⟩
    · intro d stk prev r tr l h
      rw [applyLoop]
      cases hh : rest prev l.pend with
      | nil =>
        dsimp only [List.head?_nil]
        exact ⟨[], [], by simp, rfl, .nil, rfl, rfl, rfl, by simp, rfl, by simp [hh, names], by simp [hh]⟩
      | cons e t =>
        obtain ⟨nm, v⟩ := e
        dsimp only [List.head?_cons]
        have := ihR d (.value v :: stk) (P tr (.value v) nm []) (tr ++ [.call d (.value v) nm []]) l h
        cases hr : run grow own P n d (.value v :: stk) (P tr (.value v) nm []) (tr ++ [.call d (.value v) nm []]) l with
        | fault => trivial
        | dead x a => trivial
        | running => trivial
        | ended o tr' l' =>
          rw [hr] at this
          obtain ⟨new, rfl, rfl, q⟩ := this
          cases o with
          | none =>
            exact ⟨[.call d (.value v) nm []] ++ new ++ [.ret d (.value v) nm none], by simp, by rw [acts_call], below_call q,
              threw_last _, fun x hx => by rw [calls_call q, List.mem_singleton] at hx; subst hx; exact ⟨v, rfl⟩⟩
          | some x =>
            dsimp only
            split
            · rename_i hv
              exact apply_more h hh q hv.1 hv.2 (ihA d stk (some nm) _ _ _ (h.acts _))
            · trivial
    · intro d stk i r tr l h
      rw [streamLoop]
      cases hs : l.strs[i]? with
      | none =>
        have hd : l.strs.drop i = [] := by rw [List.drop_eq_nil_iff]; exact List.getElem?_eq_none_iff.1 hs
        exact ⟨[], [], by simp, rfl, .nil, rfl, rfl, by simp, fun _ => ⟨by simp [retsAt], hd.symm⟩⟩
      | some k =>
        dsimp only
        cases hf : l.fmt with
        | none => trivial
        | some f =>
          dsimp only
          have := ihR d (.formatter f :: stk) (P tr (.formatter f) k r) (tr ++ [.call d (.formatter f) k r]) l h
          cases hr : run grow own P n d (.formatter f :: stk) (P tr (.formatter f) k r) (tr ++ [.call d (.formatter f) k r]) l with
          | fault => trivial
          | dead x a => trivial
          | running => trivial
          | ended o tr' l' =>
            rw [hr] at this
            obtain ⟨new, rfl, rfl, q⟩ := this
            cases o with
            | none => exact stream_throw hs q
            | some x =>
              dsimp only
              split
              · exact stream_more hs q (ihS d stk (i + 1) r _ _ (h.acts _))
              · trivial
    · intro d stk r tr l h
      rw [fire]
      cases hfm : l.fmt with
      | none => exact ⟨[], by simp, rfl, .nil, fun _ => ⟨rfl, rfl⟩, fun h0 => absurd hfm h0, by simp, by simp [callsAt]⟩
      | some fm =>
      have hf0 : ¬ l.fmt = none := by rw [hfm]; simp
      dsimp only
      have hA := ihA d stk none r tr l h
      cases ha : applyLoop grow own P n d stk none r tr l with
      | fault => trivial
      | dead x a => trivial
      | running => trivial
      | ended o tr1 l1 =>
        rw [ha] at hA
        cases o with
        | none =>
          obtain ⟨new, rfl, rfl, b, th, hc⟩ := hA
          refine ⟨new, rfl, rfl, b, fun h0 => absurd h0 hf0, fun _ _ => th, by simp, ?_⟩
          rintro (⟨x, c, r', hm, f, rfl⟩ | h0)
          · obtain ⟨v, hv⟩ := hc _ hm; cases hv
          · exact absurd rfl h0
        | some r' =>
          obtain ⟨a, vs, rfl, rfl, ba, c1, c2, c3, c4, c5, c6, c7⟩ := hA
          have hok := h.acts (grow := grow) (actsOf a)
          have hap : Applied grow d l r a vs r' := by
            refine ⟨c1, c2, fun n => by rw [c3]; exact lookup_fold vs r n, c4, ?_, c7⟩
            intro e he
            have h1 : e.1 ∈ names (l.acts grow (actsOf a)).pend := List.mem_map_of_mem he
            refine c6 e.1 ?_ h1
            rw [(acts_names c5).1] at h1
            exact (List.mem_filter.1 h1).1
          have hra : ∀ x ∈ retsAt d a, x.2.2 ≠ none := by
            rw [c2]; intro x hx
            obtain ⟨v, -, rfl⟩ := List.mem_map.1 hx
            simp
          dsimp only
          cases hf : (l.acts grow (actsOf a)).filter with
          | none =>
            dsimp only
            have hS := ihS d stk 0 r' (tr ++ a) _ hok
            cases hs : streamLoop grow own P n d stk 0 r' (tr ++ a) (l.acts grow (actsOf a)) with
            | fault => trivial
            | dead x a => trivial
            | running => trivial
            | ended o tr2 l2 =>
              rw [hs] at hS
              obtain ⟨c, ks, rfl, rfl, bc, d1, d2, d3, d4⟩ := hS
              refine ⟨a ++ c, by simp, by rw [actsOf_append, acts_append], ba.append bc, fun h0 => absurd h0 hf0,
                fun _ h0 => (d3 h0).1.append, ?_, ?_⟩
              · intro ho x hx
                rw [retsAt_append, List.mem_append] at hx
                rcases hx with hx | hx
                · exact hra x hx
                · exact (d4 ho).1 x hx
              · intro _
                refine ⟨a, [], c, vs, r', by simp, hap, c5, ?_⟩
                rw [hf]
                exact ⟨rfl, ks, StreamSpec.written d1 d2 d3 d4⟩
          | some f =>
            dsimp only
            have hR := ihR d (.filter f :: stk) (P (tr ++ a) (.filter f) 0 r') (tr ++ a ++ [.call d (.filter f) 0 r']) _ hok
            cases hr : run grow own P n d (.filter f :: stk) (P (tr ++ a) (.filter f) 0 r') (tr ++ a ++ [.call d (.filter f) 0 r'])
                (l.acts grow (actsOf a)) with
            | fault => trivial
            | dead x a => trivial
            | running => trivial
            | ended o tr2 l2 =>
              rw [hr] at hR
              obtain ⟨b, rfl, rfl, q⟩ := hR
              cases o with
              | none =>
                dsimp only
                refine ⟨a ++ ([.call d (.filter f) 0 r'] ++ b ++ [.ret d (.filter f) 0 none]), by simp,
                  by rw [actsOf_append, acts_append, acts_call], ba.append (below_call q), fun h0 => absurd h0 hf0,
                  fun _ _ => (threw_last _).append, by simp, ?_⟩
                rintro (⟨x, c, r2, hm, f2, rfl⟩ | h0)
                · rw [callsAt_append, calls_call q, c1, List.mem_append] at hm
                  rcases hm with hm | hm
                  · obtain ⟨v, -, hv⟩ := List.mem_map.1 hm; cases hv
                  · rw [List.mem_singleton] at hm; cases hm
                · exact absurd rfl h0
              | some x =>
                have hab : actsOf (a ++ ([.call d (.filter f) 0 r'] ++ b ++ [.ret d (.filter f) 0 (some x)])) = actsOf a ++ actsOf b := by
                  rw [actsOf_append, acts_call]
                have hrb : ∀ y ∈ retsAt d ([.call d (.filter f) 0 r'] ++ b ++ [.ret d (.filter f) 0 (some x)]), y.2.2 ≠ none := by
                  rw [rets_call q]; simp
                dsimp only
                split
                · rename_i hx
                  have hS := ihS d stk 0 r' (tr ++ a ++ [.call d (.filter f) 0 r'] ++ b ++ [.ret d (.filter f) 0 (some x)]) _
                    (hok.acts (grow := grow) (actsOf b))
                  cases hs : streamLoop grow own P n d stk 0 r' (tr ++ a ++ [.call d (.filter f) 0 r'] ++ b ++ [.ret d (.filter f) 0 (some x)])
                      ((l.acts grow (actsOf a)).acts grow (actsOf b)) with
                  | fault => trivial
                  | dead x a => trivial
                  | running => trivial
                  | ended o tr3 l3 =>
                    rw [hs] at hS
                    obtain ⟨c, ks, rfl, rfl, bc, d1, d2, d3, d4⟩ := hS
                    refine ⟨a ++ ([.call d (.filter f) 0 r'] ++ b ++ [.ret d (.filter f) 0 (some x)]) ++ c, by simp,
                      by rw [actsOf_append, hab, acts_append, acts_append], (ba.append (below_call q)).append bc,
                      fun h0 => absurd h0 hf0, fun _ h0 => (d3 h0).1.append, ?_, ?_⟩
                    · intro ho y hy
                      rw [retsAt_append, retsAt_append, List.mem_append, List.mem_append] at hy
                      rcases hy with (hy | hy) | hy
                      · exact hra y hy
                      · exact hrb y hy
                      · exact (d4 ho).1 y hy
                    · intro _
                      refine ⟨a, [.call d (.filter f) 0 r'] ++ b ++ [.ret d (.filter f) 0 (some x)], c, vs, r', rfl, hap, c5, ?_⟩
                      rw [hf]
                      refine ⟨x, calls_call q, rets_call q, fun h0 => absurd hx h0, fun _ => ⟨ks, ?_⟩⟩
                      rw [hab, acts_append]
                      exact StreamSpec.written d1 d2 d3 d4
                · rename_i hx
                  refine ⟨a ++ ([.call d (.filter f) 0 r'] ++ b ++ [.ret d (.filter f) 0 (some x)]), by simp,
                    by rw [hab, acts_append], ba.append (below_call q), fun h0 => absurd h0 hf0, by simp, ?_, fun _ => ?_⟩
                  · intro _ y hy
                    rw [retsAt_append, List.mem_append] at hy
                    rcases hy with hy | hy
                    · exact hra y hy
                    · exact hrb y hy
                  refine ⟨a, [.call d (.filter f) 0 r'] ++ b ++ [.ret d (.filter f) 0 (some x)], [], vs, r', by simp, hap, c5, ?_⟩
                  rw [hf]
                  exact ⟨x, calls_call q, rets_call q, fun _ => rfl, fun h0 => absurd h0 hx⟩

end Verif.Log.Ss
