import Verif.Ptr.Lemmas
set_option linter.unusedSimpArgs false
set_option linter.unusedVariables false
/-! Every operation keeps the counts right. -/
namespace Verif.Ptr

theorem ind_le {p q b : Ref → Bool} (h : ∀ r, p r = true → q r = true ∨ b r = true) (o : Option Ref) :
    ind p o ≤ ind q o + ind b o := by
  cases o with
  | none => simp [ind]
  | some r =>
    unfold ind; dsimp only
    cases e : p r with
    | false => simp
    | true => rcases h r e with h | h <;> simp [h] <;> omega

theorem sum_le3 {α : Type} {f g k : α → Nat} (h : ∀ x, f x ≤ g x + k x) : ∀ l : List α,
    (l.map f).sum ≤ (l.map g).sum + (l.map k).sum
  | [] => by simp
  | a :: t => by
    have := sum_le3 h t; have := h a
    simp only [List.map_cons, List.sum_cons]; omega

theorem cnt_le {p q b : Ref → Bool} (h : ∀ r, p r = true → q r = true ∨ b r = true) (l : List (Option Ref)) :
    cnt p l ≤ cnt q l + cnt b l := sum_le3 (ind_le h) l

theorem countP_le {p q b : Ref → Bool} (h : ∀ r, p r = true → q r = true ∨ b r = true) : ∀ l : List Ref,
    l.countP p ≤ l.countP q + l.countP b
  | [] => by simp
  | a :: t => by
    have := countP_le h t; have := ind_le h (some a)
    simp only [countP_cons_ind]; omega

theorem tally_le {p q b : Ref → Bool} (h : ∀ r, p r = true → q r = true ∨ b r = true) (s : State) (P : List Ref) :
    tally p s P ≤ tally q s P + tally b s P := by
  have h1 := cnt_le h s.vars
  have h2 : (s.cells.map (cellCnt p)).sum ≤ (s.cells.map (cellCnt q)).sum + (s.cells.map (cellCnt b)).sum :=
    sum_le3 (fun x => by unfold cellCnt; split; · exact cnt_le h _
                         · omega) _
  have h3 := countP_le h s.raw
  have h4 := countP_le h P
  unfold tally; omega

/-! ### Parts -/

theorem counter_eq (sh : Shape) (r : Ref) : counter sh r =
    match (sh[r.cell]?).bind (·[r.part]?) with
    | some .self => some r.cell
    | some (.to q) => if q.before r then counter sh q else none
    | _ => none := by
  rw [counter]
  cases (sh[r.cell]?).bind (·[r.part]?) with
  | none => rfl
  | some d => cases d <;> rfl

theorem live_eq (s : State) (r : Ref) : s.live r =
    match s.cells[r.cell]? with
    | none => false
    | some x =>
      x.alive && match x.parts[r.part]? with
        | some (.to q) => if q.before r then s.live q else false
        | some _ => true
        | none => false := by
  rw [State.live]
  cases s.cells[r.cell]? with
  | none => rfl
  | some x =>
    dsimp only
    cases x.parts[r.part]? with
    | none => rfl
    | some d => cases d <;> rfl

/-- Induction over controllers. -/
theorem ref_ind {motive : Ref → Prop} (h : ∀ r, (∀ q, q.before r → motive q) → motive r) (r : Ref) : motive r := by
  have wf : WellFounded (fun q r : Ref => Prod.Lex (· < ·) (· < ·) (q.cell, q.part) (r.cell, r.part)) :=
    InvImage.wf (fun r : Ref => (r.cell, r.part)) (Prod.lex Nat.lt_wfRel Nat.lt_wfRel).wf
  refine wf.induction r fun r ih => h r fun q hq => ih q ?_
  rcases hq with hq | ⟨h1, h2⟩
  · exact Prod.Lex.left _ _ hq
  · show Prod.Lex _ _ (q.cell, q.part) (r.cell, r.part)
    rw [h1]; exact Prod.Lex.right _ h2

theorem counter_le (sh : Shape) (r : Ref) : ∀ c, counter sh r = some c → c ≤ r.cell := by
  induction r using ref_ind with
  | h r ih =>
    intro c h
    rw [counter_eq] at h
    split at h
    · cases h; exact Nat.le_refl _
    · rename_i q _
      split at h
      · rename_i hb
        have := ih q hb c h
        rcases hb with hb | ⟨hb, _⟩ <;> omega
      · cases h
    · cases h

theorem counter_lt {sh : Shape} {r : Ref} : ∀ c, counter sh r = some c → r.cell < sh.length := by
  intro c h
  rw [counter_eq] at h
  rcases Nat.lt_or_ge r.cell sh.length with hl | hl
  · exact hl
  · rw [List.getElem?_eq_none hl] at h; cases h

theorem counter_append (sh : Shape) (p : List Deleg) (r : Ref) (hr : r.cell < sh.length) :
    counter (sh ++ [p]) r = counter sh r := by
  induction r using ref_ind with
  | h r ih =>
    rw [counter_eq, counter_eq sh, List.getElem?_append_left hr]
    cases (sh[r.cell]?).bind (·[r.part]?) with
    | none => rfl
    | some d =>
      cases d with
      | to q =>
        dsimp only
        split
        · rename_i hb
          exact ih q hb (by rcases hb with hb | ⟨hb, _⟩ <;> omega)
        · rfl
      | _ => rfl

theorem wf_eq (sh : Shape) (r : Ref) : wf sh r =
    match (sh[r.cell]?).bind (·[r.part]?) with
    | some (.to q) => if q.before r then wf sh q else false
    | some _ => true
    | none => false := by
  rw [wf]
  cases (sh[r.cell]?).bind (·[r.part]?) with
  | none => rfl
  | some d => cases d <;> rfl

theorem wf_lt {sh : Shape} {r : Ref} (h : wf sh r = true) : r.cell < sh.length := by
  rw [wf_eq] at h
  rcases Nat.lt_or_ge r.cell sh.length with hl | hl
  · exact hl
  · rw [List.getElem?_eq_none hl] at h; cases h

theorem wf_append (sh : Shape) (p : List Deleg) (r : Ref) (hr : r.cell < sh.length) :
    wf (sh ++ [p]) r = wf sh r := by
  induction r using ref_ind with
  | h r ih =>
    rw [wf_eq, wf_eq sh, List.getElem?_append_left hr]
    cases (sh[r.cell]?).bind (·[r.part]?) with
    | none => rfl
    | some d =>
      cases d with
      | to q =>
        dsimp only
        split
        · rename_i hb
          exact ih q hb (by rcases hb with hb | ⟨hb, _⟩ <;> omega)
        · rfl
      | _ => rfl

theorem live_wf {s : State} (r : Ref) : s.live r = true → wf s.shape r = true := by
  induction r using ref_ind with
  | h r ih =>
    intro hl
    rw [live_eq] at hl
    rw [wf_eq]
    cases e : s.cells[r.cell]? with
    | none => rw [e] at hl; cases hl
    | some x =>
      rw [e] at hl; dsimp only at hl
      have e2 : s.shape[r.cell]? = some x.parts := by unfold State.shape; rw [List.getElem?_map, e]; rfl
      rw [e2]; dsimp only [Option.bind_some]
      cases ha : x.alive with
      | false => rw [ha] at hl; simp at hl
      | true =>
        rw [ha, Bool.true_and] at hl
        cases hp : x.parts[r.part]? with
        | none => rw [hp] at hl; cases hl
        | some d =>
          rw [hp] at hl
          cases d with
          | to q =>
            dsimp only at hl ⊢
            split at hl
            · rename_i hb; rw [if_pos hb]; exact ih q hb hl
            · cases hl
          | _ => rfl

/-- The counting object of a live pointer is alive. -/
theorem live_counter {s : State} (r : Ref) : s.live r = true → ∀ c, counter s.shape r = some c →
    ∃ y, s.cells[c]? = some y ∧ y.alive = true := by
  induction r using ref_ind with
  | h r ih =>
    intro hl c hc
    rw [live_eq] at hl
    rw [counter_eq] at hc
    cases e : s.cells[r.cell]? with
    | none => rw [e] at hl; cases hl
    | some x =>
      rw [e] at hl; dsimp only at hl
      have e2 : s.shape[r.cell]? = some x.parts := by unfold State.shape; rw [List.getElem?_map, e]; rfl
      rw [e2] at hc; dsimp only [Option.bind_some] at hc
      cases ha : x.alive with
      | false => rw [ha] at hl; simp at hl
      | true =>
        rw [ha, Bool.true_and] at hl
        split at hc
        · cases hc; exact ⟨x, e, ha⟩
        · rename_i q hq
          rw [hq] at hl; dsimp only at hl
          split at hc
          · rename_i hb
            rw [if_pos hb] at hl
            exact ih q hb hl c hc
          · cases hc
        · cases hc

theorem live_lt {s : State} {r : Ref} (h : s.live r = true) : r.cell < s.cells.length := by
  rw [live_eq] at h
  rcases Nat.lt_or_ge r.cell s.cells.length with hl | hl
  · exact hl
  · rw [List.getElem?_eq_none hl] at h; cases h

/-! ### Locations -/

theorem get_put_self {s : State} {l : Loc} {o v : Option Ref} (h : s.get l = some o) : (s.put l v).get l = some v := by
  cases l with
  | var i =>
    have := (List.getElem?_eq_some_iff.mp (show s.vars[i]? = some o from h)).1
    show (s.vars.set i v)[i]? = some v
    simp [this]
  | field c k =>
    obtain ⟨x, hx, ha, hk⟩ := get_field h
    rw [put_field hx]
    have h1 := (List.getElem?_eq_some_iff.mp hx).1
    have h2 := (List.getElem?_eq_some_iff.mp hk).1
    unfold State.get; dsimp only
    rw [List.getElem?_set]; simp [h1, ha, h2]

theorem get_put_ne {s : State} {l m : Loc} {v : Option Ref} (h : m ≠ l) : (s.put l v).get m = s.get m := by
  cases l with
  | var i =>
    cases m with
    | var j =>
      have : i ≠ j := fun e => h (by rw [e])
      show (s.vars.set i v)[j]? = s.vars[j]?
      rw [List.getElem?_set]; simp [this]
    | field d j => rfl
  | field c k =>
    cases m with
    | var j => rfl
    | field d j =>
      unfold State.get State.put; dsimp only
      rw [List.getElem?_modify]
      by_cases e : c = d
      · subst e
        have hk : k ≠ j := fun e => h (by rw [e])
        cases s.cells[c]? with
        | none => rfl
        | some x => simp only [if_pos rfl, Functor.map, Option.map, List.getElem?_set, if_neg hk]; simp [hk]
      · cases s.cells[d]? with
        | none => rfl
        | some x => simp [e]

theorem Later.get {s s' : State} (h : Later s s') {l : Loc} (hs : (s'.get l).isSome) : s'.get l = s.get l := by
  cases l with
  | var i => show s'.vars[i]? = s.vars[i]?; rw [h.vars]
  | field c k =>
    cases e : s'.get (.field c k) with
    | none => rw [e] at hs; cases hs
    | some o =>
      obtain ⟨y', hy', ha, hk⟩ := get_field e
      obtain ⟨y, hy, _, hf, hal⟩ := h.cell c y' hy'
      unfold State.get; dsimp only
      rw [hy]; dsimp only
      rw [if_pos (hal ha), ← hf, hk]

/-- The effect of `put` on a single cell. -/
theorem put_cell {s : State} {l : Loc} {v : Option Ref} {c : Nat} {y : Cell} (h : (s.put l v).cells[c]? = some y) :
    ∃ x, s.cells[c]? = some x ∧ y.alive = x.alive ∧ y.count = x.count ∧ y.parts = x.parts := by
  cases l with
  | var i => exact ⟨y, h, rfl, rfl, rfl⟩
  | field d k =>
    unfold State.put at h; dsimp only at h
    rw [List.getElem?_modify] at h
    cases e : s.cells[c]? with
    | none => rw [e] at h; cases h
    | some x =>
      rw [e] at h
      refine ⟨x, rfl, ?_⟩
      by_cases hd : d = c
      · simp [hd] at h; subst h; exact ⟨rfl, rfl, rfl⟩
      · simp [hd] at h; subst h; exact ⟨rfl, rfl, rfl⟩

theorem put_raw {s : State} {l : Loc} {v : Option Ref} : (s.put l v).raw = s.raw := by cases l <;> rfl

/-- Two states with the same objects. -/
structure Same (s t : State) : Prop where
  shape : t.shape = s.shape
  cell : ∀ (c : Nat) (y : Cell), t.cells[c]? = some y →
    ∃ x, s.cells[c]? = some x ∧ y.alive = x.alive ∧ y.count = x.count ∧ y.parts = x.parts

theorem same_put (s : State) (l : Loc) (v : Option Ref) : Same s (s.put l v) := ⟨shape_put, fun _ _ h => put_cell h⟩

theorem same_raw (s : State) (R : List Ref) : Same s { s with raw := R } := ⟨rfl, fun _ y h => ⟨y, h, rfl, rfl, rfl⟩⟩

theorem Same.trans {s t u : State} (h : Same s t) (g : Same t u) : Same s u :=
  ⟨g.shape.trans h.shape, fun c y hy => by
    obtain ⟨x, hx, a, b, d⟩ := g.cell c y hy
    obtain ⟨z, hz, a', b', d'⟩ := h.cell c x hx
    exact ⟨z, hz, a.trans a', b.trans b', d.trans d'⟩⟩

/-- Moving holders around. -/
theorem Inv.same {s t : State} {P Q : List Ref} {x : Option Nat} (h : Inv s P x) (hs : Same s t)
    (ht : ∀ p : Ref → Bool, tally p t Q = tally p s P) : Inv t Q x := by
  refine ⟨?_, fun c y hy ha => ?_, fun c y hy ha => ?_, fun c y hy ha hp hx => ?_⟩
  · rw [ht, hs.shape]; exact h.valid
  · obtain ⟨z, hz, a, b, d⟩ := hs.cell c y hy
    rw [ht, hs.shape, b]; exact h.alive c z hz (a ▸ ha)
  · obtain ⟨z, hz, a, b, d⟩ := hs.cell c y hy
    rw [ht, hs.shape]; exact h.dead c z hz (a ▸ ha)
  · obtain ⟨z, hz, a, b, d⟩ := hs.cell c y hy
    rw [b]; exact h.pos c z hz (a ▸ ha) (d ▸ hp) hx

/-! ### `Reset`, `AddRef` -/

theorem reset_spec {s s' : State} {l : Loc} {x : Option Nat} (hI : Inv s [] x) (h : s.reset l = some s') :
    Inv s' [] x ∧ s'.get l = some none ∧ s'.shape = s.shape ∧ s'.raw = s.raw ∧
    (∀ m, m ≠ l → (s'.get m).isSome → s'.get m = s.get m) := by
  unfold State.reset at h
  split at h
  · cases h
  · rename_i hg
    cases h
    exact ⟨hI, hg, rfl, rfl, fun _ _ _ => rfl⟩
  · rename_i r hg
    split at h
    · cases h
    · rename_i s1 hd
      split at h
      · rename_i hs
        cases h
        have hL := drain_later hd
        refine ⟨drain_inv hd (hI.same (same_put _ _ _) fun p => ?_), ?_, hL.shape.trans shape_put, hL.raw.trans put_raw,
          fun m hm hs => ?_⟩
        · have := tally_put (p := p) (v := none) (P := []) hg
          rw [tally_cons]
          have e : ind p none = 0 := rfl
          have t0 : tally p (s.put l none) [] + ind p (some r) = tally p s [] := by omega
          exact t0
        · rw [hL.get hs, get_put_self hg]
        · rw [hL.get hs, get_put_ne hm]
      · cases h

theorem addRef_cases {s s' : State} {r : Ref} (h : s.addRef r = some s') : s.live r = true ∧
    ((counter s.shape r = none ∧ s' = s) ∨ ∃ c y, counter s.shape r = some c ∧ s.cells[c]? = some y ∧ y.alive = true ∧
      s' = { s with cells := s.cells.set c { y with count := y.count + 1 } }) := by
  unfold State.addRef at h
  split at h
  · rename_i hl
    refine ⟨hl, ?_⟩
    split at h
    · rename_i hc; cases h; exact Or.inl ⟨hc, rfl⟩
    · rename_i c hc
      obtain ⟨y, hy, ha⟩ := live_counter r hl c hc
      cases h
      exact Or.inr ⟨c, y, hc, hy, ha, by rw [modify_eq_set hy]⟩
  · cases h

/-- `AddRef` for a new holder. -/
theorem addRef_inv {s t s' : State} {r : Ref} {x : Option Nat} (hI : Inv s [] x) (hs : Same s t)
    (ht : ∀ p : Ref → Bool, tally p t [] = tally p s [] + ind p (some r)) (h : t.addRef r = some s')
    (hx : x = none ∨ counter s.shape r = x) : Inv s' [] none ∧ s'.shape = s.shape := by
  obtain ⟨hl, ⟨hc, rfl⟩ | ⟨c, y, hc, hy, ha, rfl⟩⟩ := addRef_cases h
  · rw [hs.shape] at hc
    have x0 : x = none := by rcases hx with h | h; · exact h
                             · rw [← h, hc]
    subst x0
    have t0 : ∀ c, ind (held s.shape c) (some r) = 0 := fun c => by unfold ind held; simp [hc]
    refine ⟨⟨?_, fun c y hy ha => ?_, fun c y hy ha => ?_, fun c y hy ha hp hx => ?_⟩, hs.shape⟩
    · rw [ht, hs.shape, hI.valid]
      have := live_wf r hl
      rw [hs.shape] at this
      unfold ind; simp [this]
    · obtain ⟨z, hz, a, b, d⟩ := hs.cell c y hy
      rw [ht, hs.shape, b, t0]; exact hI.alive c z hz (a ▸ ha)
    · obtain ⟨z, hz, a, b, d⟩ := hs.cell c y hy
      rw [ht, hs.shape, t0]; exact hI.dead c z hz (a ▸ ha)
    · obtain ⟨z, hz, a, b, d⟩ := hs.cell c y hy
      rw [b]; exact hI.pos c z hz (a ▸ ha) (d ▸ hp) hx
  · rw [hs.shape] at hc
    have hsh : ({ t with cells := t.cells.set c { y with count := y.count + 1 } } : State).shape = s.shape :=
      (shape_set (y := { y with count := y.count + 1 }) hy rfl).trans hs.shape
    have key : ∀ p : Ref → Bool, tally p { t with cells := t.cells.set c { y with count := y.count + 1 } } [] =
        tally p s [] + ind p (some r) := fun p => by
      rw [← ht]
      have h2 := sum_set (cellCnt p) (y := { y with count := y.count + 1 }) hy
      have e1 : cellCnt p { y with count := y.count + 1 } = cellCnt p y := rfl
      unfold tally; dsimp only; omega
    obtain ⟨w, hw, wa, wb, wd⟩ := hs.cell c y hy
    refine ⟨⟨?_, fun d z hz hza => ?_, fun d z hz hza => ?_, fun d z hz hza hp _ => ?_⟩, hsh⟩
    · rw [key, hsh, hI.valid]
      have := live_wf r hl
      rw [hs.shape] at this
      unfold ind; simp [this]
    · rw [key, hsh]
      rcases (getElem?_set_of hy).mp hz with ⟨rfl, rfl⟩ | ⟨hn, hz⟩
      · have e : ind (held s.shape d) (some r) = 1 := by unfold ind held; simp [hc]
        have := hI.alive _ w hw (wa ▸ ha)
        dsimp only; omega
      · have e : ind (held s.shape d) (some r) = 0 := by unfold ind held; simp [hc, Ne.symm hn]
        obtain ⟨v, hv, va, vb, vd⟩ := hs.cell d z hz
        have := hI.alive _ v hv (va ▸ hza)
        omega
    · rw [key, hsh]
      rcases (getElem?_set_of hy).mp hz with ⟨rfl, rfl⟩ | ⟨hn, hz⟩
      · dsimp only at hza; rw [ha] at hza; cases hza
      · have e : ind (held s.shape d) (some r) = 0 := by unfold ind held; simp [hc, Ne.symm hn]
        obtain ⟨v, hv, va, vb, vd⟩ := hs.cell d z hz
        have := hI.dead _ v hv (va ▸ hza)
        omega
    · rcases (getElem?_set_of hy).mp hz with ⟨rfl, rfl⟩ | ⟨hn, hz⟩
      · dsimp only; omega
      · obtain ⟨v, hv, va, vb, vd⟩ := hs.cell d z hz
        have := hI.pos _ v hv (va ▸ hza) (vd ▸ hp) (by
          intro e
          rcases hx with h | h
          · rw [h] at e; cases e
          · rw [← h, hc] at e; exact hn (Option.some.inj e))
        omega

theorem assign_add_inv {s s' : State} {l : Loc} {p : Option Ref} {x : Option Nat} (hI : Inv s [] x)
    (h : s.assign l p true = some s') (hx : x = none ∨ ∃ r, p = some r ∧ counter s.shape r = x) : Inv s' [] none := by
  unfold State.assign at h
  generalize hp : p = p0 at *
  split at h
  · cases h
  · rename_i s1 hr
    obtain ⟨h1, h2, h3, h4, h5⟩ := reset_spec hI hr
    split at h
    · rename_i r _
      refine (addRef_inv h1 (same_put _ _ _) (fun p => ?_) h ?_).1
      · have := tally_put (p := p) (v := some r) (P := []) h2
        have e : ind p none = 0 := rfl
        omega
      · rcases hx with h | ⟨r', e, h⟩
        · exact Or.inl h
        · cases e; right; rw [h3]; exact h
    · rename_i hne
      cases h
      cases p with
      | some r => exact absurd rfl (hne r hp.symm)
      | none =>
        subst hp
        have x0 : x = none := by rcases hx with h | ⟨r, e, _⟩; · exact h
                                 · cases e
        subst x0
        refine h1.same (same_put _ _ _) fun p => ?_
        have := tally_put (p := p) (v := none) (P := []) h2
        omega

/-! ### Allocation -/

theorem cnt_replicate (p : Ref → Bool) : ∀ n, cnt p (List.replicate n none) = 0
  | 0 => rfl
  | n + 1 => by
    have := cnt_replicate p n
    unfold cnt at this ⊢
    simp only [List.replicate_succ, List.map_cons, List.sum_cons, this, ind]

theorem alloc_inv {s : State} {parts : List Deleg} {nf : Nat} (hI : Inv s [] none) :
    Inv (s.alloc ⟨true, 0, parts, List.replicate nf none⟩) [] (some s.cells.length) := by
  generalize hx : (⟨true, 0, parts, List.replicate nf none⟩ : Cell) = x
  have hsh : (s.alloc x).shape = s.shape ++ [parts] := by
    unfold State.alloc State.shape; rw [← hx]; simp
  have hlen : s.shape.length = s.cells.length := by unfold State.shape; simp
  have ht : ∀ p : Ref → Bool, tally p (s.alloc x) [] = tally p s [] := fun p => by
    have : cellCnt p x = 0 := by rw [← hx]; unfold cellCnt; simp [cnt_replicate]
    unfold tally State.alloc; simp [this]
  have hle : ∀ c, c < s.cells.length → tally (held (s.alloc x).shape c) (s.alloc x) [] = tally (held s.shape c) s [] := fun c hc => by
    rw [ht, hsh]
    apply Nat.le_antisymm
    · have := tally_le (p := held (s.shape ++ [parts]) c) (q := held s.shape c)
        (b := fun r => !wf s.shape r) (fun r hr => by
          cases hw : wf s.shape r with
          | true =>
            have hl := wf_lt hw
            left; unfold held at hr ⊢; rw [counter_append _ _ _ (by omega)] at hr; exact hr
          | false => right; rfl) s []
      have := hI.valid; omega
    · have := tally_le (p := held s.shape c) (q := held (s.shape ++ [parts]) c)
        (b := fun r => !wf s.shape r) (fun r hr => by
          cases hw : wf s.shape r with
          | true =>
            have hl := wf_lt hw
            left; unfold held at hr ⊢; rw [counter_append _ _ _ (by omega)]; exact hr
          | false => right; rfl) s []
      have := hI.valid; omega
  have hnew : tally (held (s.alloc x).shape s.cells.length) (s.alloc x) [] = 0 := by
    rw [ht, hsh]
    have := tally_le (p := held (s.shape ++ [parts]) s.cells.length) (q := fun r => !wf s.shape r)
      (b := fun r => !wf s.shape r) (fun r hr => by
        left
        unfold held at hr
        have := counter_le _ _ _ (of_decide_eq_true hr)
        cases hw : wf s.shape r with
        | true => have := wf_lt hw; omega
        | false => rfl) s []
    have := hI.valid; omega
  have hcell : ∀ c y, (s.alloc x).cells[c]? = some y → (s.cells[c]? = some y ∧ c < s.cells.length) ∨ (c = s.cells.length ∧ y = x) := by
    intro c y h
    unfold State.alloc at h; dsimp only at h
    rcases Nat.lt_trichotomy c s.cells.length with hl | hl | hl
    · rw [List.getElem?_append_left hl] at h; exact Or.inl ⟨h, hl⟩
    · subst hl; simp at h; exact Or.inr ⟨rfl, h.symm⟩
    · rw [List.getElem?_eq_none (by simp; omega)] at h; cases h
  refine ⟨?_, fun c y hy ha => ?_, fun c y hy ha => ?_, fun c y hy ha hp hxc => ?_⟩
  · rw [ht]
    have := tally_le (p := fun r => !wf (s.alloc x).shape r) (q := fun r => !wf s.shape r)
      (b := fun r => !wf s.shape r) (fun r hr => by
        left
        cases hw : wf s.shape r with
        | true => rw [hsh, wf_append _ _ _ (wf_lt hw), hw] at hr; cases hr
        | false => rfl) s []
    have := hI.valid; omega
  · rcases hcell c y hy with ⟨h, hl⟩ | ⟨rfl, rfl⟩
    · rw [hle c hl]; exact hI.alive c y h ha
    · rw [hnew, ← hx]
  · rcases hcell c y hy with ⟨h, hl⟩ | ⟨rfl, rfl⟩
    · rw [hle c hl]; exact hI.dead c y h ha
    · exact hnew
  · rcases hcell c y hy with ⟨h, hl⟩ | ⟨rfl, rfl⟩
    · exact hI.pos c y h ha hp (by simp)
    · exact absurd rfl hxc

theorem counter_new {s : State} {x : Cell} {ps : List Deleg} (h : x.parts = .self :: ps) :
    counter (s.alloc x).shape ⟨s.cells.length, 0⟩ = some s.cells.length := by
  rw [counter_eq]
  have : (s.alloc x).shape[s.cells.length]? = some x.parts := by unfold State.alloc State.shape; simp
  dsimp only
  rw [this, h]; rfl

/-! ### All operations -/

theorem step_inv {s s' : State} {o : Op} (hI : Inv s [] none) (h : s.step o = some s') : Inv s' [] none := by
  cases o with
  | newVar =>
    cases h
    refine hI.same (t := { s with vars := s.vars ++ [none] }) ⟨rfl, fun _ y h => ⟨y, h, rfl, rfl, rfl⟩⟩ fun p => ?_
    unfold tally cnt; simp [ind]
  | make l members nf =>
    unfold State.step at h; dsimp only at h
    refine assign_add_inv (alloc_inv hI) h (Or.inr ⟨_, rfl, ?_⟩)
    exact counter_new rfl
  | makeAgg l ctrl members nf =>
    unfold State.step at h; dsimp only at h
    split at h
    · refine assign_add_inv (alloc_inv hI) h (Or.inr ⟨_, rfl, ?_⟩)
      exact counter_new rfl
    · cases h
  | makeStatic l nf =>
    unfold State.step at h; dsimp only at h
    refine assign_add_inv (x := none) ?_ h (Or.inl rfl)
    have hA := alloc_inv (parts := [.never]) (nf := nf) hI
    refine ⟨hA.valid, hA.alive, hA.dead, fun c y hy ha hp _ => ?_⟩
    refine hA.pos c y hy ha hp (fun e => ?_)
    cases e
    unfold State.alloc at hy; simp at hy; subst hy; simp at hp
  | copy dst src =>
    unfold State.step at h; dsimp only at h
    split at h
    · cases h
    · exact assign_add_inv hI h (Or.inl rfl)
  | move dst src =>
    unfold State.step at h; dsimp only at h
    split at h
    · cases h
    · rename_i v hv
      split at h
      · cases h
      · rename_i s1 h1
        split at h
        · rename_i hs
          cases h
          unfold State.assign at h1
          split at h1
          · cases h1
          · rename_i s0 hr
            obtain ⟨a1, a2, a3, a4, a5⟩ := reset_spec hI hr
            have h1 : s0.put dst v = s1 := by
              split at h1
              · rename_i hb; cases hb
              · exact Option.some.inj h1
            subst h1
            refine a1.same ((same_put _ _ _).trans (same_put _ _ _)) fun p => ?_
            have t1 := tally_put (p := p) (v := v) (P := []) a2
            by_cases e : src = dst
            · subst e
              have t2 := tally_put (p := p) (v := none) (P := []) (get_put_self (v := v) a2)
              omega
            · rw [get_put_ne e] at hs
              have g := a5 src e hs
              have t2 := tally_put (p := p) (s := s0.put dst v) (v := none) (P := []) (by rw [get_put_ne e, g]; exact hv)
              omega
        · cases h
  | query dst src res =>
    unfold State.step at h; dsimp only at h
    split at h
    · cases h
    · split at h
      · cases h
      · rename_i s1 hr
        obtain ⟨a1, a2, a3, a4, a5⟩ := reset_spec hI hr
        split at h
        · cases h; exact a1
        · split at h
          · cases h; exact a1
          · cases h
        · rename_i q _
          split at h
          · refine (addRef_inv a1 (same_put _ _ _) (fun p => ?_) h (Or.inl rfl)).1
            have := tally_put (p := p) (v := some q) (P := []) a2
            have e : ind p none = 0 := rfl
            omega
          · cases h
  | moveQuery dst src res =>
    unfold State.step at h; dsimp only at h
    split at h
    · cases h
    · split at h
      · cases h
      · split at h
        · cases h
        · rename_i s1 hr
          obtain ⟨a1, a2, a3, a4, a5⟩ := reset_spec hI hr
          split at h
          · split at h
            · cases h; exact a1
            · cases h
          · split at h
            · cases h; exact a1
            · cases h
          · rename_i q _
            split at h
            · split at h
              · cases h
              · rename_i s2 h2
                have := (addRef_inv a1 (same_put _ _ _) (fun p => by
                  have := tally_put (p := p) (v := some q) (P := []) a2
                  have e : ind p none = 0 := rfl
                  omega) h2 (Or.inl rfl)).1
                exact (reset_spec this h).1
            · cases h
  | reset l => exact (reset_spec hI h).1
  | detach l =>
    unfold State.step at h; dsimp only at h
    split at h
    · cases h
    · cases h; exact hI
    · rename_i r hg
      cases h
      refine hI.same ((same_put _ _ _).trans (same_raw _ _)) fun p => ?_
      have := tally_put (p := p) (v := none) (P := []) hg
      have e : ind p none = 0 := rfl
      have e2 : tally p { s.put l none with raw := r :: s.raw } [] = tally p (s.put l none) [] + ind p (some r) := by
        unfold tally; dsimp only; rw [countP_cons_ind, put_raw]; omega
      refine Eq.trans (b := tally p { s.put l none with raw := r :: s.raw } []) rfl ?_
      omega
  | attach l r =>
    unfold State.step at h; dsimp only at h
    split at h
    · rename_i hm
      split at h
      · cases h
      · rename_i s1 hr
        obtain ⟨a1, a2, a3, a4, a5⟩ := reset_spec hI hr
        cases h
        refine a1.same ((same_put _ _ _).trans (same_raw _ _)) fun p => ?_
        have := tally_put (p := p) (v := some r) (P := []) a2
        have e : ind p none = 0 := rfl
        have e3 : s1.raw.countP p = (s1.raw.erase r).countP p + ind p (some r) := by
          rw [(List.perm_cons_erase (a4 ▸ hm)).countP_eq, countP_cons_ind]
        have e2 : tally p { s1.put l (some r) with raw := s1.raw.erase r } [] + ind p (some r) = tally p (s1.put l (some r)) [] := by
          unfold tally; dsimp only; rw [put_raw]; omega
        refine Eq.trans (b := tally p { s1.put l (some r) with raw := s1.raw.erase r } []) rfl ?_
        omega
    · cases h
  | fromRaw l r =>
    unfold State.step at h; dsimp only at h
    exact assign_add_inv hI h (Or.inl rfl)
  | swap l m =>
    unfold State.step at h; dsimp only at h
    split at h
    · rename_i p q hp hq
      cases h
      refine hI.same ((same_put _ _ _).trans (same_put _ _ _)) fun f => ?_
      have t1 := tally_put (p := f) (v := q) (P := []) hp
      by_cases e : m = l
      · subst e
        have t2 := tally_put (p := f) (v := p) (P := []) (get_put_self (v := q) hp)
        rw [hp] at hq; cases hq; omega
      · have t2 := tally_put (p := f) (s := s.put l q) (v := p) (P := []) (by rw [get_put_ne e]; exact hq)
        omega
    · cases h
  | addRef r =>
    unfold State.step at h; dsimp only at h
    split at h
    · cases h
    · rename_i s1 h1
      cases h
      have hh : ({ s with raw := r :: s.raw } : State).addRef r = some { s1 with raw := r :: s1.raw } := by
        have hlive : ∀ q, ({ s with raw := r :: s.raw } : State).live q = s.live q := fun q => by
          induction q using ref_ind with
          | h q ih =>
            rw [live_eq, live_eq s]; dsimp only
            cases s.cells[q.cell]? with
            | none => rfl
            | some x =>
              dsimp only
              cases x.parts[q.part]? with
              | none => rfl
              | some d =>
                cases d with
                | to q' => dsimp only; split; · rw [ih q' (by assumption)]
                           · rfl
                | _ => rfl
        unfold State.addRef at h1 ⊢
        rw [hlive]
        have : ({ s with raw := r :: s.raw } : State).shape = s.shape := rfl
        rw [this]
        split at h1
        · rename_i hl
          rw [if_pos hl]
          split at h1 <;> cases h1 <;> rfl
        · cases h1
      refine (addRef_inv hI (same_raw _ _) (fun p => ?_) hh (Or.inl rfl)).1
      unfold tally; dsimp only; rw [countP_cons_ind]; omega
  | release r =>
    unfold State.step at h; dsimp only at h
    split at h
    · rename_i hm
      refine drain_inv h (hI.same (same_raw _ _) fun p => ?_)
      have e3 : s.raw.countP p = (s.raw.erase r).countP p + ind p (some r) := by
        rw [(List.perm_cons_erase hm).countP_eq, countP_cons_ind]
      rw [tally_cons]
      unfold tally; dsimp only; omega
    · cases h

theorem init_inv : Inv State.init [] none :=
  ⟨rfl, fun c y h => by simp [State.init] at h, fun c y h => by simp [State.init] at h, fun c y h => by simp [State.init] at h⟩

theorem run_inv : ∀ (os : List Op) {s s' : State}, Inv s [] none → s.run os = some s' → Inv s' [] none
  | [], s, s', hI, h => by cases h; exact hI
  | o :: os, s, s', hI, h => by
    unfold State.run at h
    split at h
    · cases h
    · rename_i s1 h1; exact run_inv os (step_inv hI h1) h

end Verif.Ptr
