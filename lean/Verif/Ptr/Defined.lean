import Verif.Ptr.Step
set_option linter.unusedSimpArgs false
set_option linter.unusedVariables false
/-! When operations on pointers are defined. -/
namespace Verif.Ptr

/-- All counted references: those of the `Ptr` variables, of the `Ptr` members of existing objects, and those held by hand. -/
def holders (s : State) : List Ref :=
  s.vars.filterMap id ++ (s.cells.filter (·.alive)).flatMap (fun x => x.fields.filterMap id) ++ s.raw

theorem countP_flatMap (p : Ref → Bool) : ∀ l : List Cell,
    ((l.filter (·.alive)).flatMap (fun x => x.fields.filterMap id)).countP p = (l.map (cellCnt p)).sum
  | [] => rfl
  | a :: t => by
    have := countP_flatMap p t
    cases e : a.alive with
    | false =>
      have e2 : cellCnt p a = 0 := by unfold cellCnt; simp [e]
      simp only [List.filter_cons, e, List.map_cons, List.sum_cons, e2]
      simpa using this
    | true =>
      have e2 : cellCnt p a = cnt p a.fields := by unfold cellCnt; simp [e]
      simp only [List.filter_cons, e, if_true, List.flatMap_cons, List.countP_append, List.map_cons, List.sum_cons, e2, cnt_filterMap]
      omega

theorem tally_holders (p : Ref → Bool) (s : State) : tally p s [] = (holders s).countP p := by
  unfold tally holders
  rw [List.countP_append, List.countP_append, cnt_filterMap, countP_flatMap]; simp

theorem tally_pos {p : Ref → Bool} {s : State} : 0 < tally p s [] ↔ ∃ r ∈ holders s, p r = true := by
  rw [tally_holders, List.countP_pos_iff]

theorem mem_holders_get {s : State} {l : Loc} {r : Ref} (h : s.get l = some (some r)) : r ∈ holders s := by
  unfold holders
  cases l with
  | var i =>
    have : some r ∈ s.vars := List.mem_of_getElem? (show s.vars[i]? = some (some r) from h)
    simp only [List.mem_append]
    exact Or.inl (Or.inl (List.mem_filterMap.mpr ⟨_, this, rfl⟩))
  | field c k =>
    obtain ⟨x, hx, ha, hk⟩ := get_field h
    simp only [List.mem_append]
    refine Or.inl (Or.inr (List.mem_flatMap.mpr ⟨x, List.mem_filter.mpr ⟨List.mem_of_getElem? hx, ha⟩, ?_⟩))
    exact List.mem_filterMap.mpr ⟨_, List.mem_of_getElem? hk, rfl⟩

theorem holder_alive {s : State} {r : Ref} {c : Nat} {x : Option Nat} (hI : Inv s [] x) (hr : r ∈ holders s)
    (hc : counter s.shape r = some c) : ∃ y, s.cells[c]? = some y ∧ y.alive = true := by
  have hl : c < s.cells.length := by
    have h1 := counter_le _ _ _ hc
    have h2 := counter_lt _ hc
    unfold State.shape at h2; simp at h2; omega
  obtain ⟨y, hy⟩ : ∃ y, s.cells[c]? = some y := ⟨_, List.getElem?_eq_getElem hl⟩
  refine ⟨y, hy, ?_⟩
  cases e : y.alive with
  | true => rfl
  | false =>
    have h0 := hI.dead c y hy e
    have : 0 < tally (held s.shape c) s [] := tally_pos.mpr ⟨r, hr, by unfold held; simp [hc]⟩
    omega

/-! ### Objects never come back -/

/-- What is alive later has been alive before, or is new. -/
def Mono (s s' : State) : Prop := s.cells.length ≤ s'.cells.length ∧
  ∀ (c : Nat) (y' : Cell), s'.cells[c]? = some y' → y'.alive = true → c < s.cells.length →
    ∃ y, s.cells[c]? = some y ∧ y.alive = true

theorem Mono.refl (s : State) : Mono s s := ⟨Nat.le_refl _, fun c y h ha _ => ⟨y, h, ha⟩⟩

theorem Mono.trans {s t u : State} (h : Mono s t) (g : Mono t u) : Mono s u :=
  ⟨Nat.le_trans h.1 g.1, fun c y hy ha hc => by
    obtain ⟨y1, h1, a1⟩ := g.2 c y hy ha (by have := h.1; omega)
    exact h.2 c y1 h1 a1 hc⟩

theorem Later.mono {s s' : State} (h : Later s s') : Mono s s' :=
  ⟨by rw [length_shape h.shape]; exact Nat.le_refl _, fun c y hy ha _ => by
    obtain ⟨z, hz, _, _, a⟩ := h.cell c y hy
    exact ⟨z, hz, a ha⟩⟩

theorem Same.mono {s t : State} (h : Same s t) : Mono s t :=
  ⟨by rw [length_shape h.shape]; exact Nat.le_refl _, fun c y hy ha _ => by
    obtain ⟨z, hz, a, _, _⟩ := h.cell c y hy
    exact ⟨z, hz, a ▸ ha⟩⟩

theorem addRef_mono {s s' : State} {r : Ref} (h : s.addRef r = some s') : Mono s s' := by
  obtain ⟨hl, ⟨hc, rfl⟩ | ⟨c, y, hc, hy, ha, rfl⟩⟩ := addRef_cases h
  · exact Mono.refl _
  · refine ⟨by simp, fun d z hz hza _ => ?_⟩
    rcases (getElem?_set_of hy).mp hz with ⟨rfl, rfl⟩ | ⟨hn, hz⟩
    · exact ⟨y, hy, ha⟩
    · exact ⟨z, hz, hza⟩

theorem reset_mono {s s' : State} {l : Loc} (h : s.reset l = some s') : Mono s s' := by
  unfold State.reset at h
  split at h
  · cases h
  · cases h; exact Mono.refl _
  · split at h
    · cases h
    · rename_i s1 hd
      split at h
      · cases h; exact (same_put _ _ _).mono.trans (drain_later hd).mono
      · cases h

theorem assign_mono {s s' : State} {l : Loc} {p : Option Ref} {b : Bool} (h : s.assign l p b = some s') : Mono s s' := by
  unfold State.assign at h
  split at h
  · cases h
  · rename_i s1 hr
    split at h
    · exact (reset_mono hr).trans ((same_put _ _ _).mono.trans (addRef_mono h))
    · cases h; exact (reset_mono hr).trans (same_put _ _ _).mono

theorem alloc_mono (s : State) (x : Cell) : Mono s (s.alloc x) := by
  refine ⟨by unfold State.alloc; simp, fun c y hy ha hc => ?_⟩
  unfold State.alloc at hy; dsimp only at hy
  rw [List.getElem?_append_left hc] at hy
  exact ⟨y, hy, ha⟩

theorem step_mono {s s' : State} {o : Op} (h : s.step o = some s') : Mono s s' := by
  cases o with
  | newVar => cases h; exact ⟨Nat.le_refl _, fun c y h ha _ => ⟨y, h, ha⟩⟩
  | make l members nf => unfold State.step at h; exact (alloc_mono _ _).trans (assign_mono h)
  | makeAgg l ctrl members nf =>
    unfold State.step at h; dsimp only at h
    split at h
    · exact (alloc_mono _ _).trans (assign_mono h)
    · cases h
  | makeStatic l nf => unfold State.step at h; exact (alloc_mono _ _).trans (assign_mono h)
  | copy dst src =>
    unfold State.step at h; dsimp only at h
    split at h
    · cases h
    · exact assign_mono h
  | move dst src =>
    unfold State.step at h; dsimp only at h
    split at h
    · cases h
    · split at h
      · cases h
      · rename_i s1 h1
        split at h
        · cases h; exact (assign_mono h1).trans (same_put _ _ _).mono
        · cases h
  | query dst src res =>
    unfold State.step at h; dsimp only at h
    split at h
    · cases h
    · split at h
      · cases h
      · rename_i s1 hr
        split at h
        · cases h; exact reset_mono hr
        · split at h
          · cases h; exact reset_mono hr
          · cases h
        · split at h
          · exact (reset_mono hr).trans ((same_put _ _ _).mono.trans (addRef_mono h))
          · cases h
  | moveQuery dst src res =>
    unfold State.step at h; dsimp only at h
    split at h
    · cases h
    · split at h
      · cases h
      · split at h
        · cases h
        · rename_i s1 hr
          split at h
          · split at h
            · cases h; exact reset_mono hr
            · cases h
          · split at h
            · cases h; exact reset_mono hr
            · cases h
          · split at h
            · split at h
              · cases h
              · rename_i s2 h2
                exact (reset_mono hr).trans ((same_put _ _ _).mono.trans ((addRef_mono h2).trans (reset_mono h)))
            · cases h
  | reset l => exact reset_mono h
  | detach l =>
    unfold State.step at h; dsimp only at h
    split at h
    · cases h
    · cases h; exact Mono.refl _
    · cases h; exact ((same_put _ _ _).trans (same_raw _ _)).mono
  | attach l r =>
    unfold State.step at h; dsimp only at h
    split at h
    · split at h
      · cases h
      · rename_i s1 hr
        cases h; exact (reset_mono hr).trans ((same_put _ _ _).trans (same_raw _ _)).mono
    · cases h
  | fromRaw l r => unfold State.step at h; exact assign_mono h
  | swap l m =>
    unfold State.step at h; dsimp only at h
    split at h
    · cases h; exact ((same_put _ _ _).trans (same_put _ _ _)).mono
    · cases h
  | addRef r =>
    unfold State.step at h; dsimp only at h
    split at h
    · cases h
    · rename_i s1 h1
      cases h; exact (addRef_mono h1).trans (same_raw _ _).mono
  | release r =>
    unfold State.step at h; dsimp only at h
    split at h
    · exact (same_raw _ _).mono.trans (drain_later h).mono
    · cases h

theorem run_mono : ∀ (os : List Op) {s s' : State}, s.run os = some s' → Mono s s'
  | [], s, s', h => by cases h; exact Mono.refl _
  | o :: os, s, s', h => by
    unfold State.run at h
    split at h
    · cases h
    · rename_i s1 h1; exact (step_mono h1).trans (run_mono os h)

/-! ### Objects without controllers elsewhere -/

/-- All objects are `Object`s, whose member objects are `MutualObject`s. -/
def Plain (sh : Shape) : Prop := ∀ (c : Nat) (p : List Deleg), sh[c]? = some p → ∃ m : Nat, p = Deleg.self :: List.replicate m (Deleg.to ⟨c, 0⟩)

theorem plain_counter {sh : Shape} (h : Plain sh) {r : Ref} {p : List Deleg} (hp : sh[r.cell]? = some p) (hk : r.part < p.length) :
    counter sh r = some r.cell := by
  have base : ∀ c p, sh[c]? = some p → counter sh ⟨c, 0⟩ = some c := fun c p hp => by
    obtain ⟨m, rfl⟩ := h c p hp
    rw [counter_eq]; dsimp only; rw [hp]; rfl
  obtain ⟨m, rfl⟩ := h r.cell p hp
  rw [counter_eq, hp]
  dsimp only [Option.bind_some]
  cases e : r.part with
  | zero => rfl
  | succ k =>
    rw [e] at hk; simp at hk
    have : (Deleg.self :: List.replicate m (.to ⟨r.cell, 0⟩))[k + 1]? = some (.to ⟨r.cell, 0⟩) := by simp [hk]
    rw [this]; dsimp only
    rw [if_pos (show Ref.before ⟨r.cell, 0⟩ r from Or.inr ⟨rfl, by rw [e]; exact Nat.succ_pos _⟩)]
    exact base _ _ hp

theorem shape_get {s : State} {c : Nat} : s.shape[c]? = (s.cells[c]?).map (·.parts) := by
  unfold State.shape; rw [List.getElem?_map]

/-- A counted pointer to an existing object can be used. -/
theorem plain_live {s : State} (h : Plain s.shape) {r : Ref} {y : Cell} (hy : s.cells[r.cell]? = some y) (ha : y.alive = true)
    (hc : counter s.shape r ≠ none) : s.live r = true := by
  have hp : s.shape[r.cell]? = some y.parts := by rw [shape_get, hy]; rfl
  obtain ⟨m, hm⟩ := h r.cell _ hp
  have base : s.live ⟨r.cell, 0⟩ = true := by
    rw [live_eq]; dsimp only; rw [hy]; dsimp only; rw [ha, hm]; rfl
  rw [live_eq, hy]; dsimp only; rw [ha, Bool.true_and]
  rw [counter_eq, hp, hm] at hc
  dsimp only [Option.bind_some] at hc
  rw [hm]
  cases e : r.part with
  | zero => rfl
  | succ k =>
    rw [e] at hc
    by_cases hk : k < m
    · have : (Deleg.self :: List.replicate m (.to ⟨r.cell, 0⟩))[k + 1]? = some (.to ⟨r.cell, 0⟩) := by simp [hk]
      rw [this]; dsimp only
      rw [if_pos (show Ref.before ⟨r.cell, 0⟩ r from Or.inr ⟨rfl, by rw [e]; exact Nat.succ_pos _⟩)]; exact base
    · have : (Deleg.self :: List.replicate m (.to ⟨r.cell, 0⟩))[k + 1]? = none := by simp; omega
      rw [this] at hc; exact absurd rfl hc

theorem live_part {s : State} {r : Ref} (h : s.live r = true) : ∃ y, s.cells[r.cell]? = some y ∧ y.alive = true ∧ r.part < y.parts.length := by
  rw [live_eq] at h
  cases e : s.cells[r.cell]? with
  | none => rw [e] at h; cases h
  | some y =>
    rw [e] at h; dsimp only at h
    cases ha : y.alive with
    | false => rw [ha] at h; simp at h
    | true =>
      refine ⟨y, rfl, ha, ?_⟩
      rcases Nat.lt_or_ge r.part y.parts.length with hl | hl
      · exact hl
      · rw [List.getElem?_eq_none hl] at h; simp at h

theorem plain_wf {sh : Shape} (h : Plain sh) {r : Ref} (hl : wf sh r = true) : counter sh r = some r.cell := by
  have hlt := wf_lt hl
  obtain ⟨p, hp⟩ : ∃ p, sh[r.cell]? = some p := ⟨_, List.getElem?_eq_getElem hlt⟩
  refine plain_counter h hp ?_
  rw [wf_eq, hp] at hl
  dsimp only [Option.bind_some] at hl
  rcases Nat.lt_or_ge r.part p.length with hk | hk
  · exact hk
  · rw [List.getElem?_eq_none hk] at hl; simp at hl

/-- Releasing references that are counted never fails. -/
theorem drain_defined : ∀ (P : List Ref) (s : State), Plain s.shape → ∀ x, Inv s P x → ∃ s', drain P s = some s' := by
  intro P s
  induction P, s using drain.induct with
  | case1 s => intro _ _ _; exact ⟨s, drain_nil s⟩
  | case2 s r P h =>
    intro hF x hI
    exfalso
    have hg := hI.valid
    rw [tally_cons] at hg
    have hc : counter s.shape r = some r.cell := by
      cases hc : wf s.shape r with
      | true => exact plain_wf hF hc
      | false =>
        have : ind (fun r => !wf s.shape r) (some r) = 1 := by unfold ind; simp [hc]
        omega
    have e : ind (held s.shape r.cell) (some r) = 1 := by unfold ind held; simp [hc]
    have hl : r.cell < s.cells.length := by
      have h2 := counter_lt _ hc
      unfold State.shape at h2; simpa using h2
    obtain ⟨y, hy⟩ : ∃ y, s.cells[r.cell]? = some y := ⟨_, List.getElem?_eq_getElem hl⟩
    have ha : y.alive = true := by
      cases ea : y.alive with
      | true => rfl
      | false => have := hI.dead _ y hy ea; rw [tally_cons] at this; omega
    have hn : 0 < y.count := by have := hI.alive _ y hy ha; rw [tally_cons] at this; omega
    have hlive := plain_live hF hy ha (by rw [hc]; simp)
    unfold State.release at h
    rw [if_pos hlive, hc] at h
    dsimp only at h
    rw [hy] at h
    dsimp only at h
    rw [if_neg (by omega)] at h
    split at h <;> cases h
  | case3 s r P s1 Q h ih =>
    intro hF x hI
    obtain ⟨s', hs'⟩ := ih (by rw [(release_later h).shape]; exact hF) x (release_inv hI h)
    exact ⟨s', by rw [drain_cons, h]; exact hs'⟩

/-- Something other than the `Ptr` at `l`, which is not a member of an object, counts for object `c`. -/
def Pinned (s : State) (l : Loc) (c : Nat) : Prop :=
  (∃ i r, Loc.var i ≠ l ∧ s.get (.var i) = some (some r) ∧ counter s.shape r = some c) ∨ ∃ r ∈ s.raw, counter s.shape r = some c

/-- The `Ptr` is a variable, or a member of an object that remains when the `Ptr` is reset. -/
def Stands (s : State) (l : Loc) : Prop :=
  (s.get l).isSome ∧ ∀ c k, l = .field c k → Pinned s l c

theorem pinned_alive {s s' : State} {l : Loc} {c : Nat} {x : Option Nat} (hP : Pinned s l c) (hI : Inv s' [] x) (hsh : s'.shape = s.shape)
    (hv : ∀ i, Loc.var i ≠ l → s'.vars[i]? = s.vars[i]?) (hr : s'.raw = s.raw) : ∃ y, s'.cells[c]? = some y ∧ y.alive = true := by
  rcases hP with ⟨i, r, hi, hg, hc⟩ | ⟨r, hm, hc⟩
  · refine holder_alive hI (mem_holders_get (l := .var i) (r := r) ?_) (by rw [hsh]; exact hc)
    show s'.vars[i]? = _
    rw [hv i hi]; exact hg
  · exact holder_alive (r := r) hI (by unfold holders; simp [hr, hm]) (by rw [hsh]; exact hc)

theorem reset_defined {s : State} {l : Loc} {x : Option Nat} (hF : Plain s.shape) (hI : Inv s [] x) (hS : Stands s l) :
    ∃ s', s.reset l = some s' ∧ Inv s' [] x ∧ s'.get l = some none ∧ s'.shape = s.shape ∧ s'.raw = s.raw ∧
      (∀ m, m ≠ l → (s'.get m).isSome → s'.get m = s.get m) ∧
      (∀ i, Loc.var i ≠ l → s'.vars[i]? = s.vars[i]?) ∧ ∀ c, Pinned s l c → ∃ y, s'.cells[c]? = some y ∧ y.alive = true := by
  suffices hsuf : ∃ s', s.reset l = some s' ∧ (∀ i, Loc.var i ≠ l → s'.vars[i]? = s.vars[i]?) by
    obtain ⟨s', h, hv⟩ := hsuf
    obtain ⟨a1, a2, a3, a4, a5⟩ := reset_spec hI h
    exact ⟨s', h, a1, a2, a3, a4, a5, hv, fun c hP => pinned_alive hP a1 a3 hv a4⟩
  unfold State.reset
  obtain ⟨hg, hS⟩ := hS
  cases e : s.get l with
  | none => rw [e] at hg; cases hg
  | some o =>
    cases o with
    | none => exact ⟨s, rfl, fun _ _ => rfl⟩
    | some r =>
      dsimp only
      have t0 : ∀ p : Ref → Bool, tally p (s.put l none) [r] = tally p s [] := fun p => by
        have := tally_put (p := p) (v := none) (P := []) e
        rw [tally_cons]
        have e : ind p none = 0 := rfl
        omega
      have hI1 : Inv (s.put l none) [r] x := hI.same (same_put _ _ _) t0
      obtain ⟨s', hd⟩ := drain_defined _ (s.put l none) (by rw [shape_put]; exact hF) x hI1
      have hL := drain_later hd
      have hI' := drain_inv hd hI1
      have hv : ∀ i, Loc.var i ≠ l → s'.vars[i]? = s.vars[i]? := fun i hi => by
        rw [hL.vars]; exact get_put_ne (m := .var i) hi
      rw [hd]; dsimp only
      have hs : (s'.get l).isSome := by
        cases l with
        | var i =>
          have : s'.get (.var i) = (s.put (.var i) none).get (.var i) := by
            show s'.vars[i]? = _; rw [hL.vars]; rfl
          rw [this, get_put_self e]; rfl
        | field c k =>
          obtain ⟨y', hy', ha'⟩ := pinned_alive (hS c k rfl) hI' (hL.shape.trans shape_put) hv (hL.raw.trans put_raw)
          obtain ⟨y, hy, _, hf, _⟩ := hL.cell c y' hy'
          have h1 := get_put_self (v := none) e
          obtain ⟨z, hz, hza, hzk⟩ := get_field h1
          rw [hy] at hz; cases hz
          unfold State.get; dsimp only; rw [hy']; dsimp only; rw [if_pos ha', hf, hzk]; rfl
      rw [if_pos hs]
      exact ⟨s', rfl, hv⟩

end Verif.Ptr
