import Verif.Ptr.Defined
set_option linter.unusedSimpArgs false
set_option linter.unusedVariables false
/-! Operations that are defined. -/
namespace Verif.Ptr

/-- The `Ptr` at `src` remains when the one at `dst` is reset: it is a variable, or a member of an object that something else keeps. -/
def Stays (s : State) (dst src : Loc) : Prop :=
  (s.get src).isSome ∧ ∀ c k, src = .field c k → Pinned s dst c

/-- Operations on `Object`s with `MutualObject` members. -/
def PlainOp : Op → Prop
  | .make _ members _ => ∀ m ∈ members, m = .mutual
  | .makeAgg _ _ _ _ => False
  | .makeStatic _ _ => False
  | _ => True

/-- What a program has to care for. -/
def Ok (s : State) : Op → Prop
  | .newVar => True
  | .make l _ _ => Stands s l
  | .makeAgg _ _ _ _ => False
  | .makeStatic _ _ => False
  | .copy dst src => Stands s dst ∧ (s.get src).isSome ∧
      ∀ r, s.get src = some (some r) → (src ≠ dst ∧ Stays s dst src) ∨ Pinned s dst r.cell
  | .move dst src => Stands s dst ∧ Stays s dst src
  | .query dst src res => Stands s dst ∧ src ≠ dst ∧ Stays s dst src ∧
      ∀ r q, s.get src = some (some r) → res = some q → q.cell = r.cell ∧ s.live q = true
  | .moveQuery dst src res => Stands s dst ∧ src ≠ dst ∧ Stays s dst src ∧
      ∀ r q, s.get src = some (some r) → res = some q → q.cell = r.cell ∧ s.live q = true
  | .reset l => Stands s l
  | .detach l => (s.get l).isSome
  | .attach l r => Stands s l ∧ r ∈ s.raw
  | .fromRaw l r => Stands s l ∧ s.live r = true ∧ Pinned s l r.cell
  | .swap l m => (s.get l).isSome ∧ (s.get m).isSome
  | .addRef r => s.live r = true
  | .release r => r ∈ s.raw

theorem addRef_live {s : State} {r : Ref} (h : s.live r = true) : ∃ s', s.addRef r = some s' := by
  unfold State.addRef
  rw [if_pos h]
  cases counter s.shape r with
  | none => exact ⟨_, rfl⟩
  | some c => exact ⟨_, rfl⟩

/-- Usability only depends on what is alive. -/
theorem plain_live' {s : State} (h : Plain s.shape) {r : Ref} (hw : wf s.shape r = true)
    (ha : ∃ y, s.cells[r.cell]? = some y ∧ y.alive = true) : s.live r = true := by
  obtain ⟨y, hy, ha⟩ := ha
  exact plain_live h hy ha (by rw [plain_wf h hw]; simp)

theorem put_alive {s : State} {l : Loc} {v : Option Ref} {c : Nat} (h : ∃ y, s.cells[c]? = some y ∧ y.alive = true) :
    ∃ y, (s.put l v).cells[c]? = some y ∧ y.alive = true := by
  obtain ⟨y, hy, ha⟩ := h
  have hlt : c < (s.put l v).cells.length := by
    rw [length_shape (same_put s l v).shape]; exact (List.getElem?_eq_some_iff.mp hy).1
  refine ⟨_, List.getElem?_eq_getElem hlt, ?_⟩
  obtain ⟨x, hx, a, _⟩ := (same_put s l v).cell c _ (List.getElem?_eq_getElem hlt)
  rw [hy] at hx; cases hx; rw [a]; exact ha

theorem holder_wf {s : State} {r : Ref} {x : Option Nat} (hI : Inv s [] x) (hr : r ∈ holders s) : wf s.shape r = true := by
  cases e : wf s.shape r with
  | true => rfl
  | false =>
    have := hI.valid
    have : 0 < tally (fun r => !wf s.shape r) s [] := tally_pos.mpr ⟨r, hr, by simp [e]⟩
    omega

/-- Objects without references are not touched. -/
theorem drain_zero {P : List Ref} {s s' : State} (h : drain P s = some s') (c : Nat) :
    ∀ y, s.cells[c]? = some y → y.count = 0 → s'.cells[c]? = some y :=
  drain_ind (motive := fun P s s' => ∀ y, s.cells[c]? = some y → y.count = 0 → s'.cells[c]? = some y)
    (fun s y h _ => h)
    (fun r P s s1 Q s' h _ ih y hy h0 => by
      refine ih y ?_ h0
      obtain ⟨_, ⟨hc, rfl, rfl⟩ | ⟨d, z, hc, hz, ⟨h1, rfl, rfl⟩ | ⟨h1, rfl, rfl⟩⟩⟩ := release_cases h
      · exact hy
      · by_cases e : c = d
        · subst e; rw [hy] at hz; cases hz; omega
        · exact (getElem?_set_of hz).mpr (Or.inr ⟨e, hy⟩)
      · by_cases e : c = d
        · subst e; rw [hy] at hz; cases hz; omega
        · exact (getElem?_set_of hz).mpr (Or.inr ⟨e, hy⟩)) P s s' h

theorem get_alloc {s : State} {x : Cell} {l : Loc} (h : (s.get l).isSome) : (s.alloc x).get l = s.get l := by
  cases l with
  | var i => rfl
  | field c k =>
    cases e : s.get (.field c k) with
    | none => rw [e] at h; cases h
    | some o =>
      obtain ⟨y, hy, ha, hk⟩ := get_field e
      unfold State.get State.alloc; dsimp only
      rw [List.getElem?_append_left (List.getElem?_eq_some_iff.mp hy).1, hy]
      dsimp only; rw [if_pos ha, hk]

theorem shape_alloc {s : State} {x : Cell} : (s.alloc x).shape = s.shape ++ [x.parts] := by
  unfold State.alloc State.shape; simp

theorem pinned_alloc {s : State} {x : Cell} {l : Loc} {c : Nat} (h : Pinned s l c) : Pinned (s.alloc x) l c := by
  rcases h with ⟨i, r, hi, hg, hc⟩ | ⟨r, hm, hc⟩
  · exact Or.inl ⟨i, r, hi, hg, by rw [shape_alloc, counter_append _ _ _ (counter_lt _ hc)]; exact hc⟩
  · exact Or.inr ⟨r, hm, by rw [shape_alloc, counter_append _ _ _ (counter_lt _ hc)]; exact hc⟩

theorem plain_alloc {s : State} {m nf : Nat} (h : Plain s.shape) :
    Plain (s.shape ++ [Deleg.self :: List.replicate m (.to ⟨s.cells.length, 0⟩)]) := by
  intro c p hp
  have hl : s.shape.length = s.cells.length := by unfold State.shape; simp
  rcases Nat.lt_trichotomy c s.shape.length with hc | hc | hc
  · rw [List.getElem?_append_left hc] at hp; exact h c p hp
  · rw [hc] at hp; simp at hp; exact ⟨m, by rw [← hp, hc, hl]⟩
  · rw [List.getElem?_eq_none (by simp; omega)] at hp; cases hp

theorem members_plain {c : Nat} : ∀ {members : List Member}, (∀ m ∈ members, m = .mutual) →
    members.flatMap (Member.parts ⟨c, 0⟩) = List.replicate members.length (.to ⟨c, 0⟩)
  | [], _ => rfl
  | a :: t, h => by
    rw [List.flatMap_cons, members_plain (fun m hm => h m (List.mem_cons_of_mem _ hm)), h a (List.mem_cons_self)]
    rfl

/-- The shape after an operation on plain objects. -/
theorem step_shape {s s' : State} {o : Op} (hp : PlainOp o) (hI : Inv s [] none) (hF : Plain s.shape) (h : s.step o = some s') :
    Plain s'.shape := by
  have assign_shape : ∀ {t t' : State} {l p b x}, Inv t [] x → t.assign l p b = some t' → t'.shape = t.shape := by
    intro t t' l p b x hI h
    unfold State.assign at h
    split at h
    · cases h
    · rename_i s1 hr
      have := (reset_spec hI hr).2.2.1
      split at h
      · obtain ⟨_, ⟨_, rfl⟩ | ⟨c, y, _, hy, _, rfl⟩⟩ := addRef_cases h
        · rw [shape_put, this]
        · rw [shape_set (y := { y with count := y.count + 1 }) hy rfl, shape_put, this]
      · cases h; rw [shape_put, this]
  have addRef_shape : ∀ {t t' : State} {r}, t.addRef r = some t' → t'.shape = t.shape := by
    intro t t' r h
    obtain ⟨_, ⟨_, rfl⟩ | ⟨c, y, _, hy, _, rfl⟩⟩ := addRef_cases h
    · rfl
    · exact shape_set hy rfl
  have keep : ∀ {t : State}, t.shape = s.shape → Plain t.shape := fun e => by rw [e]; exact hF
  cases o with
  | newVar => cases h; exact hF
  | make l members nf =>
    unfold State.step at h; dsimp only at h
    rw [assign_shape (alloc_inv hI) h, shape_alloc]
    dsimp only
    rw [members_plain hp]
    exact plain_alloc (nf := nf) hF
  | makeAgg l ctrl members nf => exact hp.elim
  | makeStatic l nf => exact hp.elim
  | copy dst src =>
    unfold State.step at h; dsimp only at h
    split at h
    · cases h
    · exact keep (assign_shape hI h)
  | move dst src =>
    unfold State.step at h; dsimp only at h
    split at h
    · cases h
    · split at h
      · cases h
      · rename_i s1 h1
        split at h
        · cases h; exact keep (shape_put.trans (assign_shape hI h1))
        · cases h
  | query dst src res =>
    unfold State.step at h; dsimp only at h
    split at h
    · cases h
    · split at h
      · cases h
      · rename_i s1 hr
        have e := (reset_spec hI hr).2.2.1
        split at h
        · cases h; exact keep e
        · split at h
          · cases h; exact keep e
          · cases h
        · split at h
          · exact keep ((addRef_shape h).trans (shape_put.trans e))
          · cases h
  | moveQuery dst src res =>
    unfold State.step at h; dsimp only at h
    split at h
    · cases h
    · split at h
      · cases h
      · split at h
        · cases h
        · rename_i s1 hr
          have a := reset_spec hI hr
          have e := a.2.2.1
          split at h
          · split at h
            · cases h; exact keep e
            · cases h
          · split at h
            · cases h; exact keep e
            · cases h
          · rename_i q _
            split at h
            · split at h
              · cases h
              · rename_i s2 h2
                have hI2 := (addRef_inv a.1 (same_put _ _ _) (fun p => by
                  have := tally_put (p := p) (v := some q) (P := []) a.2.1
                  have e : ind p none = 0 := rfl
                  omega) h2 (Or.inl rfl)).1
                exact keep ((reset_spec hI2 h).2.2.1.trans ((addRef_shape h2).trans (shape_put.trans e)))
            · cases h
  | reset l => exact keep (reset_spec hI h).2.2.1
  | detach l =>
    unfold State.step at h; dsimp only at h
    split at h
    · cases h
    · cases h; exact hF
    · cases h; exact keep ((same_put s _ _).trans (same_raw _ _)).shape
  | attach l r =>
    unfold State.step at h; dsimp only at h
    split at h
    · split at h
      · cases h
      · rename_i s1 hr
        cases h; exact keep (((same_put s1 _ _).trans (same_raw _ _)).shape.trans (reset_spec hI hr).2.2.1)
    · cases h
  | fromRaw l r =>
    unfold State.step at h; dsimp only at h
    exact keep (assign_shape hI h)
  | swap l m =>
    unfold State.step at h; dsimp only at h
    split at h
    · cases h; exact keep ((same_put s _ _).trans (same_put _ _ _)).shape
    · cases h
  | addRef r =>
    unfold State.step at h; dsimp only at h
    split at h
    · cases h
    · rename_i s1 h1; cases h; exact keep ((same_raw s1 _).shape.trans (addRef_shape h1))
  | release r =>
    unfold State.step at h; dsimp only at h
    split at h
    · exact keep (drain_later h).shape
    · cases h

/-- Such operations are defined. -/
theorem step_defined {s : State} {o : Op} (hI : Inv s [] none) (hF : Plain s.shape) (hp : PlainOp o) (hO : Ok s o) :
    ∃ s', s.step o = some s' := by
  -- a `Ptr` that stays has the same content
  have src_get : ∀ {dst src : Loc} {s1 : State}, src ≠ dst → Stays s dst src →
      (∀ m, m ≠ dst → (s1.get m).isSome → s1.get m = s.get m) → Later (s.put dst none) s1 ∨ s1 = s →
      (∀ c, Pinned s dst c → ∃ y, s1.cells[c]? = some y ∧ y.alive = true) → s1.get src = s.get src := by
    intro dst src s1 hne hS h5 hL hpin
    refine h5 src hne ?_
    rcases hL with hL | rfl
    · cases src with
      | var i =>
        have : s1.get (.var i) = (s.put dst none).get (.var i) := by show s1.vars[i]? = _; rw [hL.vars]; rfl
        rw [this, get_put_ne hne]; exact hS.1
      | field c k =>
        obtain ⟨y, hy, ha⟩ := hpin c (hS.2 c k rfl)
        obtain ⟨z, hz, _, hf, hza⟩ := hL.cell c y hy
        have g : (s.put dst none).get (.field c k) = s.get (.field c k) := get_put_ne hne
        have h1 := hS.1
        rw [← g] at h1
        cases e : (s.put dst none).get (.field c k) with
        | none => rw [e] at h1; cases h1
        | some o =>
          obtain ⟨w, hw, hwa, hwk⟩ := get_field e
          rw [hz] at hw; cases hw
          unfold State.get; dsimp only; rw [hy]; dsimp only; rw [if_pos ha, hf, hwk]; rfl
    · exact hS.1
  have reset_later : ∀ {l : Loc} {s1 : State}, s.reset l = some s1 → Later (s.put l none) s1 ∨ s1 = s := by
    intro l s1 h
    unfold State.reset at h
    split at h
    · cases h
    · cases h; exact Or.inr rfl
    · split at h
      · cases h
      · rename_i s2 hd
        split at h
        · cases h; exact Or.inl (drain_later hd)
        · cases h
  cases o with
  | newVar => exact ⟨_, rfl⟩
  | make l members nf =>
    unfold State.step; dsimp only
    generalize hx : (⟨true, 0, Deleg.self :: members.flatMap (Member.parts ⟨s.cells.length, 0⟩), List.replicate nf none⟩ : Cell) = x
    have hIA : Inv (s.alloc x) [] (some s.cells.length) := by rw [← hx]; exact alloc_inv hI
    have hFA : Plain (s.alloc x).shape := by
      rw [shape_alloc, ← hx]; dsimp only; rw [members_plain hp]; exact plain_alloc (nf := nf) hF
    have hSA : Stands (s.alloc x) l := ⟨by rw [get_alloc hO.1]; exact hO.1, fun c k e => pinned_alloc (hO.2 c k e)⟩
    obtain ⟨s1, h1, a1, a2, a3, a4, a5, a6, a7⟩ := reset_defined hFA hIA hSA
    unfold State.assign
    rw [h1]; dsimp only
    apply addRef_live
    have hnew : (s.alloc x).cells[s.cells.length]? = some x := by unfold State.alloc; simp
    have hx0 : x.count = 0 := by rw [← hx]
    have halive : ∃ y, s1.cells[s.cells.length]? = some y ∧ y.alive = true := by
      unfold State.reset at h1
      split at h1
      · cases h1
      · cases h1; exact ⟨x, hnew, by rw [← hx]⟩
      · rename_i r hg
        split at h1
        · cases h1
        · rename_i s2 hd
          split at h1
          · cases h1
            have hput : ∃ y, ((s.alloc x).put l none).cells[s.cells.length]? = some y ∧ y.alive = true ∧ y.count = 0 := by
              obtain ⟨y, hy, ha⟩ := put_alive (l := l) (v := none) (c := s.cells.length) ⟨x, hnew, by rw [← hx]⟩
              obtain ⟨z, hz, _, hcz, _⟩ := put_cell hy
              rw [hnew] at hz; cases hz
              exact ⟨y, hy, ha, by rw [hcz, hx0]⟩
            obtain ⟨y, hy, ha, h0⟩ := hput
            exact ⟨y, drain_zero hd _ y hy h0, ha⟩
          · cases h1
    refine plain_live' (by rw [shape_put, a3]; exact hFA) (by
      rw [shape_put, a3, wf_eq, shape_get]; dsimp only; rw [hnew, ← hx]; rfl) (put_alive halive)
  | makeAgg l ctrl members nf => exact hp.elim
  | makeStatic l nf => exact hp.elim
  | copy dst src =>
    obtain ⟨hd, hg, hr⟩ := hO
    obtain ⟨s1, h1, a1, a2, a3, a4, a5, a6, a7⟩ := reset_defined hF hI hd
    unfold State.step; dsimp only
    cases e : s.get src with
    | none => rw [e] at hg; cases hg
    | some p =>
      dsimp only
      unfold State.assign
      rw [h1]; dsimp only
      cases p with
      | none => exact ⟨_, rfl⟩
      | some r =>
        dsimp only
        apply addRef_live
        have hw := holder_wf hI (mem_holders_get e)
        refine plain_live' (by rw [shape_put, a3]; exact hF) (by rw [shape_put, a3]; exact hw) (put_alive ?_)
        rcases hr r e with ⟨hne, hS⟩ | hP
        · have g := src_get hne hS a5 (reset_later h1) a7
          rw [e] at g
          exact holder_alive a1 (mem_holders_get g) (by rw [a3]; exact plain_wf hF hw)
        · exact a7 _ hP
  | move dst src =>
    obtain ⟨hd, hS⟩ := hO
    obtain ⟨s1, h1, a1, a2, a3, a4, a5, a6, a7⟩ := reset_defined hF hI hd
    unfold State.step; dsimp only
    cases e : s.get src with
    | none => have := hS.1; rw [e] at this; cases this
    | some p =>
      dsimp only
      have : s.assign dst p false = some (s1.put dst p) := by
        unfold State.assign; rw [h1]; dsimp only
        cases p <;> rfl
      rw [this]; dsimp only
      have : ((s1.put dst p).get src).isSome := by
        by_cases hne : src = dst
        · subst hne; rw [get_put_self a2]; rfl
        · rw [get_put_ne hne, src_get hne hS a5 (reset_later h1) a7]; exact hS.1
      rw [if_pos this]; exact ⟨_, rfl⟩
  | query dst src res =>
    obtain ⟨hd, hne, hS, hq⟩ := hO
    obtain ⟨s1, h1, a1, a2, a3, a4, a5, a6, a7⟩ := reset_defined hF hI hd
    unfold State.step; dsimp only
    cases e : s.get src with
    | none => have := hS.1; rw [e] at this; cases this
    | some p =>
      dsimp only; rw [h1]; dsimp only
      cases p with
      | none => exact ⟨_, rfl⟩
      | some r =>
        have hw := holder_wf hI (mem_holders_get e)
        have g := src_get hne hS a5 (reset_later h1) a7
        rw [e] at g
        have hal := holder_alive a1 (mem_holders_get g) (by rw [a3]; exact plain_wf hF hw)
        have hl : s1.live r = true := plain_live' (by rw [a3]; exact hF) (by rw [a3]; exact hw) hal
        cases res with
        | none => dsimp only; rw [if_pos hl]; exact ⟨_, rfl⟩
        | some q =>
          dsimp only; rw [if_pos hl]
          obtain ⟨hqc, hql⟩ := hq r q e rfl
          apply addRef_live
          exact plain_live' (by rw [shape_put, a3]; exact hF) (by rw [shape_put, a3]; exact live_wf q hql)
            (put_alive (by rw [hqc]; exact hal))
  | moveQuery dst src res =>
    obtain ⟨hd, hne, hS, hq⟩ := hO
    obtain ⟨s1, h1, a1, a2, a3, a4, a5, a6, a7⟩ := reset_defined hF hI hd
    unfold State.step; dsimp only
    rw [if_neg (Ne.symm hne)]
    cases e : s.get src with
    | none => have := hS.1; rw [e] at this; cases this
    | some p =>
      have g := src_get hne hS a5 (reset_later h1) a7
      dsimp only; rw [h1]; dsimp only
      cases p with
      | none => dsimp only; rw [if_pos (by rw [g]; exact hS.1)]; exact ⟨_, rfl⟩
      | some r =>
        have hw := holder_wf hI (mem_holders_get e)
        rw [e] at g
        have hal := holder_alive a1 (mem_holders_get g) (by rw [a3]; exact plain_wf hF hw)
        have hl : s1.live r = true := plain_live' (by rw [a3]; exact hF) (by rw [a3]; exact hw) hal
        cases res with
        | none => dsimp only; rw [if_pos hl]; exact ⟨_, rfl⟩
        | some q =>
          dsimp only; rw [if_pos hl]
          obtain ⟨hqc, hql⟩ := hq r q e rfl
          have hlq : (s1.put dst (some q)).live q = true :=
            plain_live' (by rw [shape_put, a3]; exact hF) (by rw [shape_put, a3]; exact live_wf q hql)
              (put_alive (by rw [hqc]; exact hal))
          obtain ⟨s2, h2⟩ := addRef_live hlq
          rw [h2]; dsimp only
          have hA := addRef_inv a1 (same_put _ dst (some q)) (fun p => by
            have := tally_put (p := p) (v := some q) (P := []) a2
            have e : ind p none = 0 := rfl
            omega) h2 (Or.inl rfl)
          have hsh2 : s2.shape = s.shape := hA.2.trans a3
          have hcells : s2.vars = (s1.put dst (some q)).vars ∧ s2.raw = (s1.put dst (some q)).raw ∧ ∀ l, s2.get l = (s1.put dst (some q)).get l := by
            obtain ⟨_, ⟨_, rfl⟩ | ⟨c, y, _, hy, hya, rfl⟩⟩ := addRef_cases h2
            · exact ⟨rfl, rfl, fun _ => rfl⟩
            · refine ⟨rfl, rfl, fun l => ?_⟩
              cases l with
              | var i => rfl
              | field d k =>
                unfold State.get; dsimp only
                by_cases ed : c = d
                · subst ed
                  rw [List.getElem?_set, hy]; simp [(List.getElem?_eq_some_iff.mp hy).1]
                · rw [List.getElem?_set]; simp [ed]
          obtain ⟨hv2, hr2, hg2⟩ := hcells
          have hStand : Stands s2 src := by
            refine ⟨by rw [hg2, get_put_ne hne, g]; rfl, fun c k ec => ?_⟩
            rcases hS.2 c k ec with ⟨i, r', hi, hgi, hc⟩ | ⟨r', hm, hc⟩
            · left
              refine ⟨i, r', by rw [ec]; simp, ?_, by rw [hsh2]; exact hc⟩
              rw [hg2, get_put_ne hi]
              show s1.vars[i]? = _
              rw [a6 i hi]; exact hgi
            · right
              exact ⟨r', by rw [hr2, put_raw, a4]; exact hm, by rw [hsh2]; exact hc⟩
          obtain ⟨s3, h3, _⟩ := reset_defined (by rw [hsh2]; exact hF) hA.1 hStand
          exact ⟨s3, h3⟩
  | reset l =>
    obtain ⟨s1, h1, _⟩ := reset_defined hF hI hO
    exact ⟨s1, h1⟩
  | detach l =>
    unfold State.step; dsimp only
    have hO : (s.get l).isSome := hO
    cases e : s.get l with
    | none => rw [e] at hO; cases hO
    | some p => cases p <;> exact ⟨_, rfl⟩
  | attach l r =>
    obtain ⟨hS, hm⟩ := hO
    obtain ⟨s1, h1, _⟩ := reset_defined hF hI hS
    unfold State.step; dsimp only
    rw [if_pos hm, h1]; exact ⟨_, rfl⟩
  | fromRaw l r =>
    obtain ⟨hS, hl, hP⟩ := hO
    obtain ⟨s1, h1, a1, a2, a3, a4, a5, a6, a7⟩ := reset_defined hF hI hS
    unfold State.step; dsimp only
    unfold State.assign; rw [h1]; dsimp only
    apply addRef_live
    exact plain_live' (by rw [shape_put, a3]; exact hF) (by rw [shape_put, a3]; exact live_wf r hl) (put_alive (a7 _ hP))
  | swap l m =>
    obtain ⟨h1, h2⟩ := hO
    unfold State.step; dsimp only
    cases e1 : s.get l with
    | none => rw [e1] at h1; cases h1
    | some p =>
      cases e2 : s.get m with
      | none => rw [e2] at h2; cases h2
      | some q => exact ⟨_, rfl⟩
  | addRef r =>
    unfold State.step; dsimp only
    obtain ⟨s1, h1⟩ := addRef_live (show s.live r = true from hO)
    rw [h1]; exact ⟨_, rfl⟩
  | release r =>
    have hm : r ∈ s.raw := hO
    unfold State.step; dsimp only
    rw [if_pos hm]
    refine drain_defined [r] { s with raw := s.raw.erase r } (by exact hF) none (hI.same (same_raw _ _) fun p => ?_)
    have e3 : s.raw.countP p = (s.raw.erase r).countP p + ind p (some r) := by
      rw [(List.perm_cons_erase hm).countP_eq, countP_cons_ind]
    rw [tally_cons]
    unfold tally; dsimp only; omega

end Verif.Ptr
