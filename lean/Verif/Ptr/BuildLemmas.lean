import Verif.Ptr.Build

/-!
# Objects under construction and destruction: lemmas
-/

namespace Verif.Ptr.Build

/-- What holds in every history. -/
structure Weak (s : St) : Prop where
  cnt : ∀ c x, s.objs[c]? = some x → x.count = s.ptrs.count c
  lt : ∀ c ∈ s.ptrs, c < s.objs.length
  nd : s.stack.Nodup
  stk : ∀ c, c ∈ s.stack ↔ ∃ x, s.objs[c]? = some x ∧ (x.phase = .building ∨ x.phase = .dying)
  rdy : ∀ c x, s.objs[c]? = some x → x.phase = .ready → c ∈ s.ptrs
  lnd : s.log.Nodup
  lg : ∀ c, c ∈ s.log ↔ ∃ x, s.objs[c]? = some x ∧ (x.phase = .dying ∨ x.phase = .freed)

theorem weak_init : Weak St.init := by
  constructor <;> simp [St.init]

theorem lt_of_get {l : List Obj} {c : Nat} {x : Obj} (h : l[c]? = some x) : c < l.length := by
  by_cases hc : c < l.length
  · exact hc
  · rw [List.getElem?_eq_none (by omega)] at h; cases h

theorem get_set {l : List Obj} {c d : Nat} {x y z : Obj} (h : l[c]? = some x) :
    (l.set c y)[d]? = some z ↔ (d = c ∧ z = y) ∨ (d ≠ c ∧ l[d]? = some z) := by
  have hc := lt_of_get h
  rw [List.getElem?_set]
  by_cases hd : c = d
  · subst hd; simp [hc, eq_comm]
  · have : d ≠ c := fun e => hd e.symm
    simp [hd, this]

theorem addRef_some {x y : Obj} (h : addRef x = some y) :
    y = { x with count := x.count + 1 } ∧ x.phase ≠ .freed ∧ x.phase ≠ .failed := by
  unfold addRef at h
  cases hp : x.phase <;> rw [hp] at h <;> simp at h <;> simp [← h]

theorem release_some {x y : Obj} (h : release x = some y) :
    y = { x with count := x.count - 1 } ∧ x.count ≠ 0 ∧ x.phase ≠ .freed ∧ x.phase ≠ .failed := by
  unfold release at h
  cases hp : x.phase <;> rw [hp] at h <;> simp at h <;> simp [← h.2, h.1]

theorem weak_step {s s' : St} {o : Op} (h : Weak s) (e : step s o = some s') : Weak s' := by
  cases o with
  | new =>
    simp only [step, Option.some.injEq] at e
    subst e
    have hk : ∀ c x, (s.objs ++ [⟨.building, 0⟩])[c]? = some x ↔
        s.objs[c]? = some x ∨ (c = s.objs.length ∧ x = ⟨.building, 0⟩) := by
      intro c x
      by_cases hc : c < s.objs.length
      · rw [List.getElem?_append_left hc]
        constructor
        · exact Or.inl
        · rintro (h | ⟨h, _⟩)
          · exact h
          · omega
      · rw [List.getElem?_append_right (by omega), List.getElem?_eq_none (l := s.objs) (by omega)]
        by_cases hc' : c = s.objs.length
        · subst hc'; simp [eq_comm]
        · rw [List.getElem?_eq_none (by simp; omega)]; simp [hc']
    have hnew : ∀ x, ¬ s.objs[s.objs.length]? = some x := by simp
    have hp0 : s.ptrs.count s.objs.length = 0 := by
      rw [List.count_eq_zero]; intro hm; exact absurd (h.lt _ hm) (by omega)
    have hns : s.objs.length ∉ s.stack := by
      rw [h.stk]; rintro ⟨x, hx, _⟩; exact hnew x hx
    refine ⟨?_, ?_, ?_, ?_, ?_, h.lnd, ?_⟩
    · intro c x hx
      rcases (hk c x).1 hx with hx | ⟨rfl, rfl⟩
      · exact h.cnt c x hx
      · exact hp0.symm
    · intro c hc; have := h.lt c hc; simp; omega
    · exact List.nodup_cons.2 ⟨hns, h.nd⟩
    · intro c
      constructor
      · intro hc
        rcases List.mem_cons.1 hc with rfl | hc
        · exact ⟨_, (hk _ _).2 (.inr ⟨rfl, rfl⟩), .inl rfl⟩
        · obtain ⟨x, hx, hp⟩ := (h.stk c).1 hc
          exact ⟨x, (hk _ _).2 (.inl hx), hp⟩
      · rintro ⟨x, hx, hp⟩
        rcases (hk c x).1 hx with hx | ⟨rfl, _⟩
        · exact List.mem_cons_of_mem _ ((h.stk c).2 ⟨x, hx, hp⟩)
        · exact List.mem_cons_self
    · intro c x hx hp
      rcases (hk c x).1 hx with hx | ⟨rfl, rfl⟩
      · exact h.rdy c x hx hp
      · cases hp
    · intro c
      rw [h.lg]
      constructor
      · rintro ⟨x, hx, hp⟩; exact ⟨x, (hk _ _).2 (.inl hx), hp⟩
      · rintro ⟨x, hx, hp⟩
        rcases (hk c x).1 hx with hx | ⟨rfl, rfl⟩
        · exact ⟨x, hx, hp⟩
        · rcases hp with hp | hp <;> cases hp
  | ret =>
    simp only [step] at e
    cases hs : s.stack with
    | nil => rw [hs] at e; simp at e; subst e; exact h
    | cons c rest =>
      rw [hs] at e
      have hcs : c ∈ s.stack := by rw [hs]; exact List.mem_cons_self
      obtain ⟨x, hx, hxp⟩ := (h.stk c).1 hcs
      have hnd : c ∉ rest ∧ rest.Nodup := by have := h.nd; rw [hs] at this; exact List.nodup_cons.1 this
      have hrest : ∀ d, d ∈ rest ↔ d ∈ s.stack ∧ d ≠ c := by
        intro d; rw [hs, List.mem_cons]
        constructor
        · intro hd; exact ⟨.inr hd, fun e => hnd.1 (e ▸ hd)⟩
        · rintro ⟨rfl | hd, hne⟩
          · exact absurd rfl hne
          · exact hd
      simp only [hx] at e
      by_cases hb : x.phase = .building
      · rw [if_pos hb, Option.some.injEq] at e
        subst e
        refine ⟨?_, ?_, hnd.2, ?_, ?_, h.lnd, ?_⟩
        · intro d y hy
          rcases (get_set hx).1 hy with ⟨rfl, rfl⟩ | ⟨hd, hy⟩
          · simp [h.cnt _ _ hx]
          · simp only [List.count_cons, beq_iff_eq]
            rw [if_neg (fun e => hd e.symm)]; simpa using h.cnt d y hy
        · intro d hd
          rw [List.length_set]
          rcases List.mem_cons.1 hd with rfl | hd
          · exact lt_of_get hx
          · exact h.lt d hd
        · intro d
          rw [hrest, h.stk]
          constructor
          · rintro ⟨⟨y, hy, hp⟩, hd⟩; exact ⟨y, (get_set hx).2 (.inr ⟨hd, hy⟩), hp⟩
          · rintro ⟨y, hy, hp⟩
            rcases (get_set hx).1 hy with ⟨rfl, rfl⟩ | ⟨hd, hy⟩
            · rcases hp with hp | hp <;> cases hp
            · exact ⟨⟨y, hy, hp⟩, hd⟩
        · intro d y hy hp
          rcases (get_set hx).1 hy with ⟨rfl, rfl⟩ | ⟨hd, hy⟩
          · exact List.mem_cons_self
          · exact List.mem_cons_of_mem _ (h.rdy d y hy hp)
        · intro d
          rw [h.lg]
          constructor
          · rintro ⟨y, hy, hp⟩
            refine ⟨y, (get_set hx).2 (.inr ⟨?_, hy⟩), hp⟩
            rintro rfl
            rw [hx] at hy; cases hy; rw [hb] at hp; rcases hp with hp | hp <;> cases hp
          · rintro ⟨y, hy, hp⟩
            rcases (get_set hx).1 hy with ⟨rfl, rfl⟩ | ⟨hd, hy⟩
            · rcases hp with hp | hp <;> cases hp
            · exact ⟨y, hy, hp⟩
      · rw [if_neg hb, Option.some.injEq] at e
        have hdy : x.phase = .dying := hxp.resolve_left hb
        subst e
        refine ⟨?_, ?_, hnd.2, ?_, ?_, h.lnd, ?_⟩
        · intro d y hy
          rcases (get_set hx).1 hy with ⟨rfl, rfl⟩ | ⟨hd, hy⟩
          · have := h.cnt _ _ hx; exact this
          · exact h.cnt d y hy
        · intro d hd; rw [List.length_set]; exact h.lt d hd
        · intro d
          rw [hrest, h.stk]
          constructor
          · rintro ⟨⟨y, hy, hp⟩, hd⟩; exact ⟨y, (get_set hx).2 (.inr ⟨hd, hy⟩), hp⟩
          · rintro ⟨y, hy, hp⟩
            rcases (get_set hx).1 hy with ⟨rfl, rfl⟩ | ⟨hd, hy⟩
            · rcases hp with hp | hp <;> cases hp
            · exact ⟨⟨y, hy, hp⟩, hd⟩
        · intro d y hy hp
          rcases (get_set hx).1 hy with ⟨rfl, rfl⟩ | ⟨hd, hy⟩
          · cases hp
          · exact h.rdy d y hy hp
        · intro d
          rw [h.lg]
          constructor
          · rintro ⟨y, hy, hp⟩
            by_cases hd : d = c
            · exact ⟨_, (get_set hx).2 (.inl ⟨hd, rfl⟩), .inr rfl⟩
            · exact ⟨y, (get_set hx).2 (.inr ⟨hd, hy⟩), hp⟩
          · rintro ⟨y, hy, hp⟩
            rcases (get_set hx).1 hy with ⟨rfl, rfl⟩ | ⟨hd, hy⟩
            · exact ⟨x, hx, .inl hdy⟩
            · exact ⟨y, hy, hp⟩
  | throw =>
    simp only [step] at e
    cases hs : s.stack with
    | nil => rw [hs] at e; simp at e; subst e; exact h
    | cons c rest =>
      rw [hs] at e
      have hcs : c ∈ s.stack := by rw [hs]; exact List.mem_cons_self
      obtain ⟨x, hx, hxp⟩ := (h.stk c).1 hcs
      have hnd : c ∉ rest ∧ rest.Nodup := by have := h.nd; rw [hs] at this; exact List.nodup_cons.1 this
      have hrest : ∀ d, d ∈ rest ↔ d ∈ s.stack ∧ d ≠ c := by
        intro d; rw [hs, List.mem_cons]
        constructor
        · intro hd; exact ⟨.inr hd, fun e => hnd.1 (e ▸ hd)⟩
        · rintro ⟨rfl | hd, hne⟩
          · exact absurd rfl hne
          · exact hd
      simp only [hx] at e
      by_cases hb : x.phase = .building
      · rw [if_pos hb, Option.some.injEq] at e
        subst e
        refine ⟨?_, ?_, hnd.2, ?_, ?_, h.lnd, ?_⟩
        · intro d y hy
          rcases (get_set hx).1 hy with ⟨rfl, rfl⟩ | ⟨hd, hy⟩
          · have := h.cnt _ _ hx; exact this
          · exact h.cnt d y hy
        · intro d hd; rw [List.length_set]; exact h.lt d hd
        · intro d
          rw [hrest, h.stk]
          constructor
          · rintro ⟨⟨y, hy, hp⟩, hd⟩; exact ⟨y, (get_set hx).2 (.inr ⟨hd, hy⟩), hp⟩
          · rintro ⟨y, hy, hp⟩
            rcases (get_set hx).1 hy with ⟨rfl, rfl⟩ | ⟨hd, hy⟩
            · rcases hp with hp | hp <;> cases hp
            · exact ⟨⟨y, hy, hp⟩, hd⟩
        · intro d y hy hp
          rcases (get_set hx).1 hy with ⟨rfl, rfl⟩ | ⟨hd, hy⟩
          · cases hp
          · exact h.rdy d y hy hp
        · intro d
          rw [h.lg]
          constructor
          · rintro ⟨y, hy, hp⟩
            refine ⟨y, (get_set hx).2 (.inr ⟨?_, hy⟩), hp⟩
            rintro rfl
            rw [hx] at hy; cases hy; rw [hb] at hp; rcases hp with hp | hp <;> cases hp
          · rintro ⟨y, hy, hp⟩
            rcases (get_set hx).1 hy with ⟨rfl, rfl⟩ | ⟨hd, hy⟩
            · rcases hp with hp | hp <;> cases hp
            · exact ⟨y, hy, hp⟩
      · rw [if_neg hb, Option.some.injEq] at e
        subst e
        rw [← hs] at *
        exact h
  | take c =>
    simp only [step] at e
    by_cases hc : c ∈ s.ptrs ∨ c ∈ s.stack
    · rw [if_pos hc] at e
      cases hx : s.objs[c]? with
      | none => rw [hx] at e; simp at e
      | some x =>
        rw [hx] at e
        simp only [Option.bind_some] at e
        cases hy : addRef x with
        | none => rw [hy] at e; simp at e
        | some y =>
          rw [hy] at e
          simp only [Option.some.injEq] at e
          subst e
          obtain ⟨rfl, _, _⟩ := addRef_some hy
          refine ⟨?_, ?_, h.nd, ?_, ?_, h.lnd, ?_⟩
          · intro d z hz
            rcases (get_set hx).1 hz with ⟨rfl, rfl⟩ | ⟨hd, hz⟩
            · simp [h.cnt _ _ hx]
            · simp only [List.count_cons, beq_iff_eq]
              rw [if_neg (fun e => hd e.symm)]; simpa using h.cnt d z hz
          · intro d hd
            rw [List.length_set]
            rcases List.mem_cons.1 hd with rfl | hd
            · exact lt_of_get hx
            · exact h.lt d hd
          · intro d
            rw [h.stk]
            constructor
            · rintro ⟨z, hz, hp⟩
              by_cases hd : d = c
              · subst hd; rw [hx] at hz; cases hz
                exact ⟨_, (get_set hx).2 (.inl ⟨rfl, rfl⟩), hp⟩
              · exact ⟨z, (get_set hx).2 (.inr ⟨hd, hz⟩), hp⟩
            · rintro ⟨z, hz, hp⟩
              rcases (get_set hx).1 hz with ⟨rfl, rfl⟩ | ⟨hd, hz⟩
              · exact ⟨x, hx, hp⟩
              · exact ⟨z, hz, hp⟩
          · intro d z hz hp
            rcases (get_set hx).1 hz with ⟨rfl, rfl⟩ | ⟨hd, hz⟩
            · exact List.mem_cons_self
            · exact List.mem_cons_of_mem _ (h.rdy d z hz hp)
          · intro d
            rw [h.lg]
            constructor
            · rintro ⟨z, hz, hp⟩
              by_cases hd : d = c
              · subst hd; rw [hx] at hz; cases hz
                exact ⟨_, (get_set hx).2 (.inl ⟨rfl, rfl⟩), hp⟩
              · exact ⟨z, (get_set hx).2 (.inr ⟨hd, hz⟩), hp⟩
            · rintro ⟨z, hz, hp⟩
              rcases (get_set hx).1 hz with ⟨rfl, rfl⟩ | ⟨hd, hz⟩
              · exact ⟨x, hx, hp⟩
              · exact ⟨z, hz, hp⟩
    · rw [if_neg hc, Option.some.injEq] at e
      subst e; exact h
  | drop c =>
    simp only [step] at e
    by_cases hc : c ∈ s.ptrs
    · rw [if_pos hc] at e
      cases hx : s.objs[c]? with
      | none => rw [hx] at e; simp at e
      | some x =>
        rw [hx] at e
        simp only [Option.bind_some] at e
        cases hy : release x with
        | none => rw [hy] at e; simp at e
        | some y =>
          rw [hy] at e
          simp only at e
          obtain ⟨rfl, h0, _, _⟩ := release_some hy
          have hcnt : ∀ d z, (s.objs[d]? = some z ∧ d ≠ c) → z.count = (s.ptrs.erase c).count d := by
            rintro d z ⟨hz, hd⟩
            rw [List.count_erase_of_ne hd]; exact h.cnt d z hz
          have hcc : x.count - 1 = (s.ptrs.erase c).count c := by
            rw [List.count_erase_self, h.cnt _ _ hx]
          unfold finish at e
          simp only at e
          by_cases hz : x.count - 1 = 0
          · rw [if_pos hz] at e
            cases hp : x.phase <;> rw [hp] at e <;> simp only [reduceCtorEq, Option.some.injEq] at e
            subst e
            have hns : c ∉ s.stack := by
              rw [h.stk]; rintro ⟨z, hz', hp'⟩
              rw [hx] at hz'; cases hz'; rw [hp] at hp'; rcases hp' with hp' | hp' <;> cases hp'
            have hnl : c ∉ s.log := by
              rw [h.lg]; rintro ⟨z, hz', hp'⟩
              rw [hx] at hz'; cases hz'; rw [hp] at hp'; rcases hp' with hp' | hp' <;> cases hp'
            refine ⟨?_, ?_, List.nodup_cons.2 ⟨hns, h.nd⟩, ?_, ?_, List.nodup_cons.2 ⟨hnl, h.lnd⟩, ?_⟩
            · intro d z hz'
              rcases (get_set hx).1 hz' with ⟨rfl, rfl⟩ | ⟨hd, hz'⟩
              · exact hcc
              · exact hcnt d z ⟨hz', hd⟩
            · intro d hd; rw [List.length_set]; exact h.lt d (List.mem_of_mem_erase hd)
            · intro d
              rw [List.mem_cons, h.stk]
              constructor
              · rintro (rfl | ⟨z, hz', hp'⟩)
                · exact ⟨_, (get_set hx).2 (.inl ⟨rfl, rfl⟩), .inr rfl⟩
                · refine ⟨z, (get_set hx).2 (.inr ⟨?_, hz'⟩), hp'⟩
                  rintro rfl; exact hns ((h.stk _).2 ⟨z, hz', hp'⟩)
              · rintro ⟨z, hz', hp'⟩
                rcases (get_set hx).1 hz' with ⟨rfl, rfl⟩ | ⟨hd, hz'⟩
                · exact .inl rfl
                · exact .inr ⟨z, hz', hp'⟩
            · intro d z hz' hp'
              rcases (get_set hx).1 hz' with ⟨rfl, rfl⟩ | ⟨hd, hz'⟩
              · cases hp'
              · exact (List.mem_erase_of_ne hd).2 (h.rdy d z hz' hp')
            · intro d
              rw [List.mem_cons, h.lg]
              constructor
              · rintro (rfl | ⟨z, hz', hp'⟩)
                · exact ⟨_, (get_set hx).2 (.inl ⟨rfl, rfl⟩), .inl rfl⟩
                · refine ⟨z, (get_set hx).2 (.inr ⟨?_, hz'⟩), hp'⟩
                  rintro rfl; exact hnl ((h.lg _).2 ⟨z, hz', hp'⟩)
              · rintro ⟨z, hz', hp'⟩
                rcases (get_set hx).1 hz' with ⟨rfl, rfl⟩ | ⟨hd, hz'⟩
                · exact .inl rfl
                · exact .inr ⟨z, hz', hp'⟩
          · rw [if_neg hz, Option.some.injEq] at e
            subst e
            refine ⟨?_, ?_, h.nd, ?_, ?_, h.lnd, ?_⟩
            · intro d z hz'
              rcases (get_set hx).1 hz' with ⟨rfl, rfl⟩ | ⟨hd, hz'⟩
              · exact hcc
              · exact hcnt d z ⟨hz', hd⟩
            · intro d hd; rw [List.length_set]; exact h.lt d (List.mem_of_mem_erase hd)
            · intro d
              rw [h.stk]
              constructor
              · rintro ⟨z, hz, hp⟩
                by_cases hd : d = c
                · subst hd; rw [hx] at hz; cases hz
                  exact ⟨_, (get_set hx).2 (.inl ⟨rfl, rfl⟩), hp⟩
                · exact ⟨z, (get_set hx).2 (.inr ⟨hd, hz⟩), hp⟩
              · rintro ⟨z, hz, hp⟩
                rcases (get_set hx).1 hz with ⟨rfl, rfl⟩ | ⟨hd, hz⟩
                · exact ⟨x, hx, hp⟩
                · exact ⟨z, hz, hp⟩
            · intro d z hz' hp'
              rcases (get_set hx).1 hz' with ⟨rfl, rfl⟩ | ⟨hd, hz'⟩
              · apply List.count_pos_iff.1; rw [← hcc]; omega
              · exact (List.mem_erase_of_ne hd).2 (h.rdy d z hz' hp')
            · intro d
              rw [h.lg]
              constructor
              · rintro ⟨z, hz, hp⟩
                by_cases hd : d = c
                · subst hd; rw [hx] at hz; cases hz
                  exact ⟨_, (get_set hx).2 (.inl ⟨rfl, rfl⟩), hp⟩
                · exact ⟨z, (get_set hx).2 (.inr ⟨hd, hz⟩), hp⟩
              · rintro ⟨z, hz, hp⟩
                rcases (get_set hx).1 hz with ⟨rfl, rfl⟩ | ⟨hd, hz⟩
                · exact ⟨x, hx, hp⟩
                · exact ⟨z, hz, hp⟩
    · rw [if_neg hc, Option.some.injEq] at e
      subst e; exact h

theorem weak_run {s s' : St} {os : List Op} (h : Weak s) (e : run s os = some s') : Weak s' := by
  induction os generalizing s with
  | nil => simp only [run, Option.some.injEq] at e; subst e; exact h
  | cons o os ih =>
    simp only [run] at e
    cases he : step s o with
    | none => rw [he] at e; simp at e
    | some t => rw [he] at e; exact ih (weak_step h he) e

/-- What holds as well in careful histories: pointers lead to objects that are not destroyed. -/
def Sound (s : St) : Prop :=
  ∀ c ∈ s.ptrs, ∃ x, s.objs[c]? = some x ∧ (x.phase = .building ∨ x.phase = .ready)

/-- A pointer to an object that is being destroyed, or gone. -/
def Stuck (s : St) : Prop :=
  ∃ c ∈ s.ptrs, ∃ x, s.objs[c]? = some x ∧ x.phase ≠ .building ∧ x.phase ≠ .ready

theorem stuck_step {s s' : St} {o : Op} (h : Weak s) (k : Stuck s) (e : step s o = some s') : Stuck s' := by
  obtain ⟨d, hd, x, hx, hb, hr⟩ := k
  cases o with
  | new =>
    simp only [step, Option.some.injEq] at e
    subst e
    exact ⟨d, hd, x, by rw [List.getElem?_append_left (lt_of_get hx)]; exact hx, hb, hr⟩
  | ret =>
    simp only [step] at e
    cases hs : s.stack with
    | nil => rw [hs] at e; simp at e; subst e; exact ⟨d, hd, x, hx, hb, hr⟩
    | cons c rest =>
      rw [hs] at e
      obtain ⟨y, hy, hyp⟩ := (h.stk c).1 (by rw [hs]; exact List.mem_cons_self)
      simp only [hy] at e
      by_cases hb' : y.phase = .building
      · rw [if_pos hb', Option.some.injEq] at e
        subst e
        refine ⟨d, List.mem_cons_of_mem _ hd, x, (get_set hy).2 (.inr ⟨?_, hx⟩), hb, hr⟩
        rintro rfl; rw [hx] at hy; cases hy; exact hb hb'
      · rw [if_neg hb', Option.some.injEq] at e
        subst e
        by_cases hdc : d = c
        · exact ⟨d, hd, _, (get_set hy).2 (.inl ⟨hdc, rfl⟩), by simp, by simp⟩
        · exact ⟨d, hd, x, (get_set hy).2 (.inr ⟨hdc, hx⟩), hb, hr⟩
  | throw =>
    simp only [step] at e
    cases hs : s.stack with
    | nil => rw [hs] at e; simp at e; subst e; exact ⟨d, hd, x, hx, hb, hr⟩
    | cons c rest =>
      rw [hs] at e
      obtain ⟨y, hy, hyp⟩ := (h.stk c).1 (by rw [hs]; exact List.mem_cons_self)
      simp only [hy] at e
      by_cases hb' : y.phase = .building
      · rw [if_pos hb', Option.some.injEq] at e
        subst e
        refine ⟨d, hd, x, (get_set hy).2 (.inr ⟨?_, hx⟩), hb, hr⟩
        rintro rfl; rw [hx] at hy; cases hy; exact hb hb'
      · rw [if_neg hb', Option.some.injEq] at e
        subst e; exact ⟨d, hd, x, hx, hb, hr⟩
  | take c =>
    simp only [step] at e
    by_cases hc : c ∈ s.ptrs ∨ c ∈ s.stack
    · rw [if_pos hc] at e
      cases hy : s.objs[c]? with
      | none => rw [hy] at e; simp at e
      | some y =>
        rw [hy] at e
        simp only [Option.bind_some] at e
        cases hz : addRef y with
        | none => rw [hz] at e; simp at e
        | some z =>
          rw [hz] at e
          simp only [Option.some.injEq] at e
          subst e
          obtain ⟨rfl, _, _⟩ := addRef_some hz
          by_cases hdc : d = c
          · subst hdc; rw [hx] at hy; cases hy
            exact ⟨d, List.mem_cons_self, _, (get_set hx).2 (.inl ⟨rfl, rfl⟩), hb, hr⟩
          · exact ⟨d, List.mem_cons_of_mem _ hd, x, (get_set hy).2 (.inr ⟨hdc, hx⟩), hb, hr⟩
    · rw [if_neg hc, Option.some.injEq] at e
      subst e; exact ⟨d, hd, x, hx, hb, hr⟩
  | drop c =>
    simp only [step] at e
    by_cases hc : c ∈ s.ptrs
    · rw [if_pos hc] at e
      cases hy : s.objs[c]? with
      | none => rw [hy] at e; simp at e
      | some y =>
        rw [hy] at e
        simp only [Option.bind_some] at e
        cases hz : release y with
        | none => rw [hz] at e; simp at e
        | some z =>
          rw [hz] at e
          obtain ⟨rfl, h0, _, _⟩ := release_some hz
          simp only [finish] at e
          by_cases hdc : d = c
          · subst hdc; rw [hx] at hy; cases hy
            by_cases h1 : x.count - 1 = 0
            · rw [if_pos h1] at e
              cases hp : x.phase <;> rw [hp] at e <;> simp only [reduceCtorEq] at e
              exact absurd hp hr
            · rw [if_neg h1, Option.some.injEq] at e
              subst e
              refine ⟨d, ?_, _, (get_set hx).2 (.inl ⟨rfl, rfl⟩), hb, hr⟩
              apply List.count_pos_iff.1
              rw [List.count_erase_self, ← h.cnt _ _ hx]; omega
          · by_cases h1 : y.count - 1 = 0
            · rw [if_pos h1] at e
              cases hp : y.phase <;> rw [hp] at e <;> simp only [reduceCtorEq, Option.some.injEq] at e
              subst e
              exact ⟨d, (List.mem_erase_of_ne hdc).2 hd, x, (get_set hy).2 (.inr ⟨hdc, hx⟩), hb, hr⟩
            · rw [if_neg h1, Option.some.injEq] at e
              subst e
              exact ⟨d, (List.mem_erase_of_ne hdc).2 hd, x, (get_set hy).2 (.inr ⟨hdc, hx⟩), hb, hr⟩
    · rw [if_neg hc, Option.some.injEq] at e
      subst e; exact ⟨d, hd, x, hx, hb, hr⟩

theorem stuck_run {s s' : St} {os : List Op} (h : Weak s) (k : Stuck s) (e : run s os = some s') : Stuck s' := by
  induction os generalizing s with
  | nil => simp only [run, Option.some.injEq] at e; subst e; exact k
  | cons o os ih =>
    simp only [run] at e
    cases he : step s o with
    | none => rw [he] at e; simp at e
    | some t => rw [he] at e; exact ih (weak_step h he) (stuck_step h k he) e

theorem sound_or_stuck {s : St} (h : Weak s) : Sound s ∨ Stuck s := by
  by_cases k : Stuck s
  · exact .inr k
  · refine .inl fun c hc => ?_
    have hl := h.lt c hc
    refine ⟨s.objs[c], List.getElem?_eq_getElem hl, ?_⟩
    by_cases h1 : (s.objs[c]).phase = .building
    · exact .inl h1
    · by_cases h2 : (s.objs[c]).phase = .ready
      · exact .inr h2
      · exact absurd ⟨c, hc, _, List.getElem?_eq_getElem hl, h1, h2⟩ k

end Verif.Ptr.Build
