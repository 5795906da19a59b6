import Verif.Ptr.BuildLemmas

/-!
# C167: constructors and destructors that use smart pointers to their own object

The property is that constructors and destructors may make and drop smart pointers to their own object like any other code: each object is
destroyed once, when its constructor has returned and the last pointer to it is gone, and no pointer leads to a destroyed object.  The
code does not have it (`C167_constructor_fails`, `C167_destructor_fails`, `C167_left_fails`, `C167_throw_fails`).  It holds for exactly the
histories that are careful (`C167_partial`, `C167_necessary`).
-/

namespace Verif.Ptr.Build

/-- What a program must not do in state `s`: make a pointer to an object under destruction (it is in the stack and its destructor was entered);
drop the last pointer to an object whose constructor runs; let a constructor throw while there are pointers to its object. -/
def Careful (s : St) : Op → Prop
  | .new | .ret => True
  | .throw => ∀ c, s.stack.head? = some c → c ∉ s.log → c ∉ s.ptrs
  | .take c => c ∈ s.stack → c ∉ s.log
  | .drop c => c ∈ s.stack → c ∈ s.ptrs → 1 < s.ptrs.count c

/-- Each operation of the history is careful where it happens. -/
def CarefulRun (s : St) : List Op → Prop
  | [] => True
  | o :: os => Careful s o ∧ ∀ s', step s o = some s' → CarefulRun s' os

/-! ## Helper lemmas -/

theorem careful_step {s : St} {o : Op} (h : Weak s) (k : Sound s) (hc : Careful s o) :
    ∃ s', step s o = some s' ∧ Sound s' := by
  have key : (step s o).isSome ∧ ∀ s', step s o = some s' → ¬ Stuck s' := by
    cases o with
    | new =>
      refine ⟨rfl, ?_⟩
      intro s' e
      simp only [step, Option.some.injEq] at e
      subst e
      rintro ⟨c, hc, x, hx, hb, hr⟩
      obtain ⟨y, hy, hp⟩ := k c hc
      have : x = y := by
        have hx' : (s.objs ++ [⟨.building, 0⟩])[c]? = some x := hx
        rw [List.getElem?_append_left (lt_of_get hy), hy] at hx'
        cases hx'; rfl
      subst this
      rcases hp with hp | hp
      · exact hb hp
      · exact hr hp
    | ret =>
      simp only [step]
      cases hs : s.stack with
      | nil =>
        refine ⟨rfl, ?_⟩
        intro s' e
        simp only [Option.some.injEq] at e
        subst e
        rintro ⟨c, hc, x, hx, hb, hr⟩
        obtain ⟨y, hy, hp⟩ := k c hc
        rw [hx] at hy; cases hy
        exact hp.elim hb hr
      | cons c rest =>
        obtain ⟨y, hy, hyp⟩ := (h.stk c).1 (by rw [hs]; exact List.mem_cons_self)
        simp only [hy]
        by_cases hb' : y.phase = .building
        · rw [if_pos hb']
          refine ⟨rfl, ?_⟩
          intro s' e
          simp only [Option.some.injEq] at e
          subst e
          rintro ⟨d, hd, x, hx, hb, hr⟩
          rcases (get_set hy).1 hx with ⟨rfl, rfl⟩ | ⟨hdc, hx⟩
          · exact hr rfl
          · rcases List.mem_cons.1 hd with rfl | hd
            · exact hdc rfl
            · obtain ⟨z, hz, hp⟩ := k d hd
              rw [hx] at hz; cases hz
              exact hp.elim hb hr
        · rw [if_neg hb']
          refine ⟨rfl, ?_⟩
          intro s' e
          simp only [Option.some.injEq] at e
          subst e
          rintro ⟨d, hd, x, hx, hb, hr⟩
          obtain ⟨z, hz, hp⟩ := k d hd
          rcases (get_set hy).1 hx with ⟨rfl, rfl⟩ | ⟨hdc, hx⟩
          · rw [hy] at hz; cases hz
            have hdy := hyp.resolve_left hb'
            rw [hdy] at hp
            rcases hp with hp | hp <;> cases hp
          · rw [hx] at hz; cases hz
            exact hp.elim hb hr
    | throw =>
      simp only [step]
      cases hs : s.stack with
      | nil =>
        refine ⟨rfl, ?_⟩
        intro s' e
        simp only [Option.some.injEq] at e
        subst e
        rintro ⟨c, hc, x, hx, hb, hr⟩
        obtain ⟨y, hy, hp⟩ := k c hc
        rw [hx] at hy; cases hy
        exact hp.elim hb hr
      | cons c rest =>
        obtain ⟨y, hy, hyp⟩ := (h.stk c).1 (by rw [hs]; exact List.mem_cons_self)
        simp only [hy]
        by_cases hb' : y.phase = .building
        · rw [if_pos hb']
          refine ⟨rfl, ?_⟩
          intro s' e
          simp only [Option.some.injEq] at e
          subst e
          rintro ⟨d, hd, x, hx, hb, hr⟩
          obtain ⟨z, hz, hp⟩ := k d hd
          rcases (get_set hy).1 hx with ⟨rfl, rfl⟩ | ⟨hdc, hx⟩
          · refine hc d (by rw [hs]; rfl) ?_ hd
            rw [h.lg]
            rintro ⟨w, hw, hpw⟩
            rw [hy] at hw; cases hw
            rw [hb'] at hpw; rcases hpw with hpw | hpw <;> cases hpw
          · rw [hx] at hz; cases hz
            exact hp.elim hb hr
        · rw [if_neg hb']
          refine ⟨rfl, ?_⟩
          intro s' e
          simp only [Option.some.injEq] at e
          subst e
          rintro ⟨c, hc, x, hx, hb, hr⟩
          obtain ⟨y, hy, hp⟩ := k c hc
          rw [hx] at hy; cases hy
          exact hp.elim hb hr
    | take c =>
      simp only [step]
      by_cases hm : c ∈ s.ptrs ∨ c ∈ s.stack
      · rw [if_pos hm]
        have hx : ∃ x, s.objs[c]? = some x ∧ (x.phase = .building ∨ x.phase = .ready) := by
          rcases hm with hm | hm
          · exact k c hm
          · obtain ⟨x, hx, hp⟩ := (h.stk c).1 hm
            refine ⟨x, hx, .inl (hp.resolve_right fun hd => ?_)⟩
            exact hc hm ((h.lg c).2 ⟨x, hx, .inl hd⟩)
        obtain ⟨x, hx, hp⟩ := hx
        have ha : addRef x = some { x with count := x.count + 1 } := by
          unfold addRef
          rcases hp with hp | hp <;> rw [hp]
        simp only [hx, Option.bind_some, ha]
        refine ⟨rfl, ?_⟩
        intro s' e
        simp only [Option.some.injEq] at e
        subst e
        rintro ⟨d, hd, z, hz, hb, hr⟩
        rcases (get_set hx).1 hz with ⟨rfl, rfl⟩ | ⟨hdc, hz⟩
        · exact hp.elim hb hr
        · rcases List.mem_cons.1 hd with rfl | hd
          · exact hdc rfl
          · obtain ⟨w, hw, hpw⟩ := k d hd
            rw [hz] at hw; cases hw
            exact hpw.elim hb hr
      · rw [if_neg hm]
        refine ⟨rfl, ?_⟩
        intro s' e
        simp only [Option.some.injEq] at e
        subst e
        rintro ⟨c, hc, x, hx, hb, hr⟩
        obtain ⟨y, hy, hp⟩ := k c hc
        rw [hx] at hy; cases hy
        exact hp.elim hb hr
    | drop c =>
      simp only [step]
      by_cases hm : c ∈ s.ptrs
      · rw [if_pos hm]
        obtain ⟨x, hx, hp⟩ := k c hm
        have hcount : x.count = s.ptrs.count c := h.cnt c x hx
        have hpos : 0 < s.ptrs.count c := List.count_pos_iff.2 hm
        have ha : release x = some { x with count := x.count - 1 } := by
          unfold release
          rcases hp with hp | hp <;> rw [hp] <;> simp only <;> rw [if_neg (by omega)]
        simp only [hx, Option.bind_some, ha, finish]
        by_cases h1 : x.count - 1 = 0
        · rw [if_pos h1]
          have hrdy : x.phase = .ready := by
            refine hp.resolve_left fun hb => ?_
            have := hc ((h.stk c).2 ⟨x, hx, .inl hb⟩) hm
            omega
          simp only [hrdy]
          refine ⟨rfl, ?_⟩
          intro s' e
          simp only [Option.some.injEq] at e
          subst e
          rintro ⟨d, hd, z, hz, hb, hr⟩
          by_cases hdc : d = c
          · subst hdc
            have := List.count_pos_iff.2 hd
            rw [List.count_erase_self] at this
            omega
          · rcases (get_set hx).1 hz with ⟨rfl, _⟩ | ⟨_, hz⟩
            · exact hdc rfl
            · obtain ⟨w, hw, hpw⟩ := k d (List.mem_of_mem_erase hd)
              rw [hz] at hw; cases hw
              exact hpw.elim hb hr
        · rw [if_neg h1]
          refine ⟨rfl, ?_⟩
          intro s' e
          simp only [Option.some.injEq] at e
          subst e
          rintro ⟨d, hd, z, hz, hb, hr⟩
          rcases (get_set hx).1 hz with ⟨rfl, rfl⟩ | ⟨hdc, hz⟩
          · exact hp.elim hb hr
          · obtain ⟨w, hw, hpw⟩ := k d (List.mem_of_mem_erase hd)
            rw [hz] at hw; cases hw
            exact hpw.elim hb hr
      · rw [if_neg hm]
        refine ⟨rfl, ?_⟩
        intro s' e
        simp only [Option.some.injEq] at e
        subst e
        rintro ⟨c, hc, x, hx, hb, hr⟩
        obtain ⟨y, hy, hp⟩ := k c hc
        rw [hx] at hy; cases hy
        exact hp.elim hb hr
  obtain ⟨s', e⟩ := Option.isSome_iff_exists.1 key.1
  exact ⟨s', e, (sound_or_stuck (weak_step h e)).resolve_right (key.2 s' e)⟩

theorem careful_run {s : St} {os : List Op} (h : Weak s) (k : Sound s) (hc : CarefulRun s os) :
    ∃ s', run s os = some s' ∧ Weak s' ∧ Sound s' := by
  induction os generalizing s with
  | nil => exact ⟨s, rfl, h, k⟩
  | cons o os ih =>
    obtain ⟨t, he, kt⟩ := careful_step h k hc.1
    obtain ⟨s', e, hw, ks⟩ := ih (weak_step h he) kt (hc.2 t he)
    exact ⟨s', by simp only [run, he, Option.bind_some, e], hw, ks⟩

theorem careless_step {s s' : St} {o : Op} (h : Weak s) (hc : ¬ Careful s o) (e : step s o = some s') :
    Stuck s' := by
  rcases sound_or_stuck h with k | k
  · cases o with
    | new => exact absurd trivial hc
    | ret => exact absurd trivial hc
    | throw =>
      simp only [Careful, Classical.not_forall, Classical.not_not] at hc
      obtain ⟨c, hs, hl, hp⟩ := hc
      cases hst : s.stack with
      | nil => rw [hst] at hs; cases hs
      | cons d rest =>
        rw [hst] at hs
        simp only [List.head?_cons, Option.some.injEq] at hs
        subst hs
        obtain ⟨y, hy, hyp⟩ := (h.stk d).1 (by rw [hst]; exact List.mem_cons_self)
        have hb : y.phase = .building := hyp.resolve_right fun hd => hl ((h.lg d).2 ⟨y, hy, .inl hd⟩)
        simp only [step, hst, hy, if_pos hb, Option.some.injEq] at e
        subst e
        exact ⟨d, hp, _, (get_set hy).2 (.inl ⟨rfl, rfl⟩), by simp, by simp⟩
    | take c =>
      simp only [Careful, Classical.not_imp, Classical.not_not] at hc
      obtain ⟨hs, hl⟩ := hc
      obtain ⟨x, hx, hp⟩ := (h.lg c).1 hl
      obtain ⟨y, hy, hq⟩ := (h.stk c).1 hs
      rw [hx] at hy; cases hy
      have hd : x.phase = .dying := by
        rcases hp with hp | hp
        · exact hp
        · rw [hp] at hq; rcases hq with hq | hq <;> cases hq
      have ha : addRef x = some { x with count := x.count + 1 } := by unfold addRef; rw [hd]
      simp only [step, if_pos (Or.inr hs : c ∈ s.ptrs ∨ c ∈ s.stack), hx, Option.bind_some, ha, Option.some.injEq] at e
      subst e
      exact ⟨c, List.mem_cons_self, _, (get_set hx).2 (.inl ⟨rfl, rfl⟩), by simp [hd], by simp [hd]⟩
    | drop c =>
      simp only [Careful, Classical.not_imp] at hc
      obtain ⟨hs, hm, hn⟩ := hc
      obtain ⟨x, hx, hp⟩ := k c hm
      obtain ⟨y, hy, hq⟩ := (h.stk c).1 hs
      rw [hx] at hy; cases hy
      have hb : x.phase = .building := by
        rcases hp with hp | hp
        · exact hp
        · rw [hp] at hq; rcases hq with hq | hq <;> cases hq
      have hcount : x.count = s.ptrs.count c := h.cnt c x hx
      have hpos : 0 < s.ptrs.count c := List.count_pos_iff.2 hm
      have h1 : x.count - 1 = 0 := by omega
      have ha : release x = some { x with count := x.count - 1 } := by
        unfold release; rw [hb]; simp only; rw [if_neg (by omega)]
      simp only [step, if_pos hm, hx, Option.bind_some, ha, finish, if_pos h1, hb] at e
      cases e
  · exact stuck_step h k e

/-! ## The property -/

/-- In every careful history there is no undefined behaviour; no destructor is entered twice; each smart pointer leads to an object
that is not being destroyed or gone; and each object that was ever created, whose constructor has returned, has been or is being
destroyed exactly if there is no smart pointer to it. -/
theorem C167_partial (os : List Op) (hc : CarefulRun St.init os) :
    ∃ s, run St.init os = some s ∧ s.log.Nodup ∧ (∀ c ∈ s.ptrs, c < s.objs.length ∧ c ∉ s.log) ∧
      ∀ c x, s.objs[c]? = some x → x.phase ≠ .failed → (c ∈ s.stack → c ∈ s.log) →
        (c ∈ s.log ↔ c ∉ s.ptrs) := by
  obtain ⟨s, e, h, k⟩ := careful_run weak_init (by intro c hc; cases hc) hc
  have hpl : ∀ c ∈ s.ptrs, c ∉ s.log := by
    intro c hp hl
    obtain ⟨x, hx, hq⟩ := k c hp
    obtain ⟨y, hy, hr⟩ := (h.lg c).1 hl
    rw [hx] at hy; cases hy
    rcases hq with hq | hq <;> rw [hq] at hr <;> rcases hr with hr | hr <;> cases hr
  refine ⟨s, e, h.lnd, fun c hp => ⟨h.lt c hp, hpl c hp⟩, ?_⟩
  intro c x hx hf hs
  refine ⟨fun hl hp => hpl c hp hl, fun hp => ?_⟩
  cases hph : x.phase with
  | building => exact hs ((h.stk c).2 ⟨x, hx, .inl hph⟩)
  | ready => exact absurd (h.rdy c x hx hph) hp
  | dying => exact (h.lg c).2 ⟨x, hx, .inl hph⟩
  | freed => exact (h.lg c).2 ⟨x, hx, .inr hph⟩
  | failed => exact absurd hph hf

/-- When all constructors and destructors have returned and all pointers are gone, no object is left. -/
theorem C167_no_leak (os : List Op) (s : St) (e : run St.init os = some s) (hp : s.ptrs = []) (hs : s.stack = []) :
    ∀ (c : Nat) (x : Obj), s.objs[c]? = some x → x.phase = .freed ∨ x.phase = .failed := by
  have h := weak_run weak_init e
  intro c x hx
  cases hph : x.phase with
  | building => have := (h.stk c).2 ⟨x, hx, .inl hph⟩; rw [hs] at this; cases this
  | ready => have := h.rdy c x hx hph; rw [hp] at this; cases this
  | dying => have := (h.stk c).2 ⟨x, hx, .inr hph⟩; rw [hs] at this; cases this
  | freed => exact .inl rfl
  | failed => exact .inr rfl

/-- Being careful is necessary: a history without undefined behaviour after which no pointer is left is careful. -/
theorem C167_necessary (os : List Op) (s : St) (e : run St.init os = some s) (hp : s.ptrs = []) :
    CarefulRun St.init os := by
  have gen : ∀ (os : List Op) (t : St), Weak t → run t os = some s → CarefulRun t os := by
    intro os
    induction os with
    | nil => intro t _ _; trivial
    | cons o os ih =>
      intro t h e
      simp only [run] at e
      cases he : step t o with
      | none => rw [he] at e; simp at e
      | some u =>
        rw [he] at e
        refine ⟨Classical.byContradiction fun hc => ?_, ?_⟩
        · obtain ⟨c, hcp, _⟩ := stuck_run (weak_step h he) (careless_step h hc he) e
          rw [hp] at hcp; cases hcp
        · intro u' he'
          rw [he, Option.some.injEq] at he'
          subst he'
          exact ih u (weak_step h he) e
  exact gen os St.init weak_init e

/-- A constructor that makes a pointer to its object and drops it deletes the object, in every state. -/
theorem C167_constructor_fails (s : St) :
    run s [.new, .take s.objs.length, .drop s.objs.length] = none := by
  simp [run, step, addRef, release, finish]

/-- A destructor that makes a pointer to its object and drops it destroys the object again: whenever the last pointer to an object is dropped. -/
theorem C167_destructor_fails (os : List Op) (s : St) (e : run St.init os = some s) (c : Nat) (hm : s.ptrs.count c = 1)
    (hs : c ∉ s.stack) : run s [.drop c, .take c, .drop c] = none := by
  cases hr : run s [.drop c, .take c, .drop c] with
  | none => rfl
  | some u =>
    exfalso
    have h := weak_run weak_init e
    have hmem : c ∈ s.ptrs := List.count_pos_iff.1 (by omega)
    have hx := List.getElem?_eq_getElem (h.lt c hmem)
    have hl := h.lt c hmem
    have hcnt := h.cnt c _ hx
    cases hph : (s.objs[c]).phase with
    | ready =>
      simp [run, step, hmem, release, hph, hcnt, hm, finish, addRef, hl] at hr
    | building => exact hs ((h.stk c).2 ⟨_, hx, .inl hph⟩)
    | dying => exact hs ((h.stk c).2 ⟨_, hx, .inr hph⟩)
    | freed => simp [run, step, hmem, release, hph, hl] at hr
    | failed => simp [run, step, hmem, release, hph, hl] at hr

/-- A pointer that a destructor leaves behind leads to released memory; dropping or copying it later is undefined. -/
theorem C167_left_fails : run St.init [.new, .ret, .drop 0, .take 0, .ret] =
      some ⟨[⟨.freed, 1⟩], [0], [], [0]⟩ ∧
    run St.init [.new, .ret, .drop 0, .take 0, .ret, .drop 0] = none ∧
    run St.init [.new, .ret, .drop 0, .take 0, .ret, .take 0] = none := by decide

/-- So does one that a constructor left behind before it threw. -/
theorem C167_throw_fails : run St.init [.new, .take 0, .throw] = some ⟨[⟨.failed, 1⟩], [0], [], []⟩ ∧
    run St.init [.new, .take 0, .throw, .drop 0] = none ∧
    run St.init [.new, .take 0, .throw, .take 0] = none := by decide

/-- A constructor may keep a pointer to its object; it may drop one if it keeps another. -/
example : run St.init [.new, .take 0, .take 0, .drop 0, .ret, .drop 0, .drop 0, .ret] =
    some ⟨[⟨.freed, 0⟩], [], [], [0]⟩ := by decide

example : CarefulRun St.init [.new, .take 0, .take 0, .drop 0, .ret, .drop 0, .drop 0, .ret] :=
  C167_necessary _ ⟨[⟨.freed, 0⟩], [], [], [0]⟩ (by decide) rfl

/-- A constructor that makes another object, whose constructor throws; a destructor that makes and destroys an object. -/
example : CarefulRun St.init [.new, .new, .throw, .ret, .drop 0, .new, .ret, .drop 2, .ret, .ret] :=
  C167_necessary _ ⟨[⟨.freed, 0⟩, ⟨.failed, 0⟩, ⟨.freed, 0⟩], [], [], [2, 0]⟩ (by decide) rfl

example : run St.init [.new, .ret] = some ⟨[⟨.ready, 1⟩], [0], [], []⟩ := by decide

end Verif.Ptr.Build
