import Verif.Random.ParamsLemmas

/-!
C132: the parameters of discrete, piecewise constant and piecewise linear distributions.  `kinds`, `boundsGiven`, `weightsGiven` and
`created` (ParamsLemmas) read the history of calls only.
-/
namespace Verif.Random.Params
variable {D : Type}

/-- A distribution is made of exactly the bounds and weights that its parameter object was given before the creation, in the order they
were given, whatever is done to that object and to others before and afterwards. -/
theorem C132_sees (N : Num D) (pre post : List (Op D)) (i : Nat) (s : World D)
    (h : World.empty.run N (pre ++ .create i :: post) = some s) :
    ∃ k, (kinds pre)[i]? = some k ∧
      s.dists[created pre]? = some ⟨k, boundsGiven i pre, weightsGiven i pre⟩ := by
  rw [run_append] at h
  cases hu : World.empty.run N pre with
  | none => rw [hu] at h; cases h
  | some u =>
    rw [hu] at h
    simp only [Option.bind_some, World.run] at h
    cases ht : u.step N (.create i) with
    | none => rw [ht] at h; cases h
    | some t =>
      rw [ht] at h
      have v := inv_run hu
      simp only [World.step] at ht
      cases hp : u.params[i]? with
      | none => rw [hp] at ht; cases ht
      | some p =>
        rw [hp] at ht
        obtain ⟨d, hd, e⟩ := Option.map_eq_some_iff.mp ht
        have x := v.is i p hp
        rw [create_eq x.good] at hd
        split at hd <;> cases hd
        refine ⟨p.kind, by rw [← v.kind]; simp [hp], ?_⟩
        obtain ⟨r, hr⟩ := dists_run h
        rw [← hr, ← e, ← x.bounds, ← x.weights, ← v.count]
        simp

/-- Creating a distribution succeeds exactly when the parameter object exists and, if it is piecewise constant, has its lower bound. -/
theorem C132_create (N : Num D) (ops : List (Op D)) (i : Nat) (s : World D) (h : World.empty.run N ops = some s) :
    (s.step N (.create i)).isSome ↔
      ∃ k, (kinds ops)[i]? = some k ∧ (k = .constant → ∃ b, Op.setLower i b ∈ ops) := by
  have v := inv_run h
  simp only [World.step, found v]
  cases hp : s.params[i]? with
  | none => simp
  | some p =>
    have x := v.is i p hp
    simp only [Option.isSome_map, create_eq x.good]
    constructor
    · intro c
      refine ⟨p.kind, ⟨p, rfl, rfl⟩, fun hk => x.low hk fun z => ?_⟩
      rw [if_pos ⟨hk, z⟩] at c
      cases c
    · rintro ⟨k, ⟨q, hq, hk⟩, c⟩
      cases hq
      rw [if_neg]
      · rfl
      · rintro ⟨e, z⟩
        obtain ⟨b, hb⟩ := c (hk ▸ e)
        exact given_of_lower hb (x.bounds ▸ z)

/-- A weight is accepted exactly by a discrete parameter object, if it is not negative and the object has fewer than 2³² - 1 of them. -/
theorem C132_addWeight (N : Num D) (ops : List (Op D)) (i : Nat) (w : D) (s : World D) (h : World.empty.run N ops = some s) :
    (s.step N (.addWeight i w)).isSome ↔
      (kinds ops)[i]? = some .discrete ∧ N.nonneg w = true ∧ (weightsGiven i ops).length < 2 ^ 32 - 1 := by
  have v := inv_run h
  simp only [World.step, found v, on_isSome]
  constructor
  · rintro ⟨p, hp, c⟩
    unfold addWeight at c
    cases hk : p.kind <;> rw [hk] at c <;> simp only [Option.isSome_none, Bool.false_eq_true] at c
    split at c
    · rename_i d
      exact ⟨⟨p, hp, hk⟩, d.1, (v.is i p hp).weights ▸ d.2⟩
    · cases c
  · rintro ⟨⟨p, hp, hk⟩, a, b⟩
    refine ⟨p, hp, ?_⟩
    unfold addWeight
    rw [hk]
    simp only
    rw [if_pos ⟨a, (v.is i p hp).weights ▸ b⟩]
    rfl

/-- The lower bound is accepted exactly by a piecewise constant parameter object, once. -/
theorem C132_setLower (N : Num D) (ops : List (Op D)) (i : Nat) (b : D) (s : World D) (h : World.empty.run N ops = some s) :
    (s.step N (.setLower i b)).isSome ↔ (kinds ops)[i]? = some .constant ∧ ∀ c, Op.setLower i c ∉ ops := by
  have v := inv_run h
  simp only [World.step, found v, on_isSome]
  constructor
  · rintro ⟨p, hp, c⟩
    unfold setLower at c
    cases hk : p.kind <;> rw [hk] at c <;> simp only [Option.isSome_none, Bool.false_eq_true] at c
    split at c
    · rename_i d
      refine ⟨⟨p, hp, hk⟩, fun l hl => given_of_lower hl ?_⟩
      rw [← (v.is i p hp).bounds]
      exact List.length_eq_zero_iff.mp d
    · cases c
  · rintro ⟨⟨p, hp, hk⟩, a⟩
    refine ⟨p, hp, ?_⟩
    unfold setLower
    rw [hk]
    simp only
    rw [if_pos]
    · rfl
    · by_cases z : p.bounds = []
      · rw [z]; rfl
      · obtain ⟨l, hl⟩ := (v.is i p hp).low hk z
        exact absurd hl (a l)

/-- An interval is accepted exactly by a piecewise constant parameter object that has a bound, the last one below the new one, and fewer
than 2³² - 1 bounds, if its weight is not negative. -/
theorem C132_addInterval (N : Num D) (ops : List (Op D)) (i : Nat) (b w : D) (s : World D)
    (h : World.empty.run N ops = some s) :
    (s.step N (.addInterval i b w)).isSome ↔
      (kinds ops)[i]? = some .constant ∧ (∃ l, (boundsGiven i ops).getLast? = some l ∧ N.lt l b = true) ∧
        N.nonneg w = true ∧ (boundsGiven i ops).length < 2 ^ 32 - 1 := by
  have v := inv_run h
  simp only [World.step, found v, on_isSome]
  constructor
  · rintro ⟨p, hp, c⟩
    have e := (v.is i p hp).bounds
    unfold addInterval at c
    cases hk : p.kind <;> rw [hk] at c <;> simp only [Option.isSome_none, Bool.false_eq_true] at c
    cases hl : p.bounds.getLast? with
    | none => rw [hl] at c; cases c
    | some l =>
      rw [hl] at c
      simp only at c
      split at c
      · rename_i d
        exact ⟨⟨p, hp, hk⟩, ⟨l, e ▸ hl, d.2.1⟩, d.2.2, e ▸ d.1⟩
      · cases c
  · rintro ⟨⟨p, hp, hk⟩, ⟨l, hl, a⟩, c, d⟩
    have e := (v.is i p hp).bounds
    refine ⟨p, hp, ?_⟩
    unfold addInterval
    rw [hk]
    simp only
    rw [e, hl]
    simp only
    rw [if_pos ⟨d, a, c⟩]
    rfl

/-- A bound is accepted exactly by a piecewise linear parameter object whose last bound, if any, is below the new one, and that has fewer
than 2³² - 1 bounds, if its weight is not negative. -/
theorem C132_addBound (N : Num D) (ops : List (Op D)) (i : Nat) (b w : D) (s : World D)
    (h : World.empty.run N ops = some s) :
    (s.step N (.addBound i b w)).isSome ↔
      (kinds ops)[i]? = some .linear ∧ (∀ l, (boundsGiven i ops).getLast? = some l → N.lt l b = true) ∧
        N.nonneg w = true ∧ (boundsGiven i ops).length < 2 ^ 32 - 1 := by
  have v := inv_run h
  simp only [World.step, found v, on_isSome]
  constructor
  · rintro ⟨p, hp, c⟩
    have e := (v.is i p hp).bounds
    unfold addBound at c
    cases hk : p.kind <;> rw [hk] at c <;> simp only [Option.isSome_none, Bool.false_eq_true] at c
    split at c
    · rename_i d
      exact ⟨⟨p, hp, hk⟩, e ▸ d.2.1, d.2.2, e ▸ d.1⟩
    · cases c
  · rintro ⟨⟨p, hp, hk⟩, a, c, d⟩
    have e := (v.is i p hp).bounds
    refine ⟨p, hp, ?_⟩
    unfold addBound
    rw [hk]
    simp only
    rw [if_pos ⟨e ▸ d, e ▸ a, c⟩]
    rfl

/-- What every distribution is made of: bounds each below the next, weights that are not negative, fewer than 2³² of either, and as many
weights as its kind calls for: as many as there are intervals between the bounds, or as there are bounds. -/
theorem C132_shape (N : Num D) (ops : List (Op D)) (s : World D) (h : World.empty.run N ops = some s) (d : Dist D)
    (hd : d ∈ s.dists) :
    (∀ i a b, d.bounds[i]? = some a → d.bounds[i + 1]? = some b → N.lt a b = true) ∧ (∀ w ∈ d.weights, N.nonneg w = true) ∧
      d.bounds.length < 2 ^ 32 ∧ d.weights.length < 2 ^ 32 ∧
      (d.kind = .discrete → d.bounds = []) ∧ (d.kind = .constant → d.bounds.length = d.weights.length + 1) ∧
      (d.kind = .linear → d.bounds.length = d.weights.length) := by
  have g := sound_run h d hd
  have sh := g.shape
  refine ⟨?_, g.pos, g.nb, g.nw, fun k => by rw [k] at sh; exact sh, fun k => by rw [k] at sh; exact sh,
    fun k => by rw [k] at sh; exact sh⟩
  intro i a b ha hb
  obtain ⟨h1, e1⟩ := List.getElem?_eq_some_iff.mp ha
  obtain ⟨h2, e2⟩ := List.getElem?_eq_some_iff.mp hb
  have := List.isChain_iff_getElem.mp g.asc i h2
  rw [e1, e2] at this
  exact this

/-! Two objects; the first one goes on after a distribution was made of it. -/

private def ints : Num Int := ⟨fun a b => decide (a < b), fun a => decide (0 ≤ a)⟩
private def calls : List (Op Int) :=
  [.new .constant, .new .discrete, .setLower 0 (-3), .addInterval 0 5 2, .addWeight 1 7, .create 0, .addInterval 0 9 0, .create 1,
    .create 0]

example : (World.empty.run ints calls).map (·.dists) =
    some [⟨.constant, [-3, 5], [2]⟩, ⟨.discrete, [], [7]⟩, ⟨.constant, [-3, 5, 9], [2, 0]⟩] := by decide
/-- Without a lower bound, no piecewise constant distribution. -/
example : (World.empty.run ints [.new .constant, .create 0]).isNone = true := by decide
/-- A piecewise linear one without bounds is handed empty sequences. -/
example : (World.empty.run ints [.new .linear, .create 0]).map (·.dists) = some [⟨.linear, [], []⟩] := by decide

end Verif.Random.Params
