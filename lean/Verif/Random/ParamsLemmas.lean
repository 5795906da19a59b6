import Verif.Random.Params
import Mathlib.Data.List.Chain

namespace Verif.Random.Params
variable {D : Type}

/-! ## The history of calls, independently of the objects -/

/-- The kinds of the parameter objects, in the order of their creation. -/
def kinds (ops : List (Op D)) : List Kind := ops.filterMap fun | .new k => some k | _ => none

/-- The bounds given to object `i`, in order. -/
def boundsGiven (i : Nat) (ops : List (Op D)) : List D := ops.filterMap fun
  | .setLower j b => if j = i then some b else none
  | .addInterval j b _ => if j = i then some b else none
  | .addBound j b _ => if j = i then some b else none
  | _ => none

/-- The weights given to object `i`, in order. -/
def weightsGiven (i : Nat) (ops : List (Op D)) : List D := ops.filterMap fun
  | .addWeight j w => if j = i then some w else none
  | .addInterval j _ w => if j = i then some w else none
  | .addBound j _ w => if j = i then some w else none
  | _ => none

/-- How many distributions have been created. -/
def created (ops : List (Op D)) : Nat := ops.countP fun | .create _ => true | _ => false

/-! ## Lemmas -/

def World.empty : World D := ⟨[], []⟩

theorem run_append (N : Num D) (s : World D) (a b : List (Op D)) :
    s.run N (a ++ b) = (s.run N a).bind fun t => t.run N b := by
  induction a generalizing s with
  | nil => rfl
  | cons o os ih =>
    simp only [List.cons_append, World.run]
    cases s.step N o with
    | none => rfl
    | some t => exact ih t

theorem run_snoc {N : Num D} {s t : World D} {a : List (Op D)} {o : Op D} :
    s.run N (a ++ [o]) = some t ↔ ∃ u, s.run N a = some u ∧ u.step N o = some t := by
  rw [run_append]
  cases h : s.run N a with
  | none => simp
  | some u =>
    simp only [Option.bind_some, World.run, Option.some.injEq, exists_eq_left']
    cases u.step N o <;> simp

theorem walk_list (l : List D) (n : Nat) (hn : n ≤ 2 ^ 32) :
    walk (fun i => l[i]?) n = if n ≤ l.length then some (l.take n) else none := by
  induction n with
  | zero => simp [walk]
  | succ n ih =>
    have h := ih (by omega)
    have e : u32 n = n := Nat.mod_eq_of_lt (by omega)
    simp only [walk] at h ⊢
    rw [List.range_succ, List.mapM_append, h]
    by_cases c : n < l.length
    · rw [if_pos (by omega), if_pos (by omega), List.take_add_one, List.getElem?_eq_getElem c]
      simp only [List.mapM_cons, List.mapM_nil, e, List.getElem?_eq_getElem c]
      rfl
    · rw [if_neg (show ¬ n + 1 ≤ l.length by omega)]
      by_cases c2 : n ≤ l.length
      · rw [if_pos c2]
        have : l[n]? = none := List.getElem?_eq_none (by omega)
        simp [e, this]
      · rw [if_neg c2]; rfl

/-- What the assertions keep true of a parameter object. -/
structure Good (N : Num D) (p : Param D) : Prop where
  asc : p.bounds.IsChain fun a b => N.lt a b = true
  pos : ∀ w ∈ p.weights, N.nonneg w = true
  nb : p.bounds.length ≤ 2 ^ 32 - 1
  nw : p.weights.length ≤ 2 ^ 32 - 1
  disc : p.kind = .discrete → p.bounds = []
  const : p.kind = .constant → p.weights.length = p.bounds.length - 1
  lin : p.kind = .linear → p.weights.length = p.bounds.length

theorem create_eq {N : Num D} {p : Param D} (g : Good N p) :
    create p = if p.kind = .constant ∧ p.bounds = [] then none else some ⟨p.kind, p.bounds, p.weights⟩ := by
  have nb := g.nb
  have nw := g.nw
  have eb : u32 p.bounds.length = p.bounds.length := Nat.mod_eq_of_lt (by omega)
  have ew : u32 p.weights.length = p.weights.length := Nat.mod_eq_of_lt (by omega)
  have gw : getWeight p = fun i => p.weights[i]? := rfl
  have gb : getBound p = fun i => p.bounds[i]? := rfl
  cases hk : p.kind with
  | discrete =>
    have := g.disc hk
    simp only [create, hk, steps, numWeights, ew, gw]
    rw [walk_list _ _ (by omega)]
    simp [this]
  | linear =>
    have := g.lin hk
    simp only [create, hk, steps, numBounds, eb, gw, gb]
    rw [walk_list _ _ (by omega)]
    rw [if_pos (Nat.le_refl _), List.take_length]
    simp only
    rw [walk_list _ _ (by omega), ← this]
    simp
  | constant =>
    have hc := g.const hk
    have e1 : u32 (p.weights.length + 1) = p.weights.length + 1 := by
      by_cases z : p.bounds.length = 0
      · exact Nat.mod_eq_of_lt (by omega)
      · exact Nat.mod_eq_of_lt (by omega)
    simp only [create, hk, steps, numWeights, ew, e1, gw, gb]
    rw [walk_list _ _ (by omega)]
    by_cases z : p.bounds = []
    · have : p.bounds.length = 0 := by rw [z]; rfl
      rw [if_neg (by omega)]
      simp [z]
    · have zl : p.bounds.length ≠ 0 := fun h => z (List.length_eq_zero_iff.mp h)
      have e2 : p.weights.length + 1 = p.bounds.length := by omega
      rw [e2, if_pos (Nat.le_refl _), List.take_length]
      simp only
      rw [walk_list _ _ (by omega), if_pos (by omega), ← hc]
      simp [z]

theorem chain_snoc {N : Num D} {l : List D} {b : D} (h : l.IsChain fun a b => N.lt a b = true)
    (hb : ∀ x, l.getLast? = some x → N.lt x b = true) : (l ++ [b]).IsChain fun a b => N.lt a b = true := by
  rw [List.isChain_append]
  refine ⟨h, List.isChain_singleton b, ?_⟩
  intro x hx y hy
  have : b = y := by simpa using hy
  subst this
  exact hb x (by simpa using hx)

theorem pos_snoc {N : Num D} {l : List D} {w : D} (h : ∀ x ∈ l, N.nonneg x = true) (hw : N.nonneg w = true) :
    ∀ x ∈ l ++ [w], N.nonneg x = true := by
  intro x hx
  rcases List.mem_append.mp hx with m | m
  · exact h x m
  · rw [List.mem_singleton.mp m]; exact hw

/-- Object `p` is what the calls on it say. -/
structure Is (N : Num D) (ops : List (Op D)) (i : Nat) (p : Param D) : Prop where
  bounds : p.bounds = boundsGiven i ops
  weights : p.weights = weightsGiven i ops
  good : Good N p
  low : p.kind = .constant → p.bounds ≠ [] → ∃ b, .setLower i b ∈ ops

/-- The invariant of the calls. -/
structure Inv (N : Num D) (ops : List (Op D)) (s : World D) : Prop where
  kind : s.params.map (·.kind) = kinds ops
  is : ∀ i p, s.params[i]? = some p → Is N ops i p
  fresh : ∀ i, s.params.length ≤ i → boundsGiven i ops = [] ∧ weightsGiven i ops = []
  count : s.dists.length = created ops

theorem on_some {s t : World D} {i : Nat} {f : Param D → Option (Param D)} (h : s.on i f = some t) :
    ∃ p q, s.params[i]? = some p ∧ f p = some q ∧ t = { s with params := s.params.set i q } := by
  unfold World.on at h
  cases hp : s.params[i]? with
  | none => rw [hp] at h; cases h
  | some p =>
    rw [hp] at h
    obtain ⟨q, hq, e⟩ := Option.map_eq_some_iff.mp h
    exact ⟨p, q, rfl, hq, e.symm⟩

/-- A call that changes object `i` as the history says. -/
theorem inv_set {N : Num D} {ops : List (Op D)} {s : World D} {o : Op D} {i : Nat} {p q : Param D} (v : Inv N ops s)
    (hp : s.params[i]? = some p) (hk : q.kind = p.kind) (gq : Good N q)
    (k0 : kinds [o] = []) (c0 : created [o] = 0)
    (b : q.bounds = p.bounds ++ boundsGiven i [o]) (w : q.weights = p.weights ++ weightsGiven i [o])
    (lo : q.kind = .constant → q.bounds ≠ [] → p.bounds ≠ [] ∨ ∃ b, .setLower i b ∈ [o])
    (nb : ∀ j, j ≠ i → boundsGiven j [o] = []) (nw : ∀ j, j ≠ i → weightsGiven j [o] = []) :
    Inv N (ops ++ [o]) { s with params := s.params.set i q } := by
  have hi : i < s.params.length := (List.getElem?_eq_some_iff.mp hp).1
  have ab : ∀ j, boundsGiven j (ops ++ [o]) = boundsGiven j ops ++ boundsGiven j [o] := fun j => List.filterMap_append
  have aw : ∀ j, weightsGiven j (ops ++ [o]) = weightsGiven j ops ++ weightsGiven j [o] := fun j => List.filterMap_append
  refine ⟨?_, ?_, ?_, ?_⟩
  · have e : kinds (ops ++ [o]) = kinds ops ++ kinds [o] := List.filterMap_append
    rw [e, k0, List.append_nil, ← v.kind]
    apply List.ext_getElem?
    intro j
    simp only [List.getElem?_map, List.getElem?_set]
    by_cases c : i = j
    · subst c; rw [if_pos rfl, if_pos hi, hp, Option.map_some, Option.map_some, hk]
    · simp [c]
  · intro j r hr
    simp only [List.getElem?_set] at hr
    by_cases c : i = j
    · subst c
      simp only [if_true, hi] at hr
      cases hr
      have x := v.is i p hp
      refine ⟨by rw [ab, b, x.bounds], by rw [aw, w, x.weights], gq, fun hc hb => ?_⟩
      rcases lo hc hb with l | ⟨l, hl⟩
      · obtain ⟨l, hl⟩ := x.low (hk ▸ hc) l
        exact ⟨l, List.mem_append_left _ hl⟩
      · exact ⟨l, List.mem_append_right _ hl⟩
    · simp only [c, if_false] at hr
      have x := v.is j r hr
      exact ⟨by rw [ab, nb j (Ne.symm c), List.append_nil, x.bounds],
        by rw [aw, nw j (Ne.symm c), List.append_nil, x.weights], x.good,
        fun hc hb => (x.low hc hb).imp fun _ => List.mem_append_left _⟩
  · intro j hj
    simp only [List.length_set] at hj
    have c : j ≠ i := by omega
    have x := v.fresh j hj
    rw [ab, aw, nb j c, nw j c, x.1, x.2]
    exact ⟨rfl, rfl⟩
  · have e : created (ops ++ [o]) = created ops + created [o] := List.countP_append
    rw [e, c0]
    exact v.count

theorem inv_step {N : Num D} {ops : List (Op D)} {s t : World D} {o : Op D} (v : Inv N ops s) (h : s.step N o = some t) :
    Inv N (ops ++ [o]) t := by
  have ab : ∀ j, boundsGiven j (ops ++ [o]) = boundsGiven j ops ++ boundsGiven j [o] := fun j => List.filterMap_append
  have aw : ∀ j, weightsGiven j (ops ++ [o]) = weightsGiven j ops ++ weightsGiven j [o] := fun j => List.filterMap_append
  have ak : kinds (ops ++ [o]) = kinds ops ++ kinds [o] := List.filterMap_append
  have ac : created (ops ++ [o]) = created ops + created [o] := List.countP_append
  cases o with
  | new k =>
    simp only [World.step, Option.some.injEq] at h
    subst h
    have zb : ∀ j, boundsGiven j [(.new k : Op D)] = [] := fun _ => rfl
    have zw : ∀ j, weightsGiven j [(.new k : Op D)] = [] := fun _ => rfl
    refine ⟨?_, ?_, ?_, ?_⟩
    · rw [ak, ← v.kind]; simp [kinds]
    · intro i p hp
      by_cases c : i < s.params.length
      · rw [List.getElem?_append_left c] at hp
        have x := v.is i p hp
        exact ⟨by rw [ab, zb, List.append_nil, x.bounds], by rw [aw, zw, List.append_nil, x.weights], x.good,
          fun hc hb => (x.low hc hb).imp fun _ => List.mem_append_left _⟩
      · have x := v.fresh i (by omega)
        rw [List.getElem?_append_right (by omega)] at hp
        have m : p = ⟨k, [], []⟩ := by
          have := List.mem_of_getElem? hp
          simpa using this
        subst m
        refine ⟨by rw [ab, zb, x.1]; rfl, by rw [aw, zw, x.2]; rfl, ?_, fun _ h => absurd rfl h⟩
        exact ⟨List.isChain_nil, by simp, by simp, by simp, fun _ => rfl, fun _ => rfl, fun _ => rfl⟩
    · intro i hi
      simp only [List.length_append, List.length_singleton] at hi
      have x := v.fresh i (by omega)
      rw [ab, aw, zb, zw, x.1, x.2]
      exact ⟨rfl, rfl⟩
    · rw [ac]; exact v.count
  | create i =>
    simp only [World.step] at h
    cases hp : s.params[i]? with
    | none => rw [hp] at h; cases h
    | some p =>
      rw [hp] at h
      obtain ⟨d, -, e⟩ := Option.map_eq_some_iff.mp h
      subst e
      have zb : ∀ j, boundsGiven j [(.create i : Op D)] = [] := fun _ => rfl
      have zw : ∀ j, weightsGiven j [(.create i : Op D)] = [] := fun _ => rfl
      refine ⟨?_, ?_, ?_, ?_⟩
      · rw [ak, ← v.kind]; simp [kinds]
      · intro j p hp
        have x := v.is j p hp
        exact ⟨by rw [ab, zb, List.append_nil, x.bounds], by rw [aw, zw, List.append_nil, x.weights], x.good,
          fun hc hb => (x.low hc hb).imp fun _ => List.mem_append_left _⟩
      · intro j hj
        have x := v.fresh j hj
        rw [ab, aw, zb, zw, x.1, x.2]
        exact ⟨rfl, rfl⟩
      · rw [ac, List.length_append, v.count]; rfl
  | addWeight i w =>
    obtain ⟨p, q, hp, hq, e⟩ := on_some (by simpa only [World.step] using h)
    subst e
    have g := (v.is i p hp).good
    unfold addWeight at hq
    cases hk : p.kind <;> rw [hk] at hq <;> simp only [reduceCtorEq] at hq
    split at hq <;> cases hq
    rename_i c
    refine inv_set v hp hk.symm ?_ rfl rfl (by simp [boundsGiven]) (by simp [weightsGiven])
      (fun hc _ => by cases hc) (fun _ _ => rfl)
      (fun j hj => by simp [weightsGiven, Ne.symm hj])
    exact ⟨g.asc, pos_snoc g.pos c.1, g.nb, by simp; omega, fun _ => g.disc hk, nofun, nofun⟩
  | setLower i b =>
    obtain ⟨p, q, hp, hq, e⟩ := on_some (by simpa only [World.step] using h)
    subst e
    have g := (v.is i p hp).good
    unfold setLower at hq
    cases hk : p.kind <;> rw [hk] at hq <;> simp only [reduceCtorEq] at hq
    split at hq <;> cases hq
    rename_i c
    have z : p.bounds = [] := List.length_eq_zero_iff.mp c
    have hc := g.const hk
    refine inv_set v hp hk.symm ?_ rfl rfl (by simp [boundsGiven]) (by simp [weightsGiven])
      (fun _ _ => .inr ⟨b, List.mem_singleton.mpr rfl⟩) (fun j hj => by simp [boundsGiven, Ne.symm hj]) (fun _ _ => rfl)
    exact ⟨by rw [z]; exact List.isChain_singleton b, g.pos, by simp [z], g.nw, nofun,
      fun _ => by rw [hc, z]; rfl, nofun⟩
  | addInterval i b w =>
    obtain ⟨p, q, hp, hq, e⟩ := on_some (by simpa only [World.step] using h)
    subst e
    have g := (v.is i p hp).good
    unfold addInterval at hq
    cases hk : p.kind <;> rw [hk] at hq <;> simp only [reduceCtorEq] at hq
    cases hl : p.bounds.getLast? with
    | none => rw [hl] at hq; cases hq
    | some l =>
      rw [hl] at hq
      simp only at hq
      split at hq <;> cases hq
      rename_i c
      have hc := g.const hk
      have nz : p.bounds.length ≠ 0 := by
        intro z; rw [List.length_eq_zero_iff.mp z] at hl; cases hl
      refine inv_set v hp hk.symm ?_ rfl rfl (by simp [boundsGiven]) (by simp [weightsGiven])
        (fun _ _ => .inl fun z => nz (by rw [z]; rfl)) (fun j hj => by simp [boundsGiven, Ne.symm hj]) (fun j hj => by simp [weightsGiven, Ne.symm hj])
      refine ⟨chain_snoc g.asc ?_, pos_snoc g.pos c.2.2, by simp; omega, by simp; omega, nofun, ?_, nofun⟩
      · intro x hx; rw [hl] at hx; cases hx; exact c.2.1
      · intro _; simp only [List.length_append, List.length_singleton]; omega
  | addBound i b w =>
    obtain ⟨p, q, hp, hq, e⟩ := on_some (by simpa only [World.step] using h)
    subst e
    have g := (v.is i p hp).good
    classical
    unfold addBound at hq
    cases hk : p.kind <;> rw [hk] at hq <;> simp only [reduceCtorEq] at hq
    split at hq <;> cases hq
    rename_i c
    have hc := g.lin hk
    refine inv_set v hp hk.symm ?_ rfl rfl (by simp [boundsGiven]) (by simp [weightsGiven])
      (fun hc _ => by cases hc) (fun j hj => by simp [boundsGiven, Ne.symm hj]) (fun j hj => by simp [weightsGiven, Ne.symm hj])
    exact ⟨chain_snoc g.asc c.2.1, pos_snoc g.pos c.2.2, by simp; omega, by simp; omega, nofun, nofun,
      fun _ => by simp [hc]⟩

theorem inv_run {N : Num D} {ops : List (Op D)} {s : World D} (h : World.empty.run N ops = some s) : Inv N ops s := by
  induction ops using List.reverseRecOn generalizing s with
  | nil =>
    cases h
    exact ⟨rfl, fun i p hp => by simp [World.empty] at hp, fun _ _ => ⟨rfl, rfl⟩, rfl⟩
  | append_singleton a o ih =>
    obtain ⟨u, hu, hs⟩ := run_snoc.mp h
    exact inv_step (ih hu) hs

theorem dists_step {N : Num D} {s t : World D} {o : Op D} (h : s.step N o = some t) : s.dists <+: t.dists := by
  have on : ∀ {i f}, s.on i f = some t → s.dists <+: t.dists := by
    intro i f h
    obtain ⟨p, q, -, -, e⟩ := on_some h
    subst e; exact List.prefix_refl _
  cases o with
  | new k => simp only [World.step, Option.some.injEq] at h; subst h; exact List.prefix_refl _
  | create i =>
    simp only [World.step] at h
    cases hp : s.params[i]? with
    | none => rw [hp] at h; cases h
    | some p =>
      rw [hp] at h
      obtain ⟨d, -, e⟩ := Option.map_eq_some_iff.mp h
      subst e; exact List.prefix_append _ _
  | addWeight i w => exact on h
  | setLower i b => exact on h
  | addInterval i b w => exact on h
  | addBound i b w => exact on h

theorem dists_run {N : Num D} {s t : World D} {ops : List (Op D)} (h : s.run N ops = some t) : s.dists <+: t.dists := by
  induction ops generalizing s with
  | nil => cases h; exact List.prefix_refl _
  | cons o os ih =>
    simp only [World.run] at h
    cases hs : s.step N o with
    | none => rw [hs] at h; cases h
    | some u => rw [hs] at h; exact (dists_step hs).trans (ih h)

/-- A distribution made of a good object. -/
structure Sound (N : Num D) (d : Dist D) : Prop where
  asc : d.bounds.IsChain fun a b => N.lt a b = true
  pos : ∀ w ∈ d.weights, N.nonneg w = true
  nb : d.bounds.length < 2 ^ 32
  nw : d.weights.length < 2 ^ 32
  shape : match d.kind with
    | .discrete => d.bounds = []
    | .constant => d.bounds.length = d.weights.length + 1
    | .linear => d.bounds.length = d.weights.length

theorem sound_run {N : Num D} {ops : List (Op D)} {s : World D} (h : World.empty.run N ops = some s) :
    ∀ d ∈ s.dists, Sound N d := by
  induction ops using List.reverseRecOn generalizing s with
  | nil => cases h; intro d hd; cases hd
  | append_singleton a o ih =>
    obtain ⟨u, hu, hs⟩ := run_snoc.mp h
    have ih := ih hu
    have on : ∀ {i f}, u.on i f = some s → ∀ d ∈ s.dists, Sound N d := by
      intro i f h
      obtain ⟨p, q, -, -, e⟩ := on_some h
      subst e; exact ih
    cases o with
    | new k => simp only [World.step, Option.some.injEq] at hs; subst hs; exact ih
    | addWeight i w => exact on hs
    | setLower i b => exact on hs
    | addInterval i b w => exact on hs
    | addBound i b w => exact on hs
    | create i =>
      simp only [World.step] at hs
      cases hp : u.params[i]? with
      | none => rw [hp] at hs; cases hs
      | some p =>
        rw [hp] at hs
        obtain ⟨d, hd, e⟩ := Option.map_eq_some_iff.mp hs
        subst e
        have g := ((inv_run hu).is i p hp).good
        rw [create_eq g] at hd
        intro x hx
        rcases List.mem_append.mp hx with m | m
        · exact ih x m
        · rw [List.mem_singleton.mp m]
          split at hd <;> cases hd
          rename_i c
          have nb := g.nb
          have nw := g.nw
          refine ⟨g.asc, g.pos, by simp only; omega, by simp only; omega, ?_⟩
          cases hk : p.kind with
          | discrete => exact g.disc hk
          | linear => exact (g.lin hk).symm
          | constant =>
            have hc := g.const hk
            have nz : p.bounds.length ≠ 0 := fun z => c ⟨hk, List.length_eq_zero_iff.mp z⟩
            simp only; omega

theorem given_of_lower {ops : List (Op D)} {i : Nat} {b : D} (h : .setLower i b ∈ ops) : boundsGiven i ops ≠ [] := by
  have m : b ∈ boundsGiven i ops := List.mem_filterMap.mpr ⟨_, h, by simp⟩
  exact List.ne_nil_of_mem m

/-- The kind and contents of the object that a call finds. -/
theorem found {N : Num D} {ops : List (Op D)} {s : World D} (v : Inv N ops s) (i : Nat) (k : Kind) :
    (kinds ops)[i]? = some k ↔ ∃ p, s.params[i]? = some p ∧ p.kind = k := by
  rw [← v.kind, List.getElem?_map, Option.map_eq_some_iff]

theorem on_isSome {s : World D} {i : Nat} {f : Param D → Option (Param D)} :
    (s.on i f).isSome ↔ ∃ p, s.params[i]? = some p ∧ (f p).isSome := by
  unfold World.on
  cases s.params[i]? <;> simp

end Verif.Random.Params
