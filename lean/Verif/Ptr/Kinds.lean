import Verif.Ptr.Props
set_option linter.unusedSimpArgs false
set_option linter.unusedVariables false
/-!
Who counts the references to an object, by the call that made it: C49 and C51 in terms of the history alone.
-/
namespace Verif.Ptr

/-- The parts of the object made by an operation, if it makes one. -/
def made (s : State) : Op → Shape
  | .make _ ms _ => [.self :: ms.flatMap (Member.parts ⟨s.cells.length, 0⟩)]
  | .makeAgg _ ctrl ms _ => [.self :: .to ctrl :: ms.flatMap (Member.parts ⟨s.cells.length, 1⟩)]
  | .makeStatic _ _ => [[.never]]
  | _ => []

theorem step_grows {s s' : State} {o : Op} (hI : Inv s [] none) (h : s.step o = some s') : s'.shape = s.shape ++ made s o := by
  have assign_shape : ∀ {t t' : State} {l p b x}, Inv t [] x → t.assign l p b = some t' → t'.shape = t.shape := by
    intro t t' l p b x hI h
    unfold State.assign at h
    split at h
    · cases h
    · rename_i s1 hr
      have := (reset_spec hI hr).2.2.1
      split at h
      · obtain ⟨_, ⟨_, rfl⟩ | ⟨c, y, _, hy, _, rfl⟩⟩ := addRef_cases h
        · rw [shape_put, this]
        · rw [shape_set (y := { y with count := y.count + 1 }) hy rfl, shape_put, this]
      · cases h; rw [shape_put, this]
  have addRef_shape : ∀ {t t' : State} {r}, t.addRef r = some t' → t'.shape = t.shape := by
    intro t t' r h
    obtain ⟨_, ⟨_, rfl⟩ | ⟨c, y, _, hy, _, rfl⟩⟩ := addRef_cases h
    · rfl
    · exact shape_set hy rfl
  have keep : ∀ {t : State}, t.shape = s.shape → t.shape = s.shape ++ [] := fun e => by rw [e, List.append_nil]
  cases o with
  | newVar => cases h; exact keep rfl
  | make l members nf =>
    unfold State.step at h; dsimp only at h
    rw [assign_shape (alloc_inv hI) h, shape_alloc]; rfl
  | makeAgg l ctrl members nf =>
    unfold State.step at h; dsimp only at h
    split at h
    · rw [assign_shape (alloc_inv hI) h, shape_alloc]; rfl
    · cases h
  | makeStatic l nf =>
    unfold State.step at h; dsimp only at h
    rw [assign_shape (alloc_inv hI) h, shape_alloc]; rfl
  | copy dst src =>
    unfold State.step at h; dsimp only at h
    split at h
    · cases h
    · exact keep (assign_shape hI h)
  | move dst src =>
    unfold State.step at h; dsimp only at h
    split at h
    · cases h
    · split at h
      · cases h
      · rename_i s1 h1
        split at h
        · cases h; exact keep (shape_put.trans (assign_shape hI h1))
        · cases h
  | query dst src res =>
    unfold State.step at h; dsimp only at h
    split at h
    · cases h
    · split at h
      · cases h
      · rename_i s1 hr
        have e := (reset_spec hI hr).2.2.1
        split at h
        · cases h; exact keep e
        · split at h
          · cases h; exact keep e
          · cases h
        · split at h
          · exact keep ((addRef_shape h).trans (shape_put.trans e))
          · cases h
  | moveQuery dst src res =>
    unfold State.step at h; dsimp only at h
    split at h
    · cases h
    · split at h
      · cases h
      · split at h
        · cases h
        · rename_i s1 hr
          have a := reset_spec hI hr
          have e := a.2.2.1
          split at h
          · split at h
            · cases h; exact keep e
            · cases h
          · split at h
            · cases h; exact keep e
            · cases h
          · rename_i q _
            split at h
            · split at h
              · cases h
              · rename_i s2 h2
                have hI2 := (addRef_inv a.1 (same_put _ _ _) (fun p => by
                  have := tally_put (p := p) (v := some q) (P := []) a.2.1
                  have e : ind p none = 0 := rfl
                  omega) h2 (Or.inl rfl)).1
                exact keep ((reset_spec hI2 h).2.2.1.trans ((addRef_shape h2).trans (shape_put.trans e)))
            · cases h
  | reset l => exact keep (reset_spec hI h).2.2.1
  | detach l =>
    unfold State.step at h; dsimp only at h
    split at h
    · cases h
    · cases h; exact keep rfl
    · cases h; exact keep ((same_put s _ _).trans (same_raw _ _)).shape
  | attach l r =>
    unfold State.step at h; dsimp only at h
    split at h
    · split at h
      · cases h
      · rename_i s1 hr
        cases h; exact keep (((same_put s1 _ _).trans (same_raw _ _)).shape.trans (reset_spec hI hr).2.2.1)
    · cases h
  | fromRaw l r =>
    unfold State.step at h; dsimp only at h
    exact keep (assign_shape hI h)
  | swap l m =>
    unfold State.step at h; dsimp only at h
    split at h
    · cases h; exact keep ((same_put s _ _).trans (same_put _ _ _)).shape
    · cases h
  | addRef r =>
    unfold State.step at h; dsimp only at h
    split at h
    · cases h
    · rename_i s1 h1; cases h; exact keep ((same_raw s1 _).shape.trans (addRef_shape h1))
  | release r =>
    unfold State.step at h; dsimp only at h
    split at h
    · exact keep (drain_later h).shape
    · cases h


theorem run_grows : ∀ (os : List Op) {s s' : State}, Inv s [] none → s.run os = some s' → ∃ t, s'.shape = s.shape ++ t
  | [], s, s', hI, h => by cases h; exact ⟨[], by simp⟩
  | o :: os, s, s', hI, h => by
    unfold State.run at h
    split at h
    · cases h
    · rename_i s1 h1
      obtain ⟨t, ht⟩ := run_grows os (step_inv hI h1) h
      exact ⟨made s o ++ t, by rw [ht, step_grows hI h1, List.append_assoc]⟩

theorem run_append : ∀ (os os' : List Op) (s : State), s.run (os ++ os') = (s.run os).bind (·.run os')
  | [], os', s => rfl
  | o :: os, os', s => by
    cases e : s.step o with
    | none => simp only [List.cons_append, State.run, e, Option.bind_none]
    | some s1 => simp only [List.cons_append, State.run, e]; exact run_append os os' s1

theorem counter_append_list {r : Ref} : ∀ (t sh : Shape), r.cell < sh.length → counter (sh ++ t) r = counter sh r
  | [], sh, h => by rw [List.append_nil]
  | p :: t, sh, h => by
    rw [show sh ++ p :: t = (sh ++ [p]) ++ t by simp, counter_append_list t (sh ++ [p]) (by simp; omega), counter_append sh p r h]

/-- After a history with `o` in it: the parts before, the parts made by `o`, and later ones. -/
theorem shape_split {os os' : List Op} {o : Op} {s1 s : State} (h1 : Reaches os s1) (h : Reaches (os ++ o :: os') s) :
    ∃ t, s.shape = s1.shape ++ made s1 o ++ t ∧ s1.shape.length = s1.cells.length := by
  unfold Reaches at h h1
  rw [run_append, h1] at h
  have hI := run_inv os init_inv h1
  dsimp only [Option.bind_some] at h
  unfold State.run at h
  split at h
  · cases h
  · rename_i s2 h2
    obtain ⟨t, ht⟩ := run_grows os' (step_inv hI h2) h
    exact ⟨t, by rw [ht, step_grows hI h2], by simp [State.shape]⟩

/-- How many objects inside of an implementation class a member makes: a mutual object, or navigator and aggregated object. -/
def span : Member → Nat
  | .mutual => 1
  | .aggregated => 2

/-- Where the objects of member number `i` begin. -/
def place (base : Nat) (ms : List Member) (i : Nat) : Nat := base + ((ms.take i).map span).sum

theorem parts_get (impl : Ref) : ∀ (ms : List Member) (i j : Nat) (m : Member), ms[i]? = some m → j < span m →
    (ms.flatMap (Member.parts impl))[((ms.take i).map span).sum + j]? = (Member.parts impl m)[j]?
  | [], i, j, m, h, _ => by simp at h
  | a :: t, 0, j, m, h, hj => by
    simp at h; subst h
    simp only [List.take_zero, List.map_nil, List.sum_nil, Nat.zero_add, List.flatMap_cons]
    rw [List.getElem?_append_left (by cases a <;> simpa [Member.parts, span] using hj)]
  | a :: t, i + 1, j, m, h, hj => by
    simp at h
    have := parts_get impl t i j m h hj
    have hs : (Member.parts impl a).length = span a := by cases a <;> rfl
    simp only [List.take_succ_cons, List.map_cons, List.sum_cons, List.flatMap_cons]
    rw [List.getElem?_append_right (by omega), hs, ← this]
    congr 1; omega

/-- C49: the object made by `new Object<T>` counts its own references, in every later state, and so does it those to the mutual
objects and to the interfaces of the aggregated objects that are members of it; references to the navigators of the latter are not
counted. -/
theorem C49_object {os os' : List Op} {l : Loc} {ms : List Member} {nf : Nat} {s1 s : State} (h1 : Reaches os s1)
    (h : Reaches (os ++ .make l ms nf :: os') s) :
    counter s.shape ⟨s1.cells.length, 0⟩ = some s1.cells.length ∧
    (∀ i, ms[i]? = some .mutual → counter s.shape ⟨s1.cells.length, place 1 ms i⟩ = some s1.cells.length) ∧
    ∀ i, ms[i]? = some .aggregated → counter s.shape ⟨s1.cells.length, place 1 ms i⟩ = none ∧
      counter s.shape ⟨s1.cells.length, place 1 ms i + 1⟩ = some s1.cells.length := by
  obtain ⟨t, ht, hlen⟩ := shape_split h1 h
  have hg : s.shape[s1.cells.length]? = some (.self :: ms.flatMap (Member.parts ⟨s1.cells.length, 0⟩)) := by
    rw [ht, List.append_assoc, List.getElem?_append_right (by omega), hlen]; simp [made]
  have h0 : counter s.shape ⟨s1.cells.length, 0⟩ = some s1.cells.length := by
    rw [counter_eq]; dsimp only; rw [hg]; rfl
  have hat : ∀ i j m, ms[i]? = some m → j < span m →
      (Deleg.self :: ms.flatMap (Member.parts ⟨s1.cells.length, 0⟩))[place 1 ms i + j]? = (Member.parts ⟨s1.cells.length, 0⟩ m)[j]? := by
    intro i j m hi hj
    unfold place
    rw [show 1 + ((ms.take i).map span).sum + j = (((ms.take i).map span).sum + j) + 1 by omega, List.getElem?_cons_succ]
    exact parts_get _ ms i j m hi hj
  have hto : ∀ p, (Deleg.self :: ms.flatMap (Member.parts ⟨s1.cells.length, 0⟩))[p]? = some (.to ⟨s1.cells.length, 0⟩) → 0 < p →
      counter s.shape ⟨s1.cells.length, p⟩ = some s1.cells.length := by
    intro p hp hp0
    rw [counter_eq]; dsimp only; rw [hg]; dsimp only [Option.bind_some]; rw [hp]; dsimp only
    rw [if_pos (show Ref.before ⟨s1.cells.length, 0⟩ ⟨s1.cells.length, p⟩ from Or.inr ⟨rfl, hp0⟩)]; exact h0
  have pos : ∀ i, 0 < place 1 ms i := fun i => by unfold place; omega
  refine ⟨h0, fun i hi => hto _ ?_ (pos i), fun i hi => ⟨?_, hto _ ?_ (by omega)⟩⟩
  · exact hat i 0 .mutual hi (by decide)
  · have := hat i 0 .aggregated hi (by decide)
    rw [counter_eq]; dsimp only; rw [hg]; dsimp only [Option.bind_some]
    rw [show place 1 ms i = place 1 ms i + 0 from rfl, this]; rfl
  · exact hat i 1 .aggregated hi (by decide)

/-- C51: the navigator of an object made by `new AggObject<T>(controller)` counts the references to itself; in every later state
the references to the interfaces of the aggregated object, to its mutual objects and to the interfaces of further aggregated
objects inside of it are counted where those to the controller are counted.  So whoever holds one keeps the controller's object
alive. -/
theorem C51_aggregated {os os' : List Op} {l : Loc} {ctrl : Ref} {ms : List Member} {nf : Nat} {s1 s : State} (h1 : Reaches os s1)
    (h : Reaches (os ++ .makeAgg l ctrl ms nf :: os') s) :
    counter s.shape ctrl = counter s1.shape ctrl ∧
    counter s.shape ⟨s1.cells.length, 0⟩ = some s1.cells.length ∧
    counter s.shape ⟨s1.cells.length, 1⟩ = counter s1.shape ctrl ∧
    (∀ i, ms[i]? = some .mutual → counter s.shape ⟨s1.cells.length, place 2 ms i⟩ = counter s1.shape ctrl) ∧
    (∀ i, ms[i]? = some .aggregated → counter s.shape ⟨s1.cells.length, place 2 ms i⟩ = none ∧
      counter s.shape ⟨s1.cells.length, place 2 ms i + 1⟩ = counter s1.shape ctrl) ∧
    ∀ k c, s.get k = some (some ⟨s1.cells.length, 1⟩) → counter s1.shape ctrl = some c →
      ∃ y, s.cells[c]? = some y ∧ y.alive = true := by
  have hlt : ctrl.cell < s1.cells.length := by
    have h' := h
    unfold Reaches at h' h1
    rw [run_append, h1] at h'
    dsimp only [Option.bind_some] at h'
    unfold State.run at h'
    split at h'
    · cases h'
    · rename_i s2 h2
      unfold State.step at h2; dsimp only at h2
      split at h2
      · assumption
      · cases h2
  obtain ⟨t, ht, hlen⟩ := shape_split h1 h
  have hg : s.shape[s1.cells.length]? = some (.self :: .to ctrl :: ms.flatMap (Member.parts ⟨s1.cells.length, 1⟩)) := by
    rw [ht, List.append_assoc, List.getElem?_append_right (by omega), hlen]; simp [made]
  have hk : counter s.shape ctrl = counter s1.shape ctrl := by
    rw [ht, List.append_assoc, counter_append_list _ _ (by omega)]
  have h0 : counter s.shape ⟨s1.cells.length, 0⟩ = some s1.cells.length := by
    rw [counter_eq]; dsimp only; rw [hg]; rfl
  have hone : counter s.shape ⟨s1.cells.length, 1⟩ = counter s1.shape ctrl := by
    rw [counter_eq]; dsimp only; rw [hg]
    show (if ctrl.before ⟨s1.cells.length, 1⟩ then counter s.shape ctrl else none) = _
    rw [if_pos (show Ref.before ctrl ⟨s1.cells.length, 1⟩ from Or.inl hlt), hk]
  have hat : ∀ i j m, ms[i]? = some m → j < span m →
      (Deleg.self :: .to ctrl :: ms.flatMap (Member.parts ⟨s1.cells.length, 1⟩))[place 2 ms i + j]?
        = (Member.parts ⟨s1.cells.length, 1⟩ m)[j]? := by
    intro i j m hi hj
    unfold place
    rw [show 2 + ((ms.take i).map span).sum + j = (((ms.take i).map span).sum + j) + 1 + 1 by omega, List.getElem?_cons_succ,
      List.getElem?_cons_succ]
    exact parts_get _ ms i j m hi hj
  have hto : ∀ p, (Deleg.self :: .to ctrl :: ms.flatMap (Member.parts ⟨s1.cells.length, 1⟩))[p]? = some (.to ⟨s1.cells.length, 1⟩) →
      1 < p → counter s.shape ⟨s1.cells.length, p⟩ = counter s1.shape ctrl := by
    intro p hp hp0
    rw [counter_eq]; dsimp only; rw [hg]; dsimp only [Option.bind_some]; rw [hp]; dsimp only
    rw [if_pos (show Ref.before ⟨s1.cells.length, 1⟩ ⟨s1.cells.length, p⟩ from Or.inr ⟨rfl, hp0⟩)]; exact hone
  have pos : ∀ i, 1 < place 2 ms i := fun i => by unfold place; omega
  refine ⟨hk, h0, hone, fun i hi => hto _ ?_ (pos i), fun i hi => ⟨?_, hto _ ?_ (by have := pos i; omega)⟩, fun k c hl hc => ?_⟩
  · exact hat i 0 .mutual hi (by decide)
  · have := hat i 0 .aggregated hi (by decide)
    rw [counter_eq]; dsimp only; rw [hg]; dsimp only [Option.bind_some]
    rw [show place 2 ms i = place 2 ms i + 0 from rfl, this]; rfl
  · exact hat i 1 .aggregated hi (by decide)
  · exact C49_no_dangling h hl (hone.trans hc)

/-- C49: references to an object with static lifetime are not counted. -/
theorem C49_static {os os' : List Op} {l : Loc} {nf : Nat} {s1 s : State} (h1 : Reaches os s1)
    (h : Reaches (os ++ .makeStatic l nf :: os') s) : counter s.shape ⟨s1.cells.length, 0⟩ = none := by
  obtain ⟨t, ht, hlen⟩ := shape_split h1 h
  have hg : s.shape[s1.cells.length]? = some [.never] := by
    rw [ht, List.append_assoc, List.getElem?_append_right (by omega), hlen]; simp [made]
  rw [counter_eq]; dsimp only; rw [hg]; rfl

/-- A controller that aggregates an object, and is then only kept by a reference to the aggregated object's interface. -/
def aggregate : List Op :=
  [.newVar, .newVar, .make (.var 0) [] 1, .makeAgg (.field 0 0) ⟨0, 0⟩ [] 0, .query (.var 1) (.var 0) (some ⟨1, 1⟩), .reset (.var 0)]

def aggregated : State :=
  ⟨[⟨true, 1, [.self], [some ⟨1, 0⟩]⟩, ⟨true, 1, [.self, .to ⟨0, 0⟩], []⟩], [none, some ⟨1, 1⟩], []⟩

theorem aggregate_run : Reaches aggregate aggregated := by
  unfold Reaches aggregate aggregated
  simp [State.run, State.init, State.step, State.assign, State.reset, State.alloc, State.get, State.put, State.addRef, live_eq,
    State.shape, counter_eq, drain_cons, drain_nil, State.release, Ref.before]

example : aggregated.live ⟨1, 1⟩ = true :=
  C51_usable aggregate_run (l := .var 1) (c := 0) (k := 0) (y := ⟨true, 1, [.self, .to ⟨0, 0⟩], []⟩) rfl rfl rfl (by decide)
    (fun x h => by cases h; rfl) (fun x h _ => by cases h; rfl) rfl

/-- Both are destroyed with the last reference. -/
example : aggregated.step (.reset (.var 1)) =
    some ⟨[⟨false, 0, [.self], [some ⟨1, 0⟩]⟩, ⟨false, 0, [.self, .to ⟨0, 0⟩], []⟩], [none, none], []⟩ := by
  unfold aggregated
  simp [State.step, State.reset, State.get, State.put, live_eq, State.shape, counter_eq, drain_cons, drain_nil, State.release, Ref.before]

/-- The history of `aggregate_run` makes an object, then an aggregated one inside it. -/
example : counter aggregated.shape ⟨1, 1⟩ = some 0 := by
  have h1 : Reaches [.newVar, .newVar, .make (.var 0) [] 1] ⟨[⟨true, 1, [.self], [none]⟩], [some ⟨0, 0⟩, none], []⟩ := by
    unfold Reaches
    simp [State.run, State.init, State.step, State.assign, State.reset, State.alloc, State.get, State.put, State.addRef, live_eq,
      State.shape, counter_eq]
  have := (C51_aggregated (os := [.newVar, .newVar, .make (.var 0) [] 1]) (os' := [.query (.var 1) (.var 0) (some ⟨1, 1⟩), .reset (.var 0)])
    h1 aggregate_run).2.2.1
  rw [show (1 : Nat) = 1 from rfl] at this
  refine this.trans ?_
  simp [State.shape, counter_eq]

end Verif.Ptr
