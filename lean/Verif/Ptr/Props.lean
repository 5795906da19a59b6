import Verif.Ptr.Ok
set_option linter.unusedSimpArgs false
set_option linter.unusedVariables false
/-!
Properties of `Ptr`: C49, and the lifetime half of C51.

`holders s` lists the references held by `Ptr` variables, by `Ptr` members of existing objects, and by hand (`Detach`, `AddRef`).
`counter s.shape r` is the object that counts the reference `r`: the object itself for `Object`, the controller's for the
interfaces of an aggregated object.
-/
namespace Verif.Ptr

/-- A history from nothing. -/
def Reaches (os : List Op) (s : State) : Prop := State.init.run os = some s

/-- C49: the count of an existing object is the number of references that it counts. -/
theorem C49_count {os : List Op} {s : State} (h : Reaches os s) {c : Nat} {y : Cell} (hy : s.cells[c]? = some y) (ha : y.alive = true) :
    y.count = (holders s).countP (fun r => decide (counter s.shape r = some c)) := by
  rw [← tally_holders]
  exact (run_inv os init_inv h).alive c y hy ha

/-- C49: an object that counts references exists exactly while there is one. -/
theorem C49_exists_iff_held {os : List Op} {s : State} (h : Reaches os s) {c : Nat} {y : Cell} (hy : s.cells[c]? = some y)
    (hs : y.parts[0]? = some .self) : y.alive = true ↔ ∃ r ∈ holders s, counter s.shape r = some c := by
  have hI := run_inv os init_inv h
  constructor
  · intro ha
    have h1 := hI.pos c y hy ha hs (by simp)
    rw [hI.alive c y hy ha] at h1
    obtain ⟨r, hr, hc⟩ := tally_pos.mp h1
    exact ⟨r, hr, of_decide_eq_true hc⟩
  · rintro ⟨r, hr, hc⟩
    obtain ⟨z, hz, ha⟩ := holder_alive hI hr hc
    rw [hy] at hz; cases hz; exact ha

/-- C49: no reference is held on a destroyed object. -/
theorem C49_no_dangling {os : List Op} {s : State} (h : Reaches os s) {l : Loc} {r : Ref} {c : Nat} (hl : s.get l = some (some r))
    (hc : counter s.shape r = some c) : ∃ y, s.cells[c]? = some y ∧ y.alive = true :=
  holder_alive (run_inv os init_inv h) (mem_holders_get hl) hc

/-- C49: a destroyed object is not destroyed again and does not come back. -/
theorem C49_once {os os' : List Op} {s s' : State} (h : Reaches os s) (h' : s.run os' = some s') {c : Nat} {y : Cell}
    (hy : s.cells[c]? = some y) (ha : y.alive = false) : ∃ y', s'.cells[c]? = some y' ∧ y'.alive = false := by
  have hm := run_mono os' h'
  have hc := (List.getElem?_eq_some_iff.mp hy).1
  have hc' : c < s'.cells.length := Nat.lt_of_lt_of_le hc hm.1
  refine ⟨_, List.getElem?_eq_getElem hc', ?_⟩
  cases e : s'.cells[c].alive with
  | false => rfl
  | true =>
    obtain ⟨z, hz, hza⟩ := hm.2 c _ (List.getElem?_eq_getElem hc') e hc
    rw [hy] at hz; cases hz; rw [ha] at hza; cases hza

/-- Histories with `Object`s only. -/
def ReachesPlain (os : List Op) (s : State) : Prop := Reaches os s ∧ ∀ o ∈ os, PlainOp o

theorem plain_run : ∀ (os : List Op) {s s' : State}, Inv s [] none → Plain s.shape → (∀ o ∈ os, PlainOp o) → s.run os = some s' → Plain s'.shape
  | [], s, s', hI, hF, _, h => by cases h; exact hF
  | o :: os, s, s', hI, hF, hp, h => by
    unfold State.run at h
    split at h
    · cases h
    · rename_i s1 h1
      exact plain_run os (step_inv hI h1) (step_shape (hp o List.mem_cons_self) hI hF h1)
        (fun o ho => hp o (List.mem_cons_of_mem _ ho)) h

theorem plain_init : Plain State.init.shape := by intro c p h; simp [State.shape, State.init] at h

theorem ReachesPlain.plain {os : List Op} {s : State} (h : ReachesPlain os s) : Plain s.shape :=
  plain_run os init_inv plain_init h.2 h.1

/-- C49, partial: an operation is defined when the object to be assigned, and the object that contains the assigned `Ptr`,
is kept by something else than the `Ptr` assigned to (`Ok`).  Without, it is not (`C49_self_assign_fails`, `C49_next_fails`). -/
theorem C49_defined_partial {os : List Op} {s : State} (h : ReachesPlain os s) {o : Op} (hp : PlainOp o) (ho : Ok s o) :
    ∃ s', s.step o = some s' :=
  step_defined (run_inv os init_inv h.1) h.plain hp ho

/-- C49, partial: variables can be copied and moved to each other, reset and destroyed at any time. -/
theorem C49_variables_partial {os : List Op} {s : State} (h : ReachesPlain os s) {i j : Nat} (hi : i < s.vars.length) (hj : j < s.vars.length)
    (hij : i ≠ j) : (∃ s', s.step (.copy (.var i) (.var j)) = some s') ∧ (∃ s', s.step (.move (.var i) (.var j)) = some s') ∧
      (∃ s', s.step (.reset (.var i)) = some s') ∧ (∃ s', s.step (.swap (.var i) (.var j)) = some s') := by
  have st : ∀ i, i < s.vars.length → Stands s (.var i) := fun i hi => ⟨by show (s.vars[i]?).isSome; simp [hi], fun c k e => by cases e⟩
  have sy : Stays s (.var i) (.var j) := ⟨by show (s.vars[j]?).isSome; simp [hj], fun c k e => by cases e⟩
  have ne : Loc.var j ≠ Loc.var i := fun e => hij (by cases e; rfl)
  exact ⟨C49_defined_partial h trivial ⟨st i hi, (st j hj).1, fun r _ => Or.inl ⟨ne, sy⟩⟩, C49_defined_partial h trivial ⟨st i hi, sy⟩,
    C49_defined_partial h trivial (st i hi), C49_defined_partial h trivial ⟨(st i hi).1, (st j hj).1⟩⟩

/-- Walking a list: `p = q->next` is defined when the variable `q` is not `p`. -/
theorem C49_next_partial {os : List Op} {s : State} (h : ReachesPlain os s) {i j k : Nat} {r : Ref} (hij : i ≠ j) (hi : i < s.vars.length)
    (hj : s.get (.var j) = some (some r)) (hk : (s.get (.field r.cell k)).isSome) :
    ∃ s', s.step (.copy (.var i) (.field r.cell k)) = some s' := by
  have hw := holder_wf (run_inv os init_inv h.1) (mem_holders_get hj)
  have hc := plain_wf h.plain hw
  have ne : Loc.var j ≠ Loc.var i := fun e => hij (by cases e; rfl)
  refine C49_defined_partial h trivial ⟨⟨by show (s.vars[i]?).isSome; simp [hi], fun c k e => by cases e⟩, hk, fun q _ => Or.inl ⟨(fun e => by cases e), hk, ?_⟩⟩
  intro c k e
  cases e
  exact Or.inl ⟨j, r, ne, hj, hc⟩

/-- C49: moving a `Ptr` to itself leaves it null. -/
theorem C49_self_move {s s' : State} {l : Loc} (h : s.step (.move l l) = some s') : s'.get l = some none := by
  unfold State.step at h; dsimp only at h
  split at h
  · cases h
  · split at h
    · cases h
    · rename_i s1 h1
      split at h
      · rename_i hs
        cases h
        cases e : s1.get l with
        | none => rw [e] at hs; cases hs
        | some o => exact get_put_self e
      · cases h

/-- Resetting the only holder destroys the object. -/
theorem reset_sole {s s1 : State} {l : Loc} {r : Ref} {c : Nat} {y w : Cell}
    (hl : s.get l = some (some r)) (hc : counter s.shape r = some c) (hy : s.cells[c]? = some y) (h1 : y.count = 1)
    (e : s.reset l = some s1) (hw : s1.cells[c]? = some w) : w.alive = false := by
  unfold State.reset at e
  rw [hl] at e; dsimp only at e
  split at e
  · cases e
  · rename_i s2 hd
    split at e
    · cases e
      rw [drain_cons] at hd
      split at hd
      · cases hd
      · rename_i s3 Q hr
        obtain ⟨_, ⟨hc', rfl, rfl⟩ | ⟨d, z', hc', hz', ⟨h1', rfl, rfl⟩ | ⟨h1', rfl, rfl⟩⟩⟩ := release_cases hr
        · rw [shape_put, hc] at hc'; cases hc'
        · rw [shape_put, hc] at hc'; cases hc'
          obtain ⟨v, hv, _, _, va⟩ := (drain_later hd).cell c w hw
          rcases (getElem?_set_of hz').mp hv with ⟨_, rfl⟩ | ⟨hn, _⟩
          · cases hwa : w.alive with
            | false => rfl
            | true => have := va hwa; cases this
          · exact absurd rfl hn
        · rw [shape_put, hc] at hc'; cases hc'
          obtain ⟨v, hv, _, vb, _⟩ := put_cell hz'
          rw [hy] at hv; cases hv; omega
    · cases e

/-- C49: `Reset` of the last holder destroys the object. -/
theorem C49_last_reset {s s' : State} {l : Loc} {r : Ref} {c : Nat} {y : Cell}
    (hl : s.get l = some (some r)) (hc : counter s.shape r = some c) (hy : s.cells[c]? = some y) (h1 : y.count = 1)
    (h : s.step (.reset l) = some s') : ∃ y', s'.cells[c]? = some y' ∧ y'.alive = false := by
  have hm := reset_mono h
  have hc' : c < s'.cells.length := Nat.lt_of_lt_of_le (List.getElem?_eq_some_iff.mp hy).1 hm.1
  exact ⟨_, List.getElem?_eq_getElem hc', reset_sole hl hc hy h1 h (List.getElem?_eq_getElem hc')⟩

/-- C49 is violated by `p = p` and by `p = p.Get()` whenever `p` is the only holder of its object: the object is destroyed and
then used. -/
theorem C49_self_assign_fails {s : State} {l : Loc} {r : Ref} {c : Nat} {y : Cell}
    (hl : s.get l = some (some r)) (hc : counter s.shape r = some c) (hy : s.cells[c]? = some y) (h1 : y.count = 1) :
    s.step (.copy l l) = none ∧ s.step (.fromRaw l r) = none := by
  have key : s.assign l (some r) true = none := by
    unfold State.assign
    cases e : s.reset l with
    | none => rfl
    | some s1 =>
      dsimp only
      have hsh : s1.shape = s.shape := by
        unfold State.reset at e
        rw [hl] at e; dsimp only at e
        split at e
        · cases e
        · rename_i s2 hd
          split at e
          · cases e; exact (drain_later hd).shape.trans shape_put
          · cases e
      unfold State.addRef
      cases el : (s1.put l (some r)).live r with
      | false => rfl
      | true =>
        exfalso
        obtain ⟨z, hz, hza⟩ := live_counter r el c (by rw [shape_put, hsh]; exact hc)
        obtain ⟨w, hw, wa, _⟩ := put_cell hz
        rw [wa, reset_sole hl hc hy h1 e hw] at hza
        cases hza
  refine ⟨?_, ?_⟩
  · unfold State.step; dsimp only; rw [hl]; exact key
  · unfold State.step; exact key

/-- C49 is violated by `p = p->next`: the object held by `p` is destroyed, and with it the next one. -/
theorem C49_next_fails :
    State.init.run [.newVar, .make (.var 0) [] 1, .make (.field 0 0) [] 1, .copy (.var 0) (.field 0 0)] = none := by
  simp [State.run, State.init, State.step, State.assign, State.reset, State.alloc, State.get, State.put, State.addRef, live_eq,
    State.shape, counter_eq, drain_cons, drain_nil, State.release]

/-- Two holders of an object that holds another one; then one of them lets go and the other takes `next`. -/
def walk : List Op :=
  [.newVar, .make (.var 0) [.mutual] 1, .make (.field 0 0) [] 1, .newVar, .copy (.var 1) (.var 0), .copy (.var 0) (.field 0 0)]

/-- The state after `walk`. -/
def walked : State :=
  ⟨[⟨true, 1, [.self, .to ⟨0, 0⟩], [some ⟨1, 0⟩]⟩, ⟨true, 2, [.self], [none]⟩], [some ⟨1, 0⟩, some ⟨0, 0⟩], []⟩

theorem walk_run : Reaches walk walked := by
  unfold Reaches walk walked
  simp [State.run, State.init, State.step, State.assign, State.reset, State.alloc, State.get, State.put, State.addRef, live_eq,
    State.shape, counter_eq, drain_cons, drain_nil, State.release, Member.parts]

example : ReachesPlain walk walked := ⟨walk_run, by unfold walk; simp [PlainOp]⟩

example : (holders walked).countP (fun r => decide (counter walked.shape r = some 1)) = 2 := (C49_count walk_run (y := ⟨true, 2, [.self], [none]⟩) rfl rfl).symm

example : walked.step (.copy (.var 1) (.var 1)) = none :=
  (C49_self_assign_fails (r := ⟨0, 0⟩) (c := 0) rfl (by simp [walked, State.shape, counter_eq]) rfl rfl).1

/-! ### Aggregation -/

/-- C51: a reference through an exported interface of an aggregated object (part 1 of its cell `n`) keeps the controller (however
many controllers that itself has): it is counted there. -/
theorem C51_keeps_controller {os : List Op} {s : State} (h : Reaches os s) {l : Loc} {n c : Nat} {ctrl : Ref} {y : Cell}
    (hn : s.cells[n]? = some y) (hp : y.parts[1]? = some (.to ctrl)) (hb : ctrl.cell < n)
    (hc : counter s.shape ctrl = some c) (hl : s.get l = some (some ⟨n, 1⟩)) :
    counter s.shape ⟨n, 1⟩ = some c ∧ ∃ y, s.cells[c]? = some y ∧ y.alive = true := by
  have e : counter s.shape ⟨n, 1⟩ = some c := by
    rw [counter_eq, shape_get]
    dsimp only
    rw [hn]
    dsimp only [Option.map_some, Option.bind_some]
    rw [hp]
    dsimp only
    rw [if_pos (show ctrl.before ⟨n, 1⟩ from Or.inl hb)]
    exact hc
  exact ⟨e, C49_no_dangling h hl e⟩

/-- C51: as long as a member of the controller holds the navigator, the interfaces of the aggregated object can be used by
everybody who holds one. -/
theorem C51_usable {os : List Op} {s : State} (h : Reaches os s) {l : Loc} {n c k : Nat} {y : Cell}
    (hn : s.cells[n]? = some y) (hp0 : y.parts[0]? = some .self) (hp : y.parts[1]? = some (.to ⟨c, 0⟩)) (hb : c < n)
    (hself : ∀ x, s.cells[c]? = some x → x.parts[0]? = some .self)
    (hkeep : ∀ x, s.cells[c]? = some x → x.alive = true → s.get (.field c k) = some (some ⟨n, 0⟩))
    (hl : s.get l = some (some ⟨n, 1⟩)) : s.live ⟨n, 1⟩ = true := by
  have hcl : c < s.cells.length := Nat.lt_trans hb (List.getElem?_eq_some_iff.mp hn).1
  obtain ⟨x0, hx0⟩ : ∃ x, s.cells[c]? = some x := ⟨_, List.getElem?_eq_getElem hcl⟩
  have hc0 : counter s.shape ⟨c, 0⟩ = some c := by
    rw [counter_eq, shape_get]
    dsimp only
    rw [hx0]
    dsimp only [Option.map_some, Option.bind_some]
    rw [hself x0 hx0]
  obtain ⟨_, x, hx, hxa⟩ := C51_keeps_controller h hn hp hb hc0 hl
  have hg := hkeep x hx hxa
  have hn0 : counter s.shape ⟨n, 0⟩ = some n := by
    rw [counter_eq, shape_get]
    dsimp only
    rw [hn]
    dsimp only [Option.map_some, Option.bind_some]
    rw [hp0]
  obtain ⟨y', hy', hya⟩ := C49_no_dangling h hg hn0
  rw [hn] at hy'; cases hy'
  have hlc : s.live ⟨c, 0⟩ = true := by
    rw [live_eq]; dsimp only; rw [hx]; dsimp only; rw [hxa, hself x hx]; rfl
  rw [live_eq]; dsimp only; rw [hn]; dsimp only; rw [hya, hp]
  dsimp only
  rw [if_pos (show Ref.before ⟨c, 0⟩ ⟨n, 1⟩ from Or.inl hb), hlc]; rfl

end Verif.Ptr
