import Verif.Fixed.Lemmas

/-! One operation on fixed buffers: it is defined exactly when its arguments are valid, keeps the
invariant, keeps every object it does not rebind, and changes the bytes of a storage only by a write
through one of its objects. -/

set_option linter.unusedSimpArgs false
set_option linter.unusedVariables false

namespace Verif.Fixed

/-- The arguments name existing objects, and a write stays inside the buffer. -/
def Op.ok (s : State) : Op → Prop
  | .new _ | .newInit _ _ | .newFrom _ => True
  | .newDeep j | .copy j | .move j | .destroy j => j < s.bufs.length
  | .assign i j | .moveAssign i j | .swap i j => i < s.bufs.length ∧ j < s.bufs.length
  | .write i off d => i < s.bufs.length ∧ off + d.length ≤ s.size i

/-- The operation may make object `k` refer to another storage. -/
def Op.rebinds (k : Nat) : Op → Prop
  | .move j | .destroy j => j = k
  | .assign i _ => i = k
  | .moveAssign i j | .swap i j => i = k ∨ j = k
  | _ => False

/-- What an operation does to the bytes of a storage that is held before and after it. -/
def effect (s : State) (o : Op) (id : Nat) (b : List Byte) : List Byte :=
  match o with
  | .write i off d => if s.bufs[i]? = some (some id) then splice b off d else b
  | _ => b

theorem size_view (s : State) (i : Nat) : s.size i = (s.bytes i).length := by
  simp only [State.size, State.bytes]
  cases s.bufs[i]? with
  | none => rfl
  | some h =>
    cases h with
    | none => rfl
    | some id => simp only [Mem.view]; cases s.mem.mem id <;> rfl

theorem view_map (m m' : Mem) (id : Nat)
    (h : (m'.mem id).map (·.bytes) = (m.mem id).map (·.bytes)) :
    m'.view (some id) = m.view (some id) := by
  simp only [Mem.view]
  cases h1 : m'.mem id <;> cases h2 : m.mem id <;> rw [h1, h2] at h <;> simp at h ⊢
  exact h

/-- Summary of a successful operation. -/
structure Done (s : State) (o : Op) (s' : State) : Prop where
  inv : Inv s'
  keep : ∀ k, k < s.bufs.length → ¬ o.rebinds k → s'.bufs[k]? = s.bufs[k]?
  bytes : ∀ id, some id ∈ s.bufs → some id ∈ s'.bufs →
    s'.mem.view (some id) = effect s o id (s.mem.view (some id))
  len : s.bufs.length ≤ s'.bufs.length

theorem cnt_pos {s : State} {x : Option Nat} {i : Nat} (h : s.bufs[i]? = some x) :
    ∀ id, x = some id → 0 < s.bufs.count (some id) := by
  rintro id rfl
  exact (count_pos_of _ _).mpr (getElem?_mem h)

theorem keep_append {l : List (Option Nat)} {x : Option Nat} {k : Nat} (h : k < l.length) :
    (l ++ [x])[k]? = l[k]? := List.getElem?_append_left h

theorem keep_set {l : List (Option Nat)} {x : Option Nat} {i k : Nat} (h : ¬ i = k) :
    (l.set i x)[k]? = l[k]? := by simp [List.getElem?_set, h]

theorem get_of_lt {s : State} {i : Nat} (h : i < s.bufs.length) : ∃ x, s.bufs[i]? = some x :=
  ⟨s.bufs[i], List.getElem?_eq_getElem h⟩

/-- A constructed object: `m'` extends the allocation. -/
theorem push_done {s : State} (hi : Inv s) (n : Nat) (o : Op) (m' : Mem)
    (ho : ∀ k, ¬ o.rebinds k) (he : ∀ id b, effect s o id b = b)
    (hm : InvC m' (fun id => s.bufs.count (some id) +
      if (s.mem.allocate n).2 = some id then 1 else 0))
    (hk : ∀ id, some id ∈ s.bufs → m'.mem id = (s.mem.allocate n).1.mem id) :
    Done s o (s.push (m', (s.mem.allocate n).2)) := by
  have hc := (inv_iff s).mp hi
  obtain ⟨a1, a2, a3, a4⟩ := allocate_inv hc n
  refine ⟨?_, ?_, ?_, by simp [State.push]⟩
  · rw [inv_iff]
    refine hm.congr (fun id => ?_)
    simp only [State.push, List.count_append, List.count_cons, List.count_nil]
    simp
  · intro k hk' _
    exact keep_append hk'
  · intro id h1 _
    rw [he]
    simp only [State.push, Mem.view, hk id h1, (a2 id ((count_pos_of _ _).mpr h1)).2]

theorem step_done {s : State} {o : Op} (hi : Inv s) (ho : o.ok s) :
    ∃ s', s.step o = some s' ∧ Done s o s' := by
  have hc := (inv_iff s).mp hi
  cases o with
  | new n =>
    obtain ⟨a1, a2, a3, a4⟩ := allocate_inv hc n
    refine ⟨_, rfl, ?_⟩
    exact push_done hi n _ _ (fun _ => id) (fun _ _ => rfl) a1 (fun _ _ => rfl)
  | newInit n zero =>
    obtain ⟨a1, a2, a3, a4⟩ := allocate_inv hc n
    by_cases hz : (zero && (s.mem.allocate n).2.isSome) = true
    · obtain ⟨m', w1, w2, w3, w4, w5, w6⟩ := write_inv a1 (s.mem.allocate n).2 0
        (List.replicate n 0) (by intro id h; simp [h]) (by rw [a3]; simp)
      refine ⟨s.push (m', (s.mem.allocate n).2), by simp only [State.step, hz, if_true, w1, Option.map_some], ?_⟩
      exact push_done hi n _ _ (fun _ => id) (fun _ _ => rfl) w4
        (fun id h => w6 id (a2 id ((count_pos_of _ _).mpr h)).1)
    · refine ⟨_, by simp only [State.step, hz, Bool.false_eq_true, if_false]; rfl, ?_⟩
      exact push_done hi n _ _ (fun _ => id) (fun _ _ => rfl) a1 (fun _ _ => rfl)
  | newFrom d =>
    obtain ⟨a1, a2, a3, a4⟩ := allocate_inv hc d.length
    obtain ⟨m', w1, w2, w3, w4, w5, w6⟩ := write_inv a1 (s.mem.allocate d.length).2 0 d
      (by intro id h; simp [h]) (by rw [a3]; simp)
    refine ⟨s.push (m', (s.mem.allocate d.length).2), by simp only [State.step, w1, Option.map_some], ?_⟩
    exact push_done hi d.length _ _ (fun _ => id) (fun _ _ => rfl) w4
      (fun id h => w6 id (a2 id ((count_pos_of _ _).mpr h)).1)
  | newDeep j =>
    obtain ⟨x, hx⟩ := get_of_lt ho
    obtain ⟨a1, a2, a3, a4⟩ := allocate_inv hc (s.size j)
    cases hr : (s.mem.allocate (s.size j)).2 with
    | none =>
      refine ⟨s.push (s.mem.allocate (s.size j)), by simp only [State.step, hx, hr], ?_⟩
      exact push_done hi (s.size j) _ _ (fun _ => id) (fun _ _ => rfl) a1 (fun _ _ => rfl)
    | some id =>
      have hpos : 0 < s.size j := by rw [← a4, hr]; rfl
      -- the source is a live storage, not the new one
      cases x with
      | none => simp [State.size, hx] at hpos
      | some src =>
        have hcp := cnt_pos hx src rfl
        obtain ⟨c, hcs⟩ := hc.live src hcp
        have hsz : s.size j = c.bytes.length := by simp [State.size, hx, hcs]
        have hcs' : (s.mem.allocate (s.size j)).1.mem src = some c := by
          rw [(a2 src hcp).2, hcs]
        have hl : ((s.mem.allocate (s.size j)).1.view (some id)).length = s.size j := by
          rw [← hr, a3]
        have hcopy : (State.mk (s.mem.allocate (s.size j)).1 s.bufs).copyTo j
            ((s.mem.allocate (s.size j)).1.view (some id)) (s.size j) =
            some (c.bytes, c.bytes.length) := by
          simp only [State.copyTo, hx, hcs']
          have hle : c.bytes.length ≤ s.size j := by omega
          simp only [if_pos hle]
          rw [if_pos (by omega)]
          have e1 : c.bytes.take c.bytes.length = c.bytes := List.take_length
          have e2 : ((s.mem.allocate (s.size j)).1.view (some id)).drop c.bytes.length = [] :=
            List.drop_of_length_le (by omega)
          rw [e1, e2, List.append_nil]
        obtain ⟨m', w1, w2, w3, w4, w5, w6⟩ := write_inv a1 (some id) 0 c.bytes
          (by intro k h; rw [hr]; simp [h]) (by omega)
        refine ⟨s.push (m', some id), by simp only [State.step, hx, hr, hcopy, w1, Option.map_some], ?_⟩
        rw [← hr]
        exact push_done hi (s.size j) _ _ (fun _ h => h) (fun _ _ => rfl) w4
          (fun k h => w6 k (by rw [← hr]; exact (a2 k ((count_pos_of _ _).mpr h)).1))
  | copy j =>
    obtain ⟨x, hx⟩ := get_of_lt ho
    obtain ⟨m', q1, q2, q3, q4, q5⟩ := acquire_inv hc x (cnt_pos hx)
    refine ⟨s.push (m', x), by simp only [State.step, hx, q1, Option.map_some], ?_, ?_, ?_, by simp [State.push]⟩
    · rw [inv_iff]
      refine q4.congr (fun id => ?_)
      simp only [State.push, List.count_append, List.count_cons, List.count_nil]
      simp
    · intro k hk _; exact keep_append hk
    · intro id _ _; exact view_map _ _ _ (q5 id)
  | move j =>
    obtain ⟨x, hx⟩ := get_of_lt ho
    refine ⟨⟨s.mem, s.bufs.set j none ++ [x]⟩, by simp only [State.step, hx], ?_, ?_, ?_, by simp⟩
    · rw [inv_iff]
      refine hc.congr (fun id => ?_)
      have := count_set s.bufs j x none (some id) hx
      simp only [List.count_append, List.count_cons, List.count_nil]
      by_cases e : x = some id <;> simp [e] at this ⊢ <;> omega
    · intro k hk hr
      simp only [Op.rebinds] at hr
      rw [List.getElem?_append_left (by simpa using hk)]
      exact keep_set hr
    · intro id _ _; rfl
  | assign i j =>
    obtain ⟨a, ha⟩ := get_of_lt ho.1
    obtain ⟨b, hb⟩ := get_of_lt ho.2
    by_cases hij : i = j
    · refine ⟨s, by simp only [State.step, ha, hb, hij, if_true], hi, fun _ _ _ => rfl, fun _ _ _ => rfl,
        Nat.le_refl _⟩
    · obtain ⟨m1, q1, q2, q3, q4, q5⟩ := acquire_inv hc b (cnt_pos hb)
      obtain ⟨m2, r1, r2, r3, r4, r5⟩ := release_inv q4 a (by
        intro id h; have := cnt_pos ha id h; omega)
      have hcount : ∀ id, s.bufs.count (some id) + (if b = some id then 1 else 0) -
          (if a = some id then 1 else 0) = (s.bufs.set i b).count (some id) := by
        intro id
        have := count_set s.bufs i a b (some id) ha
        omega
      refine ⟨⟨m2, s.bufs.set i b⟩, by simp only [State.step, ha, hb, hij, if_false, q1, r1, Option.map_some],
        ?_, ?_, ?_, by simp⟩
      · rw [inv_iff]; exact r4.congr hcount
      · intro k _ hr; exact keep_set hr
      · intro id _ h2
        refine view_map _ _ _ ((r5 id ?_).trans (q5 id))
        rw [hcount]; exact (count_pos_of _ _).mpr h2
  | moveAssign i j =>
    obtain ⟨a, ha⟩ := get_of_lt ho.1
    obtain ⟨b, hb⟩ := get_of_lt ho.2
    by_cases hij : i = j
    · refine ⟨s, by simp only [State.step, ha, hb, hij, if_true], hi, fun _ _ _ => rfl, fun _ _ _ => rfl,
        Nat.le_refl _⟩
    · obtain ⟨m2, r1, r2, r3, r4, r5⟩ := release_inv hc a (cnt_pos ha)
      have hb' : (s.bufs.set i b)[j]? = some b := by rw [keep_set hij, hb]
      have hcount : ∀ id, s.bufs.count (some id) - (if a = some id then 1 else 0) =
          ((s.bufs.set i b).set j none).count (some id) := by
        intro id
        have h1 := count_set s.bufs i a b (some id) ha
        have h2 := count_set (s.bufs.set i b) j b none (some id) hb'
        simp at h2
        omega
      refine ⟨⟨m2, (s.bufs.set i b).set j none⟩,
        by simp only [State.step, ha, hb, hij, if_false, r1, Option.map_some], ?_, ?_, ?_, by simp⟩
      · rw [inv_iff]; exact r4.congr hcount
      · intro k _ hr
        simp only [Op.rebinds, not_or] at hr
        rw [keep_set hr.2, keep_set hr.1]
      · intro id _ h2
        refine view_map _ _ _ (r5 id ?_)
        rw [hcount]; exact (count_pos_of _ _).mpr h2
  | swap i j =>
    obtain ⟨a, ha⟩ := get_of_lt ho.1
    obtain ⟨b, hb⟩ := get_of_lt ho.2
    refine ⟨⟨s.mem, (s.bufs.set i b).set j a⟩, by simp only [State.step, ha, hb], ?_, ?_, ?_, by simp⟩
    · rw [inv_iff]
      refine hc.congr (fun id => ?_)
      have h1 := count_set s.bufs i a b (some id) ha
      show s.bufs.count (some id) = ((s.bufs.set i b).set j a).count (some id)
      by_cases hij : i = j
      · subst hij
        have hb' : (s.bufs.set i b)[i]? = some b := by simp [List.getElem?_set, ho.1]
        have h2 := count_set (s.bufs.set i b) i b a (some id) hb'
        omega
      · have hb' : (s.bufs.set i b)[j]? = some b := by rw [keep_set hij, hb]
        have h2 := count_set (s.bufs.set i b) j b a (some id) hb'
        omega
    · intro k _ hr
      simp only [Op.rebinds, not_or] at hr
      rw [keep_set hr.2, keep_set hr.1]
    · intro id _ _; rfl
  | destroy i =>
    obtain ⟨a, ha⟩ := get_of_lt ho
    obtain ⟨m2, r1, r2, r3, r4, r5⟩ := release_inv hc a (cnt_pos ha)
    have hcount : ∀ id, s.bufs.count (some id) - (if a = some id then 1 else 0) =
        (s.bufs.set i none).count (some id) := by
      intro id
      have h1 := count_set s.bufs i a none (some id) ha
      simp at h1
      omega
    refine ⟨⟨m2, s.bufs.set i none⟩, by simp only [State.step, ha, r1, Option.map_some], ?_, ?_, ?_, by simp⟩
    · rw [inv_iff]; exact r4.congr hcount
    · intro k _ hr; exact keep_set hr
    · intro id _ h2
      refine view_map _ _ _ (r5 id ?_)
      rw [hcount]; exact (count_pos_of _ _).mpr h2
  | write i off d =>
    obtain ⟨a, ha⟩ := get_of_lt ho.1
    have hl : off + d.length ≤ (s.mem.view a).length := by
      have := ho.2
      rw [size_view] at this
      simpa [State.bytes, ha] using this
    obtain ⟨m', w1, w2, w3, w4, w5, w6⟩ := write_inv hc a off d (cnt_pos ha) hl
    refine ⟨⟨m', s.bufs⟩, by simp only [State.step, ha, w1, Option.map_some], ?_, fun _ _ _ => rfl, ?_,
      Nat.le_refl _⟩
    · rw [inv_iff]; exact w4
    · intro id _ _
      simp only [effect, ha, Option.some.injEq]
      by_cases e : a = some id
      · rw [if_pos e, ← e]; exact w5
      · rw [if_neg e]
        simp only [Mem.view, w6 id e]

/-- Only valid operations are defined. -/
theorem ok_of_step {s s' : State} {o : Op} (hi : Inv s) (h : s.step o = some s') : o.ok s := by
  have hlt : ∀ {i x}, s.bufs[i]? = some x → i < s.bufs.length := by
    intro i x hx
    exact (List.getElem?_eq_some_iff.mp hx).1
  cases o with
  | new n => trivial
  | newInit n z => trivial
  | newFrom d => trivial
  | newDeep j | copy j | move j | destroy j =>
    simp only [State.step] at h
    cases hx : s.bufs[j]? with
    | none => rw [hx] at h; simp at h
    | some x => exact hlt hx
  | assign i j | moveAssign i j | swap i j =>
    simp only [State.step] at h
    cases hx : s.bufs[i]? with
    | none => rw [hx] at h; simp at h
    | some x =>
      cases hy : s.bufs[j]? with
      | none => rw [hx, hy] at h; simp at h
      | some y => exact ⟨hlt hx, hlt hy⟩
  | write i off d =>
    simp only [State.step] at h
    cases hx : s.bufs[i]? with
    | none => rw [hx] at h; simp at h
    | some x =>
      rw [hx] at h
      refine ⟨hlt hx, ?_⟩
      rw [size_view]
      simp only [State.bytes, hx]
      cases x with
      | none =>
        simp only [Mem.write] at h
        split at h
        · rename_i h0; simp [h0.1, h0.2]
        · simp at h
      | some id =>
        simp only [Mem.write] at h
        cases hm : s.mem.mem id with
        | none => rw [hm] at h; simp at h
        | some c =>
          rw [hm] at h
          simp only [] at h
          by_cases hb : off + d.length ≤ c.bytes.length
          · simpa [Mem.view, hm] using hb
          · rw [if_neg hb] at h; simp at h

theorem done_of_step {s s' : State} {o : Op} (hi : Inv s) (h : s.step o = some s') : Done s o s' := by
  obtain ⟨s1, h1, h2⟩ := step_done hi (ok_of_step hi h)
  rw [h1] at h
  cases h
  exact h2

/-- Reachable from the empty program. -/
def Reach (s : State) : Prop := ∃ junk hist, (State.init junk).run hist = some s

theorem run_inv {hist : List Op} : ∀ {s s' : State}, Inv s → s.run hist = some s' → Inv s' := by
  induction hist with
  | nil => intro s s' hi h; simp [State.run] at h; exact h ▸ hi
  | cons o os ih =>
    intro s s' hi h
    simp only [State.run] at h
    cases hs : s.step o with
    | none => rw [hs] at h; simp at h
    | some s1 =>
      rw [hs] at h
      exact ih (done_of_step hi hs).inv h

theorem reach_inv {s : State} (h : Reach s) : Inv s := by
  obtain ⟨junk, hist, hr⟩ := h
  exact run_inv (Inv.init junk) hr

theorem run_append' {hist : List Op} {o : Op} : ∀ {s s1 s2 : State}, s.run hist = some s1 →
    s1.step o = some s2 → s.run (hist ++ [o]) = some s2 := by
  induction hist with
  | nil => intro s s1 s2 h h2; simp [State.run] at h; subst h; simp [State.run, h2]
  | cons a as ih =>
    intro s s1 s2 h h2
    simp only [State.run, List.cons_append] at h ⊢
    cases hs : s.step a with
    | none => rw [hs] at h; simp at h
    | some t => rw [hs] at h; simp only; exact ih h h2

theorem reach_step {s s' : State} {o : Op} (h : Reach s) (hs : s.step o = some s') : Reach s' := by
  obtain ⟨junk, hist, hr⟩ := h
  exact ⟨junk, hist ++ [o], run_append' hr hs⟩

end Verif.Fixed
