import Verif.Fixed.Step

/-! Properties C96 to C99: sharing, independence, lifetime and contents of fixed buffers. -/

set_option linter.unusedSimpArgs false
set_option linter.unusedVariables false

namespace Verif.Fixed

/-! ### Lemmas on histories -/

theorem run_cases {s s' : State} {o : Op} {os : List Op} (h : s.run (o :: os) = some s') :
    ∃ s1, s.step o = some s1 ∧ s1.run os = some s' := by
  simp only [State.run] at h
  cases hs : s.step o with
  | none => rw [hs] at h; simp at h
  | some s1 => rw [hs] at h; exact ⟨s1, rfl, h⟩

theorem run_keep {k : Nat} {hist : List Op} : ∀ {s s' : State}, Inv s → k < s.bufs.length →
    (∀ o ∈ hist, ¬ o.rebinds k) → s.run hist = some s' → s'.bufs[k]? = s.bufs[k]? := by
  induction hist with
  | nil => intro s s' _ _ _ h; simp [State.run] at h; rw [h]
  | cons o os ih =>
    intro s s' hi hk hr h
    obtain ⟨s1, h1, h2⟩ := run_cases h
    have hd := done_of_step hi h1
    rw [ih hd.inv (Nat.lt_of_lt_of_le hk hd.len) (fun o' ho' => hr o' (List.mem_cons_of_mem _ ho')) h2]
    exact hd.keep k hk (hr o List.mem_cons_self)

theorem bytes_of {s : State} {i : Nat} {x : Option Nat} (h : s.bufs[i]? = some x) :
    s.bytes i = s.mem.view x := by simp [State.bytes, h]

/-- The bytes of an object that is not rebound: changed only by writes to its storage. -/
theorem step_bytes {s s' : State} {o : Op} {k : Nat} {x : Option Nat} (hi : Inv s)
    (hs : s.step o = some s') (hx : s.bufs[k]? = some x) (hr : ¬ o.rebinds k) :
    s'.bytes k = match x with
      | none => []
      | some id => effect s o id (s.bytes k) := by
  have hd := done_of_step hi hs
  have hk : k < s.bufs.length := (List.getElem?_eq_some_iff.mp hx).1
  have h1 := hd.keep k hk hr
  rw [hx] at h1
  rw [bytes_of h1, bytes_of hx]
  cases x with
  | none => rfl
  | some id => exact hd.bytes id (getElem?_mem hx) (getElem?_mem h1)

theorem step_size {s s' : State} {o : Op} {k : Nat} (hi : Inv s) (hk : k < s.bufs.length)
    (hs : s.step o = some s') (hr : ¬ o.rebinds k) : s'.size k = s.size k := by
  obtain ⟨x, hx⟩ := get_of_lt hk
  rw [size_view, size_view, step_bytes hi hs hx hr]
  cases x with
  | none => rw [bytes_of hx]; rfl
  | some id =>
    simp only [effect]
    cases o with
    | write i off d =>
      simp only
      split
      · rename_i h
        have := (ok_of_step hi hs).2
        rw [size_view, bytes_of h, ← bytes_of hx] at this
        exact splice_length _ _ _ this
      · rfl
    | _ => rfl

/-! ### C96: copies share their bytes for ever, and a buffer never changes its size -/

/-- C96.  A copy shows the same bytes as the buffer it was copied from, now and after every later
history of operations on any buffers, for as long as neither of the two is assigned to, swapped,
moved from or destroyed. -/
theorem copies_stay_equal {s s1 s2 : State} {j : Nat} {hist : List Op} (hr : Reach s)
    (hc : s.step (.copy j) = some s1) (hrun : s1.run hist = some s2)
    (hj : ∀ o ∈ hist, ¬ o.rebinds j) (hk : ∀ o ∈ hist, ¬ o.rebinds s.bufs.length) :
    s2.bytes s.bufs.length = s2.bytes j ∧ s2.size s.bufs.length = s2.size j := by
  have hi := reach_inv hr
  have hjl : j < s.bufs.length := ok_of_step hi hc
  have hi1 := (done_of_step hi hc).inv
  obtain ⟨x, hx⟩ := get_of_lt hjl
  have hb : s1.bufs = s.bufs ++ [x] := by
    simp only [State.step, hx] at hc
    cases ha : s.mem.acquire x with
    | none => rw [ha] at hc; simp at hc
    | some m => rw [ha] at hc; simp at hc; rw [← hc]; rfl
  have e1 := run_keep (k := j) hi1 (by rw [hb]; simp; omega) hj hrun
  have e2 := run_keep (k := s.bufs.length) hi1 (by rw [hb]; simp) hk hrun
  have e3 : s1.bufs[s.bufs.length]? = s1.bufs[j]? := by
    rw [hb, List.getElem?_append_left hjl, hx]; simp
  have e4 : s2.bufs[s.bufs.length]? = s2.bufs[j]? := by rw [e1, e2, e3]
  constructor
  · simp only [State.bytes, e4]
  · simp only [State.size, e4]

/-- C96.  The size of a buffer does not change while it is not assigned to, swapped, moved from or
destroyed. -/
theorem size_is_fixed {k : Nat} {hist : List Op} : ∀ {s s' : State}, Reach s → k < s.bufs.length →
    (∀ o ∈ hist, ¬ o.rebinds k) → s.run hist = some s' → s'.size k = s.size k := by
  induction hist with
  | nil => intro s s' _ _ _ h; simp [State.run] at h; rw [h]
  | cons o os ih =>
    intro s s' hi hk hr h
    obtain ⟨s1, h1, h2⟩ := run_cases h
    have hd := done_of_step (reach_inv hi) h1
    rw [ih (reach_step hi h1) (Nat.lt_of_lt_of_le hk hd.len)
      (fun o' ho' => hr o' (List.mem_cons_of_mem _ ho')) h2]
    exact step_size (reach_inv hi) hk h1 (hr o List.mem_cons_self)

/-- C96.  A write changes the written bytes of its own buffer, and every other buffer afterwards
either shows the same bytes as the written one or is unchanged. -/
theorem write_effect {s s' : State} {i off : Nat} {d : List Byte} (hr : Reach s)
    (h : s.step (.write i off d) = some s') :
    s'.bytes i = (s.bytes i).take off ++ d ++ (s.bytes i).drop (off + d.length) ∧
    ∀ k, s'.bytes k = s'.bytes i ∧ s.bytes k = s.bytes i ∨ s'.bytes k = s.bytes k := by
  have hi := reach_inv hr
  have ho := ok_of_step hi h
  obtain ⟨x, hx⟩ := get_of_lt ho.1
  have hbufs : s'.bufs = s.bufs := by
    simp only [State.step, hx] at h
    cases hw : s.mem.write x off d with
    | none => rw [hw] at h; simp at h
    | some m => rw [hw] at h; simp at h; rw [← h]
  have hnr : ∀ k, ¬ (Op.write i off d).rebinds k := fun _ h => h
  have hsl := ho.2
  constructor
  · rw [step_bytes hi h hx (hnr i)]
    cases x with
    | none =>
      have : s.bytes i = [] := by rw [bytes_of hx]; rfl
      rw [size_view, this] at hsl
      simp at hsl
      simp [this, hsl.1, hsl.2]
    | some id => simp [effect, hx, splice]
  · intro k
    cases hk : s.bufs[k]? with
    | none => right; simp [State.bytes, hbufs, hk]
    | some y =>
      by_cases e : y = x
      · left
        subst e
        simp only [State.bytes, hbufs, hx, hk, and_self]
      · right
        rw [step_bytes hi h hk (hnr k)]
        cases y with
        | none => rw [bytes_of hk]; rfl
        | some id => simp only [effect, hx, Option.some.injEq]; rw [if_neg (fun h => e h.symm)]

/-! ### C97: a constructed buffer is independent of all others -/

/-- The operation hands the storage of object `k` on, or changes object `k`. -/
def Op.involves (k : Nat) : Op → Prop
  | .copy j | .move j | .destroy j => j = k
  | .assign i j | .moveAssign i j | .swap i j => i = k ∨ j = k
  | .write i _ _ => i = k
  | .new _ | .newInit _ _ | .newFrom _ | .newDeep _ => False

/-- The bytes a constructor must give; `none` if it does not say. -/
def wanted (s : State) : Op → Option (List Byte)
  | .newInit n true => some (List.replicate n 0)
  | .newFrom d => some d
  | .newDeep j => some (s.bytes j)
  | _ => none

/-- The constructors that allocate, with the size they ask for. -/
def allocates (s : State) : Op → Option Nat
  | .new n | .newInit n _ => some n
  | .newFrom d => some d.length
  | .newDeep j => some (s.size j)
  | _ => none

/-- Object `k` is the only one that holds its storage. -/
def Sole (s : State) (k : Nat) : Prop :=
  ∀ j id, s.bufs[j]? = some (some id) → s.bufs[k]? = some (some id) → j = k

theorem splice_all (b d : List Byte) (h : b.length = d.length) : splice b 0 d = d := by
  simp [splice, h]

theorem built {s s' : State} {o : Op} {n : Nat} (hi : Inv s) (ha : allocates s o = some n)
    (h : s.step o = some s') :
    ∃ x, s'.bufs = s.bufs ++ [x] ∧ (∀ id, x = some id → some id ∉ s.bufs) ∧
      (s'.mem.view x).length = n ∧ (∀ b, wanted s o = some b → s'.mem.view x = b) := by
  have hc := (inv_iff s).mp hi
  have hfr : ∀ n id, (s.mem.allocate n).2 = some id → some id ∉ s.bufs := by
    intro n id h1 h2
    exact ((allocate_inv hc n).2.1 id ((count_pos_of _ _).mpr h2)).1 h1
  cases o with
  | new m =>
    simp only [allocates, Option.some.injEq] at ha; subst ha
    simp only [State.step, Option.some.injEq] at h; subst h
    exact ⟨_, rfl, hfr m, (allocate_inv hc m).2.2.1, by simp [wanted]⟩
  | newInit m z =>
    simp only [allocates, Option.some.injEq] at ha; subst ha
    obtain ⟨a1, a2, a3, a4⟩ := allocate_inv hc m
    by_cases hz : (z && (s.mem.allocate m).2.isSome) = true
    · obtain ⟨m', w1, w2, w3, w4, w5, w6⟩ := write_inv a1 (s.mem.allocate m).2 0
        (List.replicate m 0) (by intro id h; simp [h]) (by rw [a3]; simp)
      simp only [State.step, hz, if_true, w1, Option.map_some, Option.some.injEq] at h
      subst h
      have hv : m'.view (s.mem.allocate m).2 = List.replicate m 0 := by
        rw [w5]; exact splice_all _ _ (by rw [a3]; simp)
      refine ⟨_, rfl, hfr m, by simp only [State.push]; rw [hv]; simp, ?_⟩
      intro b hb
      cases z with
      | false => simp [wanted] at hb
      | true => simp only [wanted, Option.some.injEq] at hb; rw [← hb]; exact hv
    · simp only [State.step, hz, Bool.false_eq_true, if_false, Option.some.injEq] at h
      subst h
      refine ⟨_, rfl, hfr m, a3, ?_⟩
      intro b hb
      cases z with
      | false => simp [wanted] at hb
      | true =>
        simp only [wanted, Option.some.injEq] at hb
        simp only [Bool.true_and] at hz
        have h0 : m = 0 := by rw [a4] at hz; omega
        subst h0
        rw [← hb]; rfl
  | newFrom d =>
    simp only [allocates, Option.some.injEq] at ha; subst ha
    obtain ⟨a1, a2, a3, a4⟩ := allocate_inv hc d.length
    obtain ⟨m', w1, w2, w3, w4, w5, w6⟩ := write_inv a1 (s.mem.allocate d.length).2 0 d
      (by intro id h; simp [h]) (by rw [a3]; simp)
    simp only [State.step, w1, Option.map_some, Option.some.injEq] at h
    subst h
    have hv : m'.view (s.mem.allocate d.length).2 = d := by rw [w5]; exact splice_all _ _ a3
    refine ⟨_, rfl, hfr d.length, by simp only [State.push]; rw [hv], ?_⟩
    intro b hb
    simp only [wanted, Option.some.injEq] at hb
    rw [← hb]; exact hv
  | newDeep j =>
    simp only [allocates, Option.some.injEq] at ha; subst ha
    have ho : j < s.bufs.length := ok_of_step hi h
    obtain ⟨x, hx⟩ := get_of_lt ho
    obtain ⟨a1, a2, a3, a4⟩ := allocate_inv hc (s.size j)
    cases hr : (s.mem.allocate (s.size j)).2 with
    | none =>
      simp only [State.step, hx, hr, Option.some.injEq] at h
      subst h
      refine ⟨_, rfl, hfr _, a3, ?_⟩
      intro b hb
      simp only [wanted, Option.some.injEq] at hb
      rw [← hb]
      simp only [State.push, hr]
      rw [hr] at a4
      have : (s.bytes j).length = 0 := by rw [← size_view]; simp at a4; exact a4
      rw [List.eq_nil_of_length_eq_zero this]; rfl
    | some id =>
      have hpos : 0 < s.size j := by rw [← a4, hr]; rfl
      cases x with
      | none => simp [State.size, hx] at hpos
      | some src =>
        have hcp := cnt_pos hx src rfl
        obtain ⟨c, hcs⟩ := hc.live src hcp
        have hsz : s.size j = c.bytes.length := by simp [State.size, hx, hcs]
        have hby : s.bytes j = c.bytes := by simp [State.bytes, hx, Mem.view, hcs]
        have hcs' : (s.mem.allocate (s.size j)).1.mem src = some c := by
          rw [(a2 src hcp).2, hcs]
        have hl : ((s.mem.allocate (s.size j)).1.view (some id)).length = s.size j := by
          rw [← hr, a3]
        have hcopy : (State.mk (s.mem.allocate (s.size j)).1 s.bufs).copyTo j
            ((s.mem.allocate (s.size j)).1.view (some id)) (s.size j) =
            some (c.bytes, c.bytes.length) := by
          simp only [State.copyTo, hx, hcs']
          have hle : c.bytes.length ≤ s.size j := by omega
          simp only [if_pos hle]
          rw [if_pos (by omega)]
          have e1 : c.bytes.take c.bytes.length = c.bytes := List.take_length
          have e2 : ((s.mem.allocate (s.size j)).1.view (some id)).drop c.bytes.length = [] :=
            List.drop_of_length_le (by omega)
          rw [e1, e2, List.append_nil]
        obtain ⟨m', w1, w2, w3, w4, w5, w6⟩ := write_inv a1 (some id) 0 c.bytes
          (by intro k h; rw [hr]; simp [h]) (by omega)
        simp only [State.step, hx, hr, hcopy, w1, Option.map_some, Option.some.injEq] at h
        subst h
        have hv : m'.view (some id) = c.bytes := by rw [w5]; exact splice_all _ _ (by omega)
        refine ⟨some id, rfl, ?_, by simp only [State.push]; rw [hv, hsz], ?_⟩
        · intro k hk
          cases hk
          exact hfr _ id hr
        · intro b hb
          simp only [wanted, Option.some.injEq] at hb
          rw [← hb, hby]; exact hv
  | copy _ | move _ | assign _ _ | moveAssign _ _ | swap _ _ | destroy _ | write _ _ _ =>
    simp [allocates] at ha

theorem mem_lt_next {s : State} (hi : Inv s) {id : Nat} (h : some id ∈ s.bufs) :
    id < s.mem.next := by
  obtain ⟨c, hc⟩ := hi.live id h
  by_contra hn
  rw [hi.fresh id (by omega)] at hc
  simp at hc

/-- Where the storages of the objects after an operation come from. -/
theorem origin {s s' : State} {o : Op} {k j id : Nat} (hi : Inv s) (hs : s.step o = some s')
    (hk : ¬ o.involves k) (hj : j ≠ k) (h : s'.bufs[j]? = some (some id)) (hid : some id ∈ s.bufs) :
    ∃ j', j' ≠ k ∧ s.bufs[j']? = some (some id) := by
  have hok := ok_of_step hi hs
  have happ : ∀ {l : List (Option Nat)} {x : Option Nat}, (l ++ [x])[j]? = some (some id) →
      l[j]? = some (some id) ∨ x = some id := by
    intro l x h
    by_cases hl : j < l.length
    · rw [List.getElem?_append_left hl] at h; exact Or.inl h
    · right
      rw [List.getElem?_append_right (by omega)] at h
      have : j - l.length = 0 := by
        by_contra hne
        rw [List.getElem?_eq_none (by simp; omega)] at h
        simp at h
      rw [this] at h
      simpa using h
  have hset : ∀ {l : List (Option Nat)} {i : Nat} {x : Option Nat}, (l.set i x)[j]? = some (some id) →
      (i ≠ j ∧ l[j]? = some (some id)) ∨ (i = j ∧ x = some id) := by
    intro l i x h
    by_cases e : i = j
    · right
      subst e
      rw [List.getElem?_set] at h
      simp only [if_true] at h
      split at h
      · exact ⟨rfl, Option.some.inj h⟩
      · simp at h
    · left; rw [keep_set e] at h; exact ⟨e, h⟩
  have halloc : ∀ n, allocates s o = some n → ∃ j', j' ≠ k ∧ s.bufs[j']? = some (some id) := by
    intro n ha
    obtain ⟨x, hb, hf, _⟩ := built hi ha hs
    rw [hb] at h
    rcases happ h with h | h
    · exact ⟨j, hj, h⟩
    · exact absurd hid (hf id h)
  cases o with
  | new n => exact halloc _ rfl
  | newInit n z => exact halloc _ rfl
  | newFrom d => exact halloc _ rfl
  | newDeep i => exact halloc _ rfl
  | copy i =>
    obtain ⟨x, hx⟩ := get_of_lt hok
    simp only [State.step, hx] at hs
    cases ha : s.mem.acquire x with
    | none => rw [ha] at hs; simp at hs
    | some m =>
      rw [ha] at hs
      simp only [Option.map_some, Option.some.injEq] at hs
      subst hs
      rcases happ h with h | h
      · exact ⟨j, hj, h⟩
      · exact ⟨i, hk, by rw [hx]; exact congrArg some h⟩
  | move i =>
    obtain ⟨x, hx⟩ := get_of_lt hok
    simp only [State.step, hx, Option.some.injEq] at hs
    subst hs
    rcases happ h with h | h
    · rcases hset h with ⟨_, h⟩ | ⟨_, h⟩
      · exact ⟨j, hj, h⟩
      · simp at h
    · exact ⟨i, hk, by rw [hx, h]⟩
  | assign a b =>
    simp only [Op.involves, not_or] at hk
    obtain ⟨x, hx⟩ := get_of_lt hok.1
    obtain ⟨y, hy⟩ := get_of_lt hok.2
    simp only [State.step, hx, hy] at hs
    by_cases hab : a = b
    · rw [if_pos hab] at hs
      cases hs
      exact ⟨j, hj, h⟩
    · rw [if_neg hab] at hs
      cases ha : s.mem.acquire y with
      | none => rw [ha] at hs; simp at hs
      | some m =>
        rw [ha] at hs
        simp only [] at hs
        cases hb : m.release x with
        | none => rw [hb] at hs; simp at hs
        | some m2 =>
          rw [hb] at hs
          simp only [Option.map_some, Option.some.injEq] at hs
          subst hs
          rcases hset h with ⟨_, h⟩ | ⟨_, h⟩
          · exact ⟨j, hj, h⟩
          · exact ⟨b, hk.2, by rw [hy, h]⟩
  | moveAssign a b =>
    simp only [Op.involves, not_or] at hk
    obtain ⟨x, hx⟩ := get_of_lt hok.1
    obtain ⟨y, hy⟩ := get_of_lt hok.2
    simp only [State.step, hx, hy] at hs
    by_cases hab : a = b
    · rw [if_pos hab] at hs
      cases hs
      exact ⟨j, hj, h⟩
    · rw [if_neg hab] at hs
      cases hb : s.mem.release x with
      | none => rw [hb] at hs; simp at hs
      | some m2 =>
        rw [hb] at hs
        simp only [Option.map_some, Option.some.injEq] at hs
        subst hs
        rcases hset h with ⟨_, h⟩ | ⟨_, h⟩
        · rcases hset h with ⟨_, h⟩ | ⟨_, h⟩
          · exact ⟨j, hj, h⟩
          · exact ⟨b, hk.2, by rw [hy, h]⟩
        · simp at h
  | swap a b =>
    simp only [Op.involves, not_or] at hk
    obtain ⟨x, hx⟩ := get_of_lt hok.1
    obtain ⟨y, hy⟩ := get_of_lt hok.2
    simp only [State.step, hx, hy, Option.some.injEq] at hs
    subst hs
    rcases hset h with ⟨_, h⟩ | ⟨_, h⟩
    · rcases hset h with ⟨_, h⟩ | ⟨_, h⟩
      · exact ⟨j, hj, h⟩
      · exact ⟨b, hk.2, by rw [hy, h]⟩
    · exact ⟨a, hk.1, by rw [hx, h]⟩
  | destroy i =>
    obtain ⟨x, hx⟩ := get_of_lt hok
    simp only [State.step, hx] at hs
    cases ha : s.mem.release x with
    | none => rw [ha] at hs; simp at hs
    | some m =>
      rw [ha] at hs
      simp only [Option.map_some, Option.some.injEq] at hs
      subst hs
      rcases hset h with ⟨_, h⟩ | ⟨_, h⟩
      · exact ⟨j, hj, h⟩
      · simp at h
  | write i off d =>
    obtain ⟨x, hx⟩ := get_of_lt hok.1
    simp only [State.step, hx] at hs
    cases ha : s.mem.write x off d with
    | none => rw [ha] at hs; simp at hs
    | some m =>
      rw [ha] at hs
      simp only [Option.map_some, Option.some.injEq] at hs
      subst hs
      exact ⟨j, hj, h⟩

theorem rebinds_involves {o : Op} {k : Nat} (h : ¬ o.involves k) : ¬ o.rebinds k := by
  cases o <;> simp only [Op.involves, Op.rebinds, not_or] at h ⊢ <;> first | exact h | exact h.1 | simp

theorem sole_step {s s' : State} {o : Op} {k : Nat} (hi : Inv s) (hkl : k < s.bufs.length)
    (hs : s.step o = some s') (hk : ¬ o.involves k) (h : Sole s k) :
    Sole s' k ∧ s'.bytes k = s.bytes k := by
  have hd := done_of_step hi hs
  have hkeep := hd.keep k hkl (rebinds_involves hk)
  constructor
  · intro j id h1 h2
    rw [hkeep] at h2
    by_contra hne
    obtain ⟨j', h3, h4⟩ := origin hi hs hk hne h1 (getElem?_mem h2)
    exact h3 (h j' id h4 h2)
  · obtain ⟨x, hx⟩ := get_of_lt hkl
    rw [step_bytes hi hs hx (rebinds_involves hk)]
    cases x with
    | none => rw [bytes_of hx]; rfl
    | some id =>
      cases o with
      | write i off d =>
        simp only [effect]
        rw [if_neg]
        intro h1
        exact hk (h i id h1 hx)
      | _ => rfl

theorem sole_run {k : Nat} {hist : List Op} : ∀ {s s' : State}, Inv s → k < s.bufs.length → Sole s k →
    (∀ o ∈ hist, ¬ o.involves k) → s.run hist = some s' → s'.bytes k = s.bytes k := by
  induction hist with
  | nil => intro s s' _ _ _ _ h; simp [State.run] at h; rw [h]
  | cons o os ih =>
    intro s s' hi hk hso hr h
    obtain ⟨s1, h1, h2⟩ := run_cases h
    have hd := done_of_step hi h1
    obtain ⟨h3, h4⟩ := sole_step hi hk h1 (hr o List.mem_cons_self) hso
    rw [ih hd.inv (Nat.lt_of_lt_of_le hk hd.len) h3 (fun o' ho' => hr o' (List.mem_cons_of_mem _ ho')) h2,
      h4]

/-- C97.  A constructor gives a new buffer of the requested size, with zeros, the given bytes, or a
copy of the source's bytes; and no history of operations that does not itself use the new buffer
changes those bytes - in particular not writes to the source of a deep copy. -/
theorem constructed_is_independent {s s1 s2 : State} {o : Op} {n : Nat} {hist : List Op}
    (hr : Reach s) (ha : allocates s o = some n) (h : s.step o = some s1)
    (hrun : s1.run hist = some s2) (hk : ∀ o' ∈ hist, ¬ o'.involves s.bufs.length) :
    s1.size s.bufs.length = n ∧ (∀ b, wanted s o = some b → s1.bytes s.bufs.length = b) ∧
    s2.bytes s.bufs.length = s1.bytes s.bufs.length := by
  have hi := reach_inv hr
  obtain ⟨x, hb, hf, hl, hw⟩ := built hi ha h
  have hx : s1.bufs[s.bufs.length]? = some x := by rw [hb]; simp
  refine ⟨by rw [size_view, bytes_of hx, hl], fun b h => by rw [bytes_of hx]; exact hw b h, ?_⟩
  refine sole_run (done_of_step hi h).inv (by rw [hb]; simp) ?_ hk hrun
  intro j id h1 h2
  rw [hx] at h2
  cases h2
  by_contra hne
  rw [hb] at h1
  by_cases hj : j < s.bufs.length
  · rw [List.getElem?_append_left hj] at h1
    exact hf id rfl (getElem?_mem h1)
  · rw [List.getElem?_eq_none (by simp; omega)] at h1
    simp at h1

/-- C97.  The deep copy and its source are independent in the other direction too: a history that
uses only other buffers than the source leaves the source alone if the source shares with none. -/
theorem unshared_is_untouched {s s' : State} {k : Nat} {hist : List Op} (hr : Reach s)
    (hk : k < s.bufs.length)
    (hs : ∀ j id, s.bufs[j]? = some (some id) → s.bufs[k]? = some (some id) → j = k)
    (hh : ∀ o ∈ hist, ¬ o.involves k) (hrun : s.run hist = some s') : s'.bytes k = s.bytes k :=
  sole_run (reach_inv hr) hk hs hh hrun

/-! ### C98: lifetime -/

/-- C98.  From every reachable state an operation is free of undefined behaviour exactly when its
buffers exist and, for a write, the range lies inside the buffer. -/
theorem defined_iff_valid {s : State} (hr : Reach s) (o : Op) :
    (s.step o).isSome ↔ o.ok s := by
  have hi := reach_inv hr
  constructor
  · intro h
    obtain ⟨s', hs⟩ := Option.isSome_iff_exists.mp h
    exact ok_of_step hi hs
  · intro h
    obtain ⟨s', hs, _⟩ := step_done hi h
    rw [hs]; rfl

/-- C98.  A storage exists exactly while some buffer holds it, its reference count is the number of
buffers holding it, and once every buffer is empty or destroyed nothing is left allocated. -/
theorem storage_lifetime {s : State} (hr : Reach s) :
    (∀ id, (s.mem.mem id).isSome ↔ some id ∈ s.bufs) ∧
    (∀ id c, s.mem.mem id = some c → c.ref = s.bufs.count (some id)) ∧
    ((∀ x ∈ s.bufs, x = none) → ∀ id, s.mem.mem id = none) := by
  have hi := reach_inv hr
  have h1 : ∀ id, (s.mem.mem id).isSome ↔ some id ∈ s.bufs := by
    intro id
    constructor
    · intro h
      obtain ⟨c, hc⟩ := Option.isSome_iff_exists.mp h
      obtain ⟨a, b, _⟩ := hi.ref id c hc
      rw [a] at b
      exact (count_pos_of _ _).mp b
    · intro h
      obtain ⟨c, hc⟩ := hi.live id h
      rw [hc]; rfl
  refine ⟨h1, fun id c h => (hi.ref id c h).1, ?_⟩
  intro h id
  cases hm : s.mem.mem id with
  | none => rfl
  | some c =>
    have := (h1 id).mp (by rw [hm]; rfl)
    exact absurd (h _ this) (by simp)

/-- C98.  Moving takes the bytes along and leaves the source empty. -/
theorem move_transfers {s s' : State} {j : Nat} (hr : Reach s) (h : s.step (.move j) = some s') :
    s'.bytes s.bufs.length = s.bytes j ∧ s'.size j = 0 ∧
    ∀ k, k < s.bufs.length → k ≠ j → s'.bytes k = s.bytes k := by
  have hi := reach_inv hr
  have hok : j < s.bufs.length := ok_of_step hi h
  obtain ⟨x, hx⟩ := get_of_lt hok
  simp only [State.step, hx, Option.some.injEq] at h
  subst h
  refine ⟨?_, ?_, ?_⟩
  · have : (s.bufs.set j none ++ [x])[s.bufs.length]? = some x := by simp
    rw [bytes_of (x := x) (by exact this), bytes_of hx]
  · simp [State.size, List.getElem?_append_left, hok, List.getElem?_set]
  · intro k hk hne
    simp only [State.bytes]
    rw [List.getElem?_append_left (by simpa using hk), keep_set (fun e => hne e.symm)]

/-! ### C99: CopyTo -/

/-- C99.  `CopyTo` into a block of at least `size` bytes copies the first `min size GetSize()` bytes,
returns that number and leaves the rest of the block alone. -/
theorem copyTo_copies {s : State} (hr : Reach s) {i size : Nat} {dst : List Byte}
    (hi : i < s.bufs.length) (hd : size ≤ dst.length) :
    s.copyTo i dst size =
      some ((s.bytes i).take (min size (s.size i)) ++ dst.drop (min size (s.size i)),
        min size (s.size i)) := by
  have hinv := reach_inv hr
  obtain ⟨x, hx⟩ := get_of_lt hi
  cases x with
  | none => simp [State.copyTo, State.bytes, State.size, hx, Mem.view]
  | some id =>
    obtain ⟨c, hc⟩ := hinv.live id (getElem?_mem hx)
    have e : (if c.bytes.length ≤ size then c.bytes.length else size) = min size c.bytes.length := by
      split <;> omega
    simp only [State.copyTo, State.bytes, State.size, hx, hc, Mem.view, e]
    rw [if_pos (by omega)]

/-! ### Concrete cases -/

private def j0 : Nat → Nat → Byte := fun _ _ => 7

private def prog : List Op :=
  [.newFrom [1, 2, 3], .copy 0, .newDeep 0, .write 1 1 [9], .new 2, .assign 0 3, .destroy 1]

/-- A history with sharing, a deep copy, a write through the copy, reassignment and destruction. -/
theorem fixed_example :
    (((State.init j0).run prog).map (fun s => (List.range 4).map s.bytes)) =
      some [[7, 7], [], [1, 2, 3], [7, 7]] ∧
    (((State.init j0).run (prog.take 4)).map (fun s => (List.range 3).map s.bytes)) =
      some [[1, 9, 3], [1, 9, 3], [1, 2, 3]] := by
  decide

/-- The hypotheses of the theorems on copies hold in that history. -/
example : ∃ s s1 s2, Reach s ∧ s.step (.copy 0) = some s1 ∧
    s1.run [.newDeep 0, .write 1 1 [9]] = some s2 ∧
    (∀ o ∈ ([.newDeep 0, .write 1 1 [9]] : List Op), ¬ o.rebinds 0) ∧
    (∀ o ∈ ([.newDeep 0, .write 1 1 [9]] : List Op), ¬ o.rebinds s.bufs.length) := by
  refine ⟨_, _, _, ⟨j0, [.newFrom [1, 2, 3]], rfl⟩, rfl, rfl, ?_, ?_⟩ <;> simp [Op.rebinds]

/-- A read-only or writable copy after its original was destroyed still reads its bytes. -/
example : (((State.init j0).run [.newFrom [1, 2], .copy 0, .destroy 0]).map (fun s =>
    (s.bytes 0, s.bytes 1))) = some ([], [1, 2]) := by decide

end Verif.Fixed
