import Verif.Buf.BufferLemmas

/-!
Property theorems about `Buffer` (C01-C07).

A reachable state is one that some history of operations reaches from no buffers at all, with any
contents of uninitialised memory.
-/
set_option linter.unusedSimpArgs false
set_option linter.unusedVariables false
namespace Verif.Buf

/-- Reached by a history. -/
def Reach (s : State) : Prop := ∃ junk hist, (State.init junk).run hist = some s

theorem init_base (junk) : Base (State.init junk).mem (State.init junk).bufs :=
  ⟨fun _ _ => rfl, by simp [State.init], by simp [State.init], by simp [State.init]⟩

theorem init_wide (b junk) : Wide b (State.init junk).mem (State.init junk).bufs := by
  intro s hs; simp [State.init] at hs

/-- The buffer that takes another buffer's bytes exists. -/
def Op.destOk (s : State) : Op → Prop
  | .addStartBuf i _ | .addEndBuf i _ => i < s.bufs.length
  | _ => True

/-- An operation that is defined respects its preconditions. -/
theorem step_some_ok {s s' : State} {o : Op} (hb : Base s.mem s.bufs) (h : s.step o = some s')
    (hij : o.destOk s) : o.ok s := by
  have key : ∀ {j : Nat} {b : Seg}, s.bufs[j]? = some b → j < s.bufs.length :=
    fun h => (List.getElem?_eq_some_iff.mp h).1
  cases o with
  | new | newFrom => trivial
  | copy j | move j =>
    simp only [State.step] at h
    split at h
    · cases h
    · rename_i e; exact key e
  | assign i j | moveAssign i j | swap i j =>
    simp only [State.step] at h
    split at h
    · rename_i e1 e2; exact ⟨key e1, key e2⟩
    · cases h
  | destroy i | addStart i n | addEnd i n | addStartBytes i n | addEndBytes i n | removeStart i n
  | removeEnd i n =>
    simp only [State.step, State.on] at h
    split at h
    · cases h
    · rename_i e; exact key e
  | addStartBuf i j | addEndBuf i j =>
    simp only [State.step] at h
    split at h
    · cases h
    · rename_i e; exact ⟨hij, key e⟩
  | fragment j a n =>
    simp only [State.step] at h
    split at h
    · cases h
    · rename_i b e
      refine ⟨key e, ?_⟩
      rw [size_of e]
      by_cases hc : a ≤ b.hi - b.lo ∧ n ≤ (b.hi - b.lo) - a
      · omega
      · simp only [makeFragment, if_neg hc, State.push] at h; cases h
  | write i off d =>
    simp only [State.step, State.on] at h
    split at h
    · cases h
    · rename_i b e
      refine ⟨key e, ?_⟩
      rw [size_of e]
      by_cases hc : off + d.length ≤ b.hi - b.lo
      · exact hc
      · rw [if_neg hc] at h; cases h

theorem step_base {s s' : State} {o : Op} (hb : Base s.mem s.bufs) (h : s.step o = some s') :
    Base s'.mem s'.bufs ∧ (o.ok s ∨ s' = s) := by
  by_cases hij : o.destOk s
  · have hok := step_some_ok hb h hij
    obtain ⟨s1, hs⟩ := step_ok hb o hok
    rw [hs.step] at h; cases h
    exact ⟨hs.base, .inl hok⟩
  · -- appending an empty buffer to a buffer that does not exist changes nothing
    suffices s' = s by exact ⟨this ▸ hb, .inr this⟩
    cases o with
    | addStartBuf i j | addEndBuf i j =>
      simp only [State.step] at h
      split at h
      · cases h
      · split at h
        · cases h; rfl
        · have : s.bufs[i]? = none := List.getElem?_eq_none (by simpa [Op.destOk] using hij)
          simp [State.on, this] at h
    | _ => exact absurd trivial hij

theorem run_base {hist : List Op} : ∀ {s s' : State}, Base s.mem s.bufs → s.run hist = some s' →
    Base s'.mem s'.bufs := by
  induction hist with
  | nil => intro s s' hb h; cases h; exact hb
  | cons o os ih =>
    intro s s' hb h
    simp only [State.run] at h
    split at h
    · cases h
    · rename_i s1 e; exact ih (step_base hb e).1 h

theorem reach_base {s : State} (h : Reach s) : Base s.mem s.bufs := by
  obtain ⟨junk, hist, h⟩ := h
  exact run_base (init_base junk) h

/-- One more operation. -/
theorem run_append {hist : List Op} {o : Op} : ∀ {s s1 s2 : State}, s.run hist = some s1 →
    s1.step o = some s2 → s.run (hist ++ [o]) = some s2 := by
  induction hist with
  | nil => intro s s1 s2 h h2; cases h; simp [State.run, h2]
  | cons p os ih =>
    intro s s1 s2 h h2
    simp only [State.run, List.cons_append] at h ⊢
    split at h
    · cases h
    · rename_i e; exact ih h h2

theorem reach_step {s s' : State} {o : Op} (h : Reach s) (hs : s.step o = some s') : Reach s' := by
  obtain ⟨junk, hist, h⟩ := h
  exact ⟨junk, hist ++ [o], run_append h hs⟩

theorem size_eq_length {s : State} (hb : Base s.mem s.bufs) (i : Nat) : s.size i = (s.bytes i).length := by
  cases h : s.bufs[i]? with
  | none => simp [State.size, State.bytes, h]
  | some b => rw [size_of h, bytes_of h, view_length hb (List.mem_of_getElem? h)]

/-- A longer example history used to show that the hypotheses below are met: buffers 0 (10 bytes), 1 (a
copy), 2 (a fragment of 0). -/
def sample : Option State := (State.init (fun _ _ => 0xcc)).run
  [.new 4 10 4, .write 0 0 [1, 2, 3, 4, 5, 6, 7, 8, 9, 10], .copy 0, .fragment 0 2 5]

example : ∃ s, Reach s ∧ s.bufs.length = 3 ∧ s.bytes 0 = [1, 2, 3, 4, 5, 6, 7, 8, 9, 10] ∧
    s.bytes 1 = s.bytes 0 ∧ s.bytes 2 = [3, 4, 5, 6, 7] ∧ s.bufs[0]?.map (·.st) = some (some 0) ∧
    s.bufs[2]?.map (·.st) = some (some 0) :=
  ⟨sample.get (by rfl), ⟨_, _, (Option.some_get (by rfl)).symm⟩, by decide, by decide, by decide, by decide,
    by decide, by decide⟩

/-! ### C01 -/

/-- C01: `GetSize` is the length of the byte sequence. -/
theorem C01_size {s : State} (h : Reach s) (i : Nat) : s.size i = (s.bytes i).length :=
  size_eq_length (reach_base h) i

/-- C01: `AddAtStart(n)` prepends `n` bytes and leaves every other buffer alone. -/
theorem C01_addAtStart {s : State} (h : Reach s) {i : Nat} (hi : i < s.bufs.length) (n : Nat) :
    ∃ s', s.step (.addStart i n) = some s' ∧ s'.bufs.length = s.bufs.length ∧
      (∃ fresh, fresh.length = n ∧ s'.bytes i = fresh ++ s.bytes i) ∧
      s'.size i = n + s.size i ∧ ∀ k, k < s.bufs.length → k ≠ i → s'.bytes k = s.bytes k := by
  obtain ⟨s', hs⟩ := step_ok (reach_base h) (.addStart i n) hi
  obtain ⟨h1, pre, h2, h3⟩ := hs.effect
  refine ⟨s', hs.step, h1, ⟨pre, h2, h3⟩, ?_, fun k hk hki => hs.frame rfl k hk (by simpa [Op.targets] using hki)⟩
  rw [size_eq_length hs.base, size_eq_length (reach_base h), h3, List.length_append, h2]

/-- C01: `AddAtEnd(n)` appends `n` bytes and leaves every other buffer alone. -/
theorem C01_addAtEnd {s : State} (h : Reach s) {i : Nat} (hi : i < s.bufs.length) (n : Nat) :
    ∃ s', s.step (.addEnd i n) = some s' ∧ s'.bufs.length = s.bufs.length ∧
      (∃ fresh, fresh.length = n ∧ s'.bytes i = s.bytes i ++ fresh) ∧
      s'.size i = s.size i + n ∧ ∀ k, k < s.bufs.length → k ≠ i → s'.bytes k = s.bytes k := by
  obtain ⟨s', hs⟩ := step_ok (reach_base h) (.addEnd i n) hi
  obtain ⟨h1, pre, h2, h3⟩ := hs.effect
  refine ⟨s', hs.step, h1, ⟨pre, h2, h3⟩, ?_, fun k hk hki => hs.frame rfl k hk (by simpa [Op.targets] using hki)⟩
  rw [size_eq_length hs.base, size_eq_length (reach_base h), h3, List.length_append, h2]

/-- C01: `RemoveAtStart(n)` drops the first `min(n, size)` bytes. -/
theorem C01_removeAtStart {s : State} (h : Reach s) {i : Nat} (hi : i < s.bufs.length) (n : Nat) :
    ∃ s', s.step (.removeStart i n) = some s' ∧ s'.bufs.length = s.bufs.length ∧
      s'.bytes i = (s.bytes i).drop n ∧ s'.size i = s.size i - n ∧
      ∀ k, k < s.bufs.length → k ≠ i → s'.bytes k = s.bytes k := by
  obtain ⟨s', hs⟩ := step_ok (reach_base h) (.removeStart i n) hi
  obtain ⟨h1, h3⟩ := hs.effect
  refine ⟨s', hs.step, h1, h3, ?_, fun k hk hki => hs.frame rfl k hk (by simpa [Op.targets] using hki)⟩
  rw [size_eq_length hs.base, size_eq_length (reach_base h), h3, List.length_drop]

/-- C01: `RemoveAtEnd(n)` drops the last `min(n, size)` bytes. -/
theorem C01_removeAtEnd {s : State} (h : Reach s) {i : Nat} (hi : i < s.bufs.length) (n : Nat) :
    ∃ s', s.step (.removeEnd i n) = some s' ∧ s'.bufs.length = s.bufs.length ∧
      s'.bytes i = (s.bytes i).take ((s.bytes i).length - n) ∧ s'.size i = s.size i - n ∧
      ∀ k, k < s.bufs.length → k ≠ i → s'.bytes k = s.bytes k := by
  obtain ⟨s', hs⟩ := step_ok (reach_base h) (.removeEnd i n) hi
  obtain ⟨h1, h3⟩ := hs.effect
  refine ⟨s', hs.step, h1, h3, ?_, fun k hk hki => hs.frame rfl k hk (by simpa [Op.targets] using hki)⟩
  rw [size_eq_length hs.base, size_eq_length (reach_base h), h3, List.length_take]
  omega

/-- C01: construction, copy, move and assignment. -/
theorem C01_values {s : State} (h : Reach s) :
    (∀ a z e, ∃ s', s.step (.new a z e) = some s' ∧ s'.bytes s.bufs.length = List.replicate z 0 ∧
      ∀ k, k < s.bufs.length → s'.bytes k = s.bytes k) ∧
    (∀ j, j < s.bufs.length → ∃ s', s.step (.copy j) = some s' ∧ s'.bytes s.bufs.length = s.bytes j ∧
      ∀ k, k < s.bufs.length → s'.bytes k = s.bytes k) ∧
    (∀ j, j < s.bufs.length → ∃ s', s.step (.move j) = some s' ∧ s'.bytes s.bufs.length = s.bytes j ∧
      s'.bytes j = [] ∧ ∀ k, k < s.bufs.length → k ≠ j → s'.bytes k = s.bytes k) ∧
    (∀ i j, i < s.bufs.length → j < s.bufs.length → ∃ s', s.step (.assign i j) = some s' ∧
      s'.bytes i = s.bytes j ∧ ∀ k, k < s.bufs.length → k ≠ i → s'.bytes k = s.bytes k) ∧
    (∀ i j, i < s.bufs.length → j < s.bufs.length → i ≠ j → ∃ s', s.step (.moveAssign i j) = some s' ∧
      s'.bytes i = s.bytes j ∧ s'.bytes j = [] ∧
      ∀ k, k < s.bufs.length → k ≠ i → k ≠ j → s'.bytes k = s.bytes k) ∧
    (∀ i j, i < s.bufs.length → j < s.bufs.length → ∃ s', s.step (.swap i j) = some s' ∧
      s'.bytes i = s.bytes j ∧ s'.bytes j = s.bytes i ∧
      ∀ k, k < s.bufs.length → k ≠ i → k ≠ j → s'.bytes k = s.bytes k) := by
  have hb := reach_base h
  refine ⟨?_, ?_, ?_, ?_, ?_, ?_⟩
  · intro a z e
    obtain ⟨s', hs⟩ := step_ok hb (.new a z e) trivial
    exact ⟨s', hs.step, hs.effect.2, fun k hk => hs.frame rfl k hk (by simp [Op.targets])⟩
  · intro j hj
    obtain ⟨s', hs⟩ := step_ok hb (.copy j) hj
    exact ⟨s', hs.step, hs.effect.2, fun k hk => hs.frame rfl k hk (by simp [Op.targets])⟩
  · intro j hj
    obtain ⟨s', hs⟩ := step_ok hb (.move j) hj
    exact ⟨s', hs.step, hs.effect.2.1, hs.effect.2.2,
      fun k hk h => hs.frame rfl k hk (by simpa [Op.targets] using h)⟩
  · intro i j hi hj
    obtain ⟨s', hs⟩ := step_ok hb (.assign i j) ⟨hi, hj⟩
    exact ⟨s', hs.step, hs.effect.2, fun k hk h => hs.frame rfl k hk (by simpa [Op.targets] using h)⟩
  · intro i j hi hj hij
    obtain ⟨s', hs⟩ := step_ok hb (.moveAssign i j) ⟨hi, hj⟩
    exact ⟨s', hs.step, hs.effect.2.1, hs.effect.2.2 hij,
      fun k hk h h' => hs.frame rfl k hk (by simp [Op.targets, h, h'])⟩
  · intro i j hi hj
    obtain ⟨s', hs⟩ := step_ok hb (.swap i j) ⟨hi, hj⟩
    exact ⟨s', hs.step, hs.effect.2.1, hs.effect.2.2,
      fun k hk h h' => hs.frame rfl k hk (by simp [Op.targets, h, h'])⟩

/-- C01: after writing through an iterator the buffer reads as the overwritten sequence. -/
theorem C01_write {s : State} (h : Reach s) {i off : Nat} {d : List Byte} (hi : i < s.bufs.length)
    (hd : off + d.length ≤ s.size i) :
    ∃ s', s.step (.write i off d) = some s' ∧
      s'.bytes i = (s.bytes i).take off ++ d ++ (s.bytes i).drop (off + d.length) := by
  obtain ⟨s', hs⟩ := step_ok (reach_base h) (.write i off d) ⟨hi, hd⟩
  exact ⟨s', hs.step, hs.effect.2⟩

/-! ### C02 -/

/-- No fragment was ever made. -/
def Op.isFragment : Op → Bool
  | .fragment _ _ n => n != 0
  | _ => false

/-- A deep copy of another kind of buffer. -/
def Op.isDeep : Op → Bool
  | .newFrom _ => true
  | _ => false

theorem run_wide {b : Sides} {hist : List Op} : ∀ {s s' : State}, Base s.mem s.bufs → Wide b s.mem s.bufs →
    (∀ o ∈ hist, ∀ t, o.plain b t) → s.run hist = some s' → Wide b s'.mem s'.bufs := by
  induction hist with
  | nil => intro s s' _ hw _ h; cases h; exact hw
  | cons o os ih =>
    intro s s' hb hw hp h
    simp only [State.run] at h
    split at h
    · cases h
    · rename_i s1 e
      have h1 := step_base hb e
      refine ih h1.1 ?_ (fun o' ho' => hp o' (by simp [ho'])) h
      rcases h1.2 with hok | rfl
      · obtain ⟨s2, hs⟩ := step_ok hb o hok
        rw [hs.step] at e; cases e
        exact (hs.wide b (hp o (by simp) _) hw).1
      · exact hw

theorem plain_of {o : Op} (h1 : o.isFragment = false) (h2 : o.isDeep = false) (t : State) :
    o.plain (.all false) t := by
  cases o with
  | newFrom => simp [Op.isDeep] at h2
  | fragment j a n => exact .inl (by simpa [Op.isFragment] using h1)
  | addEnd | addEndBytes | addEndBuf => exact .inl rfl
  | _ => trivial

/-- C02 (partial: histories without fragments and without deep copies from other buffer kinds): no
operation on some buffers changes the bytes of another buffer, iterator writes into existing data
excepted. -/
theorem C02_isolation_partial {s : State} {junk} {hist : List Op}
    (h : (State.init junk).run hist = some s)
    (hp : ∀ o ∈ hist, o.isFragment = false ∧ o.isDeep = false) (o : Op) (ho : o.ok s)
    (hf : o.isFragment = false ∧ o.isDeep = false) (hw : o.isWrite = false) :
    ∃ s', s.step o = some s' ∧ ∀ k, k < s.bufs.length → k ∉ o.targets → s'.bytes k = s.bytes k := by
  have hb := run_base (init_base junk) h
  have hwd : Wide (.all false) s.mem s.bufs := run_wide (init_base junk) (init_wide _ junk)
    (fun o ho t => plain_of (hp o ho).1 (hp o ho).2 t) h
  obtain ⟨s', hs⟩ := step_ok hb o ho
  exact ⟨s', hs.step, frame_all ((hs.wide (.all false) (plain_of hf.1 hf.2 s) hwd).2 hw (sided_cover _ _ _))⟩

/-- After growing at the start under covered dirty ranges, the added area belongs to nobody else. -/
theorem write_added_start {s : State} (hb : Base s.mem s.bufs) {b : Sides} (hw : Wide b s.mem s.bufs)
    (hS : b.start = true) {i n : Nat}
    (hi : i < s.bufs.length) {off : Nat} {d : List Byte} (hn : 0 < n) (hd : off + d.length ≤ n) :
    ∃ s' s'', s.step (.addStart i n) = some s' ∧ s'.step (.write i off d) = some s'' ∧
      ∀ (k : Nat) (c : Seg), s.bufs[k]? = some c → k ≠ i → b.has c → s''.bytes k = s.bytes k := by
  obtain ⟨a, ha⟩ := get_of_lt hi
  have hp := (set_perm ha a).1
  obtain ⟨m', a', pre, e1, hb', hv, hpre, hlen, hvo, _, hw'⟩ := addAtStart_ok (base_perm hp hb) n
  have hstep : s.step (.addStart i n) = some ⟨m', s.bufs.set i a'⟩ :=
    on_eq (f := fun m b => addAtStart m b n) ha e1
  have ha' : (s.bufs.set i a')[i]? = some a' := by simp [hi]
  obtain ⟨m2, e2, hb2, _, hv2, hvo2, _⟩ := fill_ok hb' (off := a'.lo + off) (d := d) (by omega) (by omega)
  refine ⟨_, ⟨m2, (s.bufs.set i a').set i a'⟩, hstep, ?_, ?_⟩
  · refine on_eq (s := ⟨m', s.bufs.set i a'⟩) (m' := m2) (b' := a')
      (f := fun m b => if off + d.length ≤ b.hi - b.lo then
        (m.fill b (b.lo + off) d).map (fun m1 => (m1, b)) else none) ha' ?_
    rw [if_pos (by omega), e2]; rfl
  · intro k c hk hki hon
    have ht := mem_erase hk hki
    rw [List.set_set]
    simp only [State.bytes, List.getElem?_set_ne (Ne.symm hki), hk]
    rw [hvo2 c ht ?_, hvo c ht]
    intro hst
    have := (hw' b (wide_perm hp hw)).2 hn hS c ht hon hst
    omega

theorem write_added_end {s : State} (hb : Base s.mem s.bufs) {b : Sides} (hw : Wide b s.mem s.bufs)
    (hS : b.stop = true) {i n : Nat}
    (hi : i < s.bufs.length) {off : Nat} {d : List Byte} (hn : 0 < n) (hd : off + d.length ≤ n)
    (hc : b.loose = false ∨ s.size i ≠ 0) :
    ∃ s' s'', s.step (.addEnd i n) = some s' ∧ s'.step (.write i (s.size i + off) d) = some s'' ∧
      ∀ (k : Nat) (c : Seg), s.bufs[k]? = some c → k ≠ i → b.has c → s''.bytes k = s.bytes k := by
  obtain ⟨a, ha⟩ := get_of_lt hi
  have hp := (set_perm ha a).1
  obtain ⟨m', a', pre, e1, hb', hv, hpre, hlen, hvo, _, hle, hw'⟩ := addAtEnd_ok (base_perm hp hb) n
  have hstep : s.step (.addEnd i n) = some ⟨m', s.bufs.set i a'⟩ :=
    on_eq (f := fun m b => addAtEnd m b n) ha e1
  have ha' : (s.bufs.set i a')[i]? = some a' := by simp [hi]
  rw [size_of ha] at hc ⊢
  obtain ⟨m2, e2, hb2, _, hv2, hvo2, _⟩ := fill_ok hb' (off := a'.lo + (a.hi - a.lo + off)) (d := d)
    (by omega) (by omega)
  refine ⟨_, ⟨m2, (s.bufs.set i a').set i a'⟩, hstep, ?_, ?_⟩
  · refine on_eq (s := ⟨m', s.bufs.set i a'⟩) (m' := m2) (b' := a')
      (f := fun m b => if a.hi - a.lo + off + d.length ≤ b.hi - b.lo then
        (m.fill b (b.lo + (a.hi - a.lo + off)) d).map (fun m1 => (m1, b)) else none) ha' ?_
    rw [if_pos (by omega), e2]; rfl
  · intro k c hk hki hon
    have ht := mem_erase hk hki
    rw [List.set_set]
    simp only [State.bytes, List.getElem?_set_ne (Ne.symm hki), hk]
    rw [hvo2 c ht ?_, hvo c ht]
    intro hst
    have := (hw' b (by rcases hc with h | h <;> [exact .inl h; exact .inr (.inl (by omega))])
      (wide_perm hp hw)).2 hn hS c ht hon hst
    omega

/-- C02 (partial, same histories): bytes written into the area that `AddAtStart`/`AddAtEnd` just added
are seen by no other buffer. -/
theorem C02_added_area_partial {s : State} {junk} {hist : List Op}
    (h : (State.init junk).run hist = some s)
    (hp : ∀ o ∈ hist, o.isFragment = false ∧ o.isDeep = false) {i n off : Nat} {d : List Byte}
    (hi : i < s.bufs.length) (hn : 0 < n) (hd : off + d.length ≤ n) :
    (∃ s' s'', s.step (.addStart i n) = some s' ∧ s'.step (.write i off d) = some s'' ∧
      ∀ k, k < s.bufs.length → k ≠ i → s''.bytes k = s.bytes k) ∧
    (∃ s' s'', s.step (.addEnd i n) = some s' ∧ s'.step (.write i (s.size i + off) d) = some s'' ∧
      ∀ k, k < s.bufs.length → k ≠ i → s''.bytes k = s.bytes k) := by
  have hb := run_base (init_base junk) h
  have hwd : Wide (.all false) s.mem s.bufs := run_wide (init_base junk) (init_wide _ junk)
    (fun o ho t => plain_of (hp o ho).1 (hp o ho).2 t) h
  obtain ⟨s1, s2, g1, g2, g3⟩ := write_added_start hb hwd rfl hi hn hd
  obtain ⟨t1, t2, q1, q2, q3⟩ := write_added_end hb hwd rfl hi hn hd (.inl rfl)
  exact ⟨⟨s1, s2, g1, g2, fun k hk hki => g3 k _ (List.getElem?_eq_getElem hk) hki (has_all _ _)⟩,
    t1, t2, q1, q2, fun k hk hki => q3 k _ (List.getElem?_eq_getElem hk) hki (has_all _ _)⟩

example : ∃ s, (State.init (fun _ _ => 7)).run [.new 4 10 4, .copy 0, .removeStart 1 3] = some s ∧
    (Op.addStartBytes 1 [9, 9]).ok s ∧ s.bytes 0 = List.replicate 10 0 :=
  ⟨Option.get ((State.init (fun _ _ => 7)).run [.new 4 10 4, .copy 0, .removeStart 1 3]) (by rfl),
    (Option.some_get _).symm, show 1 < List.length _ by decide, by decide⟩

/-- C02 fails in general: `MakeFragment` shrinks the storage's dirty range to the fragment, so growing
the fragment in place overwrites the original. -/
theorem C02_isolation_fails : ∃ (hist : List Op) (s s' : State),
    (State.init (fun _ _ => 0)).run hist = some s ∧ s.step (.addStartBytes 1 [0xff, 0xff]) = some s' ∧
    s.bytes 0 = [1, 2, 3, 4, 5, 6] ∧ s'.bytes 0 = [0xff, 0xff, 3, 4, 5, 6] := by
  refine ⟨[.newFrom [1, 2, 3, 4, 5, 6], .fragment 0 2 3],
    ((State.init (fun _ _ => 0)).run [.newFrom [1, 2, 3, 4, 5, 6], .fragment 0 2 3]).get (by rfl),
    ((State.init (fun _ _ => 0)).run [.newFrom [1, 2, 3, 4, 5, 6], .fragment 0 2 3,
      .addStartBytes 1 [0xff, 0xff]]).get (by rfl), (Option.some_get _).symm, by rfl, by decide, by decide⟩

/-! ### C03 -/

/-- C03: a fragment reads as the slice, and making it changes no existing buffer. -/
theorem C03_fragment {s : State} (h : Reach s) {j a n : Nat} (hj : j < s.bufs.length)
    (h1 : a ≤ s.size j) (h2 : n ≤ s.size j - a) :
    ∃ s', s.step (.fragment j a n) = some s' ∧ s'.bufs.length = s.bufs.length + 1 ∧
      s'.bytes s.bufs.length = ((s.bytes j).drop a).take n ∧ s'.size s.bufs.length = n ∧
      ∀ k, k < s.bufs.length → s'.bytes k = s.bytes k := by
  obtain ⟨s', hs⟩ := step_ok (reach_base h) (.fragment j a n) ⟨hj, by omega⟩
  refine ⟨s', hs.step, hs.effect.1, hs.effect.2, ?_, fun k hk => hs.frame rfl k hk (by simp [Op.targets])⟩
  rw [size_eq_length hs.base, hs.effect.2, List.length_take, List.length_drop,
    ← size_eq_length (reach_base h)]
  omega

/-- C03: asking for more than the buffer has is refused (an assertion fails). -/
theorem C03_out_of_range {s : State} {j a n : Nat} (h : s.size j < a + n) :
    s.step (.fragment j a n) = none := by
  cases hj : s.bufs[j]? with
  | none => simp [State.step, hj]
  | some b =>
    rw [size_of hj] at h
    have hc : ¬(a ≤ b.hi - b.lo ∧ n ≤ (b.hi - b.lo) - a) := by omega
    simp [State.step, hj, makeFragment, if_neg hc, State.push]

/-! ### C04 -/

/-- C04: a deep copy of another kind of buffer has the same bytes, and what is written into it or into any
older buffer afterwards is not seen by the other. -/
theorem C04_deep_copy {s : State} (h : Reach s) (d : List Byte) :
    ∃ s', s.step (.newFrom d) = some s' ∧ s'.bytes s.bufs.length = d ∧
      (∀ k, k < s.bufs.length → s'.bytes k = s.bytes k) ∧
      (∀ off e s'', s'.step (.write s.bufs.length off e) = some s'' →
        ∀ k, k < s.bufs.length → s''.bytes k = s.bytes k) ∧
      (∀ i off e s'', i < s.bufs.length → s'.step (.write i off e) = some s'' →
        s''.bytes s.bufs.length = d) := by
  have hb := reach_base h
  obtain ⟨m', b', e1, hb', hv, hvo, _, hne⟩ := constructFrom_ok hb d
  have hstep : s.step (.newFrom d) = some ⟨m', s.bufs ++ [b']⟩ := by simp [State.step, State.push, e1]
  have hpush := bytes_push (s := s) (b' := b') hvo
  have hlast : (s.bufs ++ [b'])[s.bufs.length]? = some b' := by simp
  refine ⟨_, hstep, by rw [hpush.2, hv], hpush.1, ?_, ?_⟩
  · intro off e s'' hs k hk
    simp only [State.step, State.on, hlast] at hs
    split at hs
    · rename_i hle
      obtain ⟨m2, e2, _, _, _, hvo2, _⟩ := fill_ok hb' (off := b'.lo + off) (d := e) (by omega) (by
        cases hst : b'.st with
        | none => have := hb'.null b' (by simp) hst; omega
        | some id => obtain ⟨_, _, h, _⟩ := hb'.held b' (by simp) id hst; omega)
      rw [e2] at hs; cases hs
      rw [← hpush.1 k hk]
      simp only [State.bytes, List.set_append_right _ _ (Nat.le_refl _), Nat.sub_self, List.set_cons_zero,
        List.getElem?_append_left hk, List.getElem?_eq_getElem hk]
      by_cases hst : (s.bufs[k]).st = none
      · simp [Mem.view, hst]
      · obtain ⟨id, hid⟩ := Option.ne_none_iff_exists'.mp hst
        refine hvo2 _ (List.getElem_mem hk) fun e => ?_
        exact absurd (e ▸ hid) (hne _ (List.getElem_mem hk) id hid)
    · cases hs
  · intro i off e s'' hi hs
    have hib : (s.bufs ++ [b'])[i]? = some s.bufs[i] := by
      rw [List.getElem?_append_left hi, List.getElem?_eq_getElem hi]
    simp only [State.step, State.on, hib] at hs
    split at hs
    · rename_i hle
      have hp := (set_perm hib s.bufs[i]).1
      have hb2 := base_perm hp (base_cons.mp hb')
      obtain ⟨m2, e2, _, _, _, hvo2, _⟩ := fill_ok hb2 (off := (s.bufs[i]).lo + off) (d := e) (by omega) (by
        cases hst : (s.bufs[i]).st with
        | none => have := hb2.null _ (by simp) hst; omega
        | some id => obtain ⟨_, _, h, _⟩ := hb2.held _ (by simp) id hst; omega)
      rw [e2] at hs; cases hs
      have hne' : s.bufs.length ≠ i := by omega
      simp only [State.bytes, List.getElem?_set_ne (Ne.symm hne'), hlast]
      rw [hvo2 b' (mem_erase hlast hne') ?_, hv]
      intro e'
      cases hst : b'.st with
      | none =>
        have h1 := hb'.null b' (by simp) hst
        have h2 := hb2.null _ (by simp) (e' ▸ hst)
        omega
      | some id => exact absurd hst (hne _ (List.getElem_mem hi) id (e' ▸ hst))
    · cases hs

/-- C04 (partial: histories without fragments in which `AddAtEnd` never grows an empty buffer): with deep
copies around, resizing still leaves every other buffer alone. -/
theorem C04_isolation_partial {s : State} {junk} {hist : List Op} (o : Op)
    (h : (State.init junk).run hist = some s)
    (hp : ∀ pre p post, hist = pre ++ p :: post → ∀ t, (State.init junk).run pre = some t → p.plain (.all true) t)
    (ho : o.ok s) (hf : o.plain (.all true) s) (hw : o.isWrite = false) :
    ∃ s', s.step o = some s' ∧ ∀ k, k < s.bufs.length → k ∉ o.targets → s'.bytes k = s.bytes k := by
  have hb := run_base (init_base junk) h
  have key : ∀ (hist : List Op) (s0 s : State), Base s0.mem s0.bufs → Wide (.all true) s0.mem s0.bufs →
      s0.run hist = some s →
      (∀ pre p post, hist = pre ++ p :: post → ∀ t, s0.run pre = some t → p.plain (.all true) t) →
      Wide (.all true) s.mem s.bufs := by
    intro hist
    induction hist with
    | nil => intro s0 s _ hw h _; cases h; exact hw
    | cons o os ih =>
      intro s0 s hb hw h hp
      simp only [State.run] at h
      split at h
      · cases h
      · rename_i s1 e
        have h1 := step_base hb e
        refine ih s1 s h1.1 ?_ h ?_
        · rcases h1.2 with hok | rfl
          · obtain ⟨s2, hs⟩ := step_ok hb o hok
            rw [hs.step] at e; cases e
            exact (hs.wide (.all true) (hp [] o os rfl s0 rfl) hw).1
          · exact hw
        · intro pre p post he t ht
          exact hp (o :: pre) p post (by simp [he]) t (by simp [State.run, e, ht])
  have hwd := key hist _ s (init_base junk) (init_wide _ junk) h hp
  obtain ⟨s', hs⟩ := step_ok hb o ho
  exact ⟨s', hs.step, frame_all ((hs.wide (.all true) hf hwd).2 hw (sided_cover _ _ _))⟩

/-- C04 fails in general: the deep copy leaves the dirty range of its storage empty, so a copy of it that
removes everything and appends overwrites it. -/
theorem C04_isolation_fails : ∃ (hist : List Op) (s s' : State),
    (State.init (fun _ _ => 0)).run hist = some s ∧ s.step (.addEndBytes 1 [0xff, 0xff]) = some s' ∧
    (∀ o ∈ hist, o.isFragment = false) ∧
    s.bytes 0 = [1, 2, 3, 4] ∧ s'.bytes 0 = [0xff, 0xff, 3, 4] := by
  refine ⟨[.newFrom [1, 2, 3, 4], .copy 0, .removeEnd 1 4],
    ((State.init (fun _ _ => 0)).run [.newFrom [1, 2, 3, 4], .copy 0, .removeEnd 1 4]).get (by rfl),
    ((State.init (fun _ _ => 0)).run [.newFrom [1, 2, 3, 4], .copy 0, .removeEnd 1 4,
      .addEndBytes 1 [0xff, 0xff]]).get (by rfl), (Option.some_get _).symm, by rfl, by decide, by decide, by decide⟩

/-! ### C05 -/

/-- C05: reference counts are exact; a storage is live exactly while some buffer holds it; every buffer's
range lies within its live storage. -/
theorem C05_refcounts {s : State} (h : Reach s) :
    (∀ id x, s.mem.mem id = some x → x.ref = s.bufs.countP (fun b => b.st == some id)) ∧
    (∀ id, (∃ x, s.mem.mem id = some x) ↔ ∃ b ∈ s.bufs, b.st = some id) ∧
    (∀ b ∈ s.bufs, ∀ id, b.st = some id → ∃ x, s.mem.mem id = some x ∧ b.lo ≤ b.hi ∧ b.hi ≤ x.cap) ∧
    (∀ b ∈ s.bufs, b.st = none → b.lo = 0 ∧ b.hi = 0) := by
  have hb := reach_base h
  refine ⟨fun id x hx => (hb.refs id x hx).1, fun id => ⟨?_, ?_⟩, hb.held, hb.null⟩
  · rintro ⟨x, hx⟩
    obtain ⟨h1, h2⟩ := hb.refs id x hx
    rw [h1, List.countP_pos_iff] at h2
    obtain ⟨b, hb1, hb2⟩ := h2
    exact ⟨b, hb1, holds_iff.mp hb2⟩
  · rintro ⟨b, hb1, hb2⟩
    obtain ⟨x, hx, _⟩ := hb.held b hb1 id hb2
    exact ⟨x, hx⟩

/-- C05: no operation with valid arguments ever touches freed or foreign memory. -/
theorem C05_defined {s : State} (h : Reach s) (o : Op) (ho : o.ok s) : ∃ s', s.step o = some s' ∧ Reach s' := by
  obtain ⟨s', hs⟩ := step_ok (reach_base h) o ho
  exact ⟨s', hs.step, reach_step h hs.step⟩

/-- C05: once every buffer is destroyed or emptied of its storage, no storage is left. -/
theorem C05_no_leak {s : State} (h : Reach s) (hn : ∀ b ∈ s.bufs, b.st = none) (id : Nat) :
    s.mem.mem id = none := by
  have := (C05_refcounts h).2.1 id
  cases hx : s.mem.mem id with
  | none => rfl
  | some x =>
    obtain ⟨b, hb, e⟩ := this.mp ⟨x, hx⟩
    rw [hn b hb] at e; cases e

/-! ### C06 -/

/-- C06: prepending and appending a block of bytes. -/
theorem C06_bytes {s : State} (h : Reach s) {i : Nat} (hi : i < s.bufs.length) (d : List Byte) :
    (∃ s', s.step (.addStartBytes i d) = some s' ∧ s'.bytes i = d ++ s.bytes i) ∧
    (∃ s', s.step (.addEndBytes i d) = some s' ∧ s'.bytes i = s.bytes i ++ d) := by
  obtain ⟨s', hs⟩ := step_ok (reach_base h) (.addStartBytes i d) hi
  obtain ⟨s'', hs'⟩ := step_ok (reach_base h) (.addEndBytes i d) hi
  exact ⟨⟨s', hs.step, hs.effect.2⟩, ⟨s'', hs'.step, hs'.effect.2⟩⟩

/-- C06: appending a buffer, also to itself. -/
theorem C06_append {s : State} (h : Reach s) {i j : Nat} (hi : i < s.bufs.length) (hj : j < s.bufs.length) :
    ∃ s', s.step (.addEndBuf i j) = some s' ∧ s'.bytes i = s.bytes i ++ s.bytes j := by
  obtain ⟨s', hs⟩ := step_ok (reach_base h) (.addEndBuf i j) ⟨hi, hj⟩
  exact ⟨s', hs.step, hs.effect.2⟩

/-- C06 (partial: not for a buffer prepended to itself): prepending another buffer. -/
theorem C06_prepend_partial {s : State} (h : Reach s) {i j : Nat} (hi : i < s.bufs.length)
    (hj : j < s.bufs.length) (hij : i ≠ j) :
    ∃ s', s.step (.addStartBuf i j) = some s' ∧ s'.bytes i = s.bytes j ++ s.bytes i := by
  obtain ⟨s', hs⟩ := step_ok (reach_base h) (.addStartBuf i j) ⟨hi, hj⟩
  exact ⟨s', hs.step, hs.effect.2.1 hij⟩

/-- C06 (partial: without fragments and deep copies): the other operand, and everything else, is left
unchanged. -/
theorem C06_operand_partial {s : State} {junk} {hist : List Op}
    (h : (State.init junk).run hist = some s)
    (hp : ∀ o ∈ hist, o.isFragment = false ∧ o.isDeep = false) {i j : Nat} (hi : i < s.bufs.length)
    (hj : j < s.bufs.length) :
    (∃ s', s.step (.addStartBuf i j) = some s' ∧ ∀ k, k < s.bufs.length → k ≠ i → s'.bytes k = s.bytes k) ∧
    (∃ s', s.step (.addEndBuf i j) = some s' ∧ ∀ k, k < s.bufs.length → k ≠ i → s'.bytes k = s.bytes k) := by
  obtain ⟨s1, e1, f1⟩ := C02_isolation_partial h hp (.addStartBuf i j) ⟨hi, hj⟩ ⟨rfl, rfl⟩ rfl
  obtain ⟨s2, e2, f2⟩ := C02_isolation_partial h hp (.addEndBuf i j) ⟨hi, hj⟩ ⟨rfl, rfl⟩ rfl
  exact ⟨⟨s1, e1, fun k hk h => f1 k hk (by simpa [Op.targets] using h)⟩,
    ⟨s2, e2, fun k hk h => f2 k hk (by simpa [Op.targets] using h)⟩⟩

/-- C06 fails for a buffer prepended to itself: the added area holds whatever the storage held, not the
buffer's bytes. -/
theorem C06_prepend_self_fails : ∃ (hist : List Op) (s s' : State),
    (State.init (fun _ _ => 0xcc)).run hist = some s ∧ s.step (.addStartBuf 0 0) = some s' ∧
    s.bytes 0 = [1, 2] ∧ s'.bytes 0 = [0xcc, 0xcc, 1, 2] := by
  refine ⟨[.newFrom [1, 2]], ((State.init (fun _ _ => 0xcc)).run [.newFrom [1, 2]]).get (by rfl),
    ((State.init (fun _ _ => 0xcc)).run [.newFrom [1, 2], .addStartBuf 0 0]).get (by rfl),
    (Option.some_get _).symm, by rfl, by decide, by decide⟩

/-! ### C07 -/

/-- C07: `CopyTo(dst, n)` into a block of at least `n` bytes stores the first `min(n, GetSize())` bytes,
returns their number and leaves the rest of the block as it was.  The buffers are not touched: `CopyTo`
is a query. -/
theorem C07_copyTo {s : State} (h : Reach s) {i : Nat} {b : Seg} (hi : s.bufs[i]? = some b)
    (dst : List Byte) {n : Nat} (hn : n ≤ dst.length) :
    copyTo s.mem b dst n = some ((s.bytes i).take n ++ dst.drop (min n (s.size i)), min n (s.size i)) := by
  have hb := reach_base h
  have hl := size_eq_length hb i
  unfold copyTo
  rw [copyOut_ok hb (List.mem_of_getElem? hi), ← bytes_of hi]
  dsimp only
  rw [List.length_take, ← hl, if_pos (by omega)]

example : copyTo (sample.get (by rfl)).mem ⟨some 0, 6, 11⟩ [0, 0, 0, 0] 3 = some ([3, 4, 5, 0], 3) := by rfl

end Verif.Buf
