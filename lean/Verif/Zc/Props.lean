import Verif.Zc.Step

/-!
Property theorems about `ZcBuffer` (C08-C10).

A reachable state is one that some history of operations reaches from no buffers at all, with any
contents of uninitialised memory.
-/
set_option linter.unusedSimpArgs false
set_option linter.unusedVariables false
namespace Verif.Zc
open Verif Verif.Buf

/-- Reached by a history. -/
def Reach (s : ZState) : Prop := ∃ junk hist, (ZState.init junk).run hist = some s

theorem init_inv (junk) : Inv (ZState.init junk) :=
  ⟨⟨fun _ _ => rfl, by simp [ZState.init, ZState.segs], by simp [ZState.init, ZState.segs],
    by simp [ZState.init]⟩, by simp [ZState.init]⟩

theorem init_wide (b junk) : Wide b (ZState.init junk).mem (ZState.init junk).segs := by
  intro s hs; simp [ZState.init, ZState.segs] at hs

/-- The buffer that takes another buffer's bytes exists. -/
def ZOp.destOk (s : ZState) : ZOp → Prop
  | .addStartBuf i _ | .addEndBuf i _ => i < s.bufs.length
  | _ => True

/-- An operation that is defined respects its preconditions. -/
theorem step_some_ok {s s' : ZState} {o : ZOp} (h : s.step o = some s') (hij : o.destOk s) : o.ok s := by
  have key : ∀ {j : Nat} {b : ZBuf}, s.bufs[j]? = some b → j < s.bufs.length :=
    fun h => (List.getElem?_eq_some_iff.mp h).1
  cases o with
  | new | newFrom => trivial
  | move j =>
    simp only [ZState.step] at h
    split at h
    · cases h
    · rename_i e; exact key e
  | copy j | real j =>
    simp only [ZState.step, ZState.push] at h
    split at h
    · cases h
    · rename_i e; exact key e
  | assign i j | moveAssign i j | swap i j =>
    simp only [ZState.step] at h
    split at h
    · rename_i e1 e2; exact ⟨key e1, key e2⟩
    · cases h
  | destroy i | addStart i n | addEnd i n | addStartBytes i n | addEndBytes i n | removeStart i n
  | removeEnd i n | realize i =>
    simp only [ZState.step, ZState.on] at h
    split at h
    · cases h
    · rename_i e; exact key e
  | addStartBuf i j | addEndBuf i j =>
    simp only [ZState.step] at h
    split at h
    · cases h
    · rename_i e; exact ⟨hij, key e⟩
  | fragment j a n =>
    simp only [ZState.step, ZState.push] at h
    split at h
    · cases h
    · rename_i b e
      refine ⟨key e, ?_⟩
      rw [size_of e]
      by_cases hc : a ≤ b.size ∧ n ≤ b.size - a
      · omega
      · simp only [makeFragment, if_neg hc] at h; cases h
  | write i off d =>
    simp only [ZState.step, ZState.on] at h
    split at h
    · cases h
    · rename_i b e
      refine ⟨key e, ?_⟩
      simp only [ZState.canWrite, e]
      by_cases hc : writable b (b.start + off) d.length
      · exact hc
      · simp only [writeAt, if_neg hc] at h; cases h

theorem step_inv {s s' : ZState} {o : ZOp} (hb : Inv s) (h : s.step o = some s') :
    Inv s' ∧ (o.ok s ∨ s' = s) := by
  by_cases hij : o.destOk s
  · have hok := step_some_ok h hij
    obtain ⟨s1, hs⟩ := step_ok hb o hok
    rw [hs.step] at h; cases h
    exact ⟨hs.inv, .inl hok⟩
  · -- appending an empty buffer to a buffer that does not exist changes nothing
    suffices s' = s by exact ⟨this ▸ hb, .inr this⟩
    cases o with
    | addStartBuf i j | addEndBuf i j =>
      simp only [ZState.step] at h
      split at h
      · cases h
      · split at h
        · cases h; rfl
        · have : s.bufs[i]? = none := List.getElem?_eq_none (by simpa [ZOp.destOk] using hij)
          simp [ZState.on, this] at h
    | _ => exact absurd trivial hij

theorem run_inv {hist : List ZOp} : ∀ {s s' : ZState}, Inv s → s.run hist = some s' → Inv s' := by
  induction hist with
  | nil => intro s s' hb h; cases h; exact hb
  | cons o os ih =>
    intro s s' hb h
    simp only [ZState.run] at h
    split at h
    · cases h
    · rename_i s1 e; exact ih (step_inv hb e).1 h

theorem reach_inv {s : ZState} (h : Reach s) : Inv s := by
  obtain ⟨junk, hist, h⟩ := h
  exact run_inv (init_inv junk) h

/-- One more operation. -/
theorem run_append {hist : List ZOp} {o : ZOp} : ∀ {s s1 s2 : ZState}, s.run hist = some s1 →
    s1.step o = some s2 → s.run (hist ++ [o]) = some s2 := by
  induction hist with
  | nil => intro s s1 s2 h h2; cases h; simp [ZState.run, h2]
  | cons p os ih =>
    intro s s1 s2 h h2
    simp only [ZState.run, List.cons_append] at h ⊢
    split at h
    · cases h
    · rename_i e; exact ih h h2

theorem reach_step {s s' : ZState} {o : ZOp} (h : Reach s) (hs : s.step o = some s') : Reach s' := by
  obtain ⟨junk, hist, h⟩ := h
  exact ⟨junk, hist ++ [o], run_append h hs⟩

/-- A longer example history used to show that the hypotheses below are met: buffer 0 is
`[1,2] ++ 5 zeros ++ [3,4,5]`, 1 a copy of it, 2 a fragment that straddles the zero area. -/
def sample : Option ZState := (ZState.init (fun _ _ => 0xcc)).run
  [.new 2 5 8, .addStartBytes 0 [1, 2], .addEndBytes 0 [3, 4, 5], .copy 0, .fragment 0 1 7]

example : ∃ s, Reach s ∧ s.bufs.length = 3 ∧ s.bytes 0 = [1, 2, 0, 0, 0, 0, 0, 3, 4, 5] ∧
    s.bytes 1 = s.bytes 0 ∧ s.bytes 2 = [2, 0, 0, 0, 0, 0, 3] ∧ s.stored 0 = 5 ∧
    s.bufs[0]?.map (·.st) = some (some 0) ∧ s.bufs[2]?.map (·.st) = some (some 0) :=
  ⟨sample.get (by rfl), ⟨_, _, (Option.some_get (by rfl)).symm⟩, by decide, by decide, by decide, by decide,
    by decide, by decide, by decide⟩

/-! ### C08 -/

/-- C08: `GetSize` is the length of the byte sequence. -/
theorem C08_size {s : ZState} (h : Reach s) (i : Nat) : s.size i = (s.bytes i).length :=
  (bytes_len (reach_inv h) i).symm

/-- C08: a new buffer is all zeros; copies, fragments and moves read as what they were made of; no other
buffer is changed. -/
theorem C08_values {s : ZState} (h : Reach s) :
    (∀ a z e, ∃ s', s.step (.new a z e) = some s' ∧ s'.bytes s.bufs.length = List.replicate z 0 ∧
      ∀ k, k < s.bufs.length → s'.bytes k = s.bytes k) ∧
    (∀ d, ∃ s', s.step (.newFrom d) = some s' ∧ s'.bytes s.bufs.length = d ∧
      ∀ k, k < s.bufs.length → s'.bytes k = s.bytes k) ∧
    (∀ j, j < s.bufs.length → ∃ s', s.step (.copy j) = some s' ∧ s'.bytes s.bufs.length = s.bytes j ∧
      ∀ k, k < s.bufs.length → s'.bytes k = s.bytes k) ∧
    (∀ j a n, j < s.bufs.length → a + n ≤ s.size j → ∃ s', s.step (.fragment j a n) = some s' ∧
      s'.bytes s.bufs.length = ((s.bytes j).drop a).take n ∧
      ∀ k, k < s.bufs.length → s'.bytes k = s.bytes k) ∧
    (∀ j, j < s.bufs.length → ∃ s', s.step (.move j) = some s' ∧ s'.bytes s.bufs.length = s.bytes j ∧
      s'.bytes j = [] ∧ ∀ k, k < s.bufs.length → k ≠ j → s'.bytes k = s.bytes k) ∧
    (∀ i j, i < s.bufs.length → j < s.bufs.length → ∃ s', s.step (.assign i j) = some s' ∧
      s'.bytes i = s.bytes j ∧ ∀ k, k < s.bufs.length → k ≠ i → s'.bytes k = s.bytes k) ∧
    (∀ i j, i < s.bufs.length → j < s.bufs.length → ∃ s', s.step (.swap i j) = some s' ∧
      s'.bytes i = s.bytes j ∧ s'.bytes j = s.bytes i ∧
      ∀ k, k < s.bufs.length → k ≠ i → k ≠ j → s'.bytes k = s.bytes k) := by
  have hb := reach_inv h
  refine ⟨?_, ?_, ?_, ?_, ?_, ?_, ?_⟩
  · intro a z e
    obtain ⟨s', hs⟩ := step_ok hb (.new a z e) trivial
    exact ⟨s', hs.step, hs.effect.2, fun k hk => hs.frame rfl k hk (by simp [ZOp.targets])⟩
  · intro d
    obtain ⟨s', hs⟩ := step_ok hb (.newFrom d) trivial
    exact ⟨s', hs.step, hs.effect.2, fun k hk => hs.frame rfl k hk (by simp [ZOp.targets])⟩
  · intro j hj
    obtain ⟨s', hs⟩ := step_ok hb (.copy j) hj
    exact ⟨s', hs.step, hs.effect.2, fun k hk => hs.frame rfl k hk (by simp [ZOp.targets])⟩
  · intro j a n hj ha
    obtain ⟨s', hs⟩ := step_ok hb (.fragment j a n) ⟨hj, ha⟩
    exact ⟨s', hs.step, hs.effect.2, fun k hk => hs.frame rfl k hk (by simp [ZOp.targets])⟩
  · intro j hj
    obtain ⟨s', hs⟩ := step_ok hb (.move j) hj
    exact ⟨s', hs.step, hs.effect.2.1, hs.effect.2.2,
      fun k hk h => hs.frame rfl k hk (by simpa [ZOp.targets] using h)⟩
  · intro i j hi hj
    obtain ⟨s', hs⟩ := step_ok hb (.assign i j) ⟨hi, hj⟩
    exact ⟨s', hs.step, hs.effect.2, fun k hk h => hs.frame rfl k hk (by simpa [ZOp.targets] using h)⟩
  · intro i j hi hj
    obtain ⟨s', hs⟩ := step_ok hb (.swap i j) ⟨hi, hj⟩
    exact ⟨s', hs.step, hs.effect.2.1, hs.effect.2.2,
      fun k hk h h' => hs.frame rfl k hk (by simp [ZOp.targets, h, h'])⟩

/-- C08: `AddAtStart(n)` prepends `n` bytes and leaves every other buffer alone. -/
theorem C08_addAtStart {s : ZState} (h : Reach s) {i : Nat} (hi : i < s.bufs.length) (n : Nat) :
    ∃ s', s.step (.addStart i n) = some s' ∧ s'.bufs.length = s.bufs.length ∧
      (∃ fresh, fresh.length = n ∧ s'.bytes i = fresh ++ s.bytes i) ∧
      s'.size i = n + s.size i ∧ ∀ k, k < s.bufs.length → k ≠ i → s'.bytes k = s.bytes k := by
  obtain ⟨s', hs⟩ := step_ok (reach_inv h) (.addStart i n) hi
  obtain ⟨h1, pre, h2, h3⟩ := hs.effect
  refine ⟨s', hs.step, h1, ⟨pre, h2, h3⟩, ?_, fun k hk hki => hs.frame rfl k hk (by simpa [ZOp.targets] using hki)⟩
  rw [← bytes_len hs.inv, ← bytes_len (reach_inv h), h3, List.length_append, h2]

/-- C08: `AddAtEnd(n)` appends `n` bytes and leaves every other buffer alone. -/
theorem C08_addAtEnd {s : ZState} (h : Reach s) {i : Nat} (hi : i < s.bufs.length) (n : Nat) :
    ∃ s', s.step (.addEnd i n) = some s' ∧ s'.bufs.length = s.bufs.length ∧
      (∃ fresh, fresh.length = n ∧ s'.bytes i = s.bytes i ++ fresh) ∧
      s'.size i = s.size i + n ∧ ∀ k, k < s.bufs.length → k ≠ i → s'.bytes k = s.bytes k := by
  obtain ⟨s', hs⟩ := step_ok (reach_inv h) (.addEnd i n) hi
  obtain ⟨h1, pre, h2, h3⟩ := hs.effect
  refine ⟨s', hs.step, h1, ⟨pre, h2, h3⟩, ?_, fun k hk hki => hs.frame rfl k hk (by simpa [ZOp.targets] using hki)⟩
  rw [← bytes_len hs.inv, ← bytes_len (reach_inv h), h3, List.length_append, h2]

/-- C08: prepending and appending a block of bytes, for every sharing of storage. -/
theorem C08_bytes {s : ZState} (h : Reach s) {i : Nat} (hi : i < s.bufs.length) (d : List Byte) :
    (∃ s', s.step (.addStartBytes i d) = some s' ∧ s'.bytes i = d ++ s.bytes i) ∧
    (∃ s', s.step (.addEndBytes i d) = some s' ∧ s'.bytes i = s.bytes i ++ d) := by
  obtain ⟨s', hs⟩ := step_ok (reach_inv h) (.addStartBytes i d) hi
  obtain ⟨s'', hs'⟩ := step_ok (reach_inv h) (.addEndBytes i d) hi
  exact ⟨⟨s', hs.step, hs.effect.2⟩, ⟨s'', hs'.step, hs'.effect.2⟩⟩

/-- C08 (partial: at most `GetSize()` bytes, or the buffer has a storage or is empty): `RemoveAtStart(n)`
drops the first bytes. -/
theorem C08_removeAtStart_partial {s : ZState} (h : Reach s) {i : Nat} (hi : i < s.bufs.length) {n : Nat}
    (hn : n ≤ s.size i ∨ ¬s.hollow i) :
    ∃ s', s.step (.removeStart i n) = some s' ∧ s'.bufs.length = s.bufs.length ∧
      s'.bytes i = (s.bytes i).drop n ∧ s'.size i = s.size i - n ∧
      ∀ k, k < s.bufs.length → k ≠ i → s'.bytes k = s.bytes k := by
  obtain ⟨s', hs⟩ := step_ok (reach_inv h) (.removeStart i n) hi
  obtain ⟨h1, h3⟩ := hs.effect
  have h3 := h3 hn.symm
  refine ⟨s', hs.step, h1, h3, ?_, fun k hk hki => hs.frame rfl k hk (by simpa [ZOp.targets] using hki)⟩
  rw [← bytes_len hs.inv, ← bytes_len (reach_inv h), h3, List.length_drop]

/-- C08 (partial: at most `GetSize()` bytes, or the buffer has a storage or is empty): `RemoveAtEnd(n)`
drops the last bytes. -/
theorem C08_removeAtEnd_partial {s : ZState} (h : Reach s) {i : Nat} (hi : i < s.bufs.length) {n : Nat}
    (hn : n ≤ s.size i ∨ ¬s.hollow i) :
    ∃ s', s.step (.removeEnd i n) = some s' ∧ s'.bufs.length = s.bufs.length ∧
      s'.bytes i = (s.bytes i).take ((s.bytes i).length - n) ∧ s'.size i = s.size i - n ∧
      ∀ k, k < s.bufs.length → k ≠ i → s'.bytes k = s.bytes k := by
  obtain ⟨s', hs⟩ := step_ok (reach_inv h) (.removeEnd i n) hi
  obtain ⟨h1, h3⟩ := hs.effect
  have h3 := h3 hn.symm
  rw [← bytes_len (reach_inv h)] at h3
  refine ⟨s', hs.step, h1, h3, ?_, fun k hk hki => hs.frame rfl k hk (by simpa [ZOp.targets] using hki)⟩
  rw [← bytes_len hs.inv, ← bytes_len (reach_inv h), h3, List.length_take]
  omega

/-- C08 fails for a buffer of zeros that has no storage: removing more bytes than it has removes none, and
move-assigning to it leaves the source with its zeros. -/
theorem C08_hollow_fails : ∃ s a b c : ZState, Reach s ∧ s.bytes 0 = List.replicate 10 0 ∧ s.bytes 1 = [7] ∧
    s.step (.removeStart 0 11) = some a ∧ a.bytes 0 = List.replicate 10 0 ∧
    s.step (.removeEnd 0 11) = some b ∧ b.bytes 0 = List.replicate 10 0 ∧
    s.step (.moveAssign 0 1) = some c ∧ c.bytes 0 = [7] ∧ c.bytes 1 = List.replicate 10 0 := by
  refine ⟨((ZState.init (fun _ _ => 0)).run [.new 0 10 0, .newFrom [7]]).get (by rfl),
    ((ZState.init (fun _ _ => 0)).run [.new 0 10 0, .newFrom [7], .removeStart 0 11]).get (by rfl),
    ((ZState.init (fun _ _ => 0)).run [.new 0 10 0, .newFrom [7], .removeEnd 0 11]).get (by rfl),
    ((ZState.init (fun _ _ => 0)).run [.new 0 10 0, .newFrom [7], .moveAssign 0 1]).get (by rfl),
    ⟨_, _, (Option.some_get _).symm⟩, by decide, by decide, by rfl, by decide, by rfl, by decide, by rfl,
    by decide, by decide⟩

/-- C08: reference counts are exact, a storage is live exactly while some buffer holds it, and the stored
bytes of every buffer lie within its live storage. -/
theorem C08_storage {s : ZState} (h : Reach s) :
    (∀ id x, s.mem.mem id = some x → x.ref = s.bufs.countP (fun b => b.st == some id)) ∧
    (∀ id, (∃ x, s.mem.mem id = some x) ↔ ∃ b ∈ s.bufs, b.st = some id) ∧
    (∀ i b, s.bufs[i]? = some b → ∀ id, b.st = some id →
      ∃ x, s.mem.mem id = some x ∧ b.start + s.stored i ≤ x.cap) ∧
    (∀ o : ZOp, o.ok s → ∃ s', s.step o = some s' ∧ Reach s') := by
  have hi := reach_inv h
  have hb := hi.base
  have hcount : ∀ id, s.segs.countP (fun b => b.st == some id) = s.bufs.countP (fun b => b.st == some id) := by
    intro id; simp only [ZState.segs, List.countP_map]; rfl
  refine ⟨fun id x hx => by rw [← hcount]; exact (hb.refs id x hx).1, fun id => ⟨?_, ?_⟩, ?_, ?_⟩
  · rintro ⟨x, hx⟩
    obtain ⟨h1, h2⟩ := hb.refs id x hx
    rw [h1, List.countP_pos_iff] at h2
    obtain ⟨b, hb1, hb2⟩ := h2
    obtain ⟨z, hz, rfl⟩ := List.mem_map.mp hb1
    exact ⟨z, hz, holds_iff.mp hb2⟩
  · rintro ⟨b, hb1, hb2⟩
    obtain ⟨x, hx, _⟩ := hb.held b.seg (List.mem_map_of_mem hb1) id hb2
    exact ⟨x, hx⟩
  · intro i b hib id hid
    obtain ⟨x, hx, h1, h2⟩ := hb.held b.seg (seg_mem hib) id hid
    refine ⟨x, hx, ?_⟩
    have hz := hi.ok b (List.mem_of_getElem? hib)
    have := hz.h1; have := hz.h2; have := hz.h3
    simp only [ZState.stored, hib, ZBuf.size]
    simp only [ZBuf.seg] at h1 h2
    omega
  · intro o ho
    obtain ⟨s', hs⟩ := step_ok hi o ho
    exact ⟨s', hs.step, reach_step h hs.step⟩

/-! ### C09 -/

/-- A deep copy of another kind of buffer. -/
def ZOp.isDeep : ZOp → Bool
  | .newFrom _ => true
  | _ => false

theorem run_wide {b : Cover} : ∀ {hist : List ZOp} {s0 s : ZState}, Inv s0 → Wide b s0.mem s0.segs →
    s0.run hist = some s →
    (∀ pre p post, hist = pre ++ p :: post → ∀ t, s0.run pre = some t → p.plain b t) →
    Wide b s.mem s.segs := by
  intro hist
  induction hist with
  | nil => intro s0 s _ hw h _; cases h; exact hw
  | cons o os ih =>
    intro s0 s hb hw h hp
    simp only [ZState.run] at h
    split at h
    · cases h
    · rename_i s1 e
      have h1 := step_inv hb e
      refine ih h1.1 ?_ h ?_
      · rcases h1.2 with hok | rfl
        · obtain ⟨s2, hs⟩ := step_ok hb o hok
          rw [hs.step] at e; cases e
          exact (hs.wide b (hp [] o os rfl s0 rfl) hw).1
        · exact hw
      · intro pre p post he t ht
        exact hp (o :: pre) p post (by simp [he]) t (by simp [ZState.run, e, ht])

theorem plain_of {o : ZOp} (h2 : o.isDeep = false) (t : ZState) : o.plain (.all false) t := by
  cases o with
  | newFrom => simp [ZOp.isDeep] at h2
  | addEnd | addEndBytes | addEndBuf => exact .inl rfl
  | _ => trivial

theorem wide_of {s : ZState} {junk} {hist : List ZOp} (h : (ZState.init junk).run hist = some s)
    (hp : ∀ o ∈ hist, o.isDeep = false) : Wide (.all false) s.mem s.segs :=
  run_wide (init_inv junk) (init_wide _ junk) h
    (fun pre p post he t _ => plain_of (hp p (by simp [he])) t)

/-- C09 (partial: histories without deep copies from other buffer kinds): no operation on some buffers
changes the bytes of another buffer, iterator writes into existing data excepted. -/
theorem C09_isolation_partial {s : ZState} {junk} {hist : List ZOp}
    (h : (ZState.init junk).run hist = some s) (hp : ∀ o ∈ hist, o.isDeep = false) (o : ZOp) (ho : o.ok s)
    (hf : o.isDeep = false) (hw : o.isWrite = false) :
    ∃ s', s.step o = some s' ∧ ∀ k, k < s.bufs.length → k ∉ o.targets → s'.bytes k = s.bytes k := by
  obtain ⟨s', hs⟩ := step_ok (run_inv (init_inv junk) h) o ho
  exact ⟨s', hs.step, frame_all ((hs.wide _ (plain_of hf s) (wide_of h hp)).2.1 hw)⟩

/-- C09 (partial: histories with deep copies in which `AddAtEnd` never grows a buffer that has no stored
bytes): the same. -/
theorem C09_deep_isolation_partial {s : ZState} {junk} {hist : List ZOp} (o : ZOp)
    (h : (ZState.init junk).run hist = some s)
    (hp : ∀ pre p post, hist = pre ++ p :: post → ∀ t, (ZState.init junk).run pre = some t → p.plain (.all true) t)
    (ho : o.ok s) (hf : o.plain (.all true) s) (hw : o.isWrite = false) :
    ∃ s', s.step o = some s' ∧ ∀ k, k < s.bufs.length → k ∉ o.targets → s'.bytes k = s.bytes k := by
  obtain ⟨s', hs⟩ := step_ok (run_inv (init_inv junk) h) o ho
  exact ⟨s', hs.step, frame_all ((hs.wide _ hf (run_wide (init_inv junk) (init_wide _ junk) h hp)).2.1 hw)⟩

/-- C09 (partial, without deep copies): appending and prepending another buffer. Appending also works
with the buffer itself. The other buffer must not be one of zeros without a storage. -/
theorem C09_append_partial {s : ZState} {junk} {hist : List ZOp}
    (h : (ZState.init junk).run hist = some s) (hp : ∀ o ∈ hist, o.isDeep = false) {i j : Nat}
    (hi : i < s.bufs.length) (hj : j < s.bufs.length) (hh : ¬s.hollow j) :
    (∃ s', s.step (.addEndBuf i j) = some s' ∧ s'.bytes i = s.bytes i ++ s.bytes j ∧
      ∀ k, k < s.bufs.length → k ≠ i → s'.bytes k = s.bytes k) ∧
    (i ≠ j → ∃ s', s.step (.addStartBuf i j) = some s' ∧ s'.bytes i = s.bytes j ++ s.bytes i ∧
      ∀ k, k < s.bufs.length → k ≠ i → s'.bytes k = s.bytes k) := by
  have hin := run_inv (init_inv junk) h
  refine ⟨?_, fun hij => ?_⟩
  · obtain ⟨s', hs⟩ := step_ok hin (.addEndBuf i j) ⟨hi, hj⟩
    obtain ⟨_, h2, h3⟩ := hs.wide _ (plain_of rfl s) (wide_of h hp)
    exact ⟨s', hs.step, h3 (fun _ _ _ _ => has_all _ _) hh, fun k hk hki => frame_all (h2 rfl) k hk (by simpa [ZOp.targets] using hki)⟩
  · obtain ⟨s', hs⟩ := step_ok hin (.addStartBuf i j) ⟨hi, hj⟩
    obtain ⟨_, h2, h3⟩ := hs.wide _ (plain_of rfl s) (wide_of h hp)
    exact ⟨s', hs.step, h3 (fun _ _ _ _ => has_all _ _) hij hh, fun k hk hki => frame_all (h2 rfl) k hk (by simpa [ZOp.targets] using hki)⟩

/-- C09 (partial, without deep copies): bytes written into the area that `AddAtStart`/`AddAtEnd` just added
are seen by no other buffer. -/
theorem C09_added_area_partial {s : ZState} {junk} {hist : List ZOp}
    (h : (ZState.init junk).run hist = some s) (hp : ∀ o ∈ hist, o.isDeep = false) {i n off : Nat}
    {d : List Byte} (hi : i < s.bufs.length) (hne : d ≠ []) (hd : off + d.length ≤ n) :
    (∃ s' s'', s.step (.addStart i n) = some s' ∧ s'.step (.write i off d) = some s'' ∧
      ∀ k, k < s.bufs.length → k ≠ i → s''.bytes k = s.bytes k) ∧
    (∃ s' s'', s.step (.addEnd i n) = some s' ∧ s'.step (.write i (s.size i + off) d) = some s'' ∧
      ∀ k, k < s.bufs.length → k ≠ i → s''.bytes k = s.bytes k) := by
  have hin := run_inv (init_inv junk) h
  have hwd := wide_of h hp
  have hlen : 0 < d.length := List.length_pos_iff.mpr hne
  obtain ⟨a, ha⟩ := get_of_lt hi
  obtain ⟨i1, i2, i3⟩ := inv_head hin ha
  have x1 := i2.h1; have x2 := i2.h2; have x3 := i2.h3
  refine ⟨?_, ?_⟩
  · obtain ⟨m', a', pre, e, k, hv, hpre, hh, hg, ht, hst, hcl⟩ := addAtStart_ok i1 i2 n
    have y1 := k.ok.h1; have y2 := k.ok.h2; have y3 := k.ok.h3
    have hc := hcl (.all false) (i3 (.all false) hwd) (by omega)
    have ha' : (s.bufs.set i a')[i]? = some a' := by simp [hi]
    have hwr : writable a' (a'.start + off) d.length := by
      unfold writable; omega
    obtain ⟨m2, e2, hb2, _, hv2, hvo2, _⟩ := fill_ok k.base (off := a'.start + off) (d := d)
      (by simp only [ZBuf.seg]; omega) (by simp only [ZBuf.seg]; omega)
    refine ⟨_, ⟨m2, (s.bufs.set i a').set i a'⟩, on_eq ha (f := fun m b => addAtStart m b n) e, ?_, ?_⟩
    · refine on_eq (s := ⟨m', s.bufs.set i a'⟩) (f := fun m b => writeAt m b off d) ha' ?_
      simp only [writeAt, if_pos hwr]
      rw [if_pos (by omega), e2]; rfl
    · intro k' hk hki
      rw [List.set_set]
      refine (put_lift hin ha hb2 k.ok).2.2.1 (fun t ht => ?_) k' hki
      rw [hvo2 t ht ?_, k.others t ht]
      intro hst
      have := hc t ht (has_all _ _) hst
      omega
  · obtain ⟨m', a', post, e, hb', hz', hvo, hv, hpost, hh, hg, ht, hst, hw⟩ := addAtEnd_ok i1 i2 n
    have y1 := hz'.h1; have y2 := hz'.h2; have y3 := hz'.h3
    have hc := (hw (.all false) (.inl rfl) (i3 (.all false) hwd)).2 (by omega)
    have ha' : (s.bufs.set i a')[i]? = some a' := by simp [hi]
    rw [size_of ha]
    simp only [ZBuf.size]
    have hwr : writable a' (a'.start + (a.en - a.start + off)) d.length := by
      unfold writable; omega
    obtain ⟨m2, e2, hb2, _, hv2, hvo2, _⟩ := fill_ok hb'
      (off := a'.start + (a.en - a.start + off) - (a'.ze - a'.zs)) (d := d)
      (by simp only [ZBuf.seg]; omega) (by simp only [ZBuf.seg]; omega)
    refine ⟨_, ⟨m2, (s.bufs.set i a').set i a'⟩, on_eq ha (f := fun m b => addAtEnd m b n) e, ?_, ?_⟩
    · refine on_eq (s := ⟨m', s.bufs.set i a'⟩) (f := fun m b => writeAt m b (a.en - a.start + off) d) ha' ?_
      simp only [writeAt, if_pos hwr]
      rw [if_neg (by omega), e2]; rfl
    · intro k' hk hki
      rw [List.set_set]
      refine (put_lift hin ha hb2 hz').2.2.1 (fun t ht => ?_) k' hki
      rw [hvo2 t ht ?_, hvo t ht]
      intro hst
      have := hc t ht (has_all _ _) hst
      simp only [ZBuf.seg] at this ⊢
      omega

example : ∃ s, (ZState.init (fun _ _ => 7)).run [.new 4 10 4, .copy 0, .removeStart 1 3, .fragment 0 2 5] = some s ∧
    (ZOp.addStartBytes 1 [9, 9]).ok s ∧ s.bytes 0 = List.replicate 10 0 :=
  ⟨Option.get ((ZState.init (fun _ _ => 7)).run [.new 4 10 4, .copy 0, .removeStart 1 3, .fragment 0 2 5]) (by rfl),
    (Option.some_get _).symm, show 1 < List.length _ by decide, by decide⟩

/-- C09 fails in general: the deep copy leaves the dirty range of its storage empty, so a copy of it that
removes everything and appends overwrites it. -/
theorem C09_isolation_fails : ∃ (hist : List ZOp) (s s' : ZState),
    (ZState.init (fun _ _ => 0)).run hist = some s ∧ s.step (.addEndBytes 1 [0xff, 0xff]) = some s' ∧
    s.bytes 0 = [1, 2, 3, 4] ∧ s'.bytes 0 = [0xff, 0xff, 3, 4] := by
  refine ⟨[.newFrom [1, 2, 3, 4], .copy 0, .removeEnd 1 4],
    ((ZState.init (fun _ _ => 0)).run [.newFrom [1, 2, 3, 4], .copy 0, .removeEnd 1 4]).get (by rfl),
    ((ZState.init (fun _ _ => 0)).run [.newFrom [1, 2, 3, 4], .copy 0, .removeEnd 1 4,
      .addEndBytes 1 [0xff, 0xff]]).get (by rfl), (Option.some_get _).symm, by rfl, by decide, by decide⟩

/-- Appending a buffer of zeros that has no storage appends whatever memory held instead. -/
theorem C09_append_hollow_fails : ∃ s s' : ZState, Reach s ∧ s.bytes 0 = [7] ∧ s.bytes 1 = [0, 0] ∧
    s.step (.addEndBuf 0 1) = some s' ∧ s'.bytes 0 = [7, 0xcc, 0xcc] := by
  refine ⟨((ZState.init (fun _ _ => 0xcc)).run [.newFrom [7], .new 0 2 0]).get (by rfl),
    ((ZState.init (fun _ _ => 0xcc)).run [.newFrom [7], .new 0 2 0, .addEndBuf 0 1]).get (by rfl),
    ⟨_, _, (Option.some_get _).symm⟩, by decide, by decide, by rfl, by decide⟩

/-! ### C10 -/

/-- C10: `MakeRealBuffer` yields a buffer with the same bytes, all of them stored; `Realize` makes the
buffer itself such. No other buffer is changed. -/
theorem C10_real {s : ZState} (h : Reach s) {j : Nat} (hj : j < s.bufs.length) :
    (∃ s', s.step (.real j) = some s' ∧ s'.bufs.length = s.bufs.length + 1 ∧
      s'.bytes s.bufs.length = s.bytes j ∧ s'.stored s.bufs.length = s.size j ∧
      ∀ k, k < s.bufs.length → s'.bytes k = s.bytes k) ∧
    (∃ s', s.step (.realize j) = some s' ∧ s'.bufs.length = s.bufs.length ∧ s'.stored j = s.size j ∧
      ∀ k, k < s.bufs.length → s'.bytes k = s.bytes k) := by
  obtain ⟨s', hs⟩ := step_ok (reach_inv h) (.real j) hj
  obtain ⟨s2, hs2⟩ := step_ok (reach_inv h) (.realize j) hj
  refine ⟨⟨s', hs.step, hs.effect.1, hs.effect.2.1, hs.effect.2.2,
    fun k hk => hs.frame rfl k hk (by simp [ZOp.targets])⟩,
    ⟨s2, hs2.step, hs2.effect.1, hs2.effect.2.2, fun k hk => ?_⟩⟩
  by_cases hkj : k = j
  · rw [hkj, hs2.effect.2.1]
  · exact hs2.frame rfl k hk (by simpa [ZOp.targets] using hkj)

/-- C10 (partial: the buffer has a storage or no bytes): `CopyTo(dst, n)` into a block of at least `n` bytes
stores the first `min(n, GetSize())` bytes, returns their number and leaves the rest of the block. -/
theorem C10_copyTo_partial {s : ZState} (h : Reach s) {i : Nat} {b : ZBuf} (hi : s.bufs[i]? = some b)
    (hh : ¬s.hollow i) (dst : List Byte) {n : Nat} (hn : n ≤ dst.length) :
    copyTo s.mem b dst n = some ((s.bytes i).take n ++ dst.drop (min n (s.size i)), min n (s.size i)) := by
  have hb := reach_inv h
  have hl := bytes_len hb i
  unfold copyTo
  rw [copyOut_ok hb.base (seg_mem hi) (hb.ok b (List.mem_of_getElem? hi)) n ((hollow_iff hi).mp hh), ← bytes_of hi]
  dsimp only
  rw [List.length_take, hl, if_pos (by omega)]

example : copyTo (sample.get (by rfl)).mem ((sample.get (by rfl)).bufs[2]?.get (by rfl)) [9, 9, 9, 9, 9, 9, 9, 9] 7 =
    some ([2, 0, 0, 0, 0, 0, 3, 9], 7) := by rfl

/-- C10 fails for a buffer of zeros without a storage: `GetSize()` is 3 but `CopyTo` copies nothing. -/
theorem C10_copyTo_hollow_fails : ∃ (s : ZState) (b : ZBuf), Reach s ∧ s.bufs[0]? = some b ∧ s.size 0 = 3 ∧
    copyTo s.mem b [9, 9, 9] 3 = some ([9, 9, 9], 0) := by
  refine ⟨((ZState.init (fun _ _ => 0)).run [.new 0 3 0]).get (by rfl), ⟨none, 0, 0, 3, 3⟩,
    ⟨_, _, (Option.some_get _).symm⟩, by rfl, by rfl, by rfl⟩

end Verif.Zc
