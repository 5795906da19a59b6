import Verif.Zc.Ops

/-! Helper lemmas: one step of a client of any number of `ZcBuffer`s. -/
set_option linter.unusedSimpArgs false
set_option linter.unusedVariables false
namespace Verif.Zc
open Verif Verif.Buf

/-- Physical ranges. -/
def ZState.segs (s : ZState) : List Seg := s.bufs.map ZBuf.seg

structure Inv (s : ZState) : Prop where
  base : Base s.mem s.segs
  ok : ∀ z ∈ s.bufs, ZOk z

/-- A buffer that has bytes (zeros) but no storage, such as `ZcBuffer(0, 10)`. -/
def ZState.hollow (s : ZState) (i : Nat) : Prop :=
  match s.bufs[i]? with
  | none => False
  | some z => z.st = none ∧ z.size ≠ 0

/-- The number of bytes that are physically stored: all but the zero area. -/
def ZState.stored (s : ZState) (i : Nat) : Nat :=
  match s.bufs[i]? with
  | none => 0
  | some z => z.size - (z.ze - z.zs)

/-- The bytes may be stored at `off`: in range, not across a boundary of the zero area, not in it. -/
def ZState.canWrite (s : ZState) (i off n : Nat) : Prop :=
  match s.bufs[i]? with
  | none => False
  | some z => writable z (z.start + off) n

section
variable {s : ZState}

theorem bytes_of {i : Nat} {z : ZBuf} (h : s.bufs[i]? = some z) : s.bytes i = bytesOf s.mem z := by
  simp [ZState.bytes, h]

theorem size_of {i : Nat} {z : ZBuf} (h : s.bufs[i]? = some z) : s.size i = z.size := by
  simp [ZState.size, h]

theorem get_of_lt {i : Nat} (h : i < s.bufs.length) : ∃ z, s.bufs[i]? = some z :=
  ⟨_, List.getElem?_eq_getElem h⟩

theorem seg_get {i : Nat} {z : ZBuf} (h : s.bufs[i]? = some z) : s.segs[i]? = some z.seg := by
  simp [ZState.segs, h]

theorem seg_mem {i : Nat} {z : ZBuf} (h : s.bufs[i]? = some z) : z.seg ∈ s.segs :=
  List.mem_of_getElem? (seg_get h)

theorem inv_head (hi : Inv s) {i : Nat} {z : ZBuf} (h : s.bufs[i]? = some z) :
    Base s.mem (z.seg :: s.segs.eraseIdx i) ∧ ZOk z ∧
      (∀ b, Wide b s.mem s.segs → Wide b s.mem (z.seg :: s.segs.eraseIdx i)) :=
  ⟨base_perm (set_perm (seg_get h) z.seg).1 hi.base, hi.ok z (List.mem_of_getElem? h),
    fun b => wide_perm (set_perm (seg_get h) z.seg).1⟩

theorem bytes_len (hi : Inv s) (i : Nat) : (s.bytes i).length = s.size i := by
  cases h : s.bufs[i]? with
  | none => simp [ZState.bytes, ZState.size, h]
  | some z =>
    obtain ⟨h1, h2, _⟩ := inv_head hi h
    rw [bytes_of h, size_of h, bytesOf_length h1 h2]

/-- A state in which buffer `i` was replaced. -/
theorem put_lift {i : Nat} {z z' : ZBuf} {m' : Mem} (hi : Inv s) (h : s.bufs[i]? = some z)
    (hb' : Base m' (z'.seg :: s.segs.eraseIdx i)) (hz' : ZOk z') :
    Inv ⟨m', s.bufs.set i z'⟩ ∧ (⟨m', s.bufs.set i z'⟩ : ZState).bytes i = bytesOf m' z' ∧
    ((∀ t ∈ s.segs.eraseIdx i, m'.view t = s.mem.view t) →
      ∀ k, k ≠ i → (⟨m', s.bufs.set i z'⟩ : ZState).bytes k = s.bytes k) ∧
    (∀ b, Wide b m' (z'.seg :: s.segs.eraseIdx i) → Wide b m' (⟨m', s.bufs.set i z'⟩ : ZState).segs) := by
  have hil := (List.getElem?_eq_some_iff.mp h).1
  have es : (⟨m', s.bufs.set i z'⟩ : ZState).segs = s.segs.set i z'.seg := by
    simp [ZState.segs, List.map_set]
  refine ⟨⟨?_, ?_⟩, ?_, ?_, ?_⟩
  · rw [es]; exact base_perm (set_perm (seg_get h) z'.seg).2.symm hb'
  · intro t ht
    rcases List.mem_or_eq_of_mem_set ht with ht | rfl
    · exact hi.ok t ht
    · exact hz'
  · simp [ZState.bytes, hil]
  · intro hv k hk
    simp only [ZState.bytes, List.getElem?_set_ne (Ne.symm hk)]
    cases hkk : s.bufs[k]? with
    | none => rfl
    | some t => exact bytesOf_congr (hv _ (mem_erase (seg_get hkk) hk))
  · intro b hw; rw [es]; exact wide_perm (set_perm (seg_get h) z'.seg).2.symm hw

theorem on_eq {i : Nat} {z z' : ZBuf} {m' : Mem} {f : Mem → ZBuf → Option (Mem × ZBuf)}
    (h : s.bufs[i]? = some z) (hf : f s.mem z = some (m', z')) :
    s.on i f = some ⟨m', s.bufs.set i z'⟩ := by
  simp [ZState.on, h, hf]

theorem push_eq {i : Nat} {z z' : ZBuf} {m' : Mem} {f : Mem → ZBuf → Option (Mem × ZBuf)}
    (h : s.bufs[i]? = some z) (hf : f s.mem z = some (m', z')) :
    s.push i f = some ⟨m', s.bufs ++ [z']⟩ := by
  simp [ZState.push, h, hf]

/-- A state with one more buffer. -/
theorem push_lift {z' : ZBuf} {m' : Mem} (hi : Inv s) (hb' : Base m' (z'.seg :: s.segs)) (hz' : ZOk z')
    (hv : ∀ t ∈ s.segs, m'.view t = s.mem.view t) :
    Inv ⟨m', s.bufs ++ [z']⟩ ∧ (⟨m', s.bufs ++ [z']⟩ : ZState).bytes s.bufs.length = bytesOf m' z' ∧
    (∀ k, k < s.bufs.length → (⟨m', s.bufs ++ [z']⟩ : ZState).bytes k = s.bytes k) ∧
    (∀ b, Wide b m' (z'.seg :: s.segs) → Wide b m' (⟨m', s.bufs ++ [z']⟩ : ZState).segs) := by
  have es : (⟨m', s.bufs ++ [z']⟩ : ZState).segs = s.segs ++ [z'.seg] := by simp [ZState.segs]
  refine ⟨⟨?_, ?_⟩, ?_, ?_, ?_⟩
  · rw [es]; exact base_cons.mp hb'
  · intro t ht
    rcases List.mem_append.mp ht with ht | ht
    · exact hi.ok t ht
    · rw [List.mem_singleton.mp ht]; exact hz'
  · simp [ZState.bytes]
  · intro k hk
    obtain ⟨z, hz⟩ := get_of_lt hk
    simp only [ZState.bytes, List.getElem?_append_left hk, hz]
    exact bytesOf_congr (hv _ (seg_mem hz))
  · intro b hw; rw [es]; exact wide_cons.mp hw

/-- The operations whose arguments respect the documented preconditions. -/
def ZOp.ok (s : ZState) : ZOp → Prop
  | .new _ _ _ | .newFrom _ => True
  | .copy j | .move j | .destroy j | .addStart j _ | .addEnd j _ | .addStartBytes j _ | .addEndBytes j _
  | .removeStart j _ | .removeEnd j _ | .real j | .realize j => j < s.bufs.length
  | .assign i j | .moveAssign i j | .swap i j | .addStartBuf i j | .addEndBuf i j =>
    i < s.bufs.length ∧ j < s.bufs.length
  | .fragment j a n => j < s.bufs.length ∧ a + n ≤ s.size j
  | .write i off d => i < s.bufs.length ∧ s.canWrite i off d.length

/-- No deep copies into storages that count, or (`b.loose`) no `AddAtEnd` on a buffer without stored bytes. -/
def ZOp.plain (b : Cover) (s : ZState) : ZOp → Prop
  | .newFrom d => b.loose = true ∨ d = [] ∨ ¬ b.on s.mem.next
  | .addEnd i n => b.loose = false ∨ s.stored i ≠ 0 ∨ n = 0
  | .addEndBytes i d => b.loose = false ∨ s.stored i ≠ 0 ∨ d = []
  | .addEndBuf i j => b.loose = false ∨ s.stored i ≠ 0 ∨ s.size j = 0
  | _ => True

/-- What a step does to the buffers it names. -/
def Effect (s s' : ZState) : ZOp → Prop
  | .new _ z _ => s'.bufs.length = s.bufs.length + 1 ∧ s'.bytes s.bufs.length = List.replicate z 0
  | .newFrom d => s'.bufs.length = s.bufs.length + 1 ∧ s'.bytes s.bufs.length = d
  | .copy j => s'.bufs.length = s.bufs.length + 1 ∧ s'.bytes s.bufs.length = s.bytes j
  | .move j => s'.bufs.length = s.bufs.length + 1 ∧ s'.bytes s.bufs.length = s.bytes j ∧ s'.bytes j = []
  | .assign i j => s'.bufs.length = s.bufs.length ∧ s'.bytes i = s.bytes j
  | .moveAssign i j => s'.bufs.length = s.bufs.length ∧ s'.bytes i = s.bytes j ∧
      (i ≠ j → ¬s.hollow i → s'.bytes j = [])
  | .swap i j => s'.bufs.length = s.bufs.length ∧ s'.bytes i = s.bytes j ∧ s'.bytes j = s.bytes i
  | .destroy i => s'.bufs.length = s.bufs.length ∧ s'.bytes i = []
  | .addStart i n => s'.bufs.length = s.bufs.length ∧ ∃ pre, pre.length = n ∧ s'.bytes i = pre ++ s.bytes i
  | .addEnd i n => s'.bufs.length = s.bufs.length ∧ ∃ post, post.length = n ∧ s'.bytes i = s.bytes i ++ post
  | .addStartBytes i d => s'.bufs.length = s.bufs.length ∧ s'.bytes i = d ++ s.bytes i
  | .addEndBytes i d => s'.bufs.length = s.bufs.length ∧ s'.bytes i = s.bytes i ++ d
  | .addStartBuf i j => s'.bufs.length = s.bufs.length ∧ s'.size i = s.size j + s.size i
  | .addEndBuf i j => s'.bufs.length = s.bufs.length ∧ s'.size i = s.size i + s.size j
  | .removeStart i n => s'.bufs.length = s.bufs.length ∧
      (¬s.hollow i ∨ n ≤ s.size i → s'.bytes i = (s.bytes i).drop n)
  | .removeEnd i n => s'.bufs.length = s.bufs.length ∧
      (¬s.hollow i ∨ n ≤ s.size i → s'.bytes i = (s.bytes i).take (s.size i - n))
  | .fragment j a n => s'.bufs.length = s.bufs.length + 1 ∧
      s'.bytes s.bufs.length = ((s.bytes j).drop a).take n
  | .real j => s'.bufs.length = s.bufs.length + 1 ∧ s'.bytes s.bufs.length = s.bytes j ∧
      s'.stored s.bufs.length = s.size j
  | .realize i => s'.bufs.length = s.bufs.length ∧ s'.bytes i = s.bytes i ∧ s'.stored i = s.size i
  | .write i off d => s'.bufs.length = s.bufs.length ∧ s'.bytes i = patch (s.bytes i) off d

/-- What appending another buffer does, given that nobody else uses the added area. -/
def BufEffect (s s' : ZState) : ZOp → Prop
  | .addStartBuf i j => i ≠ j → ¬s.hollow j → s'.bytes i = s.bytes j ++ s.bytes i
  | .addEndBuf i j => ¬s.hollow j → s'.bytes i = s.bytes i ++ s.bytes j
  | _ => True

/-- The existing buffers an operation is meant to change. -/
def ZOp.targets : ZOp → List Nat
  | .new _ _ _ | .newFrom _ | .copy _ | .fragment _ _ _ | .real _ => []
  | .move j | .destroy j | .addStart j _ | .addEnd j _ | .addStartBytes j _ | .addEndBytes j _
  | .removeStart j _ | .removeEnd j _ | .write j _ _ | .realize j => [j]
  | .assign i _ | .addStartBuf i _ | .addEndBuf i _ => [i]
  | .moveAssign i j | .swap i j => [i, j]

/-- All other buffers read as before. -/
def Frame (s s' : ZState) (o : ZOp) : Prop :=
  ∀ k, k < s.bufs.length → k ∉ o.targets → s'.bytes k = s.bytes k

/-- All other buffers in storages that count read as before. -/
def FrameOn (c : Cover) (s s' : ZState) (o : ZOp) : Prop :=
  ∀ k a, s.bufs[k]? = some a → k ∉ o.targets → c.has a.seg → s'.bytes k = s.bytes k

theorem frame_all {b : Bool} {s s' : ZState} {o : ZOp} (h : FrameOn (.all b) s s' o) : Frame s s' o :=
  fun k hk hn => h k _ (List.getElem?_eq_getElem hk) hn (has_all _ _)

theorem frame_on {c : Cover} {s s' : ZState} {o : ZOp} (h : Frame s s' o) : FrameOn c s s' o :=
  fun k _ hk hn _ => h k (List.getElem?_eq_some_iff.mp hk).1 hn

/-- The buffer whose bytes an operation appends. -/
def ZOp.sources : ZOp → List Nat
  | .addStartBuf _ j | .addEndBuf _ j => [j]
  | _ => []

/-- Operations that store bytes into a storage that may be shared. -/
def ZOp.stores : ZOp → Bool
  | .addStartBytes _ _ | .addEndBytes _ _ | .addStartBuf _ _ | .addEndBuf _ _ | .write _ _ _ => true
  | _ => false

def ZOp.isWrite : ZOp → Bool
  | .write _ _ _ => true
  | _ => false

/-- What a step guarantees. -/
structure StepOk (s : ZState) (o : ZOp) (s' : ZState) : Prop where
  step : s.step o = some s'
  inv : Inv s'
  effect : Effect s s' o
  frame : o.stores = false → Frame s s' o
  wide : ∀ b : Cover, o.plain b s → Wide b s.mem s.segs →
    Wide b s'.mem s'.segs ∧ (o.isWrite = false → FrameOn b s s' o) ∧
    ((∀ k a, s.bufs[k]? = some a → k ∈ o.sources → b.has a.seg) → BufEffect s s' o)

theorem frame_of {i : Nat} {s' : ZState} {o : ZOp} (ht : i ∈ o.targets)
    (h : ∀ k, k ≠ i → s'.bytes k = s.bytes k) : Frame s s' o := by
  intro k _ hk
  exact h k (fun e => hk (e ▸ ht))

theorem frame_of_on {c : Cover} {i : Nat} {z z' : ZBuf} {m' : Mem} {o : ZOp} (h : s.bufs[i]? = some z)
    (ht : i ∈ o.targets) (hv : ∀ t ∈ s.segs.eraseIdx i, c.has t → m'.view t = s.mem.view t) :
    FrameOn c s ⟨m', s.bufs.set i z'⟩ o := by
  intro k a hk hn hon
  have hne : k ≠ i := fun e => hn (e ▸ ht)
  simp only [ZState.bytes, List.getElem?_set_ne (Ne.symm hne), hk]
  exact bytesOf_congr (hv _ (mem_erase (seg_get hk) hne) hon)

theorem frame_push {s' : ZState} {o : ZOp} (h : ∀ k, k < s.bufs.length → s'.bytes k = s.bytes k) : Frame s s' o :=
  fun k hk _ => h k hk

theorem stored_hi (hi : Inv s) {i : Nat} {z : ZBuf} (h : s.bufs[i]? = some z) (h0 : s.stored i ≠ 0) :
    z.seg.hi ≠ 0 := by
  simp only [ZState.stored, h, ZBuf.size] at h0
  have hz := (hi.ok z (List.mem_of_getElem? h))
  have := hz.h1; have := hz.h2; have := hz.h3
  simp only [ZBuf.seg]; omega

theorem hollow_iff {i : Nat} {z : ZBuf} (h : s.bufs[i]? = some z) :
    ¬s.hollow i ↔ (z.st ≠ none ∨ z.size = 0) := by
  simp only [ZState.hollow, h]
  constructor
  · intro hh
    by_cases c : z.st = none
    · right; exact Classical.byContradiction fun hc => hh ⟨c, hc⟩
    · exact .inl c
  · rintro (hh | hh) ⟨h1, h2⟩
    · exact hh h1
    · exact h2 hh

/-- Operations on a single buffer that never store data. -/
theorem step_keep {i : Nat} {z z' : ZBuf} {m' : Mem} {f : Mem → ZBuf → Option (Mem × ZBuf)} {o : ZOp}
    (hi : Inv s) (h : s.bufs[i]? = some z) (hf : f s.mem z = some (m', z')) (hso : s.step o = s.on i f)
    (k : Keep s.mem z (s.segs.eraseIdx i) m' z') (ht : i ∈ o.targets)
    (heff : Effect s ⟨m', s.bufs.set i z'⟩ o) (hbe : BufEffect s ⟨m', s.bufs.set i z'⟩ o) :
    StepOk s o ⟨m', s.bufs.set i z'⟩ := by
  obtain ⟨p1, p2, p3, p4⟩ := put_lift hi h k.base k.ok
  have hfr := frame_of ht (p3 k.others)
  exact ⟨by rw [hso, on_eq h hf], p1, heff, fun _ => hfr,
    fun b _ hw => ⟨p4 b (k.wide b ((inv_head hi h).2.2 b hw)), fun _ => frame_on hfr, fun _ => hbe⟩⟩

theorem swap_lift {i j : Nat} {a b c : ZBuf} {m' : Mem} (hi : Inv s) (ha : s.bufs[i]? = some a) (hb : s.bufs[j]? = some b)
    (hb' : Base m' (c.seg :: s.segs.eraseIdx i)) (hc : ZOk c)
    (hv : ∀ t ∈ s.segs.eraseIdx i, m'.view t = s.mem.view t) :
    Inv ⟨m', (s.bufs.set i b).set j c⟩ ∧
    (i ≠ j → (⟨m', (s.bufs.set i b).set j c⟩ : ZState).bytes i = s.bytes j) ∧
    (⟨m', (s.bufs.set i b).set j c⟩ : ZState).bytes j = bytesOf m' c ∧
    (∀ k, k ≠ i → k ≠ j → (⟨m', (s.bufs.set i b).set j c⟩ : ZState).bytes k = s.bytes k) ∧
    (∀ w, Wide w m' (c.seg :: s.segs.eraseIdx i) → Wide w m' (⟨m', (s.bufs.set i b).set j c⟩ : ZState).segs) := by
  have hil := (List.getElem?_eq_some_iff.mp ha).1
  have hjl := (List.getElem?_eq_some_iff.mp hb).1
  have es : (⟨m', (s.bufs.set i b).set j c⟩ : ZState).segs = (s.segs.set i b.seg).set j c.seg := by
    simp [ZState.segs, List.map_set]
  have hp := swap_perm (seg_get ha) (seg_get hb) (c := c.seg)
  refine ⟨⟨by rw [es]; exact base_perm hp.symm hb', ?_⟩, ?_, ?_, ?_, ?_⟩
  · intro t ht
    rcases List.mem_or_eq_of_mem_set ht with ht | rfl
    · rcases List.mem_or_eq_of_mem_set ht with ht | rfl
      · exact hi.ok t ht
      · exact hi.ok _ (List.mem_of_getElem? hb)
    · exact hc
  · intro hij
    simp only [ZState.bytes, List.getElem?_set_ne (Ne.symm hij), List.getElem?_set_self hil, hb]
    exact bytesOf_congr (hv _ (mem_erase (seg_get hb) (Ne.symm hij)))
  · simp [ZState.bytes, hjl]
  · intro k h1 h2
    simp only [ZState.bytes, List.getElem?_set_ne (Ne.symm h2), List.getElem?_set_ne (Ne.symm h1)]
    cases hkk : s.bufs[k]? with
    | none => rfl
    | some t => exact bytesOf_congr (hv _ (mem_erase (seg_get hkk) h1))
  · intro w hw; rw [es]; exact wide_perm hp.symm hw

theorem size_set {i : Nat} {z' : ZBuf} {m' : Mem} (h : i < s.bufs.length) :
    (⟨m', s.bufs.set i z'⟩ : ZState).size i = z'.size := by simp [ZState.size, h]

theorem stored_set {i : Nat} {z' : ZBuf} {m' : Mem} (h : i < s.bufs.length) :
    (⟨m', s.bufs.set i z'⟩ : ZState).stored i = z'.size - (z'.ze - z'.zs) := by simp [ZState.stored, h]

theorem size_eq_of {L : List Seg} {m m' : Mem} {z z' : ZBuf} (hb : Base m (z.seg :: L)) (hz : ZOk z)
    {L' : List Seg} (hb' : Base m' (z'.seg :: L')) (hz' : ZOk z') (h : bytesOf m' z' = bytesOf m z) :
    z'.size = z.size := by
  rw [← bytesOf_length hb hz, ← bytesOf_length hb' hz', h]

theorem step_ok (hi : Inv s) (o : ZOp) (ho : o.ok s) : ∃ s', StepOk s o s' := by
  cases o with
  | new a z e =>
    obtain ⟨m', b', e1, hb', hz', hv, hvo, hw⟩ := construct_ok hi.base a z e
    obtain ⟨p1, p2, p3, p4⟩ := push_lift hi hb' hz' hvo
    exact ⟨⟨m', s.bufs ++ [b']⟩, by simp [ZState.step, e1], p1, ⟨by simp, by rw [p2, hv]⟩, fun _ => frame_push p3,
      fun b _ h => ⟨p4 b (hw b h), fun _ => frame_on (frame_push p3), fun _ => trivial⟩⟩
  | newFrom d =>
    obtain ⟨m', b', e1, hb', hz', hv, hvo, hw⟩ := constructFrom_ok hi.base d
    obtain ⟨p1, p2, p3, p4⟩ := push_lift hi hb' hz' hvo
    refine ⟨⟨m', s.bufs ++ [b']⟩, by simp [ZState.step, e1], p1, ⟨by simp, by rw [p2, hv]⟩, fun _ => frame_push p3,
      fun b hc h => ⟨p4 b ?_, fun _ => frame_on (frame_push p3), fun _ => trivial⟩⟩
    exact hw b hc h
  | copy j =>
    obtain ⟨z, hj⟩ := get_of_lt ho
    obtain ⟨m', e1, hb', hv, hw, _⟩ := acquire_ok hi.base (seg_mem hj)
    obtain ⟨p1, p2, p3, p4⟩ := push_lift hi hb' (hi.ok z (List.mem_of_getElem? hj)) (fun t _ => hv t)
    exact ⟨⟨m', s.bufs ++ [z]⟩, push_eq hj (f := fun m b => (m.acquire b.seg).map (fun m1 => (m1, b))) (by simp [e1]),
      p1, ⟨by simp, by rw [p2, bytes_of hj]; exact bytesOf_congr (hv _)⟩, fun _ => frame_push p3,
      fun b _ h => ⟨p4 b (hw b h), fun _ => frame_on (frame_push p3), fun _ => trivial⟩⟩
  | move j =>
    obtain ⟨z, hj⟩ := get_of_lt ho
    have hjl : j < s.bufs.length := ho
    have es : (⟨s.mem, s.bufs.set j ZBuf.null ++ [z]⟩ : ZState).segs = s.segs.set j Seg.null ++ [z.seg] := by
      simp [ZState.segs, List.map_set, seg_null]
    have hp : (s.segs.set j Seg.null ++ [z.seg]).Perm (Seg.null :: s.segs) := by
      refine (List.perm_append_comm).trans ?_
      refine ((List.perm_cons z.seg).mpr (set_perm (seg_get hj) Seg.null).2).trans ?_
      refine (List.Perm.swap _ _ _).trans ?_
      exact (List.perm_cons _).mpr (set_perm (seg_get hj) Seg.null).1.symm
    have hfr : Frame s ⟨s.mem, s.bufs.set j ZBuf.null ++ [z]⟩ (.move j) := by
      intro k hk hkj
      have : k ≠ j := by simpa [ZOp.targets] using hkj
      simp only [ZState.bytes]
      rw [List.getElem?_append_left (by simpa using hk), List.getElem?_set_ne (Ne.symm this)]
    refine ⟨⟨s.mem, s.bufs.set j ZBuf.null ++ [z]⟩, by simp [ZState.step, hj],
      ⟨by rw [es]; exact base_perm hp.symm (base_null.mpr hi.base), ?_⟩, ⟨by simp, ?_, ?_⟩, fun _ => hfr,
      fun c _ h => ⟨by rw [es]; exact wide_perm hp.symm (wide_null.mpr h), fun _ => frame_on hfr, fun _ => trivial⟩⟩
    · intro t ht
      rcases List.mem_append.mp ht with ht | ht
      · rcases List.mem_or_eq_of_mem_set ht with ht | rfl
        · exact hi.ok t ht
        · exact zok_null
      · rw [List.mem_singleton.mp ht]; exact hi.ok z (List.mem_of_getElem? hj)
    · have : s.bufs.length = (s.bufs.set j ZBuf.null).length := by simp
      simp only [ZState.bytes]
      rw [this, List.getElem?_append_right (Nat.le_refl _)]
      simp [hj]
    · simp only [ZState.bytes]
      rw [List.getElem?_append_left (by simpa using hjl), List.getElem?_set_self hjl]; rfl
  | assign i j =>
    obtain ⟨a, ha⟩ := get_of_lt ho.1
    obtain ⟨b, hb⟩ := get_of_lt ho.2
    by_cases hij : i = j
    · subst hij
      exact ⟨s, by simp [ZState.step, ha], hi, ⟨rfl, rfl⟩, fun _ _ _ _ => rfl,
        fun c _ h => ⟨h, fun _ => frame_on (fun _ _ _ => rfl), fun _ => trivial⟩⟩
    · obtain ⟨m1, e1, hb1, hv1, hw1, _⟩ := acquire_ok hi.base (seg_mem hb)
      have hp : (b.seg :: s.segs).Perm (a.seg :: b.seg :: s.segs.eraseIdx i) :=
        ((List.perm_cons b.seg).mpr (set_perm (seg_get ha) b.seg).1).trans (List.Perm.swap _ _ _)
      obtain ⟨m2, e2, hb2, hv2, _, hw2, _⟩ := base_drop (base_perm hp hb1)
      obtain ⟨p1, p2, p3, p4⟩ := put_lift hi ha hb2 (hi.ok b (List.mem_of_getElem? hb))
      have hfr := frame_of (o := .assign i j) (by simp [ZOp.targets] : i ∈ _) (p3 (fun t ht => by
        rw [hv2 t (by simp [ht]), hv1]))
      refine ⟨⟨m2, s.bufs.set i b⟩, by simp [ZState.step, ha, hb, hij, e1, e2], p1, ⟨by simp, ?_⟩, fun _ => hfr,
        fun c _ h => ⟨p4 c (hw2 c (wide_perm hp (hw1 c h))), fun _ => frame_on hfr, fun _ => trivial⟩⟩
      rw [p2, bytes_of hb]
      exact bytesOf_congr (by rw [hv2 _ (by simp), hv1])
  | moveAssign i j =>
    obtain ⟨a, ha⟩ := get_of_lt ho.1
    obtain ⟨b, hb⟩ := get_of_lt ho.2
    by_cases hij : i = j
    · subst hij
      exact ⟨s, by simp [ZState.step, ha], hi, ⟨rfl, rfl, fun h => absurd rfl h⟩, fun _ _ _ _ => rfl,
        fun c _ h => ⟨h, fun _ => frame_on (fun _ _ _ => rfl), fun _ => trivial⟩⟩
    · obtain ⟨i1, i2, i3⟩ := inv_head hi ha
      obtain ⟨m', a', e, k, _, _, hs, hn⟩ := release_ok i1 i2
      obtain ⟨p1, p2, p3, p4, p5⟩ := swap_lift hi ha hb k.base k.ok k.others
      have hfr : Frame s ⟨m', (s.bufs.set i b).set j a'⟩ (.moveAssign i j) := by
        intro k hk hkt
        simp [ZOp.targets] at hkt
        exact p4 k hkt.1 hkt.2
      refine ⟨⟨m', (s.bufs.set i b).set j a'⟩, by simp [ZState.step, ha, hb, hij, e], p1, ⟨by simp, p2 hij, ?_⟩,
        fun _ => hfr, fun c _ h => ⟨p5 c (k.wide c (i3 c h)), fun _ => frame_on hfr, fun _ => trivial⟩⟩
      intro _ hho
      rw [p3]
      rcases (hollow_iff ha).mp hho with h | h
      · rw [hs h]; rfl
      · by_cases hst : a.st = none
        · obtain ⟨rfl, rfl⟩ := hn hst
          exact List.length_eq_zero_iff.mp (by rw [bytesOf_length i1 i2, h])
        · rw [hs hst]; rfl
  | swap i j =>
    obtain ⟨a, ha⟩ := get_of_lt ho.1
    obtain ⟨b, hb⟩ := get_of_lt ho.2
    obtain ⟨i1, i2, i3⟩ := inv_head hi ha
    obtain ⟨p1, p2, p3, p4, p5⟩ := swap_lift hi ha hb i1 i2 (fun _ _ => rfl)
    have hfr : Frame s ⟨s.mem, (s.bufs.set i b).set j a⟩ (.swap i j) := by
      intro k hk hkt
      simp [ZOp.targets] at hkt
      exact p4 k hkt.1 hkt.2
    refine ⟨⟨s.mem, (s.bufs.set i b).set j a⟩, by simp [ZState.step, ha, hb], p1,
      ⟨by simp, ?_, by rw [p3, bytes_of ha]⟩,
      fun _ => hfr, fun c _ h => ⟨p5 c (i3 c h), fun _ => frame_on hfr, fun _ => trivial⟩⟩
    by_cases hij : i = j
    · subst hij; rw [ha] at hb; cases hb; rw [p3, bytes_of ha]
    · exact p2 hij
  | destroy i =>
    obtain ⟨a, ha⟩ := get_of_lt ho
    obtain ⟨i1, i2, i3⟩ := inv_head hi ha
    obtain ⟨m', a', e, k, hb', hw', _, _⟩ := release_ok i1 i2
    have k' : Keep s.mem a (s.segs.eraseIdx i) m' ZBuf.null :=
      ⟨by rw [seg_null]; exact base_null.mpr hb', zok_null, k.others,
        fun b h => by rw [seg_null]; exact wide_null.mpr (hw' b h)⟩
    exact ⟨_, step_keep hi ha (f := fun m b => (release m b).map (fun r => (r.1, ZBuf.null))) (by simp [e]) rfl k'
      (by simp [ZOp.targets]) ⟨by simp, by rw [(put_lift hi ha k'.base k'.ok).2.1]; rfl⟩ trivial⟩
  | addStart i n =>
    obtain ⟨a, ha⟩ := get_of_lt ho
    obtain ⟨i1, i2, i3⟩ := inv_head hi ha
    obtain ⟨m', a', pre, e, k, hv, hp, hh, hg, _⟩ := addAtStart_ok i1 i2 n
    refine ⟨_, step_keep hi ha (f := fun m b => addAtStart m b n) e rfl k (by simp [ZOp.targets])
      ⟨by simp, pre, hp, ?_⟩ trivial⟩
    rw [(put_lift hi ha k.base k.ok).2.1, bytes_of ha, bytesOf_eq, bytesOf_eq, hv, hh, hg, ← hp, weave_pre]
  | addEnd i n =>
    obtain ⟨a, ha⟩ := get_of_lt ho
    obtain ⟨i1, i2, i3⟩ := inv_head hi ha
    obtain ⟨m', a', post, e, hb', hz', hvo, hv, hp, hh, hg, _, _, hw⟩ := addAtEnd_ok i1 i2 n
    obtain ⟨p1, p2, p3, p4⟩ := put_lift hi ha hb' hz'
    have hfr := frame_of (o := .addEnd i n) (by simp [ZOp.targets] : i ∈ _) (p3 hvo)
    refine ⟨_, on_eq ha (f := fun m b => addAtEnd m b n) e, p1, ⟨by simp, post, hp, ?_⟩, fun _ => hfr,
      fun b hc h => ⟨p4 b (hw b ?_ (i3 b h)).1, fun _ => frame_on hfr, fun _ => trivial⟩⟩
    · rw [p2, bytes_of ha, bytesOf_eq, bytesOf_eq, hv, hh, hg, weave_post _ (header_le i1 i2)]
    · rcases hc with h | h | h
      · exact .inl h
      · exact .inr (.inl (stored_hi hi ha h))
      · exact .inr (.inr h)
  | addStartBytes i d =>
    obtain ⟨a, ha⟩ := get_of_lt ho
    obtain ⟨i1, i2, i3⟩ := inv_head hi ha
    obtain ⟨m', a', e, hb', hz', hby, hw⟩ := addBytesAtStart_ok i1 i2 d
    obtain ⟨p1, p2, p3, p4⟩ := put_lift hi ha hb' hz'
    refine ⟨_, on_eq ha (f := fun m b => addBytesAtStart m b d) e, p1, ⟨by simp, by rw [p2, hby, bytes_of ha]⟩,
      fun h => by simp [ZOp.stores] at h, fun b _ h => ?_⟩
    obtain ⟨h1, h2⟩ := hw b (i3 b h)
    exact ⟨p4 b h1, fun _ => frame_of_on ha (by simp [ZOp.targets] : i ∈ _) h2, fun _ => trivial⟩
  | addEndBytes i d =>
    obtain ⟨a, ha⟩ := get_of_lt ho
    obtain ⟨i1, i2, i3⟩ := inv_head hi ha
    obtain ⟨m', a', e, hb', hz', hby, hw⟩ := addBytesAtEnd_ok i1 i2 d
    obtain ⟨p1, p2, p3, p4⟩ := put_lift hi ha hb' hz'
    refine ⟨_, on_eq ha (f := fun m b => addBytesAtEnd m b d) e, p1, ⟨by simp, by rw [p2, hby, bytes_of ha]⟩,
      fun h => by simp [ZOp.stores] at h, fun b hc h => ?_⟩
    obtain ⟨h1, h2⟩ := hw b (by
      rcases hc with h | h | h
      · exact .inl h
      · exact .inr (.inl (stored_hi hi ha h))
      · exact .inr (.inr h)) (i3 b h)
    exact ⟨p4 b h1, fun _ => frame_of_on ha (by simp [ZOp.targets] : i ∈ _) h2, fun _ => trivial⟩
  | addStartBuf i j =>
    obtain ⟨a, ha⟩ := get_of_lt ho.1
    obtain ⟨c, hc⟩ := get_of_lt ho.2
    by_cases hn : c.size = 0
    · have he : s.bytes j = [] := List.length_eq_zero_iff.mp (by rw [bytes_len hi, size_of hc, hn])
      exact ⟨s, by simp [ZState.step, hc, hn], hi, ⟨rfl, by rw [size_of hc, hn, Nat.zero_add]⟩, fun _ _ _ _ => rfl,
        fun b _ h => ⟨h, fun _ => frame_on (fun _ _ _ => rfl), fun _ _ _ => by rw [he, List.nil_append]⟩⟩
    · obtain ⟨i1, i2, i3⟩ := inv_head hi ha
      obtain ⟨m1, a1, pre, e, k, hv, hp, hh, hg, ht, hst, hcl⟩ := addAtStart_ok i1 i2 c.size
      obtain ⟨p1, p2, p3, p4⟩ := put_lift hi ha k.base k.ok
      have hil : i < s.bufs.length := ho.1
      have g1 : (s.bufs.set i a1)[i]? = some a1 := by simp [hil]
      obtain ⟨c1, g2⟩ : ∃ c1, (s.bufs.set i a1)[j]? = some c1 :=
        ⟨_, List.getElem?_eq_getElem (by simpa using ho.2)⟩
      have hst' := hst (by omega)
      cases hst1 : a1.st with
      | none => exact absurd hst1 hst'
      | some id =>
      have hz1 : ZOk c1 := p1.ok c1 (List.mem_of_getElem? g2)
      have hperm := (set_perm (seg_get (s := ⟨m1, s.bufs.set i a1⟩) g1) a1.seg).1
      have hes : (⟨m1, s.bufs.set i a1⟩ : ZState).segs.eraseIdx i = s.segs.eraseIdx i := by
        simp [ZState.segs, List.map_set, List.eraseIdx_set_eq]
      rw [hes] at hperm
      have hmem : c1.seg ∈ a1.seg :: s.segs.eraseIdx i := by
        have := seg_mem (s := ⟨m1, s.bufs.set i a1⟩) g2
        exact hperm.mem_iff.mp this
      have z1 := k.ok.h1; have z2 := k.ok.h2; have z3 := k.ok.h3
      obtain ⟨m2, f1, b2, w2, o2, v2⟩ := copyInto_ok k.base hmem hz1 (id := id) (off := a1.start) (size := c.size)
        hst1 (Nat.le_refl _) (by simp only [ZBuf.seg]; omega)
      obtain ⟨q1, q2, q3, q4⟩ := put_lift hi ha b2 k.ok
      have hstep : s.step (.addStartBuf i j) = some ⟨m2, s.bufs.set i a1⟩ := by
        simp only [ZState.step, hc]
        rw [if_neg hn, on_eq ha (f := fun m b => addAtStart m b c.size) e]
        dsimp only
        rw [g1, g2]
        dsimp only
        rw [hst1]
        dsimp only
        rw [f1]; rfl
      refine ⟨_, hstep, q1, ⟨by simp, ?_⟩, fun h => by simp [ZOp.stores] at h, fun b _ h => ?_⟩
      · rw [size_set hil, size_of hc, size_of ha]
        have := i2.h1; have := i2.h2; have := i2.h3
        simp only [ZBuf.size] at *; omega
      · have hc0 := hcl b (i3 b h) (by omega)
        have hfr : ∀ t ∈ s.segs.eraseIdx i, b.has t → m2.view t = s.mem.view t := by
          intro t ht hon
          rw [o2 t (fun hh => hc0 t ht hon hh), k.others t ht]
        refine ⟨q4 b (w2 b (k.wide b (i3 b h))), fun _ => frame_of_on ha (by simp [ZOp.targets] : i ∈ _) hfr, ?_⟩
        intro hsrc' hij hho
        rw [List.getElem?_set_ne hij, hc] at g2; cases g2
        have hcst : c.st ≠ none := by
          rcases (hollow_iff hc).mp hho with h | h
          · exact h
          · exact absurd h hn
        have hce := mem_erase (seg_get hc) (Ne.symm hij)
        have hcc := hc0 c.seg hce (hsrc' j c hc (by simp [ZOp.sources]))
        have y1 := hz1.h1; have y2 := hz1.h2; have y3 := hz1.h3
        have hv2 := v2 hcst (fun hh => by
          have := hcc hh
          simp only [ZBuf.seg] at this
          simp only [ZBuf.size] at this ⊢
          omega) (Nat.le_refl _)
        have hcb : bytesOf m1 c = bytesOf s.mem c := bytesOf_congr (k.others _ hce)
        have hcl2 : (bytesOf s.mem c).length = c.size := by
          have := bytes_len hi j; rwa [bytes_of hc, size_of hc] at this
        rw [q2, bytesOf_eq, hv2, hv, hh, hg, bytes_of hc, bytes_of ha, hcb, List.take_of_length_le (by omega)]
        rw [show a1.start - a1.seg.lo = 0 by simp [ZBuf.seg]]
        rw [bytesOf_eq s.mem a]
        have : patch (pre ++ s.mem.view a.seg) 0 (bytesOf s.mem c) = bytesOf s.mem c ++ s.mem.view a.seg := by
          simp only [patch, List.take_zero, List.nil_append, Nat.zero_add]
          rw [hcl2, ← hp, List.drop_left]
        rw [this, ← hcl2, weave_pre]
  | addEndBuf i j =>
    obtain ⟨a, ha⟩ := get_of_lt ho.1
    obtain ⟨c, hc⟩ := get_of_lt ho.2
    by_cases hn : c.size = 0
    · have he : s.bytes j = [] := List.length_eq_zero_iff.mp (by rw [bytes_len hi, size_of hc, hn])
      exact ⟨s, by simp [ZState.step, hc, hn], hi, ⟨rfl, by rw [size_of hc, hn, Nat.add_zero]⟩, fun _ _ _ _ => rfl,
        fun b _ h => ⟨h, fun _ => frame_on (fun _ _ _ => rfl), fun _ _ => by rw [he, List.append_nil]⟩⟩
    · obtain ⟨i1, i2, i3⟩ := inv_head hi ha
      obtain ⟨m1, a1, post, e, hb1, hz', hvo, hv, hp, hh, hg, ht, hst, hw⟩ := addAtEnd_ok i1 i2 c.size
      obtain ⟨p1, p2, p3, p4⟩ := put_lift hi ha hb1 hz'
      have hil : i < s.bufs.length := ho.1
      have g1 : (s.bufs.set i a1)[i]? = some a1 := by simp [hil]
      obtain ⟨c1, g2⟩ : ∃ c1, (s.bufs.set i a1)[j]? = some c1 :=
        ⟨_, List.getElem?_eq_getElem (by simpa using ho.2)⟩
      have hst' := hst (by omega)
      cases hst1 : a1.st with
      | none => exact absurd hst1 hst'
      | some id =>
      have hz1 : ZOk c1 := p1.ok c1 (List.mem_of_getElem? g2)
      have hperm := (set_perm (seg_get (s := ⟨m1, s.bufs.set i a1⟩) g1) a1.seg).1
      have hes : (⟨m1, s.bufs.set i a1⟩ : ZState).segs.eraseIdx i = s.segs.eraseIdx i := by
        simp [ZState.segs, List.map_set, List.eraseIdx_set_eq]
      rw [hes] at hperm
      have hmem : c1.seg ∈ a1.seg :: s.segs.eraseIdx i := by
        have := seg_mem (s := ⟨m1, s.bufs.set i a1⟩) g2
        exact hperm.mem_iff.mp this
      have z1 := hz'.h1; have z2 := hz'.h2; have z3 := hz'.h3
      obtain ⟨m2, f1, b2, w2, o2, v2⟩ := copyInto_ok hb1 hmem hz1 (id := id)
        (off := a1.en - (a1.ze - a1.zs) - c.size) (size := c.size)
        hst1 (by simp only [ZBuf.seg]; omega) (by simp only [ZBuf.seg]; omega)
      obtain ⟨q1, q2, q3, q4⟩ := put_lift hi ha b2 hz'
      have hstep : s.step (.addEndBuf i j) = some ⟨m2, s.bufs.set i a1⟩ := by
        simp only [ZState.step, hc]
        rw [if_neg hn, on_eq ha (f := fun m b => addAtEnd m b c.size) e]
        dsimp only
        rw [g1, g2]
        dsimp only
        rw [hst1]
        dsimp only
        rw [f1]; rfl
      refine ⟨_, hstep, q1, ⟨by simp, ?_⟩, fun h => by simp [ZOp.stores] at h, fun b hpl h => ?_⟩
      · rw [size_set hil, size_of hc, size_of ha]
        have := i2.h1; have := i2.h2; have := i2.h3
        simp only [ZBuf.size] at *; omega
      · obtain ⟨hW1, hcl⟩ := hw b (by
          rcases hpl with h | h | h
          · exact .inl h
          · exact .inr (.inl (stored_hi hi ha h))
          · rw [size_of hc] at h; exact absurd h hn) (i3 b h)
        have hc0 := hcl (by omega)
        have hfr : ∀ t ∈ s.segs.eraseIdx i, b.has t → m2.view t = s.mem.view t := by
          intro t ht hon
          rw [o2 t (fun hh => by have := hc0 t ht hon hh; simp only [ZBuf.seg] at this; omega), hvo t ht]
        refine ⟨q4 b (w2 b hW1), fun _ => frame_of_on ha (by simp [ZOp.targets] : i ∈ _) hfr, ?_⟩
        intro hsrc' hho
        have hcst : c.st ≠ none := by
          rcases (hollow_iff hc).mp hho with h | h
          · exact h
          · exact absurd h hn
        have hsl := seg_length i1 i2
        have hcl2 : (bytesOf s.mem c).length = c.size := by
          have := bytes_len hi j; rwa [bytes_of hc, size_of hc] at this
        have y1 := hz1.h1; have y2 := hz1.h2; have y3 := hz1.h3
        -- the bytes taken from the source
        have hsrc : m2.view a1.seg = patch (m1.view a1.seg) (a1.en - (a1.ze - a1.zs) - c.size - a1.seg.lo)
            (bytesOf s.mem c) := by
          by_cases hij : i = j
          · subst hij
            rw [g1] at g2; cases g2
            rw [ha] at hc; cases hc
            have x1 := i2.h1; have x2 := i2.h2; have x3 := i2.h3
            have hv2 := v2 hst' (fun _ => by
              simp only [ZBuf.size] at *; omega) (by simp only [ZBuf.size] at *; omega)
            rw [hv2, bytesOf_eq m1, hv, hh, hg, weave_post _ (header_le i1 i2),
              List.take_append_of_le_length (by rw [← bytesOf_eq, hcl2]; exact Nat.le_refl _),
              ← bytesOf_eq, List.take_of_length_le (by omega)]
          · rw [List.getElem?_set_ne hij, hc] at g2; cases g2
            have hce := mem_erase (seg_get hc) (Ne.symm hij)
            have hcc := hc0 c.seg hce (hsrc' j c hc (by simp [ZOp.sources]))
            have hv2 := v2 hcst (fun hh => by
              have := hcc hh
              simp only [ZBuf.seg] at this
              simp only [ZBuf.size] at *
              omega) (Nat.le_refl _)
            rw [hv2, bytesOf_congr (hvo _ hce), List.take_of_length_le (by omega)]
        have e5 : a1.en - (a1.ze - a1.zs) - c.size - a1.seg.lo = (s.mem.view a.seg).length := by
          simp only [ZBuf.seg] at *; omega
        rw [q2, bytesOf_eq, hsrc, e5, hv, hh, hg, bytes_of hc, bytes_of ha, bytesOf_eq s.mem a]
        have : patch (s.mem.view a.seg ++ post) (s.mem.view a.seg).length (bytesOf s.mem c) =
            s.mem.view a.seg ++ bytesOf s.mem c := by
          simp only [patch]
          rw [List.take_left, List.drop_of_length_le (by simp; omega), List.append_nil]
        rw [this, weave_post _ (header_le i1 i2)]
  | removeStart i n =>
    obtain ⟨a, ha⟩ := get_of_lt ho
    obtain ⟨i1, i2, i3⟩ := inv_head hi ha
    obtain ⟨m', a', e, k, hby⟩ := removeAtStart_ok i1 i2 n
    refine ⟨_, step_keep hi ha (f := fun m b => removeAtStart m b n) e rfl k (by simp [ZOp.targets])
      ⟨by simp, ?_⟩ trivial⟩
    intro hh
    rw [(put_lift hi ha k.base k.ok).2.1, bytes_of ha]
    rw [hollow_iff ha, size_of ha] at hh
    by_cases h1 : a.st ≠ none ∨ n ≤ a.size
    · exact hby h1
    · have h2 : a.st = none ∧ ¬ n ≤ a.size := by
        refine ⟨Classical.byContradiction fun h => h1 (.inl h), fun h => h1 (.inr h)⟩
      have h3 : a.size = 0 := by
        rcases hh with (h | h) | h
        · exact absurd h2.1 h
        · exact h
        · exact absurd h h2.2
      have hl := bytesOf_length i1 i2
      have hr : removeAtStart s.mem a n = some (s.mem, a) := by
        have := i2.h1; have := i2.h2; have := i2.h3
        simp only [ZBuf.size] at h3 h2
        unfold removeAtStart; dsimp only
        rw [if_neg (by omega), if_neg (by omega), if_neg (by omega), release, h2.1]
      rw [hr] at e; cases e
      rw [List.drop_of_length_le (by omega)]
      exact List.length_eq_zero_iff.mp (by omega)
  | removeEnd i n =>
    obtain ⟨a, ha⟩ := get_of_lt ho
    obtain ⟨i1, i2, i3⟩ := inv_head hi ha
    obtain ⟨m', a', e, k, hby⟩ := removeAtEnd_ok i1 i2 n
    refine ⟨_, step_keep hi ha (f := fun m b => removeAtEnd m b n) e rfl k (by simp [ZOp.targets])
      ⟨by simp, ?_⟩ trivial⟩
    intro hh
    rw [(put_lift hi ha k.base k.ok).2.1, bytes_of ha, size_of ha]
    rw [hollow_iff ha, size_of ha] at hh
    by_cases h1 : a.st ≠ none ∨ n ≤ a.size
    · exact hby h1
    · have h2 : a.st = none ∧ ¬ n ≤ a.size := by
        refine ⟨Classical.byContradiction fun h => h1 (.inl h), fun h => h1 (.inr h)⟩
      have h3 : a.size = 0 := by
        rcases hh with (h | h) | h
        · exact absurd h2.1 h
        · exact h
        · exact absurd h h2.2
      have hl := bytesOf_length i1 i2
      have hr : removeAtEnd s.mem a n = some (s.mem, a) := by
        have := i2.h1; have := i2.h2; have := i2.h3
        simp only [ZBuf.size] at h3 h2
        unfold removeAtEnd; dsimp only
        rw [if_neg (by omega), if_neg (by omega), if_neg (by omega), release, h2.1]
      rw [hr] at e; cases e
      rw [List.take_of_length_le (by omega)]
  | fragment j a n =>
    obtain ⟨z, hj⟩ := get_of_lt ho.1
    have hz := hi.ok z (List.mem_of_getElem? hj)
    have h2 := ho.2
    rw [size_of hj] at h2
    obtain ⟨m', f, e1, hb', hz', hby, hvo, hw⟩ := makeFragment_ok hi.base (seg_mem hj) hz (a := a) (n := n)
      (by omega) (by omega)
    obtain ⟨p1, p2, p3, p4⟩ := push_lift hi hb' hz' hvo
    exact ⟨⟨m', s.bufs ++ [f]⟩, push_eq hj (f := fun m b => makeFragment m b a n) e1, p1,
      ⟨by simp, by rw [p2, hby, bytes_of hj]⟩, fun _ => frame_push p3,
      fun b _ h => ⟨p4 b (hw b h), fun _ => frame_on (frame_push p3), fun _ => trivial⟩⟩
  | real j =>
    obtain ⟨z, hj⟩ := get_of_lt ho
    have hz := hi.ok z (List.mem_of_getElem? hj)
    obtain ⟨m', f, e1, hb', hz', hzz, hby, hvo, hw⟩ := makeReal_ok hi.base (seg_mem hj) hz
    obtain ⟨p1, p2, p3, p4⟩ := push_lift hi hb' hz' hvo
    refine ⟨⟨m', s.bufs ++ [f]⟩, push_eq hj (f := makeReal) e1, p1,
      ⟨by simp, by rw [p2, hby, bytes_of hj], ?_⟩, fun _ => frame_push p3,
      fun b _ h => ⟨p4 b (hw b h), fun _ => frame_on (frame_push p3), fun _ => trivial⟩⟩
    have h1 := bytesOf_length (inv_head hi hj).1 hz
    have h2 := bytesOf_length hb' hz'
    simp only [ZState.stored, List.getElem?_append_right (Nat.le_refl _), Nat.sub_self, List.getElem?_cons_zero, hzz]
    rw [size_of hj, ← h1, ← h2, hby]; simp
  | realize i =>
    obtain ⟨a, ha⟩ := get_of_lt ho
    obtain ⟨i1, i2, i3⟩ := inv_head hi ha
    obtain ⟨m1, f, e1, hb1, hz1, hzz, hby, hvo, hw⟩ := makeReal_ok i1 (by simp) i2
    have hp : (f.seg :: a.seg :: s.segs.eraseIdx i).Perm (a.seg :: f.seg :: s.segs.eraseIdx i) := List.Perm.swap _ _ _
    obtain ⟨m2, a', e2, k, hb2, hw2, _, _⟩ := release_ok (base_perm hp hb1) i2
    have k' : Keep s.mem a (s.segs.eraseIdx i) m2 f :=
      ⟨hb2, hz1, fun t ht => by rw [k.others t (by simp [ht]), hvo t (by simp [ht])],
        fun b h => hw2 b (wide_perm hp (hw b h))⟩
    refine ⟨_, step_keep hi ha (f := fun m b => match makeReal m b with
      | none => none
      | some (m1, r) => (release m1 b).map (fun q => (q.1, r))) (by simp [e1, e2]) rfl k'
      (by simp [ZOp.targets]) ⟨by simp, ?_, ?_⟩ trivial⟩
    · rw [(put_lift hi ha k'.base k'.ok).2.1, bytes_of ha, ← hby]
      exact bytesOf_congr (k.others _ (by simp))
    · rw [stored_set ho, hzz, size_of ha]
      have h1 := bytesOf_length i1 i2
      have h2 := bytesOf_length hb1 hz1
      rw [← h1, ← h2, hby]; simp
  | write i off d =>
    obtain ⟨a, ha⟩ := get_of_lt ho.1
    obtain ⟨i1, i2, i3⟩ := inv_head hi ha
    have hwr : writable a (a.start + off) d.length := by
      have := ho.2; simpa only [ZState.canWrite, ha] using this
    obtain ⟨m', e, hb', hby, hw⟩ := writeAt_ok i1 i2 hwr
    obtain ⟨p1, p2, p3, p4⟩ := put_lift hi ha hb' i2
    exact ⟨_, on_eq ha (f := fun m b => writeAt m b off d) e, p1, ⟨by simp, by rw [p2, hby, bytes_of ha]⟩,
      fun h => by simp [ZOp.stores] at h,
      fun b _ h => ⟨p4 b (hw b (i3 b h)), fun h => by simp [ZOp.isWrite] at h, fun _ => trivial⟩⟩

end
end Verif.Zc
