import Verif.Buf.Const

/-!
Property theorems about read-only buffers (C121, C122).
-/
set_option linter.unusedSimpArgs false
set_option linter.unusedVariables false
namespace Verif.Buf

/-! ### C121 -/

/-- The operations of `ConstBuffer`. -/
def COp.readOnly : COp → Bool
  | .buffer _ => false
  | _ => true

/-- What the operations of `ConstBuffer` mean for byte sequences that share nothing. -/
def COp.after (v : List (List Byte)) : COp → List (List Byte)
  | .view j | .copy j | .real j => v ++ [v[j]?.getD []]
  | .move j => v.set j [] ++ [v[j]?.getD []]
  | .assign i j => v.set i (v[j]?.getD [])
  | .moveAssign i j => if i = j then v else (v.set i (v[j]?.getD [])).set j []
  | .swap i j => (v.set i (v[j]?.getD [])).set j (v[i]?.getD [])
  | .destroy i => v.set i []
  | .fragment j a n => v ++ [((v[j]?.getD []).drop a).take n]
  | .realize _ | .buffer _ => v

theorem view_getD {s : State} {j : Nat} (hj : j < s.bufs.length) : s.views[j]?.getD [] = s.bytes j := by
  rw [views_get hj]; rfl

theorem lt_of_kind {c : CState} (hl : c.ro.length = c.s.bufs.length) {j : Nat} {b : Bool}
    (h : (c.ro[j]? == some b) = true) : j < c.s.bufs.length := by
  rw [← hl]
  have := beq_iff_eq.mp h
  exact (List.getElem?_eq_some_iff.mp this).1

theorem push_views {s s' : State} {x : List Byte} (h1 : s'.bufs.length = s.bufs.length + 1)
    (h2 : s'.bytes s.bufs.length = x) (h3 : ∀ k, k < s.bufs.length → s'.bytes k = s.bytes k) :
    s'.views = s.views ++ [x] := by
  apply views_eq
  · simp [views_length, h1]
  · intro k hk
    by_cases hk' : k < s.bufs.length
    · rw [List.getElem?_append_left (by rw [views_length]; exact hk'), views_get hk', h3 k hk']
    · have : k = s.bufs.length := by omega
      subst this
      rw [h2, List.getElem?_append_right (by rw [views_length]; exact Nat.le_refl _), views_length]; simp

theorem set_views {s s' : State} {i : Nat} {x : List Byte} (hi : i < s.bufs.length)
    (h1 : s'.bufs.length = s.bufs.length) (h2 : s'.bytes i = x)
    (h3 : ∀ k, k < s.bufs.length → k ≠ i → s'.bytes k = s.bytes k) : s'.views = s.views.set i x := by
  apply views_eq
  · simp [views_length, h1]
  · intro k hk
    by_cases e : k = i
    · subst e; rw [List.getElem?_set_self (by rw [views_length]; exact hi), h2]
    · rw [List.getElem?_set_ne (Ne.symm e), views_get (h1 ▸ hk), h3 k (h1 ▸ hk) e]

theorem set2_views {s s' : State} {i j : Nat} {x y : List Byte} (hi : i < s.bufs.length) (hj : j < s.bufs.length)
    (h1 : s'.bufs.length = s.bufs.length) (h2 : i ≠ j → s'.bytes i = x) (h2' : s'.bytes j = y)
    (h3 : ∀ k, k < s.bufs.length → k ≠ i → k ≠ j → s'.bytes k = s.bytes k) :
    s'.views = (s.views.set i x).set j y := by
  apply views_eq
  · simp [views_length, h1]
  · intro k hk
    by_cases e : k = j
    · subst e; rw [List.getElem?_set_self (by rw [List.length_set, views_length]; exact hj), h2']
    · rw [List.getElem?_set_ne (Ne.symm e)]
      by_cases e' : k = i
      · subst e'; rw [List.getElem?_set_self (by rw [views_length]; exact hi), h2 e]
      · rw [List.getElem?_set_ne (Ne.symm e'), views_get (h1 ▸ hk), h3 k (h1 ▸ hk) e' e]

theorem after_step {c c' : CState} (hb : Base c.s.mem c.s.bufs) (hl : c.ro.length = c.s.bufs.length) {o : COp}
    (hr : o.readOnly = true) (h : c.step o = some c') : c'.s.views = o.after c.s.views := by
  obtain ⟨ht, hf, _⟩ := cstep_some h
  cases o with
  | buffer => cases hr
  | realize => have e := Option.some.inj hf; rw [← e]; rfl
  | view j | copy j | real j =>
    have hj := lt_of_kind hl ht
    obtain ⟨s1, hs⟩ := step_ok hb (.copy j) hj
    simp only [COp.forward, run_one, hs.step] at hf; cases hf
    have e := hs.effect
    simp only [COp.after, view_getD hj]
    exact push_views e.1 e.2 fun k hk => hs.frame rfl k hk (by simp [Op.targets])
  | move j =>
    have hj := lt_of_kind hl ht
    obtain ⟨s1, hs⟩ := step_ok hb (.move j) hj
    simp only [COp.forward, run_one, hs.step] at hf; cases hf
    have e := hs.effect
    simp only [COp.after, view_getD hj]
    apply views_eq
    · simp [views_length, e.1]
    · intro k hk
      by_cases hk' : k < c.s.bufs.length
      · rw [List.getElem?_append_left (by rw [List.length_set, views_length]; exact hk')]
        by_cases ekj : k = j
        · subst ekj; rw [List.getElem?_set_self (by rw [views_length]; exact hj), e.2.2]
        · rw [List.getElem?_set_ne (Ne.symm ekj), views_get hk',
            hs.frame rfl k hk' (by simpa [Op.targets] using ekj)]
      · have : k = c.s.bufs.length := by have := e.1; omega
        subst this
        rw [e.2.1, List.getElem?_append_right (by rw [List.length_set, views_length]; exact Nat.le_refl _),
          List.length_set, views_length]; simp
  | assign i j =>
    simp only [COp.typed, Bool.and_eq_true] at ht
    have hi := lt_of_kind hl ht.1
    have hj := lt_of_kind hl ht.2
    obtain ⟨s1, hs⟩ := step_ok hb (.assign i j) ⟨hi, hj⟩
    simp only [COp.forward, run_one, hs.step] at hf; cases hf
    have e := hs.effect
    simp only [COp.after, view_getD hj]
    exact set_views hi e.1 e.2 fun k hk hki => hs.frame rfl k hk (by simpa [Op.targets] using hki)
  | moveAssign i j =>
    simp only [COp.typed, Bool.and_eq_true] at ht
    have hi := lt_of_kind hl ht.1
    have hj := lt_of_kind hl ht.2
    obtain ⟨s1, hs⟩ := step_ok hb (.moveAssign i j) ⟨hi, hj⟩
    simp only [COp.forward, run_one, hs.step] at hf; cases hf
    have e := hs.effect
    simp only [COp.after, view_getD hj]
    by_cases hij : i = j
    · rw [if_pos hij]
      apply views_eq (by rw [views_length, e.1])
      intro k hk
      rw [views_get (e.1 ▸ hk)]
      by_cases hki : k = i
      · rw [hki, e.2.1, hij]
      · rw [hs.frame rfl k (e.1 ▸ hk) (by simp [Op.targets, hki, ← hij])]
    · rw [if_neg hij]
      exact set2_views hi hj e.1 (fun _ => e.2.1) (e.2.2 hij) fun k hk h1 h2 => hs.frame rfl k hk (by
        simp [Op.targets, h1, h2])
  | swap i j =>
    simp only [COp.typed, Bool.and_eq_true] at ht
    have hi := lt_of_kind hl ht.1
    have hj := lt_of_kind hl ht.2
    obtain ⟨s1, hs⟩ := step_ok hb (.swap i j) ⟨hi, hj⟩
    simp only [COp.forward, run_one, hs.step] at hf; cases hf
    have e := hs.effect
    simp only [COp.after, view_getD hj, view_getD hi]
    exact set2_views hi hj e.1 (fun _ => e.2.1) e.2.2 fun k hk h1 h2 => hs.frame rfl k hk (by
        simp [Op.targets, h1, h2])
  | destroy i =>
    have hi := lt_of_kind hl ht
    obtain ⟨s1, hs⟩ := step_ok hb (.destroy i) hi
    simp only [COp.forward, run_one, hs.step] at hf; cases hf
    have e := hs.effect
    exact set_views hi e.1 e.2 fun k hk hki => hs.frame rfl k hk (by simpa [Op.targets] using hki)
  | fragment j a n =>
    have hj := lt_of_kind hl ht
    simp only [COp.forward, run_one] at hf
    obtain ⟨s1, hs⟩ := step_ok hb (.fragment j a n) (step_some_ok hb hf trivial)
    rw [hs.step] at hf; cases hf
    have e := hs.effect
    simp only [COp.after, view_getD hj]
    exact push_views e.1 e.2 fun k hk => hs.frame rfl k hk (by simp [Op.targets])

/-- C121: whatever was done before, with buffers of both kinds, any sequence of operations on read-only buffers
behaves as if every buffer had its own bytes: each buffer of either kind ends up with the bytes that the
operations give it, and all others keep theirs. -/
theorem C121_read_only {c c' : CState} (h : CReach c) {ops : List COp} (ho : ∀ o ∈ ops, o.readOnly = true)
    (hr : c.run ops = some c') : c'.s.views = ops.foldl COp.after c.s.views := by
  obtain ⟨hb, hl⟩ := creach_wf h
  clear h
  induction ops generalizing c with
  | nil => cases hr; rfl
  | cons o os ih =>
    cases e : c.step o with
    | none => simp only [CState.run, e] at hr; cases hr
    | some c1 =>
      simp only [CState.run, e] at hr
      obtain ⟨h1, h2⟩ := cstep_wf hb hl e
      rw [ih (fun o h => ho o (List.mem_cons_of_mem _ h)) hr h1 h2, List.foldl_cons,
        after_step hb hl (ho o List.mem_cons_self) e]

/-- The buffers that an operation of `Buffer` is called on or copies as a `Buffer`, which must be writable. -/
def writables : Op → List Nat
  | .new _ _ _ | .newFrom _ => []
  | .copy j | .move j | .destroy j | .addStart j _ | .addEnd j _ | .addStartBytes j _ | .addEndBytes j _
  | .removeStart j _ | .removeEnd j _ | .fragment j _ _ | .write j _ _ => [j]
  | .assign i j | .moveAssign i j | .swap i j => [i, j]
  | .addStartBuf i _ | .addEndBuf i _ => [i]

/-- The operands of an operation, and whether each must be read-only: the interface of `ConstBuffer` is for read-only
buffers, except that one is made from a writable buffer; the interface of `Buffer` is for writable ones. -/
def COp.operands : COp → List (Nat × Bool)
  | .buffer o => (writables o).map fun j => (j, false)
  | .view j => [(j, false)]
  | .copy j | .move j | .destroy j | .fragment j _ _ | .real j | .realize j => [(j, true)]
  | .assign i j | .moveAssign i j | .swap i j => [(i, true), (j, true)]

/-- The kinds that the model demands are those. -/
theorem typed_iff {ro : List Bool} {o : COp} : o.typed ro = true ↔ ∀ p ∈ o.operands, ro[p.1]? = some p.2 := by
  cases o with
  | buffer o => cases o <;> simp [COp.typed, Op.typed, COp.operands, writables]
  | _ => simp [COp.typed, COp.operands]

/-- C121: being read-only cannot be lost.  An operation is accepted only on operands of the right kind, it leaves
the kinds of all buffers as they are, and a buffer that it makes is read-only if and only if the operation is one of
`ConstBuffer`. -/
theorem C121_kinds {c c' : CState} {o : COp} (h : c.step o = some c') :
    (∀ p ∈ o.operands, c.ro[p.1]? = some p.2) ∧ (∀ i, i < c.ro.length → c'.ro[i]? = c.ro[i]?) ∧
    ∀ i b, c.ro.length ≤ i → c'.ro[i]? = some b → b = o.readOnly := by
  obtain ⟨ht, _, hk⟩ := cstep_some h
  refine ⟨typed_iff.1 ht, fun i hi => by rw [hk, List.getElem?_append_left hi], fun i b hi hb => ?_⟩
  rw [hk, List.getElem?_append_right hi] at hb
  have hm := List.mem_of_getElem? hb
  cases o with
  | buffer o => cases o <;> simp_all [COp.kinds, COp.readOnly]
  | _ => simp_all [COp.kinds, COp.readOnly]

/-- C121: a buffer of either kind can be prepended and appended to a writable one. -/
theorem C121_append {c : CState} (h : CReach c) {i j : Nat} (hi : c.ro[i]? = some false) (hj : j < c.ro.length) :
    (∃ c', c.step (.buffer (.addStartBuf i j)) = some c') ∧ ∃ c', c.step (.buffer (.addEndBuf i j)) = some c' := by
  obtain ⟨hb, hl⟩ := creach_wf h
  have hi' : i < c.s.bufs.length := hl ▸ (List.getElem?_eq_some_iff.mp hi).1
  have hj' : j < c.s.bufs.length := hl ▸ hj
  constructor
  · obtain ⟨s', hs⟩ := step_ok hb (.addStartBuf i j) ⟨hi', hj'⟩
    have ht : (COp.buffer (.addStartBuf i j)).typed c.ro = true := typed_iff.2 (by simp [COp.operands, writables, hi])
    exact ⟨⟨s', _⟩, by rw [CState.step, if_pos ht, COp.forward, run_one, hs.step]; rfl⟩
  · obtain ⟨s', hs⟩ := step_ok hb (.addEndBuf i j) ⟨hi', hj'⟩
    have ht : (COp.buffer (.addEndBuf i j)).typed c.ro = true := typed_iff.2 (by simp [COp.operands, writables, hi])
    exact ⟨⟨s', _⟩, by rw [CState.step, if_pos ht, COp.forward, run_one, hs.step]; rfl⟩

/-- C121: and none of them goes wrong, given buffers of the right kind and fragments within the buffer. -/
theorem C121_defined {c : CState} (h : CReach c) {o : COp} (ho : o.readOnly = true)
    (hk : ∀ p ∈ o.operands, c.ro[p.1]? = some p.2)
    (hf : ∀ j a n, o = .fragment j a n → a + n ≤ (c.s.bytes j).length) : ∃ c', c.step o = some c' := by
  have ht := typed_iff.2 hk
  obtain ⟨hb, hl⟩ := creach_wf h
  have key : ∀ p : Op, p.ok c.s → ∃ s', c.s.step p = some s' := fun p hp => by
    obtain ⟨s', hs⟩ := step_ok hb p hp
    exact ⟨s', hs.step⟩
  suffices ∃ s', c.s.run o.forward = some s' by
    obtain ⟨s', e⟩ := this
    exact ⟨⟨s', c.ro ++ o.kinds⟩, by simp [CState.step, ht, e]⟩
  cases o with
  | buffer => cases ho
  | realize => exact ⟨_, rfl⟩
  | assign i j | moveAssign i j | swap i j =>
    simp only [COp.typed, Bool.and_eq_true] at ht
    simp only [COp.forward, run_one]
    exact key _ ⟨lt_of_kind hl ht.1, lt_of_kind hl ht.2⟩
  | fragment j a n =>
    simp only [COp.forward, run_one]
    exact key _ ⟨lt_of_kind hl ht, by rw [size_eq_length hb]; exact hf j a n rfl⟩
  | view j | copy j | real j | move j | destroy j =>
    simp only [COp.forward, run_one]
    exact key _ (lt_of_kind hl ht)

/-! ### C122 -/

theorem fam_lab {f : Fam} {o : Op} {k : Nat} (hk : k < f.lab.length) (ht : k ∉ o.targets) :
    (f.step o).lab[k]? = f.lab[k]? := by
  cases o <;> simp only [Fam.step, Fam.join, Op.targets, List.mem_cons, List.not_mem_nil, or_false, not_or] at * <;>
    (repeat' split) <;>
    simp only [List.getElem?_append_left hk] <;>
    first
      | rw [List.getElem?_set_ne (Ne.symm ht)]
      | rw [List.getElem?_set_ne (Ne.symm ht.1)]
      | rw [List.getElem?_set_ne (Ne.symm ht.2), List.getElem?_set_ne (Ne.symm ht.1)]


theorem fam_len (f : Fam) (o : Op) : f.lab.length ≤ (f.step o).lab.length := by
  cases o <;> simp only [Fam.step, Fam.join] <;> (repeat' split) <;> simp

theorem fam_unspoiled {post : List Op} : ∀ {f : Fam} {k : Nat}, k < f.lab.length → (∀ o ∈ post, k ∉ o.targets) →
    (post.foldl Fam.step f).lab[k]? = f.lab[k]? ∧ ∀ l, l ∈ f.spoiled → l ∈ (post.foldl Fam.step f).spoiled := by
  induction post with
  | nil => intro f k _ _; exact ⟨rfl, fun _ h => h⟩
  | cons o os ih =>
    intro f k hk ht
    obtain ⟨h1, h2⟩ := ih (f := f.step o) (k := k) (Nat.lt_of_lt_of_le hk (fam_len f o))
      (fun o' h => ht o' (List.mem_cons_of_mem _ h))
    refine ⟨?_, fun l hl => h2 l (spoiled_mono f o hl)⟩
    rw [List.foldl_cons, h1, fam_lab hk (ht o List.mem_cons_self)]

/-- Any buffer is a snapshot while it is not operated on itself. -/
theorem snapshot {post : List Op} : ∀ {hist : List Op} {junk} {s s' : State} {k : Nat},
    (State.init junk).run hist = some s → s.run post = some s' → k < s.bufs.length →
    (∀ o ∈ post, k ∉ o.targets ∧ o.isWrite = false) → ¬ Spoiled (hist ++ post) k → s'.bytes k = s.bytes k := by
  induction post with
  | nil => intro hist junk s s' k _ h _ _ _; cases h; rfl
  | cons o os ih =>
    intro hist junk s s' k h h' hk ho hn
    have hb := run_base (init_base junk) h
    cases e : s.step o with
    | none => simp only [State.run, e] at h'; cases h'
    | some s1 =>
      simp only [State.run, e] at h'
      have hlen : k < s1.bufs.length := by rw [step_length hb e]; omega
      rw [ih (run_append h e) h' hlen (fun o' h => ho o' (List.mem_cons_of_mem _ h))
        (by rw [List.append_assoc]; exact hn)]
      rcases (step_base hb e).2 with hok | rfl
      · obtain ⟨s2, h2, h3⟩ := C02_families_partial h o hok
        rw [e] at h2; cases h2
        refine h3 k hk (ho o List.mem_cons_self).1 (.inr ⟨fun hs => hn ?_, (ho o List.mem_cons_self).2⟩)
        obtain ⟨l, h4, h5⟩ := hs
        have v := fam_of_run h
        obtain ⟨g1, g2⟩ := fam_unspoiled (post := o :: os) (f := families hist) (k := k) (by rw [v.len]; exact hk)
          (fun o' h => (ho o' h).1)
        refine ⟨l, ?_, ?_⟩
        · rw [familyOf, families, List.foldl_append]; exact g1.trans h4
        · rw [families, List.foldl_append]; exact g2 l h5
      · rfl

/-- The read-only buffers that an operation gives other bytes. -/
def COp.changes : COp → List Nat
  | .move j | .destroy j => [j]
  | .assign i _ => [i]
  | .moveAssign i j | .swap i j => [i, j]
  | _ => []

/-- Writing through an iterator of a `Buffer`. -/
def COp.isWrite : COp → Bool
  | .buffer o => o.isWrite
  | _ => false

theorem typed_targets {ro : List Bool} {k : Nat} (hk : ro[k]? = some true) {o : COp} (ht : o.typed ro = true)
    (hc : k ∉ o.changes) : ∀ p ∈ o.forward, k ∉ p.targets := by
  intro p hp hkp
  cases o with
  | buffer o =>
    rw [COp.forward, List.mem_singleton] at hp
    subst hp
    cases p <;>
      simp only [COp.typed, Op.typed, Op.targets, List.mem_cons, List.not_mem_nil, or_false, Bool.and_eq_true,
        beq_iff_eq] at ht hkp <;>
      first
        | exact hkp
        | (subst hkp; simp [hk] at ht)
        | (rcases hkp with rfl | rfl <;> simp [hk] at ht)
  | realize => cases hp
  | _ =>
    simp only [COp.forward, List.mem_singleton] at hp
    subst hp
    simp only [Op.targets, COp.changes] at *
    exact hc hkp

/-- The families of the wrapped buffers after a history. -/
def SpoiledC (hist : List COp) (k : Nat) : Prop := Spoiled (hist.flatMap COp.forward) k

/-- C122 (partial: only for read-only buffers whose family contains no fragment and does not descend from a deep
copy, and without writes through iterators): a read-only buffer is a snapshot. Its bytes stay the same as long as
it is not itself assigned, moved from, swapped or destroyed, whatever is done with the buffer it was made from and
with all other buffers. -/
theorem C122_snapshot_partial {c c' : CState} {junk} {hist post : List COp}
    (h : (CState.init junk).run hist = some c) (h' : c.run post = some c') {k : Nat} (hk : c.ro[k]? = some true)
    (hc : ∀ o ∈ post, k ∉ o.changes ∧ o.isWrite = false) (hn : ¬ SpoiledC (hist ++ post) k) :
    c'.s.bytes k = c.s.bytes k := by
  obtain ⟨hb, hl⟩ := crun_wf (init_base junk) rfl h
  have hlt : k < c.s.bufs.length := hl ▸ (List.getElem?_eq_some_iff.mp hk).1
  refine snapshot (forward_run h) (forward_run h') hlt ?_ ?_
  · clear hn hlt hb hl h
    induction post generalizing c with
    | nil => intro o ho; cases ho
    | cons p ps ih =>
      cases e : c.step p with
      | none => simp only [CState.run, e] at h'; cases h'
      | some c1 =>
        simp only [CState.run, e] at h'
        obtain ⟨ht, _, hro⟩ := cstep_some e
        intro o ho
        rw [List.flatMap_cons, List.mem_append] at ho
        rcases ho with ho | ho
        · refine ⟨typed_targets hk ht (hc p List.mem_cons_self).1 o ho, ?_⟩
          have hw := (hc p List.mem_cons_self).2
          cases p with
          | realize => cases ho
          | buffer q => rw [COp.forward, List.mem_singleton] at ho; subst ho; exact hw
          | _ => simp only [COp.forward, List.mem_singleton] at ho; subst ho; rfl
        · refine ih h' ?_ (fun q hq => hc q (List.mem_cons_of_mem _ hq)) o ho
          rw [hro, List.getElem?_append_left (List.getElem?_eq_some_iff.mp hk).1]; exact hk
  · rw [← List.flatMap_append]; exact hn

/-- The bytes `1 2 3 4`, a shortened copy of them, and a read-only buffer of them. -/
def shared : List COp :=
  [.buffer (.new 0 0 8), .buffer (.addEndBytes 0 [1, 2, 3, 4]), .buffer (.copy 0), .buffer (.removeEnd 1 2), .view 0]

/-- C122 fails in general: making a fragment of a read-only buffer lets a later append to another buffer
overwrite the bytes of the read-only buffer. -/
theorem C122_snapshot_fails : ∃ (post : List COp) (c c' : CState),
    (CState.init fun _ _ => 0).run shared = some c ∧ c.run post = some c' ∧ c.ro[2]? = some true ∧
    (∀ o ∈ post, 2 ∉ o.changes ∧ o.isWrite = false) ∧ c.s.bytes 2 = [1, 2, 3, 4] ∧
    c'.s.bytes 2 = [1, 2, 9, 9] :=
  ⟨[.fragment 2 0 2, .buffer (.addEndBytes 1 [9, 9])],
    Option.get ((CState.init fun _ _ => 0).run shared) (by rfl),
    Option.get ((CState.init fun _ _ => 0).run (shared ++ [.fragment 2 0 2, .buffer (.addEndBytes 1 [9, 9])]))
      (by rfl), (Option.some_get _).symm, by rfl, by decide, by decide, by decide, by decide⟩

/-! ### Cases -/

example : ∃ c c', (CState.init fun _ _ => 0).run shared = some c ∧
    c.run [.copy 2, .fragment 2 1 2, .swap 3 4, .destroy 2] = some c' ∧
    c'.s.views = [[1, 2, 3, 4], [1, 2], [], [2, 3], [1, 2, 3, 4]] :=
  ⟨Option.get ((CState.init fun _ _ => 0).run shared) (by rfl),
    Option.get ((CState.init fun _ _ => 0).run (shared ++ [.copy 2, .fragment 2 1 2, .swap 3 4, .destroy 2])) (by rfl),
    (Option.some_get _).symm, by rfl, by decide⟩

/-- The hypotheses of the snapshot theorem are met while the other buffers grow and are destroyed. -/
example : ∃ c c', (CState.init fun _ _ => 0).run shared = some c ∧
    c.run [.buffer (.addEndBytes 1 [9, 9]), .buffer (.addStartBytes 0 [5]), .buffer (.addEndBuf 1 2),
      .buffer (.destroy 0)] = some c' ∧ c.ro[2]? = some true ∧
    ¬ SpoiledC (shared ++ [.buffer (.addEndBytes 1 [9, 9]), .buffer (.addStartBytes 0 [5]), .buffer (.addEndBuf 1 2),
      .buffer (.destroy 0)]) 2 ∧ c'.s.views = [[], [1, 2, 9, 9, 1, 2, 3, 4], [1, 2, 3, 4]] :=
  ⟨Option.get ((CState.init fun _ _ => 0).run shared) (by rfl),
    Option.get ((CState.init fun _ _ => 0).run (shared ++ [.buffer (.addEndBytes 1 [9, 9]),
      .buffer (.addStartBytes 0 [5]), .buffer (.addEndBuf 1 2), .buffer (.destroy 0)])) (by rfl),
    (Option.some_get _).symm, by rfl, by decide,
    fun ⟨l, _, h⟩ => absurd h (by simp [shared, families, COp.forward, Fam.step, Fam.join]), by decide⟩

end Verif.Buf
