import Verif.Zc.Const

/-!
Property theorems about read-only zero-compressed buffers (C123, C124).
-/
set_option linter.unusedSimpArgs false
set_option linter.unusedVariables false
namespace Verif.Zc
open Verif Verif.Buf

/-! ### C123 -/

/-- The operations of `ConstZcBuffer`. -/
def COp.readOnly : COp → Bool
  | .buffer _ => false
  | _ => true

/-- What the operations of `ConstZcBuffer` mean for byte sequences that share nothing. Objects that were moved
from may hold anything. -/
def COp.means (v v' : List (List Byte)) : COp → Prop
  | .view j | .copy j | .real j => v' = v ++ [v[j]?.getD []]
  | .move j => ∃ x, v' = v.set j x ++ [v[j]?.getD []]
  | .assign i j => v' = v.set i (v[j]?.getD [])
  | .moveAssign i j => if i = j then v' = v else ∃ x, v' = (v.set i (v[j]?.getD [])).set j x
  | .swap i j => v' = (v.set i (v[j]?.getD [])).set j (v[i]?.getD [])
  | .destroy i => v' = v.set i []
  | .fragment j a n => v' = v ++ [((v[j]?.getD []).drop a).take n]
  | .realize _ | .buffer _ => v' = v

/-- A sequence of them. -/
def Means : List (List Byte) → List COp → List (List Byte) → Prop
  | v, [], v' => v' = v
  | v, o :: os, v' => ∃ w, o.means v w ∧ Means w os v'

theorem view_getD {s : ZState} {j : Nat} (hj : j < s.bufs.length) : s.views[j]?.getD [] = s.bytes j := by
  rw [views_get hj]; rfl

theorem lt_of_kind {c : CState} (hl : c.ro.length = c.s.bufs.length) {j : Nat} {b : Bool}
    (h : (c.ro[j]? == some b) = true) : j < c.s.bufs.length := by
  rw [← hl]
  have := beq_iff_eq.mp h
  exact (List.getElem?_eq_some_iff.mp this).1

theorem push_views {s s' : ZState} {x : List Byte} (h1 : s'.bufs.length = s.bufs.length + 1)
    (h2 : s'.bytes s.bufs.length = x) (h3 : ∀ k, k < s.bufs.length → s'.bytes k = s.bytes k) :
    s'.views = s.views ++ [x] := by
  apply views_eq
  · simp [views_length, h1]
  · intro k hk
    by_cases hk' : k < s.bufs.length
    · rw [List.getElem?_append_left (by rw [views_length]; exact hk'), views_get hk', h3 k hk']
    · have : k = s.bufs.length := by omega
      subst this
      rw [h2, List.getElem?_append_right (by rw [views_length]; exact Nat.le_refl _), views_length]; simp

theorem set_views {s s' : ZState} {i : Nat} {x : List Byte} (hi : i < s.bufs.length)
    (h1 : s'.bufs.length = s.bufs.length) (h2 : s'.bytes i = x)
    (h3 : ∀ k, k < s.bufs.length → k ≠ i → s'.bytes k = s.bytes k) : s'.views = s.views.set i x := by
  apply views_eq
  · simp [views_length, h1]
  · intro k hk
    by_cases e : k = i
    · subst e; rw [List.getElem?_set_self (by rw [views_length]; exact hi), h2]
    · rw [List.getElem?_set_ne (Ne.symm e), views_get (h1 ▸ hk), h3 k (h1 ▸ hk) e]

theorem set2_views {s s' : ZState} {i j : Nat} {x y : List Byte} (hi : i < s.bufs.length) (hj : j < s.bufs.length)
    (h1 : s'.bufs.length = s.bufs.length) (h2 : i ≠ j → s'.bytes i = x) (h2' : s'.bytes j = y)
    (h3 : ∀ k, k < s.bufs.length → k ≠ i → k ≠ j → s'.bytes k = s.bytes k) :
    s'.views = (s.views.set i x).set j y := by
  apply views_eq
  · simp [views_length, h1]
  · intro k hk
    by_cases e : k = j
    · subst e; rw [List.getElem?_set_self (by rw [List.length_set, views_length]; exact hj), h2']
    · rw [List.getElem?_set_ne (Ne.symm e)]
      by_cases e' : k = i
      · subst e'; rw [List.getElem?_set_self (by rw [views_length]; exact hi), h2 e]
      · rw [List.getElem?_set_ne (Ne.symm e'), views_get (h1 ▸ hk), h3 k (h1 ▸ hk) e' e]

theorem means_step {c c' : CState} (hb : Inv c.s) (hl : c.ro.length = c.s.bufs.length) {o : COp}
    (hr : o.readOnly = true) (h : c.step o = some c') : o.means c.s.views c'.s.views := by
  obtain ⟨ht, hf, _⟩ := cstep_some h
  obtain ⟨s1, hs⟩ := step_ok hb o.forward (step_some_ok hf (by cases o <;> trivial))
  rw [hs.step] at hf
  have hf := Option.some.inj hf
  subst hf
  have e := hs.effect
  have fr := hs.frame (by cases o <;> first | rfl | cases hr)
  cases o with
  | buffer => cases hr
  | realize i =>
    have hi := lt_of_kind hl ht
    rw [COp.forward] at e fr
    simp only [COp.means]
    rw [set_views hi e.1 e.2.1 fun k hk hki => fr k hk (by simpa [ZOp.targets] using hki)]
    exact List.ext_getElem? fun k => by
      by_cases hki : k = i
      · subst hki; rw [List.getElem?_set_self (by rw [views_length]; exact hi), views_get hi]
      · rw [List.getElem?_set_ne (Ne.symm hki)]
  | view j | copy j =>
    have hj := lt_of_kind hl ht
    rw [COp.forward] at e fr
    simp only [COp.means, view_getD hj]
    exact push_views e.1 e.2 fun k hk => fr k hk (by simp [ZOp.targets])
  | real j =>
    have hj := lt_of_kind hl ht
    rw [COp.forward] at e fr
    simp only [COp.means, view_getD hj]
    exact push_views e.1 e.2.1 fun k hk => fr k hk (by simp [ZOp.targets])
  | move j =>
    have hj := lt_of_kind hl ht
    rw [COp.forward] at e fr
    simp only [COp.means, view_getD hj]
    refine ⟨c.s.bytes j, ?_⟩
    rw [push_views e.1 e.2 fun k hk => fr k hk (by simp [ZOp.targets])]
    congr 1
    exact List.ext_getElem? fun k => by
      by_cases hki : k = j
      · subst hki; rw [List.getElem?_set_self (by rw [views_length]; exact hj), views_get hj]
      · rw [List.getElem?_set_ne (Ne.symm hki)]
  | assign i j =>
    simp only [COp.typed, Bool.and_eq_true] at ht
    have hi := lt_of_kind hl ht.1
    have hj := lt_of_kind hl ht.2
    rw [COp.forward] at e fr
    simp only [COp.means, view_getD hj]
    exact set_views hi e.1 e.2 fun k hk hki => fr k hk (by simpa [ZOp.targets] using hki)
  | moveAssign i j =>
    simp only [COp.typed, Bool.and_eq_true] at ht
    have hi := lt_of_kind hl ht.1
    have hj := lt_of_kind hl ht.2
    rw [COp.forward] at e fr
    simp only [COp.means, view_getD hj]
    by_cases hij : i = j
    · rw [if_pos hij]
      apply views_eq (by rw [views_length]; exact e.1.symm)
      intro k hk
      have hk' : k < c.s.bufs.length := Nat.lt_of_lt_of_eq hk e.1
      rw [views_get hk']
      by_cases hki : k = i
      · rw [hki, e.2.1, hij]
      · rw [fr k hk' (by simp [ZOp.targets, hki, ← hij])]
    · rw [if_neg hij]
      exact ⟨_, set2_views hi hj e.1 (fun _ => e.2.1) rfl fun k hk h1 h2 => fr k hk (by
        simp [ZOp.targets, h1, h2])⟩
  | swap i j =>
    simp only [COp.typed, Bool.and_eq_true] at ht
    have hi := lt_of_kind hl ht.1
    have hj := lt_of_kind hl ht.2
    rw [COp.forward] at e fr
    simp only [COp.means, view_getD hj, view_getD hi]
    exact set2_views hi hj e.1 (fun _ => e.2.1) e.2.2 fun k hk h1 h2 => fr k hk (by
        simp [ZOp.targets, h1, h2])
  | destroy i =>
    have hi := lt_of_kind hl ht
    rw [COp.forward] at e fr
    simp only [COp.means]
    exact set_views hi e.1 e.2 fun k hk hki => fr k hk (by simpa [ZOp.targets] using hki)
  | fragment j a n =>
    have hj := lt_of_kind hl ht
    rw [COp.forward] at e fr
    simp only [COp.means, view_getD hj]
    exact push_views e.1 e.2 fun k hk => fr k hk (by simp [ZOp.targets])

/-- C123: whatever was done before, with buffers of both kinds, any sequence of operations on read-only buffers
behaves as if every buffer had its own bytes: each buffer of either kind ends up with the bytes that the
operations give it, and all others keep theirs. -/
theorem C123_read_only {c c' : CState} (h : CReach c) {ops : List COp} (ho : ∀ o ∈ ops, o.readOnly = true)
    (hr : c.run ops = some c') : Means c.s.views ops c'.s.views := by
  obtain ⟨hb, hl⟩ := creach_wf h
  clear h
  induction ops generalizing c with
  | nil => cases hr; rfl
  | cons o os ih =>
    cases e : c.step o with
    | none => simp only [CState.run, e] at hr; cases hr
    | some c1 =>
      simp only [CState.run, e] at hr
      obtain ⟨h1, h2⟩ := cstep_wf hb hl e
      exact ⟨c1.s.views, means_step hb hl (ho o List.mem_cons_self) e,
        ih (fun o h => ho o (List.mem_cons_of_mem _ h)) hr h1 h2⟩

/-- The buffers that an operation of `ZcBuffer` is called on or copies as a `ZcBuffer`, which must be writable. -/
def writables : ZOp → List Nat
  | .new _ _ _ | .newFrom _ => []
  | .copy j | .move j | .destroy j | .addStart j _ | .addEnd j _ | .addStartBytes j _ | .addEndBytes j _
  | .removeStart j _ | .removeEnd j _ | .fragment j _ _ | .write j _ _ | .real j | .realize j => [j]
  | .assign i j | .moveAssign i j | .swap i j => [i, j]
  | .addStartBuf i _ | .addEndBuf i _ => [i]

/-- The operands of an operation, and whether each must be read-only: the interface of `ConstZcBuffer` is for read-only
buffers, except that one is made from a writable buffer; the interface of `ZcBuffer` is for writable ones. -/
def COp.operands : COp → List (Nat × Bool)
  | .buffer o => (writables o).map fun j => (j, false)
  | .view j => [(j, false)]
  | .copy j | .move j | .destroy j | .fragment j _ _ | .real j | .realize j => [(j, true)]
  | .assign i j | .moveAssign i j | .swap i j => [(i, true), (j, true)]

/-- The kinds that the model demands are those. -/
theorem typed_iff {ro : List Bool} {o : COp} : o.typed ro = true ↔ ∀ p ∈ o.operands, ro[p.1]? = some p.2 := by
  cases o with
  | buffer o => cases o <;> simp [COp.typed, ZOp.typed, COp.operands, writables]
  | _ => simp [COp.typed, COp.operands]

/-- C123: being read-only cannot be lost.  An operation is accepted only on operands of the right kind, it leaves
the kinds of all buffers as they are, and a buffer that it makes is read-only if and only if the operation is one of
`ConstZcBuffer`. -/
theorem C123_kinds {c c' : CState} {o : COp} (h : c.step o = some c') :
    (∀ p ∈ o.operands, c.ro[p.1]? = some p.2) ∧ (∀ i, i < c.ro.length → c'.ro[i]? = c.ro[i]?) ∧
    ∀ i b, c.ro.length ≤ i → c'.ro[i]? = some b → b = o.readOnly := by
  obtain ⟨ht, _, hk⟩ := cstep_some h
  refine ⟨typed_iff.1 ht, fun i hi => by rw [hk, List.getElem?_append_left hi], fun i b hi hb => ?_⟩
  rw [hk, List.getElem?_append_right hi] at hb
  have hm := List.mem_of_getElem? hb
  cases o with
  | buffer o => cases o <;> simp_all [COp.kinds, COp.readOnly]
  | _ => simp_all [COp.kinds, COp.readOnly]

/-- C123: a buffer of either kind can be prepended and appended to a writable one. -/
theorem C123_append {c : CState} (h : CReach c) {i j : Nat} (hi : c.ro[i]? = some false) (hj : j < c.ro.length) :
    (∃ c', c.step (.buffer (.addStartBuf i j)) = some c') ∧ ∃ c', c.step (.buffer (.addEndBuf i j)) = some c' := by
  obtain ⟨hb, hl⟩ := creach_wf h
  have hi' : i < c.s.bufs.length := hl ▸ (List.getElem?_eq_some_iff.mp hi).1
  have hj' : j < c.s.bufs.length := hl ▸ hj
  constructor
  · obtain ⟨s', hs⟩ := step_ok hb (.addStartBuf i j) ⟨hi', hj'⟩
    have ht : (COp.buffer (.addStartBuf i j)).typed c.ro = true := typed_iff.2 (by simp [COp.operands, writables, hi])
    exact ⟨⟨s', _⟩, by rw [CState.step, if_pos ht, COp.forward, hs.step]; rfl⟩
  · obtain ⟨s', hs⟩ := step_ok hb (.addEndBuf i j) ⟨hi', hj'⟩
    have ht : (COp.buffer (.addEndBuf i j)).typed c.ro = true := typed_iff.2 (by simp [COp.operands, writables, hi])
    exact ⟨⟨s', _⟩, by rw [CState.step, if_pos ht, COp.forward, hs.step]; rfl⟩

/-- C123: and none of them goes wrong, given buffers of the right kind and fragments within the buffer. -/
theorem C123_defined {c : CState} (h : CReach c) {o : COp} (ho : o.readOnly = true)
    (hk : ∀ p ∈ o.operands, c.ro[p.1]? = some p.2)
    (hf : ∀ j a n, o = .fragment j a n → a + n ≤ (c.s.bytes j).length) : ∃ c', c.step o = some c' := by
  have ht := typed_iff.2 hk
  obtain ⟨hb, hl⟩ := creach_wf h
  have key : ∀ p : ZOp, p.ok c.s → ∃ s', c.s.step p = some s' := fun p hp => by
    obtain ⟨s', hs⟩ := step_ok hb p hp
    exact ⟨s', hs.step⟩
  suffices ∃ s', c.s.step o.forward = some s' by
    obtain ⟨s', e⟩ := this
    exact ⟨⟨s', c.ro ++ o.kinds⟩, by simp [CState.step, ht, e]⟩
  cases o with
  | buffer => cases ho
  | assign i j | moveAssign i j | swap i j =>
    simp only [COp.typed, Bool.and_eq_true] at ht
    simp only [COp.forward]
    exact key _ ⟨lt_of_kind hl ht.1, lt_of_kind hl ht.2⟩
  | fragment j a n =>
    simp only [COp.forward]
    exact key _ ⟨lt_of_kind hl ht, by rw [← bytes_len hb]; exact hf j a n rfl⟩
  | view j | copy j | real j | move j | destroy j | realize j =>
    simp only [COp.forward]
    exact key _ (lt_of_kind hl ht)

/-! ### C124 -/

theorem fam_lab {f : Fam} {o : ZOp} {k : Nat} (hk : k < f.lab.length) (ht : k ∉ o.targets ∨ o = .realize k) :
    (famStep f o).lab[k]? = f.lab[k]? := by
  rcases ht with ht | rfl
  case inr => rfl
  cases o <;> simp only [famStep, Fam.join, ZOp.targets, List.mem_cons, List.not_mem_nil, or_false, not_or] at * <;>
    (repeat' split) <;>
    simp only [List.getElem?_append_left hk] <;>
    first
      | rw [List.getElem?_set_ne (Ne.symm ht)]
      | rw [List.getElem?_set_ne (Ne.symm ht.1)]
      | rw [List.getElem?_set_ne (Ne.symm ht.2), List.getElem?_set_ne (Ne.symm ht.1)]


theorem fam_len (f : Fam) (o : ZOp) : f.lab.length ≤ (famStep f o).lab.length := by
  cases o <;> simp only [famStep, Fam.join] <;> (repeat' split) <;> simp

theorem fam_unspoiled {post : List ZOp} : ∀ {f : Fam} {k : Nat}, k < f.lab.length → (∀ o ∈ post, k ∉ o.targets ∨ o = .realize k) →
    (post.foldl famStep f).lab[k]? = f.lab[k]? ∧ ∀ l, l ∈ f.spoiled → l ∈ (post.foldl famStep f).spoiled := by
  induction post with
  | nil => intro f k _ _; exact ⟨rfl, fun _ h => h⟩
  | cons o os ih =>
    intro f k hk ht
    obtain ⟨h1, h2⟩ := ih (f := famStep f o) (k := k) (Nat.lt_of_lt_of_le hk (fam_len f o))
      (fun o' h => ht o' (List.mem_cons_of_mem _ h))
    refine ⟨?_, fun l hl => h2 l (spoiled_mono f o hl)⟩
    rw [List.foldl_cons, h1, fam_lab hk (ht o List.mem_cons_self)]

/-- Any buffer is a snapshot while it is not operated on itself, except by `Realize`. -/
theorem snapshot {post : List ZOp} : ∀ {hist : List ZOp} {junk} {s s' : ZState} {k : Nat},
    (ZState.init junk).run hist = some s → s.run post = some s' → k < s.bufs.length →
    (∀ o ∈ post, (k ∉ o.targets ∨ o = .realize k) ∧ o.isWrite = false) → ¬ Spoiled (hist ++ post) k →
    s'.bytes k = s.bytes k := by
  induction post with
  | nil => intro hist junk s s' k _ h _ _ _; cases h; rfl
  | cons o os ih =>
    intro hist junk s s' k h h' hk ho hn
    have hb := run_inv (init_inv junk) h
    cases e : s.step o with
    | none => simp only [ZState.run, e] at h'; cases h'
    | some s1 =>
      simp only [ZState.run, e] at h'
      have hlen : k < s1.bufs.length := by rw [step_length hb e]; omega
      rw [ih (run_append h e) h' hlen (fun o' h => ho o' (List.mem_cons_of_mem _ h))
        (by rw [List.append_assoc]; exact hn)]
      rcases (step_inv hb e).2 with hok | rfl
      · rcases (ho o List.mem_cons_self).1 with hkt | rfl
        · obtain ⟨s2, h2, h3⟩ := C09_families_partial h o hok
          rw [e] at h2; cases h2
          refine h3 k hk hkt (.inr ⟨fun hs => hn ?_, (ho o List.mem_cons_self).2⟩)
          obtain ⟨l, h4, h5⟩ := hs
          have v := fam_of_run h
          obtain ⟨g1, g2⟩ := fam_unspoiled (post := o :: os) (f := families hist) (k := k)
            (by rw [v.len]; simpa [flat, ZState.segs] using hk) (fun o' h => (ho o' h).1)
          refine ⟨l, ?_, ?_⟩
          · rw [familyOf, families, List.foldl_append]; exact g1.trans h4
          · rw [families, List.foldl_append]; exact g2 l h5
        · obtain ⟨s2, hs⟩ := step_ok hb _ hok
          rw [hs.step] at e; cases e
          exact hs.effect.2.1
      · rfl

/-- The read-only buffers that an operation gives other bytes. -/
def COp.changes : COp → List Nat
  | .move j | .destroy j => [j]
  | .assign i _ => [i]
  | .moveAssign i j | .swap i j => [i, j]
  | _ => []

/-- Writing through an iterator of a `Buffer`. -/
def COp.isWrite : COp → Bool
  | .buffer o => o.isWrite
  | _ => false

theorem typed_targets {ro : List Bool} {k : Nat} (hk : ro[k]? = some true) {o : COp} (ht : o.typed ro = true)
    (hc : k ∉ o.changes) : k ∉ o.forward.targets ∨ o.forward = .realize k := by
  cases o with
  | buffer p =>
    left
    intro hkp
    cases p <;>
      simp only [COp.forward, COp.typed, ZOp.typed, ZOp.targets, List.mem_cons, List.not_mem_nil, or_false,
        Bool.and_eq_true, beq_iff_eq] at ht hkp <;>
      first
        | exact hkp
        | (subst hkp; simp [hk] at ht)
        | (rcases hkp with rfl | rfl <;> simp [hk] at ht)
  | realize i =>
    by_cases e : k = i
    · subst e; exact .inr rfl
    · left; simpa [COp.forward, ZOp.targets] using e
  | move => left; simp [COp.forward, ZOp.targets]
  | _ => left; exact hc

/-- The family of buffer `k` descends from a deep copy. -/
def SpoiledC (hist : List COp) (k : Nat) : Prop := Spoiled (hist.map COp.forward) k

/-- C124 (partial: only for read-only buffers whose family does not descend from a deep
copy, and without writes through iterators): a read-only buffer is a snapshot. Its bytes stay the same as long as
it is not itself assigned, moved from, swapped or destroyed, whatever is done with the buffer it was made from and
with all other buffers. -/
theorem C124_snapshot_partial {c c' : CState} {junk} {hist post : List COp}
    (h : (CState.init junk).run hist = some c) (h' : c.run post = some c') {k : Nat} (hk : c.ro[k]? = some true)
    (hc : ∀ o ∈ post, k ∉ o.changes ∧ o.isWrite = false) (hn : ¬ SpoiledC (hist ++ post) k) :
    c'.s.bytes k = c.s.bytes k := by
  obtain ⟨hb, hl⟩ := crun_wf (init_inv junk) rfl h
  have hlt : k < c.s.bufs.length := hl ▸ (List.getElem?_eq_some_iff.mp hk).1
  refine snapshot (forward_run h) (forward_run h') hlt ?_ ?_
  · clear hn hlt hb hl h
    induction post generalizing c with
    | nil => intro o ho; cases ho
    | cons p ps ih =>
      cases e : c.step p with
      | none => simp only [CState.run, e] at h'; cases h'
      | some c1 =>
        simp only [CState.run, e] at h'
        obtain ⟨ht, _, hro⟩ := cstep_some e
        intro o ho
        rw [List.map_cons, List.mem_cons] at ho
        rcases ho with rfl | ho
        · refine ⟨typed_targets hk ht (hc p List.mem_cons_self).1, ?_⟩
          have hw := (hc p List.mem_cons_self).2
          cases p <;> first | rfl | exact hw
        · refine ih h' ?_ (fun q hq => hc q (List.mem_cons_of_mem _ hq)) o ho
          rw [hro, List.getElem?_append_left (List.getElem?_eq_some_iff.mp hk).1]; exact hk
  · rw [← List.map_append]; exact hn

/-- C124 fails in general: the deep copy of another kind of buffer leaves the dirty range of its storage empty, so
appending to a copy of it overwrites the bytes of a read-only buffer. -/
theorem C124_snapshot_fails : ∃ (hist post : List COp) (c c' : CState),
    (CState.init fun _ _ => 0).run hist = some c ∧ c.run post = some c' ∧ c.ro[1]? = some true ∧
    (∀ o ∈ post, 1 ∉ o.changes ∧ o.isWrite = false) ∧ c.s.bytes 1 = [1, 2, 3, 4] ∧
    c'.s.bytes 1 = [9, 9, 3, 4] :=
  ⟨[.buffer (.newFrom [1, 2, 3, 4]), .view 0, .buffer (.removeEnd 0 4)], [.buffer (.addEndBytes 0 [9, 9])],
    Option.get ((CState.init fun _ _ => 0).run
      [.buffer (.newFrom [1, 2, 3, 4]), .view 0, .buffer (.removeEnd 0 4)]) (by rfl),
    Option.get ((CState.init fun _ _ => 0).run
      [.buffer (.newFrom [1, 2, 3, 4]), .view 0, .buffer (.removeEnd 0 4), .buffer (.addEndBytes 0 [9, 9])])
      (by rfl), (Option.some_get _).symm, by rfl, by decide, by decide, by decide, by decide⟩

/-! ### Cases -/

/-- The bytes `1 2 0 0 3`, a shortened copy of them, and a read-only buffer of them. -/
def shared : List COp :=
  [.buffer (.new 4 2 4), .buffer (.addStartBytes 0 [1, 2]), .buffer (.addEndBytes 0 [3]), .buffer (.copy 0),
    .buffer (.removeEnd 1 2), .view 0]

example : ∃ c c', (CState.init fun _ _ => 7).run shared = some c ∧
    c.run [.copy 2, .fragment 2 1 2, .swap 3 4, .real 2, .realize 4, .destroy 2, .move 4] = some c' ∧
    c'.s.views = [[1, 2, 0, 0, 3], [1, 2, 0], [], [2, 0], [1, 2, 0, 0, 3], [1, 2, 0, 0, 3], [1, 2, 0, 0, 3]] :=
  ⟨Option.get ((CState.init fun _ _ => 7).run shared) (by rfl),
    Option.get ((CState.init fun _ _ => 7).run
      (shared ++ [.copy 2, .fragment 2 1 2, .swap 3 4, .real 2, .realize 4, .destroy 2, .move 4])) (by rfl),
    (Option.some_get _).symm, by rfl, by decide⟩

/-- What the other buffers undergo. -/
def busy : List COp :=
  [.buffer (.addEndBytes 1 [9, 9]), .fragment 2 0 2, .realize 2, .buffer (.addStartBytes 0 [5]),
    .buffer (.addEndBuf 1 2), .buffer (.destroy 0)]

/-- The hypotheses of the snapshot theorem are met while the other buffers grow and are destroyed. -/
example : ∃ c c', (CState.init fun _ _ => 7).run shared = some c ∧ c.run busy = some c' ∧ c.ro[2]? = some true ∧
    (∀ o ∈ busy, 2 ∉ o.changes ∧ o.isWrite = false) ∧ ¬ SpoiledC (shared ++ busy) 2 ∧
    c'.s.views = [[], [1, 2, 0, 9, 9, 1, 2, 0, 0, 3], [1, 2, 0, 0, 3], [1, 2]] :=
  ⟨Option.get ((CState.init fun _ _ => 7).run shared) (by rfl),
    Option.get ((CState.init fun _ _ => 7).run (shared ++ busy)) (by rfl),
    (Option.some_get _).symm, by rfl, by decide, by decide,
    fun ⟨l, _, h⟩ => absurd h (by simp [shared, busy, families, COp.forward, famStep, Fam.join]), by decide⟩

end Verif.Zc
