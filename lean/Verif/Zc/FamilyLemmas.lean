import Verif.Zc.Props
import Verif.Buf.FamilyLemmas

/-!
Families of `ZcBuffer` objects, computed from the operations alone, and the invariant that links them to the
storages. Used by `Family.lean`. A `ZcBuffer` is seen as the segment of its storage that it occupies.
-/
set_option linter.unusedSimpArgs false
set_option linter.unusedVariables false
namespace Verif.Zc
open Verif Verif.Buf

/-- How an operation changes the families: construction founds a family; copies, moved objects, fragments and
real copies join the family of their source; assignment changes the family. A deep copy
(`zc-buffer.h:457-469`) founds a spoiled family. -/
def famStep (f : Fam) : ZOp → Fam
  | .new _ _ _ => { f with lab := f.lab ++ [f.lab.length] }
  | .newFrom d => ⟨f.lab ++ [f.lab.length], if d = [] then f.spoiled else f.lab.length :: f.spoiled⟩
  | .copy j | .move j | .fragment j _ _ | .real j => f.join j
  | .assign i j | .moveAssign i j => match f.lab[j]? with
    | none => f
    | some l => { f with lab := f.lab.set i l }
  | .swap i j => match f.lab[i]?, f.lab[j]? with
    | some l, some k => { f with lab := (f.lab.set i k).set j l }
    | _, _ => f
  | _ => f

/-- The families after a history. -/
def families (hist : List ZOp) : Fam := hist.foldl famStep ⟨[], []⟩

/-- The buffers as segments. -/
def flat (s : ZState) : State := ⟨s.mem, s.segs⟩

theorem addAtStart_grows {m m' : Mem} {z z' : ZBuf} {n : Nat} (h : addAtStart m z n = some (m', z')) :
    Grows m z.seg m' z'.seg := by
  unfold addAtStart at h
  split at h
  · cases h; exact ⟨.inl rfl, fun _ _ _ => rfl⟩
  · cases e : growStart m z.seg n with
    | none => rw [e] at h; cases h
    | some g => rw [e] at h; cases h; exact ⟨(growStart_grows e).st, (growStart_grows e).mem⟩

theorem addAtEnd_grows {m m' : Mem} {z z' : ZBuf} {n : Nat} (h : addAtEnd m z n = some (m', z')) :
    Grows m z.seg m' z'.seg := by
  unfold addAtEnd at h
  split at h
  · cases h; exact ⟨.inl rfl, fun _ _ _ => rfl⟩
  · cases e : growEnd m z.seg n with
    | none => rw [e] at h; cases h
    | some g => rw [e] at h; cases h; exact ⟨(growEnd_grows e).st, (growEnd_grows e).mem⟩

theorem addBytesAtStart_grows {m m' : Mem} {s s' : ZBuf} {d : List Byte}
    (h : addBytesAtStart m s d = some (m', s')) : Grows m s.seg m' s'.seg := by
  unfold addBytesAtStart at h
  split at h
  · cases h; exact ⟨.inl rfl, fun _ _ _ => rfl⟩
  · split at h
    · cases h
    · rename_i m1 s1 e
      cases e2 : m1.fill s1.seg s1.start d with
      | none => rw [e2] at h; cases h
      | some m2 => rw [e2] at h; cases h; exact grows_fill (addAtStart_grows e) e2

theorem addBytesAtEnd_grows {m m' : Mem} {s s' : ZBuf} {d : List Byte}
    (h : addBytesAtEnd m s d = some (m', s')) : Grows m s.seg m' s'.seg := by
  unfold addBytesAtEnd at h
  split at h
  · cases h; exact ⟨.inl rfl, fun _ _ _ => rfl⟩
  · split at h
    · cases h
    · rename_i m1 s1 e
      cases e2 : m1.fill s1.seg (s1.en - (s1.ze - s1.zs) - d.length) d with
      | none => rw [e2] at h; cases h
      | some m2 => rw [e2] at h; cases h; exact grows_fill (addAtEnd_grows e) e2

theorem copyInto_mem {m m' : Mem} {z : ZBuf} {dst off size : Nat} (h : copyInto m z dst off size = some m') :
    ∀ k, k ≠ dst → m'.mem k = m.mem k := by
  intro k hk
  unfold copyInto at h
  split at h
  · cases h; rfl
  · split at h
    · split at h
      · cases h
      · exact (write_mem h).1 k hk
    · dsimp only at h
      split at h
      · cases h
      · split at h
        · cases h
        · rename_i m1 e1
          split at h
          · cases h
          · rename_i m2 e2
            split at h
            · cases h
            · rw [(write_mem h).1 k hk, (write_mem e2).1 k hk, (write_mem e1).1 k hk]

theorem grows_copy {m m1 m2 : Mem} {s s1 : Seg} {c : ZBuf} {id off n : Nat} (g : Grows m s m1 s1)
    (hid : s1.st = some id) (h : copyInto m1 c id off n = some m2) : Grows m s m2 s1 := by
  refine ⟨g.st, fun k h1 h2 => ?_⟩
  rw [copyInto_mem h k ?_, g.mem k h1 h2]
  rintro rfl
  rcases g.st with e | e
  · exact h1 (by rw [← e, hid])
  · rw [hid] at e; cases e; exact h2 rfl

theorem on_some {s s' : ZState} {i : Nat} {f : Mem → ZBuf → Option (Mem × ZBuf)} (h : s.on i f = some s') :
    ∃ b m' b', s.bufs[i]? = some b ∧ f s.mem b = some (m', b') ∧ s' = ⟨m', s.bufs.set i b'⟩ := by
  unfold ZState.on at h
  split at h
  · cases h
  · rename_i b hb
    cases e : f s.mem b with
    | none => rw [e] at h; cases h
    | some r => rw [e] at h; cases h; exact ⟨b, r.1, r.2, hb, e, rfl⟩

theorem push_some {s s' : ZState} {j : Nat} {f : Mem → ZBuf → Option (Mem × ZBuf)} (h : s.push j f = some s') :
    ∃ b m' b', s.bufs[j]? = some b ∧ f s.mem b = some (m', b') ∧ s' = ⟨m', s.bufs ++ [b']⟩ := by
  unfold ZState.push at h
  split at h
  · cases h
  · rename_i b hb
    cases e : f s.mem b with
    | none => rw [e] at h; cases h
    | some r => rw [e] at h; cases h; exact ⟨b, r.1, r.2, hb, e, rfl⟩

theorem segs_set (s : ZState) (i : Nat) (z : ZBuf) (m : Mem) :
    (⟨m, s.bufs.set i z⟩ : ZState).segs = s.segs.set i z.seg := by simp [ZState.segs, List.map_set]

theorem segs_push (s : ZState) (z : ZBuf) (m : Mem) :
    (⟨m, s.bufs ++ [z]⟩ : ZState).segs = s.segs ++ [z.seg] := by simp [ZState.segs]

/-- What a storing operation does: the target grows. -/
theorem stores_grows {s s' : ZState} {o : ZOp} (h : s.step o = some s') (ho : o.stores = true) :
    s' = s ∨ ∃ i b b', i ∈ o.targets ∧ s.bufs[i]? = some b ∧ s'.bufs = s.bufs.set i b' ∧
      Grows s.mem b.seg s'.mem b'.seg := by
  cases o with
  | addStartBytes i d =>
    simp only [ZState.step] at h
    obtain ⟨b, m', b', h1, h2, rfl⟩ := on_some h
    exact .inr ⟨i, b, b', by simp [ZOp.targets], h1, rfl, addBytesAtStart_grows h2⟩
  | addEndBytes i d =>
    simp only [ZState.step] at h
    obtain ⟨b, m', b', h1, h2, rfl⟩ := on_some h
    exact .inr ⟨i, b, b', by simp [ZOp.targets], h1, rfl, addBytesAtEnd_grows h2⟩
  | write i off d =>
    simp only [ZState.step] at h
    obtain ⟨b, m', b', h1, h2, rfl⟩ := on_some h
    refine .inr ⟨i, b, b', by simp [ZOp.targets], h1, rfl, ?_⟩
    unfold writeAt at h2
    dsimp only at h2
    by_cases hwr : writable b (b.start + off) d.length
    · rw [if_pos hwr] at h2
      generalize (if b.start + off < b.zs then b.start + off else b.start + off - (b.ze - b.zs)) = p at h2
      cases e : s.mem.fill b.seg p d with
      | none => rw [e] at h2; cases h2
      | some m1 =>
        rw [e] at h2; cases h2
        exact grows_fill (m := s.mem) (s := b.seg) ⟨.inl rfl, fun _ _ _ => rfl⟩ e
    · rw [if_neg hwr] at h2; cases h2
  | addStartBuf i j =>
    simp only [ZState.step] at h
    split at h
    · cases h
    · rename_i c hc
      split at h
      · cases h; exact .inl rfl
      · split at h
        · cases h
        · rename_i s1 e1
          obtain ⟨b, m', b', h1, h2, rfl⟩ := on_some e1
          have hil := (List.getElem?_eq_some_iff.mp h1).1
          dsimp only at h
          rw [List.getElem?_set_self hil] at h
          split at h
          · rename_i b1 c1 hb1 _
            cases hb1
            split at h
            · cases h
            · rename_i id hid
              cases e : copyInto m' c1 id b'.start c.size with
              | none => rw [e] at h; cases h
              | some m2 =>
                rw [e] at h; cases h
                exact .inr ⟨i, b, b', by simp [ZOp.targets], h1, rfl, grows_copy (addAtStart_grows h2) hid e⟩
          · cases h
  | addEndBuf i j =>
    simp only [ZState.step] at h
    split at h
    · cases h
    · rename_i c hc
      split at h
      · cases h; exact .inl rfl
      · split at h
        · cases h
        · rename_i s1 e1
          obtain ⟨b, m', b', h1, h2, rfl⟩ := on_some e1
          have hil := (List.getElem?_eq_some_iff.mp h1).1
          dsimp only at h
          rw [List.getElem?_set_self hil] at h
          split at h
          · rename_i b1 c1 hb1 _
            cases hb1
            split at h
            · cases h
            · rename_i id hid
              cases e : copyInto m' c1 id (b'.en - (b'.ze - b'.zs) - c.size) c.size with
              | none => rw [e] at h; cases h
              | some m2 =>
                rw [e] at h; cases h
                exact .inr ⟨i, b, b', by simp [ZOp.targets], h1, rfl, grows_copy (addAtEnd_grows h2) hid e⟩
          · cases h
  | _ => simp [ZOp.stores] at ho

theorem release_st {m m' : Mem} {z z' : ZBuf} (h : release m z = some (m', z')) : z'.st = none := by
  unfold release at h
  split at h
  · rename_i e; cases h; exact e
  · cases e : m.drop z.seg with
    | none => rw [e] at h; cases h
    | some m1 => rw [e] at h; cases h; rfl

theorem removeAtStart_from {m m' : Mem} {z z' : ZBuf} {n : Nat} (h : removeAtStart m z n = some (m', z')) :
    z'.st = none ∨ z'.st = z.st := by
  unfold removeAtStart at h
  dsimp only at h
  split at h
  · cases h; exact .inr rfl
  · split at h
    · cases h; exact .inr rfl
    · split at h
      · cases h; exact .inr rfl
      · exact .inl (release_st h)

theorem removeAtEnd_from {m m' : Mem} {z z' : ZBuf} {n : Nat} (h : removeAtEnd m z n = some (m', z')) :
    z'.st = none ∨ z'.st = z.st := by
  unfold removeAtEnd at h
  dsimp only at h
  split at h
  · cases h; exact .inr rfl
  · split at h
    · cases h; exact .inr rfl
    · split at h
      · cases h; exact .inr rfl
      · exact .inl (release_st h)

theorem makeReal_from {m m' : Mem} {z z' : ZBuf} (h : makeReal m z = some (m', z')) :
    z'.st = z.st ∨ z'.st = some m.next := by
  unfold makeReal at h
  split at h
  · cases e : m.acquire z.seg with
    | none => rw [e] at h; cases h
    | some m1 => rw [e] at h; cases h; exact .inl rfl
  · dsimp only at h
    split at h
    · cases h
    · rename_i m1 id e
      have hid : id = m.next := allocate_st m _ id (by rw [e])
      split at h
      · split at h
        · cases h
        · split at h
          · cases h
          · split at h
            · cases h
            · rename_i m4 _
              cases e5 : m4.dirty id 0 (z.en - z.start) with
              | none => rw [e5] at h; cases h
              | some m5 => rw [e5] at h; cases h; exact .inr (by rw [hid])
      · cases h

theorem flat_get {s : ZState} {k : Nat} {a : ZBuf} (h : s.bufs[k]? = some a) : (flat s).bufs[k]? = some a.seg :=
  seg_get h

theorem lab_of {s : ZState} {L : List Nat} (hl : L.length = s.bufs.length) {j : Nat} {b : ZBuf}
    (h : s.bufs[j]? = some b) : ∃ l, L[j]? = some l := by
  have := (List.getElem?_eq_some_iff.mp h).1
  exact ⟨_, List.getElem?_eq_getElem (by omega)⟩

theorem push_origin {s : ZState} (hb : Base s.mem s.segs) {b' : ZBuf} {L : List Nat} {l : Nat}
    (hl : L.length = s.bufs.length)
    (h : ∀ id, b'.st = some id → id = s.mem.next ∨ ∃ (j : Nat) (b : ZBuf), s.bufs[j]? = some b ∧ b.st = some id ∧ L[j]? = some l) :
    Origin (flat s) (s.segs ++ [b'.seg]) L (L ++ [l]) := by
  refine origin_push (s := flat s) hb (by rw [hl]; simp [flat, ZState.segs]) fun id hst => ?_
  rcases h id hst with e | ⟨j, b, h1, h2, h3⟩
  · exact .inl e
  · exact .inr ⟨j, b.seg, flat_get h1, h2, h3⟩

theorem step_origin {s s' : ZState} {o : ZOp} (hb : Base s.mem s.segs) (h : s.step o = some s') {f : Fam}
    (hl : f.lab.length = s.bufs.length) :
    (famStep f o).lab.length = s'.bufs.length ∧ Origin (flat s) s'.segs f.lab (famStep f o).lab := by
  have same : Origin (flat s) s.segs f.lab f.lab := fun k a id hk hst => .inr ⟨k, a, hk, hst, rfl⟩
  have hsl : s.segs.length = s.bufs.length := by simp [ZState.segs]
  by_cases hst : o.stores = true
  · have hf : famStep f o = f := by cases o <;> first | rfl | simp [ZOp.stores] at hst
    rw [hf]
    rcases stores_grows h hst with rfl | ⟨i, b, b', _, h1, h2, g⟩
    · exact ⟨hl, same⟩
    · have e : s'.segs = s.segs.set i b'.seg := by simp [ZState.segs, h2, List.map_set]
      rw [e]
      refine ⟨by rw [h2]; simpa using hl, origin_set (s := flat s) hb (flat_get h1) ?_⟩
      rcases g.st with e | e
      · exact .inr (.inl e)
      · exact .inr (.inr e)
  cases o with
  | new a z e =>
    simp only [ZState.step] at h
    cases e1 : construct s.mem a z e with
    | none => rw [e1] at h; cases h
    | some r =>
      rw [e1] at h; cases h
      rw [segs_push]
      refine ⟨by simp [famStep, hl], push_origin hb hl fun id hst => .inl ?_⟩
      unfold construct at e1
      dsimp only at e1
      cases e2 : ((s.mem.allocate (a + e)).1.dirtyOf (ZBuf.seg ⟨(s.mem.allocate (a + e)).2, a, a, a + z, a + z⟩)) with
      | none => rw [e2] at e1; cases e1
      | some m1 => rw [e2] at e1; cases e1; exact allocate_st _ _ _ hst
  | newFrom d =>
    simp only [ZState.step] at h
    cases e1 : constructFrom s.mem d with
    | none => rw [e1] at h; cases h
    | some r =>
      rw [e1] at h; cases h
      rw [segs_push]
      refine ⟨by simp [famStep, hl], push_origin hb hl fun id hst => .inl ?_⟩
      unfold constructFrom at e1
      dsimp only at e1
      cases e2 : ((s.mem.allocate d.length).1.fill (ZBuf.seg ⟨(s.mem.allocate d.length).2, 0, d.length, d.length, d.length⟩) 0 d) with
      | none => rw [e2] at e1; cases e1
      | some m1 => rw [e2] at e1; cases e1; exact allocate_st _ _ _ hst
  | copy j =>
    simp only [ZState.step] at h
    obtain ⟨b, m', b', hj, h1, rfl⟩ := push_some h
    obtain ⟨l, hlj⟩ := lab_of hl hj
    have : b' = b := by
      cases e : s.mem.acquire b.seg with
      | none => rw [e] at h1; cases h1
      | some m => rw [e] at h1; cases h1; rfl
    subst this
    simp only [famStep, Fam.join, hlj]
    rw [segs_push]
    exact ⟨by simp [hl], push_origin hb hl fun id hst => .inr ⟨j, b', hj, hst, hlj⟩⟩
  | fragment j a n =>
    simp only [ZState.step] at h
    obtain ⟨b, m', b', hj, h1, rfl⟩ := push_some h
    obtain ⟨l, hlj⟩ := lab_of hl hj
    simp only [famStep, Fam.join, hlj]
    rw [segs_push]
    refine ⟨by simp [hl], push_origin hb hl fun id hst => .inr ⟨j, b, hj, ?_, hlj⟩⟩
    unfold makeFragment at h1
    split at h1
    · split at h1
      · cases h1
      · split at h1
        · cases h1
        · rename_i m2 f2 e2
          rcases removeAtEnd_from h1 with e | e
          · rw [e] at hst; cases hst
          · rcases removeAtStart_from e2 with e' | e'
            · rw [e, e'] at hst; cases hst
            · rw [e, e'] at hst; exact hst
    · cases h1
  | real j =>
    simp only [ZState.step] at h
    obtain ⟨b, m', b', hj, h1, rfl⟩ := push_some h
    obtain ⟨l, hlj⟩ := lab_of hl hj
    simp only [famStep, Fam.join, hlj]
    rw [segs_push]
    refine ⟨by simp [hl], push_origin hb hl fun id hst => ?_⟩
    rcases makeReal_from h1 with e | e
    · exact .inr ⟨j, b, hj, by rw [← e]; exact hst, hlj⟩
    · rw [e] at hst; cases hst; exact .inl rfl
  | move j =>
    simp only [ZState.step] at h
    split at h
    · cases h
    · rename_i b hj
      cases h
      obtain ⟨l, hlj⟩ := lab_of hl hj
      have hjl := (List.getElem?_eq_some_iff.mp hj).1
      simp only [famStep, Fam.join, hlj]
      have es : (⟨s.mem, s.bufs.set j ZBuf.null ++ [b]⟩ : ZState).segs = s.segs.set j Seg.null ++ [b.seg] := by
        simp [ZState.segs, List.map_set, seg_null]
      rw [es]
      refine ⟨by simp [hl], ?_⟩
      intro k a id hk hst
      by_cases hkl : k < s.bufs.length
      · rw [List.getElem?_append_left (by simpa [hsl] using hkl)] at hk
        by_cases hkj : j = k
        · subst hkj
          rw [List.getElem?_set_self (by omega)] at hk; cases hk; cases hst
        · rw [List.getElem?_set_ne hkj] at hk
          exact .inr ⟨k, a, hk, hst, List.getElem?_append_left (by omega)⟩
      · have : (s.segs.set j Seg.null).length = s.bufs.length := by simp [hsl]
        rw [List.getElem?_append_right (by omega), this] at hk
        have hk0 : k - s.bufs.length = 0 := by
          by_contra hc
          rw [List.getElem?_eq_none (by simp; omega)] at hk; cases hk
        rw [hk0] at hk; cases hk
        refine .inr ⟨j, b.seg, flat_get hj, hst, ?_⟩
        rw [hlj, show k = f.lab.length by omega]; simp
  | assign i j =>
    simp only [ZState.step] at h
    split at h
    · rename_i a b hi hj
      obtain ⟨l, hlj⟩ := lab_of hl hj
      have hil := (List.getElem?_eq_some_iff.mp hi).1
      simp only [famStep, hlj]
      split at h
      · rename_i hij
        cases h
        subst hij
        refine ⟨by simp [hl], fun k a id hk hst => .inr ⟨k, a, hk, hst, ?_⟩⟩
        by_cases hki : i = k
        · subst hki; rw [List.getElem?_set_self (by omega), hlj]
        · rw [List.getElem?_set_ne hki]
      · split at h
        · cases h
        · rename_i m1 e1
          cases e : m1.drop a.seg with
          | none => rw [e] at h; cases h
          | some m2 =>
            rw [e] at h; cases h
            rw [segs_set]
            refine ⟨by simp [hl], fun k c id hk hst => .inr ?_⟩
            by_cases hki : i = k
            · subst hki
              rw [List.getElem?_set_self (by omega)] at hk; cases hk
              exact ⟨j, b.seg, flat_get hj, hst, by rw [List.getElem?_set_self (by omega), hlj]⟩
            · rw [List.getElem?_set_ne hki] at hk
              exact ⟨k, c, hk, hst, by rw [List.getElem?_set_ne hki]⟩
    · cases h
  | moveAssign i j =>
    simp only [ZState.step] at h
    split at h
    · rename_i a b hi hj
      obtain ⟨l, hlj⟩ := lab_of hl hj
      have hil := (List.getElem?_eq_some_iff.mp hi).1
      have hjl := (List.getElem?_eq_some_iff.mp hj).1
      simp only [famStep, hlj]
      split at h
      · rename_i hij
        cases h
        subst hij
        refine ⟨by simp [hl], fun k a id hk hst => .inr ⟨k, a, hk, hst, ?_⟩⟩
        by_cases hki : i = k
        · subst hki; rw [List.getElem?_set_self (by omega), hlj]
        · rw [List.getElem?_set_ne hki]
      · rename_i hij
        cases e : release s.mem a with
        | none => rw [e] at h; cases h
        | some r =>
          rw [e] at h; cases h
          have hr := release_st (m' := r.1) (z' := r.2) e
          have es : (⟨r.1, (s.bufs.set i b).set j r.2⟩ : ZState).segs = (s.segs.set i b.seg).set j r.2.seg := by
            simp [ZState.segs, List.map_set]
          rw [es]
          refine ⟨by simp [hl], fun k c id hk hst => .inr ?_⟩
          by_cases hkj : j = k
          · subst hkj
            rw [List.getElem?_set_self (by simp; omega)] at hk; cases hk
            exact absurd hst (by simp [ZBuf.seg, hr])
          · rw [List.getElem?_set_ne hkj] at hk
            by_cases hki : i = k
            · subst hki
              rw [List.getElem?_set_self (by omega)] at hk; cases hk
              exact ⟨j, b.seg, flat_get hj, hst, by rw [List.getElem?_set_self (by omega), hlj]⟩
            · rw [List.getElem?_set_ne hki] at hk
              exact ⟨k, c, hk, hst, by rw [List.getElem?_set_ne hki]⟩
    · cases h
  | swap i j =>
    simp only [ZState.step] at h
    split at h
    · rename_i a b hi hj
      cases h
      obtain ⟨l, hli⟩ := lab_of hl hi
      obtain ⟨l', hlj⟩ := lab_of hl hj
      have hil := (List.getElem?_eq_some_iff.mp hi).1
      have hjl := (List.getElem?_eq_some_iff.mp hj).1
      simp only [famStep, hli, hlj]
      have es : (⟨s.mem, (s.bufs.set i b).set j a⟩ : ZState).segs = (s.segs.set i b.seg).set j a.seg := by
        simp [ZState.segs, List.map_set]
      rw [es]
      refine ⟨by simp [hl], fun k c id hk hst => .inr ?_⟩
      by_cases hkj : j = k
      · subst hkj
        rw [List.getElem?_set_self (by simp; omega)] at hk; cases hk
        exact ⟨i, a.seg, flat_get hi, hst, by rw [List.getElem?_set_self (by simp; omega), hli]⟩
      · rw [List.getElem?_set_ne hkj] at hk
        by_cases hki : i = k
        · subst hki
          rw [List.getElem?_set_self (by omega)] at hk; cases hk
          exact ⟨j, b.seg, flat_get hj, hst, by rw [List.getElem?_set_ne hkj, List.getElem?_set_self (by omega), hlj]⟩
        · rw [List.getElem?_set_ne hki] at hk
          exact ⟨k, c, hk, hst, by rw [List.getElem?_set_ne hkj, List.getElem?_set_ne hki]⟩
    · cases h
  | destroy i =>
    simp only [ZState.step] at h
    obtain ⟨b, m', b', h1, h2, rfl⟩ := on_some h
    rw [segs_set]
    refine ⟨by simpa [famStep] using hl, origin_set (s := flat s) hb (flat_get h1) (.inl ?_)⟩
    cases e : release s.mem b with
    | none => rw [e] at h2; cases h2
    | some m1 => rw [e] at h2; cases h2; rfl
  | addStart i n =>
    simp only [ZState.step] at h
    obtain ⟨b, m', b', h1, h2, rfl⟩ := on_some h
    rw [segs_set]
    exact ⟨by simpa [famStep] using hl, origin_set (s := flat s) hb (flat_get h1) (.inr (addAtStart_grows h2).st)⟩
  | addEnd i n =>
    simp only [ZState.step] at h
    obtain ⟨b, m', b', h1, h2, rfl⟩ := on_some h
    rw [segs_set]
    exact ⟨by simpa [famStep] using hl, origin_set (s := flat s) hb (flat_get h1) (.inr (addAtEnd_grows h2).st)⟩
  | removeStart i n =>
    simp only [ZState.step] at h
    obtain ⟨b, m', b', h1, h2, rfl⟩ := on_some h
    rw [segs_set]
    refine ⟨by simpa [famStep] using hl, origin_set (s := flat s) hb (flat_get h1) ?_⟩
    rcases removeAtStart_from h2 with e | e
    · exact .inl e
    · exact .inr (.inl e)
  | removeEnd i n =>
    simp only [ZState.step] at h
    obtain ⟨b, m', b', h1, h2, rfl⟩ := on_some h
    rw [segs_set]
    refine ⟨by simpa [famStep] using hl, origin_set (s := flat s) hb (flat_get h1) ?_⟩
    rcases removeAtEnd_from h2 with e | e
    · exact .inl e
    · exact .inr (.inl e)
  | realize i =>
    simp only [ZState.step] at h
    obtain ⟨b, m', b', h1, h2, rfl⟩ := on_some h
    rw [segs_set]
    refine ⟨by simpa [famStep] using hl, origin_set (s := flat s) hb (flat_get h1) (.inr ?_)⟩
    cases e : makeReal s.mem b with
    | none => rw [e] at h2; cases h2
    | some r =>
      obtain ⟨m1, r⟩ := r
      rw [e] at h2
      dsimp only at h2
      cases e2 : release m1 b with
      | none => rw [e2] at h2; cases h2
      | some q => rw [e2] at h2; cases h2; exact makeReal_from e
  | addStartBytes | addEndBytes | addStartBuf | addEndBuf | write => simp [ZOp.stores] at hst

/-! ### The invariant -/

theorem spoiled_mono (f : Fam) (o : ZOp) {l : Nat} (h : l ∈ f.spoiled) : l ∈ (famStep f o).spoiled := by
  cases o <;> simp only [famStep, Fam.join] <;> (repeat' split) <;> simp_all

theorem fam_step {s s' : ZState} {o : ZOp} (hi : Inv s) (ho : o.ok s) (h : s.step o = some s') {f : Fam}
    (v : FamInv (flat s) f) : FamInv (flat s') (famStep f o) := by
  have hfl : f.lab.length = s.bufs.length := by rw [v.len]; simp [flat, ZState.segs]
  obtain ⟨hl', hor⟩ := step_origin hi.base h hfl
  refine ⟨by rw [hl']; simp [flat, ZState.segs], ?_, ?_⟩
  · intro i j a b id hi hj ha hb'
    rcases hor i a id hi ha with ⟨e, hu⟩ | ⟨i0, a0, h1, h2, h3⟩
    · rw [hu j b hj hb']
    · rcases hor j b id hj hb' with ⟨e, hu⟩ | ⟨j0, b0, g1, g2, g3⟩
      · rw [hu i a hi ha]
      · rw [h3, g3]; exact v.one i0 j0 a0 b0 id h1 g1 h2 g2
  · let d : Cover := ⟨fun id => (f.cover (flat s).bufs).on id ∧ ((famStep f o).cover (flat s').bufs).on id, false⟩
    obtain ⟨s2, hs⟩ := step_ok hi o ho
    have := hs.step
    rw [h] at this; cases this
    have hw : Wide d s.mem s.segs := fun t ht id x h1 h2 h3 => v.wide t ht id x h1 h2 h3.1
    have hp : o.plain d s := by
      cases o with
      | newFrom data =>
        by_cases hd : data = []
        · exact .inr (.inl hd)
        · refine .inr (.inr fun hon => ?_)
          simp only [ZState.step] at h
          cases e1 : constructFrom s.mem data with
          | none => rw [e1] at h; cases h
          | some r =>
            rw [e1] at h; cases h
            have hst : r.2.st = some s.mem.next := by
              unfold constructFrom at e1
              dsimp only at e1
              cases e2 : ((s.mem.allocate data.length).1.fill (ZBuf.seg ⟨(s.mem.allocate data.length).2, 0, data.length, data.length, data.length⟩) 0 data) with
              | none => rw [e2] at e1; cases e1
              | some m1 =>
                rw [e2] at e1; cases e1
                have : data.length ≠ 0 := by simpa using hd
                simp [Mem.allocate, this, Mem.alloc]
            refine hon.2 s.bufs.length r.2.seg (by simp [flat, ZState.segs]) hst f.lab.length ?_ ?_
            · rw [← hfl]; simp [famStep]
            · simp [famStep, hd]
      | addEnd | addEndBytes | addEndBuf => exact .inl rfl
      | _ => trivial
    intro t ht id x h1 h2 h3
    refine (hs.wide d hp hw).1 t ht id x h1 h2 ⟨?_, h3⟩
    obtain ⟨k, hk⟩ := List.mem_iff_getElem?.mp ht
    intro i a hia ha l hl hbad
    rcases hor k t id hk h1 with ⟨e, _⟩ | ⟨j, b, g1, g2, g3⟩
    · exact not_next (s := flat s) hi.base hia (by rw [ha, e])
    · have e := v.one i j a b id hia g1 ha g2
      exact h3 k t hk h1 l (by rw [g3, ← e]; exact hl) (spoiled_mono f o hbad)

theorem fam_init (junk) : FamInv (flat (ZState.init junk)) ⟨[], []⟩ :=
  ⟨rfl, by simp [flat, ZState.segs, ZState.init], init_wide _ junk⟩

theorem fam_run {hist : List ZOp} : ∀ {s s' : ZState} {f : Fam}, Inv s → FamInv (flat s) f →
    s.run hist = some s' → FamInv (flat s') (hist.foldl famStep f) := by
  induction hist with
  | nil => intro s s' f _ v h; cases h; exact v
  | cons o os ih =>
    intro s s' f hb v h
    cases e : s.step o with
    | none => simp only [ZState.run, e] at h; cases h
    | some s1 =>
      simp only [ZState.run, e] at h
      have h1 := step_inv hb e
      refine ih h1.1 ?_ h
      by_cases hok : o.ok s
      · exact fam_step hb hok e v
      · have : s1 = s := h1.2.resolve_left hok
        subst this
        -- only appending an empty buffer to a missing one
        have hd : ¬ o.destOk s1 := fun hd => hok (step_some_ok e hd)
        cases o with
        | addStartBuf | addEndBuf => exact v
        | _ => exact absurd trivial hd

end Verif.Zc
