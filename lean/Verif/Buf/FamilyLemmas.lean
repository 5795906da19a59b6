import Verif.Buf.Props

/-!
Which buffers may share a storage, computed from the operations alone, and the invariant that links this
to the storages. Used by `Family.lean`.
-/
set_option linter.unusedSimpArgs false
set_option linter.unusedVariables false
namespace Verif.Buf

/-- A family of buffers for each buffer, and the families in which isolation is not promised. -/
structure Fam where
  lab : List Nat
  spoiled : List Nat

/-- A buffer of the family of `j`. -/
def Fam.join (f : Fam) (j : Nat) : Fam :=
  match f.lab[j]? with
  | none => f
  | some l => { f with lab := f.lab ++ [l] }

/-- How an operation changes the families: construction founds a family; copies, moved objects and
fragments join the family of their source; assignment changes the family. A fragment spoils its family, a
deep copy (`buffer.h:417-427`) founds a spoiled family. -/
def Fam.step (f : Fam) : Op → Fam
  | .new _ _ _ => { f with lab := f.lab ++ [f.lab.length] }
  | .newFrom d => ⟨f.lab ++ [f.lab.length], if d = [] then f.spoiled else f.lab.length :: f.spoiled⟩
  | .copy j | .move j => f.join j
  | .fragment j _ n =>
    ⟨(f.join j).lab, if n = 0 then f.spoiled else (f.lab[j]?).toList ++ f.spoiled⟩
  | .assign i j | .moveAssign i j => match f.lab[j]? with
    | none => f
    | some l => { f with lab := f.lab.set i l }
  | .swap i j => match f.lab[i]?, f.lab[j]? with
    | some l, some k => { f with lab := (f.lab.set i k).set j l }
    | _, _ => f
  | _ => f

/-- The families after a history. -/
def families (hist : List Op) : Fam := hist.foldl Fam.step ⟨[], []⟩

/-! ### What growing touches -/

theorem release_mem {m m' : Mem} {id : Nat} (h : m.release id = some m') :
    (∀ k, k ≠ id → m'.mem k = m.mem k) ∧ m'.next = m.next := by
  unfold Mem.release at h
  split at h
  · cases h
  · split at h
    · cases h
    · split at h <;> cases h <;> exact ⟨fun k hk => by simp [Mem.put, hk], rfl⟩

theorem write_mem {m m' : Mem} {id off : Nat} {d : List Byte} (h : m.write id off d = some m') :
    (∀ k, k ≠ id → m'.mem k = m.mem k) ∧ m'.next = m.next := by
  unfold Mem.write at h
  split at h
  · cases h
  · split at h
    · cases h; exact ⟨fun k hk => by simp [Mem.put, hk], rfl⟩
    · cases h

theorem dirty_mem {m m' : Mem} {id a b : Nat} (h : m.dirty id a b = some m') :
    (∀ k, k ≠ id → m'.mem k = m.mem k) ∧ m'.next = m.next := by
  unfold Mem.dirty at h
  split at h
  · cases h
  · cases h; exact ⟨fun k hk => by simp [Mem.put, hk], rfl⟩

theorem drop_mem {m m' : Mem} {s : Seg} (h : m.drop s = some m') :
    (∀ k, s.st ≠ some k → m'.mem k = m.mem k) ∧ m'.next = m.next := by
  unfold Mem.drop at h
  split at h
  · cases h; exact ⟨fun _ _ => rfl, rfl⟩
  · rename_i id e
    refine ⟨fun k hk => (release_mem h).1 k fun e' => hk (by rw [e, e']), (release_mem h).2⟩

theorem fill_mem {m m' : Mem} {s : Seg} {off : Nat} {d : List Byte} (h : m.fill s off d = some m') :
    (∀ k, s.st ≠ some k → m'.mem k = m.mem k) ∧ m'.next = m.next := by
  unfold Mem.fill at h
  split at h
  · split at h
    · cases h; exact ⟨fun _ _ => rfl, rfl⟩
    · cases h
  · rename_i id e
    refine ⟨fun k hk => (write_mem h).1 k fun e' => hk (by rw [e, e']), (write_mem h).2⟩

/-- Growing keeps the storage or takes the next new one, and touches no other. -/
structure Grows (m : Mem) (s : Seg) (m' : Mem) (s' : Seg) : Prop where
  st : s'.st = s.st ∨ s'.st = some m.next
  mem : ∀ k, s.st ≠ some k → k ≠ m.next → m'.mem k = m.mem k

theorem realloc_grows {m : Mem} {s : Seg} {size cap ns pos : Nat} {g : Grown}
    (h : realloc m s size cap ns pos = some g) : Grows m s g.mem g.seg := by
  unfold realloc at h
  split at h
  · cases h
  · rename_i m1 id e
    simp only [Mem.allocate] at e
    split at e
    · cases e
    · cases e
      split at h
      · cases h
      rename_i d e
      split at h
      · cases h
      · rename_i m2 e2
        split at h
        · cases h
        · rename_i m3 e3
          split at h
          · cases h
          · rename_i m4 e4
            cases h
            refine ⟨.inr rfl, fun k h1 h2 => ?_⟩
            have hn : k ≠ (m.alloc cap).2 := h2
            rw [(dirty_mem e4).1 k hn, (drop_mem e3).1 k h1, (write_mem e2).1 k hn]
            simp [Mem.alloc, Mem.put, h2]

theorem growStart_grows {m : Mem} {s : Seg} {size : Nat} {g : Grown} (h : growStart m s size = some g) :
    Grows m s g.mem g.seg := by
  have ha : ∀ {id x}, s.st = some id → adjustStart m s id x size = some g → Grows m s g.mem g.seg := by
    intro id x hst h
    unfold adjustStart at h
    split at h
    · cases h
    · rename_i m1 e
      cases h
      exact ⟨.inl hst.symm, fun k h1 _ => (dirty_mem e).1 k fun e' => h1 (by rw [hst, e'])⟩
  have hm : ∀ {id}, s.st = some id → moveStart m s id size = some g → Grows m s g.mem g.seg := by
    intro id hst h
    unfold moveStart at h
    split at h
    · cases h
    · split at h
      · cases h
      · rename_i m1 e
        split at h
        · cases h
        · rename_i m2 e2
          cases h
          refine ⟨.inl hst.symm, fun k h1 _ => ?_⟩
          have : k ≠ id := fun e' => h1 (by rw [hst, e'])
          rw [(dirty_mem e2).1 k this, (write_mem e).1 k this]
  unfold growStart at h
  split at h
  · exact realloc_grows h
  · rename_i id hst
    split at h
    · cases h
    · split at h
      · split at h
        · exact ha hst h
        · split at h
          · exact hm hst h
          · exact realloc_grows h
      · split at h
        · split at h
          · exact ha hst h
          · exact realloc_grows h
        · split at h <;> exact realloc_grows h

theorem growEnd_grows {m : Mem} {s : Seg} {size : Nat} {g : Grown} (h : growEnd m s size = some g) :
    Grows m s g.mem g.seg := by
  have ha : ∀ {id x}, s.st = some id → adjustEnd m s id x size = some g → Grows m s g.mem g.seg := by
    intro id x hst h
    unfold adjustEnd at h
    split at h
    · cases h
    · rename_i m1 e
      cases h
      exact ⟨.inl hst.symm, fun k h1 _ => (dirty_mem e).1 k fun e' => h1 (by rw [hst, e'])⟩
  have hm : ∀ {id x}, s.st = some id → moveEnd m s id x size = some g → Grows m s g.mem g.seg := by
    intro id x hst h
    unfold moveEnd at h
    dsimp only at h
    split at h
    · cases h
    · split at h
      · cases h
      · rename_i m1 e
        split at h
        · cases h
        · rename_i m2 e2
          cases h
          refine ⟨.inl hst.symm, fun k h1 _ => ?_⟩
          have : k ≠ id := fun e' => h1 (by rw [hst, e'])
          rw [(dirty_mem e2).1 k this, (write_mem e).1 k this]
  unfold growEnd at h
  split at h
  · exact realloc_grows h
  · rename_i id hst
    split at h
    · cases h
    · split at h
      · split at h
        · exact ha hst h
        · split at h
          · exact hm hst h
          · exact realloc_grows h
      · split at h
        · split at h
          · exact ha hst h
          · exact realloc_grows h
        · split at h <;> exact realloc_grows h

theorem addAtStart_grows {m m' : Mem} {s s' : Seg} {n : Nat} (h : addAtStart m s n = some (m', s')) :
    Grows m s m' s' := by
  unfold addAtStart at h
  split at h
  · cases h; exact ⟨.inl rfl, fun _ _ _ => rfl⟩
  · cases e : growStart m s n with
    | none => rw [e] at h; cases h
    | some g => rw [e] at h; cases h; exact growStart_grows e

theorem addAtEnd_grows {m m' : Mem} {s s' : Seg} {n : Nat} (h : addAtEnd m s n = some (m', s')) :
    Grows m s m' s' := by
  unfold addAtEnd at h
  split at h
  · cases h; exact ⟨.inl rfl, fun _ _ _ => rfl⟩
  · cases e : growEnd m s n with
    | none => rw [e] at h; cases h
    | some g => rw [e] at h; cases h; exact growEnd_grows e

theorem grows_fill {m m1 m2 : Mem} {s s1 : Seg} {off : Nat} {d : List Byte} (g : Grows m s m1 s1)
    (h : m1.fill s1 off d = some m2) : Grows m s m2 s1 := by
  refine ⟨g.st, fun k h1 h2 => ?_⟩
  rw [(fill_mem h).1 k ?_, g.mem k h1 h2]
  rcases g.st with e | e
  · rw [e]; exact h1
  · rw [e]; intro e'; cases e'; exact h2 rfl

theorem addBytesAtStart_grows {m m' : Mem} {s s' : Seg} {d : List Byte}
    (h : addBytesAtStart m s d = some (m', s')) : Grows m s m' s' := by
  unfold addBytesAtStart at h
  split at h
  · cases h; exact ⟨.inl rfl, fun _ _ _ => rfl⟩
  · split at h
    · cases h
    · rename_i m1 s1 e
      cases e2 : m1.fill s1 s1.lo d with
      | none => rw [e2] at h; cases h
      | some m2 => rw [e2] at h; cases h; exact grows_fill (addAtStart_grows e) e2

theorem addBytesAtEnd_grows {m m' : Mem} {s s' : Seg} {d : List Byte}
    (h : addBytesAtEnd m s d = some (m', s')) : Grows m s m' s' := by
  unfold addBytesAtEnd at h
  split at h
  · cases h; exact ⟨.inl rfl, fun _ _ _ => rfl⟩
  · split at h
    · cases h
    · rename_i m1 s1 e
      cases e2 : m1.fill s1 (s1.hi - d.length) d with
      | none => rw [e2] at h; cases h
      | some m2 => rw [e2] at h; cases h; exact grows_fill (addAtEnd_grows e) e2

/-! ### Where the storages of the buffers come from -/

/-- Each storage held after a step is either the new one, held by one buffer only, or comes from a buffer
of the same family. -/
def Origin (s : State) (B : List Seg) (L L' : List Nat) : Prop :=
  ∀ (k : Nat) (a : Seg) (id : Nat), B[k]? = some a → a.st = some id →
    (id = s.mem.next ∧ ∀ (k' : Nat) (a' : Seg), B[k']? = some a' → a'.st = some id → k' = k) ∨
    ∃ (j : Nat) (b : Seg), s.bufs[j]? = some b ∧ b.st = some id ∧ L'[k]? = L[j]?

theorem not_next {s : State} (hb : Base s.mem s.bufs) {k : Nat} {a : Seg} (h : s.bufs[k]? = some a) :
    a.st ≠ some s.mem.next := by
  intro hst
  obtain ⟨x, hx, _⟩ := hb.held a (List.mem_of_getElem? h) _ hst
  rw [hb.closed _ (Nat.le_refl _)] at hx; cases hx

theorem origin_set {s : State} (hb : Base s.mem s.bufs) {i : Nat} {b b' : Seg} {L : List Nat}
    (hi : s.bufs[i]? = some b) (h : b'.st = none ∨ b'.st = b.st ∨ b'.st = some s.mem.next) :
    Origin s (s.bufs.set i b') L L := by
  have hil := (List.getElem?_eq_some_iff.mp hi).1
  intro k a id hk hst
  by_cases hki : i = k
  · subst hki
    rw [List.getElem?_set_self hil] at hk
    cases hk
    rcases h with h | h | h
    · rw [h] at hst; cases hst
    · exact .inr ⟨i, b, hi, by rw [← h]; exact hst, rfl⟩
    · refine .inl ⟨?_, fun k' a' hk' hst' => ?_⟩
      · rw [h] at hst; cases hst; rfl
      · by_cases hki : i = k'
        · exact hki.symm
        · rw [List.getElem?_set_ne hki] at hk'
          rw [h] at hst; cases hst
          exact absurd hst' (not_next hb hk')
  · rw [List.getElem?_set_ne hki] at hk
    exact .inr ⟨k, a, hk, hst, rfl⟩

theorem origin_push {s : State} (hb : Base s.mem s.bufs) {b' : Seg} {L : List Nat} {l : Nat}
    (hl : L.length = s.bufs.length)
    (h : ∀ id, b'.st = some id → id = s.mem.next ∨ ∃ (j : Nat) (b : Seg), s.bufs[j]? = some b ∧ b.st = some id ∧ L[j]? = some l) :
    Origin s (s.bufs ++ [b']) L (L ++ [l]) := by
  have hold : ∀ k a, k < s.bufs.length → (s.bufs ++ [b'])[k]? = some a → s.bufs[k]? = some a := by
    intro k a hk e; rwa [List.getElem?_append_left hk] at e
  have hnew : ∀ k a, ¬ k < s.bufs.length → (s.bufs ++ [b'])[k]? = some a → k = s.bufs.length ∧ a = b' := by
    intro k a hk e
    rw [List.getElem?_append_right (by omega)] at e
    have : k - s.bufs.length = 0 := by
      by_contra hc
      rw [List.getElem?_eq_none (by simp; omega)] at e; cases e
    rw [this] at e; cases e
    exact ⟨by omega, rfl⟩
  intro k a id hk hst
  by_cases hkl : k < s.bufs.length
  · exact .inr ⟨k, a, hold k a hkl hk, hst, List.getElem?_append_left (by omega)⟩
  · obtain ⟨rfl, rfl⟩ := hnew k a hkl hk
    rcases h id hst with h | ⟨j, b, h1, h2, h3⟩
    · refine .inl ⟨h, fun k' a' hk' hst' => ?_⟩
      by_cases hkl' : k' < s.bufs.length
      · rw [h] at hst'
        exact absurd hst' (not_next hb (hold _ _ hkl' hk'))
      · exact (hnew _ _ hkl' hk').1
    · refine .inr ⟨j, b, h1, h2, ?_⟩
      rw [h3, ← hl]; simp

theorem on_some {s s' : State} {i : Nat} {f : Mem → Seg → Option (Mem × Seg)} (h : s.on i f = some s') :
    ∃ b m' b', s.bufs[i]? = some b ∧ f s.mem b = some (m', b') ∧ s' = ⟨m', s.bufs.set i b'⟩ := by
  unfold State.on at h
  split at h
  · cases h
  · rename_i b hb
    cases e : f s.mem b with
    | none => rw [e] at h; cases h
    | some r => rw [e] at h; cases h; exact ⟨b, r.1, r.2, hb, e, rfl⟩

theorem push_some {s s' : State} {r : Option (Mem × Seg)} (h : s.push r = some s') :
    ∃ m' b', r = some (m', b') ∧ s' = ⟨m', s.bufs ++ [b']⟩ := by
  unfold State.push at h
  cases r with
  | none => cases h
  | some r => cases h; exact ⟨r.1, r.2, rfl, rfl⟩

theorem lab_of {s : State} {L : List Nat} (hl : L.length = s.bufs.length) {j : Nat} {b : Seg}
    (h : s.bufs[j]? = some b) : ∃ l, L[j]? = some l := by
  have := (List.getElem?_eq_some_iff.mp h).1
  exact ⟨_, List.getElem?_eq_getElem (by omega)⟩

/-- What a storing operation does: the target grows. -/
theorem stores_grows {s s' : State} {o : Op} (h : s.step o = some s') (ho : o.stores = true) :
    s' = s ∨ ∃ i b b', i ∈ o.targets ∧ s.bufs[i]? = some b ∧ s'.bufs = s.bufs.set i b' ∧ Grows s.mem b s'.mem b' := by
  cases o with
  | addStartBytes i d =>
    simp only [State.step] at h
    obtain ⟨b, m', b', h1, h2, rfl⟩ := on_some h
    exact .inr ⟨i, b, b', by simp [Op.targets], h1, rfl, addBytesAtStart_grows h2⟩
  | addEndBytes i d =>
    simp only [State.step] at h
    obtain ⟨b, m', b', h1, h2, rfl⟩ := on_some h
    exact .inr ⟨i, b, b', by simp [Op.targets], h1, rfl, addBytesAtEnd_grows h2⟩
  | write i off d =>
    simp only [State.step] at h
    obtain ⟨b, m', b', h1, h2, rfl⟩ := on_some h
    refine .inr ⟨i, b, b', by simp [Op.targets], h1, rfl, ?_⟩
    split at h2
    · cases e : s.mem.fill b (b.lo + off) d with
      | none => rw [e] at h2; cases h2
      | some m1 =>
        rw [e] at h2; cases h2
        exact grows_fill (m := s.mem) (s := b) ⟨.inl rfl, fun _ _ _ => rfl⟩ e
    · cases h2
  | addStartBuf i j =>
    simp only [State.step] at h
    split at h
    · cases h
    · split at h
      · cases h; exact .inl rfl
      · split at h
        · cases h
        · rename_i s1 e1
          obtain ⟨b, m', b', h1, h2, rfl⟩ := on_some e1
          have hil := (List.getElem?_eq_some_iff.mp h1).1
          dsimp only at h
          rw [List.getElem?_set_self hil] at h
          split at h
          · rename_i b1 c1 hb1 _
            cases hb1
            split at h
            · cases h
            · rename_i d hd
              cases e : m'.fill b' b'.lo d with
              | none => rw [e] at h; cases h
              | some m2 =>
                rw [e] at h; cases h
                exact .inr ⟨i, b, b', by simp [Op.targets], h1, rfl, grows_fill (addAtStart_grows h2) e⟩
          · cases h
  | addEndBuf i j =>
    simp only [State.step] at h
    split at h
    · cases h
    · rename_i c hc
      split at h
      · cases h; exact .inl rfl
      · split at h
        · cases h
        · rename_i s1 e1
          obtain ⟨b, m', b', h1, h2, rfl⟩ := on_some e1
          have hil := (List.getElem?_eq_some_iff.mp h1).1
          dsimp only at h
          rw [List.getElem?_set_self hil] at h
          split at h
          · rename_i b1 c1 hb1 _
            cases hb1
            split at h
            · cases h
            · rename_i d hd
              cases e : m'.fill b' (b'.hi - (c.hi - c.lo)) d with
              | none => rw [e] at h; cases h
              | some m2 =>
                rw [e] at h; cases h
                exact .inr ⟨i, b, b', by simp [Op.targets], h1, rfl, grows_fill (addAtEnd_grows h2) e⟩
          · cases h
  | _ => simp [Op.stores] at ho

theorem allocate_st (m : Mem) (cap : Nat) : ∀ id, (m.allocate cap).2 = some id → id = m.next := by
  intro id h
  unfold Mem.allocate at h
  split at h
  · cases h
  · cases h; rfl

theorem remove_st {s b' : Seg} {m m' : Mem} {lo hi : Nat} {c : Prop} [Decidable c]
    (h : (if c then some (m, ({ s with lo := lo, hi := hi } : Seg))
      else (m.drop s).map (fun m1 => (m1, if s.st.isSome then Seg.null else s))) = some (m', b')) :
    b'.st = none ∨ b'.st = s.st := by
  split at h
  · cases h; exact .inr rfl
  · cases e : m.drop s with
    | none => rw [e] at h; cases h
    | some m1 =>
      rw [e] at h; cases h
      cases hst : s.st with
      | none => left; simp [hst]
      | some => left; simp [hst, Seg.null]

theorem step_origin {s s' : State} {o : Op} (hb : Base s.mem s.bufs) (h : s.step o = some s') {f : Fam}
    (hl : f.lab.length = s.bufs.length) :
    (f.step o).lab.length = s'.bufs.length ∧ Origin s s'.bufs f.lab (f.step o).lab := by
  have same : Origin s s.bufs f.lab f.lab := fun k a id hk hst => .inr ⟨k, a, hk, hst, rfl⟩
  by_cases hst : o.stores = true
  · have hf : f.step o = f := by cases o <;> first | rfl | simp [Op.stores] at hst
    rw [hf]
    rcases stores_grows h hst with rfl | ⟨i, b, b', _, h1, h2, g⟩
    · exact ⟨hl, same⟩
    · rw [h2]
      refine ⟨by simpa using hl, origin_set hb h1 ?_⟩
      rcases g.st with e | e
      · exact .inr (.inl e)
      · exact .inr (.inr e)
  cases o with
  | new a z e =>
    simp only [State.step] at h
    obtain ⟨m', b', h1, rfl⟩ := push_some h
    refine ⟨by simp [Fam.step, hl], origin_push hb hl fun id hst => .inl ?_⟩
    unfold construct at h1
    dsimp only at h1
    split at h1
    · cases h1
    · split at h1
      · cases h1
      · cases h1; exact allocate_st _ _ _ hst
  | newFrom d =>
    simp only [State.step] at h
    obtain ⟨m', b', h1, rfl⟩ := push_some h
    refine ⟨by simp [Fam.step, hl], origin_push hb hl fun id hst => .inl ?_⟩
    unfold constructFrom at h1
    dsimp only at h1
    split at h1
    · cases h1
    · cases h1; exact allocate_st _ _ _ hst
  | copy j =>
    simp only [State.step] at h
    split at h
    · cases h
    · rename_i b hj
      obtain ⟨m', b', h1, rfl⟩ := push_some h
      obtain ⟨l, hlj⟩ := lab_of hl hj
      have : b' = b := by
        cases e : s.mem.acquire b with
        | none => rw [e] at h1; cases h1
        | some m => rw [e] at h1; cases h1; rfl
      subst this
      simp only [Fam.step, Fam.join, hlj]
      exact ⟨by simp [hl], origin_push hb hl fun id hst => .inr ⟨j, b', hj, hst, hlj⟩⟩
  | move j =>
    simp only [State.step] at h
    split at h
    · cases h
    · rename_i b hj
      cases h
      obtain ⟨l, hlj⟩ := lab_of hl hj
      have hjl := (List.getElem?_eq_some_iff.mp hj).1
      simp only [Fam.step, Fam.join, hlj]
      refine ⟨by simp [hl], ?_⟩
      intro k a id hk hst
      by_cases hkl : k < s.bufs.length
      · rw [List.getElem?_append_left (by simpa using hkl)] at hk
        by_cases hkj : j = k
        · subst hkj
          rw [List.getElem?_set_self hjl] at hk; cases hk; cases hst
        · rw [List.getElem?_set_ne hkj] at hk
          exact .inr ⟨k, a, hk, hst, List.getElem?_append_left (by omega)⟩
      · have : (s.bufs.set j Seg.null).length = s.bufs.length := by simp
        rw [List.getElem?_append_right (by omega), this] at hk
        have hk0 : k - s.bufs.length = 0 := by
          by_contra hc
          rw [List.getElem?_eq_none (by simp; omega)] at hk; cases hk
        rw [hk0] at hk; cases hk
        refine .inr ⟨j, b, hj, hst, ?_⟩
        rw [hlj, show k = f.lab.length by omega]; simp
  | assign i j =>
    simp only [State.step] at h
    split at h
    · rename_i a b hi hj
      obtain ⟨l, hlj⟩ := lab_of hl hj
      have hil := (List.getElem?_eq_some_iff.mp hi).1
      simp only [Fam.step, hlj]
      split at h
      · rename_i hij
        cases h
        subst hij
        refine ⟨by simp [hl], fun k a id hk hst => .inr ⟨k, a, hk, hst, ?_⟩⟩
        by_cases hki : i = k
        · subst hki; rw [List.getElem?_set_self (by omega), hlj]
        · rw [List.getElem?_set_ne hki]
      · split at h
        · cases h
        · rename_i m1 e1
          cases e : m1.drop a with
          | none => rw [e] at h; cases h
          | some m2 =>
            rw [e] at h; cases h
            refine ⟨by simp [hl], fun k c id hk hst => .inr ?_⟩
            by_cases hki : i = k
            · subst hki
              rw [List.getElem?_set_self hil] at hk; cases hk
              exact ⟨j, b, hj, hst, by rw [List.getElem?_set_self (by omega), hlj]⟩
            · rw [List.getElem?_set_ne hki] at hk
              exact ⟨k, c, hk, hst, by rw [List.getElem?_set_ne hki]⟩
    · cases h
  | moveAssign i j =>
    simp only [State.step] at h
    split at h
    · rename_i a b hi hj
      obtain ⟨l, hlj⟩ := lab_of hl hj
      have hil := (List.getElem?_eq_some_iff.mp hi).1
      have hjl := (List.getElem?_eq_some_iff.mp hj).1
      simp only [Fam.step, hlj]
      split at h
      · rename_i hij
        cases h
        subst hij
        refine ⟨by simp [hl], fun k a id hk hst => .inr ⟨k, a, hk, hst, ?_⟩⟩
        by_cases hki : i = k
        · subst hki; rw [List.getElem?_set_self (by omega), hlj]
        · rw [List.getElem?_set_ne hki]
      · rename_i hij
        cases e : s.mem.drop a with
        | none => rw [e] at h; cases h
        | some m1 =>
          rw [e] at h; cases h
          refine ⟨by simp [hl], fun k c id hk hst => .inr ?_⟩
          dsimp only at hk
          by_cases hkj : j = k
          · subst hkj
            rw [List.getElem?_set_self (by simpa using hjl)] at hk; cases hk; cases hst
          · rw [List.getElem?_set_ne hkj] at hk
            by_cases hki : i = k
            · subst hki
              rw [List.getElem?_set_self hil] at hk; cases hk
              exact ⟨j, b, hj, hst, by rw [List.getElem?_set_self (by omega), hlj]⟩
            · rw [List.getElem?_set_ne hki] at hk
              exact ⟨k, c, hk, hst, by rw [List.getElem?_set_ne hki]⟩
    · cases h
  | swap i j =>
    simp only [State.step] at h
    split at h
    · rename_i a b hi hj
      cases h
      obtain ⟨l, hli⟩ := lab_of hl hi
      obtain ⟨l', hlj⟩ := lab_of hl hj
      have hil := (List.getElem?_eq_some_iff.mp hi).1
      have hjl := (List.getElem?_eq_some_iff.mp hj).1
      simp only [Fam.step, hli, hlj]
      refine ⟨by simp [hl], fun k c id hk hst => .inr ?_⟩
      by_cases hkj : j = k
      · subst hkj
        rw [List.getElem?_set_self (by simpa using hjl)] at hk; cases hk
        exact ⟨i, a, hi, hst, by rw [List.getElem?_set_self (by simp; omega), hli]⟩
      · rw [List.getElem?_set_ne hkj] at hk
        by_cases hki : i = k
        · subst hki
          rw [List.getElem?_set_self hil] at hk; cases hk
          exact ⟨j, b, hj, hst, by rw [List.getElem?_set_ne hkj, List.getElem?_set_self (by omega), hlj]⟩
        · rw [List.getElem?_set_ne hki] at hk
          exact ⟨k, c, hk, hst, by rw [List.getElem?_set_ne hkj, List.getElem?_set_ne hki]⟩
    · cases h
  | destroy i =>
    simp only [State.step] at h
    obtain ⟨b, m', b', h1, h2, rfl⟩ := on_some h
    refine ⟨by simpa [Fam.step] using hl, origin_set hb h1 (.inl ?_)⟩
    cases e : s.mem.drop b with
    | none => rw [e] at h2; cases h2
    | some m1 => rw [e] at h2; cases h2; rfl
  | addStart i n =>
    simp only [State.step] at h
    obtain ⟨b, m', b', h1, h2, rfl⟩ := on_some h
    refine ⟨by simpa [Fam.step] using hl, origin_set hb h1 (.inr ?_)⟩
    exact (addAtStart_grows h2).st
  | addEnd i n =>
    simp only [State.step] at h
    obtain ⟨b, m', b', h1, h2, rfl⟩ := on_some h
    refine ⟨by simpa [Fam.step] using hl, origin_set hb h1 (.inr ?_)⟩
    exact (addAtEnd_grows h2).st
  | removeStart i n =>
    simp only [State.step] at h
    obtain ⟨b, m', b', h1, h2, rfl⟩ := on_some h
    refine ⟨by simpa [Fam.step] using hl, origin_set hb h1 ?_⟩
    rcases remove_st (hi := b.hi) h2 with e | e
    · exact .inl e
    · exact .inr (.inl e)
  | removeEnd i n =>
    simp only [State.step] at h
    obtain ⟨b, m', b', h1, h2, rfl⟩ := on_some h
    refine ⟨by simpa [Fam.step] using hl, origin_set hb h1 ?_⟩
    rcases remove_st (lo := b.lo) h2 with e | e
    · exact .inl e
    · exact .inr (.inl e)
  | fragment j a n =>
    simp only [State.step] at h
    split at h
    · cases h
    · rename_i b hj
      obtain ⟨m', b', h1, rfl⟩ := push_some h
      obtain ⟨l, hlj⟩ := lab_of hl hj
      simp only [Fam.step, Fam.join, hlj]
      refine ⟨by simp [hl], origin_push hb hl fun id hst => .inr ⟨j, b, hj, ?_, hlj⟩⟩
      unfold makeFragment at h1
      split at h1
      · split at h1
        · cases h1; cases hst
        · split at h1
          · cases h1
          · rename_i id' e
            split at h1
            · cases h1
            · rename_i m1 e1
              split at h1
              · cases h1
              · split at h1
                · cases e2 : m1.dirty id' (b.lo + a) (b.lo + a + n) with
                  | none => rw [e2] at h1; cases h1
                  | some m2 => rw [e2] at h1; cases h1; cases hst; exact e
                · cases h1
      · cases h1
  | addStartBytes | addEndBytes | addStartBuf | addEndBuf | write => simp [Op.stores] at hst

/-! ### The invariant -/

/-- The storages all of whose holders belong to families that are not spoiled. -/
def Fam.cover (f : Fam) (B : List Seg) : Cover :=
  ⟨fun id => ∀ (k : Nat) (a : Seg), B[k]? = some a → a.st = some id → ∀ l, f.lab[k]? = some l → l ∉ f.spoiled, false⟩

/-- Buffers that share a storage belong to one family, and the dirty ranges of families that are not spoiled
cover their buffers. -/
structure FamInv (s : State) (f : Fam) : Prop where
  len : f.lab.length = s.bufs.length
  one : ∀ (i j : Nat) (a b : Seg) (id : Nat), s.bufs[i]? = some a → s.bufs[j]? = some b → a.st = some id →
    b.st = some id → f.lab[i]? = f.lab[j]?
  wide : Wide (f.cover s.bufs) s.mem s.bufs

theorem spoiled_mono (f : Fam) (o : Op) {l : Nat} (h : l ∈ f.spoiled) : l ∈ (f.step o).spoiled := by
  cases o <;> simp only [Fam.step, Fam.join] <;> (repeat' split) <;> simp_all

theorem fam_step {s s' : State} {o : Op} (hb : Base s.mem s.bufs) (ho : o.ok s) (h : s.step o = some s') {f : Fam}
    (v : FamInv s f) : FamInv s' (f.step o) := by
  obtain ⟨hl', hor⟩ := step_origin hb h v.len
  refine ⟨hl', ?_, ?_⟩
  · intro i j a b id hi hj ha hb'
    rcases hor i a id hi ha with ⟨e, hu⟩ | ⟨i0, a0, h1, h2, h3⟩
    · rw [hu j b hj hb']
    · rcases hor j b id hj hb' with ⟨e, hu⟩ | ⟨j0, b0, g1, g2, g3⟩
      · rw [hu i a hi ha]
      · rw [h3, g3]; exact v.one i0 j0 a0 b0 id h1 g1 h2 g2
  · -- storages that count before and after
    let d : Cover := ⟨fun id => (f.cover s.bufs).on id ∧ ((f.step o).cover s'.bufs).on id, false⟩
    obtain ⟨s2, hs⟩ := step_ok hb o ho
    have := hs.step
    rw [h] at this; cases this
    have hw : Wide d s.mem s.bufs := fun t ht id x h1 h2 h3 => v.wide t ht id x h1 h2 h3.1
    have hp : o.plain d s := by
      cases o with
      | newFrom data =>
        by_cases hd : data = []
        · exact .inr (.inl hd)
        · refine .inr (.inr (.inl fun hon => ?_))
          simp only [State.step] at h
          obtain ⟨m', b', e, rfl⟩ := push_some h
          have hst : b'.st = some s.mem.next := by
            unfold constructFrom at e
            dsimp only at e
            split at e
            · cases e
            · cases e
              have : data.length ≠ 0 := by simpa using hd
              simp [Mem.allocate, this, Mem.alloc]
          refine hon.2 s.bufs.length b' (by simp) hst f.lab.length ?_ ?_
          · rw [← v.len]; simp [Fam.step]
          · simp [Fam.step, hd]
      | fragment j a n =>
        by_cases hn : n = 0
        · exact .inl hn
        · refine .inr fun c hc id x hst _ hon => absurd hon fun hon => ?_
          obtain ⟨l, hlj⟩ := lab_of v.len hc
          have hjl := (List.getElem?_eq_some_iff.mp hc).1
          simp only [State.step, hc] at h
          obtain ⟨m', b', e, rfl⟩ := push_some h
          refine hon.2 j c ?_ hst l ?_ ?_
          · rw [List.getElem?_append_left hjl]; exact hc
          · simp only [Fam.step, Fam.join, hlj]
            rw [List.getElem?_append_left (by rw [v.len]; exact hjl)]; exact hlj
          · simp [Fam.step, hn, hlj]
      | addEnd | addEndBytes | addEndBuf => exact .inl rfl
      | _ => trivial
    intro t ht id x h1 h2 h3
    refine (hs.wide d hp hw).1 t ht id x h1 h2 ⟨?_, h3⟩
    obtain ⟨k, hk⟩ := List.mem_iff_getElem?.mp ht
    intro i a hi ha l hl hbad
    rcases hor k t id hk h1 with ⟨e, _⟩ | ⟨j, b, g1, g2, g3⟩
    · exact not_next hb hi (by rw [← e]; exact ha)
    · have e := v.one i j a b id hi g1 ha g2
      exact h3 k t hk h1 l (by rw [g3, ← e]; exact hl) (spoiled_mono f o hbad)

theorem fam_init (junk) : FamInv (State.init junk) ⟨[], []⟩ :=
  ⟨rfl, by simp [State.init], init_wide _ junk⟩

theorem fam_run {hist : List Op} : ∀ {s s' : State} {f : Fam}, Base s.mem s.bufs → FamInv s f →
    s.run hist = some s' → FamInv s' (hist.foldl Fam.step f) := by
  induction hist with
  | nil => intro s s' f _ v h; cases h; exact v
  | cons o os ih =>
    intro s s' f hb v h
    cases e : s.step o with
    | none => simp only [State.run, e] at h; cases h
    | some s1 =>
      simp only [State.run, e] at h
      have h1 := step_base hb e
      refine ih h1.1 ?_ h
      by_cases hok : o.ok s
      · exact fam_step hb hok e v
      · have : s1 = s := h1.2.resolve_left hok
        subst this
        -- only appending an empty buffer to a missing one
        have hd : ¬ o.destOk s1 := fun hd => hok (step_some_ok hb e hd)
        cases o with
        | addStartBuf | addEndBuf => exact v
        | _ => exact absurd trivial hd

end Verif.Buf
