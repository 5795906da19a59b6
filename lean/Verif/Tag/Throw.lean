import Verif.Tag.Props

/-!
Tag lists when there is no memory (`network/packet/tag/basic-tag-list.h`): `new uint8_t[size]` in `TagIndexArray::Allocate`
(`basic-tag-index-array.h:53`) throws `std::bad_alloc`, and the state is what the statements before it left.

Copying, assigning, swapping, removing bytes, asking and destroying allocate nothing.
-/
set_option linter.unusedSimpArgs false
set_option linter.unusedVariables false
namespace Verif.Tag

variable {V : Type}

/-! ### Model -/

/-- `PrepareToInsert` (`basic-tag-list.h:697-755`) up to the allocation that throws; `none` where it allocates nothing. -/
def prepareFail (h : Heap V) (t : TL) : Option (Heap V × TL) :=
  match t.tia with
  | none => some (h, t)
  | some a =>
    match h.mem a with
    | none => none
    | some x =>
      if x.ref = 1 then
        let c := compact h t a x
        match c.1.mem a with
        | none => none
        | some y => if y.idx.length = y.cap then some c else none
      else if x.idx.length = x.cap then some (h, t)
      else if t.size = x.idx.length then none
      else some (h, t)

/-- `ExpandBuffer` (`basic-tag-list.h:840-895`) up to the allocation that throws: `size_` has been reduced (`863-868`), the window
has not been moved yet; `none` where it allocates nothing. -/
def expandFail (h : Heap V) (t : TL) (a b : Nat) : Option (Heap V × TL) :=
  match t.tia with
  | none => none
  | some k =>
    match h.mem k with
    | none => none
    | some x =>
      if x.ref = 1 then none
      else
        let l := trim (fun e => e.has t.bs t.be) (x.idx.take t.size)
        if l.any (fun e => !e.has t.bs t.be && e.has (t.bs - a) (t.be + b)) then some (h, { t with size := l.length }) else none

/-- `InsertTag` (`basic-tag-list.h:918-932`) that throws. -/
def insertTagFail (h : Heap V) (t : TL) (e : Idx V) : Option (Heap V × TL) :=
  if !hasTag (entries h t) e.id e.st e.en && e.has t.bs t.be then prepareFail h t else none

/-- `AddAtStart(rhs)`, `AddAtEnd(rhs)` (`basic-tag-list.h:517-537`, `555-576`) that throw while growing the window (`m = 0`) or when the
tag number `m - 1` of `rhs` is inserted; the argument, a copy, is destroyed. -/
def joinFail (h : Heap V) (t r : TL) (a b : Nat) (d : TL → Int) (m : Nat) : Option (Heap V × TL) :=
  match h.addRef r.tia with
  | none => none
  | some h0 =>
    let z : Option (Heap V × TL) :=
      match m with
      | 0 => expandFail h0 t a b
      | k + 1 =>
        match expand h0 t a b with
        | none => none
        | some (h1, t1) =>
          if k < r.size then
            match pour h1 t1 r (d t1) k 0 with
            | none => none
            | some (h2, t2) =>
              match (entries h2 r)[k]? with
              | none => none
              | some e => insertTagFail h2 t2 ⟨e.id, e.val, e.st + d t1, e.en + d t1⟩
          else none
    match z with
    | none => none
    | some (h3, t3) =>
      match h3.release r.tia with
      | none => none
      | some h4 => some (h4, t3)

/-- An operation throws for want of memory (constructors `basic-tag-list.h:446-462`, the rest as cited above); `m` counts the
allocations of the operations that make several; `none` where that cannot happen. -/
def State.fail (s : State V) (m : Nat) : Op V → Option (State V)
  | .newCap _ _ => some s
  | .addStart i n => s.on i fun h t => expandFail h t n 0
  | .addEnd i n => s.on i fun h t => expandFail h t 0 n
  | .insert i _ _ start size => s.on i fun h t =>
      if (start : Int) + size ≤ t.be - t.bs ∧ 0 < size then prepareFail h t else none
  | .addListStart i j =>
    match s.lists[j]? with
    | none => none
    | some r => s.on i fun h t => joinFail h t r (r.be - r.bs).toNat 0 (fun t1 => t1.bs - r.bs) m
  | .addListEnd i j =>
    match s.lists[j]? with
    | none => none
    | some r => s.on i fun h t => joinFail h t r 0 (r.be - r.bs).toNat (fun t1 => t1.be - r.be) m
  | _ => none

/-- An operation that returns, or one that throws.  (A client; no code.) -/
inductive Ev (V : Type) where
  | done (o : Op V)
  | failed (m : Nat) (o : Op V)

/-- One operation that returns or throws.  (A client; no code.) -/
def State.stepE (s : State V) : Ev V → Option (State V)
  | .done o => s.step o
  | .failed m o => s.fail m o

/-- A history of such operations.  (A client; no code.) -/
def State.runE (s : State V) : List (Ev V) → Option (State V)
  | [] => some s
  | e :: es =>
    match s.stepE e with
    | none => none
    | some s1 => s1.runE es

/-! ### Lemmas -/

theorem prepareFail_ok {h h' : Heap V} {t t' : TL} {R : List TL} (b : TBase h (t :: R)) (f : prepareFail h t = some (h', t')) :
    Ready h t R h' t' := by
  unfold prepareFail at f
  cases ht : t.tia with
  | none => rw [ht] at f; cases f; exact ⟨b, Same.refl _ _, Kept.refl .., rfl, rfl⟩
  | some a =>
    obtain ⟨x, hx, hxl⟩ := b.held t (List.mem_cons_self ..) a ht
    simp only [ht, hx] at f
    by_cases h1 : x.ref = 1
    · rw [if_pos h1] at f
      obtain ⟨c1, c2, c3, c4, c5⟩ := compact_ok b ht hx h1
      simp only [c4] at f
      split at f
      · simp only [Option.some.injEq] at f
        have e1 : (compact h t a x).1 = h' := by rw [f]
        have e2 : (compact h t a x).2 = t' := by rw [f]
        rw [← e1, ← e2]
        exact ⟨c1, c2, by rw [c3]; exact kept_filter .., by rw [c5], by rw [c5]⟩
      · cases f
    · rw [if_neg h1] at f
      split at f
      · cases f; exact ⟨b, Same.refl _ _, Kept.refl .., rfl, rfl⟩
      · split at f
        · cases f
        · cases f; exact ⟨b, Same.refl _ _, Kept.refl .., rfl, rfl⟩

theorem expandFail_ok {h h' : Heap V} {t t' : TL} {R : List TL} {m n : Nat} (b : TBase h (t :: R))
    (f : expandFail h t m n = some (h', t')) : Ready h t R h' t' := by
  unfold expandFail at f
  have hle := b.le t (List.mem_cons_self ..)
  cases ht : t.tia with
  | none => rw [ht] at f; cases f
  | some a =>
    obtain ⟨x, hx, hxl⟩ := b.held t (List.mem_cons_self ..) a ht
    simp only [ht, hx] at f
    split at f
    · cases f
    · split at f
      · cases f
        have hp := trim_prefix (fun e : Idx V => e.has t.bs t.be) (x.idx.take t.size)
        have hl := hp.length_le
        have hlt : (trim (fun e : Idx V => e.has t.bs t.be) (x.idx.take t.size)).length ≤ t.size := by
          rw [List.length_take] at hl; omega
        refine ⟨move_ok b ht.symm hlt hle, Same.refl _ _, ?_, rfl, rfl⟩
        rw [entries_some ht hx, entries_some (t := { t with size := (trim (fun e : Idx V => e.has t.bs t.be) (x.idx.take t.size)).length, tia := some a }) rfl hx]
        have : x.idx.take (trim (fun e : Idx V => e.has t.bs t.be) (x.idx.take t.size)).length =
            trim (fun e : Idx V => e.has t.bs t.be) (x.idx.take t.size) := by
          have := List.prefix_iff_eq_take.mp (hp.trans (List.take_prefix ..))
          exact this.symm
        simp only [this]
        exact kept_trim ..
      · cases f

/-- What a failed concatenation leaves. -/
structure Broken (h : Heap V) (t : TL) (R : List TL) (a c m : Nat) (h' : Heap V) (t' : TL) : Prop where
  base : TBase h' (t' :: R)
  same : Same h h' R
  bs : t'.bs = if m = 0 then t.bs else t.bs - a
  be : t'.be = if m = 0 then t.be else t.be + c
  found : ∀ id p v, t.bs ≤ p → p < t.be → lookup (entries h t) id p = some v → lookup (entries h' t') id p = some v

theorem joinFail_ok {h h' : Heap V} {t t' r : TL} {R : List TL} {a c m : Nat} {d : TL → Int} (b : TBase h (t :: R)) (hr : r ∈ t :: R)
    (f : joinFail h t r a c d m = some (h', t')) : Broken h t R a c m h' t' := by
  obtain ⟨h0, a1, a2, a3⟩ := share_ok b hr
  have b0 := a2.perm (List.Perm.swap ..)
  unfold joinFail at f
  simp only [a1] at f
  have fin : ∀ {h3 : Heap V} {t3 : TL}, TBase h3 (t3 :: r :: R) → Same h0 h3 (r :: R) →
      (match h3.release r.tia with | none => none | some h4 => some (h4, t3)) = some (h', t') →
      TBase h' (t' :: R) ∧ Same h h' R ∧ t' = t3 ∧ entries h' t' = entries h3 t3 := by
    intro h3 t3 b3 s3 g
    obtain ⟨h4, d1, d2, d3⟩ := drop_ok (b3.perm (List.Perm.swap ..))
    rw [d1] at g; cases g
    refine ⟨d2, fun u hu => ?_, rfl, d3 _ (List.mem_cons_self ..)⟩
    rw [d3 u (List.mem_cons_of_mem _ hu), s3 u (List.mem_cons_of_mem _ hu), a3]
  cases m with
  | zero =>
    simp only [] at f
    split at f
    · cases f
    · rename_i h3 t3 e
      have q := expandFail_ok b0 e
      obtain ⟨f1, f2, f3, f4⟩ := fin q.base q.same f
      subst f3
      refine ⟨f1, f2, q.bs, q.be, fun id p v h1 h2 hv => ?_⟩
      rw [f4, q.kept.lookup h1 h2, a3]; exact hv
  | succ k =>
    obtain ⟨h1, t1, e1, e2, e3, e4, e5, e6, e7⟩ := expand_ok b0 a c
    simp only [e1] at f
    by_cases hk : k < r.size
    · have hlen : (entries h1 r).length = r.size := by
        cases hc : r.tia with
        | none =>
          rw [entries_none hc]
          exact (e2.null r (by simp) hc).symm
        | some a =>
          obtain ⟨x, hx, hl⟩ := e2.held r (by simp) a hc
          rw [entries_some hc hx, List.length_take]; omega
      obtain ⟨h2, t2, p1, p2⟩ := pour_ok e2 (List.mem_cons_self ..) (d t1) k 0 (by omega)
      simp only [if_pos hk, p1] at f
      split at f
      · cases f
      · rename_i h3 t3 e
        split at e
        · cases e
        · rename_i x hx
          unfold insertTagFail at e
          split at e
          · have q := prepareFail_ok p2.base e
            obtain ⟨f1, f2, f3, f4⟩ := fin q.base ((e3.trans p2.same).trans q.same) f
            subst f3
            refine ⟨f1, f2, by rw [q.bs, p2.bs, e4]; rfl, by rw [q.be, p2.be, e5]; rfl, fun id p v g1 g2 hv => ?_⟩
            have l1 : t1.bs ≤ p := by rw [e4]; omega
            have l2 : p < t1.be := by rw [e5]; omega
            rw [f4, q.kept.lookup (by rw [p2.bs]; exact l1) (by rw [p2.be]; exact l2), p2.found id p l1 l2, e6.lookup g1 g2, a3, hv]; rfl
          · cases e
    · simp only [if_neg hk] at f; cases f

/-- The operations that allocate at most once. -/
def Op.once : Op V → Bool
  | .addListStart _ _ | .addListEnd _ _ => false
  | _ => true

/-- What the lists see after a failure. -/
structure Failed (s s' : State V) (o : Op V) (m : Nat) : Prop where
  base : TBase s'.heap s'.lists
  len : s'.lists.length = s.lists.length
  /-- the other lists -/
  rest : ∀ k, k < s.lists.length → k ∉ o.targets → s'.views[k]? = s.views[k]?
  once : o.once = true → ∀ (k : Nat) v, s.views[k]? = some v → ∃ v', s'.views[k]? = some v' ∧ Grow 0 0 v v'

theorem on_some {s s' : State V} {i : Nat} {f : Heap V → TL → Option (Heap V × TL)} (h : s.on i f = some s') :
    ∃ t h' t', s.lists[i]? = some t ∧ f s.heap t = some (h', t') ∧ s' = ⟨h', s.lists.set i t'⟩ := by
  unfold State.on at h
  split at h
  · cases h
  · rename_i t ht
    split at h
    · cases h
    · rename_i h' t' e; cases h; exact ⟨t, h', t', ht, e, rfl⟩

theorem grow_refl (v : View V) : Grow 0 0 v v := ⟨by simp, by simp, Kept.refl .., fun _ _ h => h⟩

theorem on_fail {s s' : State V} {o : Op V} {m i : Nat} {f : Heap V → TL → Option (Heap V × TL)} (b : TBase s.heap s.lists)
    (h : s.on i f = some s') (ho : o.targets = [i])
    (hf : ∀ t h' t', s.lists[i]? = some t → f s.heap t = some (h', t') → Ready s.heap t (s.lists.eraseIdx i) h' t') :
    Failed s s' o m := by
  obtain ⟨t, h', t', ht, e, rfl⟩ := on_some h
  have q := hf t h' t' ht e
  have hi := (List.getElem?_eq_some_iff.mp ht).1
  have hv : (⟨h', s.lists.set i t'⟩ : State V).views = s.views.set i (view h' t') := views_set q.same
  refine ⟨q.base.perm (set_perm ht t').2.symm, by simp, ?_, ?_⟩
  · intro k hk hn
    rw [hv, List.getElem?_set_ne (by rw [ho] at hn; simp at hn; omega)]
  · intro _ k v hk
    by_cases e : k = i
    · subst e
      rw [view_get ht] at hk; cases hk
      refine ⟨view h' t', by rw [hv, List.getElem?_set_self (view_lt.mpr hi)], ⟨by simp [view, q.bs], by simp [view, q.be], q.kept, ?_⟩⟩
      intro x hx hh
      simp only [view] at hh ⊢
      rw [q.bs, q.be] at hh; exact hh
    · exact ⟨v, by rw [hv, List.getElem?_set_ne (Ne.symm e)]; exact hk, grow_refl v⟩

theorem on_broken {s s' : State V} {o : Op V} {i a c m : Nat} {f : Heap V → TL → Option (Heap V × TL)} (b : TBase s.heap s.lists)
    (h : s.on i f = some s') (ho : o.targets = [i]) (hn : o.once = false)
    (hf : ∀ t h' t', s.lists[i]? = some t → f s.heap t = some (h', t') → Broken s.heap t (s.lists.eraseIdx i) a c m h' t') :
    Failed s s' o m := by
  obtain ⟨t, h', t', ht, e, rfl⟩ := on_some h
  have q := hf t h' t' ht e
  have hv : (⟨h', s.lists.set i t'⟩ : State V).views = s.views.set i (view h' t') := views_set q.same
  refine ⟨q.base.perm (set_perm ht t').2.symm, by simp, ?_, fun h => by rw [hn] at h; cases h⟩
  intro k hk hn
  rw [hv, List.getElem?_set_ne (by rw [ho] at hn; simp at hn; omega)]

theorem mem_head {s : State V} {i j : Nat} {t r : TL} (ht : s.lists[i]? = some t) (hr : s.lists[j]? = some r) :
    r ∈ t :: s.lists.eraseIdx i := (set_perm ht t).1.mem_iff.mp (List.mem_of_getElem? hr)

theorem fail_ok {s s' : State V} {o : Op V} {m : Nat} (b : TBase s.heap s.lists) (h : s.fail m o = some s') : Failed s s' o m := by
  cases o with
  | newCap cap n =>
    cases h
    exact ⟨b, rfl, fun _ _ _ => rfl, fun _ k v hv => ⟨v, hv, grow_refl v⟩⟩
  | addStart i n =>
    simp only [State.fail] at h
    exact on_fail b h rfl fun t h' t' ht e => expandFail_ok (head_base b ht) e
  | addEnd i n =>
    simp only [State.fail] at h
    exact on_fail b h rfl fun t h' t' ht e => expandFail_ok (head_base b ht) e
  | insert i id v start size =>
    simp only [State.fail] at h
    refine on_fail b h rfl fun t h' t' ht e => ?_
    split at e
    · exact prepareFail_ok (head_base b ht) e
    · cases e
  | addListStart i j =>
    simp only [State.fail] at h
    split at h
    · cases h
    · rename_i r hr
      exact on_broken b h rfl rfl fun t h' t' ht e => joinFail_ok (head_base b ht) (mem_head ht hr) e
  | addListEnd i j =>
    simp only [State.fail] at h
    split at h
    · cases h
    · rename_i r hr
      exact on_broken b h rfl rfl fun t h' t' ht e => joinFail_ok (head_base b ht) (mem_head ht hr) e
  | _ => cases h

theorem stepE_base {s s' : State V} {e : Ev V} (b : TBase s.heap s.lists) (h : s.stepE e = some s') : TBase s'.heap s'.lists := by
  cases e with
  | done o => exact (step_base b h).1
  | failed m o => exact (fail_ok b h).base

theorem runE_base {s s' : State V} {hist : List (Ev V)} (b : TBase s.heap s.lists) (h : s.runE hist = some s') :
    TBase s'.heap s'.lists := by
  induction hist generalizing s with
  | nil => cases h; exact b
  | cons o os ih =>
    simp only [State.runE] at h
    split at h
    · cases h
    · rename_i s1 h1; exact ih (stepE_base b h1) h

end Verif.Tag
