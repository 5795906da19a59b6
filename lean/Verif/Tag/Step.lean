import Verif.Tag.Lemmas
import Mathlib.Data.List.Perm.Basic

/-! One operation on any number of tag lists, in terms of what each list sees. -/
set_option linter.unusedSimpArgs false
set_option linter.unusedVariables false
namespace Verif.Tag

variable {V : Type}

/-- What one list sees: its window and the elements it uses. -/
structure View (V : Type) where
  bs : Int
  be : Int
  l : List (Idx V)

def view (h : Heap V) (t : TL) : View V := ⟨t.bs, t.be, entries h t⟩

def State.views (s : State V) : List (View V) := s.lists.map (view s.heap)

/-- Growing the window by `a` bytes at the start and `b` at the end. -/
structure Grow (a b : Nat) (v v' : View V) : Prop where
  bs : v'.bs = v.bs - a
  be : v'.be = v.be + b
  kept : Kept v.bs v.be v.l v'.l
  fresh : ∀ e ∈ v'.l, e.has v'.bs v'.be = true → e.has v.bs v.be = true

/-- Concatenation with the elements of `w`, shifted by `d`, after growing the window. -/
def Join (a b : Nat) (d : Int) (w v v' : View V) : Prop :=
  ∃ u : View V, Grow a b v u ∧ v'.bs = u.bs ∧ v'.be = u.be ∧
    (∀ id p, u.bs ≤ p → p < u.be → lookup v'.l id p = (lookup u.l id p).or (lookup w.l id (p - d))) ∧
    ∀ e ∈ v'.l, e ∈ u.l ∨ ∃ e0 ∈ w.l, e = ⟨e0.id, e0.val, e0.st + d, e0.en + d⟩ ∧ e.has u.bs u.be = true

/-- The effect of an operation on what every list sees. -/
def VStep (L L' : List (View V)) : Op V → Prop
  | .new => L' = L ++ [⟨0, 0, []⟩]
  | .newCap _ n => ∃ v : View V, L' = L ++ [v] ∧ v.be = v.bs + n ∧ v.l = []
  | .copy j => ∃ v, L[j]? = some v ∧ L' = L ++ [v]
  | .assign i j => ∃ v, L[j]? = some v ∧ L' = L.set i v
  | .swap i j => ∃ v w, L[i]? = some v ∧ L[j]? = some w ∧ L' = (L.set i w).set j v
  | .destroy i => L' = L.set i ⟨0, 0, []⟩
  | .addStart i n => ∃ v v', L[i]? = some v ∧ Grow n 0 v v' ∧ L' = L.set i v'
  | .addEnd i n => ∃ v v', L[i]? = some v ∧ Grow 0 n v v' ∧ L' = L.set i v'
  | .removeStart i n => ∃ v, L[i]? = some v ∧ L' = L.set i ⟨v.bs + n, v.be, v.l⟩
  | .removeEnd i n => ∃ v, L[i]? = some v ∧ L' = L.set i ⟨v.bs, v.be - n, v.l⟩
  | .insert i id x start size => ∃ v l, L[i]? = some v ∧ Kept v.bs v.be v.l l ∧
      L' = L.set i ⟨v.bs, v.be, l ++ [⟨id, x, v.bs + start, v.bs + start + size⟩]⟩
  | .addListStart i j => ∃ v w v', L[i]? = some v ∧ L[j]? = some w ∧
      Join (w.be - w.bs).toNat 0 (v'.bs - w.bs) w v v' ∧ L' = L.set i v'
  | .addListEnd i j => ∃ v w v', L[i]? = some v ∧ L[j]? = some w ∧
      Join 0 (w.be - w.bs).toNat (v'.be - w.be) w v v' ∧ L' = L.set i v'

/-- The preconditions (assertions of the code, and that the lists exist). -/
def Op.ok (L : List (View V)) : Op V → Prop
  | .new => True
  | .newCap cap _ => 0 < cap
  | .copy j => j < L.length
  | .assign i j | .swap i j | .addListStart i j | .addListEnd i j => i < L.length ∧ j < L.length
  | .destroy i | .addStart i _ | .addEnd i _ => i < L.length
  | .removeStart i n | .removeEnd i n => ∃ v, L[i]? = some v ∧ v.bs + n ≤ v.be
  | .insert i _ _ start size => 0 < size ∧ ∃ v, L[i]? = some v ∧ v.bs + start + size ≤ v.be

theorem set_perm {α : Type} {L : List α} {i : Nat} {s : α} (h : L[i]? = some s) (s' : α) :
    L.Perm (s :: L.eraseIdx i) ∧ (L.set i s').Perm (s' :: L.eraseIdx i) := by
  obtain ⟨hi, rfl⟩ := List.getElem?_eq_some_iff.mp h
  exact ⟨(List.getElem_cons_eraseIdx_perm hi).symm, List.set_perm_cons_eraseIdx hi s'⟩

theorem views_set {L : List TL} {m m' : Heap V} {i : Nat} {s' : TL} (h : Same m m' (L.eraseIdx i)) :
    (L.set i s').map (view m') = (L.map (view m)).set i (view m' s') := by
  apply List.ext_getElem?; intro j
  rw [List.getElem?_map, List.getElem?_set, List.getElem?_set]
  by_cases hij : i = j
  · subst hij
    rw [if_pos rfl, if_pos rfl, List.length_map]
    split <;> rfl
  · rw [if_neg hij, if_neg hij, List.getElem?_map]
    cases hj : L[j]? with
    | none => rfl
    | some t =>
      have := h t (List.mem_eraseIdx_iff_getElem?.mpr ⟨j, fun e => hij e.symm, hj⟩)
      simp [view, this]

theorem views_push {L : List TL} {m m' : Heap V} {t : TL} (h : Same m m' L) :
    (L ++ [t]).map (view m') = L.map (view m) ++ [view m' t] := by
  rw [List.map_append]
  congr 1
  exact List.map_congr_left (fun u hu => by simp [view, h u hu])

theorem view_get {s : State V} {i : Nat} {t : TL} (h : s.lists[i]? = some t) :
    s.views[i]? = some (view s.heap t) := by simp [State.views, h]

theorem view_lt {s : State V} {i : Nat} : i < s.views.length ↔ i < s.lists.length := by simp [State.views]

theorem get_lt {s : State V} {i : Nat} (h : i < s.views.length) : ∃ t, s.lists[i]? = some t :=
  ⟨_, List.getElem?_eq_getElem (view_lt.mp h)⟩

theorem view_some {s : State V} {i : Nat} {v : View V} (h : s.views[i]? = some v) :
    ∃ t, s.lists[i]? = some t ∧ v = view s.heap t := by
  have hi := (List.getElem?_eq_some_iff.mp h).1
  obtain ⟨t, ht⟩ := get_lt hi
  refine ⟨t, ht, ?_⟩
  rw [view_get ht] at h; exact (Option.some.inj h).symm

/-- Lifting an operation on one list. -/
theorem on_lift {s : State V} {i : Nat} {t t' : TL} {h' : Heap V} {f : Heap V → TL → Option (Heap V × TL)}
    (ht : s.lists[i]? = some t) (hf : f s.heap t = some (h', t')) (hb : TBase h' (t' :: s.lists.eraseIdx i))
    (hs : Same s.heap h' (s.lists.eraseIdx i)) :
    ∃ s', s.on i f = some s' ∧ TBase s'.heap s'.lists ∧ s'.views = s.views.set i (view h' t') :=
  ⟨⟨h', s.lists.set i t'⟩, by simp [State.on, ht, hf], hb.perm (set_perm ht t').2.symm, views_set hs⟩

theorem head_base {s : State V} (b : TBase s.heap s.lists) {i : Nat} {t : TL} (ht : s.lists[i]? = some t) :
    TBase s.heap (t :: s.lists.eraseIdx i) := b.perm (set_perm ht t).1

theorem lookup_shift (l : List (Idx V)) (d : Int) (id : Nat) (p : Int) :
    lookup (l.map fun e => ⟨e.id, e.val, e.st + d, e.en + d⟩) id p = lookup l id (p - d) := by
  unfold lookup
  rw [List.find?_map]
  have : ((fun e : Idx V => decide (e.id = id) && e.covers p) ∘ fun e : Idx V => (⟨e.id, e.val, e.st + d, e.en + d⟩ : Idx V)) =
      fun e : Idx V => decide (e.id = id) && e.covers (p - d) := by
    funext e
    simp only [Function.comp, Idx.covers]
    congr 2
    · rw [decide_eq_decide]; omega
    · rw [decide_eq_decide]; omega
  rw [this]
  cases l.find? (fun e : Idx V => decide (e.id = id) && e.covers (p - d)) <;> rfl

/-- The common part of `AddAtStart(rhs)` and `AddAtEnd(rhs)`. -/
theorem join_ok {h : Heap V} {t r : TL} {R : List TL} (b : TBase h (t :: R)) (hr : r ∈ t :: R) (m n : Nat)
    (f : TL → Int) :
    ∃ h0 h1 t1 h2 t2 h3, h.addRef r.tia = some h0 ∧ expand h0 t m n = some (h1, t1) ∧
      pour h1 t1 r (f t1) r.size 0 = some (h2, t2) ∧ h2.release r.tia = some h3 ∧
      TBase h3 (t2 :: R) ∧ Same h h3 R ∧ t2.bs = t1.bs ∧ t2.be = t1.be ∧
      Join m n (f t1) (view h r) (view h t) (view h3 t2) := by
  obtain ⟨h0, a1, a2, a3⟩ := share_ok b hr
  obtain ⟨h1, t1, e1, e2, e3, e4, e5, e6, e7⟩ := expand_ok (a2.perm (List.Perm.swap ..)) m n
  have hlen : (entries h1 r).length = r.size := by
    cases hc : r.tia with
    | none =>
      rw [entries_none hc]
      exact (e2.null r (by simp) hc).symm
    | some a =>
      obtain ⟨x, hx, hl⟩ := e2.held r (by simp) a hc
      rw [entries_some hc hx, List.length_take]; omega
  obtain ⟨h2, t2, p1, p2⟩ := pour_ok e2 (List.mem_cons_self ..) (f t1) r.size 0 (by omega)
  obtain ⟨h3, d1, d2, d3⟩ := drop_ok (p2.base.perm (List.Perm.swap ..))
  have hr1 : entries h1 r = entries h r := by rw [e3 r (List.mem_cons_self ..), a3]
  have ht2 : entries h3 t2 = entries h2 t2 := d3 t2 (List.mem_cons_self ..)
  refine ⟨h0, h1, t1, h2, t2, h3, a1, e1, p1, d1, d2, ?_, p2.bs, p2.be, view h1 t1, ⟨e4, e5, ?_, ?_⟩, p2.bs, p2.be, ?_, ?_⟩
  · intro u hu
    rw [d3 u (List.mem_cons_of_mem _ hu), p2.same u (List.mem_cons_of_mem _ hu), e3 u (List.mem_cons_of_mem _ hu), a3]
  · simp only [view]; rw [← a3 t]; exact e6
  · exact e7
  · intro id p q1 q2
    have := p2.found id p q1 q2
    rw [List.drop_zero, List.take_of_length_le (by omega), lookup_shift, hr1] at this
    simp only [view]; rw [ht2]; exact this
  · intro e he
    simp only [view] at he ⊢
    rw [ht2] at he
    rcases p2.from_ e he with q | q
    · exact Or.inl q
    · rw [List.drop_zero, List.take_of_length_le (by omega), hr1] at q
      obtain ⟨e0, he0, heq⟩ := List.mem_map.mp q.1
      exact Or.inr ⟨e0, he0, heq.symm, q.2⟩

theorem step_ok {s : State V} (b : TBase s.heap s.lists) (o : Op V) (ho : o.ok s.views) :
    ∃ s', s.step o = some s' ∧ TBase s'.heap s'.lists ∧ VStep s.views s'.views o := by
  cases o with
  | new =>
    refine ⟨_, rfl, ?_, views_push (Same.refl _ _)⟩
    refine TBase.perm (List.perm_append_comm (l₁ := [TL.null])) ⟨b.closed, ?_, ?_, ?_, ?_⟩
    · intro t ht; rcases List.mem_cons.mp ht with e | ht
      · subst e; intro _; rfl
      · exact b.null t ht
    · intro t ht; rcases List.mem_cons.mp ht with e | ht
      · subst e; intro a ha; cases ha
      · exact b.held t ht
    · intro a x hx
      rw [List.singleton_append, List.countP_cons, if_neg (by simp [TL.null])]
      exact b.refs a x hx
    · intro t ht; rcases List.mem_cons.mp ht with e | ht
      · subst e; exact Int.le_refl _
      · exact b.le t ht
  | newCap cap n =>
    obtain ⟨h', q1, q2, q3, q4, _⟩ := alloc_ok b (cap := cap) (l := []) ho (by simp)
      (t := ⟨-((n / 2 : Nat) : Int), -((n / 2 : Nat) : Int) + n, 0, some s.heap.next⟩) rfl (by simp) (by simp only []; omega)
    refine ⟨⟨h', s.lists ++ [⟨-((n / 2 : Nat) : Int), -((n / 2 : Nat) : Int) + n, 0, some s.heap.next⟩]⟩,
      by simp [State.step, q1], q2.perm (List.perm_append_comm (l₁ := [(⟨-((n / 2 : Nat) : Int), -((n / 2 : Nat) : Int) + n, 0, some s.heap.next⟩ : TL)])), _, views_push q3, rfl, ?_⟩
    simp only [view]; rw [q4]; simp
  | copy j =>
    obtain ⟨t, ht⟩ := get_lt ho
    obtain ⟨h', q1, q2, q3⟩ := share_ok b (List.mem_of_getElem? ht)
    refine ⟨⟨h', s.lists ++ [t]⟩, by simp [State.step, ht, q1], q2.perm (List.perm_append_comm (l₁ := [t])), _,
      view_get ht, ?_⟩
    have := views_push (t := t) (L := s.lists) (fun u _ => q3 u)
    rw [show (⟨h', s.lists ++ [t]⟩ : State V).views = (s.lists ++ [t]).map (view h') from rfl, this]
    congr 2
    simp [view, q3]
  | assign i j =>
    obtain ⟨t, ht⟩ := get_lt ho.1
    obtain ⟨r, hr⟩ := get_lt ho.2
    by_cases hij : i = j
    · subst hij
      refine ⟨s, by simp [State.step, hr], b, _, view_get hr, ?_⟩
      have h1 := view_get hr
      obtain ⟨hi, he⟩ := List.getElem?_eq_some_iff.mp h1
      rw [← he, List.set_getElem_self]
    · have b1 := head_base b ht
      have hrm : r ∈ t :: s.lists.eraseIdx i :=
        List.mem_cons_of_mem _ (List.mem_eraseIdx_iff_getElem?.mpr ⟨j, fun e => hij e.symm, hr⟩)
      obtain ⟨h1, q1, q2, q3⟩ := share_ok b1 hrm
      obtain ⟨h2, r1, r2, r3⟩ := drop_ok (q2.perm (List.Perm.swap ..))
      obtain ⟨s', z1, z2, z3⟩ := on_lift ht (f := fun h t => match h.addRef r.tia with
        | none => none
        | some h1 =>
          match h1.release t.tia with
          | none => none
          | some h2 => some (h2, r)) (h' := h2) (t' := r) (by simp [q1, r1]) r2
        (fun u hu => by rw [r3 u (List.mem_cons_of_mem _ hu), q3])
      refine ⟨s', ?_, z2, _, view_get hr, ?_⟩
      · simp only [State.step, hr, if_neg hij]; exact z1
      · rw [z3]; congr 1
        simp only [view]; rw [r3 r (List.mem_cons_self ..), q3]
  | swap i j =>
    obtain ⟨t, ht⟩ := get_lt ho.1
    obtain ⟨r, hr⟩ := get_lt ho.2
    refine ⟨⟨s.heap, (s.lists.set i r).set j t⟩, by simp [State.step, ht, hr], ?_, _, _, view_get ht, view_get hr, ?_⟩
    · refine b.perm ?_
      have hil := (List.getElem?_eq_some_iff.mp ht).1
      have h1 : (s.lists.set i r)[j]? = some r := by
        rw [List.getElem?_set]
        by_cases e : i = j
        · simp [e ▸ hil, e]
        · rw [if_neg e, hr]
      have h2 := set_perm h1 t
      have h3 := set_perm ht r
      have h4 : (s.lists.eraseIdx i).Perm ((s.lists.set i r).eraseIdx j) :=
        (List.perm_cons r).mp (h3.2.symm.trans h2.1)
      exact h3.1.trans (((List.perm_cons t).mpr h4).trans h2.2.symm)
    · simp only [State.views, List.map_set]
  | destroy i =>
    obtain ⟨t, ht⟩ := get_lt ho
    obtain ⟨h1, r1, r2, r3⟩ := drop_ok (head_base b ht)
    obtain ⟨s', z1, z2, z3⟩ := on_lift ht (f := fun h t => match h.release t.tia with
        | none => none
        | some h1 => some (h1, TL.null)) (h' := h1) (t' := TL.null) (by simp [r1])
      ⟨r2.closed, fun u hu => by
          rcases List.mem_cons.mp hu with e | hu
          · subst e; intro _; rfl
          · exact r2.null u hu,
        fun u hu => by
          rcases List.mem_cons.mp hu with e | hu
          · subst e; intro a ha; cases ha
          · exact r2.held u hu,
        fun a x hx => by
          rw [List.countP_cons, if_neg (by simp [TL.null])]; exact r2.refs a x hx,
        fun u hu => by
          rcases List.mem_cons.mp hu with e | hu
          · subst e; exact Int.le_refl _
          · exact r2.le u hu⟩ r3
    exact ⟨s', z1, z2, z3⟩
  | addStart i n =>
    obtain ⟨t, ht⟩ := get_lt ho
    obtain ⟨h1, t1, e1, e2, e3, e4, e5, e6, e7⟩ := expand_ok (head_base b ht) n 0
    obtain ⟨s', z1, z2, z3⟩ := on_lift ht (f := fun h t => expand h t n 0) e1 e2 e3
    exact ⟨s', z1, z2, _, view h1 t1, view_get ht, ⟨e4, e5, e6, e7⟩, z3⟩
  | addEnd i n =>
    obtain ⟨t, ht⟩ := get_lt ho
    obtain ⟨h1, t1, e1, e2, e3, e4, e5, e6, e7⟩ := expand_ok (head_base b ht) 0 n
    obtain ⟨s', z1, z2, z3⟩ := on_lift ht (f := fun h t => expand h t 0 n) e1 e2 e3
    exact ⟨s', z1, z2, _, view h1 t1, view_get ht, ⟨e4, e5, e6, e7⟩, z3⟩
  | removeStart i n =>
    obtain ⟨v, hv, hle⟩ := ho
    obtain ⟨t, ht, rfl⟩ := view_some hv
    simp only [view] at hle
    obtain ⟨s', z1, z2, z3⟩ := on_lift ht (f := fun h t => removeStart h t n) (by simp only [removeStart, if_pos hle])
      (move_ok (head_base b ht) (t' := { t with bs := t.bs + n }) rfl (Nat.le_refl _) hle) (Same.refl _ _)
    exact ⟨s', z1, z2, _, hv, z3⟩
  | removeEnd i n =>
    obtain ⟨v, hv, hle⟩ := ho
    obtain ⟨t, ht, rfl⟩ := view_some hv
    simp only [view] at hle
    have hle' : t.bs ≤ t.be - n := by omega
    obtain ⟨s', z1, z2, z3⟩ := on_lift ht (f := fun h t => removeEnd h t n) (by simp only [removeEnd, if_pos hle'])
      (move_ok (head_base b ht) (t' := { t with be := t.be - n }) rfl (Nat.le_refl _) hle') (Same.refl _ _)
    exact ⟨s', z1, z2, _, hv, z3⟩
  | insert i id x start size =>
    obtain ⟨h0, v, hv, hle⟩ := ho
    obtain ⟨t, ht, rfl⟩ := view_some hv
    simp only [view] at hle
    obtain ⟨h', t', l, a1, a2, a3, a4, a5, a6, a7⟩ := append_ok (head_base b ht) ⟨id, x, t.bs + start, t.bs + start + size⟩
    obtain ⟨s', z1, z2, z3⟩ := on_lift ht (f := fun h t => insert h t id x start size) (h' := h') (t' := t')
      (by simp only [insert]; rw [if_pos ⟨by omega, h0⟩]; exact a1) a2 a3
    refine ⟨s', z1, z2, _, l, hv, a6, ?_⟩
    rw [z3]; simp only [view, a4, a5, a7]
  | addListStart i j =>
    obtain ⟨t, ht⟩ := get_lt ho.1
    obtain ⟨r, hr⟩ := get_lt ho.2
    have hrm : r ∈ t :: s.lists.eraseIdx i := (set_perm ht t).1.mem_iff.mp (List.mem_of_getElem? hr)
    obtain ⟨h0, h1, t1, h2, t2, h3, j1, j2, j3, j4, j5, j6, j7, j8, j9⟩ :=
      join_ok (head_base b ht) hrm (r.be - r.bs).toNat 0 (fun t1 => t1.bs - r.bs)
    obtain ⟨s', z1, z2, z3⟩ := on_lift ht (f := fun h t => addListStart h t r) (h' := h3) (t' := t2)
      (by simp only [addListStart, j1, j2, j3, j4]) j5 j6
    refine ⟨s', by simp only [State.step, hr]; exact z1, z2, _, _, _, view_get ht, view_get hr, ?_, z3⟩
    simp only [← j7] at j9; exact j9
  | addListEnd i j =>
    obtain ⟨t, ht⟩ := get_lt ho.1
    obtain ⟨r, hr⟩ := get_lt ho.2
    have hrm : r ∈ t :: s.lists.eraseIdx i := (set_perm ht t).1.mem_iff.mp (List.mem_of_getElem? hr)
    obtain ⟨h0, h1, t1, h2, t2, h3, j1, j2, j3, j4, j5, j6, j7, j8, j9⟩ :=
      join_ok (head_base b ht) hrm 0 (r.be - r.bs).toNat (fun t1 => t1.be - r.be)
    obtain ⟨s', z1, z2, z3⟩ := on_lift ht (f := fun h t => addListEnd h t r) (h' := h3) (t' := t2)
      (by simp only [addListEnd, j1, j2, j3, j4]) j5 j6
    refine ⟨s', by simp only [State.step, hr]; exact z1, z2, _, _, _, view_get ht, view_get hr, ?_, z3⟩
    simp only [← j8] at j9; exact j9

/-- A defined operation respects its preconditions. -/
theorem step_some_ok {s s' : State V} {o : Op V} (h : s.step o = some s') : o.ok s.views := by
  have key : ∀ {j : Nat} {t : TL}, s.lists[j]? = some t → j < s.views.length :=
    fun h => view_lt.mpr (List.getElem?_eq_some_iff.mp h).1
  cases o with
  | new => trivial
  | newCap cap n =>
    simp only [State.step, Heap.allocate] at h
    by_cases hc : 0 < cap
    · exact hc
    · rw [if_neg (fun x => hc x.1)] at h; cases h
  | copy j =>
    simp only [State.step] at h
    split at h
    · cases h
    · rename_i e; exact key e
  | assign i j =>
    simp only [State.step] at h
    split at h
    · cases h
    · rename_i e
      split at h
      · rename_i hij; exact ⟨hij ▸ key e, key e⟩
      · simp only [State.on] at h
        split at h
        · cases h
        · rename_i e2; exact ⟨key e2, key e⟩
  | addListStart i j | addListEnd i j =>
    simp only [State.step] at h
    split at h
    · cases h
    · rename_i e
      simp only [State.on] at h
      split at h
      · cases h
      · rename_i e2; exact ⟨key e2, key e⟩
  | swap i j =>
    simp only [State.step] at h
    split at h
    · rename_i e1 e2; exact ⟨key e1, key e2⟩
    · cases h
  | destroy i | addStart i n | addEnd i n =>
    simp only [State.step, State.on] at h
    split at h
    · cases h
    · rename_i e; exact key e
  | removeStart i n =>
    simp only [State.step, State.on] at h
    split at h
    · cases h
    · rename_i t e
      refine ⟨_, view_get e, ?_⟩
      by_cases hc : t.bs + n ≤ t.be
      · exact hc
      · rw [removeStart, if_neg hc] at h; cases h
  | removeEnd i n =>
    simp only [State.step, State.on] at h
    split at h
    · cases h
    · rename_i t e
      refine ⟨_, view_get e, ?_⟩
      by_cases hc : t.bs ≤ t.be - n
      · simp only [view]; omega
      · rw [removeEnd, if_neg hc] at h; cases h
  | insert i id v start size =>
    simp only [State.step, State.on] at h
    split at h
    · cases h
    · rename_i t e
      by_cases hc : (start : Int) + size ≤ t.be - t.bs ∧ 0 < size
      · exact ⟨hc.2, _, view_get e, by simp only [view]; omega⟩
      · rw [Tag.insert, if_neg hc] at h; cases h

end Verif.Tag
