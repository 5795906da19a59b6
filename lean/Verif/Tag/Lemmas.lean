import Verif.Tag.Model

/-! Lemmas about shared arrays of tag indices and the operations of one list. -/
set_option linter.unusedSimpArgs false
set_option linter.unusedVariables false
namespace Verif.Tag

variable {V : Type}

/-- Arrays and the lists that use them fit together: every array is alive exactly as long as lists use it. -/
structure TBase (h : Heap V) (L : List TL) : Prop where
  closed : ∀ a, h.next ≤ a → h.mem a = none
  null : ∀ t ∈ L, t.tia = none → t.size = 0
  held : ∀ t ∈ L, ∀ a, t.tia = some a → ∃ x, h.mem a = some x ∧ t.size ≤ x.idx.length
  refs : ∀ a x, h.mem a = some x →
    x.ref = L.countP (fun t => decide (t.tia = some a)) ∧ 0 < x.ref ∧ 0 < x.cap ∧ x.idx.length ≤ x.cap
  le : ∀ t ∈ L, t.bs ≤ t.be

theorem TBase.perm {h : Heap V} {L L' : List TL} (p : L.Perm L') (b : TBase h L) : TBase h L' :=
  ⟨b.closed, fun t ht => b.null t (p.mem_iff.mpr ht), fun t ht => b.held t (p.mem_iff.mpr ht),
   fun a x hx => by rw [← p.countP_eq]; exact b.refs a x hx, fun t ht => b.le t (p.mem_iff.mpr ht)⟩

/-- Other lists see the same elements. -/
def Same (h h' : Heap V) (R : List TL) : Prop := ∀ u ∈ R, entries h' u = entries h u

theorem Same.trans {h h' h'' : Heap V} {R : List TL} (a : Same h h' R) (b : Same h' h'' R) : Same h h'' R :=
  fun u hu => (b u hu).trans (a u hu)

theorem Same.refl (h : Heap V) (R : List TL) : Same h h R := fun _ _ => rfl

theorem entries_some {h : Heap V} {t : TL} {a : Nat} {x : Arr V} (ht : t.tia = some a) (hx : h.mem a = some x) :
    entries h t = x.idx.take t.size := by simp [entries, ht, hx]

theorem entries_none {h : Heap V} {t : TL} (ht : t.tia = none) : entries h t = [] := by simp [entries, ht]

theorem entries_congr {h h' : Heap V} {u : TL} (e : ∀ a, u.tia = some a → h'.mem a = h.mem a) :
    entries h' u = entries h u := by
  unfold entries
  cases hu : u.tia with
  | none => rfl
  | some a => simp only []; rw [e a hu]

/-- Changing the window of a list, or letting it use fewer elements. -/
theorem move_ok {h : Heap V} {t t' : TL} {R : List TL} (b : TBase h (t :: R)) (ht : t'.tia = t.tia)
    (hs : t'.size ≤ t.size) (hle : t'.bs ≤ t'.be) : TBase h (t' :: R) := by
  refine ⟨b.closed, ?_, ?_, ?_, ?_⟩
  · intro u hu hn
    rcases List.mem_cons.mp hu with e | hu
    · subst e
      have := b.null t (List.mem_cons_self ..) (by rw [← ht]; exact hn)
      omega
    · exact b.null u (List.mem_cons_of_mem _ hu) hn
  · intro u hu a ha
    rcases List.mem_cons.mp hu with e | hu
    · subst e
      obtain ⟨x, hx, hl⟩ := b.held t (List.mem_cons_self ..) a (by rw [← ht]; exact ha)
      exact ⟨x, hx, by omega⟩
    · exact b.held u (List.mem_cons_of_mem _ hu) a ha
  · intro a x hx
    have := b.refs a x hx
    rw [List.countP_cons] at this ⊢
    rw [ht]; exact this
  · intro u hu
    rcases List.mem_cons.mp hu with e | hu
    · subst e; exact hle
    · exact b.le u (List.mem_cons_of_mem _ hu)

/-- An array with one reference belongs to one list only. -/
theorem sole {h : Heap V} {t : TL} {R : List TL} (b : TBase h (t :: R)) {a : Nat} {x : Arr V}
    (ht : t.tia = some a) (hx : h.mem a = some x) (h1 : x.ref = 1) : ∀ u ∈ R, u.tia ≠ some a := by
  have hc := (b.refs a x hx).1
  rw [h1, List.countP_cons, if_pos (by simp [ht])] at hc
  have h0 : R.countP (fun t => decide (t.tia = some a)) = 0 := by omega
  intro u hu e
  have := (List.countP_eq_zero.mp h0) u hu
  simp [e] at this

/-- Replace the elements of an array that one list owns alone. -/
theorem sole_set {h : Heap V} {t t' : TL} {R : List TL} (b : TBase h (t :: R)) {a : Nat} {x : Arr V}
    (ht : t.tia = some a) (hx : h.mem a = some x) (h1 : x.ref = 1) {l : List (Idx V)} (hl : l.length ≤ x.cap)
    (ht' : t'.tia = some a) (hs : t'.size ≤ l.length) (hle : t'.bs ≤ t'.be) :
    TBase (h.put a (some { x with idx := l })) (t' :: R) ∧ Same h (h.put a (some { x with idx := l })) R ∧
      entries (h.put a (some { x with idx := l })) t' = l.take t'.size := by
  have hR := sole b ht hx h1
  have hmem : ∀ c, c ≠ a → (h.put a (some { x with idx := l })).mem c = h.mem c := by
    intro c hc; simp [Heap.put, hc]
  have hself : (h.put a (some { x with idx := l })).mem a = some { x with idx := l } := by simp [Heap.put]
  refine ⟨⟨?_, ?_, ?_, ?_, ?_⟩, ?_, ?_⟩
  · intro c hc
    have : c ≠ a := by
      intro e; subst e; rw [b.closed c hc] at hx; cases hx
    rw [hmem c this]; exact b.closed c hc
  · intro u hu hn
    rcases List.mem_cons.mp hu with e | hu
    · subst e; rw [ht'] at hn; cases hn
    · exact b.null u (List.mem_cons_of_mem _ hu) hn
  · intro u hu c hc
    rcases List.mem_cons.mp hu with e | hu
    · subst e; rw [ht'] at hc; cases hc; exact ⟨_, hself, hs⟩
    · have : c ≠ a := fun e => hR u hu (e ▸ hc)
      rw [hmem c this]
      exact b.held u (List.mem_cons_of_mem _ hu) c hc
  · intro c y hy
    by_cases e : c = a
    · subst e
      rw [hself] at hy; cases hy
      have := b.refs c x hx
      rw [List.countP_cons] at this ⊢
      rw [ht'] ; rw [ht] at this
      exact ⟨this.1, this.2.1, this.2.2.1, hl⟩
    · rw [hmem c e] at hy
      have := b.refs c y hy
      rw [List.countP_cons] at this ⊢
      rw [ht']; rw [ht] at this; exact this
  · intro u hu
    rcases List.mem_cons.mp hu with e | hu
    · subst e; exact hle
    · exact b.le u (List.mem_cons_of_mem _ hu)
  · intro u hu
    exact entries_congr (fun c hc => hmem c (fun e => hR u hu (e ▸ hc)))
  · exact entries_some ht' hself

/-- Append an element behind the last one of an array, shared or not. -/
theorem append_set {h : Heap V} {t : TL} {R : List TL} (b : TBase h (t :: R)) {a : Nat} {x : Arr V}
    (ht : t.tia = some a) (hx : h.mem a = some x) (hl : x.idx.length < x.cap) (hs : t.size = x.idx.length)
    (e : Idx V) :
    TBase (h.put a (some { x with idx := x.idx ++ [e] })) ({ t with size := t.size + 1 } :: R) ∧
      Same h (h.put a (some { x with idx := x.idx ++ [e] })) R ∧
      entries (h.put a (some { x with idx := x.idx ++ [e] })) { t with size := t.size + 1 } = entries h t ++ [e] := by
  have hmem : ∀ c, c ≠ a → (h.put a (some { x with idx := x.idx ++ [e] })).mem c = h.mem c := by
    intro c hc; simp [Heap.put, hc]
  have hself : (h.put a (some { x with idx := x.idx ++ [e] })).mem a = some { x with idx := x.idx ++ [e] } := by
    simp [Heap.put]
  refine ⟨⟨?_, ?_, ?_, ?_, ?_⟩, ?_, ?_⟩
  · intro c hc
    have : c ≠ a := by
      intro e; subst e; rw [b.closed c hc] at hx; cases hx
    rw [hmem c this]; exact b.closed c hc
  · intro u hu hn
    rcases List.mem_cons.mp hu with e | hu
    · subst e; simp only [ht] at hn; cases hn
    · exact b.null u (List.mem_cons_of_mem _ hu) hn
  · intro u hu c hc
    rcases List.mem_cons.mp hu with e | hu
    · subst e; simp only [ht] at hc; cases hc
      exact ⟨_, hself, by simp [hs]⟩
    · by_cases e : c = a
      · subst e
        obtain ⟨y, hy, hyl⟩ := b.held u (List.mem_cons_of_mem _ hu) c hc
        rw [hx] at hy; cases hy
        exact ⟨_, hself, by simp; omega⟩
      · rw [hmem c e]
        exact b.held u (List.mem_cons_of_mem _ hu) c hc
  · intro c y hy
    by_cases e : c = a
    · subst e
      rw [hself] at hy; cases hy
      have := b.refs c x hx
      rw [List.countP_cons] at this ⊢
      exact ⟨this.1, this.2.1, this.2.2.1, by simp; omega⟩
    · rw [hmem c e] at hy
      have := b.refs c y hy
      rw [List.countP_cons] at this ⊢
      exact this
  · intro u hu
    rcases List.mem_cons.mp hu with e | hu
    · subst e; exact b.le t (List.mem_cons_self ..)
    · exact b.le u (List.mem_cons_of_mem _ hu)
  · intro u hu
    cases hc : u.tia with
    | none => rw [entries_none hc, entries_none hc]
    | some c =>
      by_cases e : c = a
      · subst e
        obtain ⟨y, hy, hyl⟩ := b.held u (List.mem_cons_of_mem _ hu) c hc
        rw [hx] at hy; cases hy
        rw [entries_some hc hself, entries_some hc hx]
        exact List.take_append_of_le_length hyl
      · apply entries_congr
        intro c' hc'; rw [hc] at hc'; cases hc'; exact hmem c e
  · rw [entries_some (t := { t with size := t.size + 1 }) ht hself, entries_some ht hx, hs]
    rw [List.take_of_length_le (by simp), List.take_of_length_le (by simp)]

/-- A new array for a new list. -/
theorem alloc_ok {h : Heap V} {L : List TL} (b : TBase h L) {cap : Nat} {l : List (Idx V)} (hc : 0 < cap)
    (hl : l.length ≤ cap) {t : TL} (ht : t.tia = some h.next) (hs : t.size ≤ l.length) (hle : t.bs ≤ t.be) :
    ∃ h', h.allocate cap l = some (h', h.next) ∧ TBase h' (t :: L) ∧ Same h h' L ∧ entries h' t = l.take t.size ∧
      h'.mem h.next = some ⟨cap, 1, l⟩ ∧ ∀ c, c ≠ h.next → h'.mem c = h.mem c := by
  have hL : ∀ u ∈ L, u.tia ≠ some h.next := by
    intro u hu e
    obtain ⟨x, hx, _⟩ := b.held u hu _ e
    rw [b.closed _ (Nat.le_refl _)] at hx; cases hx
  have e0 : h.allocate cap l = some
      (⟨fun c => if c = h.next then some ⟨cap, 1, l⟩ else h.mem c, h.next + 1⟩, h.next) := by
    unfold Heap.allocate; rw [if_pos ⟨hc, hl⟩]
  refine ⟨_, e0, ⟨?_, ?_, ?_, ?_, ?_⟩, ?_, ?_, ?_, ?_⟩
  · intro c hcc
    dsimp only at hcc ⊢
    rw [if_neg (by omega)]; exact b.closed c (by omega)
  · intro u hu hn
    rcases List.mem_cons.mp hu with e | hu
    · subst e; rw [ht] at hn; cases hn
    · exact b.null u hu hn
  · intro u hu c hcc
    rcases List.mem_cons.mp hu with e | hu
    · subst e; rw [ht] at hcc; cases hcc
      exact ⟨_, if_pos rfl, hs⟩
    · have : c ≠ h.next := fun e => hL u hu (e ▸ hcc)
      dsimp only; rw [if_neg this]; exact b.held u hu c hcc
  · intro c y hy
    dsimp only at hy
    by_cases e : c = h.next
    · subst e
      rw [if_pos rfl] at hy; cases hy
      rw [List.countP_cons, if_pos (by simp [ht])]
      have : L.countP (fun t => decide (t.tia = some h.next)) = 0 :=
        List.countP_eq_zero.mpr (fun u hu => by simp [hL u hu])
      exact ⟨by rw [this], by simp, hc, hl⟩
    · rw [if_neg e] at hy
      rw [List.countP_cons, if_neg (by simp [ht]; exact fun e' => e e'.symm)]
      exact b.refs c y hy
  · intro u hu
    rcases List.mem_cons.mp hu with e | hu
    · subst e; exact hle
    · exact b.le u hu
  · intro u hu
    apply entries_congr
    intro c hcc
    have hne : c ≠ h.next := fun e => hL u hu (e ▸ hcc)
    exact if_neg hne
  · exact entries_some (x := ⟨cap, 1, l⟩) ht (if_pos rfl)
  · exact if_pos rfl
  · intro c hcc; exact if_neg hcc

/-- A list lets go of its array. -/
theorem drop_ok {h : Heap V} {t : TL} {R : List TL} (b : TBase h (t :: R)) :
    ∃ h', h.release t.tia = some h' ∧ TBase h' R ∧ Same h h' R := by
  cases ht : t.tia with
  | none =>
    refine ⟨h, rfl, ⟨b.closed, fun u hu => b.null u (List.mem_cons_of_mem _ hu),
      fun u hu => b.held u (List.mem_cons_of_mem _ hu), ?_, fun u hu => b.le u (List.mem_cons_of_mem _ hu)⟩, Same.refl h R⟩
    intro a x hx
    have := b.refs a x hx
    rw [List.countP_cons, if_neg (by simp [ht])] at this
    exact this
  | some a =>
    obtain ⟨x, hx, _⟩ := b.held t (List.mem_cons_self ..) a ht
    by_cases h1 : x.ref = 1
    · have hR := sole b ht hx h1
      have hmem : ∀ c, c ≠ a → (h.put a none).mem c = h.mem c := by intro c hc; simp [Heap.put, hc]
      refine ⟨h.put a none, by simp [Heap.release, hx, h1], ⟨?_, ?_, ?_, ?_, ?_⟩, ?_⟩
      · intro c hc
        by_cases e : c = a
        · subst e; simp [Heap.put]
        · rw [hmem c e]; exact b.closed c hc
      · exact fun u hu => b.null u (List.mem_cons_of_mem _ hu)
      · intro u hu c hc
        rw [hmem c (fun e => hR u hu (e ▸ hc))]; exact b.held u (List.mem_cons_of_mem _ hu) c hc
      · intro c y hy
        by_cases e : c = a
        · subst e; simp [Heap.put] at hy
        · rw [hmem c e] at hy
          have := b.refs c y hy
          rw [List.countP_cons, if_neg (by simp [ht]; exact fun e' => e e'.symm)] at this
          exact this
      · exact fun u hu => b.le u (List.mem_cons_of_mem _ hu)
      · intro u hu
        exact entries_congr (fun c hc => hmem c (fun e => hR u hu (e ▸ hc)))
    · have hmem : ∀ c, c ≠ a → (h.put a (some { x with ref := x.ref - 1 })).mem c = h.mem c := by
        intro c hc; simp [Heap.put, hc]
      have hself : (h.put a (some { x with ref := x.ref - 1 })).mem a = some { x with ref := x.ref - 1 } := by
        simp [Heap.put]
      refine ⟨h.put a (some { x with ref := x.ref - 1 }), by simp [Heap.release, hx, h1], ⟨?_, ?_, ?_, ?_, ?_⟩, ?_⟩
      · intro c hc
        have : c ≠ a := by
          intro e; subst e; rw [b.closed c hc] at hx; cases hx
        rw [hmem c this]; exact b.closed c hc
      · exact fun u hu => b.null u (List.mem_cons_of_mem _ hu)
      · intro u hu c hc
        by_cases e : c = a
        · subst e
          obtain ⟨y, hy, hyl⟩ := b.held u (List.mem_cons_of_mem _ hu) c hc
          rw [hx] at hy; cases hy
          exact ⟨_, hself, hyl⟩
        · rw [hmem c e]; exact b.held u (List.mem_cons_of_mem _ hu) c hc
      · intro c y hy
        by_cases e : c = a
        · subst e
          rw [hself] at hy; cases hy
          have := b.refs c x hx
          rw [List.countP_cons, if_pos (by simp [ht])] at this
          exact ⟨by simp only []; omega, by simp only []; omega, this.2.2⟩
        · rw [hmem c e] at hy
          have := b.refs c y hy
          rw [List.countP_cons, if_neg (by simp [ht]; exact fun e' => e e'.symm)] at this
          exact this
      · exact fun u hu => b.le u (List.mem_cons_of_mem _ hu)
      · intro u hu
        cases hc : u.tia with
        | none => rw [entries_none hc, entries_none hc]
        | some c =>
          by_cases e : c = a
          · subst e; rw [entries_some hc hself, entries_some hc hx]
          · apply entries_congr
            intro c' hc'; rw [hc] at hc'; cases hc'; exact hmem c e

/-- One more list uses the array of a list. -/
theorem share_ok {h : Heap V} {L : List TL} (b : TBase h L) {t : TL} (ht : t ∈ L) :
    ∃ h', h.addRef t.tia = some h' ∧ TBase h' (t :: L) ∧ (∀ u, entries h' u = entries h u) := by
  cases hta : t.tia with
  | none =>
    refine ⟨h, rfl, ⟨b.closed, ?_, ?_, ?_, ?_⟩, fun _ => rfl⟩
    · intro u hu; rcases List.mem_cons.mp hu with e | hu
      · subst e; exact b.null u ht
      · exact b.null u hu
    · intro u hu; rcases List.mem_cons.mp hu with e | hu
      · subst e; exact b.held u ht
      · exact b.held u hu
    · intro a x hx
      rw [List.countP_cons, if_neg (by simp [hta])]
      exact b.refs a x hx
    · intro u hu; rcases List.mem_cons.mp hu with e | hu
      · subst e; exact b.le u ht
      · exact b.le u hu
  | some a =>
    obtain ⟨x, hx, hxl⟩ := b.held t ht a hta
    have hmem : ∀ c, c ≠ a → (h.put a (some { x with ref := x.ref + 1 })).mem c = h.mem c := by
      intro c hc; simp [Heap.put, hc]
    have hself : (h.put a (some { x with ref := x.ref + 1 })).mem a = some { x with ref := x.ref + 1 } := by
      simp [Heap.put]
    have hheld : ∀ u ∈ L, ∀ c, u.tia = some c → ∃ y, (h.put a (some { x with ref := x.ref + 1 })).mem c = some y ∧
        u.size ≤ y.idx.length := by
      intro u hu c hc
      by_cases e : c = a
      · subst e
        obtain ⟨y, hy, hyl⟩ := b.held u hu c hc
        rw [hx] at hy; cases hy
        exact ⟨_, hself, hyl⟩
      · rw [hmem c e]; exact b.held u hu c hc
    refine ⟨h.put a (some { x with ref := x.ref + 1 }), by simp [Heap.addRef, hx], ⟨?_, ?_, ?_, ?_, ?_⟩, ?_⟩
    · intro c hc
      have : c ≠ a := by
        intro e; subst e; rw [b.closed c hc] at hx; cases hx
      rw [hmem c this]; exact b.closed c hc
    · intro u hu; rcases List.mem_cons.mp hu with e | hu
      · subst e; exact b.null u ht
      · exact b.null u hu
    · intro u hu; rcases List.mem_cons.mp hu with e | hu
      · subst e; exact hheld u ht
      · exact hheld u hu
    · intro c y hy
      by_cases e : c = a
      · subst e
        rw [hself] at hy; cases hy
        have := b.refs c x hx
        rw [List.countP_cons, if_pos (by simp [hta])]
        exact ⟨by simp only []; omega, by simp only []; omega, this.2.2⟩
      · rw [hmem c e] at hy
        rw [List.countP_cons, if_neg (by simp [hta]; exact fun e' => e e'.symm)]
        exact b.refs c y hy
    · intro u hu; rcases List.mem_cons.mp hu with e | hu
      · subst e; exact b.le u ht
      · exact b.le u hu
    · intro u
      cases hc : u.tia with
      | none => rw [entries_none hc, entries_none hc]
      | some c =>
        by_cases e : c = a
        · subst e; rw [entries_some hc hself, entries_some hc hx]
        · apply entries_congr
          intro c' hc'; rw [hc] at hc'; cases hc'; exact hmem c e

/-! ### What the operations keep -/

/-- `l'` differs from `l` only by elements that tag no byte of the window. -/
def Kept (bs be : Int) (l l' : List (Idx V)) : Prop :=
  l'.filter (fun e => e.has bs be) = l.filter (fun e => e.has bs be) ∧ ∀ e ∈ l', e ∈ l

theorem Kept.refl (bs be : Int) (l : List (Idx V)) : Kept bs be l l := ⟨rfl, fun _ h => h⟩

theorem Kept.trans {bs be : Int} {l l' l'' : List (Idx V)} (a : Kept bs be l l') (b : Kept bs be l' l'') :
    Kept bs be l l'' := ⟨b.1.trans a.1, fun e h => a.2 e (b.2 e h)⟩

theorem squeeze_eq (p : Idx V → Bool) (l : List (Idx V)) : squeeze p l = l.filter p := by
  unfold squeeze
  induction l with
  | nil => rfl
  | cons a l ih =>
    by_cases h : p a = true
    · rw [List.dropWhile_cons_of_pos h, List.takeWhile_cons_of_pos h, List.filter_cons_of_pos h]
      split at ih
      · rename_i e; rw [← ih]
      · rename_i e; rw [← ih]; rfl
    · rw [List.dropWhile_cons_of_neg h, List.takeWhile_cons_of_neg h, List.filter_cons_of_neg h]; rfl

theorem kept_filter (bs be : Int) (l : List (Idx V)) : Kept bs be l (l.filter fun e => e.has bs be) :=
  ⟨by simp, fun e h => (List.mem_filter.mp h).1⟩

theorem trim_prefix (p : Idx V → Bool) (l : List (Idx V)) : trim p l <+: l := by
  unfold trim
  have := List.dropWhile_suffix (l := l.reverse) (fun e => !p e)
  have h2 := List.reverse_prefix.mpr this
  rwa [List.reverse_reverse] at h2

theorem trim_filter (p : Idx V → Bool) (l : List (Idx V)) : (trim p l).filter p = l.filter p := by
  unfold trim
  rw [List.filter_reverse]
  have : ∀ m : List (Idx V), (m.dropWhile fun e => !p e).filter p = m.filter p := by
    intro m
    induction m with
    | nil => rfl
    | cons a m ih =>
      by_cases h : p a = true
      · rw [List.dropWhile_cons_of_neg (by simp [h])]
      · rw [List.dropWhile_cons_of_pos (by simp [h]), List.filter_cons_of_neg h, ih]
  rw [this, List.filter_reverse, List.reverse_reverse]

theorem kept_trim (bs be : Int) (l : List (Idx V)) : Kept bs be l (trim (fun e => e.has bs be) l) :=
  ⟨trim_filter _ _, fun e h => (trim_prefix _ _).mem h⟩

theorem covers_has {e : Idx V} {p bs be : Int} (h : e.covers p = true) (h1 : bs ≤ p) (h2 : p < be) :
    e.has bs be = true := by
  simp [Idx.covers, Idx.has] at *; omega

theorem find_filter {α : Type} (p q : α → Bool) (l : List α) (h : ∀ a, p a = true → q a = true) :
    (l.filter q).find? p = l.find? p := by
  induction l with
  | nil => rfl
  | cons a l ih =>
    by_cases hq : q a = true
    · rw [List.filter_cons_of_pos hq, List.find?_cons, List.find?_cons, ih]
    · rw [List.filter_cons_of_neg hq, List.find?_cons, ih]
      have : p a = false := by
        cases hp : p a with
        | false => rfl
        | true => exact absurd (h a hp) hq
      rw [this]

theorem lookup_filter {l : List (Idx V)} {bs be p : Int} {id : Nat} (h1 : bs ≤ p) (h2 : p < be) :
    lookup (l.filter fun e => e.has bs be) id p = lookup l id p := by
  unfold lookup
  rw [find_filter]
  intro e he
  simp only [Bool.and_eq_true] at he
  exact covers_has he.2 h1 h2

theorem Kept.lookup {bs be : Int} {l l' : List (Idx V)} (k : Kept bs be l l') {p : Int} {id : Nat} (h1 : bs ≤ p)
    (h2 : p < be) : lookup l' id p = lookup l id p := by
  rw [← lookup_filter h1 h2, k.1, lookup_filter h1 h2]

theorem compact_ok {h : Heap V} {t : TL} {R : List TL} (b : TBase h (t :: R)) {a : Nat} {x : Arr V}
    (ht : t.tia = some a) (hx : h.mem a = some x) (h1 : x.ref = 1) :
    TBase (compact h t a x).1 ((compact h t a x).2 :: R) ∧ Same h (compact h t a x).1 R ∧
      entries (compact h t a x).1 (compact h t a x).2 = (entries h t).filter (fun e => e.has t.bs t.be) ∧
      (compact h t a x).1.mem a = some { x with idx := (entries h t).filter (fun e => e.has t.bs t.be) } ∧
      (compact h t a x).2 = { t with size := ((entries h t).filter (fun e => e.has t.bs t.be)).length } := by
  have e0 := entries_some ht hx
  have hl : ((entries h t).filter (fun e => e.has t.bs t.be)).length ≤ x.cap := by
    have h1 := List.length_filter_le (fun e : Idx V => e.has t.bs t.be) (entries h t)
    have h2 : (entries h t).length ≤ x.idx.length := by rw [e0]; simp; omega
    have := (b.refs a x hx).2.2.2
    omega
  have ec : compact h t a x = (h.put a (some { x with idx := (entries h t).filter (fun e => e.has t.bs t.be) }),
      { t with size := ((entries h t).filter (fun e => e.has t.bs t.be)).length }) := by
    simp only [compact, squeeze_eq, e0]
  rw [ec]
  obtain ⟨k1, k2, k3⟩ := sole_set b (t' := { t with size := ((entries h t).filter (fun e => e.has t.bs t.be)).length })
    ht hx h1 hl ht (Nat.le_refl _) (b.le t (List.mem_cons_self ..))
  refine ⟨k1, k2, ?_, by simp [Heap.put], rfl⟩
  rw [k3]; simp

theorem realloc_ok {h : Heap V} {t : TL} {R : List TL} (b : TBase h (t :: R)) {a : Nat} {x : Arr V}
    (ht : t.tia = some a) (hx : h.mem a = some x) {cap : Nat} (hc : x.cap ≤ cap) :
    ∃ h' t', reallocate h t a x cap = some (h', t') ∧ TBase h' (t' :: R) ∧ Same h h' R ∧
      entries h' t' = (entries h t).filter (fun e => e.has t.bs t.be) ∧ t'.bs = t.bs ∧ t'.be = t.be ∧
      ∃ n, t'.tia = some n ∧ h'.mem n = some ⟨cap, 1, (entries h t).filter (fun e => e.has t.bs t.be)⟩ ∧
        t'.size = ((entries h t).filter (fun e => e.has t.bs t.be)).length := by
  have e0 := entries_some ht hx
  have hb := b.refs a x hx
  have hl : ((entries h t).filter (fun e => e.has t.bs t.be)).length ≤ cap := by
    have h1 := List.length_filter_le (fun e : Idx V => e.has t.bs t.be) (entries h t)
    have h2 : (entries h t).length ≤ x.idx.length := by rw [e0]; simp; omega
    omega
  have hle := b.le t (List.mem_cons_self ..)
  obtain ⟨h1, q1, q2, q3, q4, q5, q6⟩ := alloc_ok b (cap := cap) (l := (entries h t).filter (fun e => e.has t.bs t.be))
    (t := { t with size := ((entries h t).filter (fun e => e.has t.bs t.be)).length, tia := some h.next })
    (by omega) hl rfl (Nat.le_refl _) hle
  have hne : a ≠ h.next := by
    intro e; subst e; rw [b.closed _ (Nat.le_refl _)] at hx; cases hx
  obtain ⟨h2, r1, r2, r3⟩ := drop_ok (q2.perm (List.Perm.swap ..))
  rw [ht] at r1
  have hfin : h2.mem h.next = some ⟨cap, 1, (entries h t).filter (fun e => e.has t.bs t.be)⟩ := by
    have hx1 : h1.mem a = some x := by rw [q6 a hne]; exact hx
    unfold Heap.release at r1
    simp only [hx1] at r1
    split at r1
    · cases r1; simp only [Heap.put, if_neg (Ne.symm hne)]; exact q5
    · cases r1; simp only [Heap.put, if_neg (Ne.symm hne)]; exact q5
  refine ⟨h2, _, ?_, r2, ?_, ?_, rfl, rfl, h.next, rfl, hfin, rfl⟩
  · unfold reallocate
    rw [if_pos hc]
    simp only [← e0, q1, r1]
  · intro u hu
    rw [r3 u (List.mem_cons_of_mem _ hu), q3 u (List.mem_cons_of_mem _ hu)]
  · rw [r3 _ (List.mem_cons_self ..), q4]; simp

/-- What `PrepareToInsert` leaves. -/
structure Ready (h : Heap V) (t : TL) (R : List TL) (h' : Heap V) (t' : TL) : Prop where
  base : TBase h' (t' :: R)
  same : Same h h' R
  kept : Kept t.bs t.be (entries h t) (entries h' t')
  bs : t'.bs = t.bs
  be : t'.be = t.be

theorem prepare_ok {h : Heap V} {t : TL} {R : List TL} (b : TBase h (t :: R)) :
    ∃ h' t', prepare h t = some (h', t') ∧ Ready h t R h' t' ∧
      ∃ a x, t'.tia = some a ∧ h'.mem a = some x ∧ x.idx.length < x.cap ∧ t'.size = x.idx.length := by
  have hle := b.le t (List.mem_cons_self ..)
  cases ht : t.tia with
  | none =>
    have hs0 := b.null t (List.mem_cons_self ..) ht
    obtain ⟨h1, q1, q2, q3, q4, q5, q6⟩ := alloc_ok b (cap := 4) (l := []) (t := { t with tia := some h.next })
      (by omega) (by simp) rfl (by simp [hs0]) hle
    obtain ⟨h0, z1, z2, z3⟩ := drop_ok (q2.perm (List.Perm.swap ..))
    rw [ht] at z1; cases z1
    refine ⟨h1, { t with tia := some h.next }, ?_, ⟨z2, fun u hu => q3 u (List.mem_cons_of_mem _ hu), ?_, rfl, rfl⟩,
      h.next, _, rfl, q5, by simp, by simpa using hs0⟩
    · unfold prepare
      simp only [ht, q1, q5]
      rw [if_pos (by simp [hs0])]
    · rw [q4, entries_none ht]; simp [Kept]
  | some a =>
    obtain ⟨x, hx, hxl⟩ := b.held t (List.mem_cons_self ..) a ht
    have hb := b.refs a x hx
    have e0 := entries_some ht hx
    have e1 : (entries h t).length ≤ x.idx.length := by rw [e0]; simp; omega
    have hfl := List.length_filter_le (fun e : Idx V => e.has t.bs t.be) (entries h t)
    have fin : ∀ {cap : Nat}, x.cap ≤ cap → ((entries h t).filter fun e => e.has t.bs t.be).length < cap →
        ∃ h' t', reallocate h t a x cap = some (h', t') ∧ Ready h t R h' t' ∧
          ∃ a x, t'.tia = some a ∧ h'.mem a = some x ∧ x.idx.length < x.cap ∧ t'.size = x.idx.length := by
      intro cap hc hlt
      obtain ⟨h', t', r1, r2, r3, r4, r5, r6, n, r7, r8, r9⟩ := realloc_ok b ht hx hc
      exact ⟨h', t', r1, ⟨r2, r3, by rw [r4]; exact kept_filter .., r5, r6⟩, n, _, r7, r8, hlt, r9⟩
    by_cases h1 : x.ref = 1
    · obtain ⟨c1, c2, c3, c4, c5⟩ := compact_ok b ht hx h1
      by_cases hfull : ((entries h t).filter fun e => e.has t.bs t.be).length = x.cap
      · have ht2 : (compact h t a x).2.tia = some a := by rw [c5]; exact ht
        obtain ⟨h', t', r1, r2, r3, r4, r5, r6, n, r7, r8, r9⟩ := realloc_ok c1 ht2 c4
          (cap := x.cap * 2) (by simp only []; omega)
        have hbs : (compact h t a x).2.bs = t.bs := by rw [c5]
        have hbe : (compact h t a x).2.be = t.be := by rw [c5]
        rw [hbs, hbe, c3] at r4 r8 r9
        simp only [List.filter_filter, Bool.and_self] at r4 r8 r9
        refine ⟨h', t', ?_, ⟨r2, c2.trans r3, by rw [r4]; exact kept_filter .., r5.trans hbs, r6.trans hbe⟩, n, _, r7, r8,
          by simp only []; omega, r9⟩
        unfold prepare
        simp only [ht, hx, if_pos h1, c4, if_pos hfull, r1, r7, r8]
        rw [if_pos ⟨by omega, r9⟩]
      · have ht2 : (compact h t a x).2.tia = some a := by rw [c5]; exact ht
        have hsz : (compact h t a x).2.size = ((entries h t).filter fun e => e.has t.bs t.be).length := by rw [c5]
        refine ⟨_, _, ?_, ⟨c1, c2, by rw [c3]; exact kept_filter .., by rw [c5], by rw [c5]⟩, a, _, ht2, c4,
          by simp only []; omega, hsz⟩
        unfold prepare
        simp only [ht, hx, if_pos h1, c4, if_neg hfull, ht2]
        rw [if_pos ⟨by omega, hsz⟩]
    · by_cases hfull : x.idx.length = x.cap
      · obtain ⟨h', t', r1, r2, n, y, r3, r4, r5, r6⟩ := fin (cap := x.cap * 2) (by omega) (by omega)
        refine ⟨h', t', ?_, r2, n, y, r3, r4, r5, r6⟩
        unfold prepare
        simp only [ht, hx, if_neg h1, if_pos hfull, r1, r3, r4]
        rw [if_pos ⟨r5, r6⟩]
      · by_cases hsz : t.size = x.idx.length
        · refine ⟨h, t, ?_, ⟨b, Same.refl _ _, Kept.refl .., rfl, rfl⟩, a, x, ht, hx, by omega, hsz⟩
          unfold prepare
          simp only [ht, hx, if_neg h1, if_neg hfull, if_pos hsz]
          rw [if_pos ⟨by omega, hsz⟩]
        · obtain ⟨h', t', r1, r2, n, y, r3, r4, r5, r6⟩ := fin (cap := x.cap) (by omega) (by omega)
          refine ⟨h', t', ?_, r2, n, y, r3, r4, r5, r6⟩
          unfold prepare
          simp only [ht, hx, if_neg h1, if_neg hfull, if_neg hsz, r1, r3, r4]
          rw [if_pos ⟨r5, r6⟩]

theorem append_ok {h : Heap V} {t : TL} {R : List TL} (b : TBase h (t :: R)) (e : Idx V) :
    ∃ h' t' l, append h t e = some (h', t') ∧ TBase h' (t' :: R) ∧ Same h h' R ∧ t'.bs = t.bs ∧ t'.be = t.be ∧
      Kept t.bs t.be (entries h t) l ∧ entries h' t' = l ++ [e] := by
  obtain ⟨h1, t1, p1, p2, a, x, p3, p4, p5, p6⟩ := prepare_ok b
  obtain ⟨q1, q2, q3⟩ := append_set p2.base p3 p4 p5 p6 e
  refine ⟨_, _, entries h1 t1, ?_, q1, p2.same.trans q2, p2.bs, p2.be, p2.kept, q3⟩
  unfold append
  simp only [p1, p3, p4]

theorem expand_ok {h : Heap V} {t : TL} {R : List TL} (b : TBase h (t :: R)) (m n : Nat) :
    ∃ h' t', expand h t m n = some (h', t') ∧ TBase h' (t' :: R) ∧ Same h h' R ∧ t'.bs = t.bs - m ∧
      t'.be = t.be + n ∧ Kept t.bs t.be (entries h t) (entries h' t') ∧
      ∀ e ∈ entries h' t', e.has t'.bs t'.be = true → e.has t.bs t.be = true := by
  have hle := b.le t (List.mem_cons_self ..)
  cases ht : t.tia with
  | none =>
    refine ⟨h, { t with bs := t.bs - m, be := t.be + n }, ?_, move_ok b rfl (Nat.le_refl _) (by simp only []; omega),
      Same.refl _ _, rfl, rfl, ?_, ?_⟩
    · unfold expand; simp only [ht]
    · rw [entries_none ht, entries_none (by exact ht)]; exact Kept.refl ..
    · rw [entries_none (by exact ht)]; simp
  | some a =>
    obtain ⟨x, hx, hxl⟩ := b.held t (List.mem_cons_self ..) a ht
    have e0 := entries_some ht hx
    by_cases h1 : x.ref = 1
    · obtain ⟨c1, c2, c3, c4, c5⟩ := compact_ok b ht hx h1
      have hbs : (compact h t a x).2.bs = t.bs := by rw [c5]
      have hbe : (compact h t a x).2.be = t.be := by rw [c5]
      have e2 : entries (compact h t a x).1 { (compact h t a x).2 with bs := (compact h t a x).2.bs - m, be := (compact h t a x).2.be + n } =
          entries (compact h t a x).1 (compact h t a x).2 := rfl
      refine ⟨(compact h t a x).1, { (compact h t a x).2 with bs := (compact h t a x).2.bs - m, be := (compact h t a x).2.be + n },
        ?_, move_ok c1 rfl (Nat.le_refl _) (by simp only []; omega), c2, by simp only [hbs], by simp only [hbe], ?_, ?_⟩
      · unfold expand; simp only [ht, hx, if_pos h1]
      · rw [e2, c3]; exact kept_filter ..
      · rw [e2, c3]; intro e he _; exact (List.mem_filter.mp he).2
    · have hpre := trim_prefix (fun e : Idx V => e.has t.bs t.be) (entries h t)
      have hk := kept_trim t.bs t.be (entries h t)
      rw [e0] at hpre hk
      have hlen := hpre.length_le
      rw [List.length_take] at hlen
      have b1 : TBase h ({ t with size := (trim (fun e : Idx V => e.has t.bs t.be) (x.idx.take t.size)).length } :: R) :=
        move_ok b rfl (by simp only []; omega) hle
      have hent : entries h { t with size := (trim (fun e : Idx V => e.has t.bs t.be) (x.idx.take t.size)).length } =
          trim (fun e : Idx V => e.has t.bs t.be) (x.idx.take t.size) := by
        rw [entries_some (t := { t with size := (trim (fun e : Idx V => e.has t.bs t.be) (x.idx.take t.size)).length }) ht hx]
        have h3 := List.prefix_iff_eq_take.mp (hpre.trans (List.take_prefix ..))
        exact h3.symm
      by_cases hd : (trim (fun e : Idx V => e.has t.bs t.be) (x.idx.take t.size)).any
          (fun e => !e.has t.bs t.be && e.has (t.bs - m) (t.be + n)) = true
      · obtain ⟨h', t', r1, r2, r3, r4, r5, r6, _⟩ := realloc_ok b1 (a := a) ht hx (Nat.le_refl _)
        rw [hent] at r4
        simp only [ht] at r1
        have r5' : t'.bs = t.bs := r5
        have r6' : t'.be = t.be := r6
        have e2 : entries h' { t' with bs := t'.bs - m, be := t'.be + n } = entries h' t' := rfl
        refine ⟨h', { t' with bs := t'.bs - m, be := t'.be + n }, ?_, move_ok r2 rfl (Nat.le_refl _) (by simp only []; omega), r3,
          by simp only [r5'], by simp only [r6'], ?_, ?_⟩
        · unfold expand; simp only [ht, hx, if_neg h1, if_pos hd, r1]
        · rw [e2, r4, e0]; exact hk.trans (kept_filter ..)
        · rw [e2, r4]; intro e he _; exact (List.mem_filter.mp he).2
      · refine ⟨h, { t with size := (trim (fun e : Idx V => e.has t.bs t.be) (x.idx.take t.size)).length, bs := t.bs - m, be := t.be + n },
          ?_, move_ok b1 rfl (Nat.le_refl _) (by simp only []; omega), Same.refl _ _, rfl, rfl, ?_, ?_⟩
        · unfold expand; simp only [ht, hx, if_neg h1, if_neg hd]
        · have e2 : entries h { t with size := (trim (fun e : Idx V => e.has t.bs t.be) (x.idx.take t.size)).length, bs := t.bs - m, be := t.be + n } =
            trim (fun e : Idx V => e.has t.bs t.be) (x.idx.take t.size) := hent
          rw [e2, e0]; exact hk
        · have e2 : entries h { t with size := (trim (fun e : Idx V => e.has t.bs t.be) (x.idx.take t.size)).length, bs := t.bs - m, be := t.be + n } =
            trim (fun e : Idx V => e.has t.bs t.be) (x.idx.take t.size) := hent
          rw [e2]
          intro e he hh
          cases hc : e.has t.bs t.be with
          | true => rfl
          | false =>
            refine absurd (List.any_eq_true.mpr ⟨e, he, ?_⟩) hd
            simp only [hc, Bool.not_false, Bool.true_and]; exact hh

theorem lookup_append (l l' : List (Idx V)) (id : Nat) (p : Int) :
    lookup (l ++ l') id p = (lookup l id p).or (lookup l' id p) := by
  unfold lookup
  rw [List.find?_append]
  cases List.find? (fun e : Idx V => decide (e.id = id) && e.covers p) l <;> simp

theorem lookup_one (e : Idx V) (id : Nat) (p : Int) :
    lookup [e] id p = if e.id = id ∧ e.covers p = true then some e.val else none := by
  unfold lookup
  by_cases h : e.id = id ∧ e.covers p = true
  · rw [if_pos h]; simp [List.find?_cons, h.1, h.2]
  · rw [if_neg h]
    have : (decide (e.id = id) && e.covers p) = false := by
      cases hc : (decide (e.id = id) && e.covers p) with
      | false => rfl
      | true => exact absurd (by simpa using hc) h
    simp [List.find?_cons, this]

theorem lookup_mem {l : List (Idx V)} {id : Nat} {p : Int} {v : V} (h : lookup l id p = some v) :
    ∃ e ∈ l, e.id = id ∧ e.covers p = true ∧ e.val = v := by
  unfold lookup at h
  cases hf : l.find? (fun e : Idx V => decide (e.id = id) && e.covers p) with
  | none => rw [hf] at h; cases h
  | some e =>
    rw [hf] at h; cases h
    have := List.find?_some hf
    simp only [Bool.and_eq_true, decide_eq_true_eq] at this
    exact ⟨e, List.mem_of_find?_eq_some hf, this.1, this.2, rfl⟩

theorem lookup_isSome {l : List (Idx V)} {e : Idx V} {p : Int} (he : e ∈ l) (hc : e.covers p = true) :
    (lookup l e.id p).isSome := by
  unfold lookup
  cases hf : l.find? (fun e' : Idx V => decide (e'.id = e.id) && e'.covers p) with
  | some e => rfl
  | none =>
    have := List.find?_eq_none.mp hf e he
    simp [hc] at this

/-- What pouring more elements into a list does to what is found. -/
structure Poured (h : Heap V) (t : TL) (R : List TL) (l : List (Idx V)) (h' : Heap V) (t' : TL) : Prop where
  base : TBase h' (t' :: R)
  same : Same h h' R
  bs : t'.bs = t.bs
  be : t'.be = t.be
  found : ∀ id p, t.bs ≤ p → p < t.be →
    lookup (entries h' t') id p = (lookup (entries h t) id p).or (lookup l id p)
  from_ : ∀ e ∈ entries h' t', e ∈ entries h t ∨ (e ∈ l ∧ e.has t.bs t.be = true)

theorem insertTag_ok {h : Heap V} {t : TL} {R : List TL} (b : TBase h (t :: R)) (e : Idx V) :
    ∃ h' t', insertTag h t e = some (h', t') ∧ Poured h t R [e] h' t' := by
  by_cases hc : (!hasTag (entries h t) e.id e.st e.en && e.has t.bs t.be) = true
  · obtain ⟨h', t', l, a1, a2, a3, a4, a5, a6, a7⟩ := append_ok b e
    refine ⟨h', t', by unfold insertTag; rw [if_pos hc, a1], a2, a3, a4, a5, ?_, ?_⟩
    · intro id p h1 h2
      rw [a7, lookup_append, a6.lookup h1 h2]
    · intro e' he'
      rw [a7] at he'
      rcases List.mem_append.mp he' with h1 | h1
      · exact Or.inl (a6.2 _ h1)
      · have h2 := List.mem_singleton.mp h1
        simp only [Bool.and_eq_true] at hc
        exact Or.inr ⟨h1, by rw [h2]; exact hc.2⟩
  · refine ⟨h, t, by unfold insertTag; rw [if_neg hc], b, Same.refl _ _, rfl, rfl, ?_, fun e he => Or.inl he⟩
    intro id p h1 h2
    rw [lookup_one]
    by_cases hh : e.id = id ∧ e.covers p = true
    · rw [if_pos hh]
      have h3 := covers_has hh.2 h1 h2
      have h4 : hasTag (entries h t) e.id e.st e.en = true := by
        cases hq : hasTag (entries h t) e.id e.st e.en with
        | true => rfl
        | false => simp [hq, h3] at hc
      unfold hasTag at h4
      obtain ⟨e', he', h5⟩ := List.any_eq_true.mp h4
      simp only [Bool.and_eq_true, decide_eq_true_eq] at h5
      have h6 : e'.covers p = true := by
        have := hh.2
        unfold Idx.covers at this ⊢
        rw [h5.2.1, h5.2.2]; exact this
      have h7 := lookup_isSome he' h6
      rw [h5.1, hh.1] at h7
      obtain ⟨v, hv⟩ := Option.isSome_iff_exists.mp h7
      rw [hv]; rfl
    · rw [if_neg hh]; simp

theorem pour_ok {h : Heap V} {t r : TL} {R : List TL} (b : TBase h (t :: R)) (hr : r ∈ R) (d : Int)
    (n k : Nat) (hk : k + n ≤ (entries h r).length) :
    ∃ h' t', pour h t r d n k = some (h', t') ∧
      Poured h t R ((((entries h r).drop k).take n).map fun e => ⟨e.id, e.val, e.st + d, e.en + d⟩) h' t' := by
  induction n generalizing h t k with
  | zero =>
    refine ⟨h, t, rfl, b, Same.refl _ _, rfl, rfl, ?_, fun e he => Or.inl he⟩
    intro id p _ _; simp [lookup]
  | succ n ih =>
    have hlt : k < (entries h r).length := by omega
    have hget : (entries h r)[k]? = some (entries h r)[k] := List.getElem?_eq_getElem hlt
    obtain ⟨h1, t1, i1, i2⟩ := insertTag_ok b ⟨(entries h r)[k].id, (entries h r)[k].val, (entries h r)[k].st + d, (entries h r)[k].en + d⟩
    have hsame : entries h1 r = entries h r := i2.same r hr
    obtain ⟨h2, t2, j1, j2⟩ := ih i2.base (k + 1) (by rw [hsame]; omega)
    rw [hsame] at j2
    refine ⟨h2, t2, ?_, j2.base, i2.same.trans j2.same, j2.bs.trans i2.bs, j2.be.trans i2.be, ?_, ?_⟩
    · simp only [pour, hget, i1, j1]
    · intro id p q1 q2
      rw [j2.found id p (by rw [i2.bs]; exact q1) (by rw [i2.be]; exact q2), i2.found id p q1 q2]
      have e1 : (entries h r).drop k = (entries h r)[k] :: (entries h r).drop (k + 1) := List.drop_eq_getElem_cons hlt
      rw [e1, List.take_succ_cons, List.map_cons]
      have e2 : ∀ (x : Idx V) l, lookup (x :: l) id p = (lookup [x] id p).or (lookup l id p) :=
        fun x l => lookup_append [x] l id p
      rw [Option.or_assoc, ← e2]
    · intro e he
      have e1 : (entries h r).drop k = (entries h r)[k] :: (entries h r).drop (k + 1) := List.drop_eq_getElem_cons hlt
      rw [e1, List.take_succ_cons, List.map_cons]
      rcases j2.from_ e he with h1 | h1
      · rcases i2.from_ e h1 with h2 | h2
        · exact Or.inl h2
        · exact Or.inr ⟨List.mem_cons.mpr (Or.inl (List.mem_singleton.mp h2.1)), h2.2⟩
      · refine Or.inr ⟨List.mem_cons_of_mem _ h1.1, ?_⟩
        have := h1.2; rw [i2.bs, i2.be] at this; exact this

end Verif.Tag
