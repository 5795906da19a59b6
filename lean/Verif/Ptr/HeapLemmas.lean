import Verif.Ptr.Heap
import Mathlib.Logic.Relation
import Mathlib.Data.Fintype.Pigeonhole
/-! Lemmas about objects with reference counts, for properties C158, C161 and C166. -/
namespace Verif.Heap

variable {κ ρ : Type}

/-! ### Counting -/

/-- References to an object from existing objects. -/
def cnt (cells : List (Option (Obj κ ρ))) (c : Nat) : Nat := (cells.map fun x => (refsOf x).count c).sum

/-- The count of an object. -/
def rcOf (cells : List (Option (Obj κ ρ))) (c : Nat) : Nat :=
  match cells[c]? with
  | some (some x) => x.rc
  | _ => 0

/-- Every object counts the references to it, `R` of them from outside. -/
structure RInv (cells : List (Option (Obj κ ρ))) (R : Nat → Nat) : Prop where
  eq : ∀ c, rcOf cells c = R c + cnt cells c
  pos : ∀ (c : Nat) (x : Obj κ ρ), cells[c]? = some (some x) → 0 < x.rc

theorem sum_set {α : Type} (f : α → Nat) : ∀ {l : List α} {i : Nat} {x y : α}, l[i]? = some x →
    ((l.set i y).map f).sum + f x = (l.map f).sum + f y
  | [], i, x, y, h => by simp at h
  | a :: t, 0, x, y, h => by
    simp at h; subst h
    simp only [List.set_cons_zero, List.map_cons, List.sum_cons]; omega
  | a :: t, i + 1, x, y, h => by
    simp at h
    have := sum_set f (y := y) h
    simp only [List.set_cons_succ, List.map_cons, List.sum_cons]; omega

theorem cnt_set {cells : List (Option (Obj κ ρ))} {i : Nat} {x y : Option (Obj κ ρ)} (h : cells[i]? = some x) (c : Nat) :
    cnt (cells.set i y) c + (refsOf x).count c = cnt cells c + (refsOf y).count c :=
  sum_set (fun x => (refsOf x).count c) h

theorem total_set {cells : List (Option (Obj κ ρ))} {i : Nat} {x y : Option (Obj κ ρ)} (h : cells[i]? = some x) :
    total (cells.set i y) + (refsOf x).length = total cells + (refsOf y).length :=
  sum_set (fun x => (refsOf x).length) h

theorem lt_of_get {α : Type} {l : List α} {i : Nat} {x : α} (h : l[i]? = some x) : i < l.length := by
  rcases Nat.lt_or_ge i l.length with g | g
  · exact g
  · rw [List.getElem?_eq_none g] at h; cases h

theorem get_set {α : Type} {l : List α} {i j : Nat} {x y : α} (h : l[i]? = some x) :
    (l.set i y)[j]? = if j = i then some y else l[j]? := by
  have := lt_of_get h
  by_cases e : j = i
  · subst e; simp [this]
  · rw [if_neg e, List.getElem?_set_ne (Ne.symm e)]

theorem rcOf_set {cells : List (Option (Obj κ ρ))} {i : Nat} {x : Option (Obj κ ρ)} {y : Option (Obj κ ρ)} (h : cells[i]? = some x) (c : Nat) :
    rcOf (cells.set i y) c = if c = i then (match y with | some y => y.rc | none => 0) else rcOf cells c := by
  unfold rcOf
  rw [get_set h]
  by_cases e : c = i
  · simp only [e, if_true]; cases y <;> rfl
  · simp only [e, if_false]

theorem kindAt_set {cells : List (Option (Obj κ ρ))} {i : Nat} {x : Option (Obj κ ρ)} {y : Option (Obj κ ρ)} (h : cells[i]? = some x) (c : Nat) :
    kindAt (cells.set i y) c = if c = i then y.map Obj.kind else kindAt cells c := by
  unfold kindAt
  rw [get_set h]
  by_cases e : c = i
  · simp only [e, if_true]; cases y <;> rfl
  · simp only [e, if_false]

theorem refsAt_set {cells : List (Option (Obj κ ρ))} {i : Nat} {x : Option (Obj κ ρ)} {y : Option (Obj κ ρ)} (h : cells[i]? = some x) (c : Nat) :
    refsAt (cells.set i y) c = if c = i then (match y with | some y => y.refs | none => []) else refsAt cells c := by
  unfold refsAt
  rw [get_set h]
  by_cases e : c = i
  · simp only [e, if_true]; cases y <;> rfl
  · simp only [e, if_false]

theorem rcOf_some {cells : List (Option (Obj κ ρ))} {c : Nat} {x : Obj κ ρ} (h : cells[c]? = some (some x)) : rcOf cells c = x.rc := by
  unfold rcOf; rw [h]

theorem kindAt_some {cells : List (Option (Obj κ ρ))} {c : Nat} {x : Obj κ ρ} (h : cells[c]? = some (some x)) : kindAt cells c = some x.kind := by
  unfold kindAt; rw [h]

theorem refsAt_some {cells : List (Option (Obj κ ρ))} {c : Nat} {x : Obj κ ρ} (h : cells[c]? = some (some x)) : refsAt cells c = x.refs := by
  unfold refsAt; rw [h]

theorem alive_of_rc {cells : List (Option (Obj κ ρ))} {c : Nat} (h : 0 < rcOf cells c) : ∃ x, cells[c]? = some (some x) := by
  unfold rcOf at h
  split at h
  · rename_i x e; exact ⟨x, e⟩
  · omega

theorem alive_of_kind {cells : List (Option (Obj κ ρ))} {c : Nat} {k : κ} (h : kindAt cells c = some k) : ∃ x, cells[c]? = some (some x) := by
  unfold kindAt at h
  split at h
  · rename_i x e; exact ⟨x, e⟩
  · cases h

theorem alive_of_ref {cells : List (Option (Obj κ ρ))} {c : Nat} {e : ρ × Nat} (h : e ∈ refsAt cells c) : ∃ x, cells[c]? = some (some x) := by
  unfold refsAt at h
  split at h
  · rename_i x e; exact ⟨x, e⟩
  · cases h

theorem cnt_pos {cells : List (Option (Obj κ ρ))} {c d : Nat} {r : ρ} (h : (r, d) ∈ refsAt cells c) : 0 < cnt cells d := by
  obtain ⟨x, hx⟩ := alive_of_ref h
  rw [refsAt_some hx] at h
  have := cnt_set (y := none) hx d
  have hnone : (refsOf (none : Option (Obj κ ρ))).count d = 0 := rfl
  have : 0 < (refsOf (some x)).count d := List.count_pos_iff.mpr (List.mem_map.mpr ⟨_, h, rfl⟩)
  omega

theorem cnt_mem {d : Nat} : ∀ {cells : List (Option (Obj κ ρ))}, 0 < cnt cells d →
    ∃ (c : Nat) (x : Obj κ ρ), cells[c]? = some (some x) ∧ d ∈ x.refs.map Prod.snd
  | [], h => by simp [cnt] at h
  | a :: t, h => by
    by_cases e : 0 < (refsOf a).count d
    · cases a with
      | none => simp [refsOf] at e
      | some x => exact ⟨0, x, rfl, List.count_pos_iff.mp e⟩
    · have : 0 < cnt t d := by
        unfold cnt at h ⊢; simp only [List.map_cons, List.sum_cons] at h; omega
      obtain ⟨c, x, hc, hd⟩ := cnt_mem this
      exact ⟨c + 1, x, by simpa using hc, hd⟩

/-! ### Counting up -/

/-- Nothing changes but the counts, and objects may die. -/
structure Fewer (a b : List (Option (Obj κ ρ))) : Prop where
  len : b.length = a.length
  keep : ∀ (c : Nat) (y : Obj κ ρ), b[c]? = some (some y) → ∃ x, a[c]? = some (some x) ∧ x.kind = y.kind ∧ x.refs = y.refs

theorem Fewer.refl (a : List (Option (Obj κ ρ))) : Fewer a a := ⟨rfl, fun _ y h => ⟨y, h, rfl, rfl⟩⟩

theorem Fewer.trans {a b c : List (Option (Obj κ ρ))} (h : Fewer a b) (g : Fewer b c) : Fewer a c := by
  refine ⟨g.len.trans h.len, fun i z hz => ?_⟩
  obtain ⟨y, hy, e1, e2⟩ := g.keep i z hz
  obtain ⟨x, hx, f1, f2⟩ := h.keep i y hy
  exact ⟨x, hx, f1.trans e1, f2.trans e2⟩

theorem fewer_set {a : List (Option (Obj κ ρ))} {c : Nat} {x : Obj κ ρ} {y : Option (Obj κ ρ)} (h : a[c]? = some (some x))
    (e : ∀ z, y = some z → x.kind = z.kind ∧ x.refs = z.refs) : Fewer a (a.set c y) := by
  refine ⟨by simp, fun i z hz => ?_⟩
  rw [get_set h] at hz
  by_cases g : i = c
  · subst g
    simp only [if_true, Option.some.injEq] at hz
    exact ⟨x, h, e z hz⟩
  · rw [if_neg g] at hz
    exact ⟨z, hz, rfl, rfl⟩

theorem addRef_ok {cells : List (Option (Obj κ ρ))} {R : Nat → Nat} {c : Nat} (hI : RInv cells R) (h : ∃ x, cells[c]? = some (some x)) :
    ∃ cells', addRef cells c = some cells' ∧ RInv cells' (fun d => R d + if d = c then 1 else 0) ∧ cells'.length = cells.length ∧
      (∀ d, kindAt cells' d = kindAt cells d) ∧ ∀ d, refsAt cells' d = refsAt cells d := by
  obtain ⟨x, hx⟩ := h
  refine ⟨_, by unfold addRef; rw [hx], ⟨fun d => ?_, fun d y hy => ?_⟩, by simp, fun d => ?_, fun d => ?_⟩
  · have h1 := hI.eq d
    have h2 := cnt_set (y := some { x with rc := x.rc + 1 }) hx d
    have h3 : refsOf (some { x with rc := x.rc + 1 }) = refsOf (some x) := rfl
    rw [h3] at h2
    rw [rcOf_set hx]
    by_cases e : d = c
    · subst e
      have h4 := rcOf_some hx
      simp only [if_true]; omega
    · simp only [e, if_false]; omega
  · rw [get_set hx] at hy
    by_cases e : d = c
    · simp only [e, if_true, Option.some.injEq] at hy
      subst hy; show 0 < x.rc + 1; omega
    · rw [if_neg e] at hy; exact hI.pos d y hy
  · rw [kindAt_set hx]
    by_cases e : d = c
    · subst e; simp [kindAt_some hx]
    · simp [e]
  · rw [refsAt_set hx]
    by_cases e : d = c
    · subst e; simp [refsAt_some hx]
    · simp [e]

/-! ### Counting down -/

/-- Each object of a set is referred to by an object of the set. -/
def Closed (cells : List (Option (Obj κ ρ))) (S : Nat → Prop) : Prop := ∀ d, S d → ∃ c r, S c ∧ (r, d) ∈ refsAt cells c

theorem drain_ok : ∀ (n : Nat) {w : List Nat} {cells : List (Option (Obj κ ρ))} {R : Nat → Nat},
    RInv cells (fun d => R d + w.count d) → w.length + total cells ≤ n →
    ∃ cells', drain n w cells = some cells' ∧ RInv cells' R ∧ Fewer cells cells' ∧
      ∀ S, Closed cells S → Closed cells' S
  | n, [], cells, R, hI, _ => by
    refine ⟨cells, by unfold drain; rfl, by simpa using hI, Fewer.refl _, fun S h => h⟩
  | 0, _ :: _, cells, R, hI, h => by simp at h
  | n + 1, c :: w, cells, R, hI, h => by
    have hc : 0 < rcOf cells c := by
      have := hI.eq c
      rw [List.count_cons] at this
      simp only [beq_self_eq_true, if_true] at this
      omega
    obtain ⟨x, hx⟩ := alive_of_rc hc
    have hr := rcOf_some hx
    have hlen : (c :: w).length = w.length + 1 := rfl
    by_cases g : x.rc ≤ 1
    · have ht := total_set (y := none) hx
      have hnone : refsOf (none : Option (Obj κ ρ)) = [] := rfl
      rw [hnone] at ht
      have hI' : RInv (cells.set c none) (fun d => R d + (refsOf (some x) ++ w).count d) := by
        refine ⟨fun d => ?_, fun d y hy => ?_⟩
        · have h1 := hI.eq d
          have h2 := cnt_set (y := none) hx d
          rw [hnone] at h2
          rw [rcOf_set hx, List.count_append]
          rw [List.count_cons] at h1
          have e0 : List.count d ([] : List Nat) = 0 := rfl
          by_cases e : d = c
          · subst e
            simp only [beq_self_eq_true, if_true] at h1
            simp only [if_true]
            omega
          · have e' : ¬ (c = d) := fun h => e h.symm
            simp only [beq_iff_eq, e', if_false] at h1
            simp only [e, if_false]
            omega
        · rw [get_set hx] at hy
          by_cases e : d = c
          · simp [e] at hy
          · rw [if_neg e] at hy; exact hI.pos d y hy
      obtain ⟨c2, e2, i2, f2, s2⟩ := drain_ok n hI' (by rw [List.length_append]; simp at ht; omega)
      refine ⟨c2, ?_, i2, (fewer_set (y := none) hx (fun z hz => by cases hz)).trans f2, fun S hS => s2 S ?_⟩
      · unfold drain
        rw [hx]
        simp only [g, if_true, e2]
      · intro d hd
        obtain ⟨b, r, hb, hm⟩ := hS d hd
        refine ⟨b, r, hb, ?_⟩
        rw [refsAt_set hx]
        by_cases e : b = c
        · exfalso
          subst e
          obtain ⟨b2, r2, hb2, hm2⟩ := hS b hb
          have h1 := cnt_pos hm2
          have h2 := hI.eq b
          rw [List.count_cons] at h2
          simp only [beq_self_eq_true, if_true] at h2
          omega
        · rw [if_neg e]; exact hm
    · have ht := total_set (y := some { x with rc := x.rc - 1 }) hx
      have hsame : refsOf (some { x with rc := x.rc - 1 }) = refsOf (some x) := rfl
      rw [hsame] at ht
      have hI' : RInv (cells.set c (some { x with rc := x.rc - 1 })) (fun d => R d + w.count d) := by
        refine ⟨fun d => ?_, fun d y hy => ?_⟩
        · have h1 := hI.eq d
          have h2 := cnt_set (y := some { x with rc := x.rc - 1 }) hx d
          rw [hsame] at h2
          rw [rcOf_set hx]
          rw [List.count_cons] at h1
          by_cases e : d = c
          · subst e
            simp only [beq_self_eq_true, if_true] at h1
            simp only [if_true]
            omega
          · have e' : ¬ (c = d) := fun h => e h.symm
            simp only [beq_iff_eq, e', if_false] at h1
            simp only [e, if_false]
            omega
        · rw [get_set hx] at hy
          by_cases e : d = c
          · simp only [e, if_true, Option.some.injEq] at hy
            subst hy; show 0 < x.rc - 1; omega
          · rw [if_neg e] at hy; exact hI.pos d y hy
      obtain ⟨c2, e2, i2, f2, s2⟩ := drain_ok n hI' (by omega)
      refine ⟨c2, ?_, i2, (fewer_set hx (fun z hz => by injection hz with hz; subst hz; exact ⟨rfl, rfl⟩)).trans f2, fun S hS => s2 S ?_⟩
      · unfold drain
        rw [hx]
        simp only [g, if_false, e2]
      · intro d hd
        obtain ⟨b, r, hb, hm⟩ := hS d hd
        refine ⟨b, r, hb, ?_⟩
        rw [refsAt_set hx]
        by_cases e : b = c
        · subst e; rw [if_pos rfl]; rwa [refsAt_some hx] at hm
        · rw [if_neg e]; exact hm

theorem release_ok {c : Nat} {cells : List (Option (Obj κ ρ))} {R : Nat → Nat}
    (hI : RInv cells (fun d => R d + if d = c then 1 else 0)) :
    ∃ cells', release c cells = some cells' ∧ RInv cells' R ∧ Fewer cells cells' ∧ ∀ S, Closed cells S → Closed cells' S := by
  have : RInv cells (fun d => R d + [c].count d) := by
    refine ⟨fun d => ?_, hI.pos⟩
    have := hI.eq d
    rw [List.count_singleton]
    by_cases e : d = c
    · subst e; simpa using this
    · have e2 : ¬ (c = d) := fun h => e h.symm
      simp only [e, if_false] at this
      simp only [beq_iff_eq, e2, if_false]; exact this
  exact drain_ok (1 + total cells) this (by simp)

/-! ### Setting and clearing members -/

theorem link_ok {cells : List (Option (Obj κ ρ))} {R : Nat → Nat} {c d : Nat} {r : ρ} (hI : RInv cells R)
    (hc : ∃ x, cells[c]? = some (some x)) (hd : ∃ x, cells[d]? = some (some x)) :
    ∃ h, link c r d cells = some h ∧ RInv h R ∧ h.length = cells.length ∧ (∀ e, kindAt h e = kindAt cells e) ∧
      ∀ e, refsAt h e = if e = c then refsAt cells e ++ [(r, d)] else refsAt cells e := by
  obtain ⟨h1, e1, i1, l1, k1, r1⟩ := addRef_ok hI hd
  obtain ⟨x0, hx0⟩ := hc
  obtain ⟨x, hx⟩ := alive_of_kind ((k1 c).trans (kindAt_some hx0))
  refine ⟨h1.set c (some { x with refs := x.refs ++ [(r, d)] }), by unfold link; rw [e1]; simp only [hx], ⟨fun e => ?_, fun e y hy => ?_⟩, by simp [l1], fun e => ?_, fun e => ?_⟩
  · have a1 := i1.eq e
    have a2 := cnt_set (y := some { x with refs := x.refs ++ [(r, d)] }) hx e
    have a3 : refsOf (some { x with refs := x.refs ++ [(r, d)] }) = refsOf (some x) ++ [d] := by simp [refsOf]
    rw [a3, List.count_append, List.count_singleton] at a2
    have a4 := rcOf_some hx
    rw [rcOf_set hx]
    by_cases g : e = d
    · subst g
      simp only [beq_self_eq_true, if_true] at a1 a2
      by_cases f : e = c
      · subst f; simp only [if_true]; omega
      · simp only [f, if_false]; omega
    · have g' : ¬ (d = e) := fun h => g h.symm
      simp only [g, if_false, beq_iff_eq, g'] at a1 a2
      by_cases f : e = c
      · subst f; simp only [if_true]; omega
      · simp only [f, if_false]; omega
  · rw [get_set hx] at hy
    by_cases f : e = c
    · simp only [f, if_true, Option.some.injEq] at hy
      subst hy; exact i1.pos c x hx
    · rw [if_neg f] at hy; exact i1.pos e y hy
  · rw [kindAt_set hx]
    by_cases f : e = c
    · subst f; simp [← k1, kindAt_some hx]
    · simp [f, k1]
  · rw [refsAt_set hx]
    by_cases f : e = c
    · subst f; simp [← r1, refsAt_some hx]
    · simp [f, r1]

/-- What is left of the references of an object from which one was taken away, when objects may die. -/
structure Less (a b : List (Option (Obj κ ρ))) (c k : Nat) : Prop where
  len : b.length = a.length
  keep : ∀ (e : Nat) (y : Obj κ ρ), b[e]? = some (some y) → kindAt a e = some y.kind ∧
    y.refs = if e = c then (refsAt a e).eraseIdx k else refsAt a e

theorem unlink_ok {cells : List (Option (Obj κ ρ))} {R : Nat → Nat} {c k : Nat} (hI : RInv cells R) (hc : ∃ x, cells[c]? = some (some x)) :
    ∃ h, unlink c k cells = some h ∧ RInv h R ∧ Less cells h c k ∧
      ∀ S, (∀ d, S d → ∃ b r, S b ∧ (r, d) ∈ if b = c then (refsAt cells b).eraseIdx k else refsAt cells b) → Closed h S := by
  obtain ⟨x, hx⟩ := hc
  have hr := refsAt_some hx
  cases hk : x.refs[k]? with
  | none =>
    have hl : x.refs.eraseIdx k = x.refs := by
      apply List.eraseIdx_of_length_le
      exact List.getElem?_eq_none_iff.mp hk
    have same : ∀ e, (if e = c then (refsAt cells e).eraseIdx k else refsAt cells e) = refsAt cells e := by
      intro e
      by_cases f : e = c
      · subst f; rw [if_pos rfl, hr, hl]
      · rw [if_neg f]
    refine ⟨cells, by unfold unlink; rw [hx]; simp only [hk], hI, ⟨rfl, fun e y hy => ⟨kindAt_some hy, ?_⟩⟩, fun S hS d hd => ?_⟩
    · rw [same, refsAt_some hy]
    · obtain ⟨b, r, hb, hm⟩ := hS d hd
      rw [same] at hm
      exact ⟨b, r, hb, hm⟩
  | some e =>
    have hI' : RInv (cells.set c (some { x with refs := x.refs.eraseIdx k })) (fun d => R d + if d = e.2 then 1 else 0) := by
      refine ⟨fun d => ?_, fun d y hy => ?_⟩
      · have a1 := hI.eq d
        have a2 := cnt_set (y := some { x with refs := x.refs.eraseIdx k }) hx d
        have a3 : (refsOf (some { x with refs := x.refs.eraseIdx k })).count d + (if d = e.2 then 1 else 0) =
            (refsOf (some x)).count d := by
          have : ∀ (l : List (ρ × Nat)) (k : Nat), l[k]? = some e →
              ((l.eraseIdx k).map Prod.snd).count d + (if d = e.2 then 1 else 0) = (l.map Prod.snd).count d := by
            intro l
            induction l with
            | nil => intro k h; simp at h
            | cons a t ih =>
              intro k h
              cases k with
              | zero =>
                simp at h; subst h
                simp only [List.eraseIdx_cons_zero, List.map_cons, List.count_cons, beq_iff_eq]
                by_cases q : d = a.2
                · simp [q]
                · have q' : ¬ (a.2 = d) := fun h => q h.symm
                  simp [q, q']
              | succ k =>
                simp at h
                have := ih k h
                simp only [List.eraseIdx_cons_succ, List.map_cons, List.count_cons]
                omega
          exact this x.refs k hk
        have a4 := rcOf_some hx
        rw [rcOf_set hx]
        by_cases f : d = c
        · subst f; simp only [if_true]; omega
        · simp only [f, if_false]; omega
      · rw [get_set hx] at hy
        by_cases f : d = c
        · simp only [f, if_true, Option.some.injEq] at hy
          subst hy; exact hI.pos c x hx
        · rw [if_neg f] at hy; exact hI.pos d y hy
    obtain ⟨h, e1, i1, f1, s1⟩ := release_ok hI'
    refine ⟨h, by unfold unlink; rw [hx]; simp only [hk]; exact e1, i1, ⟨by rw [f1.len]; simp, fun b y hy => ?_⟩, fun S hS => s1 S ?_⟩
    · obtain ⟨z, hz, q1, q2⟩ := f1.keep b y hy
      have k1 := kindAt_some hz
      have r1 := refsAt_some hz
      rw [kindAt_set hx] at k1
      rw [refsAt_set hx] at r1
      by_cases f : b = c
      · subst f
        simp only [if_true, Option.map_some] at k1 r1 ⊢
        rw [kindAt_some hx, hr, ← q1, ← q2, ← r1]
        exact ⟨k1, rfl⟩
      · simp only [f, if_false] at k1 r1 ⊢
        rw [← q1, ← q2]
        exact ⟨k1, r1.symm⟩
    · intro d hd
      obtain ⟨b, r, hb, hm⟩ := hS d hd
      refine ⟨b, r, hb, ?_⟩
      rw [refsAt_set hx]
      by_cases f : b = c
      · subst f
        simp only [if_true] at hm ⊢
        rwa [hr] at hm
      · simp only [f, if_false] at hm ⊢; exact hm

theorem closed_alive {cells : List (Option (Obj κ ρ))} {R : Nat → Nat} {S : Nat → Prop} (hI : RInv cells R) (hC : Closed cells S) {d : Nat}
    (hd : S d) : ∃ x, cells[d]? = some (some x) := by
  obtain ⟨c, r, _, hm⟩ := hC d hd
  apply alive_of_rc
  have := cnt_pos hm
  have := hI.eq d
  omega

theorem mem_eraseIdx_of {α : Type} {l : List α} {k : Nat} {x : α} (h : x ∈ l) (hk : l[k]? ≠ some x) : x ∈ l.eraseIdx k := by
  induction l generalizing k with
  | nil => cases h
  | cons a t ih =>
    cases k with
    | zero =>
      simp at hk
      rcases List.mem_cons.mp h with e | e
      · exact absurd e.symm hk
      · simpa using e
    | succ k =>
      simp at hk
      rcases List.mem_cons.mp h with e | e
      · subst e; simp
      · simp only [List.eraseIdx_cons_succ, List.mem_cons]; exact .inr (ih e hk)

theorem count_eraseIdx {l : List Nat} {i c : Nat} (h : l[i]? = some c) (d : Nat) :
    l.count d = (l.eraseIdx i).count d + if d = c then 1 else 0 := by
  induction l generalizing i with
  | nil => simp at h
  | cons a t ih =>
    cases i with
    | zero =>
      simp at h; subst h
      simp only [List.eraseIdx_cons_zero, List.count_cons, beq_iff_eq]
      by_cases q : d = a
      · simp [q]
      · have q' : ¬ (a = d) := fun h => q h.symm
        simp [q, q']
    | succ i =>
      simp at h
      have := ih h
      simp only [List.eraseIdx_cons_succ, List.count_cons]
      omega

theorem getElem?_push {cells : List (Option (Obj κ ρ))} {x : Obj κ ρ} (e : Nat) :
    (cells ++ [some x])[e]? = if e = cells.length then some (some x) else cells[e]? := by
  by_cases h : e < cells.length
  · rw [List.getElem?_append_left h, if_neg (by omega)]
  · by_cases g : e = cells.length
    · subst g; simp
    · rw [if_neg g, List.getElem?_eq_none (by simp; omega), List.getElem?_eq_none (by omega)]

/-- A new object, and one reference to it from outside. -/
theorem push_ok {cells : List (Option (Obj κ ρ))} {R : Nat → Nat} {k : κ} (hI : RInv cells R) :
    RInv (cells ++ [some ⟨1, k, []⟩]) (fun c => R c + if c = cells.length then 1 else 0) ∧
      (∀ e, refsAt (cells ++ [some ⟨1, k, []⟩]) e = refsAt cells e) ∧
      ∀ e, kindAt (cells ++ [some ⟨1, k, []⟩]) e = if e = cells.length then some k else kindAt cells e := by
  refine ⟨⟨fun c => ?_, fun c x hx => ?_⟩, fun e => ?_, fun e => ?_⟩
  · have h1 := hI.eq c
    have h2 : cnt (cells ++ [some (⟨1, k, []⟩ : Obj κ ρ)]) c = cnt cells c := by simp [cnt, refsOf]
    have h3 : rcOf (cells ++ [some (⟨1, k, []⟩ : Obj κ ρ)]) c = if c = cells.length then 1 else rcOf cells c := by
      unfold rcOf
      rw [getElem?_push]
      by_cases g : c = cells.length
      · simp [g]
      · simp [g]
    rw [h2, h3]
    by_cases g : c = cells.length
    · have : rcOf cells c = 0 := by subst g; simp [rcOf]
      simp only [g, if_true] at *
      omega
    · simp only [g, if_false]; omega
  · rw [getElem?_push] at hx
    by_cases g : c = cells.length
    · rw [if_pos g] at hx; injection hx with hx; injection hx with hx; subst hx; exact Nat.one_pos
    · rw [if_neg g] at hx; exact hI.pos c x hx
  · unfold refsAt
    rw [getElem?_push]
    by_cases g : e = cells.length
    · subst g; simp
    · rw [if_neg g]
  · unfold kindAt
    rw [getElem?_push]
    by_cases g : e = cells.length
    · subst g; simp
    · rw [if_neg g, if_neg g]

/-- Going backwards among finitely many objects for ever leads to a cycle. -/
theorem cycle_of_back {n : Nat} {A : Nat → Prop} {E : Nat → Nat → Prop} (lt : ∀ c, A c → c < n) (bk : ∀ c, A c → ∃ b, A b ∧ E b c) {c : Nat}
    (hc : A c) : ∃ d, Relation.TransGen E d d ∧ Relation.ReflTransGen E d c := by
  have back : ∀ m : Nat, ∃ f : Nat → Nat, f 0 = c ∧ (∀ i, i < m → E (f (i + 1)) (f i)) ∧ ∀ i, i ≤ m → A (f i) := by
    intro m
    induction m with
    | zero => exact ⟨fun _ => c, rfl, fun i hi => absurd hi (Nat.not_lt_zero _), fun i _ => hc⟩
    | succ m ih =>
      obtain ⟨f, f0, f1, f2⟩ := ih
      obtain ⟨b, hb, hE⟩ := bk _ (f2 m (Nat.le_refl _))
      refine ⟨fun i => if i = m + 1 then b else f i, by simp [f0], fun i hi => ?_, fun i hi => ?_⟩
      · by_cases e : i = m
        · subst e; simpa using hE
        · simp only [show ¬ (i + 1 = m + 1) by omega, show ¬ (i = m + 1) by omega, if_false]
          exact f1 i (by omega)
      · by_cases e : i = m + 1
        · simp only [e, if_true]; exact hb
        · simp only [e, if_false]; exact f2 i (by omega)
  obtain ⟨f, f0, f1, f2⟩ := back n
  have path : ∀ m i : Nat, i + m ≤ n → Relation.ReflTransGen E (f (i + m)) (f i) := by
    intro m
    induction m with
    | zero => intro i _; exact .refl
    | succ m ih =>
      intro i hi
      exact Relation.ReflTransGen.head (f1 (i + m) (by omega)) (ih i (by omega))
  have loop : ∀ i j : Nat, i < j → j ≤ n → f i = f j → ∃ d, Relation.TransGen E d d ∧ Relation.ReflTransGen E d c := by
    intro i j hij hj he
    refine ⟨f j, ?_, ?_⟩
    · obtain ⟨m, rfl⟩ : ∃ m, j = i + m + 1 := ⟨j - i - 1, by omega⟩
      have := Relation.TransGen.head' (f1 (i + m) (by omega)) (path m i (by omega))
      rw [he] at this
      exact this
    · have := path j 0 (by omega)
      rw [Nat.zero_add, f0] at this
      exact this
  obtain ⟨i, j, hne, he⟩ := Fintype.exists_ne_map_eq_of_card_lt (fun i : Fin (n + 1) => (⟨f i, lt _ (f2 i (by omega))⟩ : Fin n)) (by simp)
  have he' : f i = f j := congrArg Fin.val he
  rcases Nat.lt_or_gt_of_ne (fun h => hne (Fin.ext h) : (i : Nat) ≠ j) with g | g
  · exact loop i j g (by omega) he'
  · exact loop j i g (by omega) he'.symm

end Verif.Heap
