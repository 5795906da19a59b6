import Verif.Tag.Word
import Verif.Tag.Throw

/-! Lemmas for C149: a list stays inside the bytes it has ever tracked, and there nothing wraps. -/
set_option linter.unusedSimpArgs false
set_option linter.unusedVariables false
namespace Verif.Tag

variable {V : Type}

theorem wpos_id {x : Int} (h1 : -REF ≤ x) (h2 : x ≤ 2 ^ 63) : wpos x = x := by
  unfold wpos REF at *; omega

theorem wsize_id {x : Int} (h1 : 0 ≤ x) (h2 : x < 2 ^ 64) : wsize x = x.toNat := by
  unfold wsize; rw [Int.emod_eq_of_lt h1 h2]

/-- A list that has tracked `w` bytes: all its positions are in a range of this size around the reference point. -/
def In (w : Nat) (v : View V) : Prop :=
  ∃ lo hi : Int, lo ≤ 0 ∧ 0 ≤ hi ∧ hi - lo ≤ w ∧ lo ≤ v.bs ∧ v.bs ≤ v.be ∧ v.be ≤ hi ∧
    ∀ e ∈ v.l, lo ≤ e.st ∧ e.st ≤ hi ∧ lo ≤ e.en ∧ e.en ≤ hi

def Ins (L : List (View V)) (W : List Nat) : Prop :=
  L.length = W.length ∧ ∀ (i : Nat) (v : View V) (w : Nat), L[i]? = some v → W[i]? = some w → In w v

theorem Ins.get {L : List (View V)} {W : List Nat} (m : Ins L W) {i : Nat} {v : View V} (h : L[i]? = some v) :
    W[i]? = some (W.getD i 0) ∧ In (W.getD i 0) v := by
  have hi := (List.getElem?_eq_some_iff.mp h).1
  rw [m.1] at hi
  have e : W[i]? = some (W.getD i 0) := by simp [List.getElem?_eq_getElem hi]
  exact ⟨e, m.2 i v _ h e⟩

theorem Ins.set {L : List (View V)} {W : List Nat} (m : Ins L W) {i : Nat} {v : View V} {w : Nat} (r : In w v) :
    Ins (L.set i v) (W.set i w) := by
  refine ⟨by simp [m.1], fun k x y hw hy => ?_⟩
  rw [List.getElem?_set] at hw hy
  by_cases e : i = k
  · subst e
    rw [if_pos rfl] at hw hy
    split at hw
    · split at hy
      · cases hw; cases hy; exact r
      · cases hy
    · cases hw
  · rw [if_neg e] at hw hy
    exact m.2 k x y hw hy

theorem Ins.push {L : List (View V)} {W : List Nat} (m : Ins L W) {v : View V} {w : Nat} (r : In w v) :
    Ins (L ++ [v]) (W ++ [w]) := by
  refine ⟨by simp [m.1], fun k x y hw hy => ?_⟩
  by_cases hk : k < L.length
  · rw [List.getElem?_append_left hk] at hw
    rw [List.getElem?_append_left (m.1 ▸ hk)] at hy
    exact m.2 k x y hw hy
  · rw [List.getElem?_append_right (by omega)] at hw
    rw [List.getElem?_append_right (by have := m.1; omega), ← m.1] at hy
    cases hd : k - L.length with
    | zero => rw [hd] at hw hy; cases hw; cases hy; exact r
    | succ d => rw [hd] at hw; cases hw

theorem Ins.keep {L : List (View V)} {W : List Nat} (m : Ins L W) {i : Nat} {v : View V} (r : In (W.getD i 0) v) :
    Ins (L.set i v) W := by
  have := m.set (i := i) r
  by_cases h : i < W.length
  · have e : W.set i (W.getD i 0) = W := by
      apply List.ext_getElem?; intro k
      rw [List.getElem?_set]
      by_cases hk : i = k
      · subst hk; simp [h]
      · simp [hk]
    rwa [e] at this
  · rwa [List.set_eq_of_length_le (by omega : W.length ≤ i)] at this

theorem in_zero : In 0 (⟨0, 0, []⟩ : View V) := ⟨0, 0, by simp⟩

theorem in_grow {w a b : Nat} {v v' : View V} (i : In w v) (g : Grow a b v v') : In (w + (a + b)) v' := by
  obtain ⟨lo, hi, h1, h2, h3, h4, h5, h6, h7⟩ := i
  refine ⟨lo - a, hi + b, by omega, by omega, by push_cast; omega, by rw [g.bs]; omega, by rw [g.bs, g.be]; omega,
    by rw [g.be]; omega, fun e he => ?_⟩
  have := h7 e (g.kept.2 e he)
  omega

theorem in_join_start {w w' : Nat} {v v' r : View V} (i : In w v) (j : In w' r)
    (g : Join (r.be - r.bs).toNat 0 (v'.bs - r.bs) r v v') : In (w + w') v' := by
  obtain ⟨u, g1, g2, g3, _, g4⟩ := g
  obtain ⟨lo, hi, h1, h2, h3, h4, h5, h6, h7⟩ := i
  obtain ⟨lo', hi', k1, k2, k3, k4, k5, k6, k7⟩ := j
  have e1 := g1.bs
  have e2 := g1.be
  refine ⟨lo - (r.be - lo'), hi + (hi' - r.be), by omega, by omega, by push_cast; omega, by omega, by omega, by omega, fun e he => ?_⟩
  rcases g4 e he with q | ⟨e0, q, rfl, _⟩
  · have := h7 e (g1.kept.2 e q); omega
  · have := k7 e0 q
    simp only
    omega

theorem in_join_end {w w' : Nat} {v v' r : View V} (i : In w v) (j : In w' r)
    (g : Join 0 (r.be - r.bs).toNat (v'.be - r.be) r v v') : In (w + w') v' := by
  obtain ⟨u, g1, g2, g3, _, g4⟩ := g
  obtain ⟨lo, hi, h1, h2, h3, h4, h5, h6, h7⟩ := i
  obtain ⟨lo', hi', k1, k2, k3, k4, k5, k6, k7⟩ := j
  have e1 := g1.bs
  have e2 := g1.be
  refine ⟨lo - (r.bs - lo'), hi + (hi' - r.bs), by omega, by omega, by push_cast; omega, by omega, by omega, by omega, fun e he => ?_⟩
  rcases g4 e he with q | ⟨e0, q, rfl, _⟩
  · have := h7 e (g1.kept.2 e q); omega
  · have := k7 e0 q
    simp only
    omega

theorem step_ins {s s' : State V} {W : List Nat} {o : Op V} (b : TBase s.heap s.lists) (m : Ins s.views W) (h : s.step o = some s') :
    Ins s'.views (track W o) := by
  have ho := step_some_ok h
  obtain ⟨s1, q1, q2, q3⟩ := step_ok b o ho
  rw [h] at q1; cases q1
  cases o with
  | new => simp only [VStep] at q3; rw [q3]; exact m.push in_zero
  | newCap cap n =>
    obtain ⟨v, q4, q5, q6⟩ := q3
    rw [q4]
    refine m.push ?_
    have e : v.bs = -((n / 2 : Nat) : Int) := by
      simp only [State.step] at h
      split at h
      · cases h
      · cases h
        simp only [State.views, List.map_append, List.map_cons, List.map_nil] at q4
        have := congrArg List.getLast? q4
        simp only [List.getLast?_append, List.getLast?_singleton, Option.some_or, Option.some.injEq] at this
        rw [← this]; rfl
    refine ⟨v.bs, v.be, by omega, by omega, by omega, by omega, by omega, by omega, by simp [q6]⟩
  | copy j =>
    obtain ⟨v, q4, q5⟩ := q3
    rw [q5]; exact m.push (m.get q4).2
  | assign i j =>
    obtain ⟨v, q4, q5⟩ := q3
    rw [q5]; exact m.set (m.get q4).2
  | swap i j =>
    obtain ⟨v, w, q4, q5, q6⟩ := q3
    rw [q6]; exact (m.set (m.get q5).2).set (m.get q4).2
  | destroy i => simp only [VStep] at q3; rw [q3]; exact m.set in_zero
  | addStart i n =>
    obtain ⟨v, v', q4, q5, q6⟩ := q3
    rw [q6]; exact m.set (in_grow (m.get q4).2 q5)
  | addEnd i n =>
    obtain ⟨v, v', q4, q5, q6⟩ := q3
    rw [q6]; have := in_grow (m.get q4).2 q5; rw [Nat.zero_add] at this; exact m.set this
  | removeStart i n =>
    obtain ⟨v, q4, q5⟩ := q3
    obtain ⟨v0, p1, p2⟩ := ho
    rw [q4] at p1; cases p1
    rw [q5]
    refine m.keep ?_
    obtain ⟨lo, hi, h1, h2, h3, h4, h5, h6, h7⟩ := (m.get q4).2
    exact ⟨lo, hi, h1, h2, h3, by simp only; omega, by simp only; omega, h6, h7⟩
  | removeEnd i n =>
    obtain ⟨v, q4, q5⟩ := q3
    obtain ⟨v0, p1, p2⟩ := ho
    rw [q4] at p1; cases p1
    rw [q5]
    refine m.keep ?_
    obtain ⟨lo, hi, h1, h2, h3, h4, h5, h6, h7⟩ := (m.get q4).2
    exact ⟨lo, hi, h1, h2, h3, h4, by simp only; omega, by simp only; omega, h7⟩
  | insert i id x start size =>
    obtain ⟨v, l, q4, q5, q6⟩ := q3
    obtain ⟨p0, v0, p1, p2⟩ := ho
    rw [q4] at p1; cases p1
    rw [q6]
    refine m.keep ?_
    obtain ⟨lo, hi, h1, h2, h3, h4, h5, h6, h7⟩ := (m.get q4).2
    refine ⟨lo, hi, h1, h2, h3, h4, h5, h6, fun e he => ?_⟩
    rcases List.mem_append.mp he with k | k
    · exact h7 e (q5.2 e k)
    · have := List.mem_singleton.mp k; subst this; simp only; omega
  | addListStart i j =>
    obtain ⟨v, w, v', q4, q5, q6, q7⟩ := q3
    rw [q7]; exact m.set (in_join_start (m.get q4).2 (m.get q5).2 q6)
  | addListEnd i j =>
    obtain ⟨v, w, v', q4, q5, q6, q7⟩ := q3
    rw [q7]; exact m.set (in_join_end (m.get q4).2 (m.get q5).2 q6)

theorem reallocate_win {h h' : Heap V} {t t' : TL} {a c : Nat} {x : Arr V} (r : reallocate h t a x c = some (h', t')) :
    t'.bs = t.bs ∧ t'.be = t.be := by
  unfold reallocate at r
  split at r
  · dsimp only at r
    split at r
    · cases r
    · split at r
      · cases r
      · cases r; exact ⟨rfl, rfl⟩
  · cases r

theorem wexpand_eq {h : Heap V} {t : TL} {a b : Nat} (h1 : wpos (t.bs - a) = t.bs - a) (h2 : wpos (t.be + b) = t.be + b) :
    wexpand h t a b = expand h t a b := by
  unfold wexpand expand
  cases ht : t.tia with
  | none => simp only [h1, h2]
  | some k =>
    cases hx : h.mem k with
    | none => simp only [hx]
    | some x =>
      simp only [hx, h1, h2]
      by_cases c1 : x.ref = 1
      · simp only [c1, if_true, compact, h1, h2]
      · simp only [c1, if_false]
        by_cases c2 : ((trim (fun e => e.has t.bs t.be) (x.idx.take t.size)).any fun e =>
            !e.has t.bs t.be && e.has (t.bs - a) (t.be + b)) = true
        · simp only [c2, if_true]
          split
          · rename_i hr; simp only [hr]
          · rename_i h' t' hr
            obtain ⟨k1, k2⟩ := reallocate_win hr
            simp only at k1 k2
            simp only [hr, k1, k2, h1, h2]
        · simp only [c2, Bool.false_eq_true, if_false, h1, h2]

theorem wpour_eq {h : Heap V} {t r : TL} {R : List TL} (b : TBase h (t :: R)) (hr : r ∈ R) (d : Int)
    (he : ∀ e ∈ entries h r, wpos (e.st + d) = e.st + d ∧ wpos (e.en + d) = e.en + d) (n k : Nat) :
    wpour h t r d n k = pour h t r d n k := by
  induction n generalizing h t k with
  | zero => rfl
  | succ n ih =>
    cases hg : (entries h r)[k]? with
    | none => simp only [wpour, pour, hg]
    | some e =>
      have := he e (List.mem_of_getElem? hg)
      obtain ⟨h1, t1, i1, i2⟩ := insertTag_ok b ⟨e.id, e.val, e.st + d, e.en + d⟩
      simp only [wpour, pour, hg, this.1, this.2, i1]
      exact ih i2.base (by rw [i2.same r hr]; exact he) (k + 1)

theorem on_congr {s : State V} {i : Nat} {f g : Heap V → TL → Option (Heap V × TL)}
    (h : ∀ t, s.lists[i]? = some t → f s.heap t = g s.heap t) : s.on i f = s.on i g := by
  unfold State.on
  cases ht : s.lists[i]? with
  | none => rfl
  | some t => simp only [h t ht]

theorem mem_set_getD {W : List Nat} {i w : Nat} (h : i < W.length) : w ∈ W.set i w := List.mem_set h w

theorem len_of {W : List Nat} {i w : Nat} (h : W[i]? = some w) : i < W.length := (List.getElem?_eq_some_iff.mp h).1

/-- The arguments of an operation do not wrap. -/
def Op.plain (s : State V) : Op V → Prop
  | .removeStart i n | .removeEnd i n => ∀ t, s.lists[i]? = some t → t.bs + n ≤ 2 ^ 63
  | .insert _ _ _ start size => start + size < 2 ^ 64
  | _ => True

theorem wjoin_eq {s : State V} {W : List Nat} {i j : Nat} {t r : TL} (b : TBase s.heap s.lists) (m : Ins s.views W)
    (ht : s.lists[i]? = some t) (hr : s.lists[j]? = some r) (hw : W.getD i 0 + W.getD j 0 ≤ 2 ^ 63 - 1) :
    waddListStart s.heap t r = addListStart s.heap t r ∧ waddListEnd s.heap t r = addListEnd s.heap t r := by
  have hb := head_base b ht
  have hm : r ∈ t :: s.lists.eraseIdx i := mem_head ht hr
  obtain ⟨h0, a1, a2, a3⟩ := share_ok hb hm
  obtain ⟨lo, hi, h1, h2, h3, h4, h5, h6, h7⟩ := (m.get (view_get ht)).2
  obtain ⟨lo', hi', k1, k2, k3, k4, k5, k6, k7⟩ := (m.get (view_get hr)).2
  simp only [view] at h4 h5 h6 h7 k4 k5 k6 k7
  have es : wsize (r.be - r.bs) = (r.be - r.bs).toNat := wsize_id (by omega) (by omega)
  constructor
  · obtain ⟨g1, t1, e1, e2, e3, e4, e5, e6, e7⟩ := expand_ok (a2.perm (List.Perm.swap ..)) (r.be - r.bs).toNat 0
    have ea : waddStart h0 t (r.be - r.bs).toNat = some (g1, t1) := by
      unfold waddStart
      rw [if_pos (by unfold REF; omega), wexpand_eq (wpos_id (by unfold REF; omega) (by omega)) (wpos_id (by unfold REF; omega) (by omega)), e1]
    have hr1 : entries g1 r = entries s.heap r := by rw [e3 r (List.mem_cons_self ..), a3]
    have ep := wpour_eq e2 (List.mem_cons_self ..) (t1.bs - r.bs) (by
      intro e he
      rw [hr1] at he
      have := k7 e he
      exact ⟨wpos_id (by unfold REF; omega) (by omega), wpos_id (by unfold REF; omega) (by omega)⟩) r.size 0
    simp only [waddListStart, addListStart, a1, es, ea, e1, ep]
    rfl
  · obtain ⟨g1, t1, e1, e2, e3, e4, e5, e6, e7⟩ := expand_ok (a2.perm (List.Perm.swap ..)) 0 (r.be - r.bs).toNat
    have ea : waddEnd h0 t (r.be - r.bs).toNat = some (g1, t1) := by
      unfold waddEnd
      have e : wpos (t.be + ((r.be - r.bs).toNat : Int)) = t.be + ((r.be - r.bs).toNat : Int) :=
        wpos_id (by unfold REF; omega) (by omega)
      rw [if_pos (by rw [e]; omega), wexpand_eq (wpos_id (by unfold REF; omega) (by omega)) e, e1]
    have hr1 : entries g1 r = entries s.heap r := by rw [e3 r (List.mem_cons_self ..), a3]
    have ep := wpour_eq e2 (List.mem_cons_self ..) (t1.be - r.be) (by
      intro e he
      rw [hr1] at he
      have := k7 e he
      exact ⟨wpos_id (by unfold REF; omega) (by omega), wpos_id (by unfold REF; omega) (by omega)⟩) r.size 0
    simp only [waddListEnd, addListEnd, a1, es, ea, e1, ep]
    rfl

theorem wstep_eq {s : State V} {W : List Nat} {o : Op V} (b : TBase s.heap s.lists) (m : Ins s.views W)
    (hW : ∀ w ∈ W, w ≤ 2 ^ 63 - 1) (hw : ∀ w ∈ track W o, w ≤ 2 ^ 63 - 1) (hp : o.plain s) : s.wstep o = s.step o := by
  cases o with
  | new => rfl
  | copy j => rfl
  | assign i j => rfl
  | swap i j => rfl
  | destroy i => rfl
  | newCap cap n =>
    have := hw n (by simp [track])
    have e1 : wpos (-((n / 2 : Nat) : Int)) = -((n / 2 : Nat) : Int) := wpos_id (by unfold REF; omega) (by omega)
    have e2 : wpos (-((n / 2 : Nat) : Int) + n) = -((n / 2 : Nat) : Int) + n := wpos_id (by unfold REF; omega) (by omega)
    simp only [State.wstep, State.step, e1, e2]
    rfl
  | addStart i n =>
    simp only [State.wstep, State.step]
    refine on_congr fun t ht => ?_
    obtain ⟨q1, lo, hi, h1, h2, h3, h4, h5, h6, h7⟩ := m.get (view_get ht)
    simp only [view] at h4 h5 h6
    have := hw _ (mem_set_getD (len_of q1))
    unfold waddStart
    rw [if_pos (by unfold REF; omega), wexpand_eq (wpos_id (by unfold REF; omega) (by omega)) (wpos_id (by unfold REF; omega) (by omega))]
  | addEnd i n =>
    simp only [State.wstep, State.step]
    refine on_congr fun t ht => ?_
    obtain ⟨q1, lo, hi, h1, h2, h3, h4, h5, h6, h7⟩ := m.get (view_get ht)
    simp only [view] at h4 h5 h6
    have := hw _ (mem_set_getD (len_of q1))
    have e : wpos (t.be + (n : Int)) = t.be + (n : Int) := wpos_id (by unfold REF; omega) (by omega)
    unfold waddEnd
    rw [if_pos (by rw [e]; omega), wexpand_eq (wpos_id (by unfold REF; omega) (by omega)) e]
  | removeStart i n =>
    simp only [State.wstep, State.step]
    refine on_congr fun t ht => ?_
    obtain ⟨q1, lo, hi, h1, h2, h3, h4, h5, h6, h7⟩ := m.get (view_get ht)
    simp only [view] at h4 h5 h6
    have := hW _ (List.mem_of_getElem? q1)
    have hp := hp t ht
    simp only [wremoveStart, Tag.removeStart, wpos_id (x := t.bs + n) (by unfold REF; omega) hp]
  | removeEnd i n =>
    simp only [State.wstep, State.step]
    refine on_congr fun t ht => ?_
    obtain ⟨q1, lo, hi, h1, h2, h3, h4, h5, h6, h7⟩ := m.get (view_get ht)
    simp only [view] at h4 h5 h6
    have := hW _ (List.mem_of_getElem? q1)
    have hp := hp t ht
    simp only [wremoveEnd, Tag.removeEnd, wpos_id (x := t.bs + n) (by unfold REF; omega) hp]
    by_cases c : t.bs + n ≤ t.be
    · rw [if_pos c, if_pos (by omega), wpos_id (by unfold REF; omega) (by omega)]
    · rw [if_neg c, if_neg (by omega)]
  | insert i id v start size =>
    simp only [State.wstep, State.step]
    refine on_congr fun t ht => ?_
    obtain ⟨q1, lo, hi, h1, h2, h3, h4, h5, h6, h7⟩ := m.get (view_get ht)
    simp only [view] at h4 h5 h6
    have := hW _ (List.mem_of_getElem? q1)
    have hp : start + size < 2 ^ 64 := hp
    simp only [winsert, Tag.insert, wsize_id (x := t.be - t.bs) (by omega) (by omega),
      wsize_id (x := (start : Int) + size) (by omega) (by omega)]
    by_cases c : (start : Int) + size ≤ t.be - t.bs ∧ 0 < size
    · have e1 : wpos (t.bs + (start : Int)) = t.bs + (start : Int) := wpos_id (by unfold REF; omega) (by omega)
      have e2 : wpos (t.bs + (start : Int) + size) = t.bs + (start : Int) + size := wpos_id (by unfold REF; omega) (by omega)
      rw [if_pos c, if_pos (by omega), e1, e2]
    · rw [if_neg c, if_neg (by omega)]
  | addListStart i j =>
    simp only [State.wstep, State.step]
    cases hr : s.lists[j]? with
    | none => rfl
    | some r =>
      refine on_congr fun t ht => ?_
      have := hw _ (mem_set_getD (len_of (m.get (view_get ht)).1))
      exact (wjoin_eq b m ht hr this).1
  | addListEnd i j =>
    simp only [State.wstep, State.step]
    cases hr : s.lists[j]? with
    | none => rfl
    | some r =>
      refine on_congr fun t ht => ?_
      have := hw _ (mem_set_getD (len_of (m.get (view_get ht)).1))
      exact (wjoin_eq b m ht hr this).2

end Verif.Tag
