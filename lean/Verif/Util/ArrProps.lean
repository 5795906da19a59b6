import Verif.Util.ArrModel
import Verif.Util.VecProps
set_option linter.unusedSimpArgs false
set_option linter.unusedVariables false

/-!
C105: `BiArray` refines a sequence of fixed length, for every history of calls on any number of arrays.
-/
namespace Verif.Util

variable {T : Type}

/-! ### The specification -/

/-- What the caller sees of each array: the elements; `none` after destruction. -/
abbrev Arrs (T : Type) := List (Option (List T))

/-- The array `r`. -/
def ar (s : Arrs T) (r : Nat) : Option (List T) := (s[r]?).join

/-- Which calls are legal: the arrays exist, the indices are in range. -/
def ALegal (I : Nat) (s : Arrs T) : AOp T → Prop
  | .new _ _ | .newFill _ _ => True
  | .copy r | .move r | .destroy r | .fill r _ => ∃ c, ar s r = some c
  | .copyAssign q r | .moveAssign q r | .swap q r => (∃ c, ar s q = some c) ∧ ∃ c, ar s r = some c
  | .set r i _ | .fillOwn r i => ∃ c, ar s r = some c ∧ I ≤ i ∧ i < I + c.length

/-- The intended effect of each call. -/
def AWant (I : Nat) (s : Arrs T) : AOp T → Arrs T
  | .new n d => s ++ [some (List.replicate n d)]
  | .newFill n v => s ++ [some (List.replicate n v)]
  | .copy r => s ++ [ar s r]
  | .copyAssign q r => s.set q (ar s r)
  | .move r => s.set r (some []) ++ [ar s r]
  | .moveAssign q r => if q = r then s else (s.set q (ar s r)).set r (some [])
  | .swap q r => (s.set q (ar s r)).set r (ar s q)
  | .destroy r => s.set r none
  | .set r i v => s.set r ((ar s r).map fun c => c.set (i - I) v)
  | .fill r v => s.set r ((ar s r).map fun c => List.replicate c.length v)
  | .fillOwn r i => s.set r ((ar s r).map fun c => c.map fun x => (c[i - I]?).getD x)

/-- A history of legal calls. -/
def ALegals (I : Nat) (s : Arrs T) : List (AOp T) → Prop
  | [] => True
  | o :: t => ALegal I s o ∧ ALegals I (AWant I s o) t

/-- The intended effect of a history. -/
def AWants (I : Nat) (s : Arrs T) : List (AOp T) → Arrs T
  | [] => s
  | o :: t => AWants I (AWant I s o) t

/-! ### The proof: an array is a vector whose capacity is its size -/

/-- The arrays as vectors. -/
def full (s : Arrs T) : Seqs T := s.map (Option.map fun c => (c.length, c))

theorem sq_full (s : Arrs T) (r : Nat) : sq (full s) r = (ar s r).map fun c => (c.length, c) := by
  unfold sq ar full
  rw [List.getElem?_map]
  rcases s[r]? with _ | _ | _ <;> rfl

theorem full_set (s : Arrs T) (r : Nat) (x : Option (List T)) :
    full (s.set r x) = (full s).set r (x.map fun c => (c.length, c)) := by
  unfold full; rw [List.map_set]

theorem full_append (s : Arrs T) (x : Option (List T)) : full (s ++ [x]) = full s ++ [x.map fun c => (c.length, c)] := by
  unfold full; simp

theorem ainit_eq (m : Mem T) (vs : List T) : m.ainit vs = m.allocWith vs.length vs := by
  unfold Mem.ainit Mem.allocWith Mem.ablock Mem.alloc
  by_cases h : vs.length = 0
  · simp only [h, if_true]; rfl
  · simp only [h, if_false]; rfl

theorem afree_eq (m : Mem T) (v : Vec) : m.afree v = m.free v := rfl

theorem awalk_eq (m : Mem T) (r : Nat) : m.awalk r = (m.vec r).bind fun v => m.elems v := rfl

theorem fillN_spec (v : T) : ∀ (n : Nat) (l : List (Option T)) (p : Nat), (∀ i : Nat, p ≤ i → i < p + n → ∃ x, l[i]? = some (some x)) →
    ∃ l', fillN v l p n = some l' ∧ l'.length = l.length ∧
      ∀ i : Nat, l'[i]? = if p ≤ i ∧ i < p + n then some (some v) else l[i]?
  | 0, l, p, _ => ⟨l, rfl, rfl, fun i => by rw [if_neg (by omega)]⟩
  | n + 1, l, p, h => by
    obtain ⟨x, hx⟩ := h p (Nat.le_refl _) (by omega)
    have hp : p < l.length := by
      rcases Nat.lt_or_ge p l.length with g | g
      · exact g
      · rw [List.getElem?_eq_none g] at hx; simp at hx
    obtain ⟨l', h1, h2, h3⟩ := fillN_spec v n (l.set p (some v)) (p + 1) (fun i a b => by
      rw [List.getElem?_set_ne (by omega)]; exact h i (by omega) (by omega))
    refine ⟨l', by simp only [fillN, hx]; exact h1, by simp [h2], fun i => ?_⟩
    rw [h3 i]
    by_cases e : i = p
    · subst e
      rw [if_neg (by omega), if_pos (by omega), List.getElem?_set_self hp]
    · rw [List.getElem?_set_ne (by omega)]
      by_cases g : p ≤ i ∧ i < p + (n + 1)
      · rw [if_pos (by omega), if_pos g]
      · rw [if_neg (by omega), if_neg g]

theorem fill_form (v : T) (c : List T) : fillN v (form c c.length) 0 c.length = some (form (List.replicate c.length v) c.length) := by
  obtain ⟨l', h1, h2, h3⟩ := fillN_spec v c.length (form c c.length) 0 (fun i _ hi => by
    rw [form_get (Nat.le_refl _), if_pos (by omega), List.getElem?_eq_getElem (by omega)]; exact ⟨_, rfl⟩)
  rw [h1]
  congr 1
  apply ext_opt
  intro i
  rw [h3, form_get (c := c) (Nat.le_refl _), form_get (c := List.replicate c.length v) (by simp)]
  simp only [List.length_replicate, List.getElem?_replicate, Nat.zero_le, true_and, Nat.zero_add]
  by_cases g : i < c.length
  · simp only [g, if_true]; rfl
  · simp only [g, if_false]

theorem fillOwn_eq (q : Nat) (v : T) : ∀ (n : Nat) (l : List (Option T)) (p : Nat), l[q]? = some (some v) →
    fillOwnN q l p n = fillN v l p n
  | 0, l, p, _ => rfl
  | n + 1, l, p, h => by
    simp only [fillOwnN, fillN, h]
    rcases e : l[p]? with _ | _ | x
    · rfl
    · rfl
    · simp only
      apply fillOwn_eq
      by_cases g : p = q
      · subst g
        have hp : p < l.length := by
          rcases Nat.lt_or_ge p l.length with g | g
          · exact g
          · rw [List.getElem?_eq_none g] at h; simp at h
        rw [List.getElem?_set_self hp]
      · rw [List.getElem?_set_ne g]; exact h

theorem put_vec_self {m : Mem T} {r : Nat} {v : Vec} (h : m.vec r = some v) : m.vecs.set r (some v) = m.vecs := by
  unfold Mem.vec at h
  have h' := Option.join_eq_some_iff.mp h
  apply ext_opt
  intro i
  rw [List.getElem?_set]
  split
  · rename_i e; subst e
    rw [h']
    have : r < m.vecs.length := by
      rcases Nat.lt_or_ge r m.vecs.length with g | g
      · exact g
      · rw [List.getElem?_eq_none g] at h'; simp at h'
    simp [this]
  · rfl

/-- Editing cells without changing the size. -/
theorem aedit_eq {m : Mem T} {r : Nat} {f : Vec → List (Option T) → Option (List (Option T))} :
    m.aedit r f = m.edit r fun v l => (f v l).map fun l' => (v.size, l') := by
  unfold Mem.aedit Mem.edit
  rcases hv : m.vec r with _ | v
  · rfl
  · simp only [Option.bind_some]
    rcases m.cells v.data with _ | l
    · rfl
    · simp only [Option.bind_some]
      rcases f v l with _ | l'
      · rfl
      · simp only [Option.map_some]
        congr 1
        have : (m.put v.data l').vecs = m.vecs := put_vecs
        have h2 := put_vec_self hv
        have h3 : m.vecs.set r (some ⟨v.cap, v.size, v.data⟩) = m.vecs := h2
        rw [h3, ← this]

theorem step_of {m : Mem T} {s : Arrs T} {I : Nat} (h : Reps m (full s)) (o : VOp T) (o' : AOp T) (hl : Legal I (full s) o)
    (he : m.astep I o' = m.step I o) (hw : Want I (full s) o = full (AWant I s o')) :
    ∃ m', m.astep I o' = some m' ∧ Reps m' (full (AWant I s o')) := by
  obtain ⟨m', h1, h2⟩ := C76_step I m _ o h hl
  exact ⟨m', he.trans h1, hw ▸ h2⟩

theorem edit_of {m : Mem T} {s : Arrs T} (h : Reps m (full s)) {r : Nat} {c c' : List T} (hx : ar s r = some c)
    (hlen : c'.length = c.length) {f : Vec → List (Option T) → Option (List (Option T))}
    (hf : ∀ w : Vec, w.size = c.length → f w (form c c.length) = some (form c' c.length)) :
    ∃ m', m.aedit r f = some m' ∧ Reps m' (full (s.set r (some c'))) := by
  have hq : sq (full s) r = some (c.length, c) := by rw [sq_full, hx]; rfl
  obtain ⟨m', h1, h2⟩ := edit_reps (F := fun _ => c') h (fun v l => (f v l).map fun l' => (v.size, l')) hq rfl (by omega)
    (fun w hc hs => by simp only [hf w hs, Option.map_some, hs, hlen])
  refine ⟨m', by rw [aedit_eq]; exact h1, ?_⟩
  rw [full_set]
  simp only [onSeq, hq] at h2
  simpa only [Option.map_some, hlen] using h2

/-- Every legal call is defined and has the intended effect. -/
theorem C105_step (I : Nat) (m : Mem T) (s : Arrs T) (o : AOp T) (h : Reps m (full s)) (hl : ALegal I s o) :
    ∃ m', m.astep I o = some m' ∧ Reps m' (full (AWant I s o)) := by
  have ex : ∀ {r : Nat} {c : List T}, ar s r = some c → sq (full s) r = some (c.length, c) := by
    intro r c e; rw [sq_full, e]; rfl
  cases o with
  | new n d =>
    refine step_of h (.newFill n n d) _ (Nat.le_refl _) ?_ ?_
    · simp only [Mem.astep, Mem.step, ainit_eq, List.length_replicate]; rfl
    · simp only [Want, AWant, full_append, Option.map_some, List.length_replicate]
  | newFill n d =>
    refine step_of h (.newFill n n d) _ (Nat.le_refl _) ?_ ?_
    · simp only [Mem.astep, Mem.step, ainit_eq, List.length_replicate]; rfl
    · simp only [Want, AWant, full_append, Option.map_some, List.length_replicate]
  | copy r =>
    obtain ⟨c, hc⟩ := hl
    obtain ⟨v, hv, R⟩ := h.rep r _ (ex hc)
    refine step_of h (.copy r) _ ⟨_, ex hc⟩ ?_ ?_
    · have e := elems_spec R
      have hcap : v.cap = c.length := R.cap
      simp only [Mem.astep, Mem.step, awalk_eq, hv, Option.bind_some, e, ainit_eq, hcap]; rfl
    · simp only [Want, AWant, full_append, sq_full]
  | copyAssign q r =>
    obtain ⟨⟨d, hd⟩, c, hc⟩ := hl
    obtain ⟨v, hv, R⟩ := h.rep r _ (ex hc)
    obtain ⟨w, hw, Rw⟩ := h.rep q _ (ex hd)
    refine step_of h (.copyAssign q r) _ ⟨⟨_, ex hd⟩, _, ex hc⟩ ?_ ?_
    · by_cases e : q = r
      · simp only [Mem.astep, Mem.step, e, if_true]
      · obtain ⟨m1, f1, f2, f3, f4, f5, f6⟩ := free_spec Rw
        have hv1 : m1.vec r = some v := by unfold Mem.vec at hv ⊢; rw [f2]; exact hv
        have hcap : v.cap = c.length := R.cap
        have R1 : Rep m1 v (c.length, c) := R.congr (by
          rcases hb : v.data with _ | b
          · rfl
          · exact f4 _ (fun b' h1 h2 => e (h.sep q r w v b' hw hv h1 (hb.trans h2))))
        have e1 := elems_spec R1
        simp only [Mem.astep, Mem.step, e, if_false, hw, hv, Option.bind_some, afree_eq, f1, awalk_eq, hv1, e1, ainit_eq, hcap]
    · simp only [Want, AWant, full_set, sq_full]
  | move r =>
    obtain ⟨c, hc⟩ := hl
    refine step_of h (.move r) _ ⟨_, ex hc⟩ rfl ?_
    simp only [Want, AWant, full_append, full_set, sq_full]; rfl
  | moveAssign q r =>
    obtain ⟨⟨d, hd⟩, c, hc⟩ := hl
    refine step_of h (.moveAssign q r) _ ⟨⟨_, ex hd⟩, _, ex hc⟩ rfl ?_
    simp only [Want, AWant]
    split
    · rfl
    · simp only [full_set, sq_full]; rfl
  | swap q r =>
    obtain ⟨⟨d, hd⟩, c, hc⟩ := hl
    refine step_of h (.swap q r) _ ⟨⟨_, ex hd⟩, _, ex hc⟩ rfl ?_
    simp only [Want, AWant, full_set, sq_full]
  | destroy r =>
    obtain ⟨c, hc⟩ := hl
    refine step_of h (.destroy r) _ ⟨_, ex hc⟩ rfl ?_
    simp only [Want, AWant, full_set]; rfl
  | set r i v =>
    obtain ⟨c, hc, h1, h2⟩ := hl
    simp only [Mem.astep, AWant, hc, Option.map_some]
    refine edit_of h hc (by simp) (fun w hs => ?_)
    have hi : i - I < c.length := by omega
    obtain ⟨u, hu⟩ := form_live (Nat.le_refl c.length) hi
    rw [aindex, if_pos ⟨h1, by omega⟩, Option.bind_some]
    simp only [hu]
    rw [set_form (Nat.le_refl _) hi]
  | fill r v =>
    obtain ⟨c, hc⟩ := hl
    simp only [Mem.astep, AWant, hc, Option.map_some]
    refine edit_of h hc (by simp) (fun w hs => ?_)
    rw [hs, fill_form]
  | fillOwn r i =>
    obtain ⟨c, hc, h1, h2⟩ := hl
    have hi : i - I < c.length := by omega
    simp only [Mem.astep, AWant, hc, Option.map_some]
    refine edit_of h hc (by simp) (fun w hs => ?_)
    rw [aindex, if_pos ⟨h1, by omega⟩, Option.bind_some, hs]
    rw [fillOwn_eq _ (c[i - I]'hi) _ _ _ (by
      rw [form_get (Nat.le_refl _), if_pos hi, List.getElem?_eq_getElem hi]; rfl), fill_form]
    congr 2
    rw [List.getElem?_eq_getElem hi]
    simp only [Option.getD_some]
    apply ext_opt
    intro k
    rw [List.getElem?_replicate, List.getElem?_map]
    by_cases g : k < c.length
    · rw [if_pos g, List.getElem?_eq_getElem g]; rfl
    · rw [if_neg g, List.getElem?_eq_none (by omega)]; rfl

theorem C105_runs (I : Nat) : ∀ (os : List (AOp T)) (m : Mem T) (s : Arrs T), Reps m (full s) → ALegals I s os →
    ∃ m', m.arun I os = some m' ∧ Reps m' (full (AWants I s os))
  | [], m, s, h, _ => ⟨m, rfl, h⟩
  | o :: t, m, s, h, hl => by
    obtain ⟨m1, h1, h2⟩ := C105_step I m s o h hl.1
    obtain ⟨m2, h3, h4⟩ := C105_runs I t m1 _ h2 hl.2
    exact ⟨m2, by simp only [Mem.arun, h1, Option.bind_some, h3], h4⟩

theorem mapM_some {α β : Type} (f : α → Option β) (g : α → β) : ∀ l : List α, (∀ x ∈ l, f x = some (g x)) → l.mapM f = some (l.map g)
  | [], _ => rfl
  | x :: xs, h => by
    rw [List.mapM_cons, h x (by simp), mapM_some f g xs (fun y hy => h y (by simp [hy]))]; rfl

theorem range_reverse (c : List T) (f : Nat → T) (h : ∀ (k : Nat) (hk : k < c.length), f k = c[c.length - k - 1]'(by omega)) :
    (List.range c.length).map f = c.reverse := by
  apply List.ext_getElem (by simp)
  intro i h1 h2
  simp only [List.length_map, List.length_range] at h1
  rw [List.getElem_map, List.getElem_range, List.getElem_reverse, h i h1]
  congr 1; omega

/-- What the caller sees of the array `r`: `size()`, `at(i)`, `front()`, `back()` and the two loops. -/
def AObserved (I : Nat) (m : Mem T) (r : Nat) (c : List T) : Prop :=
  (∃ v, m.vec r = some v ∧ v.size = c.length) ∧
  (∀ k, k < c.length → m.aat I r (I + k) = c[k]?) ∧ (∀ i, ¬ (I ≤ i ∧ i < I + c.length) → m.aat I r i = none) ∧
  m.afront r = c.head? ∧ m.aback r = c.getLast? ∧ m.awalk r = some c ∧ m.arwalk r = some c.reverse

theorem aobserved {I : Nat} {m' : Mem T} {s : Arrs T} (h2 : Reps m' (full s)) {r : Nat} {c : List T} (hc : ar s r = some c) :
    AObserved I m' r c := by
  obtain ⟨v, hv, R⟩ := h2.rep r (c.length, c) (by rw [sq_full, hc]; rfl)
  have hs : v.size = c.length := R.size
  have hm : m'.cells v.data = some (form c c.length) := R.mem
  have hd : ∀ p, m'.deref v p = c[p]? := by
    intro p
    simp only [Mem.deref, hm, Option.bind_some]
    rw [form_get (Nat.le_refl _)]
    by_cases g : p < c.length
    · rw [if_pos g, List.getElem?_eq_getElem g]; rfl
    · rw [if_neg g, if_neg g, List.getElem?_eq_none (by omega)]; rfl
  refine ⟨⟨v, hv, hs⟩, fun k hk => ?_, fun i hi => ?_, ?_, ?_, ?_, ?_⟩
  · simp only [Mem.aat, hv, Option.bind_some, aindex]
    rw [if_pos (by omega), Option.bind_some, hd, show I + k - I = k by omega]
  · simp only [Mem.aat, hv, Option.bind_some, aindex]
    rw [if_neg (by omega)]; rfl
  · simp only [Mem.afront, hv, Option.bind_some, hd]
    cases c with
    | nil => simp [hs]
    | cons x xs => simp [hs]
  · simp only [Mem.aback, hv, Option.bind_some, hd]
    rw [List.getLast?_eq_getElem?, hs]
    cases c with
    | nil => simp
    | cons x xs => simp
  · rw [awalk_eq, hv, Option.bind_some, elems_spec R]
  · simp only [Mem.arwalk, hv, Option.bind_some, hs, hd]
    cases c with
    | nil => rfl
    | cons x xs =>
      rw [mapM_some _ (fun k => ((x :: xs)[(x :: xs).length - k - 1]?).getD x) _ (fun k hk => by
        rw [List.mem_range] at hk
        rw [List.getElem?_eq_getElem (by omega)]; rfl), range_reverse]
      intro k hk
      rw [List.getElem?_eq_getElem (by omega)]; rfl

/-- **C105.** After every history of legal calls on any number of arrays, starting from nothing, every array has exactly the
elements the specification names: `size()`, `at(i)` for the indices `I .. I + size - 1` and no other, `front()`, `back()`, the loop
over the iterators and the loop over the reverse iterators all agree with the sequence; no call was undefined. -/
theorem C105_array (I : Nat) (os : List (AOp T)) (hl : ALegals I [] os) :
    ∃ m', (Mem.init : Mem T).arun I os = some m' ∧ ∀ (r : Nat) (c : List T), ar (AWants I [] os) r = some c →
      (∃ v, m'.vec r = some v ∧ v.size = c.length) ∧
      (∀ k, k < c.length → m'.aat I r (I + k) = c[k]?) ∧ (∀ i, ¬ (I ≤ i ∧ i < I + c.length) → m'.aat I r i = none) ∧
      m'.afront r = c.head? ∧ m'.aback r = c.getLast? ∧ m'.awalk r = some c ∧ m'.arwalk r = some c.reverse := by
  obtain ⟨m', h1, h2⟩ := C105_runs I os _ [] reps_init hl
  exact ⟨m', h1, fun r c hc => aobserved h2 hc⟩

/-- **C105 (memory).** After every history of legal calls: every allocated block belongs to exactly one array that still exists, and
the live objects in it are exactly that array's elements; every released block was released without a live object in it; so when
every array has been destroyed, nothing is allocated and no object is alive. -/
theorem C105_no_leak (I : Nat) (os : List (AOp T)) (hl : ALegals I [] os) :
    ∃ m', (Mem.init : Mem T).arun I os = some m' ∧
      (∀ (b : Nat) (l : List (Option T)), m'.blocks[b]? = some (some l) →
        ∃ r v c, m'.vec r = some v ∧ v.data = some b ∧ (∀ q w, m'.vec q = some w → w.data = some b → q = r) ∧
          ar (AWants I [] os) r = some c ∧ l = c.map some) ∧
      (∀ l ∈ m'.gone, l.filterMap id = []) ∧
      ((∀ r : Nat, ar (AWants I [] os) r = none) → ∀ b : Nat, ∀ l, m'.blocks[b]? ≠ some (some l)) := by
  obtain ⟨m', h1, h⟩ := C105_runs I os _ [] reps_init hl
  have live : ∀ (b : Nat) (l : List (Option T)), m'.blocks[b]? = some (some l) → m'.cells (some b) = some l := by
    intro b l hb; simp only [Mem.cells, hb, Option.join_some]
  refine ⟨m', h1, fun b l hb => ?_, fun l hl => List.filterMap_eq_nil_iff.mpr (h.gone l hl), fun hz b l hb => ?_⟩
  · obtain ⟨r, v, hv, hd⟩ := h.owned b l (live b l hb)
    rcases h.cases r with g | ⟨w, x, g1, g2, g3⟩
    · rw [g.2] at hv; simp at hv
    · rw [hv] at g2; cases g2
      rw [sq_full] at g1
      rcases ha : ar (AWants I [] os) r with _ | c
      · rw [ha] at g1; simp at g1
      · rw [ha] at g1
        simp only [Option.map_some, Option.some.injEq] at g1
        subst g1
        have hm := g3.mem
        rw [hd, live b l hb] at hm
        simp only [form, Nat.sub_self, List.replicate_zero, List.append_nil, Option.some.injEq] at hm
        exact ⟨r, v, c, hv, hd, fun q w hq hw => h.sep q r w v b hq hv hw hd, ha, hm⟩
  · obtain ⟨r, v, hv, hd⟩ := h.owned b l (live b l hb)
    rw [h.dead r (by rw [sq_full, hz r]; rfl)] at hv
    simp at hv

/-- Three arrays with a common history. -/
example : ALegals (T := Nat) 10 [] [.newFill 2 5, .copy 0, .set 1 11 6, .fillOwn 1 11, .move 0, .moveAssign 0 1, .swap 0 2, .fill 2 9, .destroy 1] ∧
    AWants (T := Nat) 10 [] [.newFill 2 5, .copy 0, .set 1 11 6, .fillOwn 1 11, .move 0, .moveAssign 0 1, .swap 0 2, .fill 2 9, .destroy 1]
      = [some [5, 5], none, some [9, 9]] := by
  refine ⟨⟨trivial, ⟨_, rfl⟩, ⟨_, rfl, by decide⟩, ⟨_, rfl, by decide⟩, ⟨_, rfl⟩, ⟨⟨_, rfl⟩, _, rfl⟩, ⟨⟨_, rfl⟩, _, rfl⟩, ⟨_, rfl⟩,
    ⟨_, rfl⟩, trivial⟩, rfl⟩

end Verif.Util
