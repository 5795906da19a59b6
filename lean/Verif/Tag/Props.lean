import Verif.Tag.Spec

/-!
Property theorems about tag lists (C15-C18).

`State.get s i id off` is the value that `Get(id, off)` of the `i`-th list returns (`none`: it throws
`TagNotFound`), `State.exists` the answer of `Exists`, `State.size` the number of bytes the list tracks.
-/
set_option linter.unusedSimpArgs false
set_option linter.unusedVariables false
namespace Verif.Tag

variable {V : Type}

/-- Reached by a history of operations on any number of lists. -/
def Reach (s : State V) : Prop := ∃ hist, State.init.run hist = some s

theorem init_base : TBase (State.init (V := V)).heap (State.init (V := V)).lists :=
  ⟨fun _ _ => rfl, by simp [State.init], by simp [State.init], by simp [State.init], by simp [State.init]⟩

theorem step_base {s s' : State V} {o : Op V} (b : TBase s.heap s.lists) (h : s.step o = some s') :
    TBase s'.heap s'.lists ∧ VStep s.views s'.views o := by
  obtain ⟨s1, h1, h2, h3⟩ := step_ok b o (step_some_ok h)
  rw [h] at h1; cases h1; exact ⟨h2, h3⟩

theorem run_base {s s' : State V} {hist : List (Op V)} (b : TBase s.heap s.lists) (h : s.run hist = some s') :
    TBase s'.heap s'.lists := by
  induction hist generalizing s with
  | nil => cases h; exact b
  | cons o os ih =>
    simp only [State.run] at h
    split at h
    · cases h
    · rename_i s1 h1; exact ih (step_base b h1).1 h

theorem reach_base {s : State V} (h : Reach s) : TBase s.heap s.lists := by
  obtain ⟨hist, h⟩ := h; exact run_base init_base h

theorem get_view {s : State V} {i : Nat} {v : View V} (h : s.views[i]? = some v) (id off : Nat) :
    s.get i id off = lookup v.l id (v.bs + off) ∧ s.exists i id off = (lookup v.l id (v.bs + off)).isSome ∧
      s.size i = (v.be - v.bs).toNat := by
  obtain ⟨t, ht, rfl⟩ := view_some h
  refine ⟨by simp [State.get, ht, view], ?_, by simp [State.size, ht, view]⟩
  simp only [State.exists, ht, view, lookup, Option.isSome_map]
  cases hc : (entries s.heap t).find? (fun e => decide (e.id = id) && e.covers (t.bs + off)) with
  | none =>
    rw [List.find?_eq_none] at hc
    simp only [Option.isSome_none, List.any_eq_false]
    intro e he; exact hc e he
  | some e =>
    simp only [Option.isSome_some, List.any_eq_true]
    exact ⟨e, List.mem_of_find?_eq_some hc, by have := List.find?_some hc; exact this⟩

theorem same_view {s s' : State V} {i j : Nat} (h : s'.views[j]? = s.views[i]?) :
    (∀ id off, s'.get j id off = s.get i id off ∧ s'.exists j id off = s.exists i id off) ∧ s'.size j = s.size i := by
  cases hv : s.views[i]? with
  | some v =>
    rw [hv] at h
    refine ⟨fun id off => ?_, ?_⟩
    · rw [(get_view hv id off).1, (get_view h id off).1, (get_view hv id off).2.1, (get_view h id off).2.1]
      exact ⟨rfl, rfl⟩
    · rw [(get_view hv 0 0).2.2, (get_view h 0 0).2.2]
  | none =>
    rw [hv] at h
    have h1 : s.lists[i]? = none := by simpa [State.views] using hv
    have h2 : s'.lists[j]? = none := by simpa [State.views] using h
    simp [State.get, State.exists, State.size, h1, h2]

theorem run_match {s : State V} {S S' : List (SL V)} {hist : List (Op V)} (b : TBase s.heap s.lists)
    (m : Match s.views S) (h : specRun S hist = some S') :
    ∃ s', s.run hist = some s' ∧ TBase s'.heap s'.lists ∧ Match s'.views S' := by
  induction hist generalizing s S with
  | nil => cases h; exact ⟨s, rfl, b, m⟩
  | cons o os ih =>
    simp only [specRun] at h
    split at h
    · cases h
    · rename_i S1 h1
      obtain ⟨s1, q1, q2, q3⟩ := spec_step b m h1
      obtain ⟨s2, r1, r2, r3⟩ := ih q2 q3 h
      exact ⟨s2, by simp only [State.run, q1, r1], r2, r3⟩

/-! ### C15: a byte carries a tag exactly when that tag was put on it -/

/-- C15.  For every history in which no list is grown on a side that was cut: all operations are defined, and every
list has the bytes of its specification, each carrying exactly the tags of its specification. -/
theorem C15_refines (hist : List (Op V)) (S : List (SL V)) (h : specRun [] hist = some S) :
    ∃ s, State.init.run hist = some s ∧ s.lists.length = S.length ∧
      ∀ i x, S[i]? = some x → s.size i = x.bytes.length ∧
        ∀ off f, x.bytes[off]? = some f → ∀ id, s.get i id off = f id ∧ s.exists i id off = (f id).isSome := by
  obtain ⟨s, h1, h2, h3⟩ := run_match init_base (S := []) ⟨rfl, by simp⟩ h
  refine ⟨s, h1, ?_, ?_⟩
  · have := h3.1; simpa [State.views] using this
  · intro i x hx
    obtain ⟨v, hv, hr⟩ := h3.get hx
    have hl := hr.len
    refine ⟨by rw [(get_view hv 0 0).2.2]; omega, ?_⟩
    intro off f hf id
    obtain ⟨g1, g2, _⟩ := get_view hv id off
    rw [g1, g2, ← hr.found off f hf id]
    exact ⟨rfl, rfl⟩

theorem insert_of (s s' : State V) (b0 : TBase s.heap s.lists) (i id : Nat) (v : V) (start size : Nat)
    (h : s.step (.insert i id v start size) = some s') :
    s'.size i = s.size i ∧ ∀ off, off < s.size i →
      (start ≤ off ∧ off < start + size →
        s'.get i id off = some (match s.get i id off with | some w => w | none => v)) ∧
      (¬ (start ≤ off ∧ off < start + size) → s'.get i id off = s.get i id off) ∧
      ∀ id', id' ≠ id → s'.get i id' off = s.get i id' off := by
  obtain ⟨b, w, l, h1, h2, h3⟩ := step_base b0 h
  have hlt := lt_of h1
  have hw : s'.views[i]? = some ⟨w.bs, w.be, l ++ [⟨id, v, w.bs + start, w.bs + start + size⟩]⟩ := by
    rw [h3, List.getElem?_set_self hlt]
  have hsz : s.size i = (w.be - w.bs).toNat := (get_view h1 0 0).2.2
  refine ⟨by rw [hsz]; exact (get_view hw 0 0).2.2, ?_⟩
  intro off ho
  have key : ∀ id', s'.get i id' off = (s.get i id' off).or
      (if id = id' ∧ (start ≤ off ∧ off < start + size) then some v else none) := by
    intro id'
    rw [(get_view hw id' off).1, (get_view h1 id' off).1]
    simp only []
    rw [lookup_append, h2.lookup (by omega) (by omega), lookup_one]
    congr 1
    have hcov : (Idx.covers (⟨id, v, w.bs + start, w.bs + start + size⟩ : Idx V) (w.bs + off) = true) ↔
        (start ≤ off ∧ off < start + size) := by
      simp [Idx.covers]; omega
    simp only [hcov]
  refine ⟨fun hr => ?_, fun hr => ?_, fun id' hne => ?_⟩
  · rw [key, if_pos ⟨rfl, hr⟩]; cases s.get i id off <;> rfl
  · rw [key, if_neg (fun c => hr c.2)]; simp
  · rw [key, if_neg (fun c => hne c.1.symm)]; simp

theorem resize_of (s s' : State V) (b0 : TBase s.heap s.lists) (i n : Nat) :
    (s.step (.addStart i n) = some s' → s'.size i = s.size i + n ∧
      ∀ off, off < s.size i → ∀ id, s'.get i id (off + n) = s.get i id off) ∧
    (s.step (.addEnd i n) = some s' → s'.size i = s.size i + n ∧
      ∀ off, off < s.size i → ∀ id, s'.get i id off = s.get i id off) ∧
    (s.step (.removeStart i n) = some s' → s'.size i + n = s.size i ∧
      ∀ off id, s'.get i id off = s.get i id (off + n)) ∧
    (s.step (.removeEnd i n) = some s' → s'.size i + n = s.size i ∧
      ∀ off id, s'.get i id off = s.get i id off) := by
  refine ⟨fun h => ?_, fun h => ?_, fun h => ?_, fun h => ?_⟩
  · obtain ⟨b, v, v', h1, g, h3⟩ := step_base b0 h
    have hw : s'.views[i]? = some v' := by rw [h3, List.getElem?_set_self (lt_of h1)]
    have s1 := (get_view h1 0 0).2.2
    have s2 := (get_view hw 0 0).2.2
    obtain ⟨t, ht, rfl⟩ := view_some h1
    have hle := b0.le t (List.mem_of_getElem? ht)
    have g1 := g.bs
    have g2 := g.be
    simp only [view] at s1 g1 g2
    refine ⟨by omega, fun off ho id => ?_⟩
    rw [(get_view hw id _).1, (get_view h1 id _).1, ← g.kept.lookup (p := (view s.heap t).bs + off)
      (by simp only [view]; omega) (by simp only [view]; omega)]
    congr 1; simp only [view]; push_cast; omega
  · obtain ⟨b, v, v', h1, g, h3⟩ := step_base b0 h
    have hw : s'.views[i]? = some v' := by rw [h3, List.getElem?_set_self (lt_of h1)]
    have s1 := (get_view h1 0 0).2.2
    have s2 := (get_view hw 0 0).2.2
    obtain ⟨t, ht, rfl⟩ := view_some h1
    have hle := b0.le t (List.mem_of_getElem? ht)
    have g1 := g.bs
    have g2 := g.be
    simp only [view] at s1 g1 g2
    refine ⟨by omega, fun off ho id => ?_⟩
    rw [(get_view hw id _).1, (get_view h1 id _).1, ← g.kept.lookup (p := (view s.heap t).bs + off)
      (by simp only [view]; omega) (by simp only [view]; omega)]
    congr 1; simp only [view]; omega
  · have hok := step_some_ok h
    obtain ⟨b, v, h1, h3⟩ := step_base b0 h
    have hw : s'.views[i]? = some ⟨v.bs + n, v.be, v.l⟩ := by rw [h3, List.getElem?_set_self (lt_of h1)]
    obtain ⟨w, hw1, hle⟩ := hok
    have := get_eq h1 hw1; subst this
    have s1 := (get_view h1 0 0).2.2
    have s2 := (get_view hw 0 0).2.2
    simp only [] at s2
    refine ⟨by omega, fun off id => ?_⟩
    rw [(get_view hw id _).1, (get_view h1 id _).1]
    congr 1; push_cast; omega
  · have hok := step_some_ok h
    obtain ⟨b, v, h1, h3⟩ := step_base b0 h
    have hw : s'.views[i]? = some ⟨v.bs, v.be - n, v.l⟩ := by rw [h3, List.getElem?_set_self (lt_of h1)]
    obtain ⟨w, hw1, hle⟩ := hok
    have := get_eq h1 hw1; subst this
    have s1 := (get_view h1 0 0).2.2
    have s2 := (get_view hw 0 0).2.2
    simp only [] at s2
    refine ⟨by omega, fun off id => ?_⟩
    rw [(get_view hw id _).1, (get_view h1 id _).1]

/-- C15, one insertion in any reachable state (also after cutting and growing): exactly the bytes of the range get
the tag, unless they already have one of that id; no other byte and no other tag changes. -/
theorem C15_insert (s s' : State V) (hs : Reach s) (i id : Nat) (v : V) (start size : Nat)
    (h : s.step (.insert i id v start size) = some s') :
    s'.size i = s.size i ∧ ∀ off, off < s.size i →
      (start ≤ off ∧ off < start + size →
        s'.get i id off = some (match s.get i id off with | some w => w | none => v)) ∧
      (¬ (start ≤ off ∧ off < start + size) → s'.get i id off = s.get i id off) ∧
      ∀ id', id' ≠ id → s'.get i id' off = s.get i id' off :=
  insert_of s s' (reach_base hs) i id v start size h

/-- C15, resizing in any reachable state: the bytes that stay keep exactly their tags. -/
theorem C15_resize (s s' : State V) (hs : Reach s) (i n : Nat) :
    (s.step (.addStart i n) = some s' → s'.size i = s.size i + n ∧
      ∀ off, off < s.size i → ∀ id, s'.get i id (off + n) = s.get i id off) ∧
    (s.step (.addEnd i n) = some s' → s'.size i = s.size i + n ∧
      ∀ off, off < s.size i → ∀ id, s'.get i id off = s.get i id off) ∧
    (s.step (.removeStart i n) = some s' → s'.size i + n = s.size i ∧
      ∀ off id, s'.get i id off = s.get i id (off + n)) ∧
    (s.step (.removeEnd i n) = some s' → s'.size i + n = s.size i ∧
      ∀ off id, s'.get i id off = s.get i id off) :=
  resize_of s s' (reach_base hs) i n

/-- A history that meets the hypothesis of `C15_refines`: two overlapping tags, a copy, concatenation and cutting. -/
def sample : List (Op Nat) :=
  [.new, .addEnd 0 4, .insert 0 7 70 1 2, .insert 0 8 80 0 3, .insert 0 7 71 2 2, .copy 0, .addStart 1 1,
    .insert 1 9 90 0 1, .addListEnd 0 1, .removeStart 0 2]

example : ((specRun [] sample).map fun S => S.map fun x => x.bytes.map fun f => (f 7, f 8, f 9)) =
    some [[(some 70, some 80, none), (some 71, none, none), (none, none, some 90), (none, some 80, none),
        (some 70, some 80, none), (some 70, some 80, none), (some 71, none, none)],
      [(none, none, some 90), (none, some 80, none), (some 70, some 80, none), (some 70, some 80, none),
        (some 71, none, none)]] := by rfl

/-! ### C16: copies of a tag list are isolated -/

/-- The lists an operation changes. -/
def Op.targets : Op V → List Nat
  | .new | .newCap _ _ | .copy _ => []
  | .assign i _ | .destroy i | .addStart i _ | .addEnd i _ | .removeStart i _ | .removeEnd i _
  | .insert i _ _ _ _ | .addListStart i _ | .addListEnd i _ => [i]
  | .swap i j => [i, j]

theorem frame {s s' : State V} {o : Op V} (b : TBase s.heap s.lists) (h : s.step o = some s') {k : Nat}
    (hk : k < s.lists.length) (hn : k ∉ o.targets) : s'.views[k]? = s.views[k]? ∧ k < s'.lists.length := by
  have hv := (step_base b h).2
  have hk' : k < s.views.length := view_lt.mpr hk
  have fin : s'.views[k]? = s.views[k]? → s'.views[k]? = s.views[k]? ∧ k < s'.lists.length := by
    intro e
    refine ⟨e, ?_⟩
    rw [List.getElem?_eq_getElem hk'] at e
    exact view_lt.mp (lt_of e)
  apply fin
  cases o with
  | new => rw [hv, List.getElem?_append_left hk']
  | newCap cap n => obtain ⟨v, h1, _⟩ := hv; rw [h1, List.getElem?_append_left hk']
  | copy j => obtain ⟨v, _, h1⟩ := hv; rw [h1, List.getElem?_append_left hk']
  | assign i j =>
    obtain ⟨v, _, h1⟩ := hv
    rw [h1, List.getElem?_set_ne (by simp [Op.targets] at hn; omega)]
  | swap i j =>
    obtain ⟨v, w, _, _, h1⟩ := hv
    simp only [Op.targets, List.mem_cons, List.not_mem_nil, or_false, not_or] at hn
    rw [h1, List.getElem?_set_ne (fun e => hn.2 e.symm), List.getElem?_set_ne (fun e => hn.1 e.symm)]
  | destroy i => rw [hv, List.getElem?_set_ne (by simp [Op.targets] at hn; omega)]
  | addStart i n | addEnd i n =>
    obtain ⟨v, v', _, _, h1⟩ := hv
    rw [h1, List.getElem?_set_ne (by simp [Op.targets] at hn; omega)]
  | removeStart i n | removeEnd i n =>
    obtain ⟨v, _, h1⟩ := hv
    rw [h1, List.getElem?_set_ne (by simp [Op.targets] at hn; omega)]
  | insert i id v start size =>
    obtain ⟨v, l, _, _, h1⟩ := hv
    rw [h1, List.getElem?_set_ne (by simp [Op.targets] at hn; omega)]
  | addListStart i j | addListEnd i j =>
    obtain ⟨v, w, v', _, _, _, h1⟩ := hv
    rw [h1, List.getElem?_set_ne (by simp [Op.targets] at hn; omega)]

/-- C16.  Whatever is done to other lists, and however they share arrays with this one, this list keeps its bytes
and every byte keeps exactly its tags. -/
theorem C16_isolated (s s' : State V) (hs : Reach s) (hist : List (Op V)) (h : s.run hist = some s') (k : Nat)
    (hk : k < s.lists.length) (hn : ∀ o ∈ hist, k ∉ o.targets) :
    s'.size k = s.size k ∧ ∀ id off, s'.get k id off = s.get k id off ∧ s'.exists k id off = s.exists k id off := by
  have b := reach_base hs
  have key : s'.views[k]? = s.views[k]? := by
    clear hs
    induction hist generalizing s with
    | nil => cases h; rfl
    | cons o os ih =>
      simp only [State.run] at h
      split at h
      · cases h
      · rename_i s1 h1
        have hf := frame b h1 hk (hn o (List.mem_cons_self ..))
        rw [ih s1 h hf.2 (fun o ho => hn o (List.mem_cons_of_mem _ ho)) (step_base b h1).1, hf.1]
  have := same_view key
  exact ⟨this.2, this.1⟩

/-- C16, the other half: a copy starts with the bytes and tags of its source, an assignment takes them over. -/
theorem C16_copy (s s' : State V) (hs : Reach s) (j : Nat) (h : s.step (.copy j) = some s') :
    s'.size s.lists.length = s.size j ∧ ∀ id off, s'.get s.lists.length id off = s.get j id off := by
  obtain ⟨_, v, h1, h2⟩ := step_base (reach_base hs) h
  have : s'.views[s.lists.length]? = s.views[j]? := by
    rw [h2, h1, show s.lists.length = s.views.length by simp [State.views]]; simp
  have := same_view this
  exact ⟨this.2, fun id off => (this.1 id off).1⟩

theorem C16_assign (s s' : State V) (hs : Reach s) (i j : Nat) (h : s.step (.assign i j) = some s') :
    s'.size i = s.size j ∧ ∀ id off, s'.get i id off = s.get j id off := by
  have hok := step_some_ok h
  obtain ⟨_, v, h1, h2⟩ := step_base (reach_base hs) h
  have : s'.views[i]? = s.views[j]? := by
    rw [h2, h1, List.getElem?_set_self hok.1]
  have := same_view this
  exact ⟨this.2, fun id off => (this.1 id off).1⟩

/-- C16.  Every array is alive exactly while some list uses it, so nothing is leaked and nothing is used after it is
freed: when the last list is destroyed no array is left. -/
theorem C16_no_leak (s : State V) (hs : Reach s) (h : ∀ t ∈ s.lists, t.tia = none) (a : Nat) : s.heap.mem a = none := by
  cases hm : s.heap.mem a with
  | none => rfl
  | some x =>
    have := (reach_base hs).refs a x hm
    have h0 : s.lists.countP (fun t => decide (t.tia = some a)) = 0 :=
      List.countP_eq_zero.mpr (fun t ht => by simp [h t ht])
    omega

/-- Two copies that append to the shared array in turn. -/
def forked : List (Op Nat) :=
  [.new, .addEnd 0 3, .insert 0 1 10 0 1, .copy 0, .insert 0 2 20 1 1, .insert 1 3 30 1 1, .insert 0 4 40 2 1]

example : ((State.init.run forked).map fun s => (s.get 0 2 1, s.get 0 3 1, s.get 1 2 1, s.get 1 3 1, s.get 1 1 0)) =
    some (some 20, none, none, some 30, some 10) := by rfl

/-! ### C17: freshly added bytes carry no tags -/

/-- C17, as far as it holds (missing: lists that were cut on the side that grows, where it is false, see
`C17_fails`). -/
theorem C17_fresh_partial (hist : List (Op V)) (S : List (SL V)) (h : specRun [] hist = some S) (i : Nat) (x : SL V)
    (hx : S[i]? = some x) (n : Nat) :
    (x.cutS = false → ∃ s, State.init.run (hist ++ [.addStart i n]) = some s ∧
      ∀ off, off < n → ∀ id, s.get i id off = none) ∧
    (x.cutE = false → ∃ s, State.init.run (hist ++ [.addEnd i n]) = some s ∧
      ∀ off, x.bytes.length ≤ off → off < x.bytes.length + n → ∀ id, s.get i id off = none) := by
  have app : ∀ (hist : List (Op V)) (A B C : List (SL V)) (o : Op V), specRun A hist = some B → specStep B o = some C →
      specRun A (hist ++ [o]) = some C := by
    intro hist
    induction hist with
    | nil => intro A B C o h1 h2; cases h1; simp [specRun, h2]
    | cons p ps ih =>
      intro A B C o h1 h2
      simp only [specRun, List.cons_append] at h1 ⊢
      split at h1
      · cases h1
      · exact ih _ _ _ _ h1 h2
  have hlt := lt_of hx
  constructor
  · intro hc
    have e := app hist _ _ _ (.addStart i n) h (by simp only [specStep, specOn, hx, if_pos hc]; rfl)
    obtain ⟨s, h1, _, h3⟩ := C15_refines _ _ e
    refine ⟨s, h1, fun off ho id => ?_⟩
    have h4 := h3 i _ (List.getElem?_set_self hlt)
    have h5 := h4.2 off bare (by
      rw [List.getElem?_append_left (by simpa using ho), List.getElem?_replicate, if_pos ho]) id
    exact h5.1
  · intro hc
    have e := app hist _ _ _ (.addEnd i n) h (by simp only [specStep, specOn, hx, if_pos hc]; rfl)
    obtain ⟨s, h1, _, h3⟩ := C15_refines _ _ e
    refine ⟨s, h1, fun off ho1 ho2 id => ?_⟩
    have h4 := h3 i _ (List.getElem?_set_self hlt)
    have h5 := h4.2 off bare (by
      rw [List.getElem?_append_right ho1, List.getElem?_replicate, if_pos (by omega)]) id
    exact h5.1

/-- C17, in every reachable state whose list still has bytes: a fresh byte can only carry an id that the neighbouring
edge byte carried. -/
theorem C17_edge_partial (s s' : State V) (hs : Reach s) (i n : Nat) (hne : 0 < s.size i) (id : Nat) :
    (s.step (.addStart i n) = some s' → s.get i id 0 = none → ∀ off, off < n → s'.get i id off = none) ∧
    (s.step (.addEnd i n) = some s' → s.get i id (s.size i - 1) = none →
      ∀ off, s.size i ≤ off → off < s.size i + n → s'.get i id off = none) := by
  have b0 := reach_base hs
  constructor
  · intro h h0 off ho
    obtain ⟨b, v, v', h1, g, h3⟩ := step_base b0 h
    have hw : s'.views[i]? = some v' := by rw [h3, List.getElem?_set_self (lt_of h1)]
    rw [(get_view hw id off).1]
    have s1 := (get_view h1 0 0).2.2
    have g1 := g.bs
    have g2 := g.be
    cases hl : lookup v'.l id (v'.bs + off) with
    | none => rfl
    | some a =>
      obtain ⟨e, he, hid, hc, _⟩ := lookup_mem hl
      have hh := g.fresh e he (covers_has hc (by omega) (by omega))
      have hc0 : e.covers v.bs = true := by
        simp [Idx.covers, Idx.has] at hc hh ⊢; omega
      have := lookup_isSome (g.kept.2 e he) hc0
      rw [(get_view h1 id 0).1] at h0
      rw [hid, show v.bs = v.bs + ((0 : Nat) : Int) by simp, h0] at this
      cases this
  · intro h h0 off ho1 ho2
    obtain ⟨b, v, v', h1, g, h3⟩ := step_base b0 h
    have hw : s'.views[i]? = some v' := by rw [h3, List.getElem?_set_self (lt_of h1)]
    rw [(get_view hw id off).1]
    have s1 := (get_view h1 0 0).2.2
    have g1 := g.bs
    have g2 := g.be
    cases hl : lookup v'.l id (v'.bs + off) with
    | none => rfl
    | some a =>
      obtain ⟨e, he, hid, hc, _⟩ := lookup_mem hl
      have hh := g.fresh e he (covers_has hc (by omega) (by omega))
      have hc0 : e.covers (v.bs + ((s.size i - 1 : Nat) : Int)) = true := by
        simp [Idx.covers, Idx.has] at hc hh ⊢; omega
      have := lookup_isSome (g.kept.2 e he) hc0
      rw [(get_view h1 id _).1] at h0
      rw [hid, h0] at this
      cases this

/-- C17 fails: cut a tagged edge and grow again, the fresh bytes carry the tag. -/
theorem C17_fails : ((State.init.run (V := Nat)
      [.new, .addEnd 0 4, .insert 0 7 70 0 4, .removeStart 0 2, .addStart 0 2]).map fun s => (s.get 0 7 0, s.get 0 7 1)) =
    some (some 70, some 70) := by rfl

/-- C17 fails even when the list has lost all its bytes in between. -/
theorem C17_empty_fails :
    ((State.init.run (V := Nat)
      [.new, .addEnd 0 3, .insert 0 7 70 0 3, .removeStart 0 1, .removeEnd 0 2]).map fun s => s.size 0) = some 0 ∧
    ((State.init.run (V := Nat)
      [.new, .addEnd 0 3, .insert 0 7 70 0 3, .removeStart 0 1, .removeEnd 0 2, .addEnd 0 2]).map fun s =>
        (s.get 0 7 0, s.get 0 7 1)) = some (some 70, some 70) := ⟨rfl, rfl⟩

/-- The hypotheses of `C17_fresh_partial` and `C17_edge_partial` hold for a list with a tag and bytes cut at the other side. -/
example : ((specRun (V := Nat) [] [.new, .addEnd 0 4, .insert 0 7 70 1 3, .removeEnd 0 2]).map fun S =>
    S.map fun x => (x.cutS, x.cutE, x.bytes.map fun f => f 7)) = some [(false, true, [none, some 70])] := by rfl

/-! ### C18: concatenating tag lists keeps every byte's tags -/

/-- C18, as far as it holds (missing: an operand that was cut on the side where the two are joined, where it is
false, see `C18_spill_fails`). -/
theorem C18_concat_partial (hist : List (Op V)) (S : List (SL V)) (h : specRun [] hist = some S) (i j : Nat)
    (x y : SL V) (hx : S[i]? = some x) (hy : S[j]? = some y) :
    (x.cutS = false → y.cutE = false → ∃ s, State.init.run (hist ++ [.addListStart i j]) = some s ∧
      s.size i = y.bytes.length + x.bytes.length ∧
      ∀ off f, (y.bytes ++ x.bytes)[off]? = some f → ∀ id, s.get i id off = f id) ∧
    (x.cutE = false → y.cutS = false → ∃ s, State.init.run (hist ++ [.addListEnd i j]) = some s ∧
      s.size i = x.bytes.length + y.bytes.length ∧
      ∀ off f, (x.bytes ++ y.bytes)[off]? = some f → ∀ id, s.get i id off = f id) := by
  have app : ∀ (hist : List (Op V)) (A B C : List (SL V)) (o : Op V), specRun A hist = some B → specStep B o = some C →
      specRun A (hist ++ [o]) = some C := by
    intro hist
    induction hist with
    | nil => intro A B C o h1 h2; cases h1; simp [specRun, h2]
    | cons p ps ih =>
      intro A B C o h1 h2
      simp only [specRun, List.cons_append] at h1 ⊢
      split at h1
      · cases h1
      · exact ih _ _ _ _ h1 h2
  have hlt := lt_of hx
  constructor
  · intro hc hd
    have e := app hist _ _ _ (.addListStart i j) h (by simp only [specStep, hy, specOn, hx, if_pos (And.intro hc hd)]; rfl)
    obtain ⟨s, h1, _, h3⟩ := C15_refines _ _ e
    have h4 := h3 i _ (List.getElem?_set_self hlt)
    exact ⟨s, h1, by simpa using h4.1, fun off f hf id => (h4.2 off f hf id).1⟩
  · intro hc hd
    have e := app hist _ _ _ (.addListEnd i j) h (by simp only [specStep, hy, specOn, hx, if_pos (And.intro hc hd)]; rfl)
    obtain ⟨s, h1, _, h3⟩ := C15_refines _ _ e
    have h4 := h3 i _ (List.getElem?_set_self hlt)
    exact ⟨s, h1, by simpa using h4.1, fun off f hf id => (h4.2 off f hf id).1⟩

theorem no_loss_of (s s' : State V) (b0 : TBase s.heap s.lists) (i j : Nat) :
    (s.step (.addListStart i j) = some s' → s'.size i = s.size j + s.size i ∧
      (∀ off id v, off < s.size i → s.get i id off = some v → s'.get i id (s.size j + off) = some v) ∧
      (∀ off id, off < s.size j → (s.get j id off).isSome → (s'.get i id off).isSome)) ∧
    (s.step (.addListEnd i j) = some s' → s'.size i = s.size i + s.size j ∧
      (∀ off id v, off < s.size i → s.get i id off = some v → s'.get i id off = some v) ∧
      (∀ off id, off < s.size j → (s.get j id off).isSome → (s'.get i id (s.size i + off)).isSome)) := by
  constructor
  · intro h
    obtain ⟨b, v, w, v', h1, h2, ⟨u, g, e1, e2, hf, hm⟩, h3⟩ := step_base b0 h
    have hw : s'.views[i]? = some v' := by rw [h3, List.getElem?_set_self (lt_of h1)]
    have si := (get_view h1 0 0).2.2
    have sj := (get_view h2 0 0).2.2
    have si' := (get_view hw 0 0).2.2
    have g1 := g.bs
    have g2 := g.be
    obtain ⟨t, ht, rfl⟩ := view_some h1
    obtain ⟨r, hr, rfl⟩ := view_some h2
    have l1 := b0.le t (List.mem_of_getElem? ht)
    have l2 := b0.le r (List.mem_of_getElem? hr)
    have k1 : (view s.heap t).bs ≤ (view s.heap t).be := l1
    have k2 : (view s.heap r).bs ≤ (view s.heap r).be := l2
    refine ⟨by omega, fun off id a ho hg => ?_, fun off id ho hg => ?_⟩
    · rw [(get_view h1 id off).1] at hg
      rw [(get_view hw id _).1, hf id _ (by push_cast; omega) (by push_cast; omega)]
      rw [show v'.bs + ((s.size j + off : Nat) : Int) = (view s.heap t).bs + off by push_cast; omega]
      rw [g.kept.lookup (by omega) (by omega), hg]; rfl
    · rw [(get_view h2 id off).1] at hg
      rw [(get_view hw id _).1, hf id _ (by omega) (by omega)]
      rw [show v'.bs + (off : Int) - (v'.bs - (view s.heap r).bs) = (view s.heap r).bs + off by omega]
      rw [Option.isSome_or, hg]; simp
  · intro h
    obtain ⟨b, v, w, v', h1, h2, ⟨u, g, e1, e2, hf, hm⟩, h3⟩ := step_base b0 h
    have hw : s'.views[i]? = some v' := by rw [h3, List.getElem?_set_self (lt_of h1)]
    have si := (get_view h1 0 0).2.2
    have sj := (get_view h2 0 0).2.2
    have si' := (get_view hw 0 0).2.2
    have g1 := g.bs
    have g2 := g.be
    obtain ⟨t, ht, rfl⟩ := view_some h1
    obtain ⟨r, hr, rfl⟩ := view_some h2
    have l1 := b0.le t (List.mem_of_getElem? ht)
    have l2 := b0.le r (List.mem_of_getElem? hr)
    have k1 : (view s.heap t).bs ≤ (view s.heap t).be := l1
    have k2 : (view s.heap r).bs ≤ (view s.heap r).be := l2
    refine ⟨by omega, fun off id a ho hg => ?_, fun off id ho hg => ?_⟩
    · rw [(get_view h1 id off).1] at hg
      rw [(get_view hw id _).1, hf id _ (by omega) (by omega)]
      rw [show v'.bs + (off : Int) = (view s.heap t).bs + off by omega]
      rw [g.kept.lookup (by omega) (by omega), hg]; rfl
    · rw [(get_view h2 id off).1] at hg
      rw [(get_view hw id _).1, hf id _ (by push_cast; omega) (by push_cast; omega)]
      rw [show v'.bs + ((s.size i + off : Nat) : Int) - (v'.be - (view s.heap r).be) = (view s.heap r).bs + off by push_cast; omega]
      rw [Option.isSome_or, hg]; simp

/-- C18, the half that always holds: no byte loses a tag, and the bytes of the list that is added to keep the values
of their tags. -/
theorem C18_no_loss (s s' : State V) (hs : Reach s) (i j : Nat) :
    (s.step (.addListStart i j) = some s' → s'.size i = s.size j + s.size i ∧
      (∀ off id v, off < s.size i → s.get i id off = some v → s'.get i id (s.size j + off) = some v) ∧
      (∀ off id, off < s.size j → (s.get j id off).isSome → (s'.get i id off).isSome)) ∧
    (s.step (.addListEnd i j) = some s' → s'.size i = s.size i + s.size j ∧
      (∀ off id v, off < s.size i → s.get i id off = some v → s'.get i id off = some v) ∧
      (∀ off id, off < s.size j → (s.get j id off).isSome → (s'.get i id (s.size i + off)).isSome)) :=
  no_loss_of s s' (reach_base hs) i j

/-- C18 fails: a tag that was cut at the end of the prepended list spills over to the bytes of the other list. -/
theorem C18_spill_fails : ((State.init.run (V := Nat)
      [.new, .addEnd 0 4, .insert 0 7 70 0 4, .removeEnd 0 2, .new, .addEnd 1 3, .addListStart 1 0]).map fun s =>
        (s.size 1, s.get 1 7 1, s.get 1 7 2, s.get 1 7 3, s.get 1 7 4)) =
    some (5, some 70, some 70, some 70, none) := by rfl

/-- A list can be added to itself. -/
example : ((specRun (V := Nat) [] [.new, .addEnd 0 2, .insert 0 7 70 0 1, .addListStart 0 0]).map fun S =>
    S.map fun x => x.bytes.map fun f => f 7) = some [[some 70, none, some 70, none]] := by rfl

end Verif.Tag
