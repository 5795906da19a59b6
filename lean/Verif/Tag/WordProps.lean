import Verif.Tag.WordLemmas

/-! Property C149: the positions of tags do not wrap as long as no list has tracked too many bytes. -/
namespace Verif.Tag

variable {V : Type}

theorem wrun_of {hist : List (Op V)} {s s' : State V} {W : List Nat} (b : TBase s.heap s.lists) (m : Ins s.views W)
    (hW : ∀ w ∈ W, w ≤ 2 ^ 63 - 1) (hf : Fits (2 ^ 63 - 1) W hist) (h : s.run hist = some s') :
    s.wrun hist = some s' ∧ ∃ W', Ins s'.views W' ∧ ∀ w ∈ W', w ≤ 2 ^ 63 - 1 := by
  induction hist generalizing s W with
  | nil => cases h; exact ⟨rfl, W, m, hW⟩
  | cons o os ih =>
    simp only [State.run] at h
    cases h1 : s.step o with
    | none => rw [h1] at h; cases h
    | some s1 =>
      rw [h1] at h
      have hp : o.plain s := by
        have ho := step_some_ok h1
        cases o with
        | removeStart i n =>
          intro t ht
          obtain ⟨v, p1, p2⟩ := ho
          rw [view_get ht] at p1; cases p1
          obtain ⟨q1, lo, hi, k1, k2, k3, k4, k5, k6, k7⟩ := m.get (view_get ht)
          have := hW _ (List.mem_of_getElem? q1)
          simp only [view] at p2 k6
          omega
        | removeEnd i n =>
          intro t ht
          obtain ⟨v, p1, p2⟩ := ho
          rw [view_get ht] at p1; cases p1
          obtain ⟨q1, lo, hi, k1, k2, k3, k4, k5, k6, k7⟩ := m.get (view_get ht)
          have := hW _ (List.mem_of_getElem? q1)
          simp only [view] at p2 k6
          omega
        | insert i id x start size =>
          obtain ⟨p0, v, p1, p2⟩ := ho
          obtain ⟨q1, lo, hi, k1, k2, k3, k4, k5, k6, k7⟩ := m.get p1
          have := hW _ (List.mem_of_getElem? q1)
          show start + size < 2 ^ 64
          omega
        | _ => trivial
      simp only [State.wrun, wstep_eq b m hW hf.1 hp, h1]
      exact ih (step_base b h1).1 (step_ins b m h1) hf.1 hf.2 h

/-- C149.  For every history in which no list tracks more than `2^63 - 1` bytes, counting removed ones: if the operations are defined over
unbounded positions, then in 64 bits all assertions hold and the lists are the same. -/
theorem C149_run (hist : List (Op V)) (s : State V) (hf : Fits (2 ^ 63 - 1) [] hist) (h : State.init.run hist = some s) :
    State.init.wrun hist = some s :=
  (wrun_of init_base ⟨rfl, by simp [State.views, State.init]⟩ (by simp) hf h).1

/-- C149, what is found: `Get` at every offset inside the bytes of a list. -/
theorem C149_get (hist : List (Op V)) (s : State V) (hf : Fits (2 ^ 63 - 1) [] hist) (h : State.init.run hist = some s)
    (i id off : Nat) (ho : off < s.size i) : s.wget i id off = some (s.get i id off) := by
  obtain ⟨_, W, m, hW⟩ := wrun_of init_base ⟨rfl, by simp [State.views, State.init]⟩ (by simp) hf h
  unfold State.size at ho
  cases ht : s.lists[i]? with
  | none => rw [ht] at ho; simp at ho
  | some t =>
    rw [ht] at ho
    simp only at ho
    obtain ⟨q1, lo, hi, k1, k2, k3, k4, k5, k6, k7⟩ := m.get (view_get ht)
    have := hW _ (List.mem_of_getElem? q1)
    simp only [view] at k4 k5 k6
    simp only [State.wget, State.get, ht]
    rw [wsize_id (by omega) (by omega), if_pos ho, wpos_id (by unfold REF; omega) (by omega)]

/-- C149, with C15: in 64 bits, every byte carries exactly the tags that were put on it, for histories in which no list is grown on a side
that was cut (as in C15) and none tracks more than `2^63 - 1` bytes. -/
theorem C149_tags (hist : List (Op V)) (S : List (SL V)) (h : specRun [] hist = some S) (hf : Fits (2 ^ 63 - 1) [] hist) :
    ∃ s, State.init.wrun hist = some s ∧ s.lists.length = S.length ∧
      ∀ i x, S[i]? = some x → ∀ off f, x.bytes[off]? = some f → ∀ id, s.wget i id off = some (f id) := by
  obtain ⟨s, h1, h2, h3⟩ := C15_refines hist S h
  refine ⟨s, C149_run hist s hf h1, h2, fun i x hx off f hof id => ?_⟩
  obtain ⟨k1, k2⟩ := h3 i x hx
  rw [C149_get hist s hf h1 i id off (by rw [k1]; exact (List.getElem?_eq_some_iff.mp hof).1), (k2 off f hof id).1]

/-- The sizes and offsets that an operation takes from a list or puts in it are at most `m`. -/
def Op.small (m : Nat) : Op V → Prop
  | .removeStart _ n | .removeEnd _ n => n ≤ m
  | .insert _ _ _ start size => start ≤ m ∧ size ≤ m
  | _ => True

theorem wrun_equal {hist : List (Op V)} {s : State V} {W : List Nat} (b : TBase s.heap s.lists) (m : Ins s.views W)
    (hW : ∀ w ∈ W, w ≤ 2 ^ 62) (hf : Fits (2 ^ 62) W hist) (ha : ∀ o ∈ hist, o.small (2 ^ 62)) :
    s.wrun hist = s.run hist := by
  induction hist generalizing s W with
  | nil => rfl
  | cons o os ih =>
    have hp : o.plain s := by
      have ho := ha o (List.mem_cons_self ..)
      cases o with
      | removeStart i n =>
        intro t ht
        obtain ⟨q1, lo, hi, k1, k2, k3, k4, k5, k6, k7⟩ := m.get (view_get ht)
        have := hW _ (List.mem_of_getElem? q1)
        have ho : n ≤ 2 ^ 62 := ho
        simp only [view] at k5 k6
        omega
      | removeEnd i n =>
        intro t ht
        obtain ⟨q1, lo, hi, k1, k2, k3, k4, k5, k6, k7⟩ := m.get (view_get ht)
        have := hW _ (List.mem_of_getElem? q1)
        have ho : n ≤ 2 ^ 62 := ho
        simp only [view] at k5 k6
        omega
      | insert i id x start size =>
        have ho : start ≤ 2 ^ 62 ∧ size ≤ 2 ^ 62 := ho
        show start + size < 2 ^ 64
        omega
      | _ => trivial
    have hs := wstep_eq b m (fun w h => by have := hW w h; omega) (fun w h => by have := hf.1 w h; omega) hp
    simp only [State.wrun, State.run, hs]
    cases h1 : s.step o with
    | none => rfl
    | some s1 => exact ih (step_base b h1).1 (step_ins b m h1) hf.1 hf.2 fun o h => ha o (List.mem_cons_of_mem _ h)

/-- C149, with the failed assertions: if no list tracks more than `2^62` bytes and no size or offset is larger, the assertions of the code
fail exactly where a size is too large. -/
theorem C149_assert_partial (hist : List (Op V)) (hf : Fits (2 ^ 62) [] hist) (ha : ∀ o ∈ hist, o.small (2 ^ 62)) :
    State.init.wrun hist = State.init.run hist :=
  wrun_equal init_base ⟨rfl, by simp [State.views, State.init]⟩ (by simp) hf ha

/-- C149 fails for the assertions in general: removing `2^64 - 1` bytes from a list of three passes the assertion, and the list has four
bytes; putting a tag on one byte at offset `2^64 - 1` passes, too. -/
theorem C149_assert_fails :
    ((State.init.wrun (V := Nat) [.new, .addEnd 0 3, .removeStart 0 (2 ^ 64 - 1)]).map fun s => s.size 0) = some 4 ∧
    (State.init.wrun (V := Nat) [.new, .addEnd 0 3, .insert 0 7 70 (2 ^ 64 - 1) 1]).isSome = true ∧
    (State.init.run (V := Nat) [.new, .addEnd 0 3, .removeStart 0 (2 ^ 64 - 1)]).isNone = true ∧
    (State.init.run (V := Nat) [.new, .addEnd 0 3, .insert 0 7 70 (2 ^ 64 - 1) 1]).isNone = true := by
  decide +kernel

/-- C149, removed bytes count: a list that tracks no byte refuses to grow by two, after `2^63` were added and removed. -/
theorem C149_drift_fails :
    ((State.init.wrun (V := Nat) [.new, .addEnd 0 (2 ^ 63), .removeStart 0 (2 ^ 63)]).map fun s => s.size 0) = some 0 ∧
    (State.init.wrun (V := Nat) [.new, .addEnd 0 (2 ^ 63), .removeStart 0 (2 ^ 63), .addEnd 0 2]).isNone = true := by
  decide +kernel

/-- The sample of C15 meets the hypotheses. -/
example : Fits (2 ^ 62) [] sample ∧ (specRun [] sample).isSome = true := by
  constructor
  · simp [Fits, sample, track]
  · rfl

example : (∀ o ∈ sample, o.small (2 ^ 62)) := by simp [sample, Op.small]

end Verif.Tag
