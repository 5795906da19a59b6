import Verif.Tag.Throw

/-!
Property theorems about tag lists that find no memory (C141).

A history consists of operations that return and operations that throw because there is no memory.
-/
set_option linter.unusedSimpArgs false
set_option linter.unusedVariables false
namespace Verif.Tag

variable {V : Type}

/-- Reached by a history in which any operation that allocates may throw instead of returning. -/
def ReachE (s : State V) : Prop := ∃ hist, State.init.runE hist = some s

theorem reachE_base {s : State V} (h : ReachE s) : TBase s.heap s.lists := by
  obtain ⟨hist, h⟩ := h; exact runE_base init_base h

/-- C141, tag lists.  A constructor, `AddAtStart(size)`, `AddAtEnd(size)` or `Insert` that finds no memory changes nothing: every list
tracks as many bytes as before and every byte has exactly its tags. -/
theorem C141_tags (s s' : State V) (hs : ReachE s) (o : Op V) (m : Nat) (h : s.fail m o = some s') (ho : o.once = true) (k : Nat) :
    s'.lists.length = s.lists.length ∧ s'.size k = s.size k ∧
      ∀ id off, off < s.size k → s'.get k id off = s.get k id off ∧ s'.exists k id off = s.exists k id off := by
  have f := fail_ok (reachE_base hs) h
  refine ⟨f.len, ?_⟩
  by_cases hk : k < s.views.length
  · have hv := List.getElem?_eq_getElem hk
    obtain ⟨v', hv', g⟩ := f.once ho k _ hv
    have s1 := (get_view hv 0 0).2.2
    have s2 := (get_view hv' 0 0).2.2
    have g1 := g.bs
    have g2 := g.be
    refine ⟨by rw [s1, s2, g1, g2]; simp, fun id off hoff => ?_⟩
    have e := g.kept.lookup (p := s.views[k].bs + off) (id := id) (by omega) (by omega)
    rw [(get_view hv id off).1, (get_view hv' id off).1, (get_view hv id off).2.1, (get_view hv' id off).2.1, g1]
    simp only [Int.natCast_zero, Int.sub_zero]
    exact ⟨e, by rw [e]⟩
  · have e1 : s.lists[k]? = none := List.getElem?_eq_none_iff.mpr (by rw [view_lt] at hk; omega)
    have e2 : s'.lists[k]? = none := List.getElem?_eq_none_iff.mpr (by rw [view_lt] at hk; rw [f.len]; omega)
    refine ⟨by simp [State.size, e1, e2], fun id off _ => by simp [State.get, State.exists, e1, e2]⟩

/-- C141, concatenation.  `AddAtStart(list)` and `AddAtEnd(list)` that find no memory leave every other list alone. -/
theorem C141_tags_others (s s' : State V) (hs : ReachE s) (o : Op V) (m : Nat) (h : s.fail m o = some s') (k : Nat)
    (hk : k < s.lists.length) (hn : k ∉ o.targets) :
    s'.size k = s.size k ∧ ∀ id off, s'.get k id off = s.get k id off ∧ s'.exists k id off = s.exists k id off := by
  have := same_view ((fail_ok (reachE_base hs) h).rest k hk hn)
  exact ⟨this.2, this.1⟩

/-- C141, concatenation (partial: the bytes of the other list are tracked although the call threw, and only some of their tags have been
taken over, see `C141_tags_concat_fails`).  Nothing that the list had is lost: its bytes keep their tags, at the place where
the call would have put them, unless the call already failed to grow the list, which changes nothing. -/
theorem C141_tags_concat_partial (s s' : State V) (hs : ReachE s) (i j m : Nat) :
    (s.fail m (.addListStart i j) = some s' →
      s'.size i = (if m = 0 then 0 else s.size j) + s.size i ∧
      ∀ id off v, off < s.size i → s.get i id off = some v → s'.get i id ((if m = 0 then 0 else s.size j) + off) = some v) ∧
    (s.fail m (.addListEnd i j) = some s' →
      s'.size i = s.size i + (if m = 0 then 0 else s.size j) ∧
      ∀ id off v, off < s.size i → s.get i id off = some v → s'.get i id off = some v) := by
  have b := reachE_base hs
  constructor
  · intro h
    simp only [State.fail] at h
    split at h
    · cases h
    · rename_i r hr
      obtain ⟨t, h', t', ht, e, rfl⟩ := on_some h
      have q := joinFail_ok (head_base b ht) (mem_head ht hr) e
      have hi := (List.getElem?_eq_some_iff.mp ht).1
      have ht' : (⟨h', s.lists.set i t'⟩ : State V).lists[i]? = some t' := List.getElem?_set_self hi
      have l1 := b.le t (List.mem_of_getElem? ht)
      have l2 := b.le r (List.mem_of_getElem? hr)
      have q1 := q.bs
      have q2 := q.be
      have si : s.size i = (t.be - t.bs).toNat := by simp [State.size, ht]
      have sj : s.size j = (r.be - r.bs).toNat := by simp [State.size, hr]
      have si' : (⟨h', s.lists.set i t'⟩ : State V).size i = (t'.be - t'.bs).toNat := by simp only [State.size, ht']
      refine ⟨?_, fun id off v ho hg => ?_⟩
      · rw [si', si, sj, q1, q2]; split <;> omega
      · simp only [State.get, ht] at hg
        simp only [State.get, ht']
        have e : t'.bs + (((if m = 0 then 0 else s.size j) + off : Nat) : Int) = t.bs + off := by
          rw [q1, sj]; split <;> omega
        rw [e]
        exact q.found id _ v (by omega) (by omega) hg
  · intro h
    simp only [State.fail] at h
    split at h
    · cases h
    · rename_i r hr
      obtain ⟨t, h', t', ht, e, rfl⟩ := on_some h
      have q := joinFail_ok (head_base b ht) (mem_head ht hr) e
      have hi := (List.getElem?_eq_some_iff.mp ht).1
      have ht' : (⟨h', s.lists.set i t'⟩ : State V).lists[i]? = some t' := List.getElem?_set_self hi
      have l1 := b.le t (List.mem_of_getElem? ht)
      have l2 := b.le r (List.mem_of_getElem? hr)
      have q1 := q.bs
      have q2 := q.be
      have si : s.size i = (t.be - t.bs).toNat := by simp [State.size, ht]
      have sj : s.size j = (r.be - r.bs).toNat := by simp [State.size, hr]
      have si' : (⟨h', s.lists.set i t'⟩ : State V).size i = (t'.be - t'.bs).toNat := by simp only [State.size, ht']
      refine ⟨?_, fun id off v ho hg => ?_⟩
      · rw [si', si, sj, q1, q2]; split <;> omega
      · simp only [State.get, ht] at hg
        simp only [State.get, ht']
        have e : t'.bs + (off : Int) = t.bs + off := by
          rw [q1]; split <;> omega
        rw [e]
        exact q.found id _ v (by omega) (by omega) hg

/-- C141: failures do no lasting harm.  After any history with failures every operation whose precondition holds returns, and insertion,
growing, cutting and concatenation do what C15 and C18 say; when all lists are gone, so are all arrays. -/
theorem C141_tags_after (s : State V) (hs : ReachE s) :
    (∀ o, o.ok s.views → ∃ s', s.step o = some s') ∧
    (∀ s' i id v start size, s.step (.insert i id v start size) = some s' → s'.size i = s.size i ∧ ∀ off, off < s.size i →
      (start ≤ off ∧ off < start + size →
        s'.get i id off = some (match s.get i id off with | some w => w | none => v)) ∧
      (¬ (start ≤ off ∧ off < start + size) → s'.get i id off = s.get i id off) ∧
      ∀ id', id' ≠ id → s'.get i id' off = s.get i id' off) ∧
    (∀ s' i n, s.step (.addStart i n) = some s' → s'.size i = s.size i + n ∧
      ∀ off, off < s.size i → ∀ id, s'.get i id (off + n) = s.get i id off) ∧
    (∀ s' i n, s.step (.addEnd i n) = some s' → s'.size i = s.size i + n ∧
      ∀ off, off < s.size i → ∀ id, s'.get i id off = s.get i id off) ∧
    ((∀ t ∈ s.lists, t.tia = none) → ∀ a, s.heap.mem a = none) := by
  have b := reachE_base hs
  refine ⟨fun o ho => ?_, fun s' i id v start size h => insert_of s s' b i id v start size h,
    fun s' i n h => (resize_of s s' b i n).1 h, fun s' i n h => (resize_of s s' b i n).2.1 h, fun hn a => ?_⟩
  · obtain ⟨s', h, _⟩ := step_ok b o ho; exact ⟨s', h⟩
  · cases hm : s.heap.mem a with
    | none => rfl
    | some x =>
      have := b.refs a x hm
      have h0 : s.lists.countP (fun t => decide (t.tia = some a)) = 0 :=
        List.countP_eq_zero.mpr (fun t ht => by simp [hn t ht])
      omega

/-- A list with two bytes and a tag on its first byte, and a list with two bytes and tags on both. -/
def two : List (Ev Nat) :=
  [.done .new, .done (.addEnd 0 2), .done (.insert 0 7 70 0 1), .done .new, .done (.addEnd 1 2), .done (.insert 1 8 80 0 1),
    .done (.insert 1 9 90 1 1)]

/-- C141 fails for concatenation: the call throws, but the list tracks two more bytes, of which the first has its tag and the second has
not. -/
theorem C141_tags_concat_fails :
    ((State.init.runE two).map fun s => (s.size 0, s.get 0 7 0)) = some (2, some 70) ∧
    ((State.init.runE (two ++ [.done (.insert 0 5 50 0 1), .done (.insert 0 6 60 0 1),
        .failed 2 (.addListStart 0 1)])).map fun s => (s.size 0, s.get 0 8 0, s.get 0 9 1, s.get 0 7 2)) =
      some (4, some 80, none, some 70) := by
  exact ⟨rfl, rfl⟩

/-- The hypotheses of `C141_tags` and `C141_tags_after`: an insertion into a full array throws, another one into a shared array throws, growing
a list that shares an array and has been cut throws, and then all of them succeed. -/
def rough : List (Ev Nat) :=
  [.failed 0 (.newCap 4 0), .done .new, .done (.addEnd 0 4), .failed 0 (.insert 0 7 70 0 2), .done (.insert 0 7 70 0 2),
    .done (.insert 0 8 80 1 2), .done (.insert 0 9 90 3 1), .done (.copy 0), .done (.insert 0 6 60 0 1), .failed 0 (.insert 1 5 50 2 2),
    .done (.removeStart 1 2), .failed 0 (.addStart 1 1), .done (.addStart 1 1), .done (.insert 1 5 50 2 1), .done (.destroy 0)]

example : ((State.init.runE rough).map fun s => (s.size 1, (List.range 3).map fun k => (s.get 1 7 k, s.get 1 8 k, s.get 1 9 k, s.get 1 5 k))) =
    some (3, [(none, some 80, none, none), (none, some 80, none, none), (none, none, some 90, some 50)]) := by rfl

example : ∃ s s' : State Nat, ReachE s ∧ s.fail 0 (.addStart 1 1) = some s' ∧ s'.get 1 8 0 = some 80 :=
  ⟨_, _, ⟨rough.take 11, (Option.some_get (by rfl)).symm⟩, (Option.some_get (by rfl)).symm, rfl⟩

end Verif.Tag
