import Verif.Buf.FamilyLemmas

/-!
C02 for histories with fragments and deep copies: isolation fails only inside the family of buffers that a
fragment or a deep copy belongs to. Families are computed from the operations alone (`families`).
-/
set_option linter.unusedSimpArgs false
set_option linter.unusedVariables false
namespace Verif.Buf

/-- The family of buffer `k` after a history.  (Specification; no code.) -/
def familyOf (hist : List Op) (k : Nat) : Option Nat := (families hist).lab[k]?

/-- The family of buffer `k` contains a fragment or descends from a deep copy.  (Specification; no code.) -/
def Spoiled (hist : List Op) (k : Nat) : Prop := ∃ l, familyOf hist k = some l ∧ l ∈ (families hist).spoiled

theorem fam_of_run {s : State} {junk} {hist : List Op} (h : (State.init junk).run hist = some s) :
    FamInv s (families hist) := fam_run (init_base junk) (fam_init junk) h

theorem has_of {s : State} {f : Fam} (v : FamInv s f) {k : Nat} {a : Seg} (hk : s.bufs[k]? = some a)
    (hn : ¬ ∃ l, f.lab[k]? = some l ∧ l ∈ f.spoiled) : (f.cover s.bufs).has a := by
  intro id hst i b hi hb l hl hbad
  exact hn ⟨l, by rw [v.one k i a b id hk hi hst hb]; exact hl, hbad⟩

/-- C02 (partial: nothing is said about the other members of a spoiled family, nor about members of the
family of a buffer that an iterator writes into): in every history, an operation leaves alone every buffer
that it is not meant to change, if that buffer belongs to another family than the changed buffers, or if its
family is not spoiled and the operation is not a write through an iterator. -/
theorem C02_families_partial {s : State} {junk} {hist : List Op} (h : (State.init junk).run hist = some s)
    (o : Op) (ho : o.ok s) :
    ∃ s', s.step o = some s' ∧ ∀ k, k < s.bufs.length → k ∉ o.targets →
      ((∀ i ∈ o.targets, familyOf hist i ≠ familyOf hist k) ∨ (¬ Spoiled hist k ∧ o.isWrite = false)) →
      s'.bytes k = s.bytes k := by
  have hb := run_base (init_base junk) h
  have v := fam_of_run h
  obtain ⟨s', hs⟩ := step_ok hb o ho
  refine ⟨s', hs.step, fun k hk hkt hc => ?_⟩
  cases hst : o.stores with
  | false => exact hs.frame hst k hk hkt
  | true =>
    obtain ⟨a, ha⟩ := get_of_lt hk
    rcases hc with hc | ⟨h1, h2⟩
    · rcases stores_grows hs.step hst with rfl | ⟨i, b, b', hit, hib, e, g⟩
      · rfl
      · have hki : i ≠ k := fun e => hkt (e ▸ hit)
        have hk' : s'.bufs[k]? = some a := by rw [e, List.getElem?_set_ne hki]; exact ha
        rw [bytes_of ha, bytes_of hk']
        cases hid : a.st with
        | none => simp [Mem.view, hid]
        | some id =>
          have h1 : b.st ≠ some id := fun hbi => hc i hit (v.one i k b a id hib ha hbi hid)
          have h2 : id ≠ s.mem.next := fun e => not_next hb ha (by rw [hid, e])
          simp only [Mem.view, hid, g.mem id h1 h2]
    · have hp : o.plain ((families hist).cover s.bufs) s := by
        cases o with
        | addEnd | addEndBytes | addEndBuf => exact .inl rfl
        | newFrom | fragment => simp [Op.stores] at hst
        | _ => trivial
      exact (hs.wide _ hp v.wide).2 h2 (sided_cover _ _ _) k a ha hkt (has_of v ha h1)

/-- C02 (partial, as above): bytes written into the area that `AddAtStart`/`AddAtEnd` just added are seen by
no other buffer, except perhaps by members of the same spoiled family. -/
theorem C02_families_added_partial {s : State} {junk} {hist : List Op} (h : (State.init junk).run hist = some s)
    {i n off : Nat} {d : List Byte} (hi : i < s.bufs.length) (hn : 0 < n) (hd : off + d.length ≤ n) :
    (∃ s' s'', s.step (.addStart i n) = some s' ∧ s'.step (.write i off d) = some s'' ∧
      ∀ k, k < s.bufs.length → k ≠ i → familyOf hist i ≠ familyOf hist k ∨ ¬ Spoiled hist k →
        s''.bytes k = s.bytes k) ∧
    (∃ s' s'', s.step (.addEnd i n) = some s' ∧ s'.step (.write i (s.size i + off) d) = some s'' ∧
      ∀ k, k < s.bufs.length → k ≠ i → familyOf hist i ≠ familyOf hist k ∨ ¬ Spoiled hist k →
        s''.bytes k = s.bytes k) := by
  have hb := run_base (init_base junk) h
  have v := fam_of_run h
  refine ⟨?_, ?_⟩
  · obtain ⟨s', hs⟩ := step_ok hb (.addStart i n) hi
    obtain ⟨e1, pre, e2, e3⟩ := hs.effect
    have hrun := run_append h hs.step
    obtain ⟨s'', hs''⟩ := step_ok hs.base (.write i off d) ⟨by rw [e1]; exact hi, by
      rw [size_eq_length hs.base, e3, List.length_append]; omega⟩
    refine ⟨s', s'', hs.step, hs''.step, fun k hk hki hc => ?_⟩
    have hf : s'.bytes k = s.bytes k := hs.frame rfl k hk (by simpa [Op.targets] using hki)
    have hfam : families (hist ++ [.addStart i n]) = families hist := by
      simp [families, List.foldl_append, Fam.step]
    by_cases hfk : familyOf hist i = familyOf hist k
    · obtain ⟨t1, t2, g1, g2, g3⟩ := write_added_start hb v.wide rfl hi hn hd
      rw [hs.step] at g1; cases g1
      rw [hs''.step] at g2; cases g2
      obtain ⟨a, ha⟩ := get_of_lt hk
      exact g3 k a ha hki (has_of v ha (hc.resolve_left fun hh => hh hfk))
    · obtain ⟨t2, g1, g2⟩ := C02_families_partial hrun (.write i off d) ⟨by rw [e1]; exact hi, by
        rw [size_eq_length hs.base, e3, List.length_append]; omega⟩
      rw [hs''.step] at g1; cases g1
      rw [g2 k (by rw [e1]; exact hk) (by simpa [Op.targets] using hki) (.inl fun j hj => by
        simp only [Op.targets, List.mem_singleton] at hj
        subst hj
        simp only [familyOf, hfam] at hfk ⊢; exact hfk), hf]
  · obtain ⟨s', hs⟩ := step_ok hb (.addEnd i n) hi
    obtain ⟨e1, post, e2, e3⟩ := hs.effect
    have hrun := run_append h hs.step
    have hok : (Op.write i (s.size i + off) d).ok s' := ⟨by rw [e1]; exact hi, by
      rw [size_eq_length hs.base, size_eq_length hb, e3, List.length_append]; omega⟩
    obtain ⟨s'', hs''⟩ := step_ok hs.base _ hok
    refine ⟨s', s'', hs.step, hs''.step, fun k hk hki hc => ?_⟩
    have hf : s'.bytes k = s.bytes k := hs.frame rfl k hk (by simpa [Op.targets] using hki)
    have hfam : families (hist ++ [.addEnd i n]) = families hist := by
      simp [families, List.foldl_append, Fam.step]
    by_cases hfk : familyOf hist i = familyOf hist k
    · obtain ⟨t1, t2, g1, g2, g3⟩ := write_added_end hb v.wide rfl hi hn hd (.inl rfl)
      rw [hs.step] at g1; cases g1
      rw [hs''.step] at g2; cases g2
      obtain ⟨a, ha⟩ := get_of_lt hk
      exact g3 k a ha hki (has_of v ha (hc.resolve_left fun hh => hh hfk))
    · obtain ⟨t2, g1, g2⟩ := C02_families_partial hrun _ hok
      rw [hs''.step] at g1; cases g1
      rw [g2 k (by rw [e1]; exact hk) (by simpa [Op.targets] using hki) (.inl fun j hj => by
        simp only [Op.targets, List.mem_singleton] at hj
        subst hj
        simp only [familyOf, hfam] at hfk ⊢; exact hfk), hf]

/-- Buffers 0 and 1 share a storage, 3 is a fragment of 2, 4 is a deep copy and 5 a copy of it.  (An example; no code.) -/
def mixed : List Op :=
  [.new 4 6 4, .copy 0, .new 2 5 2, .fragment 2 1 3, .newFrom [7, 8], .copy 4]

example : ∃ s, (State.init (fun _ _ => 9)).run mixed = some s ∧ (Op.addEndBytes 1 [1, 2]).ok s ∧
    familyOf mixed 0 = familyOf mixed 1 ∧ familyOf mixed 0 = some 0 ∧ familyOf mixed 3 = some 2 ∧
    familyOf mixed 5 = some 4 ∧ (families mixed).spoiled = [4, 2] ∧ s.bytes 3 = [0, 0, 0] ∧ s.bytes 5 = [7, 8] :=
  ⟨Option.get ((State.init (fun _ _ => 9)).run mixed) (by rfl), (Option.some_get _).symm,
    show 1 < List.length _ by decide, by decide, by decide, by decide, by decide, by decide, by decide, by decide⟩

end Verif.Buf
