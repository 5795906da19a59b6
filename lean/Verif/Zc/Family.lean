import Verif.Zc.FamilyLemmas

/-!
C09 for histories with deep copies: isolation of `ZcBuffer` objects fails only inside the family that
descends from a deep copy. Families are computed from the operations alone (`families`).
-/
set_option linter.unusedSimpArgs false
set_option linter.unusedVariables false
namespace Verif.Zc
open Verif Verif.Buf

/-- The family of buffer `k` after a history.  (Specification; no code.) -/
def familyOf (hist : List ZOp) (k : Nat) : Option Nat := (families hist).lab[k]?

/-- The family of buffer `k` descends from a deep copy.  (Specification; no code.) -/
def Spoiled (hist : List ZOp) (k : Nat) : Prop := ∃ l, familyOf hist k = some l ∧ l ∈ (families hist).spoiled

theorem fam_of_run {s : ZState} {junk} {hist : List ZOp} (h : (ZState.init junk).run hist = some s) :
    FamInv (flat s) (families hist) := fam_run (init_inv junk) (fam_init junk) h

theorem has_of {s : ZState} {f : Fam} (v : FamInv (flat s) f) {k : Nat} {a : ZBuf} (hk : s.bufs[k]? = some a)
    (hn : ¬ ∃ l, f.lab[k]? = some l ∧ l ∈ f.spoiled) : (f.cover (flat s).bufs).has a.seg := by
  intro id hst i b hi hb l hl hbad
  exact hn ⟨l, by rw [v.one k i a.seg b id (flat_get hk) hi hst hb]; exact hl, hbad⟩

theorem plain_fam {s : ZState} {f : Fam} {o : ZOp} (h : o.stores = true) : o.plain (f.cover (flat s).bufs) s := by
  cases o with
  | addEnd | addEndBytes | addEndBuf => exact .inl rfl
  | newFrom => simp [ZOp.stores] at h
  | _ => trivial

/-- C09 (partial: nothing is said about the other members of a spoiled family, nor about members of the
family of a buffer that an iterator writes into): in every history, an operation leaves alone every buffer
that it is not meant to change, if that buffer belongs to another family than the changed buffers, or if its
family does not descend from a deep copy and the operation is not a write through an iterator. -/
theorem C09_families_partial {s : ZState} {junk} {hist : List ZOp} (h : (ZState.init junk).run hist = some s)
    (o : ZOp) (ho : o.ok s) :
    ∃ s', s.step o = some s' ∧ ∀ k, k < s.bufs.length → k ∉ o.targets →
      ((∀ i ∈ o.targets, familyOf hist i ≠ familyOf hist k) ∨ (¬ Spoiled hist k ∧ o.isWrite = false)) →
      s'.bytes k = s.bytes k := by
  have hin := run_inv (init_inv junk) h
  have v := fam_of_run h
  obtain ⟨s', hs⟩ := step_ok hin o ho
  refine ⟨s', hs.step, fun k hk hkt hc => ?_⟩
  cases hst : o.stores with
  | false => exact hs.frame hst k hk hkt
  | true =>
    obtain ⟨a, ha⟩ := get_of_lt hk
    rcases hc with hc | ⟨h1, h2⟩
    · rcases stores_grows hs.step hst with rfl | ⟨i, b, b', hit, hib, e, g⟩
      · rfl
      · have hki : i ≠ k := fun e => hkt (e ▸ hit)
        have hk' : s'.bufs[k]? = some a := by rw [e, List.getElem?_set_ne hki]; exact ha
        rw [bytes_of ha, bytes_of hk']
        refine bytesOf_congr ?_
        cases hid : a.st with
        | none => simp [Mem.view, ZBuf.seg, hid]
        | some id =>
          have hid' : a.seg.st = some id := hid
          have h1 : b.seg.st ≠ some id := fun hbi =>
            hc i hit (v.one i k b.seg a.seg id (flat_get hib) (flat_get ha) hbi hid)
          have h2 : id ≠ s.mem.next := fun e => not_next (s := flat s) hin.base (flat_get ha) (by rw [hid', e]; rfl)
          simp only [Mem.view, hid', g.mem id h1 h2]
    · exact (hs.wide _ (plain_fam hst) v.wide).2.1 h2 k a ha hkt (has_of v ha h1)

/-- C09 (partial, as above): appending and prepending another buffer yields the concatenated bytes, unless
the other buffer belongs to a spoiled family or is one of zeros without a storage. -/
theorem C09_families_append_partial {s : ZState} {junk} {hist : List ZOp}
    (h : (ZState.init junk).run hist = some s) {i j : Nat}
    (hi : i < s.bufs.length) (hj : j < s.bufs.length) (hh : ¬s.hollow j) (hn : ¬ Spoiled hist j) :
    (∃ s', s.step (.addEndBuf i j) = some s' ∧ s'.bytes i = s.bytes i ++ s.bytes j) ∧
    (i ≠ j → ∃ s', s.step (.addStartBuf i j) = some s' ∧ s'.bytes i = s.bytes j ++ s.bytes i) := by
  have hin := run_inv (init_inv junk) h
  have v := fam_of_run h
  have src : ∀ (k : Nat) (a : ZBuf), s.bufs[k]? = some a → k ∈ [j] → ((families hist).cover (flat s).bufs).has a.seg := by
    intro k a hk hkj
    rw [List.mem_singleton] at hkj
    subst hkj
    exact has_of v hk hn
  refine ⟨?_, fun hij => ?_⟩
  · obtain ⟨s', hs⟩ := step_ok hin (.addEndBuf i j) ⟨hi, hj⟩
    exact ⟨s', hs.step, (hs.wide _ (plain_fam rfl) v.wide).2.2 src hh⟩
  · obtain ⟨s', hs⟩ := step_ok hin (.addStartBuf i j) ⟨hi, hj⟩
    exact ⟨s', hs.step, (hs.wide _ (plain_fam rfl) v.wide).2.2 src hij hh⟩

/-- Buffers 0 and 1 share a storage, 2 is a fragment of 0, 3 is a deep copy and 4 a copy of it.  (A client; no code.) -/
def mixed : List ZOp :=
  [.new 4 6 4, .copy 0, .fragment 0 1 3, .newFrom [7, 8], .copy 3]

example : ∃ s, (ZState.init (fun _ _ => 9)).run mixed = some s ∧ (ZOp.addEndBuf 1 0).ok s ∧ ¬ s.hollow 0 ∧
    familyOf mixed 0 = familyOf mixed 1 ∧ familyOf mixed 2 = some 0 ∧
    familyOf mixed 4 = some 3 ∧ (families mixed).spoiled = [3] ∧ s.bytes 2 = [0, 0, 0] ∧ s.bytes 4 = [7, 8] :=
  ⟨Option.get ((ZState.init (fun _ _ => 9)).run mixed) (by rfl), (Option.some_get _).symm,
    ⟨show 1 < List.length _ by decide, show 0 < List.length _ by decide⟩,
    by intro h; exact absurd h.1 (by decide), by decide, by decide, by decide, by decide, by decide, by decide⟩

end Verif.Zc
