import Verif.Message.Model
import Verif.ZcIter.Props

/-!
What the two kinds of iterators have in common, as laws about the logical bytes of the buffer.
-/
set_option linter.unusedSimpArgs false
set_option linter.unusedVariables false
namespace Verif.Message
open Verif Verif.Iter

/-- How an iterator of the stream `S` is to be understood.  (Specification; no code.) -/
structure View {ι : Type} (S : Stream ι) where
  /-- A legitimate iterator over a storage, with room for a number of bytes at the cursor. -/
  Room : ι → List Byte → Nat → Prop
  /-- The bytes of the buffer, from the first to the last. -/
  logical : ι → List Byte → List Byte
  /-- The distance of the cursor from the first byte. -/
  pos : ι → Nat
  /-- The iterator a number of bytes further on. -/
  adv : ι → Nat → ι
  /-- The places of the storage that belong to the buffer. -/
  Window : ι → Nat → Prop
  /-- The next bytes are writable. -/
  Free : ι → Nat → Prop
  room_iff : ∀ {it d n}, Room it d n ↔ Room it d 0 ∧ pos it + n ≤ (logical it d).length
  room_adv : ∀ {it d n}, Room it d n → Room (adv it n) d 0
  room_len : ∀ {it d d' n}, d'.length = d.length → Room it d n → Room it d' n
  log_adv : ∀ {it d n}, logical (adv it n) d = logical it d
  pos_adv : ∀ {it d n}, Room it d 0 → pos (adv it n) = pos it + n
  adv_adv : ∀ {it n m}, adv (adv it n) m = adv it (n + m)
  adv_zero : ∀ {it}, adv it 0 = it
  window_adv : ∀ {it n i}, Window (adv it n) i ↔ Window it i
  free_split : ∀ {it n m}, Free it (n + m) → Free it n ∧ Free (adv it n) m
  writeVal : ∀ {h e w v it d r}, Room it d 0 → S.writeVal h e w v it d = some r →
    Room it d w.n ∧ r.1 = adv it w.n ∧ r.2.length = d.length ∧
      logical it r.2 = splice (logical it d) (pos it) (wire h e w.n v) ∧ ∀ i, ¬ Window it i → r.2[i]? = d[i]?
  writeBytes : ∀ {h e} {bs : List Byte} {it d r}, Room it d 0 → 0 < bs.length → S.writeBytes h e bs it d = some r →
    Room it d bs.length ∧ r.1 = adv it bs.length ∧ r.2.length = d.length ∧
      logical it r.2 = splice (logical it d) (pos it) (if isNative h e then bs else bs.reverse) ∧
      ∀ i, ¬ Window it i → r.2[i]? = d[i]?
  okVal : ∀ {h e w v it d}, Room it d w.n → Free it w.n → ∃ r, S.writeVal h e w v it d = some r
  okBytes : ∀ {h e} {bs : List Byte} {it d}, 0 < bs.length → Room it d bs.length → Free it bs.length →
    ∃ r, S.writeBytes h e bs it d = some r
  readVal : ∀ {h e w it d}, Room it d w.n → S.readVal h e w it d =
    some (adv it w.n, ZcIter.value h e (((logical it d).drop (pos it)).take w.n))
  readBytes : ∀ {h e n it d}, Room it d n → S.readBytes h e n it d =
    some (adv it n, if isNative h e then ((logical it d).drop (pos it)).take n
      else (((logical it d).drop (pos it)).take n).reverse)
  readVal_none : ∀ {h e w it d}, Room it d 0 → ¬ Room it d w.n → S.readVal h e w it d = none
  readBytes_none : ∀ {h e n it d}, Room it d 0 → n < 2 ^ 63 → ¬ Room it d n → S.readBytes h e n it d = none

theorem storeSeq_some {bs : List Byte} : ∀ {data : List Byte} {off : Nat} {r : List Byte},
    storeSeq data off bs = some r → bs ≠ [] → off + bs.length ≤ data.length := by
  induction bs with
  | nil => intro _ _ _ _ h; exact absurd rfl h
  | cons b bs ih =>
    intro data off r h _
    simp only [storeSeq, store] at h
    by_cases hlt : off < data.length
    · rw [if_pos hlt] at h
      by_cases hb : bs = []
      · subst hb; simp; omega
      · have := ih h hb
        simp at this ⊢
        omega
    · rw [if_neg hlt] at h; cases h

theorem len_ne {bs : List Byte} (h : 0 < bs.length) : bs ≠ [] := by
  intro h0; subst h0; simp at h

/-- The plain part of a storage.  (Specification; no code.) -/
def part (it : It) (d : List Byte) : List Byte := (d.drop it.start).take (it.stop - it.start)

theorem part_len {it : It} {d : List Byte} (h1 : it.stop ≤ d.length) : (part it d).length = it.stop - it.start := by
  simp [part]; omega

theorem part_get {it : It} {d : List Byte} {i : Nat} :
    (part it d)[i]? = if i < it.stop - it.start then d[it.start + i]? else none := by
  rw [part, List.getElem?_take, List.getElem?_drop]

theorem splice_get {d bs : List Byte} {o i : Nat} (h : o + bs.length ≤ d.length) :
    (splice d o bs)[i]? = if i < o then d[i]? else if i < o + bs.length then bs[i - o]? else d[i]? := by
  have hs := splice_sameOutside h
  by_cases h1 : i < o
  · rw [if_pos h1]; exact hs.2 i (.inl h1)
  · rw [if_neg h1]
    by_cases h2 : i < o + bs.length
    · rw [if_pos h2]
      have := splice_getElem? h (i := i - o) (by omega)
      rwa [show o + (i - o) = i by omega] at this
    · rw [if_neg h2]; exact hs.2 i (.inr (by omega))

theorem part_splice {it : It} {d bs : List Byte} (h0 : it.start ≤ it.cursor) (h1 : it.cursor + bs.length ≤ it.stop)
    (h2 : it.stop ≤ d.length) :
    part it (splice d it.cursor bs) = splice (part it d) (it.cursor - it.start) bs := by
  apply List.ext_getElem?
  intro i
  rw [part_get, splice_get (by omega), splice_get (by rw [part_len h2]; omega), part_get]
  by_cases a1 : i < it.stop - it.start
  · rw [if_pos a1, if_pos a1]
    by_cases a2 : it.start + i < it.cursor
    · rw [if_pos a2, if_pos (show i < it.cursor - it.start by omega)]
    · rw [if_neg a2, if_neg (show ¬ i < it.cursor - it.start by omega)]
      by_cases a3 : it.start + i < it.cursor + bs.length
      · rw [if_pos a3, if_pos (show i < it.cursor - it.start + bs.length by omega)]; congr 1; omega
      · rw [if_neg a3, if_neg (show ¬ i < it.cursor - it.start + bs.length by omega)]
  · rw [if_neg a1, if_neg a1, if_neg (show ¬ i < it.cursor - it.start by omega),
      if_neg (show ¬ i < it.cursor - it.start + bs.length by omega)]

theorem part_slice {it : It} {d : List Byte} {n : Nat} (h0 : it.start ≤ it.cursor) (h1 : it.cursor + n ≤ it.stop) :
    ((part it d).drop (it.cursor - it.start)).take n = (d.drop it.cursor).take n := by
  apply List.ext_getElem?
  intro i
  simp only [part]
  grind

theorem plain_put {it : It} {d bs : List Byte} {r : List Byte} (hr : Iter.Room it d 0) (hb : 0 < bs.length)
    (hc : canMoveForward it bs.length = true) (hs : storeSeq d it.cursor bs = some r) :
    Iter.Room it d bs.length ∧ r.length = d.length ∧
      part it r = splice (part it d) (it.cursor - it.start) bs ∧
      ∀ i, ¬ (it.start ≤ i ∧ i < it.stop) → r[i]? = d[i]? := by
  have h1 := hr.lower; have h2 := hr.upper; have h3 := hr.inside; have h4 := hr.addressable
  have hle := storeSeq_some hs (len_ne hb)
  have hu : it.cursor + bs.length ≤ it.stop := (canMoveForward_iff (by omega)).1 hc
  rw [storeSeq_eq _ _ _ hle, Option.some.injEq] at hs
  subst hs
  refine ⟨⟨h1, hu, h3, h4⟩, splice_length hle, part_splice h1 hu h3, ?_⟩
  intro i hi
  exact (splice_sameOutside hle).2 i (by omega)

theorem w_pos (w : Width) : 0 < w.n ∧ w.n ≤ 8 := by cases w <;> decide

/-- `BufferIterator`.  (Specification; no code.) -/
def plainView : View plain where
  Room := Iter.Room
  logical := part
  pos it := it.cursor - it.start
  adv it n := { it with cursor := it.cursor + n }
  Window it i := it.start ≤ i ∧ i < it.stop
  Free _ _ := True
  room_iff := by
    intro it d n
    constructor
    · intro h
      have h1 := h.lower; have h2 := h.upper; have h3 := h.inside
      refine ⟨⟨h1, by omega, h3, h.addressable⟩, ?_⟩
      rw [part_len h3]; omega
    · rintro ⟨h, h'⟩
      have h1 := h.lower; have h2 := h.upper; have h3 := h.inside
      rw [part_len h3] at h'
      exact ⟨h1, by omega, h3, h.addressable⟩
  room_adv := by
    intro it d n h
    have h1 := h.lower
    exact ⟨by simp only; omega, h.upper, h.inside, h.addressable⟩
  room_len := by
    intro it d d' n e h
    exact ⟨h.lower, h.upper, by rw [e]; exact h.inside, by rw [e]; exact h.addressable⟩
  log_adv := rfl
  pos_adv := by
    intro it d n h
    have h1 := h.lower
    simp only; omega
  adv_adv := by intro it n m; simp [Nat.add_assoc]
  adv_zero := rfl
  window_adv := Iff.rfl
  free_split := fun _ => ⟨trivial, trivial⟩
  writeVal := by
    intro h e w v it d r hr hw
    simp only [plain, Iter.writeVal] at hw
    by_cases hc : canMoveForward it w.n = true
    · rw [if_pos hc, ZcIter.wire_eq] at hw
      have hl : (wire h e w.n v).length = w.n := wire_length ..
      cases hs : storeSeq d it.cursor (wire h e w.n v) with
      | none => rw [hs] at hw; cases hw
      | some d' =>
        rw [hs] at hw
        simp only [Option.some.injEq] at hw
        subst hw
        obtain ⟨a1, a2, a3, a4⟩ := plain_put hr (by rw [hl]; exact (w_pos w).1) (by rw [hl]; exact hc) hs
        rw [hl] at a1
        exact ⟨a1, rfl, a2, a3, a4⟩
    · rw [if_neg hc] at hw; cases hw
  writeBytes := by
    intro h e bs it d r hr hb hw
    simp only [plain, Iter.writeBytes] at hw
    have hl : (if isNative h e then bs else bs.reverse).length = bs.length := by split <;> simp
    by_cases hc : canMoveForward it bs.length = true
    · rw [if_pos hc] at hw
      cases hs : storeSeq d it.cursor (if isNative h e then bs else bs.reverse) with
      | none => rw [hs] at hw; cases hw
      | some d' =>
        rw [hs] at hw
        simp only [Option.some.injEq] at hw
        subst hw
        obtain ⟨a1, a2, a3, a4⟩ := plain_put hr (by rw [hl]; exact hb) (by rw [hl]; exact hc) hs
        rw [hl] at a1
        exact ⟨a1, rfl, a2, a3, a4⟩
    · rw [if_neg hc] at hw; cases hw
  okVal := by
    intro h e w v it d hr _
    have h2 := hr.upper; have h3 := hr.inside; have h4 := hr.addressable
    exact ⟨_, Iter.writeVal_eq h3 h2 (by omega)⟩
  okBytes := by
    intro h e bs it d _ hr _
    obtain ⟨d', h1, _⟩ := C82_bytes_round_trip h e bs it d hr
    exact ⟨_, h1⟩
  readVal := by
    intro h e w it d hr
    have h1 := hr.lower; have h2 := hr.upper; have h3 := hr.inside; have h4 := hr.addressable
    show Iter.readVal h e w it d = _
    rw [Iter.readVal_eq h3 h2 (by omega), part_slice h1 h2]
    rfl
  readBytes := by
    intro h e n it d hr
    have h1 := hr.lower; have h2 := hr.upper; have h3 := hr.inside; have h4 := hr.addressable
    have hc : canMoveForward it n = true := (canMoveForward_iff (by omega)).2 h2
    show Iter.readBytes h e n it d = _
    rw [part_slice h1 h2, Iter.readBytes, if_pos hc, loadSeq_eq _ _ _ (by omega)]
  readVal_none := by
    intro h e w it d hr hn
    have h1 := hr.lower; have h2 := hr.upper; have h3 := hr.inside; have h4 := hr.addressable
    have := (w_pos w).2
    have hc : ¬ canMoveForward it w.n = true := by
      rw [canMoveForward_iff (by omega)]
      intro hu; exact hn ⟨h1, hu, h3, h4⟩
    show Iter.readVal h e w it d = _
    rw [Iter.readVal, if_neg hc]
  readBytes_none := by
    intro h e n it d hr hs hn
    have h1 := hr.lower; have h2 := hr.upper; have h3 := hr.inside; have h4 := hr.addressable
    have hc : ¬ canMoveForward it n = true := by
      rw [canMoveForward_iff (by omega)]
      intro hu; exact hn ⟨h1, hu, h3, h4⟩
    show Iter.readBytes h e n it d = _
    rw [Iter.readBytes, if_neg hc]

open ZcIter in
/-- A legitimate iterator over a zero-compressed buffer that is, like its storage, smaller than half the
address space.  (Specification; no code.) -/
structure ZRoom (it : ZIt) (d : List Byte) (n : Nat) : Prop where
  room : ZcIter.Room it d n
  small : it.en < 2 ^ 63
  smallStorage : d.length < 2 ^ 63

theorem zroom_le {it : ZcIter.ZIt} {d : List Byte} {n m : Nat} (h : ZRoom it d n) (hm : it.cursor + m ≤ it.en) :
    ZRoom it d m :=
  ⟨⟨h.room.h1, h.room.h2, h.room.h3, h.room.lower, hm, h.room.inside, h.room.addressable⟩, h.small, h.smallStorage⟩

theorem zput {it : ZcIter.ZIt} {d bs : List Byte} {r : ZcIter.ZIt × List Byte} (hr : ZRoom it d 0) (hb : 0 < bs.length)
    (hs : ZcIter.storeAt bs it d = some r) :
    ZRoom it d bs.length ∧ r.1 = { it with cursor := it.cursor + bs.length } ∧ r.2.length = d.length ∧
      ZcIter.logical it r.2 = splice (ZcIter.logical it d) (it.cursor - it.start) bs ∧
      ∀ i, ¬ (it.start ≤ i ∧ i < it.en - (it.ze - it.zs)) → r.2[i]? = d[i]? := by
  have a1 := hr.room.h1; have a2 := hr.room.h2; have a3 := hr.room.h3; have a4 := hr.room.inside
  have a5 := hr.room.upper; have a6 := hr.room.lower; have a7 := hr.small; have a8 := hr.smallStorage
  have hs0 := hs
  unfold ZcIter.storeAt at hs
  by_cases c1 : (ZcIter.canMoveForward it bs.length && !ZcIter.crossZeroArea it bs.length) = true
  · rw [if_pos c1] at hs
    cases hz : ZcIter.cursorToOffset it with
    | none => rw [hz] at hs; cases hs
    | some off =>
      rw [hz] at hs
      simp only at hs
      cases hd : storeSeq d off bs with
      | none => rw [hd] at hs; cases hs
      | some d' =>
        have hle := storeSeq_some hd (len_ne hb)
        have hsmall : it.cursor + bs.length < 2 ^ 64 := by omega
        have f2 : szAdd it.cursor bs.length = it.cursor + bs.length := szAdd_of_lt hsmall
        simp only [ZcIter.canMoveForward, ZcIter.crossZeroArea, f2, Bool.and_eq_true, decide_eq_true_eq, Bool.not_eq_true',
          decide_eq_false_iff_not] at c1
        have hn : ¬ (it.zs ≤ it.cursor ∧ it.cursor < it.ze) := by
          intro hh
          unfold ZcIter.cursorToOffset ZcIter.inZeroArea at hz
          rw [if_pos (by simpa using hh)] at hz
          cases hz
        have hR : ZRoom it d bs.length := zroom_le hr c1.1
        have hO : ZcIter.Outside it bs.length := by
          unfold ZcIter.Outside
          omega
        obtain ⟨d'', e1, e2, e3, e4⟩ := ZcIter.storeAt_eq hR.room hO
        rw [hs0, Option.some.injEq] at e1
        subst e1
        exact ⟨hR, rfl, e2, e3, fun i hi => e4 i (by omega)⟩
  · rw [if_neg c1] at hs; cases hs

/-- `ZcBufferIterator`.  (Specification; no code.) -/
def zcView : View compressed where
  Room := ZRoom
  logical := ZcIter.logical
  pos it := it.cursor - it.start
  adv it n := { it with cursor := it.cursor + n }
  Window it i := it.start ≤ i ∧ i < it.en - (it.ze - it.zs)
  Free it n := it.cursor + n ≤ it.zs ∨ it.ze ≤ it.cursor
  room_iff := by
    intro it d n
    constructor
    · intro h
      have h1 := h.room.lower; have h2 := h.room.upper
      refine ⟨zroom_le h (by omega), ?_⟩
      rw [ZcIter.logical_length h.room]; omega
    · rintro ⟨h, h'⟩
      have h1 := h.room.lower; have h2 := h.room.upper
      rw [ZcIter.logical_length h.room] at h'
      exact zroom_le h (by omega)
  room_adv := by
    intro it d n h
    have r := h.room
    have h1 := r.lower
    exact ⟨⟨r.h1, r.h2, r.h3, by simp only; omega, r.upper, r.inside, r.addressable⟩, h.small, h.smallStorage⟩
  room_len := by
    intro it d d' n e h
    have r := h.room
    exact ⟨⟨r.h1, r.h2, r.h3, r.lower, r.upper, by rw [e]; exact r.inside, r.addressable⟩, h.small,
      by rw [e]; exact h.smallStorage⟩
  log_adv := rfl
  pos_adv := by
    intro it d n h
    have h1 := h.room.lower
    simp only; omega
  adv_adv := by intro it n m; simp [Nat.add_assoc]
  adv_zero := rfl
  window_adv := Iff.rfl
  free_split := by
    intro it n m h
    simp only
    omega
  writeVal := by
    intro h e w v it d r hr hw
    simp only [compressed, ZcIter.writeVal, ZcIter.wire_eq] at hw
    have hl : (wire h e w.n v).length = w.n := wire_length ..
    obtain ⟨a1, a2, a3, a4, a5⟩ := zput hr (by rw [hl]; exact (w_pos w).1) hw
    rw [hl] at a1 a2
    exact ⟨a1, a2, a3, a4, a5⟩
  writeBytes := by
    intro h e bs it d r hr hb hw
    simp only [compressed, ZcIter.writeBytes] at hw
    have hl : (if isNative h e then bs else bs.reverse).length = bs.length := by split <;> simp
    obtain ⟨a1, a2, a3, a4, a5⟩ := zput hr (by rw [hl]; exact hb) hw
    rw [hl] at a1 a2
    exact ⟨a1, a2, a3, a4, a5⟩
  okVal := by
    intro h e w v it d hr hf
    have hl : (wire h e w.n v).length = w.n := wire_length ..
    have := (w_pos w).1
    have r2 := hr.room.h2
    obtain ⟨d', h1, _⟩ := ZcIter.storeAt_eq (it := it) (data := d) (bs := wire h e w.n v) (by rw [hl]; exact hr.room)
      (by rw [hl]; unfold ZcIter.Outside; omega)
    have : ∃ r, ZcIter.writeVal h e w v it d = some r := by
      simp only [ZcIter.writeVal, ZcIter.wire_eq]; exact ⟨_, h1⟩
    exact this
  okBytes := by
    intro h e bs it d hb hr hf
    have hl : (if isNative h e then bs else bs.reverse).length = bs.length := by split <;> simp
    have r2 := hr.room.h2
    obtain ⟨d', h1, _⟩ := ZcIter.storeAt_eq (it := it) (data := d) (bs := if isNative h e then bs else bs.reverse)
      (by rw [hl]; exact hr.room) (by rw [hl]; unfold ZcIter.Outside; omega)
    have : ∃ r, ZcIter.writeBytes h e bs it d = some r := ⟨_, h1⟩
    exact this
  readVal := fun hr => ZcIter.readVal_eq _ _ _ _ _ hr.room
  readBytes := fun hr => ZcIter.C12_readBytes _ _ _ _ _ hr.room
  readVal_none := by
    intro h e w it d hr hn
    have h2 := hr.room.upper; have h4 := hr.small
    have := (w_pos w).2
    refine (ZcIter.C12_beyond h e w 0 it d).1 ?_ (by omega)
    by_contra hc
    exact hn (zroom_le hr (by omega))
  readBytes_none := by
    intro h e n it d hr hs hn
    have h2 := hr.room.upper; have h4 := hr.small
    refine (ZcIter.C12_beyond h e .w1 n it d).2 ?_ (by omega)
    by_contra hc
    exact hn (zroom_le hr (by omega))

end Verif.Message
