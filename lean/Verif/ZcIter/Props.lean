import Verif.ZcIter.Model
import Verif.Iter.Props
import Verif.Zc.Props

/-!
Properties C12 and C14: the iterator over a zero-compressed buffer.
-/
set_option linter.unusedSimpArgs false
set_option linter.unusedVariables false
namespace Verif.ZcIter
open Verif Verif.Iter

/-- The logical bytes: header, zero area, trailer.  The trailer is stored directly behind the header. -/
def logical (it : ZIt) (data : List Byte) : List Byte :=
  (data.drop it.start).take (it.zs - it.start) ++ List.replicate (it.ze - it.zs) 0 ++
    (data.drop it.zs).take (it.en - it.ze)

/-- A legitimate iterator over the storage `data` with room for `n` bytes at the cursor.  Objects are smaller
than the address space, and so are the logical positions. -/
structure Room (it : ZIt) (data : List Byte) (n : Nat) : Prop where
  h1 : it.start ≤ it.zs
  h2 : it.zs ≤ it.ze
  h3 : it.ze ≤ it.en
  lower : it.start ≤ it.cursor
  upper : it.cursor + n ≤ it.en
  inside : it.en - (it.ze - it.zs) ≤ data.length
  addressable : it.en < 2 ^ 64

/-- The iterators of a buffer are legitimate, and their logical bytes are the bytes of the buffer. -/
theorem C12_of_buffer {s : Zc.ZState} (h : Zc.Reach s) {i : Nat} {z : Zc.ZBuf} (hi : s.bufs[i]? = some z) {c n : Nat}
    (hc : z.start ≤ c) (hn : c + n ≤ z.en) (ha : z.en < 2 ^ 64) :
    ∃ data : List Byte,
      (∀ id x, z.st = some id → s.mem.mem id = some x → data = (List.range x.cap).map x.bytes) ∧
      Room ⟨z.start, z.zs, z.ze, z.en, c⟩ data n ∧ logical ⟨z.start, z.zs, z.ze, z.en, c⟩ data = s.bytes i := by
  have hin := Zc.reach_inv h
  have hz := hin.ok z (List.mem_of_getElem? hi)
  have z1 := hz.h1; have z2 := hz.h2; have z3 := hz.h3
  rw [Zc.bytes_of hi]
  cases hst : z.st with
  | none =>
    have := hin.base.null z.seg (Zc.seg_mem hi) hst
    simp only [Zc.ZBuf.seg] at this
    refine ⟨[], by simp, ⟨z1, z2, z3, hc, hn, (by simp; omega), ha⟩, ?_⟩
    simp [logical, Zc.bytesOf, Buf.Mem.view, Zc.ZBuf.seg, hst]
  | some id =>
    obtain ⟨x, hx, h1, h2⟩ := hin.base.held z.seg (Zc.seg_mem hi) id hst
    simp only [Zc.ZBuf.seg] at h1 h2
    refine ⟨(List.range x.cap).map x.bytes, ?_, ⟨z1, z2, z3, hc, hn, by simpa using h2, ha⟩, ?_⟩
    · intro id' x' e e'; cases e; rw [hx] at e'; cases e'; rfl
    · simp only [logical, Zc.bytesOf, Buf.Mem.view, Zc.ZBuf.seg, hst, hx, Buf.rd]
      congr 1
      · congr 1
        apply List.ext_getElem?
        intro k
        simp only [List.getElem?_take, List.getElem?_drop, List.getElem?_map, List.getElem?_range]
        grind
      · apply List.ext_getElem?
        intro k
        simp only [List.getElem?_take, List.getElem?_drop, List.getElem?_map, List.getElem?_range]
        grind

/-- Where logical byte `c - start` comes from. -/
theorem logical_get {it : ZIt} {data : List Byte} {n : Nat} (hr : Room it data n) {c : Nat} (h1 : it.start ≤ c)
    (h2 : c < it.en) : (logical it data)[c - it.start]? =
      if c < it.zs then data[c]? else if c < it.ze then some 0 else data[c - (it.ze - it.zs)]? := by
  have a1 := hr.h1; have a2 := hr.h2; have a3 := hr.h3; have a4 := hr.inside
  have l1 : ((data.drop it.start).take (it.zs - it.start)).length = it.zs - it.start := by simp; omega
  unfold logical
  by_cases c1 : c < it.zs
  · rw [if_pos c1, List.append_assoc, List.getElem?_append_left (by omega), List.getElem?_take,
      if_pos (by omega), List.getElem?_drop]
    congr 1; omega
  · rw [if_neg c1, List.append_assoc, List.getElem?_append_right (by omega), l1]
    by_cases c2 : c < it.ze
    · rw [if_pos c2, List.getElem?_append_left (by simp; omega), List.getElem?_replicate, if_pos (by omega)]
    · rw [if_neg c2, List.getElem?_append_right (by simp; omega), List.length_replicate, List.getElem?_take,
        if_pos (by omega), List.getElem?_drop]
      congr 1; omega

theorem logical_length {it : ZIt} {data : List Byte} {n : Nat} (hr : Room it data n) :
    (logical it data).length = it.en - it.start := by
  have a1 := hr.h1; have a2 := hr.h2; have a3 := hr.h3; have a4 := hr.inside
  simp [logical]; omega

theorem fwd {it : ZIt} {data : List Byte} {n : Nat} (hr : Room it data n) :
    canMoveForward it n = true ∧ szAdd it.cursor n = it.cursor + n := by
  have e : szAdd it.cursor n = it.cursor + n := szAdd_of_lt (by have := hr.upper; have := hr.addressable; omega)
  exact ⟨by simp [canMoveForward, e, hr.upper], e⟩

/-- The `n` logical bytes at the cursor. -/
def slice (it : ZIt) (data : List Byte) (n : Nat) : List Byte :=
  ((logical it data).drop (it.cursor - it.start)).take n

theorem slice_length {it : ZIt} {data : List Byte} {n : Nat} (hr : Room it data n) : (slice it data n).length = n := by
  have := hr.upper; have := hr.lower
  simp only [slice, List.length_take, List.length_drop, logical_length hr]; omega

theorem slice_get {it : ZIt} {data : List Byte} {n : Nat} (hr : Room it data n) {k : Nat} (hk : k < n) :
    (slice it data n)[k]? =
      if it.cursor + k < it.zs then data[it.cursor + k]? else if it.cursor + k < it.ze then some 0
      else data[it.cursor + k - (it.ze - it.zs)]? := by
  have := hr.upper; have := hr.lower
  rw [slice, List.getElem?_take, if_pos hk, List.getElem?_drop,
    show it.cursor - it.start + k = it.cursor + k - it.start by omega]
  exact logical_get hr (by omega) (by omega)

theorem ext_of {a b : List Byte} {n : Nat} (ha : a.length = n) (hb : b.length = n)
    (h : ∀ k, k < n → a[k]? = b[k]?) : a = b := by
  apply List.ext_getElem?
  intro k
  by_cases hk : k < n
  · exact h k hk
  · rw [List.getElem?_eq_none (by omega), List.getElem?_eq_none (by omega)]

/-- Reading in the header or in the trailer. -/
theorem solid_lo {it : ZIt} {data : List Byte} {n : Nat} (hr : Room it data n) (h : it.cursor + n ≤ it.zs) :
    loadSeq data it.cursor n = some (slice it data n) := by
  have a1 := hr.h1; have a2 := hr.h2; have a3 := hr.h3; have a4 := hr.inside
  rw [loadSeq_eq _ _ _ (by omega)]
  refine congrArg some (ext_of (by simp; omega) (slice_length hr) fun k hk => ?_)
  rw [slice_get hr hk, if_pos (by omega), List.getElem?_take, if_pos hk, List.getElem?_drop]

theorem solid_hi {it : ZIt} {data : List Byte} {n : Nat} (hr : Room it data n) (h : it.ze ≤ it.cursor) :
    loadSeq data (it.cursor - (it.ze - it.zs)) n = some (slice it data n) := by
  have a1 := hr.h1; have a2 := hr.h2; have a3 := hr.h3; have a4 := hr.inside; have := hr.upper
  rw [loadSeq_eq _ _ _ (by omega)]
  refine congrArg some (ext_of (by simp; omega) (slice_length hr) fun k hk => ?_)
  rw [slice_get hr hk, if_neg (by omega), if_neg (by omega), List.getElem?_take, if_pos hk, List.getElem?_drop]
  congr 1; omega

theorem zeros {it : ZIt} {data : List Byte} {n : Nat} (hr : Room it data n) (h1 : it.zs ≤ it.cursor)
    (h2 : it.cursor + n ≤ it.ze) : slice it data n = List.replicate n 0 := by
  refine ext_of (slice_length hr) (by simp) fun k hk => ?_
  rw [slice_get hr hk, if_neg (by omega), if_pos (by omega), List.getElem?_replicate, if_pos hk]

/-- Reading one byte after the other. -/
theorem cross {data : List Byte} : ∀ {n : Nat} {it : ZIt}, Room it data n →
    crossSeq n it data = some ({ it with cursor := it.cursor + n }, slice it data n) := by
  intro n
  induction n with
  | zero => intro it hr; simp [crossSeq, slice]
  | succ n ih =>
    intro it hr
    have a1 := hr.h1; have a2 := hr.h2; have a3 := hr.h3; have a4 := hr.inside; have a5 := hr.upper
    have a6 := hr.lower
    have hr' : Room { it with cursor := it.cursor + 1 } data n :=
      ⟨hr.h1, hr.h2, hr.h3, by dsimp only; omega, by dsimp only; omega, hr.inside, hr.addressable⟩
    obtain ⟨b, hb, hrc⟩ : ∃ b, (logical it data)[it.cursor - it.start]? = some b ∧
        readChecked it data = some ({ it with cursor := it.cursor + 1 }, b) := by
      rw [logical_get hr a6 (by omega)]
      unfold readChecked cursorToOffset inZeroArea load
      by_cases c1 : it.cursor < it.zs
      · refine ⟨data[it.cursor]'(by omega), ?_, ?_⟩
        · rw [if_pos c1, List.getElem?_eq_getElem]
        · rw [if_neg (by simp; omega)]
          simp [show ¬(it.zs ≤ it.cursor) by omega, c1, show it.cursor < data.length by omega]
      · by_cases c2 : it.cursor < it.ze
        · exact ⟨0, by rw [if_neg c1, if_pos c2], by rw [if_pos (by simp; omega)]⟩
        · refine ⟨data[it.cursor - (it.ze - it.zs)]'(by omega), ?_, ?_⟩
          · rw [if_neg c1, if_neg c2, List.getElem?_eq_getElem]
          · rw [if_neg (by simp; omega)]
            simp [show ¬(it.cursor < it.ze) by omega, c1, show it.cursor - (it.ze - it.zs) < data.length by omega]
    have hs : slice it data (n + 1) = b :: slice { it with cursor := it.cursor + 1 } data n := by
      unfold slice
      have hlt : it.cursor - it.start < (logical it data).length := by rw [logical_length hr]; omega
      rw [List.drop_eq_getElem_cons hlt, List.take_succ_cons]
      rw [List.getElem?_eq_getElem hlt] at hb
      rw [Option.some.inj hb]
      dsimp only
      rw [show it.cursor + 1 - it.start = it.cursor - it.start + 1 by omega]
      rfl
    simp only [crossSeq, hrc]
    rw [ih hr', hs]
    simp only [Option.some.injEq, Prod.mk.injEq, ZIt.mk.injEq, and_true, true_and]
    omega

/-- The value that a read in order `e` on host `h` makes of the bytes at the cursor. -/
def value (h : Host) (e : Order) (d : List Byte) : Nat := unimage h (if isNative h e then d else d.reverse)

theorem value_zero (h : Host) (e : Order) (n : Nat) : value h e (List.replicate n 0) = 0 := by
  unfold value
  cases h <;> split <;> simp [unimage, beVal, List.reverse_replicate] <;> exact leVal_replicate_zero n

theorem value_little (h : Host) (d : List Byte) : value h .little d = leVal d := by
  cases h <;> simp [value, isNative, unimage, beVal]

theorem value_big (h : Host) (d : List Byte) : value h .big d = beVal d := by
  cases h <;> simp [value, isNative, unimage, beVal]

theorem value_native (h : Host) (d : List Byte) : value h .native d = unimage h d := by simp [value, isNative]

theorem orders {h : Host} {e : Order} {w : Width} {d : List Byte} (hd : d.length = w.n) :
    unimage h (if isNative h e then keepOrder w d else reverseOrder w d) = value h e d := by
  rw [keepOrder_eq hd, reverseOrder_eq hd]; rfl

theorem readVal_eq (h : Host) (e : Order) (w : Width) (it : ZIt) (data : List Byte) (hr : Room it data w.n) :
    readVal h e w it data = some ({ it with cursor := it.cursor + w.n }, value h e (slice it data w.n)) := by
  obtain ⟨f1, f2⟩ := fwd hr
  have hl := slice_length hr
  unfold readVal
  rw [if_pos f1, f2]
  by_cases c1 : it.cursor + w.n ≤ it.zs
  · rw [if_pos c1, readSolid, solid_lo hr c1]
    simp only [orders hl]
  · rw [if_neg c1]
    by_cases c2 : it.ze ≤ it.cursor
    · rw [if_pos c2, readSolid, solid_hi hr c2]
      simp only [orders hl]
    · rw [if_neg c2]
      by_cases c3 : it.zs ≤ it.cursor ∧ it.cursor + w.n ≤ it.ze
      · rw [if_pos c3, zeros hr c3.1 c3.2, value_zero]
      · rw [if_neg c3]
        unfold readCross
        cases w with
        | w1 => exfalso; simp only [Width.n] at *; omega
        | w2 | w4 | w8 => simp only [cross hr, orders hl]

/-! ### C12 -/

/-- **C12.** Wherever the zero area lies, a read at the cursor returns the number whose little-endian,
big-endian or native representation the logical bytes at the cursor are, and advances the cursor. -/
theorem C12_read (h : Host) (w : Width) (it : ZIt) (data : List Byte) (hr : Room it data w.n) :
    readVal h .little w it data = some ({ it with cursor := it.cursor + w.n },
      leVal (((logical it data).drop (it.cursor - it.start)).take w.n)) ∧
    readVal h .big w it data = some ({ it with cursor := it.cursor + w.n },
      beVal (((logical it data).drop (it.cursor - it.start)).take w.n)) ∧
    readVal h .native w it data = some ({ it with cursor := it.cursor + w.n },
      unimage h (((logical it data).drop (it.cursor - it.start)).take w.n)) := by
  refine ⟨?_, ?_, ?_⟩
  · rw [readVal_eq h _ w it data hr, value_little]; rfl
  · rw [readVal_eq h _ w it data hr, value_big]; rfl
  · rw [readVal_eq h _ w it data hr, value_native]; rfl

/-- **C12**, blocks: the logical bytes at the cursor, reversed when the order is not the host's. -/
theorem C12_readBytes (h : Host) (e : Order) (n : Nat) (it : ZIt) (data : List Byte) (hr : Room it data n) :
    readBytes h e n it data = some ({ it with cursor := it.cursor + n },
      if isNative h e then ((logical it data).drop (it.cursor - it.start)).take n
      else (((logical it data).drop (it.cursor - it.start)).take n).reverse) := by
  obtain ⟨f1, f2⟩ := fwd hr
  have e1 : ((logical it data).drop (it.cursor - it.start)).take n = slice it data n := rfl
  rw [e1]
  unfold readBytes
  dsimp only
  rw [if_pos f1, f2]
  by_cases c1 : it.cursor + n ≤ it.zs
  · rw [if_pos c1, solid_lo hr c1]
  · rw [if_neg c1]
    by_cases c2 : it.ze ≤ it.cursor
    · rw [if_pos c2, solid_hi hr c2]
    · rw [if_neg c2]
      by_cases c3 : it.zs ≤ it.cursor ∧ it.cursor + n ≤ it.ze
      · rw [if_pos c3, zeros hr c3.1 c3.2]; simp
      · rw [if_neg c3, cross hr]

/-- **C12**, the end: a read that does not fit is refused. -/
theorem C12_beyond (h : Host) (e : Order) (w : Width) (n : Nat) (it : ZIt) (data : List Byte) :
    (it.en < it.cursor + w.n → it.cursor + w.n < 2 ^ 64 → readVal h e w it data = none) ∧
    (it.en < it.cursor + n → it.cursor + n < 2 ^ 64 → readBytes h e n it data = none) := by
  constructor
  · intro h1 h2
    unfold readVal
    rw [if_neg]
    simp only [canMoveForward, szAdd_of_lt h2, decide_eq_true_eq]; omega
  · intro h1 h2
    unfold readBytes
    dsimp only
    rw [if_neg]
    simp only [canMoveForward, szAdd_of_lt h2, decide_eq_true_eq]; omega

/-- A header of 2, five zeros and a trailer of 3; a four-byte read from the last header byte, one that spans
the end of the zero area, and a whole-buffer block read. -/
example : Room ⟨1, 3, 8, 11, 2⟩ [9, 1, 2, 3, 4, 5] 8 :=
  ⟨by decide, by decide, by decide, by decide, by decide, by decide, by decide⟩

example : logical ⟨1, 3, 8, 11, 2⟩ [9, 1, 2, 3, 4, 5] = [1, 2, 0, 0, 0, 0, 0, 3, 4, 5] := by decide

example : readVal .little .big .w4 ⟨1, 3, 8, 11, 2⟩ [9, 1, 2, 3, 4, 5] = some (⟨1, 3, 8, 11, 6⟩, 0x02000000) := by
  rfl

/-! ### C83 -/

/-- What a caller expects of a cursor move: it is refused, or the cursor goes the stated distance and stays inside the buffer. -/
def MoveOk (it : ZIt) (delta : Int) (r : Option ZIt) : Prop :=
  match r with
  | none => ¬ ((it.start : Int) ≤ it.cursor + delta ∧ it.cursor + delta ≤ it.en)
  | some it' => it'.start = it.start ∧ it'.zs = it.zs ∧ it'.ze = it.ze ∧ it'.en = it.en ∧
      (it'.cursor : Int) = it.cursor + delta ∧ it'.start ≤ it'.cursor ∧ it'.cursor ≤ it'.en

/-- **C83** for zero-compressed buffers, missing: counts for which `cursor + n` (forward) or `start + n` (backward) exceeds `2^64 - 1`; see
`C83_zc_move_fails`. -/
theorem C83_zc_move_partial (it : ZIt) (n : Nat) (hw : it.start ≤ it.cursor ∧ it.cursor ≤ it.en) (hs : it.en < 2 ^ 64) :
    (it.cursor + n < 2 ^ 64 → MoveOk it n (moveForward it n)) ∧
    (it.start + n < 2 ^ 64 → MoveOk it (-n) (moveBackward it n)) := by
  constructor
  · intro hn
    have hc : canMoveForward it n = true ↔ it.cursor + n ≤ it.en := by simp [canMoveForward, szAdd_of_lt hn]
    unfold moveForward
    split
    · rename_i h
      rw [hc] at h
      simp only [MoveOk, szAdd_of_lt hn]
      refine ⟨trivial, trivial, trivial, trivial, ?_, ?_, ?_⟩ <;> omega
    · rename_i h
      rw [hc] at h
      simp only [MoveOk]
      omega
  · intro hn
    have hc : canMoveBackward it n = true ↔ it.start + n ≤ it.cursor := by simp [canMoveBackward, szAdd_of_lt hn]
    unfold moveBackward
    split
    · rename_i h
      rw [hc] at h
      have e : szSub it.cursor n = it.cursor - n := by unfold szSub sizeMod; omega
      simp only [MoveOk, e]
      refine ⟨trivial, trivial, trivial, trivial, ?_, ?_, ?_⟩ <;> omega
    · rename_i h
      rw [hc] at h
      simp only [MoveOk]
      omega

/-- **C83 is false in general** for zero-compressed buffers too: an iterator in the zero area accepts `MoveForward(2^64 - 1)`, and ends up one
byte further back. -/
theorem C83_zc_move_fails :
    ¬ ∀ (it : ZIt) (n : Nat), it.start ≤ it.cursor → it.cursor ≤ it.en → it.en < 2 ^ 64 → n < 2 ^ 64 → MoveOk it n (moveForward it n) := by
  intro h
  have := h ⟨0, 2, 5, 6, 4⟩ (2 ^ 64 - 1) (by decide) (by decide) (by decide) (by decide)
  simp [MoveOk, moveForward, canMoveForward, szAdd, sizeMod] at this

/-- **C83.** Distances: after a move of `n` the difference of the two iterators is `n`, and moving back restores the iterator. -/
theorem C83_zc_diff (it it' : ZIt) (n : Nat) (hs : it.en < 2 ^ 63) (hb : it.start ≤ it.cursor) (hc : it.cursor ≤ it.en) (hn : n < 2 ^ 63)
    (hm : moveForward it n = some it') : diff it' it = n ∧ diff it it' = -n ∧ moveBackward it' n = some it := by
  have hlt : it.cursor + n < 2 ^ 64 := by omega
  unfold moveForward at hm
  split at hm
  · rename_i h
    simp only [canMoveForward, szAdd_of_lt hlt, decide_eq_true_eq] at h
    injection hm with hm
    subst hm
    obtain ⟨a, zs, ze, b, c⟩ := it
    simp only at hs hc h hb hlt
    simp only [diff, moveBackward, canMoveBackward, szAdd_of_lt hlt, szAdd_of_lt (show a + n < 2 ^ 64 by omega)]
    have e1 : szSub (c + n) c = n := by unfold szSub sizeMod; omega
    have e2 : szSub (c + n) n = c := by unfold szSub sizeMod; omega
    rw [e1, e2]
    refine ⟨by simp [hn], ?_, by simp [hb]⟩
    by_cases h0 : n = 0
    · subst h0; simp [szSub, sizeMod]; omega
    · have e3 : szSub c (c + n) = 2 ^ 64 - n := by unfold szSub sizeMod; omega
      rw [e3, if_neg (by omega)]
      omega
  · cases hm

/-- From the last header byte over the zero area into the trailer, and back. -/
example : moveForward ⟨1, 3, 8, 11, 2⟩ 7 = some ⟨1, 3, 8, 11, 9⟩ ∧ moveForward ⟨1, 3, 8, 11, 2⟩ 10 = none ∧
    moveBackward ⟨1, 3, 8, 11, 9⟩ 7 = some ⟨1, 3, 8, 11, 2⟩ ∧ diff ⟨1, 3, 8, 11, 2⟩ ⟨1, 3, 8, 11, 9⟩ = -7 := by decide

/-! ### C14 -/

/-- `n` bytes at the cursor lie in the header or in the trailer. -/
def Outside (it : ZIt) (n : Nat) : Prop :=
  (it.cursor < it.zs ∧ it.cursor + n ≤ it.zs) ∨ it.ze ≤ it.cursor

/-- Storing at the cursor. -/
theorem storeAt_eq {it : ZIt} {data bs : List Byte} (hr : Room it data bs.length) (ho : Outside it bs.length) :
    ∃ data', storeAt bs it data = some ({ it with cursor := it.cursor + bs.length }, data') ∧
      data'.length = data.length ∧
      logical it data' = splice (logical it data) (it.cursor - it.start) bs ∧
      (∀ i, i < it.start ∨ it.en - (it.ze - it.zs) ≤ i → data'[i]? = data[i]?) := by
  obtain ⟨f1, f2⟩ := fwd hr
  have a1 := hr.h1; have a2 := hr.h2; have a3 := hr.h3; have a4 := hr.inside; have a5 := hr.upper
  have a6 := hr.lower
  obtain ⟨off, ho1, ho2, ho3⟩ : ∃ off, cursorToOffset it = some off ∧ off + bs.length ≤ it.en - (it.ze - it.zs) ∧
      off = if it.cursor < it.zs then it.cursor else it.cursor - (it.ze - it.zs) := by
    refine ⟨if it.cursor < it.zs then it.cursor else it.cursor - (it.ze - it.zs), ?_, ?_, rfl⟩
    · unfold cursorToOffset inZeroArea
      rw [if_neg]
      rcases ho with ho | ho <;> simp <;> omega
    · rcases ho with ho | ho
      · rw [if_pos ho.1]; omega
      · rw [if_neg (by omega)]; omega
  have hc : crossZeroArea it bs.length = false := by
    simp only [crossZeroArea, f2, decide_eq_false_iff_not]
    rcases ho with ho | ho <;> omega
  have hle : off + bs.length ≤ data.length := by omega
  have hlen := splice_length hle
  have hge : it.start ≤ off := by
    rw [ho3]; split <;> rcases ho with ho | ho <;> omega
  refine ⟨splice data off bs, ?_, hlen, ?_, ?_⟩
  · unfold storeAt
    rw [f1, hc]
    simp only [Bool.not_false, Bool.and_true, if_true, ho1]
    rw [storeSeq_eq _ _ _ hle]
  · have hr' : Room it (splice data off bs) bs.length :=
      ⟨hr.h1, hr.h2, hr.h3, hr.lower, hr.upper, by rw [hlen]; exact hr.inside, hr.addressable⟩
    have hll := logical_length hr
    have hfit : it.cursor - it.start + bs.length ≤ (logical it data).length := by omega
    refine ext_of (n := it.en - it.start) (logical_length hr') (by rw [splice_length hfit, hll]) fun k hk => ?_
    have e0 : k = (it.start + k) - it.start := by omega
    have e1 := logical_get hr' (c := it.start + k) (by omega) (by omega)
    have e2 := logical_get hr (c := it.start + k) (by omega) (by omega)
    rw [← e0] at e1 e2
    have hout := (splice_sameOutside hle).2
    have hout2 := (splice_sameOutside hfit).2
    rw [e1]
    by_cases hin : it.cursor ≤ it.start + k ∧ it.start + k < it.cursor + bs.length
    · have hkk : k = it.cursor - it.start + (it.start + k - it.cursor) := by omega
      have hlt : it.start + k - it.cursor < bs.length := by omega
      have e3 : (splice (logical it data) (it.cursor - it.start) bs)[k]? = bs[it.start + k - it.cursor]? := by
        have := splice_getElem? hfit hlt
        rw [← hkk] at this; exact this
      rw [e3, ← splice_getElem? hle hlt]
      rcases ho with ho | ho
      · rw [if_pos (by omega), ho3, if_pos ho.1]; congr 1; omega
      · rw [if_neg (by omega), if_neg (by omega), ho3, if_neg (by omega)]; congr 1; omega
    · rw [hout2 k (by omega), e2]
      have key : ∀ i, (if it.start + k < it.zs then it.start + k else it.start + k - (it.ze - it.zs)) = i →
          ¬(it.zs ≤ it.start + k ∧ it.start + k < it.ze) → (splice data off bs)[i]? = data[i]? := by
        intro i hi hnz
        refine hout i ?_
        rw [ho3]
        rcases ho with ho | ho
        · rw [if_pos ho.1]; split at hi <;> omega
        · rw [if_neg (show ¬ it.cursor < it.zs by omega)]; split at hi <;> omega
      by_cases c1 : it.start + k < it.zs
      · rw [if_pos c1, if_pos c1]
        exact key _ (if_pos c1) (by omega)
      · rw [if_neg c1, if_neg c1]
        by_cases c2 : it.start + k < it.ze
        · rw [if_pos c2, if_pos c2]
        · rw [if_neg c2, if_neg c2]
          exact key _ (if_neg c1) (by omega)
  · intro i hi
    exact (splice_sameOutside hle).2 i (by omega)

theorem wire_eq (h : Host) (e : Order) (w : Width) (v : Nat) :
    (if isNative h e then keepOrder w (image h w.n v) else reverseOrder w (image h w.n v)) = wire h e w.n v := by
  have hl : (image h w.n v).length = w.n := image_length ..
  rw [keepOrder_eq hl, reverseOrder_eq hl]; rfl

/-- **C14** (partial: the addressed bytes all lie in the header or all in the trailer): writing a value changes
exactly the addressed logical bytes, nothing of the storage outside the buffer, advances the cursor, and the
value is read back. -/
theorem C14_write_partial (h : Host) (e : Order) (w : Width) (v : Nat) (it : ZIt) (data : List Byte)
    (hr : Room it data w.n) (ho : Outside it w.n) (hv : v < 256 ^ w.n) :
    ∃ data', writeVal h e w v it data = some ({ it with cursor := it.cursor + w.n }, data') ∧
      SameOutside (logical it data) (logical it data') (it.cursor - it.start) w.n ∧
      SameOutside data data' it.start (it.en - (it.ze - it.zs) - it.start) ∧
      readVal h e w it data' = some ({ it with cursor := it.cursor + w.n }, v) := by
  have a1 := hr.h1; have a2 := hr.h2; have a3 := hr.h3; have a4 := hr.inside; have a5 := hr.upper
  have a6 := hr.lower
  have hwl : (wire h e w.n v).length = w.n := wire_length ..
  obtain ⟨data', e1, e2, e3, e4⟩ := storeAt_eq (it := it) (data := data) (bs := wire h e w.n v)
    (by rw [hwl]; exact hr) (by rw [hwl]; exact ho)
  rw [hwl] at e1
  have hfit : it.cursor - it.start + (wire h e w.n v).length ≤ (logical it data).length := by
    rw [logical_length hr, hwl]; omega
  refine ⟨data', ?_, ?_, ⟨e2, fun i hi => e4 i (by omega)⟩, ?_⟩
  · simp only [writeVal, wire_eq, e1]
  · rw [e3]; simpa [hwl] using splice_sameOutside hfit
  · have hr' : Room it data' w.n :=
      ⟨hr.h1, hr.h2, hr.h3, hr.lower, hr.upper, by rw [e2]; exact hr.inside, hr.addressable⟩
    rw [readVal_eq h e w it data' hr']
    have hd := take_drop_splice hfit
    rw [hwl] at hd
    rw [slice, e3, hd]
    congr 2
    have : (if isNative h e = true then wire h e w.n v else (wire h e w.n v).reverse)
        = image h w.n v := by
      unfold wire; split <;> simp
    rw [value, this, unimage_image, Nat.mod_eq_of_lt hv]

/-- **C14** (partial, same case): blocks and `Fill`. -/
theorem C14_block_partial (h : Host) (e : Order) (bs : List Byte) (it : ZIt) (data : List Byte)
    (hr : Room it data bs.length) (ho : Outside it bs.length) :
    (∃ data', writeBytes h e bs it data = some ({ it with cursor := it.cursor + bs.length }, data') ∧
      SameOutside (logical it data) (logical it data') (it.cursor - it.start) bs.length ∧
      SameOutside data data' it.start (it.en - (it.ze - it.zs) - it.start) ∧
      readBytes h e bs.length it data' = some ({ it with cursor := it.cursor + bs.length }, bs)) ∧
    (∀ b, ∃ data', fill b bs.length it data = some ({ it with cursor := it.cursor + bs.length }, data') ∧
      SameOutside (logical it data) (logical it data') (it.cursor - it.start) bs.length ∧
      ((logical it data').drop (it.cursor - it.start)).take bs.length = List.replicate bs.length b) := by
  have a1 := hr.h1; have a2 := hr.h2; have a3 := hr.h3; have a4 := hr.inside; have a5 := hr.upper
  have a6 := hr.lower
  constructor
  · have hl : (if isNative h e then bs else bs.reverse).length = bs.length := by split <;> simp
    obtain ⟨data', e1, e2, e3, e4⟩ := storeAt_eq (it := it) (data := data)
      (bs := if isNative h e then bs else bs.reverse) (by rw [hl]; exact hr) (by rw [hl]; exact ho)
    rw [hl] at e1
    have hfit : it.cursor - it.start + (if isNative h e then bs else bs.reverse).length ≤ (logical it data).length := by
      rw [logical_length hr, hl]; omega
    refine ⟨data', e1, ?_, ⟨e2, fun i hi => e4 i (by omega)⟩, ?_⟩
    · have := splice_sameOutside hfit
      rw [hl] at this; rw [e3]; exact this
    · have hr' : Room it data' bs.length :=
        ⟨hr.h1, hr.h2, hr.h3, hr.lower, hr.upper, by rw [e2]; exact hr.inside, hr.addressable⟩
      rw [C12_readBytes h e _ it data' hr', e3]
      have hd := take_drop_splice hfit
      rw [hl] at hd
      rw [hd]
      split <;> simp
  · intro b
    obtain ⟨data', e1, e2, e3, e4⟩ := storeAt_eq (it := it) (data := data)
      (bs := List.replicate bs.length b) (by rw [List.length_replicate]; exact hr)
      (by rw [List.length_replicate]; exact ho)
    rw [List.length_replicate] at e1
    have hfit : it.cursor - it.start + (List.replicate bs.length b).length ≤ (logical it data).length := by
      rw [logical_length hr, List.length_replicate]; omega
    refine ⟨data', e1, ?_, ?_⟩
    · have := splice_sameOutside hfit
      rw [List.length_replicate] at this; rw [e3]; exact this
    · rw [e3]
      have := take_drop_splice hfit
      rwa [List.length_replicate] at this

/-- **C14**, refusal: no write that touches a byte of the zero area, or goes beyond the end, is performed. -/
theorem C14_refused (h : Host) (e : Order) (w : Width) (v : Nat) (b : Byte) (bs : List Byte) (it : ZIt)
    (data : List Byte) (hs : it.en < 2 ^ 63) (hc : it.cursor ≤ it.en) (hb : bs.length < 2 ^ 63) :
    ((∃ p, it.cursor ≤ p ∧ p < it.cursor + w.n ∧ (it.zs ≤ p ∧ p < it.ze ∨ it.en ≤ p)) →
      writeVal h e w v it data = none) ∧
    ((∃ p, it.cursor ≤ p ∧ p < it.cursor + bs.length ∧ (it.zs ≤ p ∧ p < it.ze ∨ it.en ≤ p)) →
      writeBytes h e bs it data = none ∧ fill b bs.length it data = none) := by
  have key : ∀ d : List Byte, d.length < 2 ^ 63 →
      (∃ p, it.cursor ≤ p ∧ p < it.cursor + d.length ∧ (it.zs ≤ p ∧ p < it.ze ∨ it.en ≤ p)) →
      storeAt d it data = none := by
    intro d hd hp
    obtain ⟨p, p1, p2, p3⟩ := hp
    unfold storeAt
    have f2 : szAdd it.cursor d.length = it.cursor + d.length := szAdd_of_lt (by omega)
    by_cases c1 : (canMoveForward it d.length && !crossZeroArea it d.length) = true
    · rw [if_pos c1]
      simp only [canMoveForward, crossZeroArea, f2, Bool.and_eq_true, decide_eq_true_eq, Bool.not_eq_true',
        decide_eq_false_iff_not] at c1
      have hz : inZeroArea it = true := by
        simp only [inZeroArea, decide_eq_true_eq]; omega
      rw [cursorToOffset, if_pos hz]
    · rw [if_neg c1]
  have hl : (if isNative h e then bs else bs.reverse).length = bs.length := by split <;> simp
  refine ⟨fun hp => ?_, fun hp => ⟨?_, ?_⟩⟩
  · have hwl : (wire h e w.n v).length = w.n := wire_length ..
    simp only [writeVal, wire_eq]
    exact key _ (by rw [hwl]; cases w <;> decide) (by rw [hwl]; exact hp)
  · exact key _ (by rw [hl]; exact hb) (by rw [hl]; exact hp)
  · exact key _ (by rw [List.length_replicate]; exact hb) (by rw [List.length_replicate]; exact hp)

/-- With a zero area that is not empty, every byte outside it is in the header or in the trailer, so the
partial theorems above and `C14_refused` together decide every write of at least one byte. -/
theorem C14_complete (it : ZIt) (n : Nat) (hn : 0 < n) (hz : it.zs < it.ze) (hend : it.cursor + n ≤ it.en) :
    Outside it n ∨ ∃ p, it.cursor ≤ p ∧ p < it.cursor + n ∧ it.zs ≤ p ∧ p < it.ze := by
  unfold Outside
  by_cases c1 : it.ze ≤ it.cursor
  · exact .inl (.inr c1)
  · by_cases c2 : it.cursor + n ≤ it.zs
    · exact .inl (.inl ⟨by omega, c2⟩)
    · exact .inr ⟨max it.cursor it.zs, by omega, by omega, by omega, by omega⟩

/-- C14 fails in general: with an empty zero area a write that straddles the place where it would be is refused
although all its bytes are ordinary stored bytes. -/
theorem C14_straddle_fails : ∃ (it : ZIt) (data : List Byte), Room it data 2 ∧ it.zs = it.ze ∧
    ∀ h e v, writeVal h e .w2 v it data = none :=
  ⟨⟨0, 2, 2, 4, 1⟩, [1, 2, 3, 4], ⟨by decide, by decide, by decide, by decide, by decide, by decide, by decide⟩,
    rfl, fun h e v => by
      have hwl : (wire h e Width.w2.n v).length = 2 := wire_length ..
      have : ∀ d : List Byte, d.length = 2 → storeAt d ⟨0, 2, 2, 4, 1⟩ [1, 2, 3, 4] = none := by
        intro d hd; unfold storeAt; rw [hd]; rfl
      simp only [writeVal, wire_eq]
      exact this _ hwl⟩

example : Room ⟨1, 3, 8, 11, 9⟩ [9, 1, 2, 3, 4, 5] 2 ∧ Outside ⟨1, 3, 8, 11, 9⟩ 2 :=
  ⟨⟨by decide, by decide, by decide, by decide, by decide, by decide, by decide⟩, .inr (by decide)⟩

example : writeVal .little .big .w2 0xabcd ⟨1, 3, 8, 11, 9⟩ [9, 1, 2, 3, 4, 5] =
    some (⟨1, 3, 8, 11, 11⟩, [9, 1, 2, 3, 0xab, 0xcd]) := by rfl

/-- The byte and the write model of the buffer agree with the iterator's on what is writable. -/
theorem C14_writable_agrees (z : Zc.ZBuf) (c n : Nat) (h : c + n < 2 ^ 64) :
    Zc.writable z c n ↔
      (canMoveForward ⟨z.start, z.zs, z.ze, z.en, c⟩ n && !crossZeroArea ⟨z.start, z.zs, z.ze, z.en, c⟩ n) = true ∧
      inZeroArea ⟨z.start, z.zs, z.ze, z.en, c⟩ = false := by
  simp only [Zc.writable, canMoveForward, crossZeroArea, inZeroArea, szAdd_of_lt h, Bool.and_eq_true,
    decide_eq_true_eq, Bool.not_eq_true', decide_eq_false_iff_not]
  omega

end Verif.ZcIter
