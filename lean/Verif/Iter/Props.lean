import Verif.Iter.Lemmas
/-
Properties C11, C13, C82, C83: the solid-buffer iterator.
-/
namespace Verif.Iter

/-- A legitimate iterator over the storage `data` with room for `n` bytes at the cursor.
Objects are smaller than the address space, hence the last field. -/
structure Room (it : It) (data : List Byte) (n : Nat) : Prop where
  lower : it.start ≤ it.cursor
  upper : it.cursor + n ≤ it.stop
  inside : it.stop ≤ data.length
  addressable : data.length < 2 ^ 63

/-- `data'` has the size of `data` and the same bytes outside `[off, off + n)`. -/
def SameOutside (data data' : List Byte) (off n : Nat) : Prop :=
  data'.length = data.length ∧
    ∀ i, i < off ∨ off + n ≤ i → data'[i]? = data[i]?

theorem splice_sameOutside {data : List Byte} {off : Nat} {bs : List Byte}
    (h : off + bs.length ≤ data.length) : SameOutside data (splice data off bs) off bs.length := by
  refine ⟨splice_length h, ?_⟩
  intro i hi
  simp only [splice, List.append_assoc]
  grind

theorem splice_getElem? {data : List Byte} {off : Nat} {bs : List Byte}
    (h : off + bs.length ≤ data.length) {i : Nat} (hi : i < bs.length) :
    (splice data off bs)[off + i]? = bs[i]? := by
  simp only [splice, List.append_assoc]
  grind

/-- **C11.** Writing a value and reading it back at the same place in the same byte order
returns it, both cursors advance by the width, and nothing else in the storage changes. -/
theorem C11_write_read (h : Host) (e : Order) (w : Width) (v : Nat) (it : It) (data : List Byte)
    (hr : Room it data w.n) (hv : v < 256 ^ w.n) :
    ∃ data',
      writeVal h e w v it data = some ({ it with cursor := it.cursor + w.n }, data') ∧
      SameOutside data data' it.cursor w.n ∧
      readVal h e w it data' = some ({ it with cursor := it.cursor + w.n }, v) := by
  have h1 := hr.upper; have h2 := hr.inside; have h3 := hr.addressable
  have hl : it.cursor + (wire h e w.n v).length ≤ data.length := by simp; omega
  refine ⟨splice data it.cursor (wire h e w.n v), writeVal_eq h2 h1 (by omega), ?_, ?_⟩
  · simpa using splice_sameOutside hl
  · have hd := take_drop_splice hl
    rw [wire_length] at hd
    rw [readVal_eq (by rw [splice_length hl]; exact h2) h1 (by rw [splice_length hl]; omega), hd]
    congr 2
    have : (if isNative h e = true then wire h e w.n v else (wire h e w.n v).reverse)
        = image h w.n v := by
      unfold wire; split <;> simp
    rw [this, unimage_image, Nat.mod_eq_of_lt hv]

/-- The hypotheses of `C11_write_read` are met by a two-byte write inside a five-byte storage. -/
example : Room ⟨1, 5, 2⟩ [1, 2, 3, 4, 5] Width.w2.n ∧ (0xabcd : Nat) < 256 ^ Width.w2.n :=
  ⟨⟨by decide, by decide, by decide, by decide⟩, by decide⟩

theorem leBytes_getElem? (w : Nat) : ∀ (v i : Nat), i < w →
    (leBytes w v)[i]? = some (BitVec.ofNat 8 (v / 256 ^ i)) := by
  induction w with
  | zero => intro v i hi; omega
  | succ w ih =>
    intro v i hi
    cases i with
    | zero => simp [leBytes]
    | succ i =>
      simp only [leBytes, List.getElem?_cons_succ]
      rw [ih _ _ (by omega), Nat.div_div_eq_div_mul]
      congr 3
      rw [Nat.pow_succ, Nat.mul_comm]

theorem wire_little (h : Host) (w v : Nat) : wire h .little w v = leBytes w v := by
  cases h <;> simp [wire, isNative, image]

theorem wire_big (h : Host) (w v : Nat) : wire h .big w v = (leBytes w v).reverse := by
  cases h <;> simp [wire, isNative, image]

/-- **C13**, little end.  Whatever the host, `WriteL` puts byte `i` (counted from the least
significant) of the value at `cursor + i`. -/
theorem C13_writeL (h : Host) (w : Width) (v : Nat) (it : It) (data : List Byte)
    (hr : Room it data w.n) :
    ∃ data',
      writeVal h .little w v it data = some ({ it with cursor := it.cursor + w.n }, data') ∧
      ∀ i, i < w.n → data'[it.cursor + i]? = some (BitVec.ofNat 8 (v / 256 ^ i)) := by
  have h1 := hr.upper; have h2 := hr.inside; have h3 := hr.addressable
  refine ⟨_, writeVal_eq h2 h1 (by omega), ?_⟩
  intro i hi
  rw [splice_getElem? (by simp; omega) (by simpa using hi), wire_little, leBytes_getElem? _ _ _ hi]

/-- **C13**, big end.  Whatever the host, `WriteB` puts the most significant byte first. -/
theorem C13_writeB (h : Host) (w : Width) (v : Nat) (it : It) (data : List Byte)
    (hr : Room it data w.n) :
    ∃ data',
      writeVal h .big w v it data = some ({ it with cursor := it.cursor + w.n }, data') ∧
      ∀ i, i < w.n →
        data'[it.cursor + i]? = some (BitVec.ofNat 8 (v / 256 ^ (w.n - 1 - i))) := by
  have h1 := hr.upper; have h2 := hr.inside; have h3 := hr.addressable
  refine ⟨_, writeVal_eq h2 h1 (by omega), ?_⟩
  intro i hi
  rw [splice_getElem? (by simp; omega) (by simpa using hi), wire_big,
    List.getElem?_reverse (by simpa using hi), leBytes_length, leBytes_getElem? _ _ _ (by omega)]

/-- **C13**, reads.  Whatever the host, `ReadL`/`ReadB` return the number whose little/big-endian
representation is at the cursor. -/
theorem C13_read (h : Host) (w : Width) (it : It) (data : List Byte) (hr : Room it data w.n) :
    readVal h .little w it data
      = some ({ it with cursor := it.cursor + w.n }, leVal ((data.drop it.cursor).take w.n)) ∧
    readVal h .big w it data
      = some ({ it with cursor := it.cursor + w.n }, beVal ((data.drop it.cursor).take w.n)) := by
  have h1 := hr.upper; have h2 := hr.inside; have h3 := hr.addressable
  rw [readVal_eq h2 h1 (by omega), readVal_eq h2 h1 (by omega)]
  cases h <;> simp [isNative, unimage, beVal]

/-- Reading what another host wrote gives the value it wrote (consequence of C13). -/
theorem C13_cross_host (h₁ h₂ : Host) (e : Order) (he : e ≠ .native) (w : Width) (v : Nat)
    (it : It) (data : List Byte) (hr : Room it data w.n) (hv : v < 256 ^ w.n) :
    ∃ data',
      writeVal h₁ e w v it data = some ({ it with cursor := it.cursor + w.n }, data') ∧
      readVal h₂ e w it data' = some ({ it with cursor := it.cursor + w.n }, v) := by
  have h1 := hr.upper; have h2 := hr.inside; have h3 := hr.addressable
  obtain ⟨data', a, b, c⟩ := C11_write_read h₁ e w v it data hr hv
  refine ⟨data', a, ?_⟩
  have hr' : Room it data' w.n := ⟨hr.lower, hr.upper, by rw [b.1]; exact h2, by rw [b.1]; exact h3⟩
  rw [← c]
  cases e with
  | native => exact absurd rfl he
  | little => rw [(C13_read h₂ w it data' hr').1, (C13_read h₁ w it data' hr').1]
  | big => rw [(C13_read h₂ w it data' hr').2, (C13_read h₁ w it data' hr').2]

/-- **C82.** A byte block written with `Write`/`WriteL`/`WriteB` is read back unchanged by the
matching read, for every length; nothing else in the storage changes. -/
theorem C82_bytes_round_trip (h : Host) (e : Order) (bs : List Byte) (it : It) (data : List Byte)
    (hr : Room it data bs.length) :
    ∃ data',
      writeBytes h e bs it data = some ({ it with cursor := it.cursor + bs.length }, data') ∧
      SameOutside data data' it.cursor bs.length ∧
      readBytes h e bs.length it data' = some ({ it with cursor := it.cursor + bs.length }, bs) := by
  have h1 := hr.upper; have h2 := hr.inside; have h3 := hr.addressable
  have hc : canMoveForward it bs.length = true := (canMoveForward_iff (by omega)).2 h1
  let out := if isNative h e then bs else bs.reverse
  have hol : out.length = bs.length := by simp only [out]; split <;> simp
  have hl : it.cursor + out.length ≤ data.length := by omega
  refine ⟨splice data it.cursor out, ?_, ?_, ?_⟩
  · simp only [writeBytes, hc, if_true]
    rw [storeSeq_eq _ _ _ hl]
  · simpa [hol] using splice_sameOutside hl
  · have hd := take_drop_splice hl
    rw [hol] at hd
    simp only [readBytes, hc, if_true]
    rw [loadSeq_eq _ _ _ (by rw [splice_length hl]; omega), hd]
    simp only [out]
    split <;> simp

/-- **C82.** With the native order the block is stored as it is; `Fill` stores `n` copies. -/
theorem C82_native_and_fill (h : Host) (bs : List Byte) (v : Byte) (n : Nat) (it : It)
    (data : List Byte) (hr : Room it data bs.length) (hn : Room it data n) :
    (∃ data',
      writeBytes h .native bs it data = some ({ it with cursor := it.cursor + bs.length }, data') ∧
      SameOutside data data' it.cursor bs.length ∧
      ∀ i, i < bs.length → data'[it.cursor + i]? = bs[i]?) ∧
    (∃ data',
      fill v n it data = some ({ it with cursor := it.cursor + n }, data') ∧
      SameOutside data data' it.cursor n ∧
      ∀ i, i < n → data'[it.cursor + i]? = some v) := by
  constructor
  · have h1 := hr.upper; have h2 := hr.inside; have h3 := hr.addressable
    have hc : canMoveForward it bs.length = true := (canMoveForward_iff (by omega)).2 h1
    refine ⟨splice data it.cursor bs, ?_, splice_sameOutside (by omega), ?_⟩
    · simp only [writeBytes, hc, if_true, isNative]
      rw [storeSeq_eq _ _ _ (by omega)]
    · intro i hi; exact splice_getElem? (by omega) hi
  · have h1 := hn.upper; have h2 := hn.inside; have h3 := hn.addressable
    have hc : canMoveForward it n = true := (canMoveForward_iff (by omega)).2 h1
    refine ⟨splice data it.cursor (List.replicate n v), ?_, ?_, ?_⟩
    · simp only [fill, hc, if_true]
      rw [storeSeq_eq _ _ _ (by simp; omega)]
    · simpa using splice_sameOutside (data := data) (off := it.cursor)
        (bs := List.replicate n v) (by simp; omega)
    · intro i hi
      rw [splice_getElem? (by simp; omega) (by simpa using hi)]
      simp [hi]

/-- What a caller expects of a cursor move: it is refused, or the cursor goes the stated distance
and stays inside the buffer. -/
def MoveOk (it : It) (delta : Int) (r : Option It) : Prop :=
  match r with
  | none     => ¬ ((it.start : Int) ≤ it.cursor + delta ∧ it.cursor + delta ≤ it.stop)
  | some it' => it'.start = it.start ∧ it'.stop = it.stop ∧
      (it'.cursor : Int) = it.cursor + delta ∧ it'.start ≤ it'.cursor ∧ it'.cursor ≤ it'.stop

/-- **C83**, missing: counts for which `cursor + n` (forward) or `start + n` (backward) exceeds
`2^64 - 1`; see `C83_move_fails`. -/
theorem C83_move_partial (it : It) (n : Nat) (hw : it.start ≤ it.cursor ∧ it.cursor ≤ it.stop)
    (hs : it.stop < 2 ^ 64) :
    (it.cursor + n < 2 ^ 64 → MoveOk it n (moveForward it n)) ∧
    (it.start + n < 2 ^ 64 → MoveOk it (-n) (moveBackward it n)) := by
  constructor
  · intro hn
    unfold moveForward
    split
    · rename_i hc
      rw [canMoveForward_iff hn] at hc
      simp only [MoveOk, szAdd_of_lt hn]
      refine ⟨trivial, trivial, ?_, ?_, ?_⟩ <;> omega
    · rename_i hc
      rw [canMoveForward_iff hn] at hc
      simp only [MoveOk]
      omega
  · intro hn
    unfold moveBackward
    have hcb : canMoveBackward it n = true ↔ it.start + n ≤ it.cursor := by
      simp [canMoveBackward, szAdd_of_lt hn]
    split
    · rename_i hc
      rw [hcb] at hc
      have e : szSub it.cursor n = it.cursor - n := by
        unfold szSub sizeMod
        omega
      simp only [MoveOk, e]
      refine ⟨trivial, trivial, ?_, ?_, ?_⟩ <;> omega
    · rename_i hc
      rw [hcb] at hc
      simp only [MoveOk]
      omega

/-- **C83 is false in general**: a legitimate iterator in the middle of a six-byte buffer accepts
`MoveForward(2^64 - 1)`, and ends up one byte further back. -/
theorem C83_move_fails :
    ¬ ∀ (it : It) (n : Nat), it.start ≤ it.cursor → it.cursor ≤ it.stop → it.stop < 2 ^ 64 →
        n < 2 ^ 64 → MoveOk it n (moveForward it n) := by
  intro h
  have := h ⟨0, 6, 4⟩ (2 ^ 64 - 1) (by decide) (by decide) (by decide) (by decide)
  simp [MoveOk, moveForward, canMoveForward, szAdd, sizeMod] at this

/-- **C83.** A typed or block access without room is refused; one with room is not. -/
theorem C83_access (h : Host) (e : Order) (w : Width) (v : Nat) (bs : List Byte) (it : It)
    (data : List Byte) (h1 : it.start ≤ it.cursor) (h2 : it.cursor ≤ it.stop)
    (h3 : it.stop ≤ data.length) (h4 : data.length < 2 ^ 63) (h5 : bs.length < 2 ^ 63) :
    ((writeVal h e w v it data).isSome ↔ it.cursor + w.n ≤ it.stop) ∧
    ((readVal h e w it data).isSome ↔ it.cursor + w.n ≤ it.stop) ∧
    ((writeBytes h e bs it data).isSome ↔ it.cursor + bs.length ≤ it.stop) ∧
    ((readBytes h e bs.length it data).isSome ↔ it.cursor + bs.length ≤ it.stop) := by
  have hw : w.n ≤ 8 := by cases w <;> decide
  have c1 : canMoveForward it w.n = true ↔ it.cursor + w.n ≤ it.stop :=
    canMoveForward_iff (by omega)
  have c2 : canMoveForward it bs.length = true ↔ it.cursor + bs.length ≤ it.stop :=
    canMoveForward_iff (by omega)
  refine ⟨?_, ?_, ?_, ?_⟩
  · constructor
    · intro hs; apply c1.1; revert hs; unfold writeVal; split <;> simp_all
    · intro hs; rw [writeVal_eq h3 hs (by omega)]; rfl
  · constructor
    · intro hs; apply c1.1; revert hs; unfold readVal; split <;> simp_all
    · intro hs; rw [readVal_eq h3 hs (by omega)]; rfl
  · constructor
    · intro hs; apply c2.1; revert hs; unfold writeBytes; split <;> simp_all
    · intro hs
      obtain ⟨_, a, _⟩ := C82_bytes_round_trip h e bs it data ⟨h1, hs, h3, h4⟩
      rw [a]; rfl
  · constructor
    · intro hs; apply c2.1; revert hs; unfold readBytes; split <;> simp_all
    · intro hs
      have hc := c2.2 hs
      simp only [readBytes, hc, if_true]
      rw [loadSeq_eq _ _ _ (by omega)]; rfl

/-- **C83.** Distances: after a move of `n` the difference of the two iterators is `n`. -/
theorem C83_diff (it it' : It) (n : Nat) (hs : it.stop < 2 ^ 63) (hb : it.start ≤ it.cursor)
    (hc : it.cursor ≤ it.stop) (hn : n < 2 ^ 63) (hm : moveForward it n = some it') :
    diff it' it = n ∧ diff it it' = -n ∧ moveBackward it' n = some it := by
  have hlt : it.cursor + n < 2 ^ 64 := by omega
  unfold moveForward at hm
  split at hm
  · rename_i h
    rw [canMoveForward_iff hlt] at h
    injection hm with hm
    subst hm
    obtain ⟨a, b, c⟩ := it
    simp only at hs hc h hb hlt
    simp only [diff, moveBackward, canMoveBackward, szAdd_of_lt hlt,
      szAdd_of_lt (show a + n < 2 ^ 64 by omega)]
    have e1 : szSub (c + n) c = n := by unfold szSub sizeMod; omega
    have e2 : szSub (c + n) n = c := by unfold szSub sizeMod; omega
    rw [e1, e2]
    refine ⟨by simp [hn], ?_, by simp [hb]⟩
    by_cases h0 : n = 0
    · subst h0; simp [szSub, sizeMod]; omega
    · have e3 : szSub c (c + n) = 2 ^ 64 - n := by unfold szSub sizeMod; omega
      rw [e3, if_neg (by omega)]
      omega
  · simp at hm

end Verif.Iter
