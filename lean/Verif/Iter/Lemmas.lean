import Verif.Iter.Model
namespace Verif.Iter

/-- Store a block of bytes at an offset (closed form of `storeSeq`). -/
def splice (data : List Byte) (off : Nat) (bs : List Byte) : List Byte :=
  data.take off ++ bs ++ data.drop (off + bs.length)

theorem storeSeq_eq (bs : List Byte) : ∀ (data : List Byte) (off : Nat),
    off + bs.length ≤ data.length → storeSeq data off bs = some (splice data off bs) := by
  induction bs with
  | nil => intro data off h; simp [storeSeq, splice]
  | cons b bs ih =>
    intro data off h
    simp only [List.length_cons] at h
    have hlt : off < data.length := by omega
    simp only [storeSeq, store, hlt, if_true]
    rw [ih _ _ (by simp; omega)]
    congr 1
    simp only [splice, List.length_cons]
    apply List.ext_getElem?
    intro i
    simp only [List.append_assoc]
    grind

theorem splice_length {data : List Byte} {off : Nat} {bs : List Byte}
    (h : off + bs.length ≤ data.length) : (splice data off bs).length = data.length := by
  simp [splice]; omega

theorem loadSeq_eq (data : List Byte) (n : Nat) : ∀ (off : Nat), off + n ≤ data.length →
    loadSeq data off n = some ((data.drop off).take n) := by
  induction n with
  | zero => intro off _; simp [loadSeq]
  | succ n ih =>
    intro off h
    have hlt : off < data.length := by omega
    simp only [loadSeq, load, List.getElem?_eq_getElem hlt]
    rw [ih (off + 1) (by omega)]
    simp only [List.drop_eq_getElem_cons hlt, List.take_succ_cons]

theorem loadSeq_none {data : List Byte} {n off : Nat} (h : data.length < off + n)
    (hn : n ≠ 0) : loadSeq data off n = none := by
  induction n generalizing off with
  | zero => exact absurd rfl hn
  | succ n ih =>
    simp only [loadSeq, load]
    by_cases h0 : n = 0
    · subst h0; rw [List.getElem?_eq_none (by omega)]
    · rw [ih (by omega) h0]; split <;> simp_all

theorem take_drop_splice {data : List Byte} {off : Nat} {bs : List Byte}
    (h : off + bs.length ≤ data.length) :
    ((splice data off bs).drop off).take bs.length = bs := by
  have hl : (data.take off).length = off := by simp; omega
  unfold splice
  rw [List.append_assoc, List.drop_left' hl, List.take_left' rfl]

theorem list2 {b : List Byte} (h : b.length = 2) : b = [b[0]!, b[1]!] := by
  match b, h with
  | [_, _], _ => rfl

theorem keepOrder_eq {w : Width} {b : List Byte} (h : b.length = w.n) : keepOrder w b = b := by
  cases w
  · match b, h with | [_], _ => rfl
  · match b, h with | [_, _], _ => rfl
  · match b, h with | [_, _, _, _], _ => rfl
  · match b, h with | [_, _, _, _, _, _, _, _], _ => rfl

theorem reverseOrder_eq {w : Width} {b : List Byte} (h : b.length = w.n) :
    reverseOrder w b = b.reverse := by
  cases w
  · match b, h with | [_], _ => rfl
  · match b, h with | [_, _], _ => rfl
  · match b, h with | [_, _, _, _], _ => rfl
  · match b, h with | [_, _, _, _, _, _, _, _], _ => rfl

/-- Bytes in memory of a value written in order `e` on host `h`. -/
def wire (h : Host) (e : Order) (w v : Nat) : List Byte :=
  if isNative h e then image h w v else (image h w v).reverse

@[simp] theorem wire_length (h : Host) (e : Order) (w v : Nat) : (wire h e w v).length = w := by
  unfold wire; split <;> simp

theorem szAdd_of_lt {a b : Nat} (h : a + b < 2 ^ 64) : szAdd a b = a + b :=
  Nat.mod_eq_of_lt h

theorem canMoveForward_iff {it : It} {n : Nat} (h : it.cursor + n < 2 ^ 64) :
    canMoveForward it n = true ↔ it.cursor + n ≤ it.stop := by
  simp [canMoveForward, szAdd_of_lt h]

theorem writeVal_eq {h : Host} {e : Order} {w : Width} {v : Nat} {it : It} {data : List Byte}
    (hs : it.stop ≤ data.length) (hr : it.cursor + w.n ≤ it.stop) (hd : data.length < 2 ^ 64) :
    writeVal h e w v it data
      = some ({ it with cursor := it.cursor + w.n }, splice data it.cursor (wire h e w.n v)) := by
  have hc : canMoveForward it w.n = true := (canMoveForward_iff (by omega)).2 hr
  have hl : (image h w.n v).length = w.n := image_length ..
  have he : (if isNative h e then keepOrder w (image h w.n v) else reverseOrder w (image h w.n v))
      = wire h e w.n v := by
    rw [keepOrder_eq hl, reverseOrder_eq hl]; rfl
  simp only [writeVal, hc, if_true, he]
  rw [storeSeq_eq _ _ _ (by simp; omega)]

theorem readVal_eq {h : Host} {e : Order} {w : Width} {it : It} {data : List Byte}
    (hs : it.stop ≤ data.length) (hr : it.cursor + w.n ≤ it.stop) (hd : data.length < 2 ^ 64) :
    readVal h e w it data
      = some ({ it with cursor := it.cursor + w.n },
          unimage h (if isNative h e then (data.drop it.cursor).take w.n
                     else ((data.drop it.cursor).take w.n).reverse)) := by
  have hc : canMoveForward it w.n = true := (canMoveForward_iff (by omega)).2 hr
  have hl : ((data.drop it.cursor).take w.n).length = w.n := by simp; omega
  simp only [readVal, hc, if_true]
  rw [loadSeq_eq _ _ _ (by omega)]
  simp only [keepOrder_eq hl, reverseOrder_eq hl]

end Verif.Iter
