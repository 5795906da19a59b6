import Verif.Message.Props
import Verif.Message.Wire

/-! Sizes of the variables of a message, and messages put around bytes. -/
namespace Verif.Message
open Verif Verif.Iter

/-- The number of bytes that a read into the variable takes: `sizeof` of scalars and of counts (`int64_t`), rounded up bits of sequence
numbers and addresses; /repo/network/buffer/io/arithmetic-io.h 51-75, 110-138, duration-io.h 51-76, time-point-io.h 51-76,
/repo/utility/circular-sequence-number.h 293-312, /repo/network/buffer/io/address-io.h 51-73. -/
def Var.size : Var → Nat
  | .arith w => w.n
  | .array w n => n * w.n
  | .duration => 8
  | .timePoint => 8
  | .seq bits _ => (bits + 7) / 8
  | .addr bits _ => (bits + 7) / 8

/-- The number of bytes of variables on the wire.  (Specification; no code.) -/
def sizes : List (Order × Var) → Nat
  | [] => 0
  | (_, x) :: xs => x.size + sizes xs

theorem fits_size {x : Var} {f : Field} (h : x.Fits f) : x.size = f.size := by
  cases x <;> cases f <;> simp only [Var.Fits] at h <;> simp only [Var.size, Field.size] <;> try trivial
  · rw [h]
  · rw [h.1, h.2]
  · rw [h.1]
  · rw [h.1]

theorem sizes_matches {fs : List (Order × Field)} {xs : List (Order × Var)} (h : Matches fs xs) : sizes xs = total fs := by
  induction h with
  | nil => rfl
  | @cons p q fs xs h _ ih =>
    obtain ⟨e, f⟩ := p
    obtain ⟨e', x⟩ := q
    simp only [sizes, total, ih, fits_size h.2]

/-- In front of what there is, or behind it.  (Specification; no code.) -/
inductive Edge where
  | front
  | back
deriving DecidableEq

/-- Messages in the format of the wire around a payload, the last added first.  (Specification; no code.) -/
def wrap (h : Host) : List (Edge × List (Order × Field)) → List Byte → List Byte
  | [], payload => payload
  | (.front, fs) :: ls, payload => format h fs ++ wrap h ls payload
  | (.back, fs) :: ls, payload => wrap h ls payload ++ format h fs

/-- The number of bytes in front of the payload.  (Specification; no code.) -/
def inFront (h : Host) : List (Edge × List (Order × Field)) → Nat
  | [] => 0
  | (.front, fs) :: ls => (format h fs).length + inFront h ls
  | (.back, _) :: ls => inFront h ls

theorem wrap_length (h : Host) (ls : List (Edge × List (Order × Field))) (p : List Byte) :
    p.length + inFront h ls ≤ (wrap h ls p).length := by
  induction ls with
  | nil => simp [wrap, inFront]
  | cons l ls ih =>
    obtain ⟨s, fs⟩ := l
    cases s <;> simp only [wrap, inFront, List.length_append] <;> omega

/-- The payload stands behind the headers. -/
theorem wrap_payload (h : Host) (ls : List (Edge × List (Order × Field))) (p : List Byte) :
    ((wrap h ls p).drop (inFront h ls)).take p.length = p := by
  induction ls with
  | nil => simp [wrap, inFront]
  | cons l ls ih =>
    obtain ⟨s, fs⟩ := l
    have := wrap_length h ls p
    cases s
    · simp only [wrap, inFront]
      rw [List.drop_append, List.drop_of_length_le (by omega), List.nil_append, Nat.add_sub_cancel_left]; exact ih
    · simp only [wrap, inFront]
      rw [List.drop_append_of_le_length (by omega), List.take_append_of_le_length (by rw [List.length_drop]; omega)]; exact ih

end Verif.Message
