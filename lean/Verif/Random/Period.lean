import Verif.Random.Balance
import Verif.Random.Cert.Ro64
import Verif.Random.Cert.Ro128
import Verif.Random.Cert.Shi128
import Verif.Random.Cert.Shi256
import Verif.Random.Cert.Shi512

/-!
Properties C112 and C113: the periods of the engines, and how often each output occurs in a period.

The engines whose documentation gives a period are those of `random/pseudo-random-generator.h` 624-720 (xoshiro256+, xoshiro256**,
xoshiro128+, xoshiro128**); the other engines of `random/engine/xoshiro-engine.h` and the two-word engines of
`random/engine/xoroshiro-engine.h` are covered as well.
-/
set_option linter.unusedSimpArgs false
set_option exponentiation.threshold 600
namespace Verif.Random

/-- A sequence repeats after `j` steps, from some place on, exactly if `N` divides `j`: its period is `N`. -/
def HasPeriod {O : Type} (f : Nat → O) (N : Nat) : Prop :=
  ∀ j, (∃ a, ∀ m, a ≤ m → f (m + j) = f m) ↔ N ∣ j

/-- The states after `0, 1, 2, ...` steps return to the first one exactly after the multiples of `N` steps, and within `N` steps
every state but zero occurs. -/
def Cycle {σ : Type} (zero : σ) (T : σ → σ) (N : Nat) : Prop :=
  ∀ s, s ≠ zero → (∀ k, iter T k s = s ↔ N ∣ k) ∧ ∀ t, t ≠ zero → ∃ k, k < N ∧ iter T k s = t

/-- Among the first `N` members of the sequence, zero occurs `c - 1` times, every other value that fits in `b` bits occurs
`c` times. -/
def Even (f : Nat → Nat) (N b c : Nat) : Prop :=
  ∀ x, x < 2 ^ b → Nat.card {k : Fin N // f k.val = x} = c - if x = 0 then 1 else 0

theorem iter_eq {σ : Type} (f : σ → σ) (k : Nat) (s : σ) : iter f k s = f^[k] s := by
  induction k generalizing s with
  | zero => rfl
  | succ k ih => rw [iter, ih, Function.iterate_succ_apply]

theorem stream_eq (e : Engine) (k : Nat) (s : e.State) : stream e k s = e.scramble (e.transform^[k] s) := by
  induction k generalizing s with
  | zero => rfl
  | succ k ih => rw [stream, ih, Function.iterate_succ_apply]; rfl

theorem cycle_of {σ : Type} {zero : σ} {T : σ → σ} {N : Nat} (h1 : ∀ v, v ≠ zero → ∀ k, T^[k] v = v ↔ N ∣ k)
    (h2 : ∀ s t, s ≠ zero → t ≠ zero → ∃ k < N, T^[k] s = t) : Cycle zero T N := by
  intro s hs
  constructor
  · intro k; rw [iter_eq]; exact h1 s hs k
  · intro t ht
    obtain ⟨k, hk, e⟩ := h2 s t hs ht
    exact ⟨k, hk, by rw [iter_eq]; exact e⟩

theorem even_of {V : Type} [AddCommGroup V] {T : V → V} {w m N t : Nat} {out : V → BitVec w} (hb : Bal out m) (h0 : out 0 = 0)
    (ht : t ≤ w) (s : V)
    (hc : ∀ P : V → Prop, Nat.card {k : Fin N // P (T^[k.val] s)} = Nat.card {v : V // v ≠ 0 ∧ P v}) :
    Even (fun k => (out (T^[k] s) >>> t).toNat) N (w - t) (2 ^ (t + m)) := by
  intro x hx
  have hcard : Nat.card {v : V // (out v >>> t).toNat = x} = 2 ^ (t + m) := by
    rw [hb.card (fun y => (y >>> t).toNat = x), card_upper ht hx, Nat.pow_add]
  rw [hc (fun v => (out v >>> t).toNat = x), card_nonzero _ (by rw [hcard]; exact Nat.pos_iff_ne_zero.mp (Nat.two_pow_pos _)),
    hcard, h0]
  simp [eq_comm]

/-! ### C112 -/

/-- **C112.** Whatever the state, if it is not all zero, the state of each engine returns to it exactly after the multiples of
`2^n - 1` steps, where `n` is the size of the state in bits, and passes through every other state but zero in between. -/
theorem C112_state_period :
    Cycle (⟨0, 0, 0, 0⟩ : S4 32) (transform4 9 11) (2 ^ 128 - 1) ∧
    Cycle (⟨0, 0, 0, 0⟩ : S4 64) (transform4 17 45) (2 ^ 256 - 1) ∧
    Cycle (⟨0, 0, 0, 0, 0, 0, 0, 0⟩ : S8 64) (transform8 11 21) (2 ^ 512 - 1) ∧
    Cycle (⟨0, 0⟩ : S2 32) (transform2 26 9 13) (2 ^ 64 - 1) ∧
    Cycle (⟨0, 0⟩ : S2 64) (transform2 24 16 37) (2 ^ 128 - 1) :=
  ⟨cycle_of full_x128 reach_x128, cycle_of full_x256 reach_x256, cycle_of full_x512 reach_x512, cycle_of full_r64 reach_r64,
    cycle_of full_r128 reach_r128⟩

theorem outOk_xoshiro128plus : cert_x128.outOk (fun n => !Nat.beq (scr4plus (unp4 32 n)).toNat (scr4plus (unp4 32 1)).toNat) = true := by
  decide +kernel
theorem outOk_xoshiro128plus_01 : cert_x128.outOk (fun n => !Nat.beq (unit32 (scr4plus (unp4 32 n))) (unit32 (scr4plus (unp4 32 1)))) = true := by
  decide +kernel
theorem period_xoshiro128plus (s : S4 32) (hs : s ≠ 0) : HasPeriod (fun k => stream (engine4 32 9 11 scr4plus) k s) (2 ^ 128 - 1) := by
  rw [show (fun k => stream (engine4 32 9 11 scr4plus) k s) = fun k => scr4plus ((transform4 9 11)^[k] s) from funext fun k => stream_eq (engine4 32 9 11 scr4plus) k s]
  intro j
  have h := out_x128 (fun s => (scr4plus s).toNat) outOk_xoshiro128plus s hs j
  simp only [BitVec.toNat_inj] at h
  exact h
theorem period_xoshiro128plus_01 (s : S4 32) (hs : s ≠ 0) : HasPeriod (fun k => unit32 (stream (engine4 32 9 11 scr4plus) k s)) (2 ^ 128 - 1) := by
  rw [show (fun k => unit32 (stream (engine4 32 9 11 scr4plus) k s)) = fun k => unit32 (scr4plus ((transform4 9 11)^[k] s)) from
    funext fun k => congrArg unit32 (stream_eq (engine4 32 9 11 scr4plus) k s)]
  intro j
  have h := out_x128 (fun s => unit32 (scr4plus s)) outOk_xoshiro128plus_01 s hs j
  exact h
theorem even_xoshiro128plus (s : S4 32) (hs : s ≠ 0) : Even (fun k => BitVec.toNat (w := 32) (stream (engine4 32 9 11 scr4plus) k s)) (2 ^ 128 - 1) 32 (2 ^ 96) := by
  have h := even_of (T := transform4 9 11) (N := 2 ^ 128 - 1) (t := 0) bal_128plus (by decide) (by decide) s (fun P => count_x128 P s hs)
  simp only [Nat.zero_add, Nat.sub_zero, BitVec.ushiftRight_zero] at h
  rw [show (fun k => BitVec.toNat (w := 32) (stream (engine4 32 9 11 scr4plus) k s)) = fun k => (scr4plus ((transform4 9 11)^[k] s)).toNat from
    funext fun k => congrArg BitVec.toNat (stream_eq (engine4 32 9 11 scr4plus) k s)]
  exact h
theorem even_xoshiro128plus_01 (s : S4 32) (hs : s ≠ 0) : Even (fun k => unit32 (stream (engine4 32 9 11 scr4plus) k s)) (2 ^ 128 - 1) 24 (2 ^ 104) := by
  have h := even_of (T := transform4 9 11) (N := 2 ^ 128 - 1) (t := 8) bal_128plus (by decide) (by decide) s (fun P => count_x128 P s hs)
  rw [show (fun k => unit32 (stream (engine4 32 9 11 scr4plus) k s)) = fun k => unit32 (scr4plus ((transform4 9 11)^[k] s)) from
    funext fun k => congrArg unit32 (stream_eq (engine4 32 9 11 scr4plus) k s)]
  exact h

theorem outOk_xoshiro128starstar : cert_x128.outOk (fun n => !Nat.beq (scr128starstar (unp4 32 n)).toNat (scr128starstar (unp4 32 1)).toNat) = true := by
  decide +kernel
theorem outOk_xoshiro128starstar_01 : cert_x128.outOk (fun n => !Nat.beq (unit32 (scr128starstar (unp4 32 n))) (unit32 (scr128starstar (unp4 32 1)))) = true := by
  decide +kernel
theorem period_xoshiro128starstar (s : S4 32) (hs : s ≠ 0) : HasPeriod (fun k => stream (engine4 32 9 11 scr128starstar) k s) (2 ^ 128 - 1) := by
  rw [show (fun k => stream (engine4 32 9 11 scr128starstar) k s) = fun k => scr128starstar ((transform4 9 11)^[k] s) from funext fun k => stream_eq (engine4 32 9 11 scr128starstar) k s]
  intro j
  have h := out_x128 (fun s => (scr128starstar s).toNat) outOk_xoshiro128starstar s hs j
  simp only [BitVec.toNat_inj] at h
  exact h
theorem period_xoshiro128starstar_01 (s : S4 32) (hs : s ≠ 0) : HasPeriod (fun k => unit32 (stream (engine4 32 9 11 scr128starstar) k s)) (2 ^ 128 - 1) := by
  rw [show (fun k => unit32 (stream (engine4 32 9 11 scr128starstar) k s)) = fun k => unit32 (scr128starstar ((transform4 9 11)^[k] s)) from
    funext fun k => congrArg unit32 (stream_eq (engine4 32 9 11 scr128starstar) k s)]
  intro j
  have h := out_x128 (fun s => unit32 (scr128starstar s)) outOk_xoshiro128starstar_01 s hs j
  exact h
theorem even_xoshiro128starstar (s : S4 32) (hs : s ≠ 0) : Even (fun k => BitVec.toNat (w := 32) (stream (engine4 32 9 11 scr128starstar) k s)) (2 ^ 128 - 1) 32 (2 ^ 96) := by
  have h := even_of (T := transform4 9 11) (N := 2 ^ 128 - 1) (t := 0) bal_128starstar (by decide) (by decide) s (fun P => count_x128 P s hs)
  simp only [Nat.zero_add, Nat.sub_zero, BitVec.ushiftRight_zero] at h
  rw [show (fun k => BitVec.toNat (w := 32) (stream (engine4 32 9 11 scr128starstar) k s)) = fun k => (scr128starstar ((transform4 9 11)^[k] s)).toNat from
    funext fun k => congrArg BitVec.toNat (stream_eq (engine4 32 9 11 scr128starstar) k s)]
  exact h
theorem even_xoshiro128starstar_01 (s : S4 32) (hs : s ≠ 0) : Even (fun k => unit32 (stream (engine4 32 9 11 scr128starstar) k s)) (2 ^ 128 - 1) 24 (2 ^ 104) := by
  have h := even_of (T := transform4 9 11) (N := 2 ^ 128 - 1) (t := 8) bal_128starstar (by decide) (by decide) s (fun P => count_x128 P s hs)
  rw [show (fun k => unit32 (stream (engine4 32 9 11 scr128starstar) k s)) = fun k => unit32 (scr128starstar ((transform4 9 11)^[k] s)) from
    funext fun k => congrArg unit32 (stream_eq (engine4 32 9 11 scr128starstar) k s)]
  exact h

theorem outOk_xoshiro256plus : cert_x256.outOk (fun n => !Nat.beq (scr4plus (unp4 64 n)).toNat (scr4plus (unp4 64 1)).toNat) = true := by
  decide +kernel
theorem outOk_xoshiro256plus_01 : cert_x256.outOk (fun n => !Nat.beq (unit64 (scr4plus (unp4 64 n))) (unit64 (scr4plus (unp4 64 1)))) = true := by
  decide +kernel
theorem period_xoshiro256plus (s : S4 64) (hs : s ≠ 0) : HasPeriod (fun k => stream (engine4 64 17 45 scr4plus) k s) (2 ^ 256 - 1) := by
  rw [show (fun k => stream (engine4 64 17 45 scr4plus) k s) = fun k => scr4plus ((transform4 17 45)^[k] s) from funext fun k => stream_eq (engine4 64 17 45 scr4plus) k s]
  intro j
  have h := out_x256 (fun s => (scr4plus s).toNat) outOk_xoshiro256plus s hs j
  simp only [BitVec.toNat_inj] at h
  exact h
theorem period_xoshiro256plus_01 (s : S4 64) (hs : s ≠ 0) : HasPeriod (fun k => unit64 (stream (engine4 64 17 45 scr4plus) k s)) (2 ^ 256 - 1) := by
  rw [show (fun k => unit64 (stream (engine4 64 17 45 scr4plus) k s)) = fun k => unit64 (scr4plus ((transform4 17 45)^[k] s)) from
    funext fun k => congrArg unit64 (stream_eq (engine4 64 17 45 scr4plus) k s)]
  intro j
  have h := out_x256 (fun s => unit64 (scr4plus s)) outOk_xoshiro256plus_01 s hs j
  exact h
theorem even_xoshiro256plus (s : S4 64) (hs : s ≠ 0) : Even (fun k => BitVec.toNat (w := 64) (stream (engine4 64 17 45 scr4plus) k s)) (2 ^ 256 - 1) 64 (2 ^ 192) := by
  have h := even_of (T := transform4 17 45) (N := 2 ^ 256 - 1) (t := 0) bal_256plus (by decide) (by decide) s (fun P => count_x256 P s hs)
  simp only [Nat.zero_add, Nat.sub_zero, BitVec.ushiftRight_zero] at h
  rw [show (fun k => BitVec.toNat (w := 64) (stream (engine4 64 17 45 scr4plus) k s)) = fun k => (scr4plus ((transform4 17 45)^[k] s)).toNat from
    funext fun k => congrArg BitVec.toNat (stream_eq (engine4 64 17 45 scr4plus) k s)]
  exact h
theorem even_xoshiro256plus_01 (s : S4 64) (hs : s ≠ 0) : Even (fun k => unit64 (stream (engine4 64 17 45 scr4plus) k s)) (2 ^ 256 - 1) 53 (2 ^ 203) := by
  have h := even_of (T := transform4 17 45) (N := 2 ^ 256 - 1) (t := 11) bal_256plus (by decide) (by decide) s (fun P => count_x256 P s hs)
  rw [show (fun k => unit64 (stream (engine4 64 17 45 scr4plus) k s)) = fun k => unit64 (scr4plus ((transform4 17 45)^[k] s)) from
    funext fun k => congrArg unit64 (stream_eq (engine4 64 17 45 scr4plus) k s)]
  exact h

theorem outOk_xoshiro256starstar : cert_x256.outOk (fun n => !Nat.beq (scr256starstar (unp4 64 n)).toNat (scr256starstar (unp4 64 1)).toNat) = true := by
  decide +kernel
theorem outOk_xoshiro256starstar_01 : cert_x256.outOk (fun n => !Nat.beq (unit64 (scr256starstar (unp4 64 n))) (unit64 (scr256starstar (unp4 64 1)))) = true := by
  decide +kernel
theorem period_xoshiro256starstar (s : S4 64) (hs : s ≠ 0) : HasPeriod (fun k => stream (engine4 64 17 45 scr256starstar) k s) (2 ^ 256 - 1) := by
  rw [show (fun k => stream (engine4 64 17 45 scr256starstar) k s) = fun k => scr256starstar ((transform4 17 45)^[k] s) from funext fun k => stream_eq (engine4 64 17 45 scr256starstar) k s]
  intro j
  have h := out_x256 (fun s => (scr256starstar s).toNat) outOk_xoshiro256starstar s hs j
  simp only [BitVec.toNat_inj] at h
  exact h
theorem period_xoshiro256starstar_01 (s : S4 64) (hs : s ≠ 0) : HasPeriod (fun k => unit64 (stream (engine4 64 17 45 scr256starstar) k s)) (2 ^ 256 - 1) := by
  rw [show (fun k => unit64 (stream (engine4 64 17 45 scr256starstar) k s)) = fun k => unit64 (scr256starstar ((transform4 17 45)^[k] s)) from
    funext fun k => congrArg unit64 (stream_eq (engine4 64 17 45 scr256starstar) k s)]
  intro j
  have h := out_x256 (fun s => unit64 (scr256starstar s)) outOk_xoshiro256starstar_01 s hs j
  exact h
theorem even_xoshiro256starstar (s : S4 64) (hs : s ≠ 0) : Even (fun k => BitVec.toNat (w := 64) (stream (engine4 64 17 45 scr256starstar) k s)) (2 ^ 256 - 1) 64 (2 ^ 192) := by
  have h := even_of (T := transform4 17 45) (N := 2 ^ 256 - 1) (t := 0) bal_256starstar (by decide) (by decide) s (fun P => count_x256 P s hs)
  simp only [Nat.zero_add, Nat.sub_zero, BitVec.ushiftRight_zero] at h
  rw [show (fun k => BitVec.toNat (w := 64) (stream (engine4 64 17 45 scr256starstar) k s)) = fun k => (scr256starstar ((transform4 17 45)^[k] s)).toNat from
    funext fun k => congrArg BitVec.toNat (stream_eq (engine4 64 17 45 scr256starstar) k s)]
  exact h
theorem even_xoshiro256starstar_01 (s : S4 64) (hs : s ≠ 0) : Even (fun k => unit64 (stream (engine4 64 17 45 scr256starstar) k s)) (2 ^ 256 - 1) 53 (2 ^ 203) := by
  have h := even_of (T := transform4 17 45) (N := 2 ^ 256 - 1) (t := 11) bal_256starstar (by decide) (by decide) s (fun P => count_x256 P s hs)
  rw [show (fun k => unit64 (stream (engine4 64 17 45 scr256starstar) k s)) = fun k => unit64 (scr256starstar ((transform4 17 45)^[k] s)) from
    funext fun k => congrArg unit64 (stream_eq (engine4 64 17 45 scr256starstar) k s)]
  exact h

theorem outOk_xoshiro512plus : cert_x512.outOk (fun n => !Nat.beq (scr8plus (unp8 64 n)).toNat (scr8plus (unp8 64 1)).toNat) = true := by
  decide +kernel
theorem outOk_xoshiro512plus_01 : cert_x512.outOk (fun n => !Nat.beq (unit64 (scr8plus (unp8 64 n))) (unit64 (scr8plus (unp8 64 1)))) = true := by
  decide +kernel
theorem period_xoshiro512plus (s : S8 64) (hs : s ≠ 0) : HasPeriod (fun k => stream (engine8 64 11 21 scr8plus) k s) (2 ^ 512 - 1) := by
  rw [show (fun k => stream (engine8 64 11 21 scr8plus) k s) = fun k => scr8plus ((transform8 11 21)^[k] s) from funext fun k => stream_eq (engine8 64 11 21 scr8plus) k s]
  intro j
  have h := out_x512 (fun s => (scr8plus s).toNat) outOk_xoshiro512plus s hs j
  simp only [BitVec.toNat_inj] at h
  exact h
theorem period_xoshiro512plus_01 (s : S8 64) (hs : s ≠ 0) : HasPeriod (fun k => unit64 (stream (engine8 64 11 21 scr8plus) k s)) (2 ^ 512 - 1) := by
  rw [show (fun k => unit64 (stream (engine8 64 11 21 scr8plus) k s)) = fun k => unit64 (scr8plus ((transform8 11 21)^[k] s)) from
    funext fun k => congrArg unit64 (stream_eq (engine8 64 11 21 scr8plus) k s)]
  intro j
  have h := out_x512 (fun s => unit64 (scr8plus s)) outOk_xoshiro512plus_01 s hs j
  exact h
theorem even_xoshiro512plus (s : S8 64) (hs : s ≠ 0) : Even (fun k => BitVec.toNat (w := 64) (stream (engine8 64 11 21 scr8plus) k s)) (2 ^ 512 - 1) 64 (2 ^ 448) := by
  have h := even_of (T := transform8 11 21) (N := 2 ^ 512 - 1) (t := 0) bal_8plus (by decide) (by decide) s (fun P => count_x512 P s hs)
  simp only [Nat.zero_add, Nat.sub_zero, BitVec.ushiftRight_zero] at h
  rw [show (fun k => BitVec.toNat (w := 64) (stream (engine8 64 11 21 scr8plus) k s)) = fun k => (scr8plus ((transform8 11 21)^[k] s)).toNat from
    funext fun k => congrArg BitVec.toNat (stream_eq (engine8 64 11 21 scr8plus) k s)]
  exact h
theorem even_xoshiro512plus_01 (s : S8 64) (hs : s ≠ 0) : Even (fun k => unit64 (stream (engine8 64 11 21 scr8plus) k s)) (2 ^ 512 - 1) 53 (2 ^ 459) := by
  have h := even_of (T := transform8 11 21) (N := 2 ^ 512 - 1) (t := 11) bal_8plus (by decide) (by decide) s (fun P => count_x512 P s hs)
  rw [show (fun k => unit64 (stream (engine8 64 11 21 scr8plus) k s)) = fun k => unit64 (scr8plus ((transform8 11 21)^[k] s)) from
    funext fun k => congrArg unit64 (stream_eq (engine8 64 11 21 scr8plus) k s)]
  exact h

theorem outOk_xoshiro512starstar : cert_x512.outOk (fun n => !Nat.beq (scr512starstar (unp8 64 n)).toNat (scr512starstar (unp8 64 1)).toNat) = true := by
  decide +kernel
theorem outOk_xoshiro512starstar_01 : cert_x512.outOk (fun n => !Nat.beq (unit64 (scr512starstar (unp8 64 n))) (unit64 (scr512starstar (unp8 64 1)))) = true := by
  decide +kernel
theorem period_xoshiro512starstar (s : S8 64) (hs : s ≠ 0) : HasPeriod (fun k => stream (engine8 64 11 21 scr512starstar) k s) (2 ^ 512 - 1) := by
  rw [show (fun k => stream (engine8 64 11 21 scr512starstar) k s) = fun k => scr512starstar ((transform8 11 21)^[k] s) from funext fun k => stream_eq (engine8 64 11 21 scr512starstar) k s]
  intro j
  have h := out_x512 (fun s => (scr512starstar s).toNat) outOk_xoshiro512starstar s hs j
  simp only [BitVec.toNat_inj] at h
  exact h
theorem period_xoshiro512starstar_01 (s : S8 64) (hs : s ≠ 0) : HasPeriod (fun k => unit64 (stream (engine8 64 11 21 scr512starstar) k s)) (2 ^ 512 - 1) := by
  rw [show (fun k => unit64 (stream (engine8 64 11 21 scr512starstar) k s)) = fun k => unit64 (scr512starstar ((transform8 11 21)^[k] s)) from
    funext fun k => congrArg unit64 (stream_eq (engine8 64 11 21 scr512starstar) k s)]
  intro j
  have h := out_x512 (fun s => unit64 (scr512starstar s)) outOk_xoshiro512starstar_01 s hs j
  exact h
theorem even_xoshiro512starstar (s : S8 64) (hs : s ≠ 0) : Even (fun k => BitVec.toNat (w := 64) (stream (engine8 64 11 21 scr512starstar) k s)) (2 ^ 512 - 1) 64 (2 ^ 448) := by
  have h := even_of (T := transform8 11 21) (N := 2 ^ 512 - 1) (t := 0) bal_512starstar (by decide) (by decide) s (fun P => count_x512 P s hs)
  simp only [Nat.zero_add, Nat.sub_zero, BitVec.ushiftRight_zero] at h
  rw [show (fun k => BitVec.toNat (w := 64) (stream (engine8 64 11 21 scr512starstar) k s)) = fun k => (scr512starstar ((transform8 11 21)^[k] s)).toNat from
    funext fun k => congrArg BitVec.toNat (stream_eq (engine8 64 11 21 scr512starstar) k s)]
  exact h
theorem even_xoshiro512starstar_01 (s : S8 64) (hs : s ≠ 0) : Even (fun k => unit64 (stream (engine8 64 11 21 scr512starstar) k s)) (2 ^ 512 - 1) 53 (2 ^ 459) := by
  have h := even_of (T := transform8 11 21) (N := 2 ^ 512 - 1) (t := 11) bal_512starstar (by decide) (by decide) s (fun P => count_x512 P s hs)
  rw [show (fun k => unit64 (stream (engine8 64 11 21 scr512starstar) k s)) = fun k => unit64 (scr512starstar ((transform8 11 21)^[k] s)) from
    funext fun k => congrArg unit64 (stream_eq (engine8 64 11 21 scr512starstar) k s)]
  exact h

theorem outOk_xoroshiro64star : cert_r64.outOk (fun n => !Nat.beq (scr64star (unp2 32 n)).toNat (scr64star (unp2 32 1)).toNat) = true := by
  decide +kernel
theorem outOk_xoroshiro64star_01 : cert_r64.outOk (fun n => !Nat.beq (unit32 (scr64star (unp2 32 n))) (unit32 (scr64star (unp2 32 1)))) = true := by
  decide +kernel
theorem period_xoroshiro64star (s : S2 32) (hs : s ≠ 0) : HasPeriod (fun k => stream (engine2 32 26 9 13 scr64star) k s) (2 ^ 64 - 1) := by
  rw [show (fun k => stream (engine2 32 26 9 13 scr64star) k s) = fun k => scr64star ((transform2 26 9 13)^[k] s) from funext fun k => stream_eq (engine2 32 26 9 13 scr64star) k s]
  intro j
  have h := out_r64 (fun s => (scr64star s).toNat) outOk_xoroshiro64star s hs j
  simp only [BitVec.toNat_inj] at h
  exact h
theorem period_xoroshiro64star_01 (s : S2 32) (hs : s ≠ 0) : HasPeriod (fun k => unit32 (stream (engine2 32 26 9 13 scr64star) k s)) (2 ^ 64 - 1) := by
  rw [show (fun k => unit32 (stream (engine2 32 26 9 13 scr64star) k s)) = fun k => unit32 (scr64star ((transform2 26 9 13)^[k] s)) from
    funext fun k => congrArg unit32 (stream_eq (engine2 32 26 9 13 scr64star) k s)]
  intro j
  have h := out_r64 (fun s => unit32 (scr64star s)) outOk_xoroshiro64star_01 s hs j
  exact h
theorem even_xoroshiro64star (s : S2 32) (hs : s ≠ 0) : Even (fun k => BitVec.toNat (w := 32) (stream (engine2 32 26 9 13 scr64star) k s)) (2 ^ 64 - 1) 32 (2 ^ 32) := by
  have h := even_of (T := transform2 26 9 13) (N := 2 ^ 64 - 1) (t := 0) bal_64star (by decide) (by decide) s (fun P => count_r64 P s hs)
  simp only [Nat.zero_add, Nat.sub_zero, BitVec.ushiftRight_zero] at h
  rw [show (fun k => BitVec.toNat (w := 32) (stream (engine2 32 26 9 13 scr64star) k s)) = fun k => (scr64star ((transform2 26 9 13)^[k] s)).toNat from
    funext fun k => congrArg BitVec.toNat (stream_eq (engine2 32 26 9 13 scr64star) k s)]
  exact h
theorem even_xoroshiro64star_01 (s : S2 32) (hs : s ≠ 0) : Even (fun k => unit32 (stream (engine2 32 26 9 13 scr64star) k s)) (2 ^ 64 - 1) 24 (2 ^ 40) := by
  have h := even_of (T := transform2 26 9 13) (N := 2 ^ 64 - 1) (t := 8) bal_64star (by decide) (by decide) s (fun P => count_r64 P s hs)
  rw [show (fun k => unit32 (stream (engine2 32 26 9 13 scr64star) k s)) = fun k => unit32 (scr64star ((transform2 26 9 13)^[k] s)) from
    funext fun k => congrArg unit32 (stream_eq (engine2 32 26 9 13 scr64star) k s)]
  exact h

theorem outOk_xoroshiro64starstar : cert_r64.outOk (fun n => !Nat.beq (scr64starstar (unp2 32 n)).toNat (scr64starstar (unp2 32 1)).toNat) = true := by
  decide +kernel
theorem outOk_xoroshiro64starstar_01 : cert_r64.outOk (fun n => !Nat.beq (unit32 (scr64starstar (unp2 32 n))) (unit32 (scr64starstar (unp2 32 1)))) = true := by
  decide +kernel
theorem period_xoroshiro64starstar (s : S2 32) (hs : s ≠ 0) : HasPeriod (fun k => stream (engine2 32 26 9 13 scr64starstar) k s) (2 ^ 64 - 1) := by
  rw [show (fun k => stream (engine2 32 26 9 13 scr64starstar) k s) = fun k => scr64starstar ((transform2 26 9 13)^[k] s) from funext fun k => stream_eq (engine2 32 26 9 13 scr64starstar) k s]
  intro j
  have h := out_r64 (fun s => (scr64starstar s).toNat) outOk_xoroshiro64starstar s hs j
  simp only [BitVec.toNat_inj] at h
  exact h
theorem period_xoroshiro64starstar_01 (s : S2 32) (hs : s ≠ 0) : HasPeriod (fun k => unit32 (stream (engine2 32 26 9 13 scr64starstar) k s)) (2 ^ 64 - 1) := by
  rw [show (fun k => unit32 (stream (engine2 32 26 9 13 scr64starstar) k s)) = fun k => unit32 (scr64starstar ((transform2 26 9 13)^[k] s)) from
    funext fun k => congrArg unit32 (stream_eq (engine2 32 26 9 13 scr64starstar) k s)]
  intro j
  have h := out_r64 (fun s => unit32 (scr64starstar s)) outOk_xoroshiro64starstar_01 s hs j
  exact h
theorem even_xoroshiro64starstar (s : S2 32) (hs : s ≠ 0) : Even (fun k => BitVec.toNat (w := 32) (stream (engine2 32 26 9 13 scr64starstar) k s)) (2 ^ 64 - 1) 32 (2 ^ 32) := by
  have h := even_of (T := transform2 26 9 13) (N := 2 ^ 64 - 1) (t := 0) bal_64starstar (by decide) (by decide) s (fun P => count_r64 P s hs)
  simp only [Nat.zero_add, Nat.sub_zero, BitVec.ushiftRight_zero] at h
  rw [show (fun k => BitVec.toNat (w := 32) (stream (engine2 32 26 9 13 scr64starstar) k s)) = fun k => (scr64starstar ((transform2 26 9 13)^[k] s)).toNat from
    funext fun k => congrArg BitVec.toNat (stream_eq (engine2 32 26 9 13 scr64starstar) k s)]
  exact h
theorem even_xoroshiro64starstar_01 (s : S2 32) (hs : s ≠ 0) : Even (fun k => unit32 (stream (engine2 32 26 9 13 scr64starstar) k s)) (2 ^ 64 - 1) 24 (2 ^ 40) := by
  have h := even_of (T := transform2 26 9 13) (N := 2 ^ 64 - 1) (t := 8) bal_64starstar (by decide) (by decide) s (fun P => count_r64 P s hs)
  rw [show (fun k => unit32 (stream (engine2 32 26 9 13 scr64starstar) k s)) = fun k => unit32 (scr64starstar ((transform2 26 9 13)^[k] s)) from
    funext fun k => congrArg unit32 (stream_eq (engine2 32 26 9 13 scr64starstar) k s)]
  exact h

theorem outOk_xoroshiro128plus : cert_r128.outOk (fun n => !Nat.beq (scr2plus (unp2 64 n)).toNat (scr2plus (unp2 64 1)).toNat) = true := by
  decide +kernel
theorem outOk_xoroshiro128plus_01 : cert_r128.outOk (fun n => !Nat.beq (unit64 (scr2plus (unp2 64 n))) (unit64 (scr2plus (unp2 64 1)))) = true := by
  decide +kernel
theorem period_xoroshiro128plus (s : S2 64) (hs : s ≠ 0) : HasPeriod (fun k => stream (engine2 64 24 16 37 scr2plus) k s) (2 ^ 128 - 1) := by
  rw [show (fun k => stream (engine2 64 24 16 37 scr2plus) k s) = fun k => scr2plus ((transform2 24 16 37)^[k] s) from funext fun k => stream_eq (engine2 64 24 16 37 scr2plus) k s]
  intro j
  have h := out_r128 (fun s => (scr2plus s).toNat) outOk_xoroshiro128plus s hs j
  simp only [BitVec.toNat_inj] at h
  exact h
theorem period_xoroshiro128plus_01 (s : S2 64) (hs : s ≠ 0) : HasPeriod (fun k => unit64 (stream (engine2 64 24 16 37 scr2plus) k s)) (2 ^ 128 - 1) := by
  rw [show (fun k => unit64 (stream (engine2 64 24 16 37 scr2plus) k s)) = fun k => unit64 (scr2plus ((transform2 24 16 37)^[k] s)) from
    funext fun k => congrArg unit64 (stream_eq (engine2 64 24 16 37 scr2plus) k s)]
  intro j
  have h := out_r128 (fun s => unit64 (scr2plus s)) outOk_xoroshiro128plus_01 s hs j
  exact h
theorem even_xoroshiro128plus (s : S2 64) (hs : s ≠ 0) : Even (fun k => BitVec.toNat (w := 64) (stream (engine2 64 24 16 37 scr2plus) k s)) (2 ^ 128 - 1) 64 (2 ^ 64) := by
  have h := even_of (T := transform2 24 16 37) (N := 2 ^ 128 - 1) (t := 0) bal_2plus (by decide) (by decide) s (fun P => count_r128 P s hs)
  simp only [Nat.zero_add, Nat.sub_zero, BitVec.ushiftRight_zero] at h
  rw [show (fun k => BitVec.toNat (w := 64) (stream (engine2 64 24 16 37 scr2plus) k s)) = fun k => (scr2plus ((transform2 24 16 37)^[k] s)).toNat from
    funext fun k => congrArg BitVec.toNat (stream_eq (engine2 64 24 16 37 scr2plus) k s)]
  exact h
theorem even_xoroshiro128plus_01 (s : S2 64) (hs : s ≠ 0) : Even (fun k => unit64 (stream (engine2 64 24 16 37 scr2plus) k s)) (2 ^ 128 - 1) 53 (2 ^ 75) := by
  have h := even_of (T := transform2 24 16 37) (N := 2 ^ 128 - 1) (t := 11) bal_2plus (by decide) (by decide) s (fun P => count_r128 P s hs)
  rw [show (fun k => unit64 (stream (engine2 64 24 16 37 scr2plus) k s)) = fun k => unit64 (scr2plus ((transform2 24 16 37)^[k] s)) from
    funext fun k => congrArg unit64 (stream_eq (engine2 64 24 16 37 scr2plus) k s)]
  exact h

theorem outOk_xoroshiro128starstar : cert_r128.outOk (fun n => !Nat.beq (scr2starstar (unp2 64 n)).toNat (scr2starstar (unp2 64 1)).toNat) = true := by
  decide +kernel
theorem outOk_xoroshiro128starstar_01 : cert_r128.outOk (fun n => !Nat.beq (unit64 (scr2starstar (unp2 64 n))) (unit64 (scr2starstar (unp2 64 1)))) = true := by
  decide +kernel
theorem period_xoroshiro128starstar (s : S2 64) (hs : s ≠ 0) : HasPeriod (fun k => stream (engine2 64 24 16 37 scr2starstar) k s) (2 ^ 128 - 1) := by
  rw [show (fun k => stream (engine2 64 24 16 37 scr2starstar) k s) = fun k => scr2starstar ((transform2 24 16 37)^[k] s) from funext fun k => stream_eq (engine2 64 24 16 37 scr2starstar) k s]
  intro j
  have h := out_r128 (fun s => (scr2starstar s).toNat) outOk_xoroshiro128starstar s hs j
  simp only [BitVec.toNat_inj] at h
  exact h
theorem period_xoroshiro128starstar_01 (s : S2 64) (hs : s ≠ 0) : HasPeriod (fun k => unit64 (stream (engine2 64 24 16 37 scr2starstar) k s)) (2 ^ 128 - 1) := by
  rw [show (fun k => unit64 (stream (engine2 64 24 16 37 scr2starstar) k s)) = fun k => unit64 (scr2starstar ((transform2 24 16 37)^[k] s)) from
    funext fun k => congrArg unit64 (stream_eq (engine2 64 24 16 37 scr2starstar) k s)]
  intro j
  have h := out_r128 (fun s => unit64 (scr2starstar s)) outOk_xoroshiro128starstar_01 s hs j
  exact h
theorem even_xoroshiro128starstar (s : S2 64) (hs : s ≠ 0) : Even (fun k => BitVec.toNat (w := 64) (stream (engine2 64 24 16 37 scr2starstar) k s)) (2 ^ 128 - 1) 64 (2 ^ 64) := by
  have h := even_of (T := transform2 24 16 37) (N := 2 ^ 128 - 1) (t := 0) bal_2starstar (by decide) (by decide) s (fun P => count_r128 P s hs)
  simp only [Nat.zero_add, Nat.sub_zero, BitVec.ushiftRight_zero] at h
  rw [show (fun k => BitVec.toNat (w := 64) (stream (engine2 64 24 16 37 scr2starstar) k s)) = fun k => (scr2starstar ((transform2 24 16 37)^[k] s)).toNat from
    funext fun k => congrArg BitVec.toNat (stream_eq (engine2 64 24 16 37 scr2starstar) k s)]
  exact h
theorem even_xoroshiro128starstar_01 (s : S2 64) (hs : s ≠ 0) : Even (fun k => unit64 (stream (engine2 64 24 16 37 scr2starstar) k s)) (2 ^ 128 - 1) 53 (2 ^ 75) := by
  have h := even_of (T := transform2 24 16 37) (N := 2 ^ 128 - 1) (t := 11) bal_2starstar (by decide) (by decide) s (fun P => count_r128 P s hs)
  rw [show (fun k => unit64 (stream (engine2 64 24 16 37 scr2starstar) k s)) = fun k => unit64 (scr2starstar ((transform2 24 16 37)^[k] s)) from
    funext fun k => congrArg unit64 (stream_eq (engine2 64 24 16 37 scr2starstar) k s)]
  exact h

/-- **C112.** From any state that is not all zero, the outputs of each integer engine and of each floating-point engine made
from it repeat with period exactly `2^n - 1`: not even a tail of the sequence repeats after fewer steps. -/
theorem C112_output_period :
    (∀ s : S4 32, s ≠ ⟨0, 0, 0, 0⟩ →
      HasPeriod (fun k => stream (engine4 32 9 11 scr4plus) k s) (2 ^ 128 - 1) ∧ HasPeriod (fun k => unit32 (stream (engine4 32 9 11 scr4plus) k s)) (2 ^ 128 - 1) ∧
      HasPeriod (fun k => stream (engine4 32 9 11 scr128starstar) k s) (2 ^ 128 - 1) ∧ HasPeriod (fun k => unit32 (stream (engine4 32 9 11 scr128starstar) k s)) (2 ^ 128 - 1)) ∧
    (∀ s : S4 64, s ≠ ⟨0, 0, 0, 0⟩ →
      HasPeriod (fun k => stream (engine4 64 17 45 scr4plus) k s) (2 ^ 256 - 1) ∧ HasPeriod (fun k => unit64 (stream (engine4 64 17 45 scr4plus) k s)) (2 ^ 256 - 1) ∧
      HasPeriod (fun k => stream (engine4 64 17 45 scr256starstar) k s) (2 ^ 256 - 1) ∧ HasPeriod (fun k => unit64 (stream (engine4 64 17 45 scr256starstar) k s)) (2 ^ 256 - 1)) ∧
    (∀ s : S8 64, s ≠ ⟨0, 0, 0, 0, 0, 0, 0, 0⟩ →
      HasPeriod (fun k => stream (engine8 64 11 21 scr8plus) k s) (2 ^ 512 - 1) ∧ HasPeriod (fun k => unit64 (stream (engine8 64 11 21 scr8plus) k s)) (2 ^ 512 - 1) ∧
      HasPeriod (fun k => stream (engine8 64 11 21 scr512starstar) k s) (2 ^ 512 - 1) ∧ HasPeriod (fun k => unit64 (stream (engine8 64 11 21 scr512starstar) k s)) (2 ^ 512 - 1)) ∧
    (∀ s : S2 32, s ≠ ⟨0, 0⟩ →
      HasPeriod (fun k => stream (engine2 32 26 9 13 scr64star) k s) (2 ^ 64 - 1) ∧ HasPeriod (fun k => unit32 (stream (engine2 32 26 9 13 scr64star) k s)) (2 ^ 64 - 1) ∧
      HasPeriod (fun k => stream (engine2 32 26 9 13 scr64starstar) k s) (2 ^ 64 - 1) ∧ HasPeriod (fun k => unit32 (stream (engine2 32 26 9 13 scr64starstar) k s)) (2 ^ 64 - 1)) ∧
    (∀ s : S2 64, s ≠ ⟨0, 0⟩ →
      HasPeriod (fun k => stream (engine2 64 24 16 37 scr2plus) k s) (2 ^ 128 - 1) ∧ HasPeriod (fun k => unit64 (stream (engine2 64 24 16 37 scr2plus) k s)) (2 ^ 128 - 1) ∧
      HasPeriod (fun k => stream (engine2 64 24 16 37 scr2starstar) k s) (2 ^ 128 - 1) ∧ HasPeriod (fun k => unit64 (stream (engine2 64 24 16 37 scr2starstar) k s)) (2 ^ 128 - 1)) :=
  ⟨fun s hs => ⟨period_xoshiro128plus s hs, period_xoshiro128plus_01 s hs, period_xoshiro128starstar s hs, period_xoshiro128starstar_01 s hs⟩,
    fun s hs => ⟨period_xoshiro256plus s hs, period_xoshiro256plus_01 s hs, period_xoshiro256starstar s hs, period_xoshiro256starstar_01 s hs⟩,
    fun s hs => ⟨period_xoshiro512plus s hs, period_xoshiro512plus_01 s hs, period_xoshiro512starstar s hs, period_xoshiro512starstar_01 s hs⟩,
    fun s hs => ⟨period_xoroshiro64star s hs, period_xoroshiro64star_01 s hs, period_xoroshiro64starstar s hs, period_xoroshiro64starstar_01 s hs⟩,
    fun s hs => ⟨period_xoroshiro128plus s hs, period_xoroshiro128plus_01 s hs, period_xoroshiro128starstar s hs, period_xoroshiro128starstar_01 s hs⟩⟩

/-- **C112.** From any seed, and whatever the engine held before, the outputs of the 64-bit engines have the documented period. -/
theorem C112_seeded (v : BitVec 64) :
    (∀ s : S4 64, HasPeriod (fun k => stream (engine4 64 17 45 scr4plus) k (seed4 v s)) (2 ^ 256 - 1) ∧
      HasPeriod (fun k => unit64 (stream (engine4 64 17 45 scr4plus) k (seed4 v s))) (2 ^ 256 - 1)) ∧
    (∀ s : S4 64, HasPeriod (fun k => stream (engine4 64 17 45 scr256starstar) k (seed4 v s)) (2 ^ 256 - 1) ∧
      HasPeriod (fun k => unit64 (stream (engine4 64 17 45 scr256starstar) k (seed4 v s))) (2 ^ 256 - 1)) ∧
    (∀ s : S8 64, HasPeriod (fun k => stream (engine8 64 11 21 scr8plus) k (seed8 v s)) (2 ^ 512 - 1) ∧
      HasPeriod (fun k => unit64 (stream (engine8 64 11 21 scr8plus) k (seed8 v s))) (2 ^ 512 - 1)) ∧
    (∀ s : S8 64, HasPeriod (fun k => stream (engine8 64 11 21 scr512starstar) k (seed8 v s)) (2 ^ 512 - 1) ∧
      HasPeriod (fun k => unit64 (stream (engine8 64 11 21 scr512starstar) k (seed8 v s))) (2 ^ 512 - 1)) ∧
    (∀ s : S2 64, HasPeriod (fun k => stream (engine2 64 24 16 37 scr2plus) k (seed2 v s)) (2 ^ 128 - 1) ∧
      HasPeriod (fun k => unit64 (stream (engine2 64 24 16 37 scr2plus) k (seed2 v s))) (2 ^ 128 - 1)) ∧
    (∀ s : S2 64, HasPeriod (fun k => stream (engine2 64 24 16 37 scr2starstar) k (seed2 v s)) (2 ^ 128 - 1) ∧
      HasPeriod (fun k => unit64 (stream (engine2 64 24 16 37 scr2starstar) k (seed2 v s))) (2 ^ 128 - 1)) := by
  obtain ⟨h4, h8, h2, _⟩ := C64_seed_nonzero v
  exact ⟨fun s => ⟨period_xoshiro256plus _ (h4 s), period_xoshiro256plus_01 _ (h4 s)⟩,
    fun s => ⟨period_xoshiro256starstar _ (h4 s), period_xoshiro256starstar_01 _ (h4 s)⟩,
    fun s => ⟨period_xoshiro512plus _ (h8 s), period_xoshiro512plus_01 _ (h8 s)⟩,
    fun s => ⟨period_xoshiro512starstar _ (h8 s), period_xoshiro512starstar_01 _ (h8 s)⟩,
    fun s => ⟨period_xoroshiro128plus _ (h2 s), period_xoroshiro128plus_01 _ (h2 s)⟩,
    fun s => ⟨period_xoroshiro128starstar _ (h2 s), period_xoroshiro128starstar_01 _ (h2 s)⟩⟩

/-! ### C113 -/

/-- **C113.** Over one period, from any state that is not all zero, each integer engine gives every value equally often, except that
zero is missing once; so does each floating-point engine made from it. -/
theorem C113_even :
    (∀ s : S4 32, s ≠ ⟨0, 0, 0, 0⟩ →
      Even (fun k => BitVec.toNat (w := 32) (stream (engine4 32 9 11 scr4plus) k s)) (2 ^ 128 - 1) 32 (2 ^ 96) ∧
      Even (fun k => unit32 (stream (engine4 32 9 11 scr4plus) k s)) (2 ^ 128 - 1) 24 (2 ^ 104) ∧
      Even (fun k => BitVec.toNat (w := 32) (stream (engine4 32 9 11 scr128starstar) k s)) (2 ^ 128 - 1) 32 (2 ^ 96) ∧
      Even (fun k => unit32 (stream (engine4 32 9 11 scr128starstar) k s)) (2 ^ 128 - 1) 24 (2 ^ 104)) ∧
    (∀ s : S4 64, s ≠ ⟨0, 0, 0, 0⟩ →
      Even (fun k => BitVec.toNat (w := 64) (stream (engine4 64 17 45 scr4plus) k s)) (2 ^ 256 - 1) 64 (2 ^ 192) ∧
      Even (fun k => unit64 (stream (engine4 64 17 45 scr4plus) k s)) (2 ^ 256 - 1) 53 (2 ^ 203) ∧
      Even (fun k => BitVec.toNat (w := 64) (stream (engine4 64 17 45 scr256starstar) k s)) (2 ^ 256 - 1) 64 (2 ^ 192) ∧
      Even (fun k => unit64 (stream (engine4 64 17 45 scr256starstar) k s)) (2 ^ 256 - 1) 53 (2 ^ 203)) ∧
    (∀ s : S8 64, s ≠ ⟨0, 0, 0, 0, 0, 0, 0, 0⟩ →
      Even (fun k => BitVec.toNat (w := 64) (stream (engine8 64 11 21 scr8plus) k s)) (2 ^ 512 - 1) 64 (2 ^ 448) ∧
      Even (fun k => unit64 (stream (engine8 64 11 21 scr8plus) k s)) (2 ^ 512 - 1) 53 (2 ^ 459) ∧
      Even (fun k => BitVec.toNat (w := 64) (stream (engine8 64 11 21 scr512starstar) k s)) (2 ^ 512 - 1) 64 (2 ^ 448) ∧
      Even (fun k => unit64 (stream (engine8 64 11 21 scr512starstar) k s)) (2 ^ 512 - 1) 53 (2 ^ 459)) ∧
    (∀ s : S2 32, s ≠ ⟨0, 0⟩ →
      Even (fun k => BitVec.toNat (w := 32) (stream (engine2 32 26 9 13 scr64star) k s)) (2 ^ 64 - 1) 32 (2 ^ 32) ∧
      Even (fun k => unit32 (stream (engine2 32 26 9 13 scr64star) k s)) (2 ^ 64 - 1) 24 (2 ^ 40) ∧
      Even (fun k => BitVec.toNat (w := 32) (stream (engine2 32 26 9 13 scr64starstar) k s)) (2 ^ 64 - 1) 32 (2 ^ 32) ∧
      Even (fun k => unit32 (stream (engine2 32 26 9 13 scr64starstar) k s)) (2 ^ 64 - 1) 24 (2 ^ 40)) ∧
    (∀ s : S2 64, s ≠ ⟨0, 0⟩ →
      Even (fun k => BitVec.toNat (w := 64) (stream (engine2 64 24 16 37 scr2plus) k s)) (2 ^ 128 - 1) 64 (2 ^ 64) ∧
      Even (fun k => unit64 (stream (engine2 64 24 16 37 scr2plus) k s)) (2 ^ 128 - 1) 53 (2 ^ 75) ∧
      Even (fun k => BitVec.toNat (w := 64) (stream (engine2 64 24 16 37 scr2starstar) k s)) (2 ^ 128 - 1) 64 (2 ^ 64) ∧
      Even (fun k => unit64 (stream (engine2 64 24 16 37 scr2starstar) k s)) (2 ^ 128 - 1) 53 (2 ^ 75)) :=
  ⟨fun s hs => ⟨even_xoshiro128plus s hs, even_xoshiro128plus_01 s hs, even_xoshiro128starstar s hs, even_xoshiro128starstar_01 s hs⟩,
    fun s hs => ⟨even_xoshiro256plus s hs, even_xoshiro256plus_01 s hs, even_xoshiro256starstar s hs, even_xoshiro256starstar_01 s hs⟩,
    fun s hs => ⟨even_xoshiro512plus s hs, even_xoshiro512plus_01 s hs, even_xoshiro512starstar s hs, even_xoshiro512starstar_01 s hs⟩,
    fun s hs => ⟨even_xoroshiro64star s hs, even_xoroshiro64star_01 s hs, even_xoroshiro64starstar s hs, even_xoroshiro64starstar_01 s hs⟩,
    fun s hs => ⟨even_xoroshiro128plus s hs, even_xoroshiro128plus_01 s hs, even_xoroshiro128starstar s hs, even_xoroshiro128starstar_01 s hs⟩⟩

/-! ### C65 again -/

/-- The two words of a sixteen-word state that move when the ring position is 15. -/
def moving (st : SN 64) : S2 64 := ⟨st.s 0, st.s 15⟩

/-- What one step does to them. -/
def twoStep (s : S2 64) : S2 64 := ⟨(transform2 25 27 36 s).s1, (transform2 25 27 36 s).s0⟩

theorem moving_step {st : SN 64} (hp : st.p = 15) : moving (transformN 16 25 27 36 st) = twoStep (moving st) ∧
    (transformN 16 25 27 36 st).p = 15 := by
  refine ⟨?_, hp⟩
  simp [moving, transformN, twoStep, transform2, hp, upd]

/-- **C65 fails**, seen from the outputs: from any seed, the outputs of each xoroshiro1024 engine repeat after at most `2^128` steps,
although the engine keeps 1024 bits of state. -/
theorem C65_period_fails (v : BitVec 64) (s : SN 64) :
    ∃ j, 0 < j ∧ j ≤ 2 ^ 128 ∧
      (∀ m, stream (engineN 64 16 25 27 36 scrNplus) (m + j) (seedN 16 v s) = stream (engineN 64 16 25 27 36 scrNplus) m (seedN 16 v s)) ∧
      (∀ m, stream (engineN 64 16 25 27 36 scrNstar) (m + j) (seedN 16 v s) = stream (engineN 64 16 25 27 36 scrNstar) m (seedN 16 v s)) ∧
      (∀ m, stream (engineN 64 16 25 27 36 scrNstarstar) (m + j) (seedN 16 v s) =
        stream (engineN 64 16 25 27 36 scrNstarstar) m (seedN 16 v s)) := by
  have inj : Function.Injective twoStep := by
    intro x y h
    simp only [twoStep, S2.mk.injEq] at h
    refine transform2_inj (a := 25) (b := 27) (c := 36) (by decide) (by decide) (by decide) (by decide) ?_
    show transform2 25 27 36 x = transform2 25 27 36 y
    have : ∀ p q : S2 64, p.s0 = q.s0 → p.s1 = q.s1 → p = q := by
      intro p q h1 h2; cases p; cases q; simp only at h1 h2; rw [h1, h2]
    exact this _ _ h.2 h.1
  have hmov : ∀ k st, st.p = 15 → moving ((transformN 16 25 27 36)^[k] st) = twoStep^[k] (moving st) ∧
      ((transformN 16 25 27 36)^[k] st).p = 15 := by
    intro k
    induction k with
    | zero => intro st h; exact ⟨rfl, h⟩
    | succ k ih =>
      intro st h
      obtain ⟨h1, h2⟩ := moving_step h
      rw [Function.iterate_succ_apply, Function.iterate_succ_apply, ← h1]
      exact ih _ h2
  -- two of the first `2 ^ 128 + 1` pairs of words are equal
  have hcard : Nat.card (S2 64) = 2 ^ 128 := by rw [Nat.card_congr (e2 64), card_bv2]
  obtain ⟨a, b, hab, he⟩ : ∃ a b : Fin (2 ^ 128 + 1), a.val < b.val ∧
      twoStep^[a.val] (moving (seedN 16 v s)) = twoStep^[b.val] (moving (seedN 16 v s)) := by
    have hfin : Finite (S2 64) := Nat.finite_of_card_ne_zero (by rw [hcard]; decide)
    have := Fintype.ofFinite (S2 64)
    obtain ⟨a, b, hne, e⟩ := Fintype.exists_ne_map_eq_of_card_lt
      (fun i : Fin (2 ^ 128 + 1) => twoStep^[i.val] (moving (seedN 16 v s)))
      (by rw [← Nat.card_eq_fintype_card, hcard, Fintype.card_fin]; exact Nat.lt_succ_self _)
    rcases Nat.lt_or_gt_of_ne (fun h => hne (Fin.ext h)) with h | h
    · exact ⟨a, b, h, e⟩
    · exact ⟨b, a, h, e.symm⟩
  obtain ⟨j, hj⟩ : ∃ j, b.val = a.val + j := ⟨b.val - a.val, by omega⟩
  have hback : twoStep^[j] (moving (seedN 16 v s)) = moving (seedN 16 v s) := by
    rw [hj, Function.iterate_add_apply] at he
    exact (inj.iterate _ he).symm
  have hall : ∀ scr : SN 64 → BitVec 64, (∀ s t, Agree s t → scr s = scr t) → ∀ m,
      stream (engineN 64 16 25 27 36 scr) (m + j) (seedN 16 v s) = stream (engineN 64 16 25 27 36 scr) m (seedN 16 v s) := by
    intro scr hscr m
    refine (stream_eq (engineN 64 16 25 27 36 scr) (m + j) (seedN 16 v s)).trans
      (Eq.trans ?_ (stream_eq (engineN 64 16 25 27 36 scr) m (seedN 16 v s)).symm)
    apply hscr
    obtain ⟨h1, h2⟩ := hmov (m + j) (seedN 16 v s) rfl
    obtain ⟨h3, h4⟩ := hmov m (seedN 16 v s) rfl
    rw [Function.iterate_add_apply twoStep, hback, ← h3] at h1
    simp only [moving, S2.mk.injEq] at h1
    exact ⟨h2, h4, h1.1, h1.2⟩
  exact ⟨j, by omega, by have := b.isLt; omega, hall _ scr_agree.1, hall _ scr_agree.2.1, hall _ scr_agree.2.2⟩

/-! ### Cases -/

/-- The default seed of the 32-bit engines gives a state to which C112 and C113 apply. -/
example : seed4 (1 : BitVec 32) ⟨0, 0, 0, 0⟩ ≠ ⟨0, 0, 0, 0⟩ ∧ seed2 (1 : BitVec 32) ⟨0, 0⟩ ≠ ⟨0, 0⟩ := by decide

/-- From the default seed, xoshiro128** gives the value 7 exactly `2 ^ 96` times per period. -/
example : Nat.card {k : Fin (2 ^ 128 - 1) // BitVec.toNat (w := 32)
    (stream (engine4 32 9 11 scr128starstar) k.val (seed4 (1 : BitVec 32) ⟨0, 0, 0, 0⟩)) = 7} = 2 ^ 96 :=
  (even_xoshiro128starstar _ (by decide)) 7 (by decide)

/-- A sequence that does not have the period three: the constant one. -/
example : ¬ HasPeriod (fun _ => (0 : Nat)) 3 := fun h => absurd ((h 1).mp ⟨0, fun _ _ => rfl⟩) (by decide)

end Verif.Random
