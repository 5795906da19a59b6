import Verif.Random.Lemmas
import Mathlib.Data.Fintype.EquivFin
import Mathlib.Algebra.Order.Field.Rat
import Mathlib.Tactic.NormNum
import Mathlib.Tactic.Positivity
import Mathlib.Tactic.FieldSimp
/-
Properties C62-C68, C81, C84: random engines.
-/
set_option linter.unusedSimpArgs false
namespace Verif.Random

/-- The `k`-th result (from zero) a caller gets by calling `operator()` repeatedly. -/
def stream (e : Engine) : Nat → e.State → e.Word
  | 0,     s => (e.next s).1
  | k + 1, s => stream e k (e.next s).2

/-- The function applied `k` times. -/
def iter {σ : Type} (f : σ → σ) : Nat → σ → σ
  | 0,     s => s
  | k + 1, s => iter f k (f s)

/-! ### C62 -/

theorem stream_splitmixOf (p : SplitmixParams 64) (k : Nat) (s : BitVec 64) :
    stream (engineSplitmixOf p) k s = smOut p s k := by
  induction k generalizing s with
  | zero => rw [smOut_zero]; rfl
  | succ k ih => rw [smOut_succ, ← ih]; rfl

theorem stream_splitmix (k : Nat) (s : BitVec 64) :
    stream engineSplitmix k s = smOut splitmix64 s k := stream_splitmixOf splitmix64 k s

theorem smOut_inj {s : BitVec 64} {i j : Nat} (hi : i < 2 ^ 64) (hj : j < 2 ^ 64)
    (h : smOut splitmix64 s i = smOut splitmix64 s j) : i = j := by
  have h1 := mix_inj h
  have h2 : BitVec.ofNat 64 (i + 1) * splitmix64.x = BitVec.ofNat 64 (j + 1) * splitmix64.x := by
    have := congrArg (fun v => v - s) h1
    simpa [BitVec.add_comm s, BitVec.add_sub_cancel] using this
  have h3 := mul_inj (y' := 0xf1de83e19937733d#64) (by decide) h2
  have h4 := congrArg BitVec.toNat h3
  simp only [BitVec.toNat_ofNat] at h4
  omega

theorem smOut_period (p : SplitmixParams 64) (s : BitVec 64) (i N : Nat) (hN : N = 2 ^ 64) :
    smOut p s (i + N) = smOut p s i := by
  have : BitVec.ofNat 64 (i + N + 1) = BitVec.ofNat 64 (i + 1) := by
    apply BitVec.eq_of_toNat_eq
    simp only [BitVec.toNat_ofNat]
    omega
  simp only [smOut, this]

theorem stream_period {seed : BitVec 64} (i N : Nat) (hN : N = 2 ^ 64) :
    stream engineSplitmix (i + N) seed = stream engineSplitmix i seed := by
  rw [stream_splitmix, stream_splitmix, smOut_period _ _ _ _ hN]

instance : Finite (BitVec 64) :=
  Finite.of_injective (fun v : BitVec 64 => v.toFin) (fun _ _ h => BitVec.toFin_inj.1 h)

/-- **C62.** From any seed, the first `2^64` outputs of splitmix64 are pairwise distinct, every
64-bit value is among them, and the stream then repeats. -/
theorem C62_full_period (seed : BitVec 64) :
    (∀ i j, i < 2 ^ 64 → j < 2 ^ 64 →
      stream engineSplitmix i seed = stream engineSplitmix j seed → i = j) ∧
    (∀ v : BitVec 64, ∃ i, i < 2 ^ 64 ∧ stream engineSplitmix i seed = v) ∧
    (∀ i, stream engineSplitmix (i + 2 ^ 64) seed = stream engineSplitmix i seed) := by
  refine ⟨?_, ?_, ?_⟩
  · intro i j hi hj h
    rw [stream_splitmix, stream_splitmix] at h
    exact smOut_inj hi hj h
  · intro v
    let f : BitVec 64 → BitVec 64 := fun i => smOut splitmix64 seed i.toNat
    have hf : Function.Injective f := by
      intro a b h
      exact BitVec.eq_of_toNat_eq (smOut_inj a.isLt b.isLt h)
    obtain ⟨i, hi⟩ := (Finite.injective_iff_surjective.1 hf) v
    exact ⟨i.toNat, i.isLt, by rw [stream_splitmix]; exact hi⟩
  · intro i
    exact stream_period i _ rfl

/-! ### C63 -/

/-- Distinct states have distinct successors, and a non-zero state stays non-zero forever. -/
def Lossless {σ : Type} (zero : σ) (T : σ → σ) : Prop :=
  (∀ s t, T s = T t → s = t) ∧ ∀ k s, s ≠ zero → iter T k s ≠ zero

theorem lossless_of {σ : Type} {zero : σ} {T : σ → σ} (h : ∀ s t, T s = T t → s = t)
    (hz : T zero = zero) : Lossless zero T := by
  refine ⟨h, ?_⟩
  intro k
  induction k with
  | zero => intro s hs; exact hs
  | succ k ih => intro s hs; exact ih _ fun h' => hs (h _ _ (h'.trans hz.symm))

/-- **C63.** Every xoshiro engine and every two-word xoroshiro engine of the library loses no
state and never reaches the stuck state. -/
theorem C63_lossless :
    Lossless (⟨0, 0, 0, 0⟩ : S4 32) (transform4 9 11) ∧
    Lossless (⟨0, 0, 0, 0⟩ : S4 64) (transform4 17 45) ∧
    Lossless (⟨0, 0, 0, 0, 0, 0, 0, 0⟩ : S8 64) (transform8 11 21) ∧
    Lossless (⟨0, 0⟩ : S2 32) (transform2 26 9 13) ∧
    Lossless (⟨0, 0⟩ : S2 64) (transform2 24 16 37) :=
  ⟨lossless_of (fun _ _ => transform4_inj (by decide) (by decide) (by decide)) (by decide),
   lossless_of (fun _ _ => transform4_inj (by decide) (by decide) (by decide)) (by decide),
   lossless_of (fun _ _ => transform8_inj (by decide) (by decide)) (by decide),
   lossless_of (fun _ _ => transform2_inj (by decide) (by decide) (by decide) (by decide)) (by decide),
   lossless_of (fun _ _ => transform2_inj (by decide) (by decide) (by decide) (by decide)) (by decide)⟩

/-- **C63** for the sixteen-word xoroshiro engines, for every position of the ring pointer:
states that differ in one of the sixteen words have successors that differ in one of them, and a
state with a non-zero word keeps one forever. -/
theorem C63_lossless16 :
    (∀ s t : SN 64, s.p = t.p → s.p < 16 →
      (∀ i, i < 16 → (transformN 16 25 27 36 s).s i = (transformN 16 25 27 36 t).s i) →
      ∀ i, i < 16 → s.s i = t.s i) ∧
    (∀ k (s : SN 64), s.p < 16 → (∃ i, i < 16 ∧ s.s i ≠ 0) →
      ∃ i, i < 16 ∧ (iter (transformN 16 25 27 36) k s).s i ≠ 0) := by
  have inj : ∀ s t : SN 64, s.p = t.p → s.p < 16 →
      (∀ i, i < 16 → (transformN 16 25 27 36 s).s i = (transformN 16 25 27 36 t).s i) →
      ∀ i, i < 16 → s.s i = t.s i := by
    intro s t hp hlt h i hi
    have hq : (s.p + 1) &&& (16 - 1) ≠ s.p := by
      rw [show (16 - 1 : Nat) = 2 ^ 4 - 1 from rfl, Nat.and_two_pow_sub_one_eq_mod]
      omega
    have hq' : (s.p + 1) &&& (16 - 1) < 16 := and_pred_lt (by decide)
    generalize hqe : (s.p + 1) &&& (16 - 1) = q at hq hq'
    have h2 : transform2 25 27 36 ⟨s.s q, s.s s.p⟩ = transform2 25 27 36 ⟨t.s q, t.s t.p⟩ := by
      have a := h s.p hlt
      have b := h q hq'
      simp only [transformN, ← hp, hqe, upd_same, upd_ne _ _ (Ne.symm hq)] at a b
      simp only [transform2, ← hp]
      rw [a, b]
    have h3 := transform2_inj (by decide) (by decide) (by decide) (by decide) h2
    simp only [S2.mk.injEq] at h3
    by_cases e1 : i = q
    · rw [e1]; exact h3.1
    · by_cases e2 : i = s.p
      · rw [e2]; rw [h3.2, hp]
      · have c := h i hi
        simp only [transformN, ← hp, hqe] at c
        rwa [upd_ne _ _ e1, upd_ne _ _ e2, upd_ne _ _ e1, upd_ne _ _ e2] at c
  refine ⟨inj, ?_⟩
  intro k
  induction k with
  | zero => intro s _ hs; exact hs
  | succ k ih =>
    intro s hp hs
    apply ih (transformN 16 25 27 36 s) hp
    apply Classical.byContradiction
    intro hc
    obtain ⟨i, hi, hne⟩ := hs
    apply hne
    refine inj s ⟨fun _ => 0, s.p⟩ rfl hp ?_ i hi
    intro j hj
    have hz : (transformN 16 25 27 36 (⟨fun _ => 0, s.p⟩ : SN 64)).s j = 0 := by
      simp only [transformN, upd]
      split
      · decide
      · split
        · decide
        · rfl
    rw [hz]
    apply Classical.byContradiction
    intro hn
    exact hc ⟨j, hj, hn⟩

/-- A state to which C63 applies: only one word is non-zero, and it is not one the step reads. -/
example : ∃ i, i < 16 ∧
    (iter (transformN 16 25 27 36) 1000 (⟨fun i => if i = 7 then 1 else 0, 15⟩ : SN 64)).s i ≠ 0 :=
  C63_lossless16.2 1000 _ (by decide) ⟨7, by decide, by decide⟩

/-! ### C64 -/

theorem smOut_01 (g : BitVec 64) (h0 : smOut splitmix64 g 0 = 0) : smOut splitmix64 g 1 ≠ 0 := by
  intro h1
  have := smOut_inj (by decide) (by decide) (h0.trans h1.symm)
  omega

/-- **C64.** Whatever the seed, and whatever the engine held before, seeding a 64-bit engine
gives a state that is not all zero. -/
theorem C64_seed_nonzero (v : BitVec 64) :
    (∀ s : S4 64, seed4 v s ≠ ⟨0, 0, 0, 0⟩) ∧
    (∀ s : S8 64, seed8 v s ≠ ⟨0, 0, 0, 0, 0, 0, 0, 0⟩) ∧
    (∀ s : S2 64, seed2 v s ≠ ⟨0, 0⟩) ∧
    (∀ s : SN 64, ∃ i, i < 16 ∧ (seedN 16 v s).s i ≠ 0) := by
  have w0 : ∀ {k : Nat} {s : Nat → BitVec 64}, 0 < k →
      seedLoop splitmix64 64 (v.setWidth 64) 0 k s 0 = smOut splitmix64 v 0 := by
    intro k s hk
    have := seedLoop_eq (p := splitmix64) (w := 64) (g := v.setWidth 64) (i := 0) (s := s) hk
    simpa using this
  have w1 : ∀ {k : Nat} {s : Nat → BitVec 64}, 1 < k →
      seedLoop splitmix64 64 (v.setWidth 64) 0 k s 1 = smOut splitmix64 v 1 := by
    intro k s hk
    have := seedLoop_eq (p := splitmix64) (w := 64) (g := v.setWidth 64) (i := 0) (s := s) hk
    simpa using this
  refine ⟨?_, ?_, ?_, ?_⟩
  · intro s h
    simp only [seed4, S4.ofFun, S4.mk.injEq] at h
    rw [w0 (by decide), w1 (by decide)] at h
    exact smOut_01 v h.1 h.2.1
  · intro s h
    simp only [seed8, S8.ofFun, S8.mk.injEq] at h
    rw [w0 (by decide), w1 (by decide)] at h
    exact smOut_01 v h.1 h.2.1
  · intro s h
    simp only [seed2, S2.ofFun, S2.mk.injEq] at h
    rw [w0 (by decide), w1 (by decide)] at h
    exact smOut_01 v h.1 h.2
  · intro s
    by_cases h : smOut splitmix64 v 0 = 0
    · refine ⟨1, by decide, ?_⟩
      simp only [seedN]
      rw [w1 (by decide)]
      exact smOut_01 v h
    · refine ⟨0, by decide, ?_⟩
      simp only [seedN]
      rw [w0 (by decide)]
      exact h

/-! ### C65 -/

/-- What "the engine uses its whole state" means: for each of the sixteen words there is a state
and a change of only that word that changes some later result. -/
def UsesWholeState (scr : SN 64 → BitVec 64) : Prop :=
  ∀ j, j < 16 → ∃ (st : SN 64) (v : BitVec 64) (k : Nat), st.p = 15 ∧
    stream (engineN 64 16 25 27 36 scr) k { st with s := upd st.s j v }
      ≠ stream (engineN 64 16 25 27 36 scr) k st

theorem transformN_p (st : SN 64) : (transformN 16 25 27 36 st).p = st.p := rfl

/-- Two states that agree on words 0 and 15 (and have the pointer every seeded engine has). -/
def Agree (s t : SN 64) : Prop := s.p = 15 ∧ t.p = 15 ∧ s.s 0 = t.s 0 ∧ s.s 15 = t.s 15

theorem agree_step {s t : SN 64} (h : Agree s t) :
    Agree (transformN 16 25 27 36 s) (transformN 16 25 27 36 t) := by
  obtain ⟨h1, h2, h3, h4⟩ := h
  refine ⟨h1, h2, ?_, ?_⟩ <;> simp [transformN, h1, h2, upd, h3, h4]

theorem agree_stream (scr : SN 64 → BitVec 64) (hs : ∀ s t, Agree s t → scr s = scr t) (k : Nat) :
    ∀ s t, Agree s t → stream (engineN 64 16 25 27 36 scr) k s
      = stream (engineN 64 16 25 27 36 scr) k t := by
  induction k with
  | zero => intro s t h; exact hs s t h
  | succ k ih => intro s t h; exact ih _ _ (agree_step h)

theorem scr_agree : (∀ s t, Agree s t → scrNplus s = scrNplus t) ∧
    (∀ s t, Agree s t → scrNstar s = scrNstar t) ∧
    (∀ s t, Agree s t → scrNstarstar s = scrNstarstar t) := by
  refine ⟨?_, ?_, ?_⟩ <;> (
    intro s t ⟨h1, h2, h3, h4⟩
    simp [scrNplus, scrNstar, scrNstarstar, regIndex, h1, h2, h3, h4])

/-- **C65 fails.** In all three xoroshiro1024 engines, words 1 to 14 never change after seeding
and never influence any result: the engine does not use its whole state. -/
theorem C65_fails :
    (∀ (v : BitVec 64) (s : SN 64) (k j : Nat), 1 ≤ j → j ≤ 14 →
      (iter (transformN 16 25 27 36) k (seedN 16 v s)).s j = (seedN 16 v s).s j) ∧
    ¬ UsesWholeState scrNplus ∧ ¬ UsesWholeState scrNstar ∧ ¬ UsesWholeState scrNstarstar := by
  constructor
  · intro v s k j h1 h2
    have key : ∀ (k : Nat) (st : SN 64), st.p = 15 →
        (iter (transformN 16 25 27 36) k st).s j = st.s j := by
      intro k
      induction k with
      | zero => intro st _; rfl
      | succ k ih =>
        intro st hp
        rw [iter, ih (transformN 16 25 27 36 st) hp]
        simp only [transformN, hp]
        rw [upd_ne _ _ (by simp; omega), upd_ne _ _ (by omega)]
    exact key k _ rfl
  · have no : ∀ scr, (∀ s t, Agree s t → scr s = scr t) → ¬ UsesWholeState scr := by
      intro scr hs hu
      obtain ⟨st, v, k, hp, hne⟩ := hu 7 (by decide)
      apply hne
      apply agree_stream scr hs
      refine ⟨hp, hp, ?_, ?_⟩ <;> simp [upd]
    exact ⟨no _ scr_agree.1, no _ scr_agree.2.1, no _ scr_agree.2.2⟩

/-- One step of the published xoroshiro1024 generator on words and ring position. -/
def published (st : SN 64) : SN 64 :=
  let q := st.p
  let p := (q + 1) % 16
  let s0 := st.s p
  let s15 := st.s q ^^^ s0
  { s := upd (upd st.s q (s0.rotateLeft 25 ^^^ s15 ^^^ (s15 <<< 27))) p (s15.rotateLeft 36)
    p := p }

/-- **C65**, what does hold: each step changes the words as the published generator does for the
same ring position; missing: the ring position itself does not advance (see `C65_fails`). -/
theorem C65_step_partial (st : SN 64) :
    (transformN 16 25 27 36 st).s = (published st).s := by
  have r : ∀ (x : BitVec 64) (k : Nat), k < 64 → rotl x k = x.rotateLeft k := by
    intro x k hk
    rw [BitVec.rotateLeft_eq_rotateLeftAux_of_lt hk]; rfl
  have e : (st.p + 1) &&& (16 - 1) = (st.p + 1) % 16 := by
    rw [show (16 - 1 : Nat) = 2 ^ 4 - 1 from rfl, Nat.and_two_pow_sub_one_eq_mod]
  simp only [transformN, published, e, r _ 25 (by decide), r _ 36 (by decide)]

/-! ### C66 -/

/-- A floating-point number with `p` significant bits and an exponent well inside the range of
`float` and `double`. -/
def Representable (p : Nat) (x : Rat) : Prop :=
  ∃ (m : Int) (a b : Nat), m.natAbs < 2 ^ p ∧ a ≤ 100 ∧ b ≤ 60 ∧ x = m * 2 ^ b / 2 ^ a

theorem unitReal_exact {p : Nat} (hp0 : 1 ≤ p) (hp : p ≤ 60) {rnd : Rat → Rat}
    (hr : ∀ x, Representable p x → rnd x = x) {k : Nat} (hk : k < 2 ^ p) :
    unitReal rnd p k = (k : Rat) / 2 ^ p ∧ 0 ≤ unitReal rnd p k ∧ unitReal rnd p k < 1 := by
  have one_lt : (1 : Nat) < 2 ^ p := Nat.one_lt_two_pow (by omega)
  have r1 : rnd (1 : Rat) = 1 := hr _ ⟨1, 0, 0, by simpa using one_lt, by omega, by omega, by simp⟩
  have r2 : rnd (2 ^ p : Rat) = 2 ^ p :=
    hr _ ⟨1, 0, p, by simpa using one_lt, by omega, hp, by simp⟩
  have r3 : rnd ((1 : Rat) / 2 ^ p) = 1 / 2 ^ p :=
    hr _ ⟨1, p, 0, by simpa using one_lt, by omega, by omega, by simp⟩
  have r4 : rnd (k : Rat) = k :=
    hr _ ⟨k, 0, 0, by simpa using hk, by omega, by omega, by simp⟩
  have r5 : rnd ((k : Rat) * (1 / 2 ^ p)) = k / 2 ^ p := by
    rw [hr _ ⟨k, p, 0, by simpa using hk, by omega, by omega, by simp [div_eq_mul_inv]⟩]
    simp [div_eq_mul_inv]
  have e : unitReal rnd p k = (k : Rat) / 2 ^ p := by
    unfold unitReal; rw [r1, r2, r3, r4, r5]
  refine ⟨e, ?_, ?_⟩
  · rw [e]; positivity
  · rw [e, div_lt_one (by positivity)]
    exact_mod_cast hk

/-- **C66.** With any rounding that is exact on representable numbers, the unit-interval engines
return exactly `k / 2^24` with `k < 2^24`, or `k / 2^53` with `k < 2^53`: a number in `[0, 1)`. -/
theorem C66_unit_interval (rnd24 rnd53 : Rat → Rat)
    (h24 : ∀ x, Representable 24 x → rnd24 x = x) (h53 : ∀ x, Representable 53 x → rnd53 x = x)
    (m32 : BitVec 32) (m64 : BitVec 64) :
    (unit32 m32 < 2 ^ 24 ∧ unitReal rnd24 24 (unit32 m32) = (unit32 m32 : Rat) / 2 ^ 24 ∧
      0 ≤ unitReal rnd24 24 (unit32 m32) ∧ unitReal rnd24 24 (unit32 m32) < 1) ∧
    (unit64 m64 < 2 ^ 53 ∧ unitReal rnd53 53 (unit64 m64) = (unit64 m64 : Rat) / 2 ^ 53 ∧
      0 ≤ unitReal rnd53 53 (unit64 m64) ∧ unitReal rnd53 53 (unit64 m64) < 1) := by
  have a : unit32 m32 < 2 ^ 24 := by
    have := m32.isLt
    simp only [unit32, BitVec.toNat_ushiftRight, Nat.shiftRight_eq_div_pow]
    omega
  have b : unit64 m64 < 2 ^ 53 := by
    have := m64.isLt
    simp only [unit64, BitVec.toNat_ushiftRight, Nat.shiftRight_eq_div_pow]
    omega
  exact ⟨⟨a, unitReal_exact (by decide) (by decide) h24 a⟩,
    ⟨b, unitReal_exact (by decide) (by decide) h53 b⟩⟩

/-- A rounding function as C66 assumes exists (exact arithmetic is one). -/
example : ∀ x, Representable 24 x → id x = x := fun _ _ => rfl


/-! ### C67 -/

/-- **C67.** After `discard(n)` the `k`-th result is the one that would have been the
`(n+k)`-th. -/
theorem C67_discard (e : Engine) (n k : Nat) (s : e.State) :
    stream e k (e.discard n s) = stream e (n + k) s := by
  induction n generalizing s with
  | zero => simp [Engine.discard]
  | succ n ih =>
    rw [Engine.discard, ih, show n + 1 + k = (n + k) + 1 by omega]
    rfl

theorem seedLoop_congr {w k : Nat} {g : BitVec 64} {s t : Nat → BitVec w} {j : Nat} (hj : j < k) :
    seedLoop splitmix64 w g 0 k s j = seedLoop splitmix64 w g 0 k t j := by
  have a := seedLoop_eq (p := splitmix64) (g := g) (i := 0) (s := s) hj
  have b := seedLoop_eq (p := splitmix64) (g := g) (i := 0) (s := t) hj
  rw [Nat.zero_add] at a b
  rw [a, b]

/-- **C67.** Seeding forgets the past: two engines seeded equally are in the same state (hence
produce equal streams), whatever they held and however far they had been advanced. -/
theorem C67_reseed (w : Nat) (v : BitVec w) :
    (∀ s t : S4 w, seed4 v s = seed4 v t) ∧ (∀ s t : S8 w, seed8 v s = seed8 v t) ∧
    (∀ s t : S2 w, seed2 v s = seed2 v t) := by
  refine ⟨?_, ?_, ?_⟩
  · intro s t
    simp only [seed4, S4.ofFun, S4.mk.injEq]
    refine ⟨?_, ?_, ?_, ?_⟩ <;> exact seedLoop_congr (by decide)
  · intro s t
    simp only [seed8, S8.ofFun, S8.mk.injEq]
    refine ⟨?_, ?_, ?_, ?_, ?_, ?_, ?_, ?_⟩ <;> exact seedLoop_congr (by decide)
  · intro s t
    simp only [seed2, S2.ofFun, S2.mk.injEq]
    refine ⟨?_, ?_⟩ <;> exact seedLoop_congr (by decide)

/-- **C67.** The same for the sixteen-word engines, on streams. -/
theorem C67_reseed16 (v : BitVec 64) (s t : SN 64) (k : Nat) :
    stream (engineN 64 16 25 27 36 scrNplus) k (seedN 16 v s)
      = stream (engineN 64 16 25 27 36 scrNplus) k (seedN 16 v t) ∧
    stream (engineN 64 16 25 27 36 scrNstar) k (seedN 16 v s)
      = stream (engineN 64 16 25 27 36 scrNstar) k (seedN 16 v t) ∧
    stream (engineN 64 16 25 27 36 scrNstarstar) k (seedN 16 v s)
      = stream (engineN 64 16 25 27 36 scrNstarstar) k (seedN 16 v t) := by
  have h : Agree (seedN 16 v s) (seedN 16 v t) :=
    ⟨rfl, rfl, seedLoop_congr (s := s.s) (t := t.s) (by decide),
      seedLoop_congr (s := s.s) (t := t.s) (by decide)⟩
  exact ⟨agree_stream _ scr_agree.1 k _ _ h, agree_stream _ scr_agree.2.1 k _ _ h,
    agree_stream _ scr_agree.2.2 k _ _ h⟩

/-- **C67.** The same of every engine type as its callers use it, splitmix included: seeded equally, two
engines give equal streams, whatever was generated before; so reseeding restarts the stream. -/
theorem C67_engines :
    (∀ (p : SplitmixParams 64) v s t k, stream (engineSplitmixOf p) k ((engineSplitmixOf p).seed v s)
      = stream (engineSplitmixOf p) k ((engineSplitmixOf p).seed v t)) ∧
    (∀ w a b scr v s t k, stream (engine4 w a b scr) k ((engine4 w a b scr).seed v s)
      = stream (engine4 w a b scr) k ((engine4 w a b scr).seed v t)) ∧
    (∀ w a b scr v s t k, stream (engine8 w a b scr) k ((engine8 w a b scr).seed v s)
      = stream (engine8 w a b scr) k ((engine8 w a b scr).seed v t)) ∧
    (∀ w a b c scr v s t k, stream (engine2 w a b c scr) k ((engine2 w a b c scr).seed v s)
      = stream (engine2 w a b c scr) k ((engine2 w a b c scr).seed v t)) ∧
    (∀ scr ∈ [scrNplus, scrNstar, scrNstarstar], ∀ v s t k,
      stream (engineN 64 16 25 27 36 scr) k ((engineN 64 16 25 27 36 scr).seed v s)
      = stream (engineN 64 16 25 27 36 scr) k ((engineN 64 16 25 27 36 scr).seed v t)) := by
  refine ⟨fun _ _ _ _ _ => rfl, ?_, ?_, ?_, ?_⟩
  · intro w a b scr v s t k; exact congrArg _ ((C67_reseed w v).1 s t)
  · intro w a b scr v s t k; exact congrArg _ ((C67_reseed w v).2.1 s t)
  · intro w a b c scr v s t k; exact congrArg _ ((C67_reseed w v).2.2 s t)
  · intro scr hs v s t k
    simp only [List.mem_cons, List.not_mem_nil, or_false] at hs
    obtain ⟨h1, h2, h3⟩ := C67_reseed16 v s t k
    rcases hs with rfl | rfl | rfl
    · exact h1
    · exact h2
    · exact h3

/-- C67 in a case: an engine advanced by two and seeded with 7 again gives what the one at 7 gives; unseeded it does not. -/
example : stream engineSplitmix 0 (engineSplitmix.seed 7#64 (engineSplitmix.discard 2 7#64)) = (stream engineSplitmix 0 7#64 : BitVec 64) ∧
    (stream engineSplitmix 0 (engineSplitmix.discard 2 7#64) : BitVec 64) ≠ (stream engineSplitmix 0 7#64 : BitVec 64) :=
  ⟨rfl, fun h => absurd (congrArg BitVec.toNat h) (by decide +kernel)⟩

/-- **C67.** What seeding with `v` puts into the engines: word `i` is the `i`-th output of `splitmix64` seeded with `v`,
cut to the width of a word, whatever the engine held; a sixteen-word engine also returns to its first position. -/
theorem C67_seeded :
    (∀ (w : Nat) (v : BitVec w) (s : S4 w),
      let out := fun k => ((stream engineSplitmix k (engineSplitmix.seed (v.setWidth 64) 0#64) : BitVec 64)).setWidth w
      seed4 v s = ⟨out 0, out 1, out 2, out 3⟩) ∧
    (∀ (w : Nat) (v : BitVec w) (s : S8 w),
      let out := fun k => ((stream engineSplitmix k (engineSplitmix.seed (v.setWidth 64) 0#64) : BitVec 64)).setWidth w
      seed8 v s = ⟨out 0, out 1, out 2, out 3, out 4, out 5, out 6, out 7⟩) ∧
    (∀ (w : Nat) (v : BitVec w) (s : S2 w),
      let out := fun k => ((stream engineSplitmix k (engineSplitmix.seed (v.setWidth 64) 0#64) : BitVec 64)).setWidth w
      seed2 v s = ⟨out 0, out 1⟩) ∧
    (∀ (v : BitVec 64) (s : SN 64), (seedN 16 v s).p = 15 ∧
      ∀ i, i < 16 → (seedN 16 v s).s i = (stream engineSplitmix i (engineSplitmix.seed v 0#64) : BitVec 64)) := by
  have key : ∀ (w n i : Nat) (g : BitVec 64) (f : Nat → BitVec w), i < n →
      seedLoop splitmix64 w g 0 n f i = ((stream engineSplitmix i g : BitVec 64)).setWidth w := by
    intro w n i g f hi
    have a := seedLoop_eq (p := splitmix64) (g := g) (i := 0) (s := f) hi
    rw [Nat.zero_add] at a
    rw [a, stream_splitmix]
  refine ⟨?_, ?_, ?_, ?_⟩
  · intro w v s
    simp only [seed4, S4.ofFun, S4.mk.injEq]
    refine ⟨?_, ?_, ?_, ?_⟩ <;> exact key _ _ _ _ _ (by decide)
  · intro w v s
    simp only [seed8, S8.ofFun, S8.mk.injEq]
    refine ⟨?_, ?_, ?_, ?_, ?_, ?_, ?_, ?_⟩ <;> exact key _ _ _ _ _ (by decide)
  · intro w v s
    simp only [seed2, S2.ofFun, S2.mk.injEq]
    refine ⟨?_, ?_⟩ <;> exact key _ _ _ _ _ (by decide)
  · intro v s
    refine ⟨rfl, fun i hi => ?_⟩
    exact (key 64 16 i (v.setWidth 64) s.s hi).trans
      ((BitVec.setWidth_eq _).trans (congrArg (fun g => (stream engineSplitmix i g : BitVec 64)) (BitVec.setWidth_eq v)))

/-! ### C68 -/

/-- **C68.** For `0 < k < w`, `rotl` moves bit `i` to bit `(i + k) mod w`, `rotr` moves it back,
and each undoes the other. -/
theorem C68_rotate {w k : Nat} (h0 : 0 < k) (hk : k < w) (n : BitVec w) :
    rotr (rotl n k) k = n ∧ rotl (rotr n k) k = n ∧
    (∀ i, i < w → (rotl n k).getLsbD ((i + k) % w) = n.getLsbD i) ∧
    (∀ i, i < w → (rotr n k).getLsbD i = n.getLsbD ((i + k) % w)) := by
  refine ⟨rotr_rotl h0 hk n, rotl_rotr h0 hk n, ?_, ?_⟩
  · intro i hi
    have hm := Nat.mod_lt (i + k) (show 0 < w by omega)
    rw [← getLsbD_rotr hk _ _ hi, rotr_rotl h0 hk]
  · intro i hi
    exact getLsbD_rotr hk n i hi

/-- The rotation amounts and widths used by the engines satisfy the hypotheses of C68. -/
example : ∀ p ∈ [(11, 32), (45, 64), (21, 64), (7, 32), (7, 64), (26, 32), (13, 32), (5, 32),
    (24, 64), (37, 64), (25, 64), (36, 64)], 0 < p.1 ∧ p.1 < p.2 := by decide

/-! ### C81 -/

/-- **C81.** `is_power_2<n>` holds exactly for `n = 2^k` with `k >= 1`. -/
theorem C81_is_power_2 (n : Nat) : isPower2 n = true ↔ ∃ k, 1 ≤ k ∧ n = 2 ^ k := by
  induction n using Nat.strongRecOn with
  | _ n ih =>
    unfold isPower2
    split
    · rename_i h
      split
      · rename_i h2
        simp only [true_iff]
        exact ⟨1, by decide, h2⟩
      · rename_i h2
        rw [ih (n / 2) (by omega)]
        constructor
        · rintro ⟨k, hk, e⟩
          refine ⟨k + 1, by omega, ?_⟩
          rw [Nat.pow_succ, ← e]; omega
        · rintro ⟨k, hk, e⟩
          have hk2 : k ≠ 1 := by rintro rfl; exact h2 e
          refine ⟨k - 1, by omega, ?_⟩
          have : k = (k - 1) + 1 := by omega
          rw [this, Nat.pow_succ] at e
          omega
    · rename_i h
      simp only [Bool.false_eq_true, false_iff]
      rintro ⟨k, hk, e⟩
      have : k = (k - 1) + 1 := by omega
      rw [this, Nat.pow_succ] at e
      have := Nat.one_le_two_pow (n := k - 1)
      omega

/-! ### C84 -/

/-- **C84.** The `*` and `**` scramblers used by the engines are one-to-one on the selected word,
and the `+` scramblers are one-to-one in each of their two words. -/
theorem C84_scramblers :
    (∀ x y : BitVec 32, starS 0x9e3779bb#32 x = starS 0x9e3779bb#32 y → x = y) ∧
    (∀ x y : BitVec 64, starS 0x9e3779b97f4a7c13#64 x = starS 0x9e3779b97f4a7c13#64 y → x = y) ∧
    (∀ x y : BitVec 32, starstarS 5 7 9 x = starstarS 5 7 9 y → x = y) ∧
    (∀ x y : BitVec 32, starstarS 0x9e3779bb#32 5 5 x = starstarS 0x9e3779bb#32 5 5 y → x = y) ∧
    (∀ x y : BitVec 64, starstarS 5 7 9 x = starstarS 5 7 9 y → x = y) ∧
    (∀ (w : Nat) (x y z : BitVec w), (plusS x z = plusS y z → x = y) ∧
      (plusS z x = plusS z y → x = y)) := by
  refine ⟨?_, ?_, ?_, ?_, ?_, ?_⟩
  · intro x y h; exact mul_inj (y' := 0xbe736373#32) (by decide) h
  · intro x y h; exact mul_inj (y' := 0x3fbd78d0fbf0ae1b#64) (by decide) h
  · intro x y h
    exact mul_inj (y' := 0xcccccccd#32) (by decide)
      (rotl_inj (by decide) (by decide) (mul_inj (y' := 0x38e38e39#32) (by decide) h))
  · intro x y h
    exact mul_inj (y' := 0xbe736373#32) (by decide)
      (rotl_inj (by decide) (by decide) (mul_inj (y' := 0xcccccccd#32) (by decide) h))
  · intro x y h
    exact mul_inj (y' := 0xcccccccccccccccd#64) (by decide)
      (rotl_inj (by decide) (by decide) (mul_inj (y' := 0x8e38e38e38e38e39#64) (by decide) h))
  · intro w x y z
    constructor
    · intro h
      have := congrArg (· - z) h
      simpa [plusS, BitVec.add_sub_cancel] using this
    · intro h
      have := congrArg (· - z) h
      simpa [plusS, BitVec.add_comm z, BitVec.add_sub_cancel] using this

/-- **C84.** For every engine type of the library: two states that give the same output agree in the
word read by the `*` or `**` output function; for the `+` output function they agree in either of its
two words if they agree in the other.  Words are named as in the state arrays; register `i` of a
sixteen-word engine at ring position `p` is the word `(p + i + 1) mod 16`. -/
theorem C84_engines :
    (∀ s t, scr64star s = scr64star t → s.s0 = t.s0) ∧
    (∀ s t, scr64starstar s = scr64starstar t → s.s0 = t.s0) ∧
    (∀ s t, scr2starstar s = scr2starstar t → s.s0 = t.s0) ∧
    (∀ s t, scr128starstar s = scr128starstar t → s.s0 = t.s0) ∧
    (∀ s t, scr256starstar s = scr256starstar t → s.s1 = t.s1) ∧
    (∀ s t, scr512starstar s = scr512starstar t → s.s1 = t.s1) ∧
    (∀ s t, scrNstar s = scrNstar t → s.s ((s.p + 1) % 16) = t.s ((t.p + 1) % 16)) ∧
    (∀ s t, scrNstarstar s = scrNstarstar t → s.s ((s.p + 1) % 16) = t.s ((t.p + 1) % 16)) ∧
    (∀ s t, scr2plus s = scr2plus t → (s.s0 = t.s0 ↔ s.s1 = t.s1)) ∧
    (∀ (w : Nat) (s t : S4 w), scr4plus s = scr4plus t → (s.s0 = t.s0 ↔ s.s3 = t.s3)) ∧
    (∀ s t, scr8plus s = scr8plus t → (s.s0 = t.s0 ↔ s.s2 = t.s2)) ∧
    (∀ s t, scrNplus s = scrNplus t →
      (s.s (s.p % 16) = t.s (t.p % 16) ↔ s.s ((s.p + 1) % 16) = t.s ((t.p + 1) % 16))) := by
  obtain ⟨h1, h2, h3, h4, h5, h6⟩ := C84_scramblers
  have r0 : ∀ p, regIndex 16 p 0 = (p + 1) % 16 := by
    intro p
    simp only [regIndex]
    exact Nat.and_two_pow_sub_one_eq_mod (p + 1) 4
  have r15 : ∀ p, regIndex 16 p 15 = p % 16 := by
    intro p
    simp only [regIndex]
    exact Nat.and_two_pow_sub_one_eq_mod p 4
  have key : ∀ (w : Nat) (a b c d : BitVec w), plusS a b = plusS c d → (a = c ↔ b = d) := by
    intro w a b c d h
    constructor
    · rintro rfl; exact (h6 w b d a).2 h
    · rintro rfl; exact (h6 w a c b).1 h
  refine ⟨fun s t h => h1 _ _ h, fun s t h => h4 _ _ h, fun s t h => h5 _ _ h, fun s t h => h3 _ _ h,
    fun s t h => h5 _ _ h, fun s t h => h5 _ _ h, ?_, ?_, fun s t h => key _ _ _ _ _ h,
    fun w s t h => key _ _ _ _ _ h, fun s t h => key _ _ _ _ _ h, ?_⟩
  · intro s t h
    have := h2 _ _ h
    rwa [r0, r0] at this
  · intro s t h
    have := h5 _ _ h
    rwa [r0, r0] at this
  · intro s t h
    have := key _ _ _ _ _ h
    rwa [r0, r0, r15, r15] at this

/-- A case of C84: outputs differ when the word read differs. -/
example : scr64star ⟨1, 2⟩ ≠ scr64star ⟨3, 2⟩ := by decide

end Verif.Random
