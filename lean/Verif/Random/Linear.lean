import Mathlib.Algebra.Group.Hom.End
import Mathlib.Dynamics.PeriodicPts.Defs
import Mathlib.Data.Nat.Prime.Basic
import Mathlib.Data.Fintype.EquivFin
import Mathlib.Tactic.Ring
import Mathlib.Tactic.Abel
import Mathlib.Data.Int.GCD
import Mathlib.Tactic.Zify
import Mathlib.SetTheory.Cardinal.Finite

/-!
Linear maps over the field of two elements and their periods.

`V` is an additive group in which every element is its own inverse, `T` an additive map.  A natural number `c` stands for the
polynomial whose coefficients are its bits; `ev T c` is that polynomial of `T`.
-/
set_option linter.unusedSimpArgs false
set_option linter.unusedVariables false
namespace Verif.Random

/-- Evaluates `n` first when computed by the kernel. -/
def force {α : Type} (n : Nat) (f : Nat → α) : α := Nat.rec (f 0) (fun k _ => f (Nat.succ k)) n

theorem force_eq {α : Type} (n : Nat) (f : Nat → α) : force n f = f n := by cases n <;> rfl

/-- `a` if the `i`-th bit of `b` is set, and `0` otherwise. -/
def bitOf (b i a : Nat) : Nat := Nat.rec 0 (fun _ _ => a) (b / 2 ^ i % 2)

section
variable {R : Type} [Ring R] (T : R)

/-- The polynomial with the bits of `c` as coefficients. -/
def ev (c : Nat) : R := if h : c = 0 then 0 else (if c % 2 = 1 then 1 else 0) + T * ev (c / 2)
decreasing_by omega

theorem ev_zero : ev T 0 = 0 := by rw [ev]; simp

theorem ev_eq (c : Nat) : ev T c = (if c % 2 = 1 then 1 else 0) + T * ev T (c / 2) := by
  by_cases h : c = 0
  · subst h; simp [ev_zero]
  · rw [ev, dif_neg h]

theorem ev_one : ev T 1 = 1 := by rw [ev_eq]; simp [ev_zero]

theorem ev_two_mul (c : Nat) : ev T (2 * c) = T * ev T c := by
  rw [ev_eq]; simp

theorem ev_comm (c : Nat) : T * ev T c = ev T c * T := by
  induction c using Nat.strongRecOn with
  | _ c ih =>
    by_cases h : c = 0
    · subst h; simp [ev_zero]
    · rw [ev_eq, mul_add, add_mul, mul_assoc, ← ih (c / 2) (by omega)]
      split <;> simp

theorem ev_comm2 (a b : Nat) : ev T a * ev T b = ev T b * ev T a := by
  induction a using Nat.strongRecOn with
  | _ a ih =>
    by_cases h : a = 0
    · subst h; simp [ev_zero]
    · rw [ev_eq T a, add_mul, mul_add, mul_assoc, ih (a / 2) (by omega), ← mul_assoc, ev_comm, mul_assoc]
      split <;> simp

theorem pow_comm (c k : Nat) : T ^ k * ev T c = ev T c * T ^ k := by
  induction k with
  | zero => simp
  | succ k ih => rw [pow_succ, mul_assoc, ev_comm, ← mul_assoc, ih, mul_assoc]

variable (h2 : ∀ x : R, x + x = 0)
include h2

theorem ev_xor (a b : Nat) : ev T (a ^^^ b) = ev T a + ev T b := by
  induction a using Nat.strongRecOn generalizing b with
  | _ a ih =>
    by_cases h : a = 0
    · subst h; simp [ev_zero]
    · rw [ev_eq T (a ^^^ b), ev_eq T a, ev_eq T b, Nat.xor_div_two, ih (a / 2) (by omega), mul_add]
      have hx : (a ^^^ b) % 2 = (a % 2 + b % 2) % 2 := by
        have := Nat.xor_mod_two_pow (a := a) (b := b) (n := 1)
        rw [Nat.pow_one] at this
        rw [this]
        rcases Nat.mod_two_eq_zero_or_one a with ha | ha <;> rcases Nat.mod_two_eq_zero_or_one b with hb | hb <;>
          simp [ha, hb]
      rw [hx]
      rcases Nat.mod_two_eq_zero_or_one a with ha | ha <;> rcases Nat.mod_two_eq_zero_or_one b with hb | hb <;>
        simp [ha, hb]
      · abel
      · abel
      · rw [show (1 : R) + T * ev T (a / 2) + (1 + T * ev T (b / 2)) =
          (1 + 1) + (T * ev T (a / 2) + T * ev T (b / 2)) by abel, h2, zero_add]

end

/-! ### Periods -/

section
variable {V : Type} [AddCommGroup V] (T : AddMonoid.End V)

theorem end_two (h2 : ∀ v : V, v + v = 0) (f : AddMonoid.End V) : f + f = 0 := by
  ext v; exact h2 (f v)

theorem pow_iterate (k : Nat) (v : V) : (T ^ k) v = T^[k] v := by
  induction k generalizing v with
  | zero => rfl
  | succ k ih => rw [pow_succ, Function.iterate_succ_apply, ← ih]; rfl

/-- If the `n`-th power of `T` is the identity, and `T ^ (n / q)` differs from the identity everywhere but at zero for all prime
factors `q` of `n`, then every element but zero returns to itself exactly after the multiples of `n`. -/
theorem period (h2 : ∀ v : V, v + v = 0) {n : Nat} (hn0 : 0 < n) (h1 : T ^ n = 1)
    (hq : ∀ q, q.Prime → q ∣ n → ∃ U : AddMonoid.End V, U * (T ^ (n / q) + 1) = 1) (v : V) (hv : v ≠ 0) (k : Nat) :
    T^[k] v = v ↔ n ∣ k := by
  have hN : T^[n] v = v := by rw [← pow_iterate, h1]; rfl
  have hdiv : Function.minimalPeriod T v ∣ n := Function.IsPeriodicPt.minimalPeriod_dvd hN
  suffices h : Function.minimalPeriod T v = n by
    rw [← h]; exact Function.isPeriodicPt_iff_minimalPeriod_dvd
  by_contra hne
  obtain ⟨m, hm⟩ := hdiv
  have hm1 : m ≠ 1 := by intro e; subst e; omega
  obtain ⟨q, hqp, hqm⟩ := Nat.exists_prime_and_dvd hm1
  have hqn : q ∣ n := hm ▸ Dvd.dvd.mul_left hqm _
  obtain ⟨U, hU⟩ := hq q hqp hqn
  have hper : T^[n / q] v = v := by
    apply Function.isPeriodicPt_iff_minimalPeriod_dvd.mpr
    obtain ⟨r, rfl⟩ := hqm
    exact ⟨r, by rw [hm, show Function.minimalPeriod (⇑T) v * (q * r) = q * (Function.minimalPeriod (⇑T) v * r) by ring,
      Nat.mul_div_cancel_left _ hqp.pos]⟩
  have e := congrFun (congrArg DFunLike.coe hU) v
  have hz : (T ^ (n / q) + 1) v = 0 := by
    show (T ^ (n / q)) v + v = 0
    rw [pow_iterate, hper, h2]
  have : (U * (T ^ (n / q) + 1)) v = U ((T ^ (n / q) + 1) v) := rfl
  rw [this, hz, map_zero] at e
  exact hv e.symm

/-- Everything comes from one element, and `p` annihilates that one. -/
theorem ann {p : Nat} {e0 : V} (cyc : ∀ v, ∃ c, v = ev T c e0) (h0 : ev T p e0 = 0) : ev T p = 0 := by
  ext v
  obtain ⟨c, rfl⟩ := cyc v
  show (ev T p * ev T c) e0 = 0
  rw [ev_comm2]
  show ev T c (ev T p e0) = 0
  rw [h0, map_zero]

end

/-! ### Checking that everything comes from one element -/

/-- The sum of the elements of `K` selected by the bits of `c`. -/
def comb : List Nat → Nat → Nat → Nat
  | [], _, acc => acc
  | k :: K, c, acc => force (acc ^^^ bitOf c 0 k) fun acc => force (c / 2) fun c => comb K c acc

/-- The `j`-th polynomial of the list gives the number `b * 2 ^ j`. -/
def basisCheck (K : List Nat) : List Nat → Nat → Bool
  | [], _ => true
  | c :: cs, b => Nat.beq (comb K c 0) b && basisCheck K cs (2 * b)

section
variable {V : Type} [AddCommGroup V] (T : AddMonoid.End V) (unp : Nat → V)

/-- The list describes the successive images of `v`. -/
def Orbit : V → List Nat → Prop
  | _, [] => True
  | v, k :: K => unp k = v ∧ Orbit (T v) K

variable (hx : ∀ a b, unp (a ^^^ b) = unp a + unp b) (h0 : unp 0 = 0)

include hx h0 in
theorem comb_ev : ∀ (K : List Nat) (c : Nat) (acc : Nat) (v : V), Orbit T unp v K → c < 2 ^ K.length →
    unp (comb K c acc) = unp acc + ev T c v := by
  intro K
  induction K with
  | nil =>
    intro c acc v _ hc
    have : c = 0 := by simpa using hc
    subst this
    rw [ev_zero]; simp [comb]
  | cons k K ih =>
    intro c acc v ho hc
    rw [comb, force_eq, force_eq, ih (c / 2) _ (T v) ho.2 (by rw [List.length_cons, pow_succ] at hc; omega), hx, ev_eq T c]
    have e : ((if c % 2 = 1 then 1 else 0 : AddMonoid.End V) + T * ev T (c / 2)) v =
        (if c % 2 = 1 then 1 else 0 : AddMonoid.End V) v + ev T (c / 2) (T v) := by
      rw [ev_comm]; rfl
    rw [e, add_assoc]
    congr 2
    unfold bitOf
    rw [pow_zero, Nat.div_one]
    rcases Nat.mod_two_eq_zero_or_one c with h | h <;> rw [h]
    · simpa using h0
    · simpa using ho.1

include hx h0 in
theorem basis_ev {K : List Nat} {v : V} (ho : Orbit T unp v K) : ∀ (cs : List Nat) (b : Nat), basisCheck K cs b = true →
    (∀ c ∈ cs, c < 2 ^ K.length) → ∀ j < cs.length, ∃ c, unp (b * 2 ^ j) = ev T c v := by
  intro cs
  induction cs with
  | nil => intro b _ _ j hj; cases hj
  | cons c cs ih =>
    intro b h hl j hj
    simp only [basisCheck, Bool.and_eq_true] at h
    cases j with
    | zero =>
      refine ⟨c, ?_⟩
      rw [pow_zero, Nat.mul_one, ← Nat.eq_of_beq_eq_true h.1, comb_ev T unp hx h0 K c 0 v ho (hl c (by simp)), h0, zero_add]
    | succ j =>
      obtain ⟨c', hc'⟩ := ih (2 * b) h.2 (fun c hc => hl c (by simp [hc])) j (by simpa using hj)
      exact ⟨c', by rw [← hc', pow_succ]; congr 1; ring⟩

theorem xor_top {d m : Nat} (hm : m < 2 ^ d) : 2 ^ d ^^^ m = 2 ^ d + m := by
  have e := Nat.two_pow_add_eq_or_of_lt hm 1
  rw [Nat.mul_one] at e
  rw [e]
  apply Nat.eq_of_testBit_eq
  intro i
  rw [Nat.testBit_xor, Nat.testBit_or, Nat.testBit_two_pow]
  by_cases h : d = i
  · subst h; simp [Nat.testBit_lt_two_pow hm]
  · simp [h]

include hx h0 in
/-- Sums of the powers of two that come from `v` come from `v`. -/
theorem span {v : V} (h2 : ∀ v : V, v + v = 0) : ∀ d, (∀ j < d, ∃ c, unp (2 ^ j) = ev T c v) → ∀ n < 2 ^ d, ∃ c, unp n = ev T c v := by
  intro d
  induction d with
  | zero => intro _ n hn; exact ⟨0, by rw [ev_zero, show n = 0 by simpa using hn, h0]; rfl⟩
  | succ d ih =>
    intro h n hn
    have ih := ih (fun j hj => h j (by omega))
    by_cases hc : n < 2 ^ d
    · exact ih n hc
    · obtain ⟨c1, h1⟩ := h d (by omega)
      rw [pow_succ] at hn
      obtain ⟨c2, h2'⟩ := ih (n - 2 ^ d) (by omega)
      have e : n = 2 ^ d ^^^ (n - 2 ^ d) := by rw [xor_top (by omega)]; omega
      refine ⟨c1 ^^^ c2, ?_⟩
      rw [e, hx, h1, h2', ev_xor T (end_two h2)]; rfl

end

/-- Each element of the list is the image of the one before. -/
def orbitCheck (next : Nat → Nat) : List Nat → Bool
  | [] => true
  | [_] => true
  | k :: k' :: K => Nat.beq (next k) k' && orbitCheck next (k' :: K)

theorem orbit_of_check {V : Type} [AddCommGroup V] (T : AddMonoid.End V) (unp : Nat → V) (next : Nat → Nat)
    (hnext : ∀ k, unp (next k) = T (unp k)) : ∀ (K : List Nat) (k : Nat), orbitCheck next (k :: K) = true →
    Orbit T unp (unp k) (k :: K) := by
  intro K
  induction K with
  | nil => intro k _; exact ⟨rfl, trivial⟩
  | cons k' K ih =>
    intro k h
    simp only [orbitCheck, Bool.and_eq_true] at h
    refine ⟨rfl, ?_⟩
    rw [← hnext, Nat.eq_of_beq_eq_true h.1]
    exact ih k' h.2

/-! ### The orbit is everything, and what the outputs show -/

section
variable {V : Type} [AddCommGroup V] (T : AddMonoid.End V) {n : Nat}
  (hper : ∀ v : V, v ≠ 0 → ∀ k, T^[k] v = v ↔ n ∣ k) (hn : 0 < n)

include hper hn in
theorem inj_iter (k : Nat) : Function.Injective (T^[k]) := by
  intro u v h
  by_contra hne
  have hw : u - v ≠ 0 := fun e => hne (sub_eq_zero.mp e)
  have hz : T^[k] (u - v) = 0 := by rw [← pow_iterate, map_sub, pow_iterate, pow_iterate, h, sub_self]
  have : T^[k * n] (u - v) = u - v := (hper _ hw _).mpr ⟨k, by ring⟩
  obtain ⟨m, hm⟩ : ∃ m, k * n = m + k := ⟨k * n - k, by
    have := Nat.le_mul_of_pos_right k hn; omega⟩
  rw [hm, Function.iterate_add_apply, hz, ← pow_iterate, map_zero] at this
  exact hw this.symm

include hper hn in
/-- Every element but zero is reached from every other one. -/
theorem reaches (unp : Nat → V) (hs : ∀ v, ∃ m ≤ n, v = unp m) (u v : V) (hu : u ≠ 0) (hv : v ≠ 0) : ∃ k < n, T^[k] u = v := by
  classical
  by_contra hc
  push Not at hc
  have : Function.Surjective (fun m : Fin (n + 1) => unp m) := fun v => by
    obtain ⟨m, hm, rfl⟩ := hs v; exact ⟨⟨m, by omega⟩, rfl⟩
  have hf : Finite V := Finite.of_surjective _ this
  have := Fintype.ofFinite V
  have hcard : Fintype.card V ≤ n + 1 := by
    have h := Fintype.card_le_of_surjective _ ‹Function.Surjective (fun m : Fin (n + 1) => unp m)›
    simpa using h
  -- the orbit, zero and `v` are too many
  let f : Fin (n + 2) → V := fun i => if i.val < n then T^[i.val] u else if i.val = n then 0 else v
  have hnz : ∀ k, T^[k] u ≠ 0 := fun k e => hu (inj_iter T hper hn k (by
    rw [e, ← pow_iterate, map_zero]))
  have hinj : Function.Injective f := by
    intro i j h
    simp only [f] at h
    apply Fin.ext
    have hi := i.isLt
    have hj := j.isLt
    have key : ∀ a b : Nat, a < n → b < n → a ≤ b → T^[a] u = T^[b] u → a = b := by
      intro a b ha hb hab e
      have e' : T^[a] (T^[b - a] u) = T^[a] u := by rw [← Function.iterate_add_apply, e]; congr 2; omega
      have := (hper u hu _).mp (inj_iter T hper hn a e')
      have := Nat.eq_zero_of_dvd_of_lt this (by omega)
      omega
    by_cases i1 : i.val < n <;> by_cases j1 : j.val < n
    · rw [if_pos i1, if_pos j1] at h
      rcases Nat.le_total i.val j.val with hab | hab
      · exact key _ _ i1 j1 hab h
      · exact (key _ _ j1 i1 hab h.symm).symm
    · rw [if_pos i1, if_neg j1] at h
      by_cases j2 : j.val = n
      · rw [if_pos j2] at h; exact absurd h (hnz _)
      · rw [if_neg j2] at h; exact absurd h (hc _ i1)
    · rw [if_neg i1, if_pos j1] at h
      by_cases i2 : i.val = n
      · rw [if_pos i2] at h; exact absurd h.symm (hnz _)
      · rw [if_neg i2] at h; exact absurd h.symm (hc _ j1)
    · rw [if_neg i1, if_neg j1] at h
      by_cases i2 : i.val = n <;> by_cases j2 : j.val = n
      · omega
      · rw [if_pos i2, if_neg j2] at h; exact absurd h.symm hv
      · rw [if_neg i2, if_pos j2] at h; exact absurd h hv
      · omega
  have := Fintype.card_le_of_injective f hinj
  simp at this
  omega

include hper hn in
/-- Outputs whose sequence is not repeated after `n / q` steps, for all prime factors `q` of `n`, have the period of the state, no
matter how late one starts to look. -/
theorem output_period (unp : Nat → V) (hs : ∀ v, ∃ m ≤ n, v = unp m) {O : Type} (out : V → O) (v0 : V) (hv0 : v0 ≠ 0)
    (hout : ∀ q, q.Prime → q ∣ n → out (T^[n / q] v0) ≠ out v0) (s : V) (hs0 : s ≠ 0) (k : Nat) :
    (∃ a, ∀ m, a ≤ m → out (T^[m + k] s) = out (T^[m] s)) ↔ n ∣ k := by
  have mul : ∀ m j, T^[m + j * n] s = T^[m] s := by
    intro m j
    rw [Function.iterate_add_apply, (hper s hs0 (j * n)).mpr ⟨j, by ring⟩]
  constructor
  · rintro ⟨a, h⟩
    by_contra hk
    have all : ∀ m, out (T^[m + k] s) = out (T^[m] s) := by
      intro m
      have := h (m + a * n) (by have := Nat.le_mul_of_pos_right a hn; omega)
      rwa [show m + a * n + k = m + k + a * n by ring, mul, mul] at this
    have alls : ∀ j m, out (T^[m + j * k] s) = out (T^[m] s) := by
      intro j
      induction j with
      | zero => intro m; simp
      | succ j ih => intro m; rw [show m + (j + 1) * k = m + j * k + k by ring, all, ih]
    -- the greatest common divisor of `k` and `n` is a period as well
    obtain ⟨x, y, hxy⟩ : ∃ x y, x * k = Nat.gcd k n + y * n := by
      have hb := Nat.gcd_eq_gcd_ab k n
      refine ⟨(Nat.gcdA k n % n).toNat, (((Nat.gcdA k n % n) * k - Nat.gcd k n) / n).toNat, ?_⟩
      have hx0 : 0 ≤ Nat.gcdA k n % n := Int.emod_nonneg _ (by omega)
      have hdvd : (n : Int) ∣ (Nat.gcdA k n % n) * k - Nat.gcd k n := by
        rw [hb, Int.emod_def]
        exact ⟨-(Nat.gcdA k n / n) * k - Nat.gcdB k n, by ring⟩
      have hk0 : 0 < k := Nat.pos_of_ne_zero fun e => hk (e ▸ dvd_zero n)
      have hg0 : 0 < Nat.gcd k n := Nat.gcd_pos_of_pos_left _ hk0
      have hge : 0 ≤ (Nat.gcdA k n % n) * k - Nat.gcd k n := by
        rcases Int.lt_or_eq_of_le hx0 with h | h
        · have : (Nat.gcd k n : Int) ≤ k := by exact_mod_cast Nat.gcd_le_left n hk0
          have h' : (1 : Int) * k ≤ (Nat.gcdA k n % n) * k := Int.mul_le_mul_of_nonneg_right h (by omega)
          omega
        · exfalso
          rw [← h, zero_mul, zero_sub, Int.dvd_neg] at hdvd
          have hd := Int.natCast_dvd_natCast.mp hdvd
          exact hk (hd.trans (Nat.gcd_dvd_left k n))
      have hq0 := Int.ediv_nonneg hge (by omega : (0 : Int) ≤ n)
      zify
      rw [Int.toNat_of_nonneg hx0, Int.toNat_of_nonneg hq0, Int.ediv_mul_cancel hdvd]
      ring
    have hg : ∀ m, out (T^[m + Nat.gcd k n] s) = out (T^[m] s) := by
      intro m
      have := alls x m
      rwa [hxy, ← Nat.add_assoc, mul] at this
    have hgs : ∀ j m, out (T^[m + j * Nat.gcd k n] s) = out (T^[m] s) := by
      intro j
      induction j with
      | zero => intro m; simp
      | succ j ih => intro m; rw [show m + (j + 1) * Nat.gcd k n = m + j * Nat.gcd k n + Nat.gcd k n by ring, hg, ih]
    obtain ⟨r, hr⟩ := Nat.gcd_dvd_right k n
    have hr1 : r ≠ 1 := by
      rintro rfl
      rw [Nat.mul_one] at hr
      exact hk (hr ▸ Nat.gcd_dvd_left k n)
    obtain ⟨q, hqp, t, rfl⟩ := Nat.exists_prime_and_dvd hr1
    have hqn : n / q = t * Nat.gcd k n := by
      have : n = q * (t * Nat.gcd k n) := hr.trans (by ring)
      rw [Nat.div_eq_of_eq_mul_right hqp.pos this]
    obtain ⟨m, _, hm⟩ := reaches T hper hn unp hs s v0 hs0 hv0
    apply hout q hqp ⟨t * Nat.gcd k n, hr.trans (by ring)⟩
    rw [← hm, ← Function.iterate_add_apply, Nat.add_comm, hqn]
    exact hgs t m
  · intro hk
    refine ⟨0, fun m _ => ?_⟩
    rw [Function.iterate_add_apply, (hper s hs0 k).mpr hk]

include hper hn in
/-- Over one period as many states have a property as there are elements, zero excepted, that have it. -/
theorem orbit_count (unp : Nat → V) (hs : ∀ v, ∃ m ≤ n, v = unp m) (P : V → Prop) (s : V) (hs0 : s ≠ 0) :
    Nat.card {k : Fin n // P (T^[k.val] s)} = Nat.card {v : V // v ≠ 0 ∧ P v} := by
  have hnz : ∀ k, T^[k] s ≠ 0 := fun k e => hs0 (inj_iter T hper hn k (by
    rw [e, ← pow_iterate, map_zero]))
  refine Nat.card_congr (Equiv.ofBijective (fun k => ⟨T^[k.1.val] s, hnz _, k.2⟩) ⟨?_, ?_⟩)
  · intro i j e
    simp only [Subtype.mk.injEq] at e
    apply Subtype.ext
    apply Fin.ext
    have key : ∀ a b : Nat, a < n → b < n → a ≤ b → T^[a] s = T^[b] s → a = b := by
      intro a b ha hb hab e
      have e' : T^[a] (T^[b - a] s) = T^[a] s := by rw [← Function.iterate_add_apply, e]; congr 2; omega
      have := (hper s hs0 _).mp (inj_iter T hper hn a e')
      have := Nat.eq_zero_of_dvd_of_lt this (by omega)
      omega
    rcases Nat.le_total i.1.val j.1.val with hab | hab
    · exact key _ _ i.1.isLt j.1.isLt hab e
    · exact (key _ _ j.1.isLt i.1.isLt hab e.symm).symm
  · rintro ⟨v, hv, hP⟩
    obtain ⟨k, hk, rfl⟩ := reaches T hper hn unp hs s v hs0 hv
    exact ⟨⟨⟨k, hk⟩, hP⟩, rfl⟩

end

end Verif.Random
