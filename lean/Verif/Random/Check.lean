import Verif.Random.Slots

/-!
Certificates for full periods.
-/
set_option linter.unusedSimpArgs false
set_option linter.unusedVariables false
namespace Verif.Random

/-- What the kernel computes to show that a map has the full period: `K` is an orbit, `ks` writes every bit as a polynomial of
the first element of the orbit, `p` annihilates that element, and the powers of `x` modulo `p` are as they should be. -/
structure Cert where
  p : Nat
  mu : Nat
  K : List Nat
  ks : List Nat
  cs : List (Nat × Nat × Nat)

/-- The first check: the orbit. -/
def Cert.orbitOk (c : Cert) (d : Nat) (next : Nat → Nat) : Bool :=
  Nat.beq c.K.length (d + 1) && Nat.beq (c.K.headD 0) 1 && orbitCheck next c.K
/-- The second check: every bit comes from the first element. -/
def Cert.basisOk (c : Cert) (d : Nat) : Bool :=
  Nat.beq c.ks.length d && c.ks.all (fun k => Nat.ble (k + 1) (2 ^ d)) && basisCheck c.K c.ks 1
/-- The third check: the annihilator. -/
def Cert.annOk (c : Cert) (d : Nat) : Bool :=
  Nat.beq (c.p / 2 ^ d) 1 && Nat.beq (comb c.K c.p 0) 0
/-- The fourth check: `x ^ (2 ^ d - 1)` is one modulo `p`. -/
def Cert.oneOk (c : Cert) (d : Nat) : Bool :=
  force (ones (2 * d + 1)) fun m => force (ones d) fun md => force (spread (d + 1) c.p) fun p => force (spread (d + 1) c.mu) fun mu =>
    powr m md p mu (11 * d) (2 ^ d - 1) d 1 fun r => Nat.beq r 1
/-- The fifth check: for every listed `q`, the polynomial `y` is `x ^ ((2 ^ d - 1) / q)` modulo `p`, and `u` is the inverse of
`y + 1` modulo `p`. -/
def Cert.primesOk (c : Cert) (d : Nat) : Bool :=
  force (ones (2 * d + 1)) fun m => force (ones d) fun md => force (spread (d + 1) c.p) fun p => force (spread (d + 1) c.mu) fun mu =>
    c.cs.all fun x => Nat.ble (x.2.2 + 1) (2 ^ d) && powr m md p mu (11 * d) ((2 ^ d - 1) / x.1) d 1 fun r =>
      Nat.beq r (spread d x.2.2) && force (spread d x.2.1) fun u => stepr m md p mu (11 * d) u (r ^^^ 1) fun z => Nat.beq z 1

/-- The checks, for the numbers of `d` bits under `next`. -/
structure Cert.Valid (c : Cert) (d : Nat) (next : Nat → Nat) : Prop where
  k1 : c.orbitOk d next = true
  k2 : c.basisOk d = true
  k3 : c.annOk d = true
  k4 : c.oneOk d = true
  k5 : c.primesOk d = true

/-- An additive group whose elements are described by numbers of `d` bits, with an additive map `T` computed by `next`. -/
structure Repr {V : Type} [AddCommGroup V] (T : AddMonoid.End V) (unp : Nat → V) (d : Nat) (next : Nat → Nat) : Prop where
  two : ∀ v : V, v + v = 0
  xor : ∀ a b, unp (a ^^^ b) = unp a + unp b
  zero : unp 0 = 0
  surj : ∀ v, ∃ m < 2 ^ d, v = unp m
  step : ∀ k, unp (next k) = T (unp k)

section
variable {V : Type} [AddCommGroup V] {T : AddMonoid.End V} {unp : Nat → V} {d : Nat} {next : Nat → Nat}

/-- What the checks say about `T`. -/
theorem Cert.facts (R : Repr T unp d next) (hd : 1 < d) (hd' : d < 2048) (c : Cert) (k : c.Valid d next) :
    T ^ (2 ^ d - 1) = 1 ∧ ∀ x ∈ c.cs, (∃ U : AddMonoid.End V, U * (T ^ ((2 ^ d - 1) / x.1) + 1) = 1) ∧
      T^[(2 ^ d - 1) / x.1] (unp 1) = unp (comb c.K x.2.2 0) := by
  obtain ⟨h2, hx, h0, hs, hnext⟩ := R
  obtain ⟨k1, k2, k3, k4, k5⟩ := k
  simp only [Cert.orbitOk, Cert.basisOk, Cert.annOk, Cert.oneOk, Cert.primesOk, force_eq, Bool.and_eq_true,
    List.all_eq_true] at k1 k2 k3 k4 k5
  have l1 := Nat.eq_of_beq_eq_true k1.1.1
  have l2 := Nat.eq_of_beq_eq_true k2.1.1
  have l3 := Nat.eq_of_beq_eq_true k3.1
  obtain ⟨K, hK⟩ : ∃ K, c.K = 1 :: K := by
    have l0 := Nat.eq_of_beq_eq_true k1.1.2
    cases h : c.K with
    | nil => rw [h] at l1; simp at l1
    | cons a K => rw [h] at l0; simp at l0; subst l0; exact ⟨K, rfl⟩
  have ho := orbit_of_check T unp next hnext K 1 (hK ▸ k1.2)
  rw [← hK] at ho
  have hp : 1 < 2 ^ d := Nat.one_lt_two_pow (by omega)
  have hb : ∀ j < d, ∃ c, unp (2 ^ j) = ev T c (unp 1) := by
    intro j hj
    have := basis_ev T unp hx h0 ho c.ks 1 k2.2 (fun k hk => ?_) j (by omega)
    · simpa using this
    · have := Nat.le_of_ble_eq_true (k2.1.2 k hk)
      rw [l1, Nat.pow_succ]; omega
  have cyc : ∀ v, ∃ c, v = ev T c (unp 1) := by
    intro v
    obtain ⟨m, hm, rfl⟩ := hs v
    exact span T unp hx h0 h2 d hb m hm
  have hlt : c.p < 2 ^ c.K.length := by
    rw [l1, Nat.pow_succ]
    have := Nat.lt_mul_div_succ c.p (Nat.two_pow_pos d)
    rw [l3] at this
    omega
  have hann : ev T c.p = 0 := by
    apply ann T cyc
    have := comb_ev T unp hx h0 c.K c.p 0 (unp 1) ho hlt
    rw [Nat.eq_of_beq_eq_true k3.2, h0, zero_add] at this
    exact this.symm
  have e2 := end_two (V := V) h2
  have gp := good_spread (d + 1) c.p
  have hp0 : sv T (spread (d + 1) c.p) = 0 := by rw [sv_spread T (l1 ▸ hlt), hann]
  have g1 : Good d 1 := good_mono (n := 1) (by omega) (good_one (n := 0))
  have p1 : ∃ j, sv T 1 = T ^ j := ⟨0, by rw [sv_one, pow_zero]⟩
  have hpow : ∀ e < 2 ^ d, ∀ k, powr (ones (2 * d + 1)) (ones d) (spread (d + 1) c.p) (spread (d + 1) c.mu) (11 * d) e d 1 k = true →
      ∃ z, Good d z ∧ sv T z = T ^ e ∧ k z = true := by
    intro e he k h
    obtain ⟨z, gz, ez, kz⟩ := powr_spec T e2 hd' gp hp0 hd e d 1 g1 p1 h
    exact ⟨z, gz, by rw [ez, sv_one, one_pow, one_mul, Nat.mod_eq_of_lt he], kz⟩
  constructor
  · obtain ⟨z, gz, ez, kz⟩ := hpow _ (by omega) _ k4
    rw [← ez, Nat.eq_of_beq_eq_true kz, sv_one]
  · intro x hx1
    have hk := k5 x hx1
    obtain ⟨z, gz, ez, kz⟩ := hpow _ (lt_of_le_of_lt (Nat.div_le_self _ _) (by omega)) _ hk.2
    have ly : x.2.2 < 2 ^ d := Nat.lt_of_succ_le (Nat.le_of_ble_eq_true hk.1)
    obtain ⟨zy, kz⟩ := (Bool.and_eq_true _ _).mp kz
    have zy := Nat.eq_of_beq_eq_true zy
    obtain ⟨y, gy, ey, ky⟩ := stepr_spec T e2 hd' gp hp0 (good_spread d x.2.1) (good_xor gz g1) kz
    refine ⟨⟨sv T (spread d x.2.1), ?_⟩, ?_⟩
    · rw [← ez, ← sv_one T, ← sv_xor T e2 gz g1, ← ey, Nat.eq_of_beq_eq_true ky]
    · rw [comb_ev T unp hx h0 c.K x.2.2 0 (unp 1) ho (by rw [l1, Nat.pow_succ]; omega), h0, zero_add,
        ← pow_iterate, ← ez, zy, sv_spread T ly]

/-- All checks together show that the period of every element but zero is `2 ^ d - 1`. -/
theorem Cert.full (R : Repr T unp d next) (hd : 1 < d) (hd' : d < 2048) (c : Cert) (k : c.Valid d next)
    (hq : ∀ q, q.Prime → q ∣ 2 ^ d - 1 → q ∈ c.cs.map (·.1)) (v : V) (hv : v ≠ 0) (k : Nat) :
    T^[k] v = v ↔ 2 ^ d - 1 ∣ k := by
  have hp : 1 < 2 ^ d := Nat.one_lt_two_pow (by omega)
  obtain ⟨f1, f2⟩ := c.facts R hd hd' ‹_›
  refine period T R.two (by omega) f1 ?_ v hv k
  intro q hq1 hq2
  obtain ⟨x, hx1, rfl⟩ := List.mem_map.mp (hq q hq1 hq2)
  exact (f2 x hx1).1

/-- The outputs differ from those `(2 ^ d - 1) / q` steps later, for all prime factors `q`. -/
def Cert.outOk (c : Cert) (differs : Nat → Bool) : Bool := c.cs.all fun x => differs (comb c.K x.2.2 0)

/-- The period of the outputs. -/
theorem Cert.out_full (R : Repr T unp d next) (hd : 1 < d) (hd' : d < 2048) (c : Cert) (k : c.Valid d next)
    (hq : ∀ q, q.Prime → q ∣ 2 ^ d - 1 → q ∈ c.cs.map (·.1)) {O : Type} (out : V → O) (differs : Nat → Bool)
    (hdf : ∀ n, differs n = true → out (unp n) ≠ out (unp 1)) (hco : c.outOk differs = true) (h1 : unp 1 ≠ 0) (s : V) (hs : s ≠ 0) (j : Nat) :
    (∃ a, ∀ m, a ≤ m → out (T^[m + j] s) = out (T^[m] s)) ↔ 2 ^ d - 1 ∣ j := by
  have hp : 1 < 2 ^ d := Nat.one_lt_two_pow (by omega)
  have hper := c.full R hd hd' k hq
  apply output_period T hper (by omega) unp (fun v => ?_) out (unp 1) h1 ?_ s hs j
  rotate_left
  · obtain ⟨m, hm, e⟩ := R.surj v; exact ⟨m, by omega, e⟩
  · intro q hq1 hq2
    obtain ⟨x, hx1, rfl⟩ := List.mem_map.mp (hq q hq1 hq2)
    rw [((c.facts R hd hd' k).2 x hx1).2]
    simp only [Cert.outOk, List.all_eq_true] at hco
    exact hdf _ (hco x hx1)

end

end Verif.Random
