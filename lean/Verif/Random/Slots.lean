import Verif.Random.Linear

/-!
Fast multiplication of polynomials over the field of two elements, for the kernel to compute with.

A polynomial is a number in base 2048 whose digits are its coefficients.  The product of two such numbers has digits that are
the coefficients of the product of the polynomials over the natural numbers, as long as no digit overflows; masking the lowest
bit of every digit reduces them modulo two.
-/
set_option linter.unusedSimpArgs false
set_option linter.unusedVariables false
namespace Verif.Random

/-- The number with `n` digits one. -/
def ones : Nat → Nat
  | 0 => 0
  | n + 1 => force (ones n) fun o => 1 + 2048 * o

theorem ones_succ (n : Nat) : ones (n + 1) = 1 + 2048 * ones n := by rw [ones, force_eq]

/-- At most `n` digits, each zero or one. -/
def Good (n a : Nat) : Prop := a &&& ones n = a

/-- The bits of `c` as digits. -/
def spread : Nat → Nat → Nat
  | 0, _ => 0
  | n + 1, c => force (c / 2) fun h => force (spread n h) fun s => c % 2 + 2048 * s

theorem spread_succ (n c : Nat) : spread (n + 1) c = c % 2 + 2048 * spread n (c / 2) := by rw [spread, force_eq, force_eq]

/-- The product of `a` and `b` modulo `p` of degree `d`; `m` and `md` are masks of `2 * d + 1` and `d` digits, `mu` is for finding
the quotient. -/
def mulr (m md p mu sh a b : Nat) : Nat :=
  force ((a * b) &&& m) fun X => force ((((X >>> sh) * mu) >>> sh) &&& md) fun q => X ^^^ ((q * p) &&& m)

/-- Multiply, check that the result is reduced, and go on. -/
def stepr (m md p mu sh a b : Nat) (k : Nat → Bool) : Bool :=
  force (mulr m md p mu sh a b) fun r => Nat.beq (r &&& md) r && k r

/-- Square, and multiply by the variable where the lower bits of the exponent are set. -/
def powr (m md p mu sh e : Nat) : Nat → Nat → (Nat → Bool) → Bool
  | 0, r, k => k r
  | i + 1, r, k => stepr m md p mu sh r r fun r =>
      Bool.rec (powr m md p mu sh e i r k) (stepr m md p mu sh r 2048 fun r => powr m md p mu sh e i r k)
        (Nat.beq (e / 2 ^ i % 2) 1)

/-! ### Digits -/

theorem and_split (a b : Nat) : (a &&& (1 + 2048 * b)) % 2048 = a % 2 ∧ (a &&& (1 + 2048 * b)) / 2048 = a / 2048 &&& b := by
  constructor
  · have h := Nat.and_mod_two_pow (a := a) (b := 1 + 2048 * b) (n := 11)
    rw [show 2 ^ 11 = 2048 from rfl] at h
    rw [h, Nat.add_mul_mod_self_left, show (1 : Nat) % 2048 = 1 from rfl, Nat.and_one_is_mod]
    omega
  · have h := Nat.and_div_two_pow (a := a) (b := 1 + 2048 * b) (n := 11)
    rw [show 2 ^ 11 = 2048 from rfl] at h
    rw [h]
    congr 1
    omega

theorem good_succ {n a : Nat} : Good (n + 1) a ↔ a % 2048 < 2 ∧ Good n (a / 2048) := by
  unfold Good
  rw [ones_succ]
  have h := and_split a (ones n)
  constructor
  · intro e; rw [e] at h; exact ⟨by omega, h.2.symm⟩
  · intro ⟨h1, h2⟩
    have e1 := h.1
    have e2 := h.2
    rw [h2] at e2
    omega

theorem good_zero {a : Nat} : Good 0 a ↔ a = 0 := by
  unfold Good ones
  simp [eq_comm]

theorem good_lt : ∀ {n a : Nat}, Good n a → a < 2048 ^ n := by
  intro n
  induction n with
  | zero => intro a h; rw [good_zero.mp h]; decide
  | succ n ih =>
    intro a h
    have := ih (good_succ.mp h).2
    rw [pow_succ]; omega

theorem good_mask (n a : Nat) : Good n (a &&& ones n) := by
  unfold Good
  rw [Nat.and_assoc, Nat.and_self]

theorem good_mono : ∀ {n m a : Nat}, n ≤ m → Good n a → Good m a := by
  intro n
  induction n with
  | zero => intro m a _ h; rw [good_zero.mp h]; simp [Good]
  | succ n ih =>
    intro m a hm h
    obtain ⟨m, rfl⟩ : ∃ k, m = k + 1 := ⟨m - 1, by omega⟩
    exact good_succ.mpr ⟨(good_succ.mp h).1, ih (by omega) (good_succ.mp h).2⟩

theorem good_xor : ∀ {n a b : Nat}, Good n a → Good n b → Good n (a ^^^ b) := by
  intro n a b ha hb
  unfold Good at *
  rw [Nat.and_xor_distrib_right, ha, hb]

theorem good_spread : ∀ (n c : Nat), Good n (spread n c) := by
  intro n
  induction n with
  | zero => intro c; exact good_zero.mpr rfl
  | succ n ih =>
    intro c
    rw [spread_succ]
    refine good_succ.mpr ⟨by omega, ?_⟩
    rw [show (c % 2 + 2048 * spread n (c / 2)) / 2048 = spread n (c / 2) by omega]
    exact ih _

theorem good_one {n : Nat} : Good (n + 1) 1 := good_succ.mpr ⟨by decide, by simp [Good]⟩
theorem good_var {n : Nat} : Good (n + 2) 2048 := good_succ.mpr ⟨by decide, good_one⟩

/-! ### Lists of digits -/

/-- The number with the given digits, which may overflow. -/
def val : List Nat → Nat
  | [] => 0
  | a :: l => a + 2048 * val l

/-- Digit by digit sum. -/
def addL : List Nat → List Nat → List Nat
  | [], l => l
  | a :: l, [] => a :: l
  | a :: l, b :: m => (a + b) :: addL l m

/-- Product of polynomials. -/
def mulL : List Nat → List Nat → List Nat
  | [], _ => []
  | a :: l, m => addL (m.map (a * ·)) (0 :: mulL l m)

/-- The lowest `n` digits. -/
def dig : Nat → Nat → List Nat
  | 0, _ => []
  | n + 1, a => a % 2048 :: dig n (a / 2048)

theorem val_add (l m : List Nat) : val (addL l m) = val l + val m := by
  induction l generalizing m with
  | nil => simp [addL, val]
  | cons a l ih =>
    cases m with
    | nil => simp [addL, val]
    | cons b m => simp only [addL, val, ih]; ring

theorem val_smul (a : Nat) (m : List Nat) : val (m.map (a * ·)) = a * val m := by
  induction m with
  | nil => simp [val]
  | cons b m ih => simp only [List.map_cons, val, ih]; ring

theorem val_mul (l m : List Nat) : val (mulL l m) = val l * val m := by
  induction l with
  | nil => simp [mulL, val]
  | cons a l ih => simp only [mulL, val_add, val_smul, val, ih]; ring

theorem val_dig : ∀ {n a : Nat}, a < 2048 ^ n → val (dig n a) = a := by
  intro n
  induction n with
  | zero => intro a h; simp [dig, val] at *; omega
  | succ n ih =>
    intro a h
    rw [dig, val, ih (by rw [pow_succ] at h; omega)]
    omega

theorem add_bound {l m : List Nat} {i j : Nat} (hl : ∀ a ∈ l, a ≤ i) (hm : ∀ a ∈ m, a ≤ j) : ∀ a ∈ addL l m, a ≤ i + j := by
  induction l generalizing m with
  | nil => intro a h; exact le_trans (hm a h) (by omega)
  | cons b l ih =>
    cases m with
    | nil => intro a h; exact le_trans (hl a h) (by omega)
    | cons c m =>
      intro a h
      simp only [addL, List.mem_cons] at h
      rcases h with rfl | h
      · exact Nat.add_le_add (hl _ (by simp)) (hm _ (by simp))
      · exact ih (fun a h => hl a (by simp [h])) (fun a h => hm a (by simp [h])) a h

theorem mul_bound {l m : List Nat} (hl : ∀ a ∈ l, a ≤ 1) (hm : ∀ a ∈ m, a ≤ 1) : ∀ a ∈ mulL l m, a ≤ l.length := by
  induction l with
  | nil => intro a h; simp [mulL] at h
  | cons b l ih =>
    intro a h
    rw [mulL] at h
    have := add_bound (i := 1) (j := l.length) ?_ ?_ a h
    · simp; omega
    · intro c hc
      obtain ⟨x, hx, rfl⟩ := List.mem_map.mp hc
      have h1 := hl b (by simp)
      have h2 := hm x hx
      have : b * x ≤ 1 * 1 := Nat.mul_le_mul h1 h2
      omega
    · intro c hc
      simp only [List.mem_cons] at hc
      rcases hc with rfl | hc
      · omega
      · exact ih (fun a h => hl a (by simp [h])) c hc

theorem good_dig : ∀ {n a : Nat}, Good n a → ∀ x ∈ dig n a, x ≤ 1 := by
  intro n
  induction n with
  | zero => intro a _ x hx; simp [dig] at hx
  | succ n ih =>
    intro a h x hx
    have h := good_succ.mp h
    simp only [dig, List.mem_cons] at hx
    rcases hx with rfl | hx
    · omega
    · exact ih h.2 x hx

theorem dig_length (n a : Nat) : (dig n a).length = n := by
  induction n generalizing a with
  | zero => rfl
  | succ n ih => simp [dig, ih]

/-! ### The polynomials of an element of a ring -/

section
variable {R : Type} [Ring R] (T : R)

/-- The polynomial whose coefficients are the digits. -/
def sv (c : Nat) : R := if h : c = 0 then 0 else ((c % 2048 : Nat) : R) + T * sv (c / 2048)
decreasing_by omega

theorem sv_zero : sv T 0 = 0 := by rw [sv]; simp

theorem sv_eq (c : Nat) : sv T c = ((c % 2048 : Nat) : R) + T * sv T (c / 2048) := by
  by_cases h : c = 0
  · subst h; simp [sv_zero]
  · rw [sv, dif_neg h]

theorem sv_one : sv T 1 = 1 := by rw [sv_eq]; simp [sv_zero]
theorem sv_var : sv T 2048 = T := by rw [sv_eq]; simp [sv_one]

/-- The polynomial with the listed coefficients. -/
def lv : List Nat → R
  | [] => 0
  | a :: l => (a : R) + T * lv l

theorem lv_add (l m : List Nat) : lv T (addL l m) = lv T l + lv T m := by
  induction l generalizing m with
  | nil => simp [addL, lv]
  | cons a l ih =>
    cases m with
    | nil => simp [addL, lv]
    | cons b m => simp only [addL, lv, ih, Nat.cast_add, mul_add]; abel

theorem lv_smul (a : Nat) (m : List Nat) : lv T (m.map (a * ·)) = (a : R) * lv T m := by
  induction m with
  | nil => simp [lv]
  | cons b m ih =>
    simp only [List.map_cons, lv, ih, Nat.cast_mul, mul_add, ← mul_assoc]
    rw [(Nat.cast_commute a T).eq]

theorem lv_mul (l m : List Nat) : lv T (mulL l m) = lv T l * lv T m := by
  induction l with
  | nil => simp [mulL, lv]
  | cons a l ih => simp only [mulL, lv_add, lv_smul, lv, ih, add_mul, Nat.cast_zero, zero_add, mul_assoc]

theorem sv_val {l : List Nat} (h : ∀ a ∈ l, a < 2048) : sv T (val l) = lv T l := by
  induction l with
  | nil => simp [val, lv, sv_zero]
  | cons a l ih =>
    have ha := h a (by simp)
    rw [sv_eq, val, lv, ← ih (fun a h' => h a (by simp [h']))]
    rw [show (a + 2048 * val l) % 2048 = a by omega, show (a + 2048 * val l) / 2048 = val l by omega]

/-- No digit of a product overflows. -/
theorem sv_mul {n m a b : Nat} (hn : n < 2048) (ha : Good n a) (hb : Good m b) : sv T (a * b) = sv T a * sv T b := by
  have ea := val_dig (good_lt ha)
  have eb := val_dig (good_lt hb)
  have da := good_dig ha
  have db := good_dig hb
  have hm := mul_bound da db
  rw [dig_length] at hm
  have h := sv_val T (l := mulL (dig n a) (dig m b)) (fun x hx => by have := hm x hx; omega)
  rw [val_mul, ea, eb, lv_mul, ← sv_val T (fun x hx => by have := da x hx; omega),
    ← sv_val T (fun x hx => by have := db x hx; omega), ea, eb] at h
  exact h

variable (h2 : ∀ x : R, x + x = 0)
include h2

theorem cast_mod_two (a b : Nat) (h : a % 2 = b % 2) : (a : R) = (b : R) := by
  have key : ∀ k : Nat, ((2 * k : Nat) : R) = 0 := by
    intro k; rw [Nat.cast_mul, Nat.cast_ofNat, two_mul, h2]
  rw [← Nat.mod_add_div a 2, ← Nat.mod_add_div b 2, Nat.cast_add, Nat.cast_add, key, key, h]

theorem sv_mask : ∀ {n a : Nat}, a < 2048 ^ n → sv T (a &&& ones n) = sv T a := by
  intro n
  induction n with
  | zero => intro a h; simp at h; subst h; simp [sv_zero]
  | succ n ih =>
    intro a h
    rw [sv_eq T (a &&& ones (n + 1)), sv_eq T a, ones_succ]
    have hs := and_split a (ones n)
    rw [hs.1, hs.2, ih (by rw [pow_succ] at h; omega)]
    congr 1
    exact cast_mod_two h2 _ _ (by omega)

theorem sv_xor : ∀ {n a b : Nat}, Good n a → Good n b → sv T (a ^^^ b) = sv T a + sv T b := by
  intro n
  induction n with
  | zero => intro a b ha hb; rw [good_zero.mp ha, good_zero.mp hb]; simp [sv_zero]
  | succ n ih =>
    intro a b ha hb
    have ha := good_succ.mp ha
    have hb := good_succ.mp hb
    have e1 := Nat.xor_mod_two_pow (a := a) (b := b) (n := 11)
    have e2 := Nat.xor_div_two_pow (a := a) (b := b) (n := 11)
    rw [show 2 ^ 11 = 2048 from rfl] at e1 e2
    rw [sv_eq T (a ^^^ b), sv_eq T a, sv_eq T b, e1, e2, ih ha.2 hb.2, mul_add]
    have hc : ((a % 2048 ^^^ b % 2048 : Nat) : R) = ((a % 2048 : Nat) : R) + ((b % 2048 : Nat) : R) := by
      rw [← Nat.cast_add]
      apply cast_mod_two h2
      obtain h | h : a % 2048 = 0 ∨ a % 2048 = 1 := by omega
      all_goals obtain h' | h' : b % 2048 = 0 ∨ b % 2048 = 1 := by omega
      all_goals rw [h, h']; rfl
    rw [hc]; abel

omit h2 in
theorem sv_spread : ∀ {n c : Nat}, c < 2 ^ n → sv T (spread n c) = ev T c := by
  intro n
  induction n with
  | zero => intro c h; simp at h; subst h; simp [spread, sv_zero, ev_zero]
  | succ n ih =>
    intro c h
    rw [spread_succ, sv_eq, ev_eq]
    rw [show (c % 2 + 2048 * spread n (c / 2)) / 2048 = spread n (c / 2) by omega,
      show (c % 2 + 2048 * spread n (c / 2)) % 2048 = c % 2 by omega, ih (by rw [pow_succ] at h; omega)]
    rcases Nat.mod_two_eq_zero_or_one c with h | h <;> simp [h]

variable {d p mu sh : Nat} (hd : d < 2048) (hp : Good (d + 1) p) (hp0 : sv T p = 0)
include hd hp hp0

theorem sv_mulr {a b : Nat} (ha : Good d a) (hb : Good d b) :
    sv T (mulr (ones (2 * d + 1)) (ones d) p mu sh a b) = sv T a * sv T b := by
  rw [mulr, force_eq, force_eq]
  have la := good_lt ha
  have lb := good_lt hb
  have lp := good_lt hp
  have lt : ∀ x y n m, x < 2048 ^ n → y < 2048 ^ m → n + m ≤ 2 * d + 1 → x * y < 2048 ^ (2 * d + 1) := by
    intro x y n m hx hy hnm
    calc x * y < 2048 ^ n * 2048 ^ m := Nat.mul_lt_mul'' hx hy
      _ = 2048 ^ (n + m) := (pow_add _ _ _).symm
      _ ≤ 2048 ^ (2 * d + 1) := Nat.pow_le_pow_right (by decide) hnm
  rw [sv_xor T h2 (good_mask _ _) (good_mask _ _), sv_mask T h2 (lt a b d d la lb (by omega)), sv_mul T hd ha hb]
  generalize hq : ((((a * b) &&& ones (2 * d + 1)) >>> sh * mu) >>> sh) &&& ones d = q
  have gq : Good d q := hq ▸ good_mask _ _
  rw [sv_mask T h2 (lt q p d (d + 1) (good_lt gq) lp (by omega)), sv_mul T hd gq hp, hp0, mul_zero, add_zero]

theorem stepr_spec {a b : Nat} (ha : Good d a) (hb : Good d b) {k : Nat → Bool}
    (h : stepr (ones (2 * d + 1)) (ones d) p mu sh a b k = true) : ∃ r, Good d r ∧ sv T r = sv T a * sv T b ∧ k r = true := by
  rw [stepr, force_eq, Bool.and_eq_true] at h
  exact ⟨_, Nat.eq_of_beq_eq_true h.1, sv_mulr T h2 hd hp hp0 ha hb, h.2⟩

theorem powr_spec (h1 : 1 < d) (e : Nat) {k : Nat → Bool} : ∀ i r, Good d r → (∃ j, sv T r = T ^ j) →
    powr (ones (2 * d + 1)) (ones d) p mu sh e i r k = true →
    ∃ z, Good d z ∧ sv T z = sv T r ^ 2 ^ i * T ^ (e % 2 ^ i) ∧ k z = true := by
  intro i
  induction i with
  | zero => intro r hr _ h; exact ⟨r, hr, by simp [Nat.mod_one], h⟩
  | succ i ih =>
    intro r hr ⟨j, hj⟩ h
    rw [powr] at h
    obtain ⟨r1, g1, e1, h⟩ := stepr_spec T h2 hd hp hp0 hr hr h
    have hmod := Nat.mod_pow_succ (b := 2) (x := e) (k := i)
    rcases Nat.mod_two_eq_zero_or_one (e / 2 ^ i) with hb | hb
    · rw [hb] at h hmod
      obtain ⟨z, gz, ez, kz⟩ := ih r1 g1 ⟨j + j, by rw [e1, hj, pow_add]⟩ h
      refine ⟨z, gz, ?_, kz⟩
      rw [ez, e1, hj, hmod, Nat.mul_zero, Nat.add_zero, ← pow_add, ← pow_mul, ← pow_mul]
      congr 2
      ring
    · rw [hb] at h hmod
      have gv : Good d 2048 := good_mono (n := 2) (by omega) (good_var (n := 0))
      obtain ⟨r2, g2, e2, h⟩ := stepr_spec T h2 hd hp hp0 g1 gv h
      rw [sv_var] at e2
      obtain ⟨z, gz, ez, kz⟩ := ih r2 g2 ⟨j + j + 1, by rw [e2, e1, hj, pow_succ, pow_add]⟩ h
      refine ⟨z, gz, ?_, kz⟩
      rw [ez, e2, e1, hj, hmod, ← pow_add, ← pow_succ, ← pow_mul, ← pow_mul, ← pow_add, ← pow_add]
      congr 1
      ring

end

end Verif.Random
