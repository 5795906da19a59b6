import Mathlib.NumberTheory.LucasPrimality
import Mathlib.Tactic.NormNum.Prime
import Mathlib.Data.List.Prime
import Verif.Random.Linear

/-!
The prime factors of `2 ^ 512 - 1`, with Lucas certificates for the large ones.
-/
set_option linter.unusedSimpArgs false
namespace Verif.Random

/-- `r ^ (2 ^ i) * a ^ (e % 2 ^ i)` modulo `m`. -/
def pm (m a e : Nat) : Nat → Nat → Nat
  | 0, r => r
  | i + 1, r => force (r * r % m) fun r => force (if e / 2 ^ i % 2 = 1 then r * a % m else r) fun r => pm m a e i r

theorem pm_cast (m a e : Nat) : ∀ i r, ((pm m a e i r : Nat) : ZMod m) = (r : ZMod m) ^ (2 ^ i) * (a : ZMod m) ^ (e % 2 ^ i) := by
  intro i
  induction i with
  | zero => intro r; simp [pm, Nat.mod_one]
  | succ i ih =>
    intro r
    rw [pm, force_eq, force_eq, ih, Nat.mod_pow_succ]
    rcases Nat.mod_two_eq_zero_or_one (e / 2 ^ i) with h | h
    · rw [h]; simp [pow_succ, pow_mul]; ring
    · rw [h, if_pos rfl]
      rw [ZMod.natCast_mod, Nat.cast_mul, ZMod.natCast_mod, Nat.cast_mul, mul_pow, mul_one, ← pow_two, ← pow_mul]
      ring

theorem pm_pow {m a e d : Nat} (h : e < 2 ^ d) : ((pm m a e d 1 : Nat) : ZMod m) = (a : ZMod m) ^ e := by
  rw [pm_cast, Nat.mod_eq_of_lt h]; simp

theorem pm_lt {m a e : Nat} (hm : 0 < m) : ∀ i r, r < m → pm m a e i r < m := by
  intro i
  induction i with
  | zero => intro r h; exact h
  | succ i ih =>
    intro r h
    rw [pm, force_eq, force_eq]
    apply ih
    split
    · exact Nat.mod_lt _ hm
    · exact Nat.mod_lt _ hm

/-- The arithmetic part of a Lucas certificate. -/
def lucasCheck (p d a : Nat) (fs : List Nat) : Bool :=
  decide (1 < p) && decide (p < 2 ^ d) && Nat.beq (fs.foldr (· * ·) 1 + 1) p && Nat.beq (pm p a (p - 1) d 1) 1 &&
    fs.all fun q => !Nat.beq (pm p a ((p - 1) / q) d 1) 1

theorem prime_dvd_list {q : Nat} (hq : q.Prime) : ∀ {fs : List Nat}, (∀ r ∈ fs, r.Prime) → q ∣ fs.foldr (· * ·) 1 → q ∈ fs := by
  intro fs
  induction fs with
  | nil => intro _ h; simp at h; exact absurd (h ▸ hq) Nat.not_prime_one
  | cons r fs ih =>
    intro hp h
    rcases (Nat.Prime.dvd_mul hq).mp h with h | h
    · rw [(Nat.prime_dvd_prime_iff_eq hq (hp r (by simp))).mp h]; simp
    · exact List.mem_cons_of_mem _ (ih (fun r hr => hp r (by simp [hr])) h)

theorem lucas {p d a : Nat} {fs : List Nat} (h : lucasCheck p d a fs = true) (hp : ∀ r ∈ fs, r.Prime) : p.Prime := by
  simp only [lucasCheck, Bool.and_eq_true, decide_eq_true_eq, List.all_eq_true] at h
  obtain ⟨⟨⟨⟨h1, hd⟩, hf⟩, hc⟩, hq⟩ := h
  have hf := Nat.eq_of_beq_eq_true hf
  have hc := Nat.eq_of_beq_eq_true hc
  refine lucas_primality p (a : ZMod p) ?_ ?_
  · rw [← pm_pow (d := d) (by omega), hc]; simp
  · intro q hqp hqd
    have hmem : q ∈ fs := prime_dvd_list hqp hp (by rw [← hf, Nat.add_sub_cancel] at hqd; exact hqd)
    have hne := hq q hmem
    rw [← pm_pow (d := d) (lt_of_le_of_lt (Nat.div_le_self _ _) (by omega))]
    intro e
    have e' : ((pm p a ((p - 1) / q) d 1 : Nat) : ZMod p) = ((1 : Nat) : ZMod p) := by rw [e]; simp
    rw [ZMod.natCast_eq_natCast_iff', Nat.mod_eq_of_lt (pm_lt (by omega) _ _ h1), Nat.mod_eq_of_lt h1] at e'
    rw [e'] at hne
    simp at hne

theorem prime_3 : Nat.Prime 3 := by norm_num

theorem prime_5 : Nat.Prime 5 := by norm_num

theorem prime_17 : Nat.Prime 17 := by norm_num

theorem prime_257 : Nat.Prime 257 := by norm_num

theorem prime_641 : Nat.Prime 641 := by norm_num

theorem prime_65537 : Nat.Prime 65537 := by norm_num

theorem prime_274177 : Nat.Prime 274177 := by norm_num

theorem prime_6700417 : Nat.Prime 6700417 := by norm_num

theorem prime_2 : Nat.Prime 2 := by norm_num

theorem prime_47 : Nat.Prime 47 := by norm_num

theorem prime_373 : Nat.Prime 373 := by norm_num

theorem prime_2998279 : Nat.Prime 2998279 := by norm_num

theorem prime_67280421310721 : Nat.Prime 67280421310721 := by
  refine lucas (d := 46) (a := 3) (fs := [2, 2, 2, 2, 2, 2, 2, 2, 5, 47, 373, 2998279]) (by decide +kernel) ?_
  simp only [List.mem_cons, List.not_mem_nil, or_false, forall_eq_or_imp, forall_eq]
  exact ⟨prime_2, prime_2, prime_2, prime_2, prime_2, prime_2, prime_2, prime_2, prime_5, prime_47, prime_373, prime_2998279⟩

theorem prime_157 : Nat.Prime 157 := by norm_num

theorem prime_719 : Nat.Prime 719 := by norm_num

theorem prime_16747 : Nat.Prime 16747 := by norm_num

theorem prime_3853149761 : Nat.Prime 3853149761 := by
  refine lucas (d := 32) (a := 6) (fs := [2, 2, 2, 2, 2, 2, 5, 719, 16747]) (by decide +kernel) ?_
  simp only [List.mem_cons, List.not_mem_nil, or_false, forall_eq_or_imp, forall_eq]
  exact ⟨prime_2, prime_2, prime_2, prime_2, prime_2, prime_2, prime_5, prime_719, prime_16747⟩

theorem prime_1238926361552897 : Nat.Prime 1238926361552897 := by
  refine lucas (d := 51) (a := 3) (fs := [2, 2, 2, 2, 2, 2, 2, 2, 2, 2, 2, 157, 3853149761]) (by decide +kernel) ?_
  simp only [List.mem_cons, List.not_mem_nil, or_false, forall_eq_or_imp, forall_eq]
  exact ⟨prime_2, prime_2, prime_2, prime_2, prime_2, prime_2, prime_2, prime_2, prime_2, prime_2, prime_2, prime_157, prime_3853149761⟩

theorem prime_7 : Nat.Prime 7 := by norm_num

theorem prime_449 : Nat.Prime 449 := by norm_num

theorem prime_181 : Nat.Prime 181 := by norm_num

theorem prime_1896229 : Nat.Prime 1896229 := by norm_num

theorem prime_18533742247 : Nat.Prime 18533742247 := by
  refine lucas (d := 35) (a := 6) (fs := [2, 3, 3, 3, 181, 1896229]) (by decide +kernel) ?_
  simp only [List.mem_cons, List.not_mem_nil, or_false, forall_eq_or_imp, forall_eq]
  exact ⟨prime_2, prime_3, prime_3, prime_3, prime_181, prime_1896229⟩

theorem prime_116503103764643 : Nat.Prime 116503103764643 := by
  refine lucas (d := 47) (a := 2) (fs := [2, 7, 449, 18533742247]) (by decide +kernel) ?_
  simp only [List.mem_cons, List.not_mem_nil, or_false, forall_eq_or_imp, forall_eq]
  exact ⟨prime_2, prime_7, prime_449, prime_18533742247⟩

theorem prime_59649589127497217 : Nat.Prime 59649589127497217 := by
  refine lucas (d := 56) (a := 3) (fs := [2, 2, 2, 2, 2, 2, 2, 2, 2, 116503103764643]) (by decide +kernel) ?_
  simp only [List.mem_cons, List.not_mem_nil, or_false, forall_eq_or_imp, forall_eq]
  exact ⟨prime_2, prime_2, prime_2, prime_2, prime_2, prime_2, prime_2, prime_2, prime_2, prime_116503103764643⟩

theorem prime_12497 : Nat.Prime 12497 := by norm_num

theorem prime_2203 : Nat.Prime 2203 := by norm_num

theorem prime_6939437 : Nat.Prime 6939437 := by norm_num

theorem prime_55515497 : Nat.Prime 55515497 := by
  refine lucas (d := 26) (a := 3) (fs := [2, 2, 2, 6939437]) (by decide +kernel) ?_
  simp only [List.mem_cons, List.not_mem_nil, or_false, forall_eq_or_imp, forall_eq]
  exact ⟨prime_2, prime_2, prime_2, prime_6939437⟩

theorem prime_733803839347 : Nat.Prime 733803839347 := by
  refine lucas (d := 40) (a := 2) (fs := [2, 3, 2203, 55515497]) (by decide +kernel) ?_
  simp only [List.mem_cons, List.not_mem_nil, or_false, forall_eq_or_imp, forall_eq]
  exact ⟨prime_2, prime_3, prime_2203, prime_55515497⟩

theorem prime_5704689200685129054721 : Nat.Prime 5704689200685129054721 := by
  refine lucas (d := 73) (a := 21) (fs := [2, 2, 2, 2, 2, 2, 2, 2, 2, 3, 3, 3, 3, 3, 5, 12497, 733803839347]) (by decide +kernel) ?_
  simp only [List.mem_cons, List.not_mem_nil, or_false, forall_eq_or_imp, forall_eq]
  exact ⟨prime_2, prime_2, prime_2, prime_2, prime_2, prime_2, prime_2, prime_2, prime_2, prime_3, prime_3, prime_3, prime_3, prime_3, prime_5, prime_12497, prime_733803839347⟩

theorem prime_13 : Nat.Prime 13 := by norm_num

theorem prime_1789 : Nat.Prime 1789 := by norm_num

theorem prime_10079 : Nat.Prime 10079 := by norm_num

theorem prime_876769 : Nat.Prime 876769 := by norm_num

theorem prime_31618624099079 : Nat.Prime 31618624099079 := by
  refine lucas (d := 45) (a := 17) (fs := [2, 1789, 10079, 876769]) (by decide +kernel) ?_
  simp only [List.mem_cons, List.not_mem_nil, or_false, forall_eq_or_imp, forall_eq]
  exact ⟨prime_2, prime_1789, prime_10079, prime_876769⟩

theorem prime_8861 : Nat.Prime 8861 := by norm_num

theorem prime_223 : Nat.Prime 223 := by norm_num

theorem prime_1699 : Nat.Prime 1699 := by norm_num

theorem prime_10608557 : Nat.Prime 10608557 := by
  refine lucas (d := 24) (a := 2) (fs := [2, 2, 7, 223, 1699]) (by decide +kernel) ?_
  simp only [List.mem_cons, List.not_mem_nil, or_false, forall_eq_or_imp, forall_eq]
  exact ⟨prime_2, prime_2, prime_7, prime_223, prime_1699⟩

theorem prime_16879 : Nat.Prime 16879 := by norm_num

theorem prime_1604753 : Nat.Prime 1604753 := by norm_num

theorem prime_41723579 : Nat.Prime 41723579 := by
  refine lucas (d := 26) (a := 2) (fs := [2, 13, 1604753]) (by decide +kernel) ?_
  simp only [List.mem_cons, List.not_mem_nil, or_false, forall_eq_or_imp, forall_eq]
  exact ⟨prime_2, prime_13, prime_1604753⟩

theorem prime_83447159 : Nat.Prime 83447159 := by
  refine lucas (d := 27) (a := 11) (fs := [2, 41723579]) (by decide +kernel) ?_
  simp only [List.mem_cons, List.not_mem_nil, or_false, forall_eq_or_imp, forall_eq]
  exact ⟨prime_2, prime_41723579⟩

theorem prime_25353082741699 : Nat.Prime 25353082741699 := by
  refine lucas (d := 45) (a := 2) (fs := [2, 3, 3, 16879, 83447159]) (by decide +kernel) ?_
  simp only [List.mem_cons, List.not_mem_nil, or_false, forall_eq_or_imp, forall_eq]
  exact ⟨prime_2, prime_3, prime_3, prime_16879, prime_83447159⟩

theorem prime_20939 : Nat.Prime 20939 := by norm_num

theorem prime_23 : Nat.Prime 23 := by norm_num

theorem prime_29 : Nat.Prime 29 := by norm_num

theorem prime_283 : Nat.Prime 283 := by norm_num

theorem prime_10948139 : Nat.Prime 10948139 := by
  refine lucas (d := 24) (a := 2) (fs := [2, 23, 29, 29, 283]) (by decide +kernel) ?_
  simp only [List.mem_cons, List.not_mem_nil, or_false, forall_eq_or_imp, forall_eq]
  exact ⟨prime_2, prime_23, prime_29, prime_29, prime_283⟩

theorem prime_6130957841 : Nat.Prime 6130957841 := by
  refine lucas (d := 33) (a := 3) (fs := [2, 2, 2, 2, 5, 7, 10948139]) (by decide +kernel) ?_
  simp only [List.mem_cons, List.not_mem_nil, or_false, forall_eq_or_imp, forall_eq]
  exact ⟨prime_2, prime_2, prime_2, prime_2, prime_5, prime_7, prime_10948139⟩

theorem prime_220714482277 : Nat.Prime 220714482277 := by
  refine lucas (d := 38) (a := 5) (fs := [2, 2, 3, 3, 6130957841]) (by decide +kernel) ?_
  simp only [List.mem_cons, List.not_mem_nil, or_false, forall_eq_or_imp, forall_eq]
  exact ⟨prime_2, prime_2, prime_3, prime_3, prime_6130957841⟩

theorem prime_9243081088796207 : Nat.Prime 9243081088796207 := by
  refine lucas (d := 54) (a := 5) (fs := [2, 20939, 220714482277]) (by decide +kernel) ?_
  simp only [List.mem_cons, List.not_mem_nil, or_false, forall_eq_or_imp, forall_eq]
  exact ⟨prime_2, prime_20939, prime_220714482277⟩

theorem prime_1057372046781162536274034354686893329625329 : Nat.Prime 1057372046781162536274034354686893329625329 := by
  refine lucas (d := 140) (a := 11) (fs := [2, 2, 2, 2, 3, 8861, 10608557, 25353082741699, 9243081088796207]) (by decide +kernel) ?_
  simp only [List.mem_cons, List.not_mem_nil, or_false, forall_eq_or_imp, forall_eq]
  exact ⟨prime_2, prime_2, prime_2, prime_2, prime_3, prime_8861, prime_10608557, prime_25353082741699, prime_9243081088796207⟩

theorem prime_93461639715357977769163558199606896584051237541638188580280321 : Nat.Prime 93461639715357977769163558199606896584051237541638188580280321 := by
  refine lucas (d := 206) (a := 43) (fs := [2, 2, 2, 2, 2, 2, 2, 2, 2, 2, 2, 3, 5, 7, 13, 31618624099079, 1057372046781162536274034354686893329625329]) (by decide +kernel) ?_
  simp only [List.mem_cons, List.not_mem_nil, or_false, forall_eq_or_imp, forall_eq]
  exact ⟨prime_2, prime_2, prime_2, prime_2, prime_2, prime_2, prime_2, prime_2, prime_2, prime_2, prime_2, prime_3, prime_5, prime_7, prime_13, prime_31618624099079, prime_1057372046781162536274034354686893329625329⟩

end Verif.Random
