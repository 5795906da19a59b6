import Verif.Random.Primes

/-!
The prime factors of the documented periods.
-/
set_option exponentiation.threshold 600
namespace Verif.Random

theorem primes_64 (q : Nat) (hq : q.Prime) (h : q ∣ 2 ^ 64 - 1) : q ∈ [3, 5, 17, 257, 641, 6700417, 65537] := by
  refine prime_dvd_list hq ?_ (by rw [show List.foldr (· * ·) 1 [3, 5, 17, 257, 641, 6700417, 65537] = 2 ^ 64 - 1 by decide +kernel]; exact h)
  simp only [List.mem_cons, List.not_mem_nil, or_false, forall_eq_or_imp, forall_eq]
  exact ⟨prime_3, prime_5, prime_17, prime_257, prime_641, prime_6700417, prime_65537⟩

theorem primes_128 (q : Nat) (hq : q.Prime) (h : q ∣ 2 ^ 128 - 1) : q ∈ [3, 5, 17, 257, 641, 6700417, 65537, 274177, 67280421310721] := by
  refine prime_dvd_list hq ?_ (by rw [show List.foldr (· * ·) 1 [3, 5, 17, 257, 641, 6700417, 65537, 274177, 67280421310721] = 2 ^ 128 - 1 by decide +kernel]; exact h)
  simp only [List.mem_cons, List.not_mem_nil, or_false, forall_eq_or_imp, forall_eq]
  exact ⟨prime_3, prime_5, prime_17, prime_257, prime_641, prime_6700417, prime_65537, prime_274177, prime_67280421310721⟩

theorem primes_256 (q : Nat) (hq : q.Prime) (h : q ∣ 2 ^ 256 - 1) : q ∈ [3, 5, 17, 257, 641, 6700417, 65537, 274177, 67280421310721, 59649589127497217, 5704689200685129054721] := by
  refine prime_dvd_list hq ?_ (by rw [show List.foldr (· * ·) 1 [3, 5, 17, 257, 641, 6700417, 65537, 274177, 67280421310721, 59649589127497217, 5704689200685129054721] = 2 ^ 256 - 1 by decide +kernel]; exact h)
  simp only [List.mem_cons, List.not_mem_nil, or_false, forall_eq_or_imp, forall_eq]
  exact ⟨prime_3, prime_5, prime_17, prime_257, prime_641, prime_6700417, prime_65537, prime_274177, prime_67280421310721, prime_59649589127497217, prime_5704689200685129054721⟩

theorem primes_512 (q : Nat) (hq : q.Prime) (h : q ∣ 2 ^ 512 - 1) : q ∈ [3, 5, 17, 257, 641, 6700417, 65537, 274177, 67280421310721, 59649589127497217, 5704689200685129054721, 1238926361552897, 93461639715357977769163558199606896584051237541638188580280321] := by
  refine prime_dvd_list hq ?_ (by rw [show List.foldr (· * ·) 1 [3, 5, 17, 257, 641, 6700417, 65537, 274177, 67280421310721, 59649589127497217, 5704689200685129054721, 1238926361552897, 93461639715357977769163558199606896584051237541638188580280321] = 2 ^ 512 - 1 by decide +kernel]; exact h)
  simp only [List.mem_cons, List.not_mem_nil, or_false, forall_eq_or_imp, forall_eq]
  exact ⟨prime_3, prime_5, prime_17, prime_257, prime_641, prime_6700417, prime_65537, prime_274177, prime_67280421310721, prime_59649589127497217, prime_5704689200685129054721, prime_1238926361552897, prime_93461639715357977769163558199606896584051237541638188580280321⟩

end Verif.Random
