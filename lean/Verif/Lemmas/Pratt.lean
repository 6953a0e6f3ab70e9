import Mathlib.Data.List.Prime
import Mathlib.NumberTheory.LucasPrimality
import Mathlib.Tactic.NormNum.Prime
/-
  Certificates of primality, for the examples with large primes.
-/
namespace Kryptos.Pratt

/-- Square and multiply for the lowest `k` bits of the exponent. -/
def powM (n b e : Nat) : Nat → Nat → Nat
  | 0, P => P
  | k + 1, P => powM n b e k (P * P * (if e / 2 ^ k % 2 = 1 then b else 1) % n)

theorem powM_eq (n b e : Nat) : ∀ K, powM n b e K (b ^ (e / 2 ^ K) % n) = b ^ e % n
  | 0 => by simp [powM]
  | K + 1 => by
    rw [powM, ← powM_eq n b e K]
    congr 1
    have e2 : e / 2 ^ K = 2 * (e / 2 ^ (K + 1)) + e / 2 ^ K % 2 := by
      rw [pow_succ, ← Nat.div_div_eq_div_mul]
      omega
    have e3 : (if e / 2 ^ K % 2 = 1 then b else 1) = b ^ (e / 2 ^ K % 2) := by
      rcases Nat.mod_two_eq_zero_or_one (e / 2 ^ K) with h0 | h0 <;> simp [h0]
    have e4 : b ^ (e / 2 ^ K) = b ^ (e / 2 ^ (K + 1)) * b ^ (e / 2 ^ (K + 1)) * b ^ (e / 2 ^ K % 2) := by
      rw [← pow_add, ← pow_add, ← Nat.two_mul, ← e2]
    rw [e3, e4, Nat.mul_mod, ← Nat.mul_mod (b ^ _) (b ^ _), ← Nat.mul_mod]

theorem powM_small (n b e K : Nat) (hn : 1 < n) (he : e < 2 ^ K) : powM n b e K 1 = b ^ e % n := by
  rw [← powM_eq n b e K, Nat.div_eq_of_lt he, pow_zero, Nat.mod_eq_of_lt hn]

/-- Lucas' test with the prime factors of `p - 1`. -/
theorem pratt (p a K : Nat) (fs : List Nat) (hf : ∀ q ∈ fs, q.Prime) (hprod : fs.prod = p - 1) (hp : 1 < p) (hK : p < 2 ^ K)
    (h1 : powM p a (p - 1) K 1 = 1) (h2 : fs.all (fun q => powM p a ((p - 1) / q) K 1 != 1) = true) : p.Prime := by
  have e : ∀ k, k < p → (((a : ZMod p) ^ k = 1) ↔ powM p a k K 1 = 1) := by
    intro k hk
    have := ZMod.natCast_eq_natCast_iff (a ^ k) 1 p
    rw [Nat.cast_pow, Nat.cast_one] at this
    rw [this, Nat.ModEq, Nat.mod_eq_of_lt hp, powM_small _ _ _ _ hp (by omega)]
  refine lucas_primality p a ((e _ (by omega)).2 h1) fun q hq hd hc => ?_
  rw [← hprod] at hd
  have hm := mem_list_primes_of_dvd_prod (Nat.prime_iff.1 hq) (fun q hq => Nat.prime_iff.1 (hf q hq)) hd
  have := List.all_eq_true.1 h2 q hm
  simp only [bne_iff_ne, ne_eq] at this
  exact this ((e _ (lt_of_le_of_lt (Nat.div_le_self _ _) (by omega))).1 hc)

theorem prime_a : Nat.Prime 13608746957335860661 := by
  refine pratt _ 10 64 [2, 2, 3, 5, 11, 19, 31, 97, 163, 191, 223, 227, 229] ?_ (by decide +kernel) (by decide)
    (by decide +kernel) (by decide +kernel) (by decide +kernel)
  simp only [List.mem_cons, List.not_mem_nil, or_false]
  rintro q (rfl | rfl | rfl | rfl | rfl | rfl | rfl | rfl | rfl | rfl | rfl | rfl | rfl) <;> norm_num

theorem prime_b : Nat.Prime 18446688173973312961 := by
  refine pratt _ 13 64 [2, 2, 2, 2, 2, 2, 3, 5, 7, 7, 19, 1613, 6053, 2113939] ?_ (by decide +kernel) (by decide)
    (by decide +kernel) (by decide +kernel) (by decide +kernel)
  simp only [List.mem_cons, List.not_mem_nil, or_false]
  rintro q (rfl | rfl | rfl | rfl | rfl | rfl | rfl | rfl | rfl | rfl | rfl | rfl | rfl | rfl) <;> norm_num

end Kryptos.Pratt
