import Mathlib.Analysis.SpecialFunctions.Trigonometric.Basic
import Mathlib.Algebra.Order.Floor.Semiring
/-
  The primes of RFC 3526, "More Modular Exponential (MODP) Diffie-Hellman groups for Internet Key Exchange (IKE)".
-/
namespace Kryptos.Spec.Modp

/-- The digits of `π` before, and `k` binary digits behind, the point: `[2^k pi]`. -/
noncomputable def piFloor (k : Nat) : Nat := ⌊2 ^ k * Real.pi⌋₊

/-- `2^n - 2^(n-64) - 1 + 2^64 * ([2^(n-130) pi] + c)`. -/
noncomputable def prime (n c : Nat) : Nat := 2 ^ n - 2 ^ (n - 64) - 1 + 2 ^ 64 * (piFloor (n - 130) + c)

/-- Sections 2 to 7: the number of bits and the constant `c` of the prime; the generator is always 2. -/
def rfc3526 : List (Nat × Nat) :=
  [(1536, 741804), (2048, 124476), (3072, 1690314), (4096, 240904), (6144, 929484), (8192, 4743158)]

end Kryptos.Spec.Modp
