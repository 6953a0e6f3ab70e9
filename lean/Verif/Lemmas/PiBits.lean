import Mathlib.Analysis.SpecialFunctions.Complex.Arctan
import Mathlib.Analysis.SpecialFunctions.Trigonometric.Arctan
import Mathlib.Analysis.SpecificLimits.Normed
import Mathlib.Tactic.Linarith
import Mathlib.Tactic.Ring
import Mathlib.Tactic.FieldSimp
import Mathlib.Tactic.Positivity
import Mathlib.Algebra.Order.Floor.Semifield
/-
  Many binary digits of `π`, from Machin's formula with whole numbers only.
-/
namespace Kryptos.PiBits
open Finset Filter Real

/-- A term of the series of `arctan (1 / m)`, times `2 ^ K`, rounded down. -/
def term (K m i : Nat) : Nat := 2 ^ K / ((2 * i + 1) * m ^ (2 * i + 1))

/-- The terms of numbers `2 * lo + off`, `2 * (lo + 1) + off` and so on, `2 ^ d` of them. -/
def sumT (K m off : Nat) : Nat → Nat → Nat
  | 0, lo => term K m (2 * lo + off)
  | d + 1, lo => sumT K m off d lo + sumT K m off d (lo + 2 ^ d)

theorem sumT_eq (K m off : Nat) : ∀ d lo, sumT K m off d lo = ∑ i ∈ range (2 ^ d), term K m (2 * (lo + i) + off)
  | 0, lo => by simp [sumT]
  | d + 1, lo => by
    rw [sumT, sumT_eq K m off d lo, sumT_eq K m off d (lo + 2 ^ d), pow_succ, Nat.mul_two, sum_range_add]
    congr 1
    exact sum_congr rfl fun i _ => by rw [Nat.add_assoc]

/-- A term of the series. -/
noncomputable def f (m i : Nat) : ℝ := ((m : ℝ)⁻¹) ^ (2 * i + 1) / ((2 * i + 1 : Nat) : ℝ)

theorem term_le (K m i : Nat) (hm : 2 ≤ m) : (term K m i : ℝ) ≤ 2 ^ K * f m i := by
  have hm0 : (0 : ℝ) < m := by exact_mod_cast (by omega : 0 < m)
  have h : 2 ^ K * f m i = ((2 ^ K : Nat) : ℝ) / (((2 * i + 1) * m ^ (2 * i + 1) : Nat) : ℝ) := by
    rw [f, inv_pow]
    push_cast
    field_simp
  rw [h]
  exact Nat.cast_div_le

theorem lt_term (K m i : Nat) (hm : 2 ≤ m) : 2 ^ K * f m i < (term K m i : ℝ) + 1 := by
  have hm0 : (0 : ℝ) < m := by exact_mod_cast (by omega : 0 < m)
  have h : 2 ^ K * f m i = ((2 ^ K : Nat) : ℝ) / (((2 * i + 1) * m ^ (2 * i + 1) : Nat) : ℝ) := by
    rw [f, inv_pow]
    push_cast
    field_simp
  have hp : 0 < (2 * i + 1) * m ^ (2 * i + 1) := Nat.mul_pos (by omega) (Nat.pow_pos (by omega))
  rw [h, div_lt_iff₀ (by exact_mod_cast hp), mul_comm, term]
  exact_mod_cast Nat.lt_mul_div_succ (2 ^ K) hp

theorem f_anti (m : Nat) (hm : 2 ≤ m) : Antitone (f m) := by
  refine antitone_nat_of_succ_le fun n => ?_
  have h1 : (1 : ℝ) ≤ m := by exact_mod_cast (by omega : 1 ≤ m)
  have hi0 : (0 : ℝ) ≤ (m : ℝ)⁻¹ := by positivity
  have hi1 : (m : ℝ)⁻¹ ≤ 1 := inv_le_one_of_one_le₀ h1
  rw [f, f]
  refine div_le_div₀ (by positivity) (pow_le_pow_of_le_one hi0 hi1 (by omega)) (by positivity) ?_
  exact_mod_cast (by omega : 2 * n + 1 ≤ 2 * (n + 1) + 1)

theorem f_tendsto (m : Nat) (hm : 2 ≤ m) :
    Tendsto (fun n => ∑ i ∈ range n, (-1) ^ i * f m i) atTop (nhds (arctan (m : ℝ)⁻¹)) := by
  have h1 : (1 : ℝ) < m := by exact_mod_cast (by omega : 1 < m)
  have hx : ‖(m : ℝ)⁻¹‖ < 1 := by
    rw [norm_inv, Real.norm_natCast]
    exact inv_lt_one_of_one_lt₀ h1
  have := (Real.hasSum_arctan hx).tendsto_sum_nat
  simpa only [f, mul_div_assoc] using this

theorem pairs (m : Nat) : ∀ j, ∑ i ∈ range (2 * j), (-1) ^ i * f m i = ∑ i ∈ range j, (f m (2 * i) - f m (2 * i + 1))
  | 0 => by simp
  | j + 1 => by
    rw [show 2 * (j + 1) = 2 * j + 1 + 1 by ring, sum_range_succ, sum_range_succ, pairs m j, sum_range_succ (n := j), pow_succ,
      pow_mul]
    norm_num
    ring

theorem pairs_bounds (K m : Nat) (hm : 2 ≤ m) : ∀ j,
    ((∑ i ∈ range j, term K m (2 * i) : Nat) : ℝ) - ((∑ i ∈ range j, term K m (2 * i + 1) : Nat) : ℝ) - j ≤
        2 ^ K * ∑ i ∈ range j, (f m (2 * i) - f m (2 * i + 1)) ∧
      2 ^ K * ∑ i ∈ range j, (f m (2 * i) - f m (2 * i + 1)) ≤
        ((∑ i ∈ range j, term K m (2 * i) : Nat) : ℝ) - ((∑ i ∈ range j, term K m (2 * i + 1) : Nat) : ℝ) + j
  | 0 => by simp
  | j + 1 => by
    obtain ⟨h1, h2⟩ := pairs_bounds K m hm j
    have a1 := term_le K m (2 * j) hm
    have a2 := lt_term K m (2 * j) hm
    have b1 := term_le K m (2 * j + 1) hm
    have b2 := lt_term K m (2 * j + 1) hm
    rw [sum_range_succ, sum_range_succ, sum_range_succ, mul_add, mul_sub]
    push_cast at h1 h2 ⊢
    constructor <;> linarith

theorem arctan_bounds (K m d : Nat) (hm : 2 ≤ m) :
    (sumT K m 0 d 0 : ℝ) - sumT K m 1 d 0 - 2 ^ d ≤ 2 ^ K * arctan (m : ℝ)⁻¹ ∧
      2 ^ K * arctan (m : ℝ)⁻¹ ≤ (sumT K m 0 d 0 : ℝ) - sumT K m 1 d 0 + 2 ^ d + term K m (2 * 2 ^ d) + 1 := by
  have hk : (0 : ℝ) < 2 ^ K := by positivity
  have l := mul_le_mul_of_nonneg_left ((f_anti m hm).alternating_series_le_tendsto (f_tendsto m hm) (2 ^ d)) hk.le
  have u := mul_le_mul_of_nonneg_left ((f_anti m hm).tendsto_le_alternating_series (f_tendsto m hm) (2 ^ d)) hk.le
  obtain ⟨p1, p2⟩ := pairs_bounds K m hm (2 ^ d)
  have t := lt_term K m (2 * 2 ^ d) hm
  rw [sum_range_succ, pow_mul, neg_one_sq, one_pow, one_mul, mul_add] at u
  rw [pairs] at l u
  have e0 : sumT K m 0 d 0 = ∑ i ∈ range (2 ^ d), term K m (2 * i) := by
    rw [sumT_eq]
    exact sum_congr rfl fun i _ => by rw [Nat.zero_add, Nat.add_zero]
  have e1 : sumT K m 1 d 0 = ∑ i ∈ range (2 ^ d), term K m (2 * i + 1) := by
    rw [sumT_eq]
    exact sum_congr rfl fun i _ => by rw [Nat.zero_add]
  rw [e0, e1]
  push_cast at p1 p2 ⊢
  constructor <;> linarith

/-- The digits before and `k` binary digits behind the point, from two inequalities between whole numbers. -/
theorem floor_pi (k g d e N : Nat)
    (hl : N * 2 ^ g + 16 * sumT (k + g) 5 1 d 0 + 16 * 2 ^ d + 4 * sumT (k + g) 239 0 e 0 + 4 * 2 ^ e +
      4 * term (k + g) 239 (2 * 2 ^ e) + 4 ≤ 16 * sumT (k + g) 5 0 d 0 + 4 * sumT (k + g) 239 1 e 0)
    (hu : 16 * sumT (k + g) 5 0 d 0 + 16 * 2 ^ d + 16 * term (k + g) 5 (2 * 2 ^ d) + 16 + 4 * sumT (k + g) 239 1 e 0 + 4 * 2 ^ e <
      (N + 1) * 2 ^ g + 16 * sumT (k + g) 5 1 d 0 + 4 * sumT (k + g) 239 0 e 0) :
    ⌊2 ^ k * π⌋₊ = N := by
  obtain ⟨a1, a2⟩ := arctan_bounds (k + g) 5 d (by omega)
  obtain ⟨b1, b2⟩ := arctan_bounds (k + g) 239 e (by omega)
  have hp := four_mul_arctan_inv_5_sub_arctan_inv_239
  have hpi : 2 ^ (k + g) * π = 16 * (2 ^ (k + g) * arctan (5 : ℝ)⁻¹) - 4 * (2 ^ (k + g) * arctan (239 : ℝ)⁻¹) := by
    have : π = 16 * arctan (5 : ℝ)⁻¹ - 4 * arctan (239 : ℝ)⁻¹ := by linarith
    rw [this]
    ring
  push_cast at a1 a2 b1 b2
  have hl' : (N : ℝ) * 2 ^ g + 16 * sumT (k + g) 5 1 d 0 + 16 * 2 ^ d + 4 * sumT (k + g) 239 0 e 0 + 4 * 2 ^ e +
      4 * term (k + g) 239 (2 * 2 ^ e) + 4 ≤ 16 * sumT (k + g) 5 0 d 0 + 4 * sumT (k + g) 239 1 e 0 := by exact_mod_cast hl
  have hu' : 16 * (sumT (k + g) 5 0 d 0 : ℝ) + 16 * 2 ^ d + 16 * term (k + g) 5 (2 * 2 ^ d) + 16 +
      4 * sumT (k + g) 239 1 e 0 + 4 * 2 ^ e <
      (N + 1) * 2 ^ g + 16 * sumT (k + g) 5 1 d 0 + 4 * sumT (k + g) 239 0 e 0 := by exact_mod_cast hu
  have hg : (0 : ℝ) < 2 ^ g := by positivity
  have e1 : (N : ℝ) * 2 ^ g ≤ 2 ^ k * π * 2 ^ g := by
    rw [show (2 : ℝ) ^ k * π * 2 ^ g = 2 ^ (k + g) * π by rw [pow_add]; ring, hpi]
    linarith
  have e2 : 2 ^ k * π * 2 ^ g < ((N : ℝ) + 1) * 2 ^ g := by
    rw [show (2 : ℝ) ^ k * π * 2 ^ g = 2 ^ (k + g) * π by rw [pow_add]; ring, hpi]
    linarith
  rw [Nat.floor_eq_iff (by positivity)]
  exact ⟨le_of_mul_le_mul_right e1 hg, lt_of_mul_lt_mul_right e2 hg.le⟩

/-- Fewer digits. -/
theorem floor_pi_prefix (k j N : Nat) (h : ⌊2 ^ (k + j) * π⌋₊ = N) : ⌊2 ^ k * π⌋₊ = N / 2 ^ j := by
  have : (2 : ℝ) ^ k * π = (2 ^ (k + j) * π) / ((2 ^ j : Nat) : ℝ) := by
    rw [pow_add]
    push_cast
    field_simp
  rw [this, Nat.floor_div_natCast, h]

end Kryptos.PiBits
