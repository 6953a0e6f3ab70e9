import Mathlib.Analysis.Complex.Exponential
import Mathlib.Analysis.SpecialFunctions.Trigonometric.Basic
import Mathlib.Tactic.NormNum
import Mathlib.Tactic.Ring
import Mathlib.Tactic.LinearCombination
/-
  Sines of integers, as precisely as the table of MD5 needs them.
-/
namespace Kryptos.Sine

theorem exp_sum (n : Nat) : ∑ m ∈ Finset.range (2 * n), Complex.I ^ m / (m.factorial : ℂ) =
    ((∑ k ∈ Finset.range n, (-1) ^ k / ((2 * k).factorial : ℝ) : ℝ) : ℂ) +
      ((∑ k ∈ Finset.range n, (-1) ^ k / ((2 * k + 1).factorial : ℝ) : ℝ) : ℂ) * Complex.I := by
  induction n with
  | zero => simp
  | succ n ih =>
    rw [show 2 * (n + 1) = 2 * n + 1 + 1 by ring, Finset.sum_range_succ, Finset.sum_range_succ, ih, Finset.sum_range_succ,
      Finset.sum_range_succ (fun k => (-1 : ℝ) ^ k / ((2 * k + 1).factorial : ℝ)), pow_succ, pow_mul, Complex.I_sq]
    push_cast
    ring

theorem exp_I : Complex.exp Complex.I = (Real.cos 1 : ℂ) + (Real.sin 1 : ℂ) * Complex.I := by
  have := Complex.exp_mul_I 1
  rw [one_mul] at this
  rw [this, Complex.ofReal_cos, Complex.ofReal_sin, Complex.ofReal_one]

theorem bounds (n : Nat) (hn : 0 < n) :
    |Real.cos 1 - ∑ k ∈ Finset.range n, (-1) ^ k / ((2 * k).factorial : ℝ)| ≤ (2 * n + 1) / ((2 * n).factorial * (2 * n)) ∧
    |Real.sin 1 - ∑ k ∈ Finset.range n, (-1) ^ k / ((2 * k + 1).factorial : ℝ)| ≤ (2 * n + 1) / ((2 * n).factorial * (2 * n)) := by
  have h := Complex.exp_bound (x := Complex.I) (by simp) (n := 2 * n) (by omega)
  rw [exp_sum, exp_I, Complex.norm_I, one_pow, one_mul] at h
  have e : ((2 * n).succ : ℝ) * ((2 * n).factorial * (2 * n : ℕ) : ℝ)⁻¹ = (2 * n + 1) / ((2 * n).factorial * (2 * n)) := by
    rw [div_eq_mul_inv]; push_cast; ring
  rw [e] at h
  set c := ∑ k ∈ Finset.range n, (-1) ^ k / ((2 * k).factorial : ℝ) with hc
  set s := ∑ k ∈ Finset.range n, (-1) ^ k / ((2 * k + 1).factorial : ℝ) with hs
  have e2 : (Real.cos 1 : ℂ) + (Real.sin 1 : ℂ) * Complex.I - ((c : ℂ) + (s : ℂ) * Complex.I) =
      ((Real.cos 1 - c : ℝ) : ℂ) + ((Real.sin 1 - s : ℝ) : ℂ) * Complex.I := by push_cast; ring
  rw [e2] at h
  have hre := Complex.abs_re_le_norm (((Real.cos 1 - c : ℝ) : ℂ) + ((Real.sin 1 - s : ℝ) : ℂ) * Complex.I)
  have him := Complex.abs_im_le_norm (((Real.cos 1 - c : ℝ) : ℂ) + ((Real.sin 1 - s : ℝ) : ℂ) * Complex.I)
  simp only [Complex.add_re, Complex.add_im, Complex.mul_re, Complex.mul_im, Complex.ofReal_re, Complex.ofReal_im, Complex.I_re, Complex.I_im,
    mul_zero, mul_one, sub_zero, zero_add, add_zero] at hre him
  exact ⟨hre.trans h, him.trans h⟩

/-- The unit in which the approximations are counted. -/
def D : Int := 2 ^ 140
/-- The approximations of the sine and the cosine of 1. -/
def U : Int := 1172839376509845809417605432013038880499870
def V : Int := 753071503333996308183797433488632211216931

theorem one_approx : |(D : ℝ) * Real.sin 1 - U| ≤ 2 ∧ |(D : ℝ) * Real.cos 1 - V| ≤ 2 := by
  obtain ⟨h1, h2⟩ := bounds 22 (by omega)
  norm_num [Finset.sum_range_succ, Nat.factorial] at h1 h2
  rw [abs_le] at h1 h2
  unfold D U V
  push_cast
  rw [abs_le, abs_le]
  refine ⟨⟨?_, ?_⟩, ?_, ?_⟩ <;> norm_num <;> linarith

/-- `S` and `C` approximate the sine and cosine of `k` with an error of at most `E`. -/
def Approx (k : Nat) (S C : Int) (E : Nat) : Prop := |(D : ℝ) * Real.sin k - S| ≤ E ∧ |(D : ℝ) * Real.cos k - C| ≤ E

theorem D_pos : (0 : ℝ) < D := by unfold D; norm_num

theorem floor_err (n : Int) : |(n : ℝ) / D - ((n / D : Int) : ℝ)| ≤ 1 := by
  have hD : (0 : Int) < D := by decide
  have h1 := Int.emod_add_mul_ediv n D
  have h2 := Int.emod_nonneg n (ne_of_gt hD)
  have h3 := Int.emod_lt_of_pos n hD
  have e : (n : ℝ) / D - ((n / D : Int) : ℝ) = ((n % D : Int) : ℝ) / D := by
    have : (n : ℝ) = ((n % D : Int) : ℝ) + D * ((n / D : Int) : ℝ) := by exact_mod_cast h1.symm
    have hd := ne_of_gt D_pos
    field_simp
    linarith
  rw [e, abs_of_nonneg (div_nonneg (by exact_mod_cast h2) D_pos.le), div_le_one D_pos]
  exact_mod_cast h3.le

/-- The error of a product. -/
theorem mul_err {x u : ℝ} {S T : Int} {E : Nat} (hx : |x| ≤ D) (h1 : |x - S| ≤ E) (h2 : |u - T| ≤ 2) (hT : |(T : ℝ)| ≤ D) :
    |x * u - S * T| ≤ D * (E + 2) := by
  have e : x * u - S * T = x * (u - T) + T * (x - S) := by ring
  rw [e]
  refine (abs_add_le _ _).trans ?_
  rw [abs_mul, abs_mul]
  have := mul_le_mul hx h2 (abs_nonneg _) D_pos.le
  have := mul_le_mul hT h1 (abs_nonneg _) D_pos.le
  nlinarith

theorem approx_step {k : Nat} {S C : Int} {E : Nat} (h : Approx k S C E) :
    Approx (k + 1) ((S * V + C * U) / D) ((C * V - S * U) / D) (2 * E + 5) := by
  obtain ⟨h1, h2⟩ := h
  obtain ⟨u1, v1⟩ := one_approx
  have hD := D_pos
  have hs : |(D : ℝ) * Real.sin k| ≤ D := by
    rw [abs_mul, abs_of_pos hD]; exact mul_le_of_le_one_right hD.le (Real.abs_sin_le_one _)
  have hc : |(D : ℝ) * Real.cos k| ≤ D := by
    rw [abs_mul, abs_of_pos hD]; exact mul_le_of_le_one_right hD.le (Real.abs_cos_le_one _)
  have hU : |(U : ℝ)| ≤ D := by unfold U D; norm_num [abs_le]
  have hV : |(V : ℝ)| ≤ D := by unfold V D; norm_num [abs_le]
  have a1 := mul_err hs h1 v1 hV
  have a2 := mul_err hc h2 u1 hU
  have a3 := mul_err hc h2 v1 hV
  have a4 := mul_err hs h1 u1 hU
  have key : ∀ {y : ℝ} {n : Int}, |y * D - n| ≤ D * (2 * E + 4) → |y - ((n / D : Int) : ℝ)| ≤ ((2 * E + 5 : Nat) : ℝ) := by
    intro y n hy
    have e : y - ((n / D : Int) : ℝ) = (y * D - n) / D + ((n : ℝ) / D - ((n / D : Int) : ℝ)) := by
      have := ne_of_gt hD
      field_simp
      ring
    rw [e]
    refine (abs_add_le _ _).trans ?_
    have b1 : |(y * D - n) / D| ≤ 2 * E + 4 := by
      rw [abs_div, abs_of_pos hD, div_le_iff₀ hD]; linarith
    have b2 := floor_err n
    push_cast
    linarith
  have ek : ((k + 1 : Nat) : ℝ) = (k : ℝ) + 1 := by push_cast; ring
  constructor
  · rw [ek, Real.sin_add]
    refine key ?_
    have e : (D : ℝ) * (Real.sin k * Real.cos 1 + Real.cos k * Real.sin 1) * D - ((S * V + C * U : Int) : ℝ) =
        ((D : ℝ) * Real.sin k * (D * Real.cos 1) - S * V) + ((D : ℝ) * Real.cos k * (D * Real.sin 1) - C * U) := by
      push_cast; ring
    rw [e]
    refine (abs_add_le _ _).trans ?_
    linarith
  · rw [ek, Real.cos_add]
    refine key ?_
    have e : (D : ℝ) * (Real.cos k * Real.cos 1 - Real.sin k * Real.sin 1) * D - ((C * V - S * U : Int) : ℝ) =
        ((D : ℝ) * Real.cos k * (D * Real.cos 1) - C * V) - ((D : ℝ) * Real.sin k * (D * Real.sin 1) - S * U) := by
      push_cast; ring
    rw [e]
    refine (abs_sub _ _).trans ?_
    linarith

/-- The integer part of `2 ^ 32` times the absolute value follows from an approximation. -/
theorem floor_of_approx {k : Nat} {S C : Int} {E T : Nat} (h : Approx k S C E) (h1 : D * T ≤ 2 ^ 32 * (S.natAbs - E))
    (h2 : 2 ^ 32 * (S.natAbs + E) < D * (T + 1)) : ⌊4294967296 * |Real.sin k|⌋₊ = T := by
  have hD := D_pos
  have a : |(D : ℝ) * |Real.sin k| - (S.natAbs : ℝ)| ≤ E := by
    have e1 : (D : ℝ) * |Real.sin k| = |(D : ℝ) * Real.sin k| := by rw [abs_mul, abs_of_pos hD]
    have e2 : (S.natAbs : ℝ) = |(S : ℝ)| := by rw [Nat.cast_natAbs, Int.cast_abs]
    rw [e1, e2]
    exact (abs_abs_sub_abs_le _ _).trans h.1
  rw [abs_le] at a
  have g1 : (D : ℝ) * T ≤ 2 ^ 32 * (S.natAbs - E) := by exact_mod_cast h1
  have g2 : (2 : ℝ) ^ 32 * (S.natAbs + E) < D * (T + 1) := by
    have := (Int.cast_lt (R := ℝ)).2 h2
    rw [Int.cast_mul, Int.cast_mul, Int.cast_add, Int.cast_add, Int.cast_natCast, Int.cast_natCast, Int.cast_natCast, Int.cast_pow, Int.cast_one] at this
    exact this
  rw [Nat.floor_eq_iff (by positivity)]
  constructor
  · refine le_of_mul_le_mul_left ?_ hD
    linarith [a.1]
  · refine lt_of_mul_lt_mul_left ?_ hD.le
    linarith [a.2]

/-- Checks a table of such integers, of `k + 1` onwards. -/
def check : Nat → Int → Int → Nat → List Nat → Bool
  | _, _, _, _, [] => true
  | k, S, C, E, T :: l =>
    let S' := (S * V + C * U) / D
    let C' := (C * V - S * U) / D
    let E' := 2 * E + 5
    decide (D * T ≤ 2 ^ 32 * (S'.natAbs - E')) && decide (2 ^ 32 * (S'.natAbs + E') < D * (T + 1)) && check (k + 1) S' C' E' l

theorem check_sound : ∀ (l : List Nat) (k : Nat) (S C : Int) (E : Nat), Approx k S C E → check k S C E l = true →
    ∀ i T, l[i]? = some T → ⌊4294967296 * |Real.sin ((k + i + 1 : Nat) : ℝ)|⌋₊ = T
  | [], _, _, _, _, _, _, _, _, h => by simp at h
  | T :: l, k, S, C, E, ha, hc, i, T', hi => by
    simp only [check, Bool.and_eq_true, decide_eq_true_eq] at hc
    obtain ⟨⟨c1, c2⟩, c3⟩ := hc
    have ha' := approx_step ha
    cases i with
    | zero =>
      simp only [List.getElem?_cons_zero, Option.some.injEq] at hi
      subst hi
      exact floor_of_approx ha' (by exact_mod_cast c1) (by exact_mod_cast c2)
    | succ i =>
      rw [List.getElem?_cons_succ] at hi
      have := check_sound l (k + 1) _ _ _ ha' c3 i T' hi
      rwa [show k + (i + 1) + 1 = k + 1 + i + 1 by omega]

theorem zero_approx : Approx 0 0 D 0 := by simp [Approx]

end Kryptos.Sine
