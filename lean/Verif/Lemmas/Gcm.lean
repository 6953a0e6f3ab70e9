import Verif.Model.Gcm
import Verif.Spec.Gcm
import Mathlib.Tactic.IntervalCases
import Mathlib.Tactic.Ring
import Mathlib.Tactic.LinearCombination
import Mathlib.Algebra.CharP.Two
import Mathlib.Algebra.Polynomial.Eval.Defs
/-
  Helper lemmas for GCM.
-/
namespace Kryptos.Gcm

/-- The 128-bit value of four words. -/
def W4.bv (w : W4) : BitVec 128 :=
  (w.w0.setWidth 128 <<< 96) ||| (w.w1.setWidth 128 <<< 64) ||| (w.w2.setWidth 128 <<< 32) |||
    w.w3.setWidth 128

theorem bv_getLsbD (w : W4) (i : Nat) (hi : i < 128) : w.bv.getLsbD i =
    if i < 32 then w.w3.getLsbD i else if i < 64 then w.w2.getLsbD (i - 32)
    else if i < 96 then w.w1.getLsbD (i - 64) else w.w0.getLsbD (i - 96) := by
  simp only [W4.bv, BitVec.getLsbD_or, BitVec.getLsbD_shiftLeft, BitVec.getLsbD_setWidth]
  by_cases h1 : i < 32
  · simp [h1, show i < 64 by omega, show i < 96 by omega, hi]
  by_cases h2 : i < 64
  · simp [h1, h2, show i < 96 by omega, hi]
    rw [BitVec.getLsbD_of_ge w.w3 _ (by omega)]
    simp; omega
  by_cases h3 : i < 96
  · simp [h1, h2, h3, hi, show i - 32 < 128 by omega]
    rw [BitVec.getLsbD_of_ge w.w2 _ (by omega), BitVec.getLsbD_of_ge w.w3 _ (by omega)]
    simp; omega
  · simp [h1, h2, h3, hi, show i - 32 < 128 by omega]
    rw [BitVec.getLsbD_of_ge w.w2 _ (by omega), BitVec.getLsbD_of_ge w.w3 _ (by omega),
      BitVec.getLsbD_of_ge w.w1 _ (by omega)]
    simp; omega

theorem bv_inj (a b : W4) (h : a.bv = b.bv) : a = b := by
  have h' : ∀ i, i < 128 → a.bv.getLsbD i = b.bv.getLsbD i := fun i _ => by rw [h]
  obtain ⟨a0, a1, a2, a3⟩ := a
  obtain ⟨b0, b1, b2, b3⟩ := b
  have e0 : a0 = b0 := by
    apply BitVec.eq_of_getLsbD_eq; intro i hi
    have := h' (i + 96) (by omega)
    simp only [bv_getLsbD _ (i + 96) (by omega)] at this
    simpa [show ¬ i + 96 < 32 by omega, show ¬ i + 96 < 64 by omega] using this
  have e1 : a1 = b1 := by
    apply BitVec.eq_of_getLsbD_eq; intro i hi
    have := h' (i + 64) (by omega)
    simp only [bv_getLsbD _ (i + 64) (by omega)] at this
    simpa [show ¬ i + 64 < 32 by omega, show i + 64 < 96 by omega] using this
  have e2 : a2 = b2 := by
    apply BitVec.eq_of_getLsbD_eq; intro i hi
    have := h' (i + 32) (by omega)
    simp only [bv_getLsbD _ (i + 32) (by omega)] at this
    simpa [show i + 32 < 64 by omega] using this
  have e3 : a3 = b3 := by
    apply BitVec.eq_of_getLsbD_eq; intro i hi
    have := h' i (by omega)
    simp only [bv_getLsbD _ i (by omega)] at this
    simpa [hi] using this
  rw [e0, e1, e2, e3]

theorem bv_xor (a b : W4) : (a.xor b).bv = a.bv ^^^ b.bv := by
  apply BitVec.eq_of_getLsbD_eq
  intro i hi
  rw [BitVec.getLsbD_xor, bv_getLsbD _ _ hi, bv_getLsbD _ _ hi, bv_getLsbD _ _ hi]
  simp only [W4.xor, BitVec.getLsbD_xor]
  split; rfl
  split; rfl
  split <;> rfl

theorem bv_lsh (a : W4) : (lsh128 a).bv = a.bv <<< 1 := by
  apply BitVec.eq_of_getLsbD_eq
  intro i hi
  rw [BitVec.getLsbD_shiftLeft, bv_getLsbD _ _ hi, bv_getLsbD _ _ (by omega)]
  interval_cases i <;> simp [lsh128]

theorem bv_rsh (a : W4) : (rsh128 a).bv = a.bv >>> 1 := by
  apply BitVec.eq_of_getLsbD_eq
  intro i hi
  rw [BitVec.getLsbD_ushiftRight, bv_getLsbD _ _ hi]
  by_cases h : i = 127
  · subst h; simp [rsh128]
  rw [bv_getLsbD _ _ (by omega)]
  interval_cases i <;> first | omega | simp [rsh128]

theorem top_bit (x : W32) : (x >>> 31 ≠ 0#32) ↔ x.getLsbD 31 = true := by
  have : x >>> 31 = if x.getLsbD 31 then 1#32 else 0#32 := by
    apply BitVec.eq_of_getLsbD_eq; intro i hi
    rw [BitVec.getLsbD_ushiftRight]
    rcases Nat.eq_zero_or_pos i with rfl | h
    · cases h : x.getLsbD 31 <;> simp
    · rw [BitVec.getLsbD_of_ge _ _ (by omega)]
      split <;> simp; omega
  rw [this]
  cases x.getLsbD 31 <;> simp

theorem low_bit (x : W32) : (x &&& 1#32 ≠ 0#32) ↔ x.getLsbD 0 = true := by
  have : x &&& 1#32 = if x.getLsbD 0 then 1#32 else 0#32 := by
    apply BitVec.eq_of_getLsbD_eq; intro i hi
    rw [BitVec.getLsbD_and]
    rcases Nat.eq_zero_or_pos i with rfl | h
    · cases h : x.getLsbD 0 <;> simp
    · have : BitVec.getLsbD 1#32 i = false := by simp; omega
      rw [this]
      split <;> simp; omega
  rw [this]
  cases x.getLsbD 0 <;> simp

theorem bv_msb (a : W4) : (a.w0 >>> 31 ≠ 0#32) ↔ a.bv.getMsbD 0 = true := by
  rw [top_bit, BitVec.getMsbD, bv_getLsbD _ _ (by omega)]
  simp

theorem bv_lsb (a : W4) : (a.w3 &&& 1#32 ≠ 0#32) ↔ a.bv.getLsbD 0 = true := by
  rw [low_bit, bv_getLsbD _ _ (by omega)]
  simp

theorem bv_E1 (a : W4) :
    W4.bv { a with w0 := a.w0 ^^^ 0xE1000000#32 } = a.bv ^^^ Spec.Gcm.R := by
  have h : ({ a with w0 := a.w0 ^^^ 0xE1000000#32 } : W4) = a.xor ⟨0xE1000000#32, 0, 0, 0⟩ := by
    simp [W4.xor]
  rw [h, bv_xor]
  rfl

theorem gfMulLoop_eq (X : BitVec 128) : ∀ n k v t zz, t.bv = X <<< k → k + n = 128 →
    (gfMulLoop n v t zz).bv =
      ((List.range' k n).foldl (Spec.Gcm.mulStep X) (zz.bv, v.bv)).1 := by
  intro n
  induction n with
  | zero => intro k v t zz _ _; rfl
  | succ n ih =>
    intro k v t zz ht hk
    rw [gfMulLoop, List.range'_succ, List.foldl_cons]
    have ht' : (lsh128 t).bv = X <<< (k + 1) := by rw [bv_lsh, ht, BitVec.shiftLeft_add]
    simp only []
    rw [ih (k + 1) _ _ _ ht' (by omega)]
    congr 2
    have hb : (t.w0 >>> 31 ≠ 0#32) ↔ X.getMsbD k = true := by
      rw [bv_msb, ht, BitVec.getMsbD_shiftLeft]; simp
    unfold Spec.Gcm.mulStep
    refine Prod.ext ?_ ?_
    · simp only []
      split
      · rename_i h; rw [if_pos (hb.mp h), bv_xor]
      · rename_i h; rw [if_neg (fun h2 => h (hb.mpr h2))]
    · simp only []
      split
      · rename_i h; rw [if_pos ((bv_lsb v).mp h), bv_E1, bv_rsh]
      · rename_i h; rw [if_neg (fun h2 => h ((bv_lsb v).mpr h2)), bv_rsh]

/-- The C multiplication is Algorithm 1. -/
theorem gfMul_eq (x y : W4) : (gfMul x y).bv = Spec.Gcm.mul x.bv y.bv := by
  rw [gfMul, gfMulLoop_eq x.bv 128 0 y x _ (by simp) rfl, Spec.Gcm.mul, List.range_eq_range']
  rfl

open Polynomial in
theorem two_zero : (2 : (ZMod 2)[X]) = 0 := by
  have h : (2 : ZMod 2) = 0 := rfl
  have := congrArg (C : ZMod 2 →+* (ZMod 2)[X]) h
  rwa [map_ofNat, map_zero] at this

open Polynomial in
theorem poly_xor (a b : BitVec 128) :
    Spec.Gcm.poly (a ^^^ b) = Spec.Gcm.poly a + Spec.Gcm.poly b := by
  unfold Spec.Gcm.poly
  rw [← Finset.sum_add_distrib]
  apply Finset.sum_congr rfl
  intro i _
  rw [BitVec.getMsbD_xor]
  cases a.getMsbD i <;> cases b.getMsbD i <;> simp
  linear_combination (-(X : (ZMod 2)[X]) ^ i) * two_zero

open Polynomial in
theorem poly_R : Spec.Gcm.poly Spec.Gcm.R = X ^ 7 + X ^ 2 + X + 1 := by
  unfold Spec.Gcm.poly
  rw [← Finset.sum_filter]
  have : (Finset.range 128).filter (fun i => Spec.Gcm.R.getMsbD i = true) = {0, 1, 2, 7} := by
    decide +kernel
  rw [this]
  simp
  ring

open Polynomial in
theorem poly_shift (v : BitVec 128) (y : (ZMod 2)[X]) (hy : X * X ^ 127 = y) :
    X * Spec.Gcm.poly v = Spec.Gcm.poly (v >>> 1) + (if v.getLsbD 0 then y else 0) := by
  unfold Spec.Gcm.poly
  rw [Finset.mul_sum, Finset.sum_range_succ, Finset.sum_range_succ' _ 127]
  have h : v.getMsbD 127 = v.getLsbD 0 := by simp [BitVec.getMsbD]
  rw [h]
  have : ∀ i ∈ Finset.range 127, (X * if v.getMsbD i then X ^ i else (0 : (ZMod 2)[X])) =
      if (v >>> 1).getMsbD (i + 1) then X ^ (i + 1) else 0 := by
    intro i hi
    have hi := Finset.mem_range.mp hi
    have e : (v >>> 1).getMsbD (i + 1) = v.getMsbD i := by
      rw [BitVec.getMsbD_ushiftRight]; simp; omega
    rw [e]
    split <;> simp [pow_succ']
  rw [Finset.sum_congr rfl this]
  have e0 : (v >>> 1).getMsbD 0 = false := by rw [BitVec.getMsbD_ushiftRight]; simp
  rw [e0]
  split <;> simp [hy]

open Polynomial in
theorem poly_step_aux (a y m : (ZMod 2)[X]) (h : m = y + X ^ 7 + X ^ 2 + X + 1) :
    a + y = 1 * m + (a + (X ^ 7 + X ^ 2 + X + 1)) := by
  linear_combination (-(X ^ 7) - X ^ 2 - X - 1) * two_zero - h

open Polynomial in
theorem mul_pow_aux (x : (ZMod 2)[X]) (n k : Nat) (h : n + 1 = k) : x * x ^ n = x ^ k := by
  rw [← h, pow_succ']

open Polynomial in
theorem modulus_eq : Spec.Gcm.modulus = X ^ 128 + X ^ 7 + X ^ 2 + X + 1 := by
  unfold Spec.Gcm.modulus; with_reducible rfl

open Polynomial in
theorem x127 : (X : (ZMod 2)[X]) * X ^ 127 = X ^ 128 := mul_pow_aux X 127 128 rfl

open Polynomial in
theorem modulus_split : ∃ y : (ZMod 2)[X], X * X ^ 127 = y ∧
    Spec.Gcm.modulus = y + X ^ 7 + X ^ 2 + X + 1 :=
  ⟨X ^ 128, x127, modulus_eq⟩

open Polynomial in
/-- Multiplying the running value by x, modulo the field polynomial. -/
theorem poly_step (v : BitVec 128) : ∃ q, X * Spec.Gcm.poly v =
    q * Spec.Gcm.modulus +
      Spec.Gcm.poly (if v.getLsbD 0 then (v >>> 1) ^^^ Spec.Gcm.R else v >>> 1) := by
  obtain ⟨y, hy, hm⟩ := modulus_split
  rw [poly_shift v y hy]
  generalize Spec.Gcm.modulus = m at *
  rcases Bool.eq_false_or_eq_true (v.getLsbD 0) with h | h
  · refine ⟨1, ?_⟩
    simp only [h, if_true]
    rw [poly_xor, poly_R]
    exact poly_step_aux _ _ _ hm
  · refine ⟨0, ?_⟩
    simp only [h, Bool.false_eq_true, if_false, zero_mul, add_zero, zero_add]

open Polynomial in
theorem mul_loop_poly (x : BitVec 128) : ∀ n k Z V, k + n = 128 → ∃ q,
    (∑ i ∈ Finset.range n, if x.getMsbD (k + i) then X ^ i else (0 : (ZMod 2)[X])) *
      Spec.Gcm.poly V + Spec.Gcm.poly Z = q * Spec.Gcm.modulus +
      Spec.Gcm.poly (((List.range' k n).foldl (Spec.Gcm.mulStep x) (Z, V)).1) := by
  intro n
  induction n with
  | zero => intro k Z V _; exact ⟨0, by simp⟩
  | succ n ih =>
    intro k Z V hk
    rw [List.range'_succ, List.foldl_cons]
    obtain ⟨q, hq⟩ := ih (k + 1) (Spec.Gcm.mulStep x (Z, V) k).1 (Spec.Gcm.mulStep x (Z, V) k).2
      (by omega)
    obtain ⟨r, hr⟩ := poly_step V
    have hV : (Spec.Gcm.mulStep x (Z, V) k).2 =
      (if V.getLsbD 0 then (V >>> 1) ^^^ Spec.Gcm.R else V >>> 1) := rfl
    have hZ : Spec.Gcm.poly (Spec.Gcm.mulStep x (Z, V) k).1 =
        Spec.Gcm.poly Z + if x.getMsbD k then Spec.Gcm.poly V else 0 := by
      simp only [Spec.Gcm.mulStep]
      split
      · rw [poly_xor]
      · simp
    rw [← hV] at hr
    rw [hZ] at hq
    rw [Finset.sum_range_succ']
    have hs : ∀ i ∈ Finset.range n, (if x.getMsbD (k + (i + 1)) then X ^ (i + 1)
        else (0 : (ZMod 2)[X])) = X * (if x.getMsbD (k + 1 + i) then X ^ i else 0) := by
      intro i _
      rw [show k + (i + 1) = k + 1 + i by omega]
      split <;> simp [pow_succ']
    rw [Finset.sum_congr rfl hs, ← Finset.mul_sum]
    refine ⟨q + (∑ i ∈ Finset.range n, if x.getMsbD (k + 1 + i) then X ^ i else 0) * r, ?_⟩
    have e : (if x.getMsbD (k + 0) then X ^ 0 else (0 : (ZMod 2)[X])) * Spec.Gcm.poly V =
        if x.getMsbD k then Spec.Gcm.poly V else 0 := by
      rw [Nat.add_zero]; split <;> simp
    linear_combination hq + e +
      (∑ i ∈ Finset.range n, if x.getMsbD (k + 1 + i) then X ^ i else 0) * hr

/-- Algorithm 1 multiplies the represented polynomials modulo the field polynomial. -/
theorem mul_poly (x y : BitVec 128) : ∃ q,
    Spec.Gcm.poly x * Spec.Gcm.poly y = q * Spec.Gcm.modulus +
      Spec.Gcm.poly (Spec.Gcm.mul x y) := by
  obtain ⟨q, hq⟩ := mul_loop_poly x 128 0 0 y rfl
  refine ⟨q, ?_⟩
  rw [Spec.Gcm.mul, List.range_eq_range', ← hq]
  have : Spec.Gcm.poly 0 = 0 := by simp [Spec.Gcm.poly]
  rw [this, add_zero]
  simp only [Nat.zero_add, Spec.Gcm.poly]

end Kryptos.Gcm
