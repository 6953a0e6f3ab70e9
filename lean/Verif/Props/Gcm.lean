import Verif.Lemmas.GcmBytes
import Verif.Model.BlockTask
import Verif.Props.BlockModes
/-
  GCM: C14 (acceptance), C15 (GHASH), C09 (length).
-/
namespace Kryptos.Gcm
open Kryptos.Block

/-! ### C15: GHASH -/

/-- C15, multiplication.  The C multiplication computes the product of the two represented
polynomials over GF(2) modulo x^128 + x^7 + x^2 + x + 1. -/
theorem gf_mul_is_field_multiplication (x y : W4) : ∃ q,
    Spec.Gcm.poly x.bv * Spec.Gcm.poly y.bv =
      q * Spec.Gcm.modulus + Spec.Gcm.poly (gfMul x y).bv := by
  rw [gfMul_eq]; exact mul_poly _ _

/-- C15.  The GHASH of the library is that of SP 800-38D.  Missing for the full claim: additional
data or ciphertext of 2^21 bytes (2 MiB) and more (precisely: bit length with one of the bits 24
to 31 set), for which the claim is false, see `ghash_wrong_for_large_data`. -/
theorem ghash_is_standard_partial (h a c : Bytes) (hh : h.length = 16)
    (ha : 8 * a.length < 2 ^ 64) (hc : 8 * c.length < 2 ^ 64)
    (ha' : 8 * a.length % 2 ^ 32 < 2 ^ 24) (hc' : 8 * c.length % 2 ^ 32 < 2 ^ 24) :
    ghash h a c = .ok (Spec.Gcm.bytes (Spec.Gcm.S (Spec.Gcm.block h) a c)) := by
  obtain ⟨H, hH, hHb⟩ := loadBlock_take h (by omega)
  obtain ⟨A, hA, hAb⟩ := loadBlocks_pad a
  obtain ⟨C, hC, hCb⟩ := loadBlocks_pad c
  have hA' : loadAad a = .ok A := by
    unfold loadAad
    split
    · exact hA
    · have : a = [] := List.length_eq_zero_iff.mp (by omega)
      subst this
      have : pad16 [] = [] := rfl
      rw [this, loadBlocks_nil] at hA
      exact hA
  have ht : h.take 16 = h := List.take_of_length_le (by omega)
  rw [ht] at hHb
  unfold ghash
  rw [hH, hC]
  simp only [hA', Out.bind_ok, Out.pure_eq]
  rw [put_bytes, ghashLoop_eq, Spec.Gcm.S, Spec.Gcm.ghash, hHb, List.map_append, List.map_append,
    hAb, hCb, List.map_cons, List.map_nil, lenBlock_eq a c ha hc ha' hc']
  rfl

/-- The hypotheses are met. -/
example : ghash (List.replicate 16 7#8) [1, 2, 3] [4, 5] = .ok (Spec.Gcm.bytes
    (Spec.Gcm.S (Spec.Gcm.block (List.replicate 16 7#8)) [1, 2, 3] [4, 5])) :=
  ghash_is_standard_partial _ _ _ (by simp) (by simp) (by simp) (by simp) (by simp)

theorem mul_one_loop (x : BitVec 128) : ∀ n k Z V, k + n = 128 →
    (k < 128 → ∀ j, j < 128 → V.getMsbD j = decide (j = k)) →
    (∀ j, j < 128 → Z.getMsbD j = (decide (j < k) && x.getMsbD j)) →
    ((List.range' k n).foldl (Spec.Gcm.mulStep x) (Z, V)).1 = x := by
  intro n
  induction n with
  | zero =>
    intro k Z V hk _ hZ
    apply BitVec.eq_of_getMsbD_eq
    intro j hj
    rw [List.range'_zero, List.foldl_nil, hZ j hj]
    simp; omega
  | succ n ih =>
    intro k Z V hk hV hZ
    have hV := hV (by omega)
    rw [List.range'_succ, List.foldl_cons]
    apply ih (k + 1) _ _ (by omega)
    · intro hk1 j hj
      have h0 : V.getLsbD 0 = V.getMsbD 127 := by simp [BitVec.getMsbD]
      have h1 := hV 127 (by omega)
      have hshift : (V >>> 1).getMsbD j = decide (j = k + 1) := by
        rw [BitVec.getMsbD_ushiftRight]
        by_cases hj0 : j < 1
        · simp [hj0]; omega
        · have := hV (j - 1) (by omega)
          simp only [hj, decide_true, Bool.true_and]
          rw [this]
          simp [hj0]; omega
      have : decide (127 = k) = false := by simp; omega
      simp only [h0, h1, this, Bool.false_eq_true, if_false]; exact hshift
    · intro j hj
      have hne : j ≠ k → decide (j < k + 1) = decide (j < k) := by intro h; simp; omega
      simp only []
      split
      · rename_i hx
        rw [BitVec.getMsbD_xor, hZ j hj, hV j hj]
        by_cases hjk : j = k
        · subst hjk; simp [hx]
        · rw [hne hjk]; simp [hjk]
      · rename_i hx
        rw [hZ j hj]
        by_cases hjk : j = k
        · subst hjk; simp [hx]
        · rw [hne hjk]

/-- The block 1 0^127. -/
def one : BitVec 128 := 0x80000000000000000000000000000000#128

/-- The block 1 0^127 is the neutral element of the multiplication. -/
theorem mul_one (x : BitVec 128) : Spec.Gcm.mul x one = x := by
  rw [Spec.Gcm.mul, List.range_eq_range']
  apply mul_one_loop x 128 0 0 one rfl
  · intro _ j hj
    have : ∀ j : Fin 128, one.getMsbD j = decide (j.val = 0) := by decide +kernel
    exact this ⟨j, hj⟩
  · intro j hj; simp

/-- Two different words in one of the positions make different 128-bit values. -/
theorem S_last (H : BitVec 128) (xs : List (BitVec 128)) (l : BitVec 128) :
    Spec.Gcm.ghash H (xs ++ [l]) = Spec.Gcm.mul (Spec.Gcm.ghash H xs ^^^ l) H := by
  simp [Spec.Gcm.ghash]

/-- C15 is false for large data: with hash key 1 0^127 and any ciphertext of 2^21 bytes, the
GHASH of the library differs from the standard one (the length is masked with 0xFFFFFF). -/
theorem ghash_wrong_for_large_data (c : Bytes) (hlen : c.length = 2 ^ 21) :
    ∃ r, ghash (0x80#8 :: List.replicate 15 0#8) [] c = .ok r ∧
      r ≠ Spec.Gcm.bytes
        (Spec.Gcm.S (Spec.Gcm.block (0x80#8 :: List.replicate 15 0#8)) [] c) := by
  generalize hh : 0x80#8 :: List.replicate 15 0#8 = h
  have hb : Spec.Gcm.block h = one := by rw [← hh]; rfl
  have ht : h.take 16 = h := by rw [← hh]; rfl
  obtain ⟨H, hH, hHb⟩ := loadBlock_take h (by rw [← hh]; simp)
  obtain ⟨C, hC, hCb⟩ := loadBlocks_pad c
  have hone : H.bv = one := by rw [hHb, ht, hb]
  refine ⟨Spec.Gcm.bytes (ghashLoop H ⟨0, 0, 0, 0⟩ (C ++ [lenBlock 0 (2 ^ 21)])).bv, ?_, ?_⟩
  · unfold ghash
    rw [hH, hC]
    have : loadAad [] = .ok [] := rfl
    simp only [this, Out.bind_ok, Out.pure_eq]
    rw [put_bytes, hlen]
    rfl
  · intro heq
    have heq := congrArg Spec.Gcm.block heq
    rw [block_bytes, block_bytes, ghashLoop_eq, hone] at heq
    rw [hb, Spec.Gcm.S, S_last, mul_one, List.map_append, List.foldl_append] at heq
    simp only [List.map_cons, List.map_nil, List.foldl_cons, List.foldl_nil, mul_one, hCb,
      blocks_nil, List.nil_append] at heq
    have hz : W4.bv ⟨0, 0, 0, 0⟩ = 0 := by decide
    rw [hz, Spec.Gcm.ghash] at heq
    simp only [mul_one] at heq
    have h2 : (lenBlock 0 (2 ^ 21)).bv = Spec.Gcm.lengths [] c := by
      have h3 := congrArg (fun z => List.foldl (fun y x => y ^^^ x) 0 (Spec.Gcm.blocks c) ^^^ z) heq
      simpa [← BitVec.xor_assoc] using h3
    have h4 : Spec.Gcm.lengths [] c = 0x1000000#128 := by
      simp only [Spec.Gcm.lengths, hlen, List.length_nil]
      decide +kernel
    rw [h4] at h2
    exact absurd h2 (by decide +kernel)

/-- There are such ciphertexts. -/
example : ∃ c : Bytes, c.length = 2 ^ 21 := ⟨List.replicate (2 ^ 21) 0#8, List.length_replicate⟩

end Kryptos.Gcm
