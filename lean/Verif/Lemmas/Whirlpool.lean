import Verif.Model.Whirlpool
import Verif.Spec.Whirlpool
import Verif.Lemmas.Tiger
import Mathlib.Tactic.FinCases
/- The words of the code and the matrices of the publication. -/
namespace Kryptos.Whirlpool
open Spec Spec.MD Hash
open Spec.Whirlpool (Mat gamma pi cir theta sigma rho sbox mul)

/-- The word of a row, at the width that its concatenations have. -/
def row' (b : Fin 8 → Byte) : BitVec (8 + 8 + 8 + 8 + 8 + 8 + 8 + 8) := b 0 ++ b 1 ++ b 2 ++ b 3 ++ b 4 ++ b 5 ++ b 6 ++ b 7
/-- The word of a row. -/
def row (b : Fin 8 → Byte) : W64 := row' b

theorem row'_xor (b c : Fin 8 → Byte) : row' b ^^^ row' c = row' fun j => b j ^^^ c j := by
  unfold row'
  simp only [BitVec.xor_append]

theorem row_xor (b c : Fin 8 → Byte) : row b ^^^ row c = row fun j => b j ^^^ c j := row'_xor b c

theorem row_bit (b : Fin 8 → Byte) (i : Nat) (j : Fin 8) (hi : i < 8) : (row b).getLsbD (56 - 8 * j.val + i) = (b j).getLsbD i := by
  show (row' b).getLsbD _ = _
  unfold row'
  simp only [BitVec.getLsbD_append]
  fin_cases j <;> interval_cases i <;> rfl

theorem row_byte (b : Fin 8 → Byte) (j : Fin 8) : ((row b) >>> (56 - 8 * j.val)).setWidth 8 = b j := by
  apply BitVec.eq_of_getLsbD_eq
  intro i hi
  rw [BitVec.getLsbD_setWidth, BitVec.getLsbD_ushiftRight, row_bit _ _ _ hi]
  simp [hi]

theorem byte_row (w : W64) : (row fun j => (w >>> (56 - 8 * j.val)).setWidth 8) = w := by
  apply BitVec.eq_of_getLsbD_eq
  intro i hi
  have h := row_bit (fun j => (w >>> (56 - 8 * j.val)).setWidth 8) (i % 8) ⟨7 - i / 8, by omega⟩ (Nat.mod_lt _ (by omega))
  simp only [BitVec.getLsbD_setWidth, BitVec.getLsbD_ushiftRight] at h
  rw [show 56 - 8 * (7 - i / 8) + i % 8 = i by omega] at h
  rw [h]
  simp [Nat.mod_lt]

/-- The tables: column `c` of the matrix of θ after the S-box. -/
def T (c : Fin 8) (x : Nat) : W64 := row fun j => mul (sbox x) (cir (j - c))

theorem C0_eq : C0 = (List.range 256).map (T 0) := by decide +kernel
theorem row_rotate (b : Fin 8 → Byte) (c : Fin 8) : (row fun j => b (j - c)) = (row b).rotateRight (8 * c.val) := by
  apply BitVec.eq_of_getLsbD_eq
  intro i hi
  have h := row_bit (fun j => b (j - c)) (i % 8) ⟨7 - i / 8, by omega⟩ (Nat.mod_lt _ (by omega))
  have h' := row_bit b (i % 8) (⟨7 - i / 8, by omega⟩ - c) (Nat.mod_lt _ (by omega))
  have e : 56 - 8 * (7 - i / 8) + i % 8 = i := by omega
  simp only [e] at h
  rw [h, ← h', BitVec.getLsbD_rotateRight]
  have hc := c.isLt
  have hv : ((⟨7 - i / 8, by omega⟩ - c : Fin 8)).val = (8 - c.val + (7 - i / 8)) % 8 := by rw [Fin.sub_def]
  rw [hv, Bool.cond_decide]
  split
  · congr 1; omega
  · rw [decide_eq_true hi, Bool.true_and]; congr 1; omega

theorem T_rotate (c : Fin 8) (x : Nat) : T c x = (T 0 x).rotateRight (8 * c.val) := by
  unfold T
  rw [← row_rotate]
  simp

theorem C1_eq : C1 = (List.range 256).map (T 1) := by
  have h : C1 = C0.map (·.rotateRight 8) := by decide +kernel
  rw [h, C0_eq, List.map_map]
  exact List.map_congr_left fun x _ => (T_rotate 1 x).symm
theorem C2_eq : C2 = (List.range 256).map (T 2) := by
  have h : C2 = C0.map (·.rotateRight 16) := by decide +kernel
  rw [h, C0_eq, List.map_map]
  exact List.map_congr_left fun x _ => (T_rotate 2 x).symm
theorem C3_eq : C3 = (List.range 256).map (T 3) := by
  have h : C3 = C0.map (·.rotateRight 24) := by decide +kernel
  rw [h, C0_eq, List.map_map]
  exact List.map_congr_left fun x _ => (T_rotate 3 x).symm
theorem C4_eq : C4 = (List.range 256).map (T 4) := by
  have h : C4 = C0.map (·.rotateRight 32) := by decide +kernel
  rw [h, C0_eq, List.map_map]
  exact List.map_congr_left fun x _ => (T_rotate 4 x).symm
theorem C5_eq : C5 = (List.range 256).map (T 5) := by
  have h : C5 = C0.map (·.rotateRight 40) := by decide +kernel
  rw [h, C0_eq, List.map_map]
  exact List.map_congr_left fun x _ => (T_rotate 5 x).symm
theorem C6_eq : C6 = (List.range 256).map (T 6) := by
  have h : C6 = C0.map (·.rotateRight 48) := by decide +kernel
  rw [h, C0_eq, List.map_map]
  exact List.map_congr_left fun x _ => (T_rotate 6 x).symm
theorem C7_eq : C7 = (List.range 256).map (T 7) := by
  have h : C7 = C0.map (·.rotateRight 56) := by decide +kernel
  rw [h, C0_eq, List.map_map]
  exact List.map_congr_left fun x _ => (T_rotate 7 x).symm
theorem RC_eq : RC = (List.range 10).map fun r => row (Spec.Whirlpool.rc r 0) := by decide +kernel

attribute [local irreducible] C0 C1 C2 C3 C4 C5 C6 C7 T

/-- The words of a matrix. -/
def ofMat (M : Mat) : Eight 64 := ⟨row (M 0), row (M 1), row (M 2), row (M 3), row (M 4), row (M 5), row (M 6), row (M 7)⟩
/-- The matrix of words. -/
def toMat (s : Eight 64) : Mat := fun i j => ((s.words.getD i.val 0) >>> (56 - 8 * j.val)).setWidth 8

theorem ofMat_toMat (s : Eight 64) : ofMat (toMat s) = s := by
  unfold ofMat toMat
  simp only [byte_row]
  rfl

theorem ofMat_get (M : Mat) (i : Fin 8) : (ofMat M).words[i.val]? = some (row (M i)) := by fin_cases i <;> rfl

theorem toMat_ofMat (M : Mat) : toMat (ofMat M) = M := by
  funext i j
  unfold toMat
  rw [List.getD_eq_getElem?_getD, ofMat_get]
  exact row_byte _ _

theorem look_eq (C : List W64) (c : Fin 8) (hC : C = (List.range 256).map (T c)) (M : Mat) (k : Fin 8) :
    look C k.val (56 - 8 * c.val) (ofMat M).words = .ok (T c (M k c).toNat) := by
  unfold look rd
  rw [ofMat_get]
  simp only [Out.ofOption, Out.bind_ok]
  have e : (row (M k) >>> (56 - 8 * c.val) &&& 255#64).toNat = (M k c).toNat := by
    rw [← row_byte (M k) c, BitVec.toNat_and, BitVec.toNat_setWidth]
    exact Nat.and_two_pow_sub_one_eq_mod _ 8
  rw [e, hC, List.getElem?_map, List.getElem?_range (M k c).isLt]
  rfl

theorem sum8_eq (M : Mat) (i : Fin 8) : sum8 (ofMat M).words i.val (i - 1).val (i - 2).val (i - 3).val (i - 4).val (i - 5).val (i - 6).val (i - 7).val =
    .ok (row (theta (pi (gamma M)) i)) := by
  have l0 := look_eq C0 0 C0_eq M i
  have l1 := look_eq C1 1 C1_eq M (i - 1)
  have l2 := look_eq C2 2 C2_eq M (i - 2)
  have l3 := look_eq C3 3 C3_eq M (i - 3)
  have l4 := look_eq C4 4 C4_eq M (i - 4)
  have l5 := look_eq C5 5 C5_eq M (i - 5)
  have l6 := look_eq C6 6 C6_eq M (i - 6)
  have l7 := look_eq C7 7 C7_eq M (i - 7)
  simp only [show 56 - 8 * (0 : Fin 8).val = 56 from rfl, show 56 - 8 * (1 : Fin 8).val = 48 from rfl, show 56 - 8 * (2 : Fin 8).val = 40 from rfl,
    show 56 - 8 * (3 : Fin 8).val = 32 from rfl, show 56 - 8 * (4 : Fin 8).val = 24 from rfl, show 56 - 8 * (5 : Fin 8).val = 16 from rfl,
    show 56 - 8 * (6 : Fin 8).val = 8 from rfl, show 56 - 8 * (7 : Fin 8).val = 0 from rfl] at l0 l1 l2 l3 l4 l5 l6 l7
  unfold sum8
  rw [l0, l1, l2, l3, l4, l5, l6, l7]
  simp only [Out.bind_ok, Out.pure_eq]
  unfold T
  simp only [row_xor]
  congr 2
  funext j
  show _ = (List.finRange 8).foldl _ 0
  rw [show List.finRange 8 = [0, 1, 2, 3, 4, 5, 6, 7] from rfl]
  simp only [List.foldl_cons, List.foldl_nil, pi, gamma, sub_zero]
  rw [show (0 : Byte) = 0#8 from rfl, BitVec.zero_xor]

theorem lk_eq (M N : Mat) (w : W64) (h0 : row (N 0) = w) (h : ∀ i, i ≠ 0 → N i = fun _ => 0) :
    lk (ofMat M).words w = .ok (ofMat (rho N M)).words := by
  unfold lk
  have s0 := sum8_eq M 0
  have s1 := sum8_eq M 1
  have s2 := sum8_eq M 2
  have s3 := sum8_eq M 3
  have s4 := sum8_eq M 4
  have s5 := sum8_eq M 5
  have s6 := sum8_eq M 6
  have s7 := sum8_eq M 7
  rw [show sum8 (ofMat M).words 0 7 6 5 4 3 2 1 = _ from s0, show sum8 (ofMat M).words 1 0 7 6 5 4 3 2 = _ from s1,
    show sum8 (ofMat M).words 2 1 0 7 6 5 4 3 = _ from s2, show sum8 (ofMat M).words 3 2 1 0 7 6 5 4 = _ from s3,
    show sum8 (ofMat M).words 4 3 2 1 0 7 6 5 = _ from s4, show sum8 (ofMat M).words 5 4 3 2 1 0 7 6 = _ from s5,
    show sum8 (ofMat M).words 6 5 4 3 2 1 0 7 = _ from s6, show sum8 (ofMat M).words 7 6 5 4 3 2 1 0 = _ from s7]
  simp only [Out.bind_ok, Out.pure_eq]
  congr 1
  unfold ofMat Eight.words rho sigma
  generalize theta (pi (gamma M)) = X
  simp only [← row_xor, h0]
  have z : ∀ i, i ≠ 0 → row (X i) ^^^ row (N i) = row (X i) := by
    intro i hi
    rw [row_xor, h i hi]
    simp
  rw [z 1 (by decide), z 2 (by decide), z 3 (by decide), z 4 (by decide), z 5 (by decide), z 6 (by decide), z 7 (by decide)]

theorem lsum_eq (M N : Mat) : lsum (ofMat M).words (ofMat N).words = .ok (ofMat (rho N M)).words := by
  unfold lsum
  have s0 := sum8_eq M 0
  have s1 := sum8_eq M 1
  have s2 := sum8_eq M 2
  have s3 := sum8_eq M 3
  have s4 := sum8_eq M 4
  have s5 := sum8_eq M 5
  have s6 := sum8_eq M 6
  have s7 := sum8_eq M 7
  rw [show sum8 (ofMat M).words 0 7 6 5 4 3 2 1 = _ from s0, show sum8 (ofMat M).words 1 0 7 6 5 4 3 2 = _ from s1,
    show sum8 (ofMat M).words 2 1 0 7 6 5 4 3 = _ from s2, show sum8 (ofMat M).words 3 2 1 0 7 6 5 4 = _ from s3,
    show sum8 (ofMat M).words 4 3 2 1 0 7 6 5 = _ from s4, show sum8 (ofMat M).words 5 4 3 2 1 0 7 6 = _ from s5,
    show sum8 (ofMat M).words 6 5 4 3 2 1 0 7 = _ from s6, show sum8 (ofMat M).words 7 6 5 4 3 2 1 0 = _ from s7]
  have r : ∀ i : Fin 8, rd (ofMat N).words i.val = .ok (row (N i)) := by
    intro i
    unfold rd
    rw [ofMat_get]
    rfl
  rw [show rd (ofMat N).words 0 = _ from r 0, show rd (ofMat N).words 1 = _ from r 1, show rd (ofMat N).words 2 = _ from r 2,
    show rd (ofMat N).words 3 = _ from r 3, show rd (ofMat N).words 4 = _ from r 4, show rd (ofMat N).words 5 = _ from r 5,
    show rd (ofMat N).words 6 = _ from r 6, show rd (ofMat N).words 7 = _ from r 7]
  simp only [Out.bind_ok, Out.pure_eq]
  congr 1
  unfold ofMat Eight.words rho sigma
  generalize theta (pi (gamma M)) = X
  simp only [← row_xor]

theorem round_eq (M N : Mat) (r : Nat) (hr : r < 10) : round ((ofMat M).words, (ofMat N).words) r =
    .ok ((ofMat (rho (rho (Spec.Whirlpool.rc r) N) M)).words, (ofMat (rho (Spec.Whirlpool.rc r) N)).words) := by
  unfold round
  have h : rd RC r = .ok (row (Spec.Whirlpool.rc r 0)) := by
    unfold rd
    rw [RC_eq, List.getElem?_map, List.getElem?_range hr]
    rfl
  rw [h]
  simp only [Out.bind_ok]
  rw [lk_eq N (Spec.Whirlpool.rc r) _ rfl (by intro i hi; funext j; simp [Spec.Whirlpool.rc, hi])]
  simp only [Out.bind_ok]
  rw [lsum_eq]
  rfl

theorem rounds_eq (N : Mat) : ∀ n, n ≤ 10 → ∀ M, (List.range n).foldlM round ((ofMat M).words, (ofMat N).words) =
    .ok ((ofMat ((List.range n).foldl (fun S r => rho (Spec.Whirlpool.key N (r + 1)) S) M)).words, (ofMat (Spec.Whirlpool.key N n)).words) := by
  intro n
  induction n with
  | zero => intro _ M; rfl
  | succ n ih =>
    intro hn M
    rw [List.range_succ, List.foldlM_append, ih (by omega), Out.bind_ok, List.foldl_append]
    show (round _ n >>= fun s => pure s) = _
    rw [round_eq _ _ _ (by omega)]
    rfl

theorem xor8_eq (M N : Mat) : xor8 (ofMat M).words (ofMat N).words = .ok (ofMat (sigma N M)).words := by
  unfold xor8 ofMat Eight.words sigma
  simp only [List.length_cons, List.length_nil, List.zipWith_cons_cons, List.zipWith_nil_left, row_xor]
  rfl

theorem bytes_row (b : Fin 8 → Byte) : cpyBe 8 (row b) = (List.finRange 8).map b := by
  unfold cpyBe
  have h : ∀ j : Fin 8, (row b >>> (8 * (8 - 1 - j.val))).setWidth 8 = b j := by
    intro j
    rw [← row_byte b j, show 8 * (8 - 1 - j.val) = 56 - 8 * j.val by omega]
  have e : List.range 8 = (List.finRange 8).map Fin.val := rfl
  rw [e, List.map_map]
  exact List.map_congr_left fun j _ => h j

theorem row_beNat (b : Fin 8 → Byte) : BitVec.ofNat 64 (beNat ((List.finRange 8).map b)) = row b := by
  rw [← bytes_row, cpyBe_eq, beNat_be]
  apply BitVec.eq_of_toNat_eq
  have := (row b).isLt
  rw [BitVec.toNat_ofNat]
  omega

theorem block_eq (blk : Bytes) (h : blk.length = 64) : ws 64 8 8 blk = (ofMat (Spec.Whirlpool.mat blk)).words := by
  apply List.ext_getElem?
  intro i
  by_cases hi : i < 8
  · rw [ws_get _ _ _ _ _ hi, ofMat_get _ ⟨i, hi⟩]
    rw [← row_beNat]
    congr 3
    apply List.ext_getElem
    · simp; omega
    · intro j h1 h2
      simp only [List.length_map, List.length_finRange] at h2
      have hl : i * 8 + j < blk.length := by omega
      simp [Spec.Whirlpool.mat, hl, Nat.mul_comm]
  · rw [List.getElem?_eq_none (by rw [ws_length]; omega), List.getElem?_eq_none (by show 8 ≤ i; omega)]

theorem compress_eq (s : Eight 64) (blk : Bytes) (h : blk.length = 64) :
    compress s (ws 64 8 8 blk) = .ok (ofMat (Spec.Whirlpool.compress (toMat s) blk)) := by
  unfold compress
  rw [block_eq blk h]
  generalize hM : toMat s = N
  have hs : s = ofMat N := by rw [← hM, ofMat_toMat]
  rw [hs, xor8_eq, Out.bind_ok, rounds_eq N 10 (by omega)]
  simp only [Out.bind_ok]
  rw [xor8_eq, Out.bind_ok, xor8_eq, Out.bind_ok]
  unfold Spec.Whirlpool.compress Spec.Whirlpool.W
  generalize (List.range 10).foldl _ _ = X
  show Out.ok (ofMat _) = _
  congr 2
  funext i j
  simp only [sigma]
  ac_rfl

end Kryptos.Whirlpool
