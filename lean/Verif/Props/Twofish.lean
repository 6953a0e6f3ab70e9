import Verif.Model.Twofish
import Verif.Spec.Twofish
import Verif.Props.Mars
import Verif.Lemmas.Aes
/-
  Twofish: the tables and circuits compute the published functions, and the block functions compute the published cipher and undo each other, for
  all keys, whatever the uninitialised variables hold.
-/
namespace Kryptos.Twofish
open Block KeyLoad Mars
open Spec.Twofish (mul vMds vRs stage matrix word bytes)

/-! ## Tables -/

theorem q0_val (x : Byte) : qVal q0lt x = .ok ((Spec.Twofish.q0 x).setWidth 32) := by
  revert x; exact Aes.forall_byte (by decide +kernel)
theorem q1_val (x : Byte) : qVal q1lt x = .ok ((Spec.Twofish.q1 x).setWidth 32) := by
  revert x; exact Aes.forall_byte (by decide +kernel)

/-- The tables of the other build hold the same permutations. -/
theorem precomputed (x : Byte) : rd q0sbox x.toNat = .ok (Spec.Twofish.q0 x) ∧ rd q1sbox x.toNat = .ok (Spec.Twofish.q1 x) := by
  revert x; exact Aes.forall_byte (by decide +kernel)

theorem q0_run (x : Byte) (y : W32) : q0 x y = .ok ((y <<< 8) ||| (Spec.Twofish.q0 x).setWidth 32) := by
  unfold q0; rw [q0_val]; rfl
theorem q1_run (x : Byte) (y : W32) : q1 x y = .ok ((y <<< 8) ||| (Spec.Twofish.q1 x).setWidth 32) := by
  unfold q1; rw [q1_val]; rfl

/-! The multiplication, on numbers, which the kernel computes quickly. -/

def timesN (v b : Nat) : Nat := Nat.xor (Nat.mod (Nat.mul 2 b) 256) (bif Nat.ble 128 b then v else 0)
def bitN (c i b : Nat) : Nat := bif Nat.beq (Nat.mod (Nat.div c i) 2) 1 then b else 0
def mulN (v b c : Nat) : Nat :=
  let s := fun acc i => Nat.xor (timesN v acc) (bitN c i b)
  s (s (s (s (s (s (s (s 0 128) 64) 32) 16) 8) 4) 2) 1

theorem timesN_eq (v b : Byte) : timesN v.toNat b.toNat = (Spec.Twofish.times v b).toNat := by
  unfold timesN Spec.Twofish.times
  rw [BitVec.toNat_xor, BitVec.toNat_shiftLeft, Nat.shiftLeft_eq, BitVec.msb_eq_decide]
  have e : Nat.ble 128 b.toNat = decide (2 ^ (8 - 1) ≤ b.toNat) := by
    rw [Bool.eq_iff_iff, Nat.ble_eq, decide_eq_true_eq]; rfl
  rw [e]
  show (2 * b.toNat % 256) ^^^ _ = _
  rw [Nat.mul_comm 2]
  cases decide (2 ^ (8 - 1) ≤ b.toNat) <;> rfl

theorem bitN_eq (c b : Byte) (i : Nat) : bitN c.toNat (2 ^ i) b.toNat = (if c.getLsbD i then b else 0#8).toNat := by
  unfold bitN
  have e : Nat.beq (Nat.mod (Nat.div c.toNat (2 ^ i)) 2) 1 = c.getLsbD i := by
    rw [← BitVec.testBit_toNat, Nat.testBit_eq_decide_div_mod_eq, Bool.eq_iff_iff, Nat.beq_eq, decide_eq_true_eq]
    rfl
  rw [e]
  cases c.getLsbD i <;> rfl

theorem mulN_eq (v b c : Byte) : mulN v.toNat b.toNat c.toNat = (mul v b c).toNat := by
  have s : ∀ (i : Nat) (acc : Byte) (accN : Nat), accN = acc.toNat → Nat.xor (timesN v.toNat accN) (bitN c.toNat (2 ^ i) b.toNat) =
      (Spec.Twofish.times v acc ^^^ (if c.getLsbD i then b else 0#8)).toNat := fun i acc accN e => by
    rw [e, timesN_eq, bitN_eq, BitVec.toNat_xor]; rfl
  exact s 0 _ _ (s 1 _ _ (s 2 _ _ (s 3 _ _ (s 4 _ _ (s 5 _ _ (s 6 _ _ (s 7 0 0 rfl)))))))

/-- The entries of the matrices. -/
def mdsEntries : List Nat := [0x01, 0x5B, 0xEF]
def rsEntries : List Nat := [0x01, 0xA4, 0x55, 0x87, 0x5A, 0x58, 0xDB, 0x9E, 0x56, 0x82, 0xF3, 0x1E, 0xC6, 0x68, 0xE5, 0x02, 0xA1, 0xFC, 0xC1, 0x47, 0xAE, 0x3D, 0x19, 0x03]

/-- The tables as numbers. -/
def pack (l : Bytes) : Nat := l.foldr (fun b n => b.toNat + 256 * n) 0
def look (n i : Nat) : Nat := Nat.mod (Nat.shiftRight n (Nat.mul 8 i)) 256

theorem look_pack : ∀ (l : Bytes) (i : Nat) (h : i < l.length), look (pack l) i = l[i].toNat
  | b :: l, 0, _ => by
    have := b.isLt
    show (b.toNat + 256 * pack l) >>> (8 * 0) % 256 = b.toNat
    rw [Nat.mul_zero, Nat.shiftRight_zero]; omega
  | b :: l, i + 1, h => by
    have := b.isLt
    rw [List.getElem_cons_succ, ← look_pack l i (by simpa using h)]
    show (b.toNat + 256 * pack l) >>> (8 * (i + 1)) % 256 = pack l >>> (8 * i) % 256
    rw [Nat.mul_add, Nat.add_comm (8 * i), Nat.shiftRight_add, show (b.toNat + 256 * pack l) >>> (8 * 1) = pack l by rw [Nat.shiftRight_eq_div_pow]; omega]

def gfN (log alog c x : Nat) : Nat := bif Nat.beq x 0 then 0 else look alog (Nat.mod (Nat.add (look log x) (look log c)) 255)

theorem gfmul_eq (log alog : Bytes) (h1 : log.length = 256) (h2 : alog.length = 255) (x c : Byte) (hc : c ≠ 0) :
    gfmul log alog x c = .ok (BitVec.ofNat 8 (gfN (pack log) (pack alog) c.toNat x.toNat)) := by
  have hx := x.isLt
  have hc' := c.isLt
  unfold gfmul gfN
  by_cases h : x = 0
  · subst h; rw [if_neg (by simp)]; rfl
  · have hb : Nat.beq x.toNat 0 = false := by
      rw [← Bool.not_eq_true, Nat.beq_eq]
      exact fun e => h (BitVec.eq_of_toNat_eq e)
    rw [if_pos ⟨h, hc⟩, hb, rd_eq_ok (by omega), Out.bind_ok, rd_eq_ok (by omega), Out.bind_ok, look_pack log _ (by omega), look_pack log _ (by omega)]
    have hi : (log[x.toNat].toNat + log[c.toNat].toNat) % 0xFF < alog.length := by omega
    rw [rd_eq_ok hi]
    show _ = Out.ok (BitVec.ofNat 8 (look (pack alog) ((log[x.toNat].toNat + log[c.toNat].toNat) % 255)))
    rw [look_pack alog _ hi, BitVec.ofNat_toNat, BitVec.setWidth_eq]

set_option maxRecDepth 20000 in
theorem mds_check : (mdsEntries.all fun c => (List.range 256).all fun x => Nat.beq (gfN (pack mdsLog) (pack mdsAlog) c x) (mulN 0x69 x c)) = true := by
  decide +kernel
set_option maxRecDepth 20000 in
theorem rs_check : (rsEntries.all fun c => (List.range 256).all fun x => Nat.beq (gfN (pack rsLog) (pack rsAlog) c x) (mulN 0x4D x c)) = true := by
  decide +kernel

theorem gfmul_mds (c : Byte) (h : c.toNat ∈ mdsEntries) (h0 : c ≠ 0) (x : Byte) : gfmul mdsLog mdsAlog x c = .ok (mul vMds x c) := by
  rw [gfmul_eq _ _ (by decide +kernel) (by decide +kernel) x c h0, Nat.eq_of_beq_eq_true (List.all_eq_true.mp (List.all_eq_true.mp mds_check _ h) x.toNat (List.mem_range.mpr x.isLt))]
  rw [show (0x69 : Nat) = vMds.toNat from rfl, mulN_eq, BitVec.ofNat_toNat, BitVec.setWidth_eq]
theorem gfmul_rs (c : Byte) (h : c.toNat ∈ rsEntries) (h0 : c ≠ 0) (x : Byte) : gfmul rsLog rsAlog x c = .ok (mul vRs x c) := by
  rw [gfmul_eq _ _ (by decide +kernel) (by decide +kernel) x c h0, Nat.eq_of_beq_eq_true (List.all_eq_true.mp (List.all_eq_true.mp rs_check _ h) x.toNat (List.mem_range.mpr x.isLt))]
  rw [show (0x4D : Nat) = vRs.toNat from rfl, mulN_eq, BitVec.ofNat_toNat, BitVec.setWidth_eq]

/-! ## Words -/

/-- A word whose first byte is the most significant one. -/
def Fr (y : Four 8) : W32 := be32 y.a y.b y.c y.d

theorem byteN_0 (a b c d : Byte) : byteN (be32 a b c d) 0 = a := by
  apply BitVec.eq_of_getLsbD_eq; intro i hi; unfold byteN be32; interval_cases i <;> simp
theorem byteN_1 (a b c d : Byte) : byteN (be32 a b c d) 1 = b := by
  apply BitVec.eq_of_getLsbD_eq; intro i hi; unfold byteN be32; interval_cases i <;> simp
theorem byteN_2 (a b c d : Byte) : byteN (be32 a b c d) 2 = c := by
  apply BitVec.eq_of_getLsbD_eq; intro i hi; unfold byteN be32; interval_cases i <;> simp
theorem byteN_3 (a b c d : Byte) : byteN (be32 a b c d) 3 = d := by
  apply BitVec.eq_of_getLsbD_eq; intro i hi; unfold byteN be32; interval_cases i <;> simp

theorem be32_xor (a b c d a' b' c' d' : Byte) : be32 a b c d ^^^ be32 a' b' c' d' = be32 (a ^^^ a') (b ^^^ b') (c ^^^ c') (d ^^^ d') := by
  apply BitVec.eq_of_getLsbD_eq; intro i hi; unfold be32; interval_cases i <;> simp

theorem push (K : W32) (a b c d : Byte) :
    (((((((K <<< 8) ||| a.setWidth 32) <<< 8) ||| b.setWidth 32) <<< 8) ||| c.setWidth 32) <<< 8) ||| d.setWidth 32 = be32 a b c d := by
  apply BitVec.eq_of_getLsbD_eq; intro i hi; unfold be32; interval_cases i <;> simp

theorem word_be32 (a b c d : Byte) : word ⟨a, b, c, d⟩ = be32 d c b a := by
  apply BitVec.eq_of_toNat_eq
  have := a.isLt; have := b.isLt; have := c.isLt; have := d.isLt
  rw [be32_toNat]
  unfold word
  dsimp only
  rw [BitVec.toNat_ofNat]
  omega

theorem inv_be32 (a b c d : Byte) : inv (be32 a b c d) = be32 d c b a := by
  apply BitVec.eq_of_getLsbD_eq; intro i hi; unfold inv be32; interval_cases i <;> simp

theorem byte_eq (x : W32) (j : Nat) : Spec.Twofish.byte x j = (x >>> (8 * j)).setWidth 8 := by
  apply BitVec.eq_of_toNat_eq
  unfold Spec.Twofish.byte
  rw [BitVec.toNat_ofNat, BitVec.toNat_setWidth, BitVec.toNat_ushiftRight, Nat.shiftRight_eq_div_pow, Nat.pow_mul]

theorem Fr_bytes (x : W32) : Fr (bytes x) = inv x := by
  unfold Fr bytes
  simp only [byte_eq]
  apply BitVec.eq_of_getLsbD_eq; intro i hi; unfold inv be32; interval_cases i <;> simp

theorem wror_inv (r : W32) : wror (inv r) 8 = Fr (bytes (r.rotateLeft 8)) := by
  rw [Fr_bytes]
  apply BitVec.eq_of_getLsbD_eq; intro i hi; unfold inv wror; interval_cases i <;> simp

/-! ## The function h -/

theorem quad_run (p0 p1 p2 p3 : Byte → W32 → Out W32) (P0 P1 P2 P3 : Byte → Byte)
    (h0 : ∀ x y, p0 x y = .ok ((y <<< 8) ||| (P0 x).setWidth 32)) (h1 : ∀ x y, p1 x y = .ok ((y <<< 8) ||| (P1 x).setWidth 32))
    (h2 : ∀ x y, p2 x y = .ok ((y <<< 8) ||| (P2 x).setWidth 32)) (h3 : ∀ x y, p3 x y = .ok ((y <<< 8) ||| (P3 x).setWidth 32))
    (y : Four 8) (Kc : W32) : Twofish.quad p0 p1 p2 p3 (Fr y) Kc = .ok (Fr ⟨P0 y.a, P1 y.b, P2 y.c, P3 y.d⟩) := by
  unfold Twofish.quad Fr
  rw [byteN_0, byteN_1, byteN_2, byteN_3, h0, Out.bind_ok, h1, Out.bind_ok, h2, Out.bind_ok, h3, push]

theorem Fr_stage (p0 p1 p2 p3 : Byte → Byte) (y l : Four 8) : Fr ⟨p0 y.a, p1 y.b, p2 y.c, p3 y.d⟩ ^^^ Fr l = Fr (stage p0 p1 p2 p3 y l) :=
  be32_xor _ _ _ _ _ _ _ _

theorem mdsRow_run (tt row : W32) (n : Nat) (x a b c d : Byte) (h : byteN tt n = x) (hr : row = be32 a b c d)
    (ha : a.toNat ∈ mdsEntries ∧ a ≠ 0) (hb : b.toNat ∈ mdsEntries ∧ b ≠ 0) (hc : c.toNat ∈ mdsEntries ∧ c ≠ 0) (hd : d.toNat ∈ mdsEntries ∧ d ≠ 0) :
    mdsRow tt row n = .ok (be32 (mul vMds x a) (mul vMds x b) (mul vMds x c) (mul vMds x d)) := by
  subst hr
  unfold mdsRow
  rw [h, byteN_0, byteN_1, byteN_2, byteN_3, gfmul_mds _ ha.1 ha.2, Out.bind_ok, gfmul_mds _ hb.1 hb.2, Out.bind_ok, gfmul_mds _ hc.1 hc.2, Out.bind_ok,
    gfmul_mds _ hd.1 hd.2]
  rfl

theorem mds_run (y : Four 8) : mds (Fr y) = .ok (word (Spec.Twofish.quad (matrix vMds Spec.Twofish.MDS y.words))) := by
  unfold mds
  rw [mdsRow_run (Fr y) MDS0 0 y.a 0xEF 0xEF 0x5B 0x01 (byteN_0 ..) (by decide) (by decide) (by decide) (by decide) (by decide), Out.bind_ok,
    mdsRow_run (Fr y) MDS1 1 y.b 0x01 0x5B 0xEF 0xEF (byteN_1 ..) (by decide) (by decide) (by decide) (by decide) (by decide), Out.bind_ok,
    mdsRow_run (Fr y) MDS2 2 y.c 0xEF 0x01 0xEF 0x5B (byteN_2 ..) (by decide) (by decide) (by decide) (by decide) (by decide), Out.bind_ok,
    mdsRow_run (Fr y) MDS3 3 y.d 0x5B 0xEF 0x01 0x5B (byteN_3 ..) (by decide) (by decide) (by decide) (by decide) (by decide), Out.bind_ok]
  rw [be32_xor, be32_xor, be32_xor]
  congr 1
  show _ = word ⟨_, _, _, _⟩
  rw [word_be32]
  simp only [Spec.Twofish.MDS, matrix, Four.words, List.map_cons, List.zipWith_cons_cons, List.foldl_cons, List.foldl_nil, List.zipWith_nil_right,
    List.getD_cons_zero, List.getD_cons_succ]
  have z : ∀ x : Byte, 0 ^^^ x = x := fun x => BitVec.zero_xor
  simp only [z]

/-- `kryptos_twofish_hh` computes the function h, for any old value of its result. -/
theorem hh_run (k : Nat) (hk : k = 2 ∨ k = 3 ∨ k = 4) (S : List W32) (ix : Nat → Nat) (l : Nat → Four 8) (hS : ∀ j, j < k → rd S (ix j) = .ok (Fr (l j)))
    (X Kc : W32) : hh (Fr (bytes X)) Kc k S ix = .ok (Spec.Twofish.h X ((List.range k).map l)) := by
  have Q1001 := quad_run q1 q0 q0 q1 _ _ _ _ q1_run q0_run q0_run q1_run
  have Q1100 := quad_run q1 q1 q0 q0 _ _ _ _ q1_run q1_run q0_run q0_run
  have Q0101 := quad_run q0 q1 q0 q1 _ _ _ _ q0_run q1_run q0_run q1_run
  have Q0011 := quad_run q0 q0 q1 q1 _ _ _ _ q0_run q0_run q1_run q1_run
  have Q1010 := quad_run q1 q0 q1 q0 _ _ _ _ q1_run q0_run q1_run q0_run
  have top : ∃ Kc', hhTop k S ix (Fr (bytes X)) Kc = .ok (Fr
      (let y := bytes X
       let y := if k = 4 then stage Spec.Twofish.q1 Spec.Twofish.q0 Spec.Twofish.q0 Spec.Twofish.q1 y (l 3) else y
       if 3 ≤ k then stage Spec.Twofish.q1 Spec.Twofish.q1 Spec.Twofish.q0 Spec.Twofish.q0 y (l 2) else y), Kc') := by
    unfold hhTop
    rcases hk with rfl | rfl | rfl
    · exact ⟨_, rfl⟩
    · rw [if_neg (by decide), Out.bind_ok, if_pos (by decide)]
      dsimp only
      rw [Q1100, Out.bind_ok, hS 2 (by decide), Out.bind_ok, Fr_stage]
      exact ⟨_, rfl⟩
    · rw [if_pos (by decide), Q1001, Out.bind_ok, hS 3 (by decide), Out.bind_ok, Fr_stage, Out.bind_ok, if_pos (by decide)]
      dsimp only
      rw [Q1100, Out.bind_ok, hS 2 (by decide), Out.bind_ok, Fr_stage]
      exact ⟨_, rfl⟩
  obtain ⟨Kc', top⟩ := top
  unfold hh
  rw [top, Out.bind_ok]
  dsimp only
  rw [Q0101, Out.bind_ok, hS 1 (by omega), Out.bind_ok, Fr_stage, Q0011, Out.bind_ok, hS 0 (by omega), Out.bind_ok, Fr_stage, Q1010, Out.bind_ok, mds_run]
  have z : ∀ x : Byte, x ^^^ 0 = x := fun x => BitVec.xor_zero
  unfold Spec.Twofish.h
  rcases hk with rfl | rfl | rfl <;>
  · simp only [show List.range 2 = [0, 1] from rfl, show List.range 3 = [0, 1, 2] from rfl, show List.range 4 = [0, 1, 2, 3] from rfl, List.map_cons, List.map_nil,
      List.length_cons, List.length_nil, List.getD_cons_zero, List.getD_cons_succ]
    rw [show ∀ y : Four 8, stage Spec.Twofish.q1 Spec.Twofish.q0 Spec.Twofish.q1 Spec.Twofish.q0 y ⟨0, 0, 0, 0⟩ =
      ⟨Spec.Twofish.q1 y.a, Spec.Twofish.q0 y.b, Spec.Twofish.q1 y.c, Spec.Twofish.q0 y.d⟩ from fun y => by unfold stage; simp only [z]]
    try rfl

/-! ## Key schedule -/

theorem byteN64_be64 (a b c d e f g h : Byte) :
    byteN64 (be64 a b c d e f g h) 0 = a ∧ byteN64 (be64 a b c d e f g h) 1 = b ∧ byteN64 (be64 a b c d e f g h) 2 = c ∧ byteN64 (be64 a b c d e f g h) 3 = d ∧
    byteN64 (be64 a b c d e f g h) 4 = e ∧ byteN64 (be64 a b c d e f g h) 5 = f ∧ byteN64 (be64 a b c d e f g h) 6 = g ∧ byteN64 (be64 a b c d e f g h) 7 = h := by
  refine ⟨?_, ?_, ?_, ?_, ?_, ?_, ?_, ?_⟩ <;>
  · apply BitVec.eq_of_getLsbD_eq; intro i hi; unfold byteN64 be64; interval_cases i <;> simp

/-- The product of a row and a vector. -/
def rowv (y row : Bytes) : Byte := (matrix vRs [row] y).getD 0 0

theorem rsRow_run (row : W64) (hr : ∀ n, n < 8 → (byteN64 row n).toNat ∈ rsEntries ∧ byteN64 row n ≠ 0) (y : Bytes) (hy : y.length = 8) (m : W64)
    (hm : ∀ n, n < 8 → byteN64 m n = y.getD n 0) :
    rsRow m row = .ok ((rowv y [byteN64 row 0, byteN64 row 1, byteN64 row 2, byteN64 row 3, byteN64 row 4, byteN64 row 5, byteN64 row 6,
      byteN64 row 7]).setWidth 32) := by
  unfold rsRow
  rw [forLoop_up0 _ (fun g n => g ^^^ mul vRs (y.getD n 0) (byteN64 row n)) 8 0 (fun n g hn => by
    rw [gfmul_rs _ (hr n hn).1 (hr n hn).2, Out.bind_ok, hm n hn]; rfl), Out.bind_ok]
  match y, hy with
  | [a, b, c, d, e, f, g, h], _ => rfl

attribute [local irreducible] mul in
theorem rs_run (a b c d e f g h : Byte) : rs (be64 a b c d e f g h) = .ok (Fr (Spec.Twofish.quad (matrix vRs Spec.Twofish.RS [a, b, c, d, e, f, g, h]))) := by
  have hm : ∀ n, n < 8 → byteN64 (be64 a b c d e f g h) n = [a, b, c, d, e, f, g, h].getD n 0 := fun n hn => by
    obtain ⟨h0, h1, h2, h3, h4, h5, h6, h7⟩ := byteN64_be64 a b c d e f g h
    interval_cases n <;> assumption
  unfold rs
  rw [rsRow_run RS0 (by decide) _ rfl _ hm, Out.bind_ok, rsRow_run RS1 (by decide) _ rfl _ hm, Out.bind_ok, rsRow_run RS2 (by decide) _ rfl _ hm, Out.bind_ok,
    rsRow_run RS3 (by decide) _ rfl _ hm, Out.bind_ok]
  have o : ∀ p q r s : Byte, inv (p.setWidth 32 ||| (q.setWidth 32 <<< 8) ||| (r.setWidth 32 <<< 16) ||| (s.setWidth 32 <<< 24)) = Fr ⟨p, q, r, s⟩ := fun p q r s => by
    have : p.setWidth 32 ||| (q.setWidth 32 <<< 8) ||| (r.setWidth 32 <<< 16) ||| (s.setWidth 32 <<< 24) = be32 s r q p := by
      apply BitVec.eq_of_getLsbD_eq; intro i hi; unfold be32; interval_cases i <;> simp
    rw [this, inv_be32]; rfl
  rw [o]
  have r : ∀ r0 r1 r2 r3 y : Bytes, Spec.Twofish.quad (matrix vRs [r0, r1, r2, r3] y) = ⟨rowv y r0, rowv y r1, rowv y r2, rowv y r3⟩ := fun _ _ _ _ _ => rfl
  rw [← r, show [[byteN64 RS0 0, byteN64 RS0 1, byteN64 RS0 2, byteN64 RS0 3, byteN64 RS0 4, byteN64 RS0 5, byteN64 RS0 6, byteN64 RS0 7],
    [byteN64 RS1 0, byteN64 RS1 1, byteN64 RS1 2, byteN64 RS1 3, byteN64 RS1 4, byteN64 RS1 5, byteN64 RS1 6, byteN64 RS1 7],
    [byteN64 RS2 0, byteN64 RS2 1, byteN64 RS2 2, byteN64 RS2 3, byteN64 RS2 4, byteN64 RS2 5, byteN64 RS2 6, byteN64 RS2 7],
    [byteN64 RS3 0, byteN64 RS3 1, byteN64 RS3 2, byteN64 RS3 3, byteN64 RS3 4, byteN64 RS3 5, byteN64 RS3 6, byteN64 RS3 7]] = Spec.Twofish.RS by decide +kernel]

theorem keyWord_run (P : Bytes) (i : Nat) (h : 4 * i + 3 < P.length) : keyWord P i = .ok (Fr (Spec.Twofish.M P i)) := by
  unfold keyWord
  rw [rd_getD 0 h, Out.bind_ok, rd_getD 0 (by omega), Out.bind_ok, rd_getD 0 (by omega), Out.bind_ok, rd_getD 0 (by omega), Out.bind_ok]
  have e : Fr (Spec.Twofish.M P i) = be32 (P.getD (4 * i) 0) (P.getD (4 * i + 1) 0) (P.getD (4 * i + 2) 0) (P.getD (4 * i + 3) 0) := by
    unfold Fr Spec.Twofish.M Spec.Twofish.quad
    simp only [List.getD_eq_getElem?_getD, List.getElem?_drop]
    rfl
  rw [e]
  generalize P.getD (4 * i) 0 = a
  generalize P.getD (4 * i + 1) 0 = b
  generalize P.getD (4 * i + 2) 0 = c
  generalize P.getD (4 * i + 3) 0 = d
  refine congrArg Out.ok ?_
  apply BitVec.eq_of_getLsbD_eq; intro i hi; unfold be32; interval_cases i <;> simp

theorem keyWords_run (k : Nat) (hk : k ≤ 4) (P : Bytes) (hP : P.length = 8 * k) :
    ∃ M, keyWords k P = .ok M ∧ ∀ i, i < 2 * k → rd M i = .ok (Fr (Spec.Twofish.M P i)) := by
  unfold keyWords
  rw [mapM_ok _ (fun i => Fr (Spec.Twofish.M P i)) _ (fun i hi => keyWord_run P i (by have := List.mem_range.mp hi; omega)), Out.bind_ok]
  refine ⟨_, rfl, fun i hi => rd_of_some ?_⟩
  rw [List.getElem?_take_of_lt (by omega), List.getElem?_append_left (by simpa using hi), List.getElem?_map, List.getElem?_range hi]
  rfl

theorem be64_words (a b c d e f g h : Byte) : ((be32 a b c d).setWidth 64 <<< 32) ||| (be32 e f g h).setWidth 64 = be64 a b c d e f g h := by
  apply BitVec.eq_of_getLsbD_eq; intro i hi; unfold be64 be32; interval_cases i <;> simp

/-- The word `j` of the S-boxes. -/
def sWord (k : Nat) (P : Bytes) (j : Nat) : Four 8 := Spec.Twofish.quad (matrix vRs Spec.Twofish.RS ((P.drop (8 * (k - 1 - j))).take 8))

theorem S_eq (k : Nat) (hk : k = 2 ∨ k = 3 ∨ k = 4) (P : Bytes) : Spec.Twofish.S k P = (List.range k).map (sWord k P) := by
  rcases hk with rfl | rfl | rfl <;> rfl

attribute [local irreducible] mul in
theorem sWord_run (k : Nat) (P : Bytes) (hP : P.length = 8 * k) (s : Nat) (hs : s < k) :
    rs (((Fr (Spec.Twofish.M P (2 * s))).setWidth 64 <<< 32) ||| (Fr (Spec.Twofish.M P (2 * s + 1))).setWidth 64) = .ok (Fr (sWord k P (k - s - 1))) := by
  unfold sWord Spec.Twofish.M
  rw [show k - 1 - (k - s - 1) = s by omega, show 4 * (2 * s) = 8 * s by omega, show 4 * (2 * s + 1) = 8 * s + 4 by omega, ← List.drop_drop]
  have hd : (P.drop (8 * s)).length = 8 * k - 8 * s := by rw [List.length_drop, hP]
  match P.drop (8 * s), hd with
  | a :: b :: c :: d :: e :: f :: g :: h :: t, _ =>
    unfold Fr
    show rs (((be32 a b c d).setWidth 64 <<< 32) ||| (be32 e f g h).setWidth 64) = _
    rw [be64_words, rs_run]
    rfl
  | [], hd | [_], hd | [_, _], hd | [_, _, _], hd | [_, _, _, _], hd | [_, _, _, _, _], hd | [_, _, _, _, _, _], hd | [_, _, _, _, _, _, _], hd =>
    exfalso; simp only [List.length_cons, List.length_nil] at hd; omega

theorem wrol_8 (w : W32) : wrol w 8 = w.rotateLeft 8 := by rw [BitVec.rotateLeft_def]; rfl
theorem wrol_9 (w : W32) : wrol w 9 = w.rotateLeft 9 := by rw [BitVec.rotateLeft_def]; rfl
theorem wrol_1 (w : W32) : wrol w 1 = w.rotateLeft 1 := by rw [BitVec.rotateLeft_def]; rfl
theorem wror_1 (w : W32) : wror w 1 = w.rotateRight 1 := by rw [BitVec.rotateRight_def]; rfl

theorem pht_run (a b : W32) : pht a b = (a + b, a + 2 * b) := by
  unfold pht
  have e : b <<< 1 = 2 * b := by
    apply BitVec.eq_of_toNat_eq
    rw [BitVec.toNat_shiftLeft, BitVec.toNat_mul, Nat.shiftLeft_eq, Nat.mul_comm]; rfl
  rw [e, show ∀ x : W32, x &&& 0xFFFFFFFF = x from fun x => BitVec.and_allOnes]

theorem rho_eq (i : Nat) (h : i < 40) : rho (BitVec.ofNat 32 i) = Fr (bytes (BitVec.ofNat 32 (i * 0x01010101))) := by
  rw [Fr_bytes]
  exact (by decide +kernel : ∀ i : Fin 40, rho (BitVec.ofNat 32 i.val) = inv (BitVec.ofNat 32 (i.val * 0x01010101))) ⟨i, h⟩

theorem hIter_run (k : Nat) (hk : k = 2 ∨ k = 3 ∨ k = 4) (P : Bytes) (M : List W32) (hM : ∀ i, i < 2 * k → rd M i = .ok (Fr (Spec.Twofish.M P i)))
    (m : Nat) (hm : 2 * m + 1 < 40) (Kc Kn : W32) :
    hIter (BitVec.ofNat 32 (2 * m)) (BitVec.ofNat 32 (2 * m + 1)) Kc Kn k M = .ok (Spec.Twofish.K k P (2 * m), Spec.Twofish.K k P (2 * m + 1)) := by
  unfold hIter
  rw [rho_eq _ (by omega), rho_eq _ hm, hh_run k hk M _ (fun j => Spec.Twofish.M P (2 * j)) (fun j hj => hM _ (by omega)), Out.bind_ok,
    hh_run k hk M _ (fun j => Spec.Twofish.M P (2 * j + 1)) (fun j hj => hM _ (by omega)), Out.bind_ok, wrol_8]
  dsimp only
  rw [pht_run]
  dsimp only
  rw [wrol_9]
  unfold Spec.Twofish.K
  rw [if_pos (by omega), if_neg (by omega), show 2 * m / 2 = m by omega, show (2 * m + 1) / 2 = m by omega]
  rfl

theorem h_run (k : Nat) (hk : k = 2 ∨ k = 3 ∨ k = 4) (P : Bytes) (M : List W32) (hM : ∀ i, i < 2 * k → rd M i = .ok (Fr (Spec.Twofish.M P i)))
    (j : Nat) (hj : j < 10) (K : List W32) (hK : K.length = 40) (hd : ∀ n, n < 4 * j → rd K n = .ok (Spec.Twofish.K k P n)) :
    ∃ K', h k M (4 * j) K = .ok K' ∧ K'.length = 40 ∧ ∀ n, n < 4 * (j + 1) → rd K' n = .ok (Spec.Twofish.K k P n) := by
  unfold h
  have e1 := fun Kc Kn => hIter_run k hk P M hM (2 * j) (by omega) Kc Kn
  have e2 := fun Kc Kn => hIter_run k hk P M hM (2 * j + 1) (by omega) Kc Kn
  rw [show 2 * (2 * j) = 4 * j by omega] at e1
  rw [show 2 * (2 * j + 1) = 4 * j + 2 by omega] at e2
  rw [rd_getD 0 (by omega), Out.bind_ok, rd_getD 0 (by omega), Out.bind_ok, e1, Out.bind_ok]
  dsimp only
  rw [wr_of_lt (by omega), Out.bind_ok, wr_of_lt (by rw [List.length_set]; omega), Out.bind_ok, rd_getD 0 (by simp only [List.length_set]; omega), Out.bind_ok,
    rd_getD 0 (by simp only [List.length_set]; omega), Out.bind_ok, e2, Out.bind_ok]
  dsimp only
  rw [wr_of_lt (by simp only [List.length_set]; omega), Out.bind_ok, wr_of_lt (by simp only [List.length_set]; omega)]
  refine ⟨_, rfl, by simp only [List.length_set]; exact hK, fun n hn => rd_of_some ?_⟩
  by_cases h3 : n = 4 * j + 3
  · subst h3; rw [List.getElem?_set_self (by simp only [List.length_set]; omega)]
  · rw [List.getElem?_set_ne (by omega)]
    by_cases h2 : n = 4 * j + 2
    · subst h2; rw [List.getElem?_set_self (by simp only [List.length_set]; omega)]
    · rw [List.getElem?_set_ne (by omega)]
      by_cases h1 : n = 4 * j + 1
      · subst h1; rw [List.getElem?_set_self (by simp only [List.length_set]; omega)]
      · rw [List.getElem?_set_ne (by omega)]
        by_cases h0 : n = 4 * j
        · subst h0; rw [List.getElem?_set_self (by omega)]
        · rw [List.getElem?_set_ne (by omega)]
          have := hd n (by omega)
          rw [rd_eq_ok (by omega)] at this
          rw [List.getElem?_eq_getElem (by omega), Out.ok.inj this]

/-- What the key schedule leaves in the structure. -/
structure Good (k : Nat) (P : Bytes) (sks : Sks) : Prop where
  k_eq : sks.k = k
  K_run : ∀ n, n < 40 → rd sks.K n = .ok (Spec.Twofish.K k P n)
  S_run : ∀ j, j < k → rd sks.S j = .ok (Fr (sWord k P j))

theorem schedule_run (stale : Sks) (h1 : stale.K.length = 40) (h2 : stale.S.length = 4) (k : Nat) (hk : k = 2 ∨ k = 3 ∨ k = 4) (key : Bytes) :
    ∃ sks, schedule stale k key = .ok sks ∧ Good k (zeroPad (8 * k) key) sks := by
  unfold schedule
  show ∃ sks, (keyWords k (zeroPad (8 * k) key)).bind _ = _ ∧ _
  have hP := length_zeroPad (8 * k) key
  generalize zeroPad (8 * k) key = P at hP ⊢
  obtain ⟨M, e, hM⟩ := keyWords_run k (by omega) P hP
  rw [e]
  obtain ⟨S, e2, hS⟩ := forLoop_inv (fun s S => do
      let m0 ← rd M (s <<< 1)
      let m1 ← rd M ((s <<< 1) + 1)
      wr S (k - s - 1) (← rs ((m0.setWidth 64 <<< 32) ||| m1.setWidth 64))) (fun t S => S.length = 4 ∧ ∀ j, k - t ≤ j → j < k → rd S j = .ok (Fr (sWord k P j)))
    k 0 stale.S (fun s S _ hs ⟨hl, hd⟩ => by
      refine ⟨S.set (k - s - 1) (Fr (sWord k P (k - s - 1))), ?_, by rw [List.length_set]; exact hl, fun j h3 h4 => ?_⟩
      · rw [show s <<< 1 = 2 * s by rw [Nat.shiftLeft_eq]; omega, hM _ (by omega), Out.bind_ok, hM _ (by omega), Out.bind_ok, sWord_run k P hP s (by omega), Out.bind_ok,
          wr_of_lt (by omega)]
      · by_cases h5 : j = k - s - 1
        · subst h5; exact rd_of_some (List.getElem?_set_self (by omega))
        · have := hd j (by omega) h4
          rw [rd_eq_ok (by omega)] at this
          apply rd_of_some
          rw [List.getElem?_set_ne (by omega), List.getElem?_eq_getElem (by omega), Out.ok.inj this])
    ⟨h2, fun j h3 h4 => by omega⟩
  obtain ⟨K, e3, hK⟩ := forLoop_inv (fun j K => h k M (4 * j) K) (fun t K => K.length = 40 ∧ ∀ n, n < 4 * t → rd K n = .ok (Spec.Twofish.K k P n)) 10 0 stale.K
    (fun j K _ hj hK => by
      obtain ⟨K', a, b, c⟩ := h_run k hk P M hM j (by omega) K hK.1 hK.2
      exact ⟨K', a, b, c⟩) ⟨h1, fun n hn => by omega⟩
  refine ⟨⟨K, S, k⟩, ?_, rfl, fun n hn => hK.2 n (by omega), fun j hj => hS.2 j (by omega) hj⟩
  show (forLoop _ k 0 stale.S).bind _ = _
  rw [e2]
  show (forLoop _ 10 0 stale.K).bind _ = _
  rw [e3]
  rfl

/-! ## Rounds -/

theorem f_run (k : Nat) (hk : k = 2 ∨ k = 3 ∨ k = 4) (P : Bytes) (sks : Sks) (G : Good k P sks) (r : Nat) (r0 r1 f0 f1 : W32) :
    f sks r0 r1 f0 f1 (Spec.Twofish.K k P (2 * r + 8)) (Spec.Twofish.K k P (2 * r + 9)) = .ok (Spec.Twofish.F0 k P r r0 r1, Spec.Twofish.F1 k P r r0 r1) := by
  unfold f
  rw [wror_inv, ← Fr_bytes, G.k_eq, hh_run k hk sks.S id (sWord k P) G.S_run, Out.bind_ok, hh_run k hk sks.S id (sWord k P) G.S_run, Out.bind_ok, pht_run, ← S_eq k hk]
  rfl

/-- The inverse of a round. -/
def unround (k : Nat) (P : Bytes) (R : Four 32) (r : Nat) : Four 32 :=
  ⟨R.c, R.d, R.a.rotateLeft 1 ^^^ Spec.Twofish.F0 k P r R.c R.d, (R.b ^^^ Spec.Twofish.F1 k P r R.c R.d).rotateRight 1⟩

theorem unround_round (k : Nat) (P : Bytes) (R : Four 32) (r : Nat) : unround k P (Spec.Twofish.round k P R r) r = R := by
  unfold unround Spec.Twofish.round
  dsimp only
  rw [rotateLeft_rotateRight _ 1 (by decide), xor_cancel_right, xor_cancel_right, rotateRight_rotateLeft _ 1 (by decide)]

theorem round_unround (k : Nat) (P : Bytes) (R : Four 32) (r : Nat) : Spec.Twofish.round k P (unround k P R r) r = R := by
  unfold unround Spec.Twofish.round
  dsimp only
  rw [xor_cancel_right, rotateRight_rotateLeft _ 1 (by decide), rotateLeft_rotateRight _ 1 (by decide), xor_cancel_right]

theorem round_run (k : Nat) (hk : k = 2 ∨ k = 3 ∨ k = 4) (P : Bytes) (sks : Sks) (G : Good k P sks) (r : Nat) (hr : r < 16) (s : St) :
    round sks r s = .ok ((Spec.Twofish.round k P s.R r).a, (Spec.Twofish.round k P s.R r).b) := by
  unfold round
  rw [G.K_run _ (by omega), Out.bind_ok, G.K_run _ (by omega), Out.bind_ok, f_run k hk P sks G, Out.bind_ok, wror_1, wrol_1]
  dsimp only
  rw [BitVec.xor_comm]
  rfl

theorem left_run (k : Nat) (hk : k = 2 ∨ k = 3 ∨ k = 4) (P : Bytes) (sks : Sks) (G : Good k P sks) (r : Nat) (hr : r < 16) (s : St) :
    ∃ f0 f1, left sks r s = .ok ⟨⟨(unround k P s.R r).c, (unround k P s.R r).d, (unround k P s.R r).a, (unround k P s.R r).b⟩, f0, f1⟩ := by
  unfold left
  rw [G.K_run _ (by omega), Out.bind_ok, G.K_run _ (by omega), Out.bind_ok, f_run k hk P sks G, Out.bind_ok, wror_1, wrol_1]
  exact ⟨_, _, rfl⟩

theorem right_run (k : Nat) (hk : k = 2 ∨ k = 3 ∨ k = 4) (P : Bytes) (sks : Sks) (G : Good k P sks) (r : Nat) (hr : r < 16) (R : Four 32) (f0 f1 : W32) :
    ∃ f0' f1', right sks r ⟨⟨R.c, R.d, R.a, R.b⟩, f0, f1⟩ = .ok ⟨unround k P R r, f0', f1'⟩ := by
  unfold right
  rw [G.K_run _ (by omega), Out.bind_ok, G.K_run _ (by omega), Out.bind_ok]
  dsimp only
  rw [f_run k hk P sks G, Out.bind_ok, wror_1, wrol_1]
  exact ⟨_, _, rfl⟩

/-! ## Blocks -/

theorem store_eq (R : Four 32) : store R = R.words.flatMap putLe32 := by
  have e : ∀ x : W32, [byteN x 3, byteN x 2, byteN x 1, byteN x 0] = putLe32 x := fun x => by
    obtain ⟨a, b, c, d, h1, h2⟩ := be32_putBe32 x
    rw [← h2, byteN_0, byteN_1, byteN_2, byteN_3]
    show _ = putBe32 (rev32 (be32 a b c d))
    rw [show rev32 (be32 a b c d) = be32 d c b a by
      apply BitVec.eq_of_getLsbD_eq; intro i hi; unfold rev32 be32; interval_cases i <;> simp, putBe32_be32]
  unfold store
  rw [funext e]

theorem store_surj (b : Bytes) (h : b.length = 16) : ∃ R, store R = b := by
  obtain ⟨x, y, z, u, rfl⟩ := block4_le32 b h
  exact ⟨⟨x, y, z, u⟩, by rw [store_eq]; rfl⟩

theorem store_len (R : Four 32) : (store R).length = 16 := rfl

theorem load_store (R : Four 32) : load (store R) = .ok R := by
  have e : ∀ x : W32, ((byteN x 0).setWidth 32 <<< 24) ||| ((byteN x 1).setWidth 32 <<< 16) ||| ((byteN x 2).setWidth 32 <<< 8) ||| (byteN x 3).setWidth 32 = x := fun x => by
    obtain ⟨a, b, c, d, h1, h2⟩ := be32_putBe32 x
    rw [← h2, byteN_0, byteN_1, byteN_2, byteN_3]; rfl
  show Out.ok (⟨_, _, _, _⟩ : Four 32) = _
  rw [e, e, e, e]

theorem whiten_run (k : Nat) (P : Bytes) (sks : Sks) (G : Good k P sks) (n : Nat) (hn : n + 3 < 40) (R : Four 32) :
    whiten sks.K n R = .ok ⟨R.a ^^^ Spec.Twofish.K k P n, R.b ^^^ Spec.Twofish.K k P (n + 1), R.c ^^^ Spec.Twofish.K k P (n + 2), R.d ^^^ Spec.Twofish.K k P (n + 3)⟩ := by
  unfold whiten
  rw [G.K_run _ (by omega), Out.bind_ok, G.K_run _ (by omega), Out.bind_ok, G.K_run _ (by omega), Out.bind_ok, G.K_run _ (by omega), Out.bind_ok]

theorem encBlock_run (k : Nat) (hk : k = 2 ∨ k = 3 ∨ k = 4) (P : Bytes) (sks : Sks) (G : Good k P sks) (B : Four 32) :
    encBlock sks (store B) = .ok (store (Spec.Twofish.encrypt k P B)) := by
  unfold encBlock
  rw [load_store, Out.bind_ok, whiten_run k P sks G 0 (by decide), Out.bind_ok]
  unfold Spec.Twofish.encrypt
  generalize (⟨B.a ^^^ Spec.Twofish.K k P 0, B.b ^^^ Spec.Twofish.K k P (0 + 1), B.c ^^^ Spec.Twofish.K k P (0 + 2), B.d ^^^ Spec.Twofish.K k P (0 + 3)⟩ : Four 32) = R
  obtain ⟨s, e, hs⟩ := forLoop_inv (roundNext sks) (fun t s => s.R = (List.range t).foldl (Spec.Twofish.round k P) R) 15 0 ⟨R, 0, 0⟩
    (fun r s _ hr hs => by
      refine ⟨_, by unfold roundNext; rw [round_run k hk P sks G r (by omega), Out.bind_ok], ?_⟩
      rw [List.range_succ, List.foldl_append, ← hs]
      rfl) rfl
  rw [e, Out.bind_ok]
  unfold roundDone
  rw [round_run k hk P sks G 15 (by decide), Out.bind_ok, Out.bind_ok, whiten_run k P sks G 4 (by decide), Out.bind_ok]
  rw [show List.range 16 = List.range (0 + 15) ++ [15] from rfl, List.foldl_append, ← hs]
  rfl

/-- The inverse of the cipher. -/
def decrypt (k : Nat) (P : Bytes) (C : Four 32) : Four 32 :=
  let R := (List.range 16).reverse.foldl (unround k P) ⟨C.c ^^^ Spec.Twofish.K k P 6, C.d ^^^ Spec.Twofish.K k P 7, C.a ^^^ Spec.Twofish.K k P 4, C.b ^^^ Spec.Twofish.K k P 5⟩
  ⟨R.a ^^^ Spec.Twofish.K k P 0, R.b ^^^ Spec.Twofish.K k P 1, R.c ^^^ Spec.Twofish.K k P 2, R.d ^^^ Spec.Twofish.K k P 3⟩

theorem decrypt_encrypt (k : Nat) (P : Bytes) (B : Four 32) : decrypt k P (Spec.Twofish.encrypt k P B) = B := by
  unfold decrypt Spec.Twofish.encrypt
  simp only [xor_cancel_right]
  rw [foldl_undo (Spec.Twofish.round k P) (unround k P) (unround_round k P)]
  simp only [xor_cancel_right]

theorem encrypt_decrypt (k : Nat) (P : Bytes) (B : Four 32) : Spec.Twofish.encrypt k P (decrypt k P B) = B := by
  unfold decrypt Spec.Twofish.encrypt
  simp only [xor_cancel_right]
  rw [foldl_undo' (Spec.Twofish.round k P) (unround k P) (round_unround k P)]
  simp only [xor_cancel_right]

theorem decBlock_run (k : Nat) (hk : k = 2 ∨ k = 3 ∨ k = 4) (P : Bytes) (sks : Sks) (G : Good k P sks) (C : Four 32) :
    decBlock sks (store C) = .ok (store (decrypt k P C)) := by
  unfold decBlock
  rw [load_store, Out.bind_ok, G.K_run 6 (by decide), Out.bind_ok, G.K_run 7 (by decide), Out.bind_ok, G.K_run 4 (by decide), Out.bind_ok, G.K_run 5 (by decide), Out.bind_ok]
  unfold decrypt
  generalize (⟨C.c ^^^ Spec.Twofish.K k P 6, C.d ^^^ Spec.Twofish.K k P 7, C.a ^^^ Spec.Twofish.K k P 4, C.b ^^^ Spec.Twofish.K k P 5⟩ : Four 32) = R
  obtain ⟨s, e, hs⟩ := forLoop_inv (fun j s => do right sks (14 - 2 * j) (← left sks (15 - 2 * j) s))
    (fun t s => s.R = (List.range t).foldl (fun R j => unround k P (unround k P R (15 - 2 * j)) (14 - 2 * j)) R) 8 0 ⟨R, C.c, C.d⟩
    (fun r s _ hr hs => by
      obtain ⟨f0, f1, e1⟩ := left_run k hk P sks G (15 - 2 * r) (by omega) s
      obtain ⟨g0, g1, e2⟩ := right_run k hk P sks G (14 - 2 * r) (by omega) (unround k P s.R (15 - 2 * r)) f0 f1
      refine ⟨_, by rw [e1, Out.bind_ok, e2], ?_⟩
      rw [List.range_succ, List.foldl_append, ← hs]
      rfl) rfl
  dsimp only
  rw [e, Out.bind_ok, whiten_run k P sks G 0 (by decide), Out.bind_ok, hs]
  rfl

/-- Twofish with keys of 128, 192 and 256 bits: every key is cut or filled with zeros to 16, 24 or 32 bytes, and every block is encrypted as in the
publication, whatever the uninitialised structure of the subkeys holds. -/
theorem twofish_standard (stale : Sks) (h1 : stale.K.length = 40) (h2 : stale.S.length = 4) (k : Nat) (hk : k = 2 ∨ k = 3 ∨ k = 4) (key : Bytes) (B : Four 32) :
    enc stale k key (B.words.flatMap putLe32) = .ok ((Spec.Twofish.encrypt k (zeroPad (8 * k) key) B).words.flatMap putLe32) := by
  obtain ⟨sks, e, G⟩ := schedule_run stale h1 h2 k hk key
  unfold enc
  rw [e, Out.bind_ok, ← store_eq, ← store_eq, encBlock_run k hk _ sks G]

theorem twofish_invertible (stale stale' : Sks) (h1 : stale.K.length = 40) (h2 : stale.S.length = 4) (h3 : stale'.K.length = 40) (h4 : stale'.S.length = 4)
    (k : Nat) (hk : k = 2 ∨ k = 3 ∨ k = 4) (key : Bytes) : Invertible 16 (enc stale k key) (dec stale' k key) := by
  obtain ⟨sks, e, G⟩ := schedule_run stale h1 h2 k hk key
  obtain ⟨sks', e', G'⟩ := schedule_run stale' h3 h4 k hk key
  refine Invertible.ofState store store_surj store_len (Spec.Twofish.encrypt k (zeroPad (8 * k) key)) (decrypt k (zeroPad (8 * k) key)) (fun s => ?_) (fun s => ?_)
    (decrypt_encrypt k _) (encrypt_decrypt k _)
  · unfold enc; rw [e, Out.bind_ok, encBlock_run k hk _ sks G]
  · unfold dec; rw [e', Out.bind_ok, decBlock_run k hk _ sks' G']

/-! ## Cases -/

/-- Subkeys left by an earlier use. -/
def old : Sks := ⟨List.replicate 40 0xDEADBEEF, List.replicate 4 0xDEADBEEF, 7⟩

/-- The first vector of the publication, from a structure with other contents. -/
example : enc old 2 (List.replicate 16 0) (List.replicate 16 0) =
    .ok [0x9F, 0x58, 0x9F, 0x5C, 0xF6, 0x12, 0x2C, 0x32, 0xB6, 0xBF, 0xEC, 0x2F, 0x2A, 0xE8, 0xC3, 0x5A] := by decide +kernel

example : Invertible 16 (enc old 4 (ascii "a key of any length is cut or filled with zeros")) (dec ⟨List.replicate 40 1, List.replicate 4 2, 0⟩ 4
    (ascii "a key of any length is cut or filled with zeros")) := twofish_invertible _ _ rfl rfl rfl rfl 4 (by decide) _
example : enc old 3 (ascii "short") ((⟨1, 2, 3, 4⟩ : Four 32).words.flatMap putLe32) =
    .ok ((Spec.Twofish.encrypt 3 (ascii "short" ++ List.replicate 19 0) ⟨1, 2, 3, 4⟩).words.flatMap putLe32) :=
  twofish_standard old rfl rfl 3 (by decide) (ascii "short") ⟨1, 2, 3, 4⟩
example : Spec.Twofish.q0 0x00 = 0xA9 ∧ Spec.Twofish.q1 0xFF = 0x91 := by decide +kernel

end Kryptos.Twofish
