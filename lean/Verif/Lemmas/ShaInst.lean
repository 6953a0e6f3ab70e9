import Verif.Lemmas.Sha
import Verif.Model.HashTask
/- The compression functions of the SHA models are those of FIPS 180-4. -/
namespace Kryptos
open Spec Spec.MD Hash

theorem ws_range (w wb n : Nat) (blk : Bytes) :
    ws w wb n blk = (List.range n).map (Sha.wordAt w wb blk) := rfl

namespace Sha1

theorem ws_eq (blk : Bytes) : ws 32 4 16 blk = (List.range 16).map (Sha.sha1W blk) := by
  rw [ws_range]
  apply List.map_congr_left
  intro i hi
  rw [Sha.sha1W, if_pos (by simpa using hi)]

theorem sched_eq (blk : Bytes) (t : Nat) (h : 16 ≤ t) :
    sched ((List.range t).map (Sha.sha1W blk)) t = .ok (Sha.sha1W blk t) := by
  unfold sched
  rw [rd_map_range _ _ _ (by omega), rd_map_range _ _ _ (by omega), rd_map_range _ _ _ (by omega),
    rd_map_range _ _ _ (by omega)]
  simp only [Out.bind_ok, Out.pure_eq]
  conv => rhs; rw [Sha.sha1W, if_neg (by omega), ← rotl_eq _ _ (by decide)]
  rfl

theorem F_eq (t : Nat) (ht : t < 80) (x y z : W32) : F t x y z = Sha.sha1f t x y z := by
  have hch : (x &&& y) ||| (~~~x &&& z) = Sha.Ch x y z := by
    unfold Sha.Ch
    apply BitVec.eq_of_getLsbD_eq
    intro i hi
    simp only [BitVec.getLsbD_or, BitVec.getLsbD_and, BitVec.getLsbD_not, BitVec.getLsbD_xor, hi,
      decide_true, Bool.true_and]
    cases x.getLsbD i <;> cases y.getLsbD i <;> cases z.getLsbD i <;> rfl
  have hmaj : (x &&& y) ||| (x &&& z) ||| (y &&& z) = Sha.Maj x y z := by
    unfold Sha.Maj
    apply BitVec.eq_of_getLsbD_eq
    intro i hi
    simp only [BitVec.getLsbD_or, BitVec.getLsbD_and, BitVec.getLsbD_xor]
    cases x.getLsbD i <;> cases y.getLsbD i <;> cases z.getLsbD i <;> rfl
  unfold F Sha.sha1f Sha.Parity
  rw [hch, hmaj]
  repeat' split
  all_goals first | rfl | omega

theorem compress_eq (st : Five 32) (blk : Bytes) :
    compress st (ws 32 4 16 blk) = .ok (Sha.sha1Compress st blk) := by
  unfold compress
  rw [if_neg (by simp [ws_length]), ws_eq,
    expand_eq sched (Sha.sha1W blk) 64 16 (fun t h _ => sched_eq blk t h), Out.bind_ok,
    forLoop_eq _ (fun t s => Sha.sha1Round blk s t)]
  · rw [Out.bind_ok, ← List.range_eq_range']
    unfold Sha.sha1Compress Sha.add5
    simp only [Out.pure_eq, BitVec.add_comm]
  · intro t s _ h2
    unfold step
    rw [rd_map_range _ _ _ (by omega)]
    simp only [Out.bind_ok, Out.pure_eq, Sha.sha1Round]
    rw [F_eq t (by omega), show Sn s.a 5 = s.a.rotateLeft 5 from rotl_eq _ _ (by decide),
      show Sn s.b 30 = s.b.rotateLeft 30 from rotl_eq _ _ (by decide)]
    rw [BitVec.add_assoc _ (Sha.sha1W blk t), BitVec.add_comm (Sha.sha1W blk t), ← BitVec.add_assoc]
    rfl

theorem wf : Wf alg where
  w8 := by decide
  wb_pos := by decide
  nr_pos := by decide
  tab := by unfold TabOk; decide +kernel
  off := by decide
  off_pos := by decide

end Sha1

namespace Sha256

theorem K_eq : K = Sha.K256 := by decide +kernel

theorem ws_eq (blk : Bytes) : ws 32 4 16 blk = (List.range 16).map (Sha.p256.W blk) := by
  rw [ws_range]
  apply List.map_congr_left
  intro i hi
  rw [Sha.Sha2.W, if_pos (by simpa using hi)]; rfl

theorem SSIG0_eq (x : W32) : SSIG0 x = Sha.p256.s0 x := by
  unfold SSIG0 ROTR; simp only [rotr_eq x _ (by decide : 7 < 32), rotr_eq x _ (by decide : 18 < 32)]; rfl
theorem SSIG1_eq (x : W32) : SSIG1 x = Sha.p256.s1 x := by
  unfold SSIG1 ROTR; simp only [rotr_eq x _ (by decide : 17 < 32), rotr_eq x _ (by decide : 19 < 32)]; rfl
theorem BSIG0_eq (x : W32) : BSIG0 x = Sha.p256.S0 x := by
  unfold BSIG0 ROTR
  simp only [rotr_eq x _ (by decide : 2 < 32), rotr_eq x _ (by decide : 13 < 32),
    rotr_eq x _ (by decide : 22 < 32)]; rfl
theorem BSIG1_eq (x : W32) : BSIG1 x = Sha.p256.S1 x := by
  unfold BSIG1 ROTR
  simp only [rotr_eq x _ (by decide : 6 < 32), rotr_eq x _ (by decide : 11 < 32),
    rotr_eq x _ (by decide : 25 < 32)]; rfl

theorem sched_eq (blk : Bytes) (t : Nat) (h : 16 ≤ t) :
    sched ((List.range t).map (Sha.p256.W blk)) t = .ok (Sha.p256.W blk t) := by
  unfold sched
  rw [rd_map_range _ _ _ (by omega), rd_map_range _ _ _ (by omega), rd_map_range _ _ _ (by omega),
    rd_map_range _ _ _ (by omega)]
  simp only [Out.bind_ok, Out.pure_eq, SSIG0_eq, SSIG1_eq]
  conv => rhs; rw [Sha.Sha2.W, if_neg (by omega)]

theorem compress_eq (st : Eight 32) (blk : Bytes) :
    compress st (ws 32 4 16 blk) = .ok (Sha.p256.compress st blk) := by
  unfold compress
  rw [if_neg (by simp [ws_length]), ws_eq,
    expand_eq sched (Sha.p256.W blk) 48 16 (fun t h _ => sched_eq blk t h), Out.bind_ok,
    show forLoop (step ((List.range (16 + 48)).map (Sha.p256.W blk))) 64 0 st =
      forLoop (step ((List.range (16 + 48)).map (Sha.p256.W blk))) K.length 0 st from rfl,
    forLoop_zipIdx _ (fun k t s => Sha.p256.round blk s k t)]
  · rw [Out.bind_ok]
    unfold Sha.Sha2.compress Sha.add8
    rw [show Sha.p256.K = K from K_eq.symm]
    simp only [Out.pure_eq, BitVec.add_comm]
  · intro t s hi
    unfold step
    have hi' : t < 64 := hi
    rw [Nat.zero_add, rd_eq_ok hi, rd_map_range _ _ _ (by omega)]
    simp only [Out.bind_ok, Out.pure_eq, Sha.Sha2.round, BSIG0_eq, BSIG1_eq]
    rfl

theorem wf (init : Eight 32) : Wf (alg init) where
  w8 := by decide
  wb_pos := Nat.zero_lt_succ _
  nr_pos := Nat.zero_lt_succ _
  tab := by unfold TabOk; exact (by decide +kernel : ∀ b, b < 16 * 4 → tab[b]? = some (b / 4))
  off := (by decide : 56 < 16 * 4)
  off_pos := (by decide : 0 < 56)

theorem init256_spec : Sha.IsSha256Init init256 := by unfold Sha.IsSha256Init; decide +kernel
theorem init224_spec : Sha.IsSha224Init init224 := by unfold Sha.IsSha224Init; decide +kernel

end Sha256

namespace Sha512

theorem K_eq : K = Sha.K512 := by decide +kernel

theorem ws_eq (blk : Bytes) : ws 64 8 16 blk = (List.range 16).map (Sha.p512.W blk) := by
  rw [ws_range]
  apply List.map_congr_left
  intro i hi
  rw [Sha.Sha2.W, if_pos (by simpa using hi)]; rfl

theorem SSIG0_eq (x : W64) : SSIG0 x = Sha.p512.s0 x := by
  unfold SSIG0 ROTR; simp only [rotr_eq x _ (by decide : 1 < 64), rotr_eq x _ (by decide : 8 < 64)]; rfl
theorem SSIG1_eq (x : W64) : SSIG1 x = Sha.p512.s1 x := by
  unfold SSIG1 ROTR; simp only [rotr_eq x _ (by decide : 19 < 64), rotr_eq x _ (by decide : 61 < 64)]; rfl
theorem BSIG0_eq (x : W64) : BSIG0 x = Sha.p512.S0 x := by
  unfold BSIG0 ROTR
  simp only [rotr_eq x _ (by decide : 28 < 64), rotr_eq x _ (by decide : 34 < 64),
    rotr_eq x _ (by decide : 39 < 64)]; rfl
theorem BSIG1_eq (x : W64) : BSIG1 x = Sha.p512.S1 x := by
  unfold BSIG1 ROTR
  simp only [rotr_eq x _ (by decide : 14 < 64), rotr_eq x _ (by decide : 18 < 64),
    rotr_eq x _ (by decide : 41 < 64)]; rfl

theorem sched_eq (blk : Bytes) (t : Nat) (h : 16 ≤ t) :
    sched ((List.range t).map (Sha.p512.W blk)) t = .ok (Sha.p512.W blk t) := by
  unfold sched
  rw [rd_map_range _ _ _ (by omega), rd_map_range _ _ _ (by omega), rd_map_range _ _ _ (by omega),
    rd_map_range _ _ _ (by omega)]
  simp only [Out.bind_ok, Out.pure_eq, SSIG0_eq, SSIG1_eq]
  conv => rhs; rw [Sha.Sha2.W, if_neg (by omega)]

theorem compress_eq (st : Eight 64) (blk : Bytes) :
    compress st (ws 64 8 16 blk) = .ok (Sha.p512.compress st blk) := by
  unfold compress
  rw [if_neg (by simp [ws_length]), ws_eq,
    expand_eq sched (Sha.p512.W blk) 64 16 (fun t h _ => sched_eq blk t h), Out.bind_ok,
    show forLoop (step ((List.range (16 + 64)).map (Sha.p512.W blk))) 80 0 st =
      forLoop (step ((List.range (16 + 64)).map (Sha.p512.W blk))) K.length 0 st from rfl,
    forLoop_zipIdx _ (fun k t s => Sha.p512.round blk s k t)]
  · rw [Out.bind_ok]
    unfold Sha.Sha2.compress Sha.add8
    rw [show Sha.p512.K = K from K_eq.symm]
    simp only [Out.pure_eq, BitVec.add_comm]
  · intro t s hi
    unfold step
    have hi' : t < 80 := hi
    rw [Nat.zero_add, rd_eq_ok hi, rd_map_range _ _ _ (by omega)]
    simp only [Out.bind_ok, Out.pure_eq, Sha.Sha2.round, BSIG0_eq, BSIG1_eq]
    rfl

theorem wf (init : Eight 64) : Wf (alg init) where
  w8 := by decide
  wb_pos := Nat.zero_lt_succ _
  nr_pos := Nat.zero_lt_succ _
  tab := by unfold TabOk; exact (by decide +kernel : ∀ b, b < 16 * 8 → tab[b]? = some (b / 8))
  off := (by decide : 120 < 16 * 8)
  off_pos := (by decide : 0 < 120)

theorem init512_spec : Sha.IsSha512Init init512 := by unfold Sha.IsSha512Init; decide +kernel
theorem init384_spec : Sha.IsSha384Init init384 := by unfold Sha.IsSha384Init; decide +kernel

end Sha512
end Kryptos
