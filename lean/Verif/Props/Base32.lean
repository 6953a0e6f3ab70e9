import Verif.Model.Base32
import Verif.Lemmas.Bits
import Mathlib.Tactic.IntervalCases
/-
  C03, C04 (base32 part).
-/
namespace Kryptos.Base32
open Kryptos.Spec

/-- Lookup of the decoder. -/
private def look (c : Byte) : Out Byte := rd state1 (encodedByte c).toNat

private theorem table_fact : ∀ v : BitVec 5, ∀ c, state[v.toNat]? = some c →
    look c = .ok (v.setWidth 8) ∧ c ≠ 0x3D#8 := by
  have key : ∀ v : BitVec 5, (match state[v.toNat]? with
    | some c => decide (look c = .ok (v.setWidth 8)) && decide (c ≠ 0x3D#8)
    | none => false) = true := by decide +kernel
  intro v c h
  have := key v
  simp only [h, Bool.and_eq_true, decide_eq_true_eq] at this
  exact this

private theorem look_pad : rd state1 (encodedByte 0x3D#8).toNat = .ok 0#8 := by decide

private theorem state_len : state.length = 32 := by decide

private theorem rd_state (v : W64) (h : v.toNat < 32) :
    ∃ c, rd state v.toNat = .ok c ∧ base32Alphabet[v.toNat]? = some c ∧
      rd state1 (encodedByte c).toNat = .ok (v.setWidth 8) ∧ c ≠ 0x3D#8 := by
  obtain ⟨c, h1, h2⟩ := rd_table state v.toNat (by rw [state_len]; exact h)
  refine ⟨c, h1, h2, ?_⟩
  have e : (v.setWidth 5).toNat = v.toNat := by
    rw [BitVec.toNat_setWidth]; exact Nat.mod_eq_of_lt h
  have := table_fact (v.setWidth 5) c (by rw [e]; exact h2)
  refine ⟨?_, this.2⟩
  have t := this.1
  unfold look at t
  rw [t]
  congr 1
  apply BitVec.eq_of_toNat_eq
  rw [BitVec.toNat_setWidth, e, BitVec.toNat_setWidth]

private def i0 (blk : W64) : W64 := (blk &&& 0x000000F800000000#64) >>> 35
private def i1 (blk : W64) : W64 := (blk &&& 0x00000007C0000000#64) >>> 30
private def i2 (blk : W64) : W64 := (blk &&& 0x000000003E000000#64) >>> 25
private def i3 (blk : W64) : W64 := (blk &&& 0x0000000001F00000#64) >>> 20
private def i4 (blk : W64) : W64 := (blk &&& 0x00000000000F8000#64) >>> 15
private def i5 (blk : W64) : W64 := (blk &&& 0x0000000000007C00#64) >>> 10
private def i6 (blk : W64) : W64 := (blk &&& 0x00000000000003E0#64) >>> 5
private def i7 (blk : W64) : W64 := blk &&& 0x000000000000001F#64
private theorem i0_lt (b : W64) : (i0 b).toNat < 32 := and_shr_lt _ _ _ _ (by decide)
private theorem i1_lt (b : W64) : (i1 b).toNat < 32 := and_shr_lt _ _ _ _ (by decide)
private theorem i2_lt (b : W64) : (i2 b).toNat < 32 := and_shr_lt _ _ _ _ (by decide)
private theorem i3_lt (b : W64) : (i3 b).toNat < 32 := and_shr_lt _ _ _ _ (by decide)
private theorem i4_lt (b : W64) : (i4 b).toNat < 32 := and_shr_lt _ _ _ _ (by decide)
private theorem i5_lt (b : W64) : (i5 b).toNat < 32 := and_shr_lt _ _ _ _ (by decide)
private theorem i6_lt (b : W64) : (i6 b).toNat < 32 := and_shr_lt _ _ _ _ (by decide)
private theorem i7_lt (b : W64) : (i7 b).toNat < 32 := and_lt _ _ _ (by decide)

/-- The eight quintets of a 40-bit group, as bit strings. -/
private theorem quintets (a b c d e : Byte) (blk : W64) (h : blk = accBlock [a, b, c, d, e]) :
    (i0 blk).toNat = bitsVal [a.getLsbD 7, a.getLsbD 6, a.getLsbD 5, a.getLsbD 4, a.getLsbD 3] ∧
    (i1 blk).toNat = bitsVal [a.getLsbD 2, a.getLsbD 1, a.getLsbD 0, b.getLsbD 7, b.getLsbD 6] ∧
    (i2 blk).toNat = bitsVal [b.getLsbD 5, b.getLsbD 4, b.getLsbD 3, b.getLsbD 2, b.getLsbD 1] ∧
    (i3 blk).toNat = bitsVal [b.getLsbD 0, c.getLsbD 7, c.getLsbD 6, c.getLsbD 5, c.getLsbD 4] ∧
    (i4 blk).toNat = bitsVal [c.getLsbD 3, c.getLsbD 2, c.getLsbD 1, c.getLsbD 0, d.getLsbD 7] ∧
    (i5 blk).toNat = bitsVal [d.getLsbD 6, d.getLsbD 5, d.getLsbD 4, d.getLsbD 3, d.getLsbD 2] ∧
    (i6 blk).toNat = bitsVal [d.getLsbD 1, d.getLsbD 0, e.getLsbD 7, e.getLsbD 6, e.getLsbD 5] ∧
    (i7 blk).toNat = bitsVal [e.getLsbD 4, e.getLsbD 3, e.getLsbD 2, e.getLsbD 1, e.getLsbD 0] := by
  subst h
  refine ⟨?_, ?_, ?_, ?_, ?_, ?_, ?_, ?_⟩
  · rw [bitsVal_bv5 _ (i0_lt _)]; simp [i0, accBlock]
  · rw [bitsVal_bv5 _ (i1_lt _)]; simp [i1, accBlock]
  · rw [bitsVal_bv5 _ (i2_lt _)]; simp [i2, accBlock]
  · rw [bitsVal_bv5 _ (i3_lt _)]; simp [i3, accBlock]
  · rw [bitsVal_bv5 _ (i4_lt _)]; simp [i4, accBlock]
  · rw [bitsVal_bv5 _ (i5_lt _)]; simp [i5, accBlock]
  · rw [bitsVal_bv5 _ (i6_lt _)]; simp [i6, accBlock]
  · rw [bitsVal_bv5 _ (i7_lt _)]; simp [i7, accBlock]
private theorem rdi0 (blk : W64) : ∃ c, rd state (((blk &&& 0x000000F800000000#64) >>> 35).toNat) = .ok c ∧ base32Alphabet[(i0 blk).toNat]? = some c ∧
    rd state1 (encodedByte c).toNat = .ok ((i0 blk).setWidth 8) ∧ c ≠ 0x3D#8 := rd_state _ (i0_lt blk)
private theorem rdi1 (blk : W64) : ∃ c, rd state (((blk &&& 0x00000007C0000000#64) >>> 30).toNat) = .ok c ∧ base32Alphabet[(i1 blk).toNat]? = some c ∧
    rd state1 (encodedByte c).toNat = .ok ((i1 blk).setWidth 8) ∧ c ≠ 0x3D#8 := rd_state _ (i1_lt blk)
private theorem rdi2 (blk : W64) : ∃ c, rd state (((blk &&& 0x000000003E000000#64) >>> 25).toNat) = .ok c ∧ base32Alphabet[(i2 blk).toNat]? = some c ∧
    rd state1 (encodedByte c).toNat = .ok ((i2 blk).setWidth 8) ∧ c ≠ 0x3D#8 := rd_state _ (i2_lt blk)
private theorem rdi3 (blk : W64) : ∃ c, rd state (((blk &&& 0x0000000001F00000#64) >>> 20).toNat) = .ok c ∧ base32Alphabet[(i3 blk).toNat]? = some c ∧
    rd state1 (encodedByte c).toNat = .ok ((i3 blk).setWidth 8) ∧ c ≠ 0x3D#8 := rd_state _ (i3_lt blk)
private theorem rdi4 (blk : W64) : ∃ c, rd state (((blk &&& 0x00000000000F8000#64) >>> 15).toNat) = .ok c ∧ base32Alphabet[(i4 blk).toNat]? = some c ∧
    rd state1 (encodedByte c).toNat = .ok ((i4 blk).setWidth 8) ∧ c ≠ 0x3D#8 := rd_state _ (i4_lt blk)
private theorem rdi5 (blk : W64) : ∃ c, rd state (((blk &&& 0x0000000000007C00#64) >>> 10).toNat) = .ok c ∧ base32Alphabet[(i5 blk).toNat]? = some c ∧
    rd state1 (encodedByte c).toNat = .ok ((i5 blk).setWidth 8) ∧ c ≠ 0x3D#8 := rd_state _ (i5_lt blk)
private theorem rdi6 (blk : W64) : ∃ c, rd state (((blk &&& 0x00000000000003E0#64) >>> 5).toNat) = .ok c ∧ base32Alphabet[(i6 blk).toNat]? = some c ∧
    rd state1 (encodedByte c).toNat = .ok ((i6 blk).setWidth 8) ∧ c ≠ 0x3D#8 := rd_state _ (i6_lt blk)
private theorem rdi7 (blk : W64) : ∃ c, rd state ((blk &&& 0x000000000000001F#64).toNat) = .ok c ∧ base32Alphabet[(i7 blk).toNat]? = some c ∧
    rd state1 (encodedByte c).toNat = .ok ((i7 blk).setWidth 8) ∧ c ≠ 0x3D#8 := rd_state _ (i7_lt blk)

private def acc5 (block : W64) (v : Byte) : W64 := (block <<< 5) ||| v.setWidth 64

private def b0 (block : W64) : Byte := ((block >>> 32) &&& 0xFF#64).setWidth 8
private def b1 (block : W64) : Byte := ((block >>> 24) &&& 0xFF#64).setWidth 8
private def b2 (block : W64) : Byte := ((block >>> 16) &&& 0xFF#64).setWidth 8
private def b3 (block : W64) : Byte := ((block >>> 8) &&& 0xFF#64).setWidth 8
private def b4 (block : W64) : Byte := (block &&& 0xFF#64).setWidth 8

private def accAll (block blk : W64) : W64 :=
  acc5 (acc5 (acc5 (acc5 (acc5 (acc5 (acc5 (acc5 block ((i0 blk).setWidth 8)) ((i1 blk).setWidth 8))
    ((i2 blk).setWidth 8)) ((i3 blk).setWidth 8)) ((i4 blk).setWidth 8)) ((i5 blk).setWidth 8))
    ((i6 blk).setWidth 8)) ((i7 blk).setWidth 8)

private theorem accAll_bit (block blk : W64) (i : Nat) (hi : i < 40) :
    (accAll block blk).getLsbD i = blk.getLsbD i := by
  interval_cases i <;> simp [accAll, acc5, i0, i1, i2, i3, i4, i5, i6, i7]

private theorem unpack (block : W64) (a b c d e : Byte) :
    b0 (accAll block (accBlock [a, b, c, d, e])) = a ∧ b1 (accAll block (accBlock [a, b, c, d, e])) = b ∧
    b2 (accAll block (accBlock [a, b, c, d, e])) = c ∧ b3 (accAll block (accBlock [a, b, c, d, e])) = d ∧
    b4 (accAll block (accBlock [a, b, c, d, e])) = e := by
  generalize hB : accAll block (accBlock [a, b, c, d, e]) = B
  have hbit : ∀ i, i < 40 → B.getLsbD i = (accBlock [a, b, c, d, e]).getLsbD i := by
    intro i hi; rw [← hB]; exact accAll_bit _ _ i hi
  refine ⟨?_, ?_, ?_, ?_, ?_⟩
  all_goals
    apply BitVec.eq_of_getLsbD_eq
    intro i hi
    simp only [b0, b1, b2, b3, b4, BitVec.getLsbD_setWidth, BitVec.getLsbD_and, BitVec.getLsbD_ushiftRight]
    rw [hbit _ (by omega)]
    interval_cases i <;> simp [accBlock]

private theorem accpad1 (a : Byte) : accBlock [a] <<< 32 = accBlock [a, 0#8, 0#8, 0#8, 0#8] := by
  simp only [accBlock, List.foldl_cons, List.foldl_nil]
  apply BitVec.eq_of_getLsbD_eq
  intro i hi
  interval_cases i <;> simp
private theorem accpad2 (a b : Byte) : accBlock [a, b] <<< 24 = accBlock [a, b, 0#8, 0#8, 0#8] := by
  simp only [accBlock, List.foldl_cons, List.foldl_nil]
  apply BitVec.eq_of_getLsbD_eq
  intro i hi
  interval_cases i <;> simp
private theorem accpad3 (a b c : Byte) : accBlock [a, b, c] <<< 16 = accBlock [a, b, c, 0#8, 0#8] := by
  simp only [accBlock, List.foldl_cons, List.foldl_nil]
  apply BitVec.eq_of_getLsbD_eq
  intro i hi
  interval_cases i <;> simp
private theorem accpad4 (a b c d : Byte) : accBlock [a, b, c, d] <<< 8 = accBlock [a, b, c, d, 0#8] := by
  simp only [accBlock, List.foldl_cons, List.foldl_nil]
  apply BitVec.eq_of_getLsbD_eq
  intro i hi
  interval_cases i <;> simp

private theorem decLoop_step (bp : Bytes) (block : W64) (pad cap : Nat) (room : Int) (bl : W64) (pd : Nat) (bp' : Bytes)
    (h0 : bp ≠ []) (hr : room ≠ 0) (h : decInner 8 bp block pad = .ok (bl, pd, bp')) :
    decLoop bp block pad cap room =
      if cap < (groupBytes bl pd).length then .ub
      else (do
        let rest ← decLoop bp' bl pd (cap - (groupBytes bl pd).length) (room - (groupBytes bl pd).length)
        return groupBytes bl pd ++ rest) := by
  rw [decLoop, dif_neg h0, if_neg hr]
  split
  · rename_i h'; rw [h] at h'; cases h'
  · rename_i h'; rw [h] at h'; cases h'; rfl

/-- What the induction over groups establishes. -/
private def Good (m : Bytes) : Prop :=
  ∀ avail, 8 * ((m.length + 4) / 5) ≤ avail →
    ∃ cs pad, encGroups m avail = .ok (cs, pad) ∧
      pad = (5 - m.length % 5) % 5 ∧
      cs.length = 8 * ((m.length + 4) / 5) ∧
      (cs.take (cs.length - stepBack pad)).map some = rfcChars 5 base32Alphabet m ∧
      (∀ c l, cs = c :: l → c ≠ 0x3D#8) ∧
      (∀ (block : W64) (slack : Nat), (m.length % 5 ≠ 0 ∨ 1 ≤ slack) →
        decLoop (cs.take (cs.length - stepBack pad) ++ List.replicate (stepBack pad) 0x3D#8) block 0
          (5 * ((m.length + 4) / 5) - 1 + slack) (5 * ((m.length + 4) / 5) - 1 : Nat) = .ok m)

private theorem good_nil : Good [] := by
  intro avail _
  refine ⟨[], 0, by rw [encGroups]; simp, by simp, by simp, by simp [rfcChars, bits, bitGroups_nil], by simp, ?_⟩
  intro block slack _
  rw [decLoop]; simp

private theorem good_1 (a : Byte) : Good [a] := by
  intro avail hav
  have hav8 : ¬ avail < 8 := by simp at hav; omega
  have hav0 : ¬ avail = 0 := by omega
  obtain ⟨c0, p0, q0, r0, s0⟩ := rdi0 (accBlock [a] <<< 32)
  obtain ⟨c1, p1, q1, r1, s1⟩ := rdi1 (accBlock [a] <<< 32)
  obtain ⟨c2, p2, q2, r2, s2⟩ := rdi2 (accBlock [a] <<< 32)
  obtain ⟨c3, p3, q3, r3, s3⟩ := rdi3 (accBlock [a] <<< 32)
  obtain ⟨c4, p4, q4, r4, s4⟩ := rdi4 (accBlock [a] <<< 32)
  obtain ⟨c5, p5, q5, r5, s5⟩ := rdi5 (accBlock [a] <<< 32)
  obtain ⟨c6, p6, q6, r6, s6⟩ := rdi6 (accBlock [a] <<< 32)
  obtain ⟨c7, p7, q7, r7, s7⟩ := rdi7 (accBlock [a] <<< 32)
  refine ⟨[c0, c1, c2, c3, c4, c5, c6, c7], 4, ?_, by simp, by simp, ?_, ?_, ?_⟩
  · rw [encGroups, dif_neg (by simp), if_neg hav0]
    have : encGroups [] (avail - 8) = .ok ([], 0) := by rw [encGroups]; simp
    have e : (5 - [a].length) <<< 3 = 32 := rfl
    simp only [if_neg hav8, List.take_succ_cons, List.take_nil, e, p0, p1, p2, p3, p4, p5, p6, p7, Out.bind_ok]
    simp [this]
  · have hg : bitGroups 5 (bits [a]) = [[a.getLsbD 7, a.getLsbD 6, a.getLsbD 5, a.getLsbD 4, a.getLsbD 3], [a.getLsbD 2, a.getLsbD 1, a.getLsbD 0, false, false]] := by
      have : bits [a] = [a.getLsbD 7, a.getLsbD 6, a.getLsbD 5, a.getLsbD 4, a.getLsbD 3] ++ ([a.getLsbD 2, a.getLsbD 1, a.getLsbD 0]) := by simp [bits, byteBits]
      rw [this, bitGroups_append 5 (by decide) _ _ (by rfl),
        bitGroups_short _ _ (by simp) (by simp)]
      simp
    obtain ⟨t0, t1, t2, t3, t4, t5, t6, t7⟩ := quintets a 0#8 0#8 0#8 0#8 _ rfl
    rw [accpad1, t0] at q0
    rw [accpad1, t1] at q1
    replace q1 : base32Alphabet[bitsVal [a.getLsbD 2, a.getLsbD 1, a.getLsbD 0, false, false]]? = some c1 := q1
    simp only [rfcChars, hg, List.map_cons, List.map_nil, q0, q1]
    rfl
  · rintro c l ⟨rfl, rfl⟩; exact s0
  · intro block slack _
    have hu := unpack block a 0#8 0#8 0#8 0#8
    rw [← accpad1] at hu
    have ht : [c0, c1, c2, c3, c4, c5, c6, c7].take ([c0, c1, c2, c3, c4, c5, c6, c7].length - stepBack 4) ++ List.replicate (stepBack 4) 0x3D#8 = [c0, c1, 0x3D#8, 0x3D#8, 0x3D#8, 0x3D#8, 0x3D#8, 0x3D#8] := rfl
    have z2 : (i2 (accBlock [a] <<< 32)).setWidth 8 = 0#8 := by
      rw [accpad1]; simp only [accBlock, i2, List.foldl_cons, List.foldl_nil]
      apply BitVec.eq_of_getLsbD_eq
      intro i hi
      interval_cases i <;> simp
    have z3 : (i3 (accBlock [a] <<< 32)).setWidth 8 = 0#8 := by
      rw [accpad1]; simp only [accBlock, i3, List.foldl_cons, List.foldl_nil]
      apply BitVec.eq_of_getLsbD_eq
      intro i hi
      interval_cases i <;> simp
    have z4 : (i4 (accBlock [a] <<< 32)).setWidth 8 = 0#8 := by
      rw [accpad1]; simp only [accBlock, i4, List.foldl_cons, List.foldl_nil]
      apply BitVec.eq_of_getLsbD_eq
      intro i hi
      interval_cases i <;> simp
    have z5 : (i5 (accBlock [a] <<< 32)).setWidth 8 = 0#8 := by
      rw [accpad1]; simp only [accBlock, i5, List.foldl_cons, List.foldl_nil]
      apply BitVec.eq_of_getLsbD_eq
      intro i hi
      interval_cases i <;> simp
    have z6 : (i6 (accBlock [a] <<< 32)).setWidth 8 = 0#8 := by
      rw [accpad1]; simp only [accBlock, i6, List.foldl_cons, List.foldl_nil]
      apply BitVec.eq_of_getLsbD_eq
      intro i hi
      interval_cases i <;> simp
    have z7 : (i7 (accBlock [a] <<< 32)).setWidth 8 = 0#8 := by
      rw [accpad1]; simp only [accBlock, i7, List.foldl_cons, List.foldl_nil]
      apply BitVec.eq_of_getLsbD_eq
      intro i hi
      interval_cases i <;> simp
    have hin : decInner 8 [c0, c1, 0x3D#8, 0x3D#8, 0x3D#8, 0x3D#8, 0x3D#8, 0x3D#8] block 0 = .ok (accAll block (accBlock [a] <<< 32), 6, []) := by
      simp only [decInner, r0, r1, look_pad, Out.bind_ok, s0, s1, if_false, if_true, accAll, acc5, z2, z3, z4, z5, z6, z7]
    rw [ht, decLoop_step _ _ _ _ _ _ _ _ (by simp) (by simp) hin]
    have hgb : groupBytes (accAll block (accBlock [a] <<< 32)) 6 = [a] := by
      simp only [groupBytes]
      simp only [b0, b1, b2, b3, b4] at hu
      simp only [hu]
    rw [hgb, if_neg (by simp <;> omega), decLoop]
    simp

private theorem good_2 (a b : Byte) : Good [a, b] := by
  intro avail hav
  have hav8 : ¬ avail < 8 := by simp at hav; omega
  have hav0 : ¬ avail = 0 := by omega
  obtain ⟨c0, p0, q0, r0, s0⟩ := rdi0 (accBlock [a, b] <<< 24)
  obtain ⟨c1, p1, q1, r1, s1⟩ := rdi1 (accBlock [a, b] <<< 24)
  obtain ⟨c2, p2, q2, r2, s2⟩ := rdi2 (accBlock [a, b] <<< 24)
  obtain ⟨c3, p3, q3, r3, s3⟩ := rdi3 (accBlock [a, b] <<< 24)
  obtain ⟨c4, p4, q4, r4, s4⟩ := rdi4 (accBlock [a, b] <<< 24)
  obtain ⟨c5, p5, q5, r5, s5⟩ := rdi5 (accBlock [a, b] <<< 24)
  obtain ⟨c6, p6, q6, r6, s6⟩ := rdi6 (accBlock [a, b] <<< 24)
  obtain ⟨c7, p7, q7, r7, s7⟩ := rdi7 (accBlock [a, b] <<< 24)
  refine ⟨[c0, c1, c2, c3, c4, c5, c6, c7], 3, ?_, by simp, by simp, ?_, ?_, ?_⟩
  · rw [encGroups, dif_neg (by simp), if_neg hav0]
    have : encGroups [] (avail - 8) = .ok ([], 0) := by rw [encGroups]; simp
    have e : (5 - [a, b].length) <<< 3 = 24 := rfl
    simp only [if_neg hav8, List.take_succ_cons, List.take_nil, e, p0, p1, p2, p3, p4, p5, p6, p7, Out.bind_ok]
    simp [this]
  · have hg : bitGroups 5 (bits [a, b]) = [[a.getLsbD 7, a.getLsbD 6, a.getLsbD 5, a.getLsbD 4, a.getLsbD 3], [a.getLsbD 2, a.getLsbD 1, a.getLsbD 0, b.getLsbD 7, b.getLsbD 6], [b.getLsbD 5, b.getLsbD 4, b.getLsbD 3, b.getLsbD 2, b.getLsbD 1], [b.getLsbD 0, false, false, false, false]] := by
      have : bits [a, b] = [a.getLsbD 7, a.getLsbD 6, a.getLsbD 5, a.getLsbD 4, a.getLsbD 3] ++ ([a.getLsbD 2, a.getLsbD 1, a.getLsbD 0, b.getLsbD 7, b.getLsbD 6] ++ ([b.getLsbD 5, b.getLsbD 4, b.getLsbD 3, b.getLsbD 2, b.getLsbD 1] ++ ([b.getLsbD 0]))) := by simp [bits, byteBits]
      rw [this, bitGroups_append 5 (by decide) _ _ (by rfl), bitGroups_append 5 (by decide) _ _ (by rfl), bitGroups_append 5 (by decide) _ _ (by rfl),
        bitGroups_short _ _ (by simp) (by simp)]
      simp
    obtain ⟨t0, t1, t2, t3, t4, t5, t6, t7⟩ := quintets a b 0#8 0#8 0#8 _ rfl
    rw [accpad2, t0] at q0
    rw [accpad2, t1] at q1
    rw [accpad2, t2] at q2
    rw [accpad2, t3] at q3
    replace q3 : base32Alphabet[bitsVal [b.getLsbD 0, false, false, false, false]]? = some c3 := q3
    simp only [rfcChars, hg, List.map_cons, List.map_nil, q0, q1, q2, q3]
    rfl
  · rintro c l ⟨rfl, rfl⟩; exact s0
  · intro block slack _
    have hu := unpack block a b 0#8 0#8 0#8
    rw [← accpad2] at hu
    have ht : [c0, c1, c2, c3, c4, c5, c6, c7].take ([c0, c1, c2, c3, c4, c5, c6, c7].length - stepBack 3) ++ List.replicate (stepBack 3) 0x3D#8 = [c0, c1, c2, c3, 0x3D#8, 0x3D#8, 0x3D#8, 0x3D#8] := rfl
    have z4 : (i4 (accBlock [a, b] <<< 24)).setWidth 8 = 0#8 := by
      rw [accpad2]; simp only [accBlock, i4, List.foldl_cons, List.foldl_nil]
      apply BitVec.eq_of_getLsbD_eq
      intro i hi
      interval_cases i <;> simp
    have z5 : (i5 (accBlock [a, b] <<< 24)).setWidth 8 = 0#8 := by
      rw [accpad2]; simp only [accBlock, i5, List.foldl_cons, List.foldl_nil]
      apply BitVec.eq_of_getLsbD_eq
      intro i hi
      interval_cases i <;> simp
    have z6 : (i6 (accBlock [a, b] <<< 24)).setWidth 8 = 0#8 := by
      rw [accpad2]; simp only [accBlock, i6, List.foldl_cons, List.foldl_nil]
      apply BitVec.eq_of_getLsbD_eq
      intro i hi
      interval_cases i <;> simp
    have z7 : (i7 (accBlock [a, b] <<< 24)).setWidth 8 = 0#8 := by
      rw [accpad2]; simp only [accBlock, i7, List.foldl_cons, List.foldl_nil]
      apply BitVec.eq_of_getLsbD_eq
      intro i hi
      interval_cases i <;> simp
    have hin : decInner 8 [c0, c1, c2, c3, 0x3D#8, 0x3D#8, 0x3D#8, 0x3D#8] block 0 = .ok (accAll block (accBlock [a, b] <<< 24), 4, []) := by
      simp only [decInner, r0, r1, r2, r3, look_pad, Out.bind_ok, s0, s1, s2, s3, if_false, if_true, accAll, acc5, z4, z5, z6, z7]
    rw [ht, decLoop_step _ _ _ _ _ _ _ _ (by simp) (by simp) hin]
    have hgb : groupBytes (accAll block (accBlock [a, b] <<< 24)) 4 = [a, b] := by
      simp only [groupBytes]
      simp only [b0, b1, b2, b3, b4] at hu
      simp only [hu]
    rw [hgb, if_neg (by simp <;> omega), decLoop]
    simp

private theorem good_3 (a b c : Byte) : Good [a, b, c] := by
  intro avail hav
  have hav8 : ¬ avail < 8 := by simp at hav; omega
  have hav0 : ¬ avail = 0 := by omega
  obtain ⟨c0, p0, q0, r0, s0⟩ := rdi0 (accBlock [a, b, c] <<< 16)
  obtain ⟨c1, p1, q1, r1, s1⟩ := rdi1 (accBlock [a, b, c] <<< 16)
  obtain ⟨c2, p2, q2, r2, s2⟩ := rdi2 (accBlock [a, b, c] <<< 16)
  obtain ⟨c3, p3, q3, r3, s3⟩ := rdi3 (accBlock [a, b, c] <<< 16)
  obtain ⟨c4, p4, q4, r4, s4⟩ := rdi4 (accBlock [a, b, c] <<< 16)
  obtain ⟨c5, p5, q5, r5, s5⟩ := rdi5 (accBlock [a, b, c] <<< 16)
  obtain ⟨c6, p6, q6, r6, s6⟩ := rdi6 (accBlock [a, b, c] <<< 16)
  obtain ⟨c7, p7, q7, r7, s7⟩ := rdi7 (accBlock [a, b, c] <<< 16)
  refine ⟨[c0, c1, c2, c3, c4, c5, c6, c7], 2, ?_, by simp, by simp, ?_, ?_, ?_⟩
  · rw [encGroups, dif_neg (by simp), if_neg hav0]
    have : encGroups [] (avail - 8) = .ok ([], 0) := by rw [encGroups]; simp
    have e : (5 - [a, b, c].length) <<< 3 = 16 := rfl
    simp only [if_neg hav8, List.take_succ_cons, List.take_nil, e, p0, p1, p2, p3, p4, p5, p6, p7, Out.bind_ok]
    simp [this]
  · have hg : bitGroups 5 (bits [a, b, c]) = [[a.getLsbD 7, a.getLsbD 6, a.getLsbD 5, a.getLsbD 4, a.getLsbD 3], [a.getLsbD 2, a.getLsbD 1, a.getLsbD 0, b.getLsbD 7, b.getLsbD 6], [b.getLsbD 5, b.getLsbD 4, b.getLsbD 3, b.getLsbD 2, b.getLsbD 1], [b.getLsbD 0, c.getLsbD 7, c.getLsbD 6, c.getLsbD 5, c.getLsbD 4], [c.getLsbD 3, c.getLsbD 2, c.getLsbD 1, c.getLsbD 0, false]] := by
      have : bits [a, b, c] = [a.getLsbD 7, a.getLsbD 6, a.getLsbD 5, a.getLsbD 4, a.getLsbD 3] ++ ([a.getLsbD 2, a.getLsbD 1, a.getLsbD 0, b.getLsbD 7, b.getLsbD 6] ++ ([b.getLsbD 5, b.getLsbD 4, b.getLsbD 3, b.getLsbD 2, b.getLsbD 1] ++ ([b.getLsbD 0, c.getLsbD 7, c.getLsbD 6, c.getLsbD 5, c.getLsbD 4] ++ ([c.getLsbD 3, c.getLsbD 2, c.getLsbD 1, c.getLsbD 0])))) := by simp [bits, byteBits]
      rw [this, bitGroups_append 5 (by decide) _ _ (by rfl), bitGroups_append 5 (by decide) _ _ (by rfl), bitGroups_append 5 (by decide) _ _ (by rfl), bitGroups_append 5 (by decide) _ _ (by rfl),
        bitGroups_short _ _ (by simp) (by simp)]
      simp
    obtain ⟨t0, t1, t2, t3, t4, t5, t6, t7⟩ := quintets a b c 0#8 0#8 _ rfl
    rw [accpad3, t0] at q0
    rw [accpad3, t1] at q1
    rw [accpad3, t2] at q2
    rw [accpad3, t3] at q3
    rw [accpad3, t4] at q4
    replace q4 : base32Alphabet[bitsVal [c.getLsbD 3, c.getLsbD 2, c.getLsbD 1, c.getLsbD 0, false]]? = some c4 := q4
    simp only [rfcChars, hg, List.map_cons, List.map_nil, q0, q1, q2, q3, q4]
    rfl
  · rintro c l ⟨rfl, rfl⟩; exact s0
  · intro block slack _
    have hu := unpack block a b c 0#8 0#8
    rw [← accpad3] at hu
    have ht : [c0, c1, c2, c3, c4, c5, c6, c7].take ([c0, c1, c2, c3, c4, c5, c6, c7].length - stepBack 2) ++ List.replicate (stepBack 2) 0x3D#8 = [c0, c1, c2, c3, c4, 0x3D#8, 0x3D#8, 0x3D#8] := rfl
    have z5 : (i5 (accBlock [a, b, c] <<< 16)).setWidth 8 = 0#8 := by
      rw [accpad3]; simp only [accBlock, i5, List.foldl_cons, List.foldl_nil]
      apply BitVec.eq_of_getLsbD_eq
      intro i hi
      interval_cases i <;> simp
    have z6 : (i6 (accBlock [a, b, c] <<< 16)).setWidth 8 = 0#8 := by
      rw [accpad3]; simp only [accBlock, i6, List.foldl_cons, List.foldl_nil]
      apply BitVec.eq_of_getLsbD_eq
      intro i hi
      interval_cases i <;> simp
    have z7 : (i7 (accBlock [a, b, c] <<< 16)).setWidth 8 = 0#8 := by
      rw [accpad3]; simp only [accBlock, i7, List.foldl_cons, List.foldl_nil]
      apply BitVec.eq_of_getLsbD_eq
      intro i hi
      interval_cases i <;> simp
    have hin : decInner 8 [c0, c1, c2, c3, c4, 0x3D#8, 0x3D#8, 0x3D#8] block 0 = .ok (accAll block (accBlock [a, b, c] <<< 16), 3, []) := by
      simp only [decInner, r0, r1, r2, r3, r4, look_pad, Out.bind_ok, s0, s1, s2, s3, s4, if_false, if_true, accAll, acc5, z5, z6, z7]
    rw [ht, decLoop_step _ _ _ _ _ _ _ _ (by simp) (by simp) hin]
    have hgb : groupBytes (accAll block (accBlock [a, b, c] <<< 16)) 3 = [a, b, c] := by
      simp only [groupBytes]
      simp only [b0, b1, b2, b3, b4] at hu
      simp only [hu]
    rw [hgb, if_neg (by simp <;> omega), decLoop]
    simp

private theorem good_4 (a b c d : Byte) : Good [a, b, c, d] := by
  intro avail hav
  have hav8 : ¬ avail < 8 := by simp at hav; omega
  have hav0 : ¬ avail = 0 := by omega
  obtain ⟨c0, p0, q0, r0, s0⟩ := rdi0 (accBlock [a, b, c, d] <<< 8)
  obtain ⟨c1, p1, q1, r1, s1⟩ := rdi1 (accBlock [a, b, c, d] <<< 8)
  obtain ⟨c2, p2, q2, r2, s2⟩ := rdi2 (accBlock [a, b, c, d] <<< 8)
  obtain ⟨c3, p3, q3, r3, s3⟩ := rdi3 (accBlock [a, b, c, d] <<< 8)
  obtain ⟨c4, p4, q4, r4, s4⟩ := rdi4 (accBlock [a, b, c, d] <<< 8)
  obtain ⟨c5, p5, q5, r5, s5⟩ := rdi5 (accBlock [a, b, c, d] <<< 8)
  obtain ⟨c6, p6, q6, r6, s6⟩ := rdi6 (accBlock [a, b, c, d] <<< 8)
  obtain ⟨c7, p7, q7, r7, s7⟩ := rdi7 (accBlock [a, b, c, d] <<< 8)
  refine ⟨[c0, c1, c2, c3, c4, c5, c6, c7], 1, ?_, by simp, by simp, ?_, ?_, ?_⟩
  · rw [encGroups, dif_neg (by simp), if_neg hav0]
    have : encGroups [] (avail - 8) = .ok ([], 0) := by rw [encGroups]; simp
    have e : (5 - [a, b, c, d].length) <<< 3 = 8 := rfl
    simp only [if_neg hav8, List.take_succ_cons, List.take_nil, e, p0, p1, p2, p3, p4, p5, p6, p7, Out.bind_ok]
    simp [this]
  · have hg : bitGroups 5 (bits [a, b, c, d]) = [[a.getLsbD 7, a.getLsbD 6, a.getLsbD 5, a.getLsbD 4, a.getLsbD 3], [a.getLsbD 2, a.getLsbD 1, a.getLsbD 0, b.getLsbD 7, b.getLsbD 6], [b.getLsbD 5, b.getLsbD 4, b.getLsbD 3, b.getLsbD 2, b.getLsbD 1], [b.getLsbD 0, c.getLsbD 7, c.getLsbD 6, c.getLsbD 5, c.getLsbD 4], [c.getLsbD 3, c.getLsbD 2, c.getLsbD 1, c.getLsbD 0, d.getLsbD 7], [d.getLsbD 6, d.getLsbD 5, d.getLsbD 4, d.getLsbD 3, d.getLsbD 2], [d.getLsbD 1, d.getLsbD 0, false, false, false]] := by
      have : bits [a, b, c, d] = [a.getLsbD 7, a.getLsbD 6, a.getLsbD 5, a.getLsbD 4, a.getLsbD 3] ++ ([a.getLsbD 2, a.getLsbD 1, a.getLsbD 0, b.getLsbD 7, b.getLsbD 6] ++ ([b.getLsbD 5, b.getLsbD 4, b.getLsbD 3, b.getLsbD 2, b.getLsbD 1] ++ ([b.getLsbD 0, c.getLsbD 7, c.getLsbD 6, c.getLsbD 5, c.getLsbD 4] ++ ([c.getLsbD 3, c.getLsbD 2, c.getLsbD 1, c.getLsbD 0, d.getLsbD 7] ++ ([d.getLsbD 6, d.getLsbD 5, d.getLsbD 4, d.getLsbD 3, d.getLsbD 2] ++ ([d.getLsbD 1, d.getLsbD 0])))))) := by simp [bits, byteBits]
      rw [this, bitGroups_append 5 (by decide) _ _ (by rfl), bitGroups_append 5 (by decide) _ _ (by rfl), bitGroups_append 5 (by decide) _ _ (by rfl), bitGroups_append 5 (by decide) _ _ (by rfl), bitGroups_append 5 (by decide) _ _ (by rfl), bitGroups_append 5 (by decide) _ _ (by rfl),
        bitGroups_short _ _ (by simp) (by simp)]
      simp
    obtain ⟨t0, t1, t2, t3, t4, t5, t6, t7⟩ := quintets a b c d 0#8 _ rfl
    rw [accpad4, t0] at q0
    rw [accpad4, t1] at q1
    rw [accpad4, t2] at q2
    rw [accpad4, t3] at q3
    rw [accpad4, t4] at q4
    rw [accpad4, t5] at q5
    rw [accpad4, t6] at q6
    replace q6 : base32Alphabet[bitsVal [d.getLsbD 1, d.getLsbD 0, false, false, false]]? = some c6 := q6
    simp only [rfcChars, hg, List.map_cons, List.map_nil, q0, q1, q2, q3, q4, q5, q6]
    rfl
  · rintro c l ⟨rfl, rfl⟩; exact s0
  · intro block slack _
    have hu := unpack block a b c d 0#8
    rw [← accpad4] at hu
    have ht : [c0, c1, c2, c3, c4, c5, c6, c7].take ([c0, c1, c2, c3, c4, c5, c6, c7].length - stepBack 1) ++ List.replicate (stepBack 1) 0x3D#8 = [c0, c1, c2, c3, c4, c5, c6, 0x3D#8] := rfl
    have z7 : (i7 (accBlock [a, b, c, d] <<< 8)).setWidth 8 = 0#8 := by
      rw [accpad4]; simp only [accBlock, i7, List.foldl_cons, List.foldl_nil]
      apply BitVec.eq_of_getLsbD_eq
      intro i hi
      interval_cases i <;> simp
    have hin : decInner 8 [c0, c1, c2, c3, c4, c5, c6, 0x3D#8] block 0 = .ok (accAll block (accBlock [a, b, c, d] <<< 8), 1, []) := by
      simp only [decInner, r0, r1, r2, r3, r4, r5, r6, look_pad, Out.bind_ok, s0, s1, s2, s3, s4, s5, s6, if_false, if_true, accAll, acc5, z7]
    rw [ht, decLoop_step _ _ _ _ _ _ _ _ (by simp) (by simp) hin]
    have hgb : groupBytes (accAll block (accBlock [a, b, c, d] <<< 8)) 1 = [a, b, c, d] := by
      simp only [groupBytes]
      simp only [b0, b1, b2, b3, b4] at hu
      simp only [hu]
    rw [hgb, if_neg (by simp <;> omega), decLoop]
    simp

private theorem good_5 (a b c d e : Byte) (rest : Bytes) (ih : Good rest) : Good (a :: b :: c :: d :: e :: rest) := by
  intro avail hav
  have hav8 : ¬ avail < 8 := by simp at hav; omega
  have hav0 : ¬ avail = 0 := by omega
  obtain ⟨c0, p0, q0, r0, s0⟩ := rdi0 (accBlock [a, b, c, d, e])
  obtain ⟨c1, p1, q1, r1, s1⟩ := rdi1 (accBlock [a, b, c, d, e])
  obtain ⟨c2, p2, q2, r2, s2⟩ := rdi2 (accBlock [a, b, c, d, e])
  obtain ⟨c3, p3, q3, r3, s3⟩ := rdi3 (accBlock [a, b, c, d, e])
  obtain ⟨c4, p4, q4, r4, s4⟩ := rdi4 (accBlock [a, b, c, d, e])
  obtain ⟨c5, p5, q5, r5, s5⟩ := rdi5 (accBlock [a, b, c, d, e])
  obtain ⟨c6, p6, q6, r6, s6⟩ := rdi6 (accBlock [a, b, c, d, e])
  obtain ⟨c7, p7, q7, r7, s7⟩ := rdi7 (accBlock [a, b, c, d, e])
  obtain ⟨cs, pad, e1, e2, e3, e4, e5, e6⟩ := ih (avail - 8) (by simp at hav; omega)
  have hsb : stepBack pad ≤ cs.length := by
    by_cases hr : rest.length = 0
    · simp [hr] at e2; subst e2; simp [stepBack]
    · have : stepBack pad ≤ 6 := by unfold stepBack; split <;> omega
      omega
  have htake : ∀ l8 : Bytes, l8.length = 8 → (l8 ++ cs).take ((l8 ++ cs).length - stepBack pad) =
      l8 ++ cs.take (cs.length - stepBack pad) := by
    intro l8 h8
    rw [List.take_append, List.length_append, h8, List.take_of_length_le (by omega)]
    congr 2; omega
  refine ⟨[c0, c1, c2, c3, c4, c5, c6, c7] ++ cs, pad, ?_, by rw [e2]; simp; omega, by simp; omega, ?_, ?_, ?_⟩
  · rw [encGroups, dif_neg (by simp), if_neg hav0]
    have e : (5 - [a, b, c, d, e].length) <<< 3 = 0 := rfl
    simp only [if_neg hav8, List.take_succ_cons, List.take_zero, e, BitVec.shiftLeft_zero, p0, p1, p2, p3, p4, p5, p6, p7,
      Out.bind_ok, List.drop_succ_cons, List.drop_zero, e1]
    by_cases hr : rest = []
    · subst hr; simp [e2]
    · simp [hr]
  · rw [htake _ (by rfl), List.map_append, e4]
    obtain ⟨t0, t1, t2, t3, t4, t5, t6, t7⟩ := quintets a b c d e _ rfl
    rw [t0] at q0
    rw [t1] at q1
    rw [t2] at q2
    rw [t3] at q3
    rw [t4] at q4
    rw [t5] at q5
    rw [t6] at q6
    rw [t7] at q7
    have hg : bitGroups 5 (bits (a :: b :: c :: d :: e :: rest)) = [a.getLsbD 7, a.getLsbD 6, a.getLsbD 5, a.getLsbD 4, a.getLsbD 3] :: [a.getLsbD 2, a.getLsbD 1, a.getLsbD 0, b.getLsbD 7, b.getLsbD 6] :: [b.getLsbD 5, b.getLsbD 4, b.getLsbD 3, b.getLsbD 2, b.getLsbD 1] :: [b.getLsbD 0, c.getLsbD 7, c.getLsbD 6, c.getLsbD 5, c.getLsbD 4] :: [c.getLsbD 3, c.getLsbD 2, c.getLsbD 1, c.getLsbD 0, d.getLsbD 7] :: [d.getLsbD 6, d.getLsbD 5, d.getLsbD 4, d.getLsbD 3, d.getLsbD 2] :: [d.getLsbD 1, d.getLsbD 0, e.getLsbD 7, e.getLsbD 6, e.getLsbD 5] :: [e.getLsbD 4, e.getLsbD 3, e.getLsbD 2, e.getLsbD 1, e.getLsbD 0] :: bitGroups 5 (bits rest) := by
      rw [← bitGroups_append 5 (by decide) _ _ (by rfl), ← bitGroups_append 5 (by decide) _ _ (by rfl), ← bitGroups_append 5 (by decide) _ _ (by rfl), ← bitGroups_append 5 (by decide) _ _ (by rfl), ← bitGroups_append 5 (by decide) _ _ (by rfl), ← bitGroups_append 5 (by decide) _ _ (by rfl), ← bitGroups_append 5 (by decide) _ _ (by rfl), ← bitGroups_append 5 (by decide) _ _ (by rfl)]
      rfl
    simp only [rfcChars, hg, List.map_cons, List.map_nil, q0, q1, q2, q3, q4, q5, q6, q7]
    rfl
  · rintro c l ⟨rfl, rfl⟩; exact s0
  · intro block slack hs
    rw [htake _ (by rfl)]
    have hs' : rest.length % 5 ≠ 0 ∨ 1 ≤ slack := by
      rcases hs with h | h
      · left; simp at h; omega
      · right; exact h
    generalize htail : cs.take (cs.length - stepBack pad) ++ List.replicate (stepBack pad) 0x3D#8 = tail at e6
    have hassoc : [c0, c1, c2, c3, c4, c5, c6, c7] ++ cs.take (cs.length - stepBack pad) ++ List.replicate (stepBack pad) 0x3D#8
        = c0 :: c1 :: c2 :: c3 :: c4 :: c5 :: c6 :: c7 :: tail := by
      rw [List.append_assoc, htail]; rfl
    have hfirst : ∀ x l, tail = x :: l → x ≠ 0x3D#8 := by
      intro x l hx
      by_cases hr : rest.length = 0
      · have hc : cs = [] := by
          have : cs.length = 0 := by rw [e3, hr]
          simpa using this
        subst hc
        simp [hr] at e2; subst e2
        simp [stepBack] at htail
        subst htail; cases hx
      · cases hc : cs with
        | nil => rw [hc] at e3; simp at e3; omega
        | cons y ys =>
          have hpos : cs.length - stepBack pad ≠ 0 := by
            have : stepBack pad ≤ 6 := by unfold stepBack; split <;> omega
            omega
          obtain ⟨n, hn⟩ := Nat.exists_eq_succ_of_ne_zero hpos
          rw [hn, hc] at htail
          simp only [List.take_succ_cons, List.cons_append] at htail
          rw [← htail] at hx
          injection hx with h1 h2
          rw [← h1]; exact e5 y ys hc
    have hu := unpack block a b c d e
    have hin : decInner 8 (c0 :: c1 :: c2 :: c3 :: c4 :: c5 :: c6 :: c7 :: tail) block 0 = .ok (accAll block (accBlock [a, b, c, d, e]), 0, tail) := by
      cases htl : tail with
      | nil => simp only [decInner, r0, r1, r2, r3, r4, r5, r6, r7, Out.bind_ok, s0, s1, s2, s3, s4, s5, s6, s7, if_false, accAll, acc5, Nat.add_zero]
      | cons x l => simp only [decInner, r0, r1, r2, r3, r4, r5, r6, r7, Out.bind_ok, s0, s1, s2, s3, s4, s5, s6, s7, hfirst x l htl, if_false, accAll, acc5, Nat.add_zero]
    have hgb : groupBytes (accAll block (accBlock [a, b, c, d, e])) 0 = [a, b, c, d, e] := by
      simp only [groupBytes]
      simp only [b0, b1, b2, b3, b4] at hu
      simp only [hu]
    rw [hassoc, decLoop_step _ _ _ _ _ _ _ _ (by simp) (by simp; omega) hin, hgb]
    rw [if_neg (by simp; omega)]
    by_cases hr : rest.length = 0
    · have hrn : rest = [] := by simpa using hr
      have hc : cs = [] := by
        have : cs.length = 0 := by rw [e3, hr]
        simpa using this
      subst hc
      simp [hr] at e2; subst e2
      simp [stepBack] at htail
      subst htail
      rw [decLoop, hrn]; simp
    · have key := e6 (accAll block (accBlock [a, b, c, d, e])) slack hs'
      have h1 : 5 * (((a :: b :: c :: d :: e :: rest).length + 4) / 5) - 1 + slack - [a, b, c, d, e].length
          = 5 * ((rest.length + 4) / 5) - 1 + slack := by simp; omega
      have h2 : ((5 * (((a :: b :: c :: d :: e :: rest).length + 4) / 5) - 1 : Nat) : Int) - ([a, b, c, d, e].length : Nat)
          = ((5 * ((rest.length + 4) / 5) - 1 : Nat) : Int) := by simp; omega
      rw [h1, h2, key]
      simp

private theorem good_all : ∀ m, Good m
  | [] => good_nil
  | [a] => good_1 a
  | [a, b] => good_2 a b
  | [a, b, c] => good_3 a b c
  | [a, b, c, d] => good_4 a b c d
  | a :: b :: c :: d :: e :: rest => good_5 a b c d e rest (good_all rest)

/-- Everything about encoding and about decoding with `slack` spare bytes behind the output segment. -/
private theorem base32_core (m : Bytes) (hm : m ≠ []) :
    ∃ text, encodeBuffer m = .ok (some text) ∧
      text.map some = rfc4648 5 base32Alphabet 8 m ∧
      text.length = 8 * ((m.length + 4) / 5) ∧
      ∀ slack, (m.length % 5 ≠ 0 ∨ 1 ≤ slack) → decodeBufferSlack slack text = .ok (some m) := by
  have hl : m.length ≠ 0 := by simpa using hm
  obtain ⟨cs, pad, e1, e2, e3, e4, e5, e6⟩ := good_all m _ (Nat.le_refl _)
  have hsb : stepBack pad ≤ 6 := by unfold stepBack; split <;> omega
  have hsz : ((m.length + 4) / 5) <<< 3 = 8 * ((m.length + 4) / 5) := by rw [Nat.shiftLeft_eq]; omega
  have hrc : (rfcChars 5 base32Alphabet m).length = cs.length - stepBack pad := by
    rw [← e4]; simp
  have hlen : (cs.take (cs.length - stepBack pad) ++ List.replicate (stepBack pad) 0x3D#8).length = 8 * ((m.length + 4) / 5) := by
    simp; omega
  refine ⟨_, ?_, ?_, hlen, ?_⟩
  · simp only [encodeBuffer, if_neg hl, hsz, e1, Out.bind_ok, e3, ne_eq, not_true_eq_false, if_false, Out.pure_eq]
  · have hfill : (8 - (cs.length - stepBack pad) % 8) % 8 = stepBack pad := by
      omega
    simp only [rfc4648, hrc, hfill, List.map_append, e4, List.map_replicate]
  · intro slack hs
    have h1 : (((8 * ((m.length + 4) / 5) - 4) * 5) >>> 3) + 2 = 5 * ((m.length + 4) / 5) - 1 := by
      rw [Nat.shiftRight_eq_div_pow]; omega
    unfold decodeBufferSlack
    rw [hlen, if_neg (by omega), if_neg (by omega)]
    simp only [h1, e6 0#64 slack hs, Out.bind_ok, Out.pure_eq]

/-- C03 (encoder half).  The encoder emits exactly the RFC 4648 base32 text. -/
theorem base32_encode_rfc4648 (m : Bytes) (hm : m ≠ []) :
    ∃ text, encodeBuffer m = .ok (some text) ∧ text.map some = rfc4648 5 base32Alphabet 8 m ∧
      text.length = 8 * ((m.length + 4) / 5) := by
  obtain ⟨t, h1, h2, h3, _⟩ := base32_core m hm
  exact ⟨t, h1, h2, h3⟩

/-- C03 (decoder half), what does hold: for buffers whose length is not a multiple of five,
decoding the encoded text returns the buffer.  (Missing: lengths divisible by five, where the
decoder writes one byte past its allocation, see `base32_roundtrip_false`.) -/
theorem base32_roundtrip_partial (m : Bytes) (h5 : m.length % 5 ≠ 0) :
    ∃ text, encodeBuffer m = .ok (some text) ∧ decodeBuffer text = .ok (some m) := by
  have hm : m ≠ [] := by rintro rfl; simp at h5
  obtain ⟨t, h1, _, _, h4⟩ := base32_core m hm
  exact ⟨t, h1, h4 0 (Or.inl h5)⟩

example : (ascii "foobar").length % 5 ≠ 0 := by decide
example : encodeBuffer (ascii "foobar") = .ok (some (ascii "MZXW6YTBOI======")) := by decide +kernel

/-- With an allocator that leaves at least one spare byte behind each segment the round trip
holds for every non-empty buffer; the memory error of the decoder is exactly one byte. -/
theorem base32_roundtrip_with_slack (m : Bytes) (hm : m ≠ []) (slack : Nat) (hs : 1 ≤ slack) :
    ∃ text, encodeBuffer m = .ok (some text) ∧ decodeBufferSlack slack text = .ok (some m) := by
  obtain ⟨t, h1, _, _, h4⟩ := base32_core m hm
  exact ⟨t, h1, h4 slack (Or.inr hs)⟩

/-- C03/C04 are false for the base32 decoder: decoding its own encoding of a five byte buffer
writes outside of the output segment. -/
theorem base32_roundtrip_false :
    ∃ m text, m ≠ [] ∧ encodeBuffer m = .ok (some text) ∧ decodeBuffer text = .ub := by
  exact ⟨ascii "fooba", ascii "MZXW6YTB", by decide +kernel⟩

/-- C04 is false for the base32 decoder on malformed text as well: texts shorter than four
characters wrap the size computation, byte 0xFF is outside of the 255-entry table. -/
theorem base32_decode_unsafe :
    decodeBuffer (ascii "AA=") = .ub ∧ decodeBuffer [0xFF#8, 0x41#8, 0x41#8, 0x41#8, 0x41#8, 0x41#8, 0x41#8, 0x3D#8] = .ub := by
  decide +kernel

/-- Encoding never leaves its buffers. -/
theorem base32_encode_safe (m : Bytes) : ∃ r, encodeBuffer m = .ok r := by
  by_cases h : m = []
  · exact ⟨none, by simp [encodeBuffer, h]⟩
  · obtain ⟨t, ht, _⟩ := base32_core m h
    exact ⟨_, ht⟩

end Kryptos.Base32
