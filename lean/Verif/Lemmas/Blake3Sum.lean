import Verif.Lemmas.Blake3Chunk
/- The output of the code and that of BLAKE3. -/
namespace Kryptos.Blake3
open Spec.Blake3 (Vec put IV Node outBlock output)
open Spec.MD (leNat le)

theorem bytes4_eq (w : W32) : bytes4 w = le 4 w.toNat := by
  rw [← Blake2.put32]
  obtain ⟨a, b, c, d, -, rfl⟩ := be32_putBe32 w
  rw [Blake2.rev32_be32, Hash.cpyBe_eq, Md.be4_toNat]
  unfold bytes4
  congr 1
  · unfold be32; apply BitVec.eq_of_getLsbD_eq; intro i hi; interval_cases i <;> simp
  congr 1
  · unfold be32; apply BitVec.eq_of_getLsbD_eq; intro i hi; interval_cases i <;> simp
  congr 1
  · unfold be32; apply BitVec.eq_of_getLsbD_eq; intro i hi; interval_cases i <;> simp
  congr 1
  · unfold be32; apply BitVec.eq_of_getLsbD_eq; intro i hi; interval_cases i <;> simp

/-- Eight words as bytes. -/
def half (A : Vec) (i : Nat) : Bytes := (List.range 8).flatMap fun j => le 4 (A (i + j)).toNat

theorem half_length (A : Vec) (i : Nat) : (half A i).length = 32 := by
  unfold half; simp [List.length_flatMap, Md.le_length]

theorem emit_eq (outSize : Nat) (c : Ctx) (A : Vec) (i : Nat) (op : Bytes) (hv : c.v = vec 16 A) (hi : i ≤ 8) (h : op.length + 32 ≤ outSize) :
    emit outSize c i op = .ok (op ++ half A i) := by
  unfold emit
  rw [hv, mapM_vec (fun j => A (i + j)) (fun j hj => rd_vec 16 A (i + j) (by omega)), Out.bind_ok, if_pos h, Out.pure_eq]
  congr 2
  unfold vec half
  rw [List.flatMap_map]
  rw [List.flatMap_def, List.flatMap_def]
  congr 1
  apply List.map_congr_left
  intro j _
  exact bytes4_eq _

/-- The node of the `j`-th output block. -/
def outNode (n : Node) (j : Nat) : Node := { n with t := BitVec.ofNat _ j, d := n.d ||| Spec.Blake3.ROOT }

theorem outBlock_halves (n : Node) (j : Nat) :
    outBlock n j = half (Spec.Blake3.compress (outNode n j)) 0 ++ half (Spec.Blake3.compress (outNode n j)) 8 := by
  unfold outBlock half outNode
  rw [show List.range 16 = List.range (8 + 8) from rfl, List.range_add, List.flatMap_append, List.flatMap_map]
  simp only [Nat.zero_add]

theorem outBlocks_length (n : Node) (j : Nat) : ((List.range j).flatMap (outBlock n)).length = 64 * j := by
  rw [List.length_flatMap]
  have : ∀ i, (outBlock n i).length = 64 := by
    intro i; rw [outBlock_halves, List.length_append, half_length, half_length]
  simp [this, Nat.mul_comm]

/-- The first words of a compression with other words of the counter. -/
def startWith (n : Node) (x y : W32) : List W32 := vec 8 n.h ++ vec 4 IV ++ [x, y, n.b, n.d]

theorem wr_12 (n : Node) (x y z : W32) : wr (startWith n x y) 12 z = .ok (startWith n z y) := rfl
theorem wr_13 (n : Node) (x y z : W32) : wr (startWith n x y) 13 z = .ok (startWith n x z) := rfl

theorem sum_run (n : Node) (wanted outSize : Nat) (ho : outSize = outSizeOf wanted) : ∀ fuel i (c : Ctx) (op : Bytes),
    c.wanted = wanted → c.v = vec 16 (Spec.Blake3.compress (outNode n i)) → Kept c (outNode n 0) → c.t = BitVec.ofNat 64 (i + 1) →
    op = (List.range i).flatMap (outBlock n) → c.cur = 64 * i → 64 * i < outSize → outSize ≤ fuel + 64 * i →
    ∃ c' out, sumLoop outSize fuel c op = .ok (c', out) ∧ out.length = outSize ∧ out.take wanted = output n wanted ∧ c'.wanted = wanted ∧
      wanted ≤ c'.cur := by
  have hW : wanted ≤ outSize ∧ outSize < wanted + 32 ∧ outSize % 32 = 0 := by rw [ho]; unfold outSizeOf; omega
  intro fuel
  induction fuel with
  | zero => intro i c op _ _ _ _ _ _ h1 h2; omega
  | succ fuel ih =>
    intro i c op ew ev ek et eo ec h1 h2
    have hl : op.length = 64 * i := by rw [eo, outBlocks_length]
    rw [sumLoop, emit_eq outSize c _ 0 op ev (by decide) (by omega), Out.bind_ok]
    have hl2 : (op ++ half (Spec.Blake3.compress (outNode n i)) 0).length = 64 * i + 32 := by rw [List.length_append, hl, half_length]
    dsimp only
    by_cases c1 : 64 * i + 32 < wanted
    · rw [if_pos ⟨by omega, by omega⟩, emit_eq outSize { c with cur := c.cur + 32 } _ 8 _ ev (by decide) (by omega), Out.bind_ok]
      have e64 : op ++ half (Spec.Blake3.compress (outNode n i)) 0 ++ half (Spec.Blake3.compress (outNode n i)) 8 =
          (List.range (i + 1)).flatMap (outBlock n) := by
        rw [List.range_succ, List.flatMap_append, ← eo, List.append_assoc, ← outBlock_halves]
        simp
      rw [e64]
      have hl3 := outBlocks_length n (i + 1)
      by_cases c2 : outSize ≤ 64 * (i + 1)
      · rw [if_pos (by right; omega), Out.pure_eq]
        refine ⟨_, _, rfl, by omega, ?_, ew, ?_⟩
        · unfold output
          rw [show (wanted + 63) / 64 = i + 1 by omega]
        · show wanted ≤ c.cur + 32 + 32
          omega
      · have e1 : ∀ m : Node, start m = startWith m ((m.t &&& 0xFFFFFFFF#64).setWidth 32) ((m.t >>> 32).setWidth 32) := fun _ => rfl
        have e2 : startWith (outNode n 0) ((BitVec.ofNat 64 (i + 1) &&& 0xFFFFFFFF#64).setWidth 32) ((BitVec.ofNat 64 (i + 1) >>> 32).setWidth 32) =
          start (outNode n (i + 1)) := rfl
        rw [if_neg (by omega), ek.vv, et, e1, wr_12, Out.bind_ok, wr_13, Out.bind_ok, e2]
        rw [ctx_compress _ (outNode n (i + 1)) rfl ek.mm ek.hh, Out.bind_ok]
        refine ih (i + 1) _ _ ew rfl ⟨ek.hh, rfl, ek.mm⟩ ?_ rfl ?_ (by omega) (by omega)
        · show BitVec.ofNat 64 (i + 1) + 1 = _
          rw [BitVec.ofNat_add (i + 1) 1]
          rfl
        · show c.cur + 32 + 32 = _
          omega
    · rw [if_neg (by omega), Out.pure_eq]
      refine ⟨_, _, rfl, by omega, ?_, ew, ?_⟩
      · unfold output
        rw [show (wanted + 63) / 64 = i + 1 by omega, List.range_succ, List.flatMap_append, ← eo]
        simp only [List.flatMap_cons, List.flatMap_nil, List.append_nil]
        rw [outBlock_halves, ← List.append_assoc, List.take_append_of_le_length (l₂ := half _ 8) (by omega)]
      · show wanted ≤ c.cur + 32
        omega

theorem getSum_eq (n : Node) (c : Ctx) (hw : 0 < c.wanted) (hv : c.v = vec 16 (Spec.Blake3.compress (outNode n 0))) (hk : Kept c (outNode n 0))
    (hc : c.cur = 0) :
    ∃ c' out, getSum (outSizeOf c.wanted) c = .ok (c', out) ∧ out.length = outSizeOf c.wanted ∧ out.take c.wanted = output n c.wanted ∧
      c'.wanted = c.wanted ∧ c.wanted ≤ c'.cur := by
  have h0 : 0 < outSizeOf c.wanted := by unfold outSizeOf; omega
  unfold getSum
  rw [if_neg (by omega)]
  exact sum_run n c.wanted _ rfl _ 0 _ [] rfl hv ⟨hk.hh, hk.vv, hk.mm⟩ rfl rfl (by rw [hc]) (by omega) (by omega)

end Kryptos.Blake3
