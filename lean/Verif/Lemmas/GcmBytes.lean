import Verif.Lemmas.Gcm
/-
  Helper lemmas for GCM: bytes, words and blocks.
-/
namespace Kryptos.Gcm

theorem be32_wide (a b c d : Byte) : (getBe32 a b c d).setWidth 128 =
    (a.setWidth 128 <<< 24) ||| (b.setWidth 128 <<< 16) ||| (c.setWidth 128 <<< 8) |||
      d.setWidth 128 := by
  apply BitVec.eq_of_getLsbD_eq
  intro i hi
  by_cases h : i < 32
  · interval_cases i <;> simp [getBe32]
  · simp only [BitVec.getLsbD_setWidth, BitVec.getLsbD_or, BitVec.getLsbD_shiftLeft]
    rw [BitVec.getLsbD_of_ge _ _ (by omega), BitVec.getLsbD_of_ge a _ (by omega),
      BitVec.getLsbD_of_ge b _ (by omega), BitVec.getLsbD_of_ge c _ (by omega),
      BitVec.getLsbD_of_ge d _ (by omega)]
    simp

theorem fold4 (acc : BitVec 128) (a b c d : Byte) (t : Bytes) :
    (a :: b :: c :: d :: t).foldl (fun (acc : BitVec 128) b => (acc <<< 8) ||| b.setWidth 128) acc =
    t.foldl (fun (acc : BitVec 128) b => (acc <<< 8) ||| b.setWidth 128)
      ((acc <<< 32) ||| (getBe32 a b c d).setWidth 128) := by
  simp only [List.foldl_cons]
  refine congrArg (fun x => List.foldl _ x t) ?_
  rw [be32_wide]
  simp only [BitVec.shiftLeft_or_distrib, ← BitVec.shiftLeft_add, BitVec.or_assoc, Nat.reduceAdd]

theorem loadBlock_eq (b0 b1 b2 b3 b4 b5 b6 b7 b8 b9 b10 b11 b12 b13 b14 b15 : Byte) (t : Bytes) :
    ∃ w, loadBlock (b0 :: b1 :: b2 :: b3 :: b4 :: b5 :: b6 :: b7 :: b8 :: b9 :: b10 :: b11 ::
      b12 :: b13 :: b14 :: b15 :: t) = .ok w ∧
      w.bv = Spec.Gcm.block [b0, b1, b2, b3, b4, b5, b6, b7, b8, b9, b10, b11, b12, b13, b14,
        b15] := by
  refine ⟨_, rfl, ?_⟩
  rw [Spec.Gcm.block, fold4, fold4, fold4, fold4]
  simp only [W4.bv, List.foldl_nil, BitVec.shiftLeft_or_distrib, ← BitVec.shiftLeft_add,
    BitVec.zero_shiftLeft, BitVec.zero_or, Nat.reduceAdd]

/-- Any 16 bytes load as the block they represent. -/
theorem loadBlock_take (b : Bytes) (h : 16 ≤ b.length) :
    ∃ w, loadBlock b = .ok w ∧ w.bv = Spec.Gcm.block (b.take 16) := by
  match b, h with
  | b0 :: b1 :: b2 :: b3 :: b4 :: b5 :: b6 :: b7 :: b8 :: b9 :: b10 :: b11 :: b12 :: b13 :: b14 ::
      b15 :: t, _ => exact loadBlock_eq ..

theorem blocks_nil : Spec.Gcm.blocks [] = [] := by rw [Spec.Gcm.blocks]; simp

theorem loadBlocks_nil : loadBlocks [] = .ok [] := by rw [loadBlocks]; simp

theorem pad16_length (s : Bytes) : (pad16 s).length % 16 = 0 := by
  simp [pad16]; omega

theorem loadBlocks_pad (s : Bytes) :
    ∃ ws, loadBlocks (pad16 s) = .ok ws ∧ ws.map W4.bv = Spec.Gcm.blocks s := by
  induction hn : s.length using Nat.strongRecOn generalizing s with
  | ind n ih =>
    by_cases hs : s = []
    · subst hs
      exact ⟨[], by simp [pad16, loadBlocks_nil], by simp [blocks_nil]⟩
    have hpos := List.length_pos_iff.mpr hs
    have hplen : 16 ≤ (pad16 s).length := by simp [pad16]; omega
    have hpne : pad16 s ≠ [] := by
      intro h; rw [h] at hplen; simp at hplen
    obtain ⟨w, hw, hwb⟩ := loadBlock_take (pad16 s) hplen
    have hdrop : (pad16 s).drop 16 = pad16 (s.drop 16) := by
      simp only [pad16, List.drop_append, List.drop_replicate, List.length_drop]
      congr 2
      omega
    obtain ⟨ws, hws, hwsb⟩ := ih (s.drop 16).length (by simp; omega) (s.drop 16) rfl
    refine ⟨w :: ws, ?_, ?_⟩
    · rw [loadBlocks, dif_neg hpne, hdrop, hw, hws]; rfl
    · rw [Spec.Gcm.blocks, dif_neg hs, List.map_cons, hwb, hwsb]
      congr 2
      simp only [pad16, List.take_append, List.take_replicate]
      congr 2
      omega

theorem ghashLoop_eq (H X : W4) (bs : List W4) : (ghashLoop H X bs).bv =
    (bs.map W4.bv).foldl (fun y x => Spec.Gcm.mul (y ^^^ x) H.bv) X.bv := by
  induction bs generalizing X with
  | nil => rfl
  | cons b bs ih => rw [ghashLoop, ih, gfMul_eq, bv_xor]; rfl

theorem byte_of_word (v : W32) (k : Nat) :
    ((v >>> k) &&& 0xFF#32).setWidth 8 = (v >>> k).setWidth 8 := by
  apply BitVec.eq_of_getLsbD_eq
  intro i hi
  interval_cases i <;> simp

theorem put_bytes (w : W4) :
    putBe32 w.w0 ++ putBe32 w.w1 ++ putBe32 w.w2 ++ putBe32 w.w3 = Spec.Gcm.bytes w.bv := by
  have key : ∀ (k j : Nat) (v : W32), (∀ i, i < 8 → v.getLsbD (j + i) =
      w.bv.getLsbD (k + i)) → ((v >>> j) &&& 0xFF#32).setWidth 8 = (w.bv >>> k).setWidth 8 := by
    intro k j v h
    rw [byte_of_word]
    apply BitVec.eq_of_getLsbD_eq
    intro i hi
    simp only [BitVec.getLsbD_setWidth, BitVec.getLsbD_ushiftRight, hi, decide_true,
      Bool.true_and, h i hi]
  have key0 : ∀ (k : Nat) (v : W32), (∀ i, i < 8 → v.getLsbD i =
      w.bv.getLsbD (k + i)) → (v &&& 0xFF#32).setWidth 8 = (w.bv >>> k).setWidth 8 := by
    intro k v h
    have := key k 0 v (by simpa using h)
    simpa using this
  have e : List.range 16 = [0, 1, 2, 3, 4, 5, 6, 7, 8, 9, 10, 11, 12, 13, 14, 15] := rfl
  simp only [putBe32, Spec.Gcm.bytes, e, List.map_cons, List.map_nil,
    List.cons_append, List.nil_append]
  repeat' refine congrArg₂ List.cons ?_ ?_
  all_goals first
    | rfl
    | (first | apply key | apply key0)
      intro i hi
      rw [bv_getLsbD _ _ (by omega)]
      interval_cases i <;> simp

theorem bytes_length (b : BitVec 128) : (Spec.Gcm.bytes b).length = 16 := rfl

/-- Bit `i` of the block a byte string represents. -/
theorem block_bytes (b : BitVec 128) : Spec.Gcm.block (Spec.Gcm.bytes b) = b := by
  obtain ⟨w, rfl⟩ : ∃ w : W4, w.bv = b := by
    refine ⟨⟨b.extractLsb' 96 32, b.extractLsb' 64 32, b.extractLsb' 32 32, b.extractLsb' 0 32⟩, ?_⟩
    apply BitVec.eq_of_getLsbD_eq
    intro i hi
    rw [bv_getLsbD _ _ hi]
    simp only [BitVec.getLsbD_extractLsb']
    split
    · simp [*]
    split
    · rw [show 32 + (i - 32) = i by omega]; simp; omega
    split
    · rw [show 64 + (i - 64) = i by omega]; simp; omega
    · rw [show 96 + (i - 96) = i by omega]; simp; omega
  rw [← put_bytes]
  have hg : ∀ v : W32, getBe32 ((v >>> 24) &&& 0xFF#32 |>.setWidth 8)
      ((v >>> 16) &&& 0xFF#32 |>.setWidth 8) ((v >>> 8) &&& 0xFF#32 |>.setWidth 8)
      (v &&& 0xFF#32 |>.setWidth 8) = v := by
    intro v
    apply BitVec.eq_of_getLsbD_eq
    intro i hi
    simp only [getBe32]
    interval_cases i <;> simp
  simp only [putBe32, List.cons_append, List.nil_append, Spec.Gcm.block]
  rw [fold4, fold4, fold4, fold4, hg, hg, hg, hg]
  simp only [W4.bv, List.foldl_nil, BitVec.shiftLeft_or_distrib, ← BitVec.shiftLeft_add,
    BitVec.zero_shiftLeft, BitVec.zero_or, Nat.reduceAdd]

/-- The length block as coded is the specified one as long as no 24-bit mask bites. -/
theorem lenBlock_eq (a c : Bytes) (ha : 8 * a.length < 2 ^ 64) (hc : 8 * c.length < 2 ^ 64)
    (ha' : 8 * a.length % 2 ^ 32 < 2 ^ 24) (hc' : 8 * c.length % 2 ^ 32 < 2 ^ 24) :
    (lenBlock a.length c.length).bv = Spec.Gcm.lengths a c := by
  have key : ∀ n : Nat, 8 * n < 2 ^ 64 → 8 * n % 2 ^ 32 < 2 ^ 24 →
      ((((BitVec.ofNat 64 n <<< 3) >>> 32 : W64).setWidth 32).setWidth 128 <<< 32 |||
        (((BitVec.ofNat 64 n <<< 3) &&& 0xFFFFFF#64 : W64).setWidth 32).setWidth 128 : BitVec 128)
      = (BitVec.ofNat 64 (8 * n)).setWidth 128 := by
    intro n hn hm
    have e : (BitVec.ofNat 64 n <<< 3 : W64) = BitVec.ofNat 64 (8 * n) := by
      apply BitVec.eq_of_toNat_eq
      simp [Nat.shiftLeft_eq, Nat.mul_comm]
    rw [e]
    generalize hx : BitVec.ofNat 64 (8 * n) = x
    have hxn : x.toNat % 2 ^ 32 < 2 ^ 24 := by
      rw [← hx, BitVec.toNat_ofNat, Nat.mod_eq_of_lt hn]; exact hm
    have hz : ∀ i, 24 ≤ i → i < 32 → x.getLsbD i = false := by
      intro i h1 h2
      have : x.getLsbD i = (x.toNat % 2 ^ 32).testBit i := by
        rw [BitVec.getLsbD, Nat.testBit_mod_two_pow]; simp [h2]
      rw [this]
      apply Nat.testBit_lt_two_pow
      calc _ < 2 ^ 24 := hxn
        _ ≤ 2 ^ i := Nat.pow_le_pow_right (by decide) h1
    apply BitVec.eq_of_getLsbD_eq
    intro i hi
    by_cases h1 : i < 24
    · interval_cases i <;> simp
    by_cases h2 : i < 32
    · have := hz i (by omega) h2
      simp only [BitVec.getLsbD_or, BitVec.getLsbD_shiftLeft, BitVec.getLsbD_setWidth,
        BitVec.getLsbD_and, this]
      simp [h2]
    by_cases h3 : i < 64
    · interval_cases i <;> first | omega | simp
    · simp only [BitVec.getLsbD_or, BitVec.getLsbD_shiftLeft, BitVec.getLsbD_setWidth,
        BitVec.getLsbD_and, BitVec.getLsbD_ushiftRight]
      rw [BitVec.getLsbD_of_ge x (32 + (i - 32)) (by omega), BitVec.getLsbD_of_ge x i (by omega)]
      simp
  rw [Spec.Gcm.lengths, ← key _ ha ha', ← key _ hc hc']
  simp only [W4.bv, lenBlock, BitVec.shiftLeft_or_distrib, ← BitVec.shiftLeft_add,
    BitVec.or_assoc, Nat.reduceAdd]

end Kryptos.Gcm
