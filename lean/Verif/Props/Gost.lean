import Verif.Model.Gost
import Verif.Lemmas.Rot
import Verif.Props.KeyLoad
import Verif.Lemmas.KeyWords
import Verif.Spec.Gost
import Verif.Spec.Des
/-
  GOST 28147-89: for all boxes of sixteen entries and every key the block functions are defined and undo each other.
-/
namespace Kryptos.Gost
open Block KeyLoad

/-- Each box has at least sixteen entries. -/
structure Ok (S : Boxes) : Prop where
  h1 : 16 ≤ S.s1.length
  h2 : 16 ≤ S.s2.length
  h3 : 16 ≤ S.s3.length
  h4 : 16 ≤ S.s4.length
  h5 : 16 ≤ S.s5.length
  h6 : 16 ≤ S.s6.length
  h7 : 16 ≤ S.s7.length
  h8 : 16 ≤ S.s8.length

theorem ds_ok : Ok ds := by constructor <;> decide

theorem nibble_lt (x : W32) : (x &&& 0xF#32).toNat < 16 := by
  rw [BitVec.toNat_and, show (0xF#32).toNat = 2 ^ 4 - 1 from rfl, Nat.and_two_pow_sub_one_eq_mod]
  omega

theorem at'_defined (s : Bytes) (h : 16 ≤ s.length) (b : W32) (n : Nat) : ∃ x, at' s b n = .ok x := by
  unfold at'
  have := nibble_lt (b >>> n)
  rw [rd_getD 0 (by omega)]
  exact ⟨_, rfl⟩

theorem sub_defined (S : Boxes) (h : Ok S) (b : W32) : ∃ x, sub S b = .ok x := by
  obtain ⟨x8, e8⟩ := at'_defined S.s8 h.h8 b 28
  obtain ⟨x7, e7⟩ := at'_defined S.s7 h.h7 b 24
  obtain ⟨x6, e6⟩ := at'_defined S.s6 h.h6 b 20
  obtain ⟨x5, e5⟩ := at'_defined S.s5 h.h5 b 16
  obtain ⟨x4, e4⟩ := at'_defined S.s4 h.h4 b 12
  obtain ⟨x3, e3⟩ := at'_defined S.s3 h.h3 b 8
  obtain ⟨x2, e2⟩ := at'_defined S.s2 h.h2 b 4
  obtain ⟨x1, e1⟩ := at'_defined S.s1 h.h1 b 0
  unfold sub
  rw [e1, e2, e3, e4, e5, e6, e7, e8]
  exact ⟨_, rfl⟩

theorem rd_lt (r : Nat) (h : r < 32) : ∃ i, rd lt r = .ok i ∧ i < 8 := by
  have : ∀ r, r < 32 → lt.getD r 8 < 8 := by decide
  exact ⟨_, rd_getD 8 h, this r h⟩

/-- The function of a round: it depends on the boxes, the key and the number of the round. -/
theorem round_eq (S : Boxes) (h : Ok S) (K : List W32) (hK : K.length = 8) :
    ∃ F : Nat → W32 → W32, ∀ r s, r < 32 → round S K r s = .ok (s.2, F r s.2 ^^^ s.1) := by
  have : ∀ r (x : W32), ∃ y, r < 32 → ∀ l, round S K r (l, x) = .ok (x, y ^^^ l) := by
    intro r x
    by_cases hr : r < 32
    · obtain ⟨i, h1, h2⟩ := rd_lt r hr
      obtain ⟨z, hz⟩ := sub_defined S h (x + K.getD i 0)
      refine ⟨lsh z, fun _ l => ?_⟩
      unfold round
      rw [h1, Out.bind_ok, rd_getD 0 (by omega), Out.bind_ok, hz, Out.bind_ok]
      rfl
    · exact ⟨0, fun h => absurd h hr⟩
  refine ⟨fun r x => (this r x).choose, fun r s hr => ?_⟩
  exact (this r s.2).choose_spec hr s.1

/-- The state `(L, R)` is stored as `R, L` before and as `L, R` after the rounds. -/
def fwd (F : Nat → W32 → W32) (s : W32 × W32) (r : Nat) : W32 × W32 := (s.2, F r s.2 ^^^ s.1)
def bwd (F : Nat → W32 → W32) (s : W32 × W32) (r : Nat) : W32 × W32 := (F r s.1 ^^^ s.2, s.1)

theorem bwd_fwd (F : Nat → W32 → W32) (s : W32 × W32) (r : Nat) : bwd F (fwd F s r) r = s := by
  simp only [bwd, fwd, xor_cancel_left]
theorem fwd_bwd (F : Nat → W32 → W32) (s : W32 × W32) (r : Nat) : fwd F (bwd F s r) r = s := by
  simp only [bwd, fwd, xor_cancel_left]

/-- Running the rounds on exchanged halves is running their inverses. -/
theorem swap_rounds (F : Nat → W32 → W32) : ∀ (l : List Nat) (s : W32 × W32),
    l.foldl (fwd F) s.swap = (l.foldl (bwd F) s).swap
  | [], _ => rfl
  | r :: l, s => by
    rw [List.foldl_cons, List.foldl_cons, ← swap_rounds F l (bwd F s r)]
    rfl

theorem encBlock_eq (S : Boxes) (K : List W32) (F : Nat → W32 → W32)
    (h : ∀ r s, r < 32 → round S K r s = .ok (s.2, F r s.2 ^^^ s.1)) (s : W32 × W32) :
    encBlock S K (be2 s) = .ok (be2 ((List.range' 0 32).foldl (fwd F) s.swap)) := by
  unfold encBlock be2
  rw [getBe32_0, getBe32_4']
  simp only [Out.bind_ok]
  rw [forLoop_up0 (round S K) (fwd F) 32 _ (fun i s hi => h i s hi)]
  rfl

theorem decBlock_eq (S : Boxes) (K : List W32) (F : Nat → W32 → W32)
    (h : ∀ r s, r < 32 → round S K r s = .ok (s.2, F r s.2 ^^^ s.1)) (s : W32 × W32) :
    decBlock S K (be2 s) = .ok (be2 ((List.range' 0 32).reverse.foldl (fwd F) s.swap)) := by
  unfold decBlock be2
  rw [getBe32_0, getBe32_4']
  simp only [Out.bind_ok]
  rw [forLoop_down0 (round S K) (fwd F) 32 _ (fun i s hi => h i s hi)]
  rfl

/-- C29 for GOST: every key, all boxes of sixteen entries (they need not be permutations). -/
theorem gost_invertible (S : Boxes) (h : Ok S) (key : Bytes) : Invertible 8 (enc S key) (dec S key) := by
  obtain ⟨F, hF⟩ := round_eq S h (ldUserKey 4 8 key) (length_ldUserKey 4 8 key)
  refine Invertible.ofState be2 be2_surj be2_len (fun s => (List.range' 0 32).foldl (fwd F) s.swap)
    (fun s => (List.range' 0 32).reverse.foldl (fwd F) s.swap) (encBlock_eq S _ F hF) (decBlock_eq S _ F hF) (fun s => ?_) (fun s => ?_)
  · show (List.range' 0 32).reverse.foldl (fwd F) (((List.range' 0 32).foldl (fwd F) s.swap).swap) = s
    rw [swap_rounds, foldl_undo _ _ (bwd_fwd F), Prod.swap_swap]
  · show (List.range' 0 32).foldl (fwd F) (((List.range' 0 32).reverse.foldl (fwd F) s.swap).swap) = s
    rw [swap_rounds F (List.range' 0 32).reverse, Prod.swap_swap, foldl_undo' _ _ (fwd_bwd F)]

/-- The fixed boxes satisfy the hypothesis. -/
theorem gost_ds_invertible (key : Bytes) : Invertible 8 (enc ds key) (dec ds key) := gost_invertible ds ds_ok key

/-- A box given with fewer entries is read beyond its end. -/
theorem gost_short_box : enc { ds with s1 := [] } (List.replicate 32 0) (List.replicate 8 0) = .ub := by decide +kernel

/-- The test vector of Applied Cryptography. -/
example : enc ds (List.replicate 32 0) (List.replicate 8 0) = .ok [0xE7, 0x2B, 0x17, 0xD7, 0x02, 0xF1, 0x22, 0xC0] := by
  decide +kernel

/-! ## The published cipher -/

/-- The nodes as lists of numbers. -/
def nodes (S : Boxes) : List (List Nat) := [S.s1, S.s2, S.s3, S.s4, S.s5, S.s6, S.s7, S.s8].map fun s => s.map BitVec.toNat

/-- The entries of the boxes have four bits, as in the standard. -/
def Nibbles (S : Boxes) : Prop := ∀ s ∈ [S.s1, S.s2, S.s3, S.s4, S.s5, S.s6, S.s7, S.s8], ∀ x ∈ s, x.toNat < 16

theorem at'_val (s : Bytes) (h : 16 ≤ s.length) (hs : ∀ x ∈ s, x.toNat < 16) (b : W32) (i : Nat) (hi : i < 8) : ∃ x : W32,
    at' s b (4 * i) = .ok x ∧ ∃ v, v < 16 ∧ v = (s.map BitVec.toNat).getD (b.toNat / 16 ^ i % 16) 0 ∧ x.toNat = v * 16 ^ i := by
  have e : ((b >>> (4 * i)) &&& 0xF#32).toNat = b.toNat / 16 ^ i % 16 := by
    rw [BitVec.toNat_and, show (0xF#32).toNat = 2 ^ 4 - 1 from rfl, Nat.and_two_pow_sub_one_eq_mod, BitVec.toNat_ushiftRight, Nat.shiftRight_eq_div_pow, Nat.pow_mul]
  have hn : b.toNat / 16 ^ i % 16 < s.length := by omega
  unfold at'
  rw [e, rd_eq_ok hn, Out.bind_ok]
  refine ⟨_, rfl, s[b.toNat / 16 ^ i % 16].toNat, hs _ (List.getElem_mem hn), ?_, ?_⟩
  · rw [List.getD_eq_getElem?_getD, List.getElem?_map, List.getElem?_eq_getElem hn]; rfl
  · have hv := hs _ (List.getElem_mem hn)
    generalize s[b.toNat / 16 ^ i % 16] = v at hv ⊢
    rw [BitVec.toNat_shiftLeft, BitVec.toNat_setWidth, Nat.shiftLeft_eq, Nat.pow_mul, Nat.mod_eq_of_lt (by omega : v.toNat < 2 ^ 32)]
    apply Nat.mod_eq_of_lt
    calc v.toNat * 16 ^ i < 16 * 16 ^ i := by apply Nat.mul_lt_mul_of_pos_right hv; positivity
      _ = 16 ^ (i + 1) := by rw [Nat.pow_succ, Nat.mul_comm]
      _ ≤ 16 ^ 8 := Nat.pow_le_pow_right (by decide) (by omega)
      _ = 2 ^ 32 := by norm_num

theorem or_nat (a x : W32) (P k n v : Nat) (hP : P = 16 ^ k) (ha : a.toNat = n * (16 * P)) (hx : x.toNat = v * P) (hv : v < 16) : (a ||| x).toNat = (16 * n + v) * P := by
  subst hP
  rw [BitVec.toNat_or, ha, hx]
  have := Nat.two_pow_add_eq_or_of_lt (i := 4 * (k + 1)) (b := v * 16 ^ k) (by
    rw [Nat.pow_mul]
    calc v * 16 ^ k < 16 * 16 ^ k := by apply Nat.mul_lt_mul_of_pos_right hv; positivity
      _ = (2 ^ 4) ^ (k + 1) := by rw [Nat.pow_succ, Nat.mul_comm]; rfl) n
  rw [Nat.pow_mul, Nat.mul_comm] at this
  rw [show n * (16 * 16 ^ k) = n * (2 ^ 4) ^ (k + 1) by rw [Nat.pow_succ, Nat.mul_comm 16]; rfl, ← this, Nat.pow_succ]
  show n * (16 ^ k * 16) + _ = _
  ring

theorem fold8 (g : Nat → Nat) : ((List.range 8).map g).foldl (· + ·) 0 = 0 + g 0 + g 1 + g 2 + g 3 + g 4 + g 5 + g 6 + g 7 := rfl
theorem subst_val (T : List (List Nat)) (x : W32) (v : Nat → Nat) (h : ∀ i, i < 8 → v i = (T.getD i []).getD (x.toNat / 16 ^ i % 16) 0) (N : Nat)
    (hN : N = v 0 + v 1 * 16 + v 2 * 256 + v 3 * 4096 + v 4 * 65536 + v 5 * 1048576 + v 6 * 16777216 + v 7 * 268435456) :
    Spec.Gost.subst T x = BitVec.ofNat 32 N := by
  have e : ((List.range 8).map fun i => (T.getD i []).getD (x.toNat / 16 ^ i % 16) 0 * 16 ^ i) = (List.range 8).map fun i => v i * 16 ^ i :=
    List.map_congr_left (fun i hi => by rw [h i (List.mem_range.mp hi)])
  unfold Spec.Gost.subst
  rw [e]
  refine congrArg (BitVec.ofNat 32) ?_
  refine (fold8 _).trans ?_
  omega

theorem sub_val (S : Boxes) (h : Ok S) (hs : Nibbles S) (b : W32) : sub S b = .ok (Spec.Gost.subst (nodes S) b) := by
  obtain ⟨x8, e8, v8, l8, d8, n8⟩ := at'_val S.s8 h.h8 (hs _ (by simp)) b 7 (by decide)
  obtain ⟨x7, e7, v7, l7, d7, n7⟩ := at'_val S.s7 h.h7 (hs _ (by simp)) b 6 (by decide)
  obtain ⟨x6, e6, v6, l6, d6, n6⟩ := at'_val S.s6 h.h6 (hs _ (by simp)) b 5 (by decide)
  obtain ⟨x5, e5, v5, l5, d5, n5⟩ := at'_val S.s5 h.h5 (hs _ (by simp)) b 4 (by decide)
  obtain ⟨x4, e4, v4, l4, d4, n4⟩ := at'_val S.s4 h.h4 (hs _ (by simp)) b 3 (by decide)
  obtain ⟨x3, e3, v3, l3, d3, n3⟩ := at'_val S.s3 h.h3 (hs _ (by simp)) b 2 (by decide)
  obtain ⟨x2, e2, v2, l2, d2, n2⟩ := at'_val S.s2 h.h2 (hs _ (by simp)) b 1 (by decide)
  obtain ⟨x1, e1, v1, l1, d1, n1⟩ := at'_val S.s1 h.h1 (hs _ (by simp)) b 0 (by decide)
  unfold sub
  rw [e1, e2, e3, e4, e5, e6, e7, e8]
  simp only [Out.bind_ok]
  refine congrArg Out.ok (BitVec.eq_of_toNat_eq ?_)
  have b7 := or_nat x8 x7 (16 ^ 6) 6 v8 v7 rfl (by rw [n8]; omega) n7 l7
  obtain ⟨w7, hw7⟩ : ∃ w, w = 16 * v8 + v7 := ⟨_, rfl⟩
  rw [← hw7] at b7
  have b6 := or_nat _ x6 (16 ^ 5) 5 w7 v6 rfl (by rw [b7]; omega) n6 l6
  obtain ⟨w6, hw6⟩ : ∃ w, w = 16 * w7 + v6 := ⟨_, rfl⟩
  rw [← hw6] at b6
  have b5 := or_nat _ x5 (16 ^ 4) 4 w6 v5 rfl (by rw [b6]; omega) n5 l5
  obtain ⟨w5, hw5⟩ : ∃ w, w = 16 * w6 + v5 := ⟨_, rfl⟩
  rw [← hw5] at b5
  have b4 := or_nat _ x4 (16 ^ 3) 3 w5 v4 rfl (by rw [b5]; omega) n4 l4
  obtain ⟨w4, hw4⟩ : ∃ w, w = 16 * w5 + v4 := ⟨_, rfl⟩
  rw [← hw4] at b4
  have b3 := or_nat _ x3 (16 ^ 2) 2 w4 v3 rfl (by rw [b4]; omega) n3 l3
  obtain ⟨w3, hw3⟩ : ∃ w, w = 16 * w4 + v3 := ⟨_, rfl⟩
  rw [← hw3] at b3
  have b2 := or_nat _ x2 (16 ^ 1) 1 w3 v2 rfl (by rw [b3]; omega) n2 l2
  obtain ⟨w2, hw2⟩ : ∃ w, w = 16 * w3 + v2 := ⟨_, rfl⟩
  rw [← hw2] at b2
  have b1 := or_nat _ x1 (16 ^ 0) 0 w2 v1 rfl (by rw [b2]; omega) n1 l1
  rw [b1, subst_val (nodes S) b (fun i => [v1, v2, v3, v4, v5, v6, v7, v8].getD i 0) (fun i hi => by
    interval_cases i
    · exact d1
    · exact d2
    · exact d3
    · exact d4
    · exact d5
    · exact d6
    · exact d7
    · exact d8) (16 * w2 + v1) (by
      show 16 * w2 + v1 = v1 + v2 * 16 + v3 * 256 + v4 * 4096 + v5 * 65536 + v6 * 1048576 + v7 * 16777216 + v8 * 268435456
      omega), BitVec.toNat_ofNat]
  omega

theorem lt_eq : lt = Spec.Gost.order := by decide

theorem lsh_eq (x : W32) : lsh x = x.rotateLeft 11 := by rw [BitVec.rotateLeft_def]; rfl

theorem round_val (S : Boxes) (h : Ok S) (hs : Nibbles S) (K : List W32) (hK : K.length = 8) (r : Nat) (hr : r < 32) (s : W32 × W32) :
    round S K r s = .ok (fwd (fun r x => Spec.Gost.f (nodes S) x ((Spec.Gost.order.map fun i => K.getD i 0).getD r 0)) s r) := by
  obtain ⟨i, h1, h2⟩ := rd_lt r hr
  unfold round
  rw [h1, Out.bind_ok, rd_getD 0 (by omega), Out.bind_ok, sub_val S h hs, Out.bind_ok, lsh_eq]
  have e : (Spec.Gost.order.map fun i => K.getD i 0).getD r 0 = K.getD i 0 := by
    rw [rd_eq_ok (show r < lt.length from hr)] at h1
    rw [← lt_eq, List.getD_eq_getElem?_getD, List.getElem?_map, List.getElem?_eq_getElem (show r < lt.length from hr), Out.ok.inj h1]; rfl
  unfold fwd
  beta_reduce
  rw [e]
  rfl

/-- The rounds are the cycles with the registers exchanged. -/
theorem cycles (T : List (List Nat)) (F : Nat → W32 → W32) : ∀ (l : List Nat) (ks : List W32), (l.map fun r x => F r x) = (ks.map fun k x => Spec.Gost.f T x k) →
    ∀ s : W32 × W32, l.foldl (fwd F) s.swap = (ks.foldl (Spec.Gost.cycle T) s).swap
  | [], [], _, s => rfl
  | r :: l, k :: ks, h, s => by
    rw [List.map_cons, List.map_cons, List.cons.injEq] at h
    have e : fwd F s.swap r = (Spec.Gost.cycle T s k).swap := by
      have := congrFun h.1 s.1
      unfold fwd Spec.Gost.cycle
      show (s.1, F r s.1 ^^^ s.2) = (s.1, s.2 ^^^ Spec.Gost.f T s.1 k)
      rw [this, BitVec.xor_comm]
    rw [List.foldl_cons, List.foldl_cons, e, cycles T F l ks h.2]
  | [], _ :: _, h, _ => by cases h
  | _ :: _, [], h, _ => by cases h

theorem crypt_eq (T : List (List Nat)) (ks : List W32) (hk : ks.length = 32) (s : W32 × W32) : Spec.Gost.crypt T ks s = (ks.foldl (Spec.Gost.cycle T) s).swap := by
  have e : ks = ks.take 31 ++ [ks.getD 31 0] := by
    conv => lhs; rw [← List.take_append_drop 31 ks]
    congr 1
    rw [List.drop_eq_getElem_cons (by omega), List.drop_eq_nil_of_le (by omega), List.getD_eq_getElem?_getD, List.getElem?_eq_getElem (by omega)]
    rfl
  unfold Spec.Gost.crypt
  conv => rhs; rw [e]
  rw [List.foldl_append]
  rfl

/-- The words of a key: its bytes are cut or filled with zeros to thirty-two. -/
def keyWords (key : Bytes) : List W32 := Spec.MD.beWords 32 4 (zeroPad 32 key)

/-- GOST on the words of blocks and keys, for all boxes of sixteen four-bit entries and for keys of at least 32 or of an even number of bytes; words
are stored with their highest byte first. -/
theorem gost_standard_partial (S : Boxes) (h : Ok S) (hs : Nibbles S) (key : Bytes) (hk : 32 ≤ key.length ∨ key.length % 2 = 0) (N : W32 × W32) :
    enc S key (be2 N) = .ok (be2 (Spec.Gost.encrypt (nodes S) (keyWords key) N)) ∧
    dec S key (be2 N) = .ok (be2 (Spec.Gost.decrypt (nodes S) (keyWords key) N)) := by
  have e : ldUserKey 4 8 key = keyWords key := ldUserKey_padded_partial 4 8 (by decide) key (by omega)
  have hl : (keyWords key).length = 8 := by rw [← e]; exact length_ldUserKey 4 8 key
  have hF := fun r s hr => round_val S h hs (keyWords key) hl r hr s
  have len : (Spec.Gost.order.map fun i => (keyWords key).getD i 0).length = 32 := by rw [List.length_map]; rfl
  unfold enc dec
  rw [e, encBlock_eq S _ (fun r x => Spec.Gost.f (nodes S) x ((Spec.Gost.order.map fun i => (keyWords key).getD i 0).getD r 0)) hF,
    decBlock_eq S _ (fun r x => Spec.Gost.f (nodes S) x ((Spec.Gost.order.map fun i => (keyWords key).getD i 0).getD r 0)) hF]
  unfold Spec.Gost.encrypt Spec.Gost.decrypt
  rw [crypt_eq _ _ len, crypt_eq _ _ (by rw [List.length_reverse, len])]
  generalize Spec.Gost.order.map (fun i => (keyWords key).getD i 0) = ks at len ⊢
  have m : ((List.range' 0 32).map fun r x => Spec.Gost.f (nodes S) x (ks.getD r 0)) = (ks.map fun k x => Spec.Gost.f (nodes S) x k) := by
    have : ks = (List.range' 0 32).map fun r => ks.getD r 0 := by
      apply List.ext_getElem
      · rw [len]; rfl
      · intro i h1 h2
        rw [List.getElem_map, List.getElem_range', List.getD_eq_getElem?_getD, Nat.zero_add, Nat.one_mul, List.getElem?_eq_getElem h1]; rfl
    conv => rhs; rw [this, List.map_map]
    rfl
  rw [cycles (nodes S) _ _ _ m, cycles (nodes S) _ (List.range' 0 32).reverse ks.reverse (by rw [List.map_reverse, m, List.map_reverse])]
  exact ⟨rfl, rfl⟩

/-- Odd keys below 32 bytes are packed differently: the words of the standard come out wrong. -/
theorem gost_odd_key : enc ds [1] (be2 (0, 0)) ≠ .ok (be2 (Spec.Gost.encrypt (nodes ds) (keyWords [1]) (0, 0))) := by
  have e : keyWords [1] = [0x01000000, 0, 0, 0, 0, 0, 0, 0] := by
    unfold keyWords
    rw [show zeroPad 32 [1] = putBe32 0x01000000 ++ (putBe32 0 ++ (putBe32 0 ++ (putBe32 0 ++ (putBe32 0 ++ (putBe32 0 ++ (putBe32 0 ++ (putBe32 0 ++ []))))))) by decide +kernel]
    simp only [beWords_putBe32]
    rw [Spec.MD.beWords]
    rfl
  rw [e]
  decide +kernel

/-- The fixed boxes are the first rows of the S-boxes of DES. -/
theorem ds_des : (nodes ds).reverse = [Spec.Des.S1, Spec.Des.S2, Spec.Des.S3, Spec.Des.S4, Spec.Des.S5, Spec.Des.S6, Spec.Des.S7, Spec.Des.S8].map (·.getD 0 []) := by
  decide +kernel

theorem ds_nibbles : Nibbles ds := by unfold Nibbles; decide +kernel

example : enc ds (ascii "thirty-two bytes of key material") (be2 (1, 2)) =
    .ok (be2 (Spec.Gost.encrypt (nodes ds) (keyWords (ascii "thirty-two bytes of key material")) (1, 2))) :=
  (gost_standard_partial ds ds_ok ds_nibbles _ (by decide) _).1

end Kryptos.Gost
