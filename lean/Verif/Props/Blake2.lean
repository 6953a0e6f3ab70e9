import Verif.Lemmas.Blake2
import Verif.Props.Keccak
/-
  BLAKE2 (src/kryptos_blake2.c) is the function of RFC 7693, but for the offset counter of BLAKE2s at the end of messages of 4 GiB or more.
-/
namespace Kryptos.Blake2
open Spec.Blake2 (Param Vec put SIGMA IV data fill)
open Spec.MD (leNat le be)

variable {P : Param}

theorem fill_length (x : Bytes) : (fill P x).length = x.length + (P.bb - x.length % P.bb) % P.bb := by
  unfold fill; simp

theorem bb_pos {V : Var P.w} (hF : Fits P V) : 0 < P.bb := Nat.mul_pos (by decide) hF.wb0

theorem copy_zeros (n off : Nat) (pre src : Bytes) (h0 : pre.length ≤ off) (h : off + src.length ≤ pre.length + n) :
    copyTo (pre ++ List.replicate n 0) off src =
      .ok (pre ++ List.replicate (off - pre.length) 0 ++ src ++ List.replicate (pre.length + n - (off + src.length)) 0) := by
  unfold copyTo
  rw [if_pos (by simp; omega)]
  congr 1
  rw [List.take_append, List.take_of_length_le h0, List.take_replicate, Nat.min_eq_left (by omega), List.drop_append,
    List.drop_eq_nil_of_le (by omega), List.drop_replicate, List.nil_append]
  congr 2
  omega

/-- The digest of RFC 7693 with the counter of the last compression given. -/
def digestAt (P : Param) (key msg : Bytes) (nn t : Nat) : Bytes :=
  let d := data P key msg
  let dd := d.length / P.bb
  let h0 : Vec P := fun i => if i = 0 then IV P 0 ^^^ 0x01010000 ^^^ BitVec.ofNat _ (key.length * 256) ^^^ BitVec.ofNat _ nn else IV P i
  let h := Spec.Blake2.chain P h0 d (dd - 1)
  let h := Spec.Blake2.F P h (Spec.Blake2.words P (d.drop ((dd - 1) * P.bb))) t true
  ((List.range 8).flatMap fun i => le P.wb (h i).toNat).take nn

theorem data_length {V : Var P.w} (hF : Fits P V) (key msg : Bytes) (hk : key.length ≤ P.bb) :
    (data P key msg).length = (((if (if 0 < key.length then P.bb else 0) + msg.length = 0 then 1 else
      (if 0 < key.length then P.bb else 0) + msg.length) + P.bb - 1) / P.bb * P.bb) := by
  have hb := bb_pos hF
  rw [round_up _ _ hb]
  unfold data
  by_cases k0 : key = []
  · subst k0
    by_cases m0 : msg = []
    · subst m0
      rcases Nat.lt_or_ge 1 P.bb with c | c
      · simp [Nat.mod_eq_of_lt c, Nat.mod_eq_of_lt (a := P.bb - 1) (b := P.bb) (by omega)]; omega
      · have : P.bb = 1 := by omega
        simp [this]
    · have : 0 < msg.length := List.length_pos_iff.mpr m0
      simp only [m0, and_false, if_false, List.length_append, fill_length, List.length_nil, Nat.zero_mod, Nat.sub_zero, Nat.mod_self,
        Nat.lt_irrefl, Nat.zero_add]
      rw [if_neg (by omega)]
  · have : 0 < key.length := List.length_pos_iff.mpr k0
    simp only [k0, false_and, if_false, List.length_append, fill_length, if_pos this]
    rw [if_neg (by omega), Nat.add_mod_left]
    rcases Nat.lt_or_ge key.length P.bb with c | c
    · rw [Nat.mod_eq_of_lt c, Nat.mod_eq_of_lt (a := P.bb - key.length) (by omega)]; omega
    · have e : key.length = P.bb := by omega
      rw [e, Nat.mod_self, Nat.sub_zero, Nat.mod_self]; omega

/-- What the code computes, for every key that fits into a block. -/
theorem blake2_at {V : Var P.w} (hF : Fits P V) (key msg : Bytes) (nn : Nat) (hk : key.length ≤ P.bb) :
    blake2 V key msg nn = .ok (digestAt P key msg nn ((if key = [] then msg.length else msg.length + P.bb) % 2 ^ P.w)) := by
  have hb := bb_pos hF
  have hD := data_length hF key msg hk
  unfold blake2
  have hi : init V key.length nn = .ok (vec 8 fun i => if i = 0 then IV P 0 ^^^ 0x01010000 ^^^ BitVec.ofNat _ (key.length * 256) ^^^ BitVec.ofNat _ nn
      else IV P i) := by
    unfold init
    have c : (List.range 8).mapM (fun i => rd V.iv i) = .ok (vec 8 (IV P)) := by
      rw [hF.iv, mapM_ok _ (IV P)]
      · rfl
      · intro i hi; exact rd_vec 8 (IV P) i (by simpa using hi)
    rw [c, Out.bind_ok, rd_vec 8 _ _ (by decide), Out.bind_ok, wr_vec 8 _ _ _ (by decide)]
    congr 2
    funext i
    unfold put
    rw [Nat.shiftLeft_eq, BitVec.ofNat_xor, BitVec.ofNat_xor, ← BitVec.xor_assoc, ← BitVec.xor_assoc]
    rfl
  dsimp only
  rw [hi, Out.bind_ok, hF.bb]
  simp only [gt_iff_lt]
  rw [← hD]
  generalize hL : (data P key msg).length = L at hD
  have hup := round_up (if (if 0 < key.length then P.bb else 0) + msg.length = 0 then 1 else
      (if 0 < key.length then P.bb else 0) + msg.length) _ hb
  rw [← hD] at hup
  have hbuf : copyData V (List.replicate L (0 : Byte)) key msg = .ok (data P key msg) := by
    unfold copyData
    rw [hF.bb]
    unfold data at hL ⊢
    by_cases k0 : key = []
    · subst k0
      simp only [List.length_nil, Nat.lt_irrefl, if_false, Nat.zero_add] at hup ⊢
      have hle : msg.length ≤ L := by split at hup <;> omega
      have := copy_zeros L 0 [] msg (by simp) (by simpa using hle)
      simp only [List.nil_append, List.length_nil, Nat.sub_zero, List.replicate_zero, Nat.zero_add] at this
      rw [this]
      congr 1
      by_cases m0 : msg = []
      · subst m0
        simp at hL
        simp [hL]
      · simp only [m0, and_false, if_false] at hL ⊢
        simp only [fill, List.length_nil, Nat.zero_mod, Nat.sub_zero, Nat.mod_self, List.replicate_zero, List.nil_append, List.length_append,
          List.length_replicate] at hL ⊢
        congr 2
        omega
    · have hk0 : 0 < key.length := List.length_pos_iff.mpr k0
      simp only [if_pos hk0, k0, false_and, if_false] at hup hL ⊢
      rw [if_neg (by omega), Nat.add_mod_left] at hup
      have h1 := copy_zeros L 0 [] key (by simp) (by simp; omega)
      simp only [List.nil_append, List.length_nil, Nat.sub_zero, List.replicate_zero, Nat.zero_add] at h1
      rw [h1, Out.bind_ok, copy_zeros _ P.bb key msg hk (by omega)]
      congr 1
      unfold fill
      rw [← List.append_assoc]
      congr 1
      · congr 3
        rcases Nat.lt_or_ge key.length P.bb with c | c
        · rw [Nat.mod_eq_of_lt c, Nat.mod_eq_of_lt (a := P.bb - key.length) (by omega)]
        · have e : key.length = P.bb := by omega
          rw [e, Nat.mod_self, Nat.sub_zero, Nat.mod_self]; omega
      · congr 1; omega
  have hpos : P.bb ≤ L := by
    have : 0 < L := by
      generalize (if 0 < key.length then P.bb else 0) + msg.length = q at hup
      split at hup <;> omega
    have hdv : P.bb ∣ L := by rw [hD]; exact Nat.dvd_mul_left _ _
    exact Nat.le_of_dvd this hdv
  have hdv : L / P.bb * P.bb = L := by
    refine Nat.div_mul_cancel ?_
    rw [hD]; exact Nat.dvd_mul_left _ _
  have hq : 0 < L / P.bb := Nat.div_pos hpos hb
  have bb16 : P.bb = P.wb * 16 := Nat.mul_comm _ _
  rw [hbuf, Out.bind_ok, block_eq hF 16 _ (by omega), Out.bind_ok]
  dsimp only
  have hbl : ∀ h0 : Vec P, blocks V (L / P.bb) ⟨vec 8 h0, vec 16 (Spec.Blake2.words P (data P key msg)), BitVec.ofNat _ P.bb, 0,
      (data P key msg).drop (P.wb * 16)⟩ = loop V (L / P.bb - 1) ⟨vec 8 h0, vec 16 (Spec.Blake2.words P (data P key msg)), BitVec.ofNat _ V.bb, 0,
      (data P key msg).drop P.bb⟩ := by
    intro h0
    unfold blocks
    rw [hF.bb, bb16]
    split
    · rfl
    · rw [show L / (P.wb * 16) - 1 = 0 by omega, loop]
  rw [hbl, loop_eq hF _ _ _ (by rw [Nat.sub_add_cancel hq, hdv, hL]), Out.bind_ok]
  dsimp only
  rw [F_eq hF _ _ _ _ ((if key = [] then msg.length else msg.length + P.bb) % 2 ^ P.w) true, Out.bind_ok, Out.pure_eq, output_eq hF nn _ _ (by simp),
    List.nil_append]
  · unfold digestAt vec
    dsimp only
    rw [hL, List.flatMap_map]
  · by_cases k0 : key = []
    · simp only [k0, List.length_nil, if_true]
      apply BitVec.eq_of_toNat_eq; simp
    · have : key.length ≠ 0 := fun h => k0 (List.length_eq_zero_iff.mp h)
      simp only [k0, this, if_false]
      apply BitVec.eq_of_toNat_eq; simp
  · rw [Nat.div_eq_of_lt (Nat.mod_lt _ (Nat.two_pow_pos _))]
    rfl


theorem rev32_be32 (a b c d : Byte) : rev32 (be32 a b c d) = be32 d c b a := by
  unfold rev32 be32
  apply BitVec.eq_of_getLsbD_eq; intro i hi
  interval_cases i <;> simp

theorem rev64_tiger (x : W64) : rev64 x = Tiger.rev x := by
  have h0 : x <<< 56 = Tiger.c0 x <<< 56 := by
    unfold Tiger.c0; apply BitVec.eq_of_getLsbD_eq; intro i hi; interval_cases i <;> simp
  have h1 : (x &&& 0x000000000000FF00#64) <<< 40 = Tiger.c1 x <<< 48 := by
    unfold Tiger.c1; apply BitVec.eq_of_getLsbD_eq; intro i hi; interval_cases i <;> simp
  have h2 : (x &&& 0x0000000000FF0000#64) <<< 24 = Tiger.c2 x <<< 40 := by
    unfold Tiger.c2; apply BitVec.eq_of_getLsbD_eq; intro i hi; interval_cases i <;> simp
  have h3 : (x &&& 0x00000000FF000000#64) <<< 8 = Tiger.c3 x <<< 32 := by
    unfold Tiger.c3; apply BitVec.eq_of_getLsbD_eq; intro i hi; interval_cases i <;> simp
  have h4 : (x &&& 0x000000FF00000000#64) >>> 8 = Tiger.c4 x <<< 24 := by
    unfold Tiger.c4; apply BitVec.eq_of_getLsbD_eq; intro i hi; interval_cases i <;> simp
  have h5 : (x &&& 0x0000FF0000000000#64) >>> 24 = Tiger.c5 x <<< 16 := by
    unfold Tiger.c5; apply BitVec.eq_of_getLsbD_eq; intro i hi; interval_cases i <;> simp
  have h6 : (x &&& 0x00FF000000000000#64) >>> 40 = Tiger.c6 x <<< 8 := by
    unfold Tiger.c6; apply BitVec.eq_of_getLsbD_eq; intro i hi; interval_cases i <;> simp
  unfold rev64 Tiger.rev
  rw [h0, h1, h2, h3, h4, h5, h6, Tiger.c7]

theorem rev64_be64 (a b c d e f g h : Byte) : rev64 (be64 a b c d e f g h) = be64 h g f e d c b a := by
  rw [rev64_tiger, Tiger.rev_be64]

theorem getLe64_eq (x : Bytes) (h : 8 ≤ x.length) : getLe64 x 0 = .ok (BitVec.ofNat 64 (leNat (x.take 8))) := by
  match x, h with
  | a :: b :: c :: d :: e :: f :: g :: h :: t, _ =>
    show Out.ok (rev64 (be64 a b c d e f g h)) = _
    rw [rev64_be64, ← Tiger.ofNat_beNat8]
    rfl

theorem getLe32_eq (x : Bytes) (h : 4 ≤ x.length) : getLe32 x 0 = .ok (BitVec.ofNat 32 (leNat (x.take 4))) := by
  match x, h with
  | a :: b :: c :: d :: t, _ =>
    show Out.ok (rev32 (be32 a b c d)) = _
    rw [rev32_be32, ← Md.ofNat_beNat4]
    rfl

theorem put64 (x : W64) : Hash.cpyBe 8 (rev64 x) = le 8 x.toNat := by
  obtain ⟨a, b, c, d, e, f, g, h, -, rfl⟩ := be64_putBe64 x
  rw [Hash.cpyBe_eq, rev64_be64, Tiger.be8_toNat, Md.le_eq, Tiger.be8_toNat]
  rfl

theorem put32 (x : W32) : Hash.cpyBe 4 (rev32 x) = le 4 x.toNat := by
  obtain ⟨a, b, c, d, -, rfl⟩ := be32_putBe32 x
  rw [Hash.cpyBe_eq, rev32_be32, Md.be4_toNat, Md.le_eq, Md.be4_toNat]
  rfl

theorem sqrt_of (n q : Nat) (h : q * q ≤ n) (h' : n < (q + 1) * (q + 1)) : Nat.sqrt n = q := (Nat.eq_sqrt.mpr ⟨h, h'⟩).symm

/-- The initialization vector of BLAKE2b is made of square roots. -/
theorem iv_b : b.iv = vec (P := Spec.Blake2.b) 8 (IV Spec.Blake2.b) := by
  have r : ∀ i q, i < 8 → q * q ≤ 2 ^ (2 * 64) * Spec.Blake2.prime i → 2 ^ (2 * 64) * Spec.Blake2.prime i < (q + 1) * (q + 1) →
      IV Spec.Blake2.b i = BitVec.ofNat 64 q := by
    intro i q _ h1 h2
    show BitVec.ofNat 64 (Nat.sqrt (2 ^ (2 * 64) * Spec.Blake2.prime i)) = _
    rw [sqrt_of _ q h1 h2]
  show _ = [IV Spec.Blake2.b 0, IV Spec.Blake2.b 1, IV Spec.Blake2.b 2, IV Spec.Blake2.b 3, IV Spec.Blake2.b 4, IV Spec.Blake2.b 5,
    IV Spec.Blake2.b 6, IV Spec.Blake2.b 7]
  rw [r 0 0x16A09E667F3BCC908 (by decide) (by decide) (by decide), r 1 0x1BB67AE8584CAA73B (by decide) (by decide) (by decide),
    r 2 0x23C6EF372FE94F82B (by decide) (by decide) (by decide), r 3 0x2A54FF53A5F1D36F1 (by decide) (by decide) (by decide),
    r 4 0x3510E527FADE682D1 (by decide) (by decide) (by decide), r 5 0x39B05688C2B3E6C1F (by decide) (by decide) (by decide),
    r 6 0x41F83D9ABFB41BD6B (by decide) (by decide) (by decide), r 7 0x45BE0CD19137E2179 (by decide) (by decide) (by decide)]
  rfl

/-- The initialization vector of BLAKE2s is made of square roots. -/
theorem iv_s : s.iv = vec (P := Spec.Blake2.s) 8 (IV Spec.Blake2.s) := by
  have r : ∀ i q, i < 8 → q * q ≤ 2 ^ (2 * 32) * Spec.Blake2.prime i → 2 ^ (2 * 32) * Spec.Blake2.prime i < (q + 1) * (q + 1) →
      IV Spec.Blake2.s i = BitVec.ofNat 32 q := by
    intro i q _ h1 h2
    show BitVec.ofNat 32 (Nat.sqrt (2 ^ (2 * 32) * Spec.Blake2.prime i)) = _
    rw [sqrt_of _ q h1 h2]
  show _ = [IV Spec.Blake2.s 0, IV Spec.Blake2.s 1, IV Spec.Blake2.s 2, IV Spec.Blake2.s 3, IV Spec.Blake2.s 4, IV Spec.Blake2.s 5,
    IV Spec.Blake2.s 6, IV Spec.Blake2.s 7]
  rw [r 0 0x16A09E667 (by decide) (by decide) (by decide), r 1 0x1BB67AE85 (by decide) (by decide) (by decide),
    r 2 0x23C6EF372 (by decide) (by decide) (by decide), r 3 0x2A54FF53A (by decide) (by decide) (by decide),
    r 4 0x3510E527F (by decide) (by decide) (by decide), r 5 0x39B05688C (by decide) (by decide) (by decide),
    r 6 0x41F83D9AB (by decide) (by decide) (by decide), r 7 0x45BE0CD19 (by decide) (by decide) (by decide)]
  rfl

theorem fits_b : Fits Spec.Blake2.b b :=
  ⟨rfl, rfl, by decide, rfl, by decide, rfl, by decide, by decide, iv_b, by decide, getLe64_eq, put64⟩

theorem fits_s : Fits Spec.Blake2.s s :=
  ⟨rfl, rfl, by decide, rfl, by decide, rfl, by decide, by decide, iv_s, by decide, getLe32_eq, put32⟩

/-- C107: **BLAKE2b is the function of RFC 7693** for every message (a size being less than 2^64 - 128), every key of at most 64 bytes and every
size of digest. -/
theorem blake2b_rfc7693 (key msg : Bytes) (nn : Nat) (hk : key.length ≤ 64) (hm : msg.length + 128 < 2 ^ 64) :
    blake2 b key msg nn = .ok (Spec.Blake2.digest Spec.Blake2.b key msg nn) := by
  refine (blake2_at fits_b key msg nn (Nat.le_trans hk (by decide))).trans ?_
  unfold digestAt Spec.Blake2.digest
  rw [Nat.mod_eq_of_lt]
  show _ < 2 ^ 64
  split
  · omega
  · exact hm

/-- C107: BLAKE2s is the function of RFC 7693 for every message of less than 2^32 - 64 bytes, every key of at most 32 bytes and every
size of digest.  What is missing are longer messages; see `blake2s_long`. -/
theorem blake2s_rfc7693_partial (key msg : Bytes) (nn : Nat) (hk : key.length ≤ 32) (hm : msg.length + 64 < 2 ^ 32) :
    blake2 s key msg nn = .ok (Spec.Blake2.digest Spec.Blake2.s key msg nn) := by
  refine (blake2_at fits_s key msg nn (Nat.le_trans hk (by decide))).trans ?_
  unfold digestAt Spec.Blake2.digest
  rw [Nat.mod_eq_of_lt]
  show _ < 2 ^ 32
  split
  · omega
  · exact hm

/-- C107: **from 4 GiB on the last counter of BLAKE2s is wrong**: the code computes the function of RFC 7693 with the last counter `t`
replaced by its value modulo 2^32 (`p->t[1] = 0`), whatever the length. -/
theorem blake2s_long (key msg : Bytes) (nn : Nat) (hk : key.length ≤ 32) :
    let t := if key = [] then msg.length else msg.length + 64
    blake2 s key msg nn = .ok (digestAt Spec.Blake2.s key msg nn (t % 2 ^ 32)) ∧
      Spec.Blake2.digest Spec.Blake2.s key msg nn = digestAt Spec.Blake2.s key msg nn t :=
  ⟨blake2_at fits_s key msg nn (Nat.le_trans hk (by decide)), rfl⟩

/-- The high half of the counter matters: with one block of zeros the compression function gives other values for the counters
2^32 and 0. -/
theorem blake2s_counter_matters :
    Spec.Blake2.F Spec.Blake2.s (IV Spec.Blake2.s) (fun _ => 0) (2 ^ 32) true ≠
      Spec.Blake2.F Spec.Blake2.s (IV Spec.Blake2.s) (fun _ => 0) (2 ^ 32 % 2 ^ 32) true := by
  intro h
  have e1 := F_eq fits_s (IV Spec.Blake2.s) (fun _ => 0) 0 1 (2 ^ 32) true rfl rfl
  have e2 := F_eq fits_s (IV Spec.Blake2.s) (fun _ => 0) 0 0 (2 ^ 32 % 2 ^ 32) true rfl rfl
  rw [← h, ← e1, ← fits_s.iv] at e2
  have : F s s.iv (List.replicate 16 0#32) 0#32 0#32 true ≠ F s s.iv (List.replicate 16 0#32) 0#32 1#32 true := by decide +kernel
  exact this e2

theorem digest_length (P : Param) (key msg : Bytes) (nn : Nat) (h : nn ≤ 8 * P.wb) : (Spec.Blake2.digest P key msg nn).length = nn := by
  unfold Spec.Blake2.digest
  simp [List.length_flatMap, Md.le_length]
  omega

theorem digestAt_length (P : Param) (key msg : Bytes) (nn t : Nat) (h : nn ≤ 8 * P.wb) : (digestAt P key msg nn t).length = nn := by
  unfold digestAt
  simp [List.length_flatMap, Md.le_length]
  omega

theorem ptrToHex_eq (z : Bytes) : ∃ hx, ptrToHex z = .ok hx ∧ hx.map some = Keccak.b16 z := by
  have L : ∀ i < 16, rd nibbleLt i = .ok (nibbleLt.getD i 0) ∧ some (nibbleLt.getD i 0) = Spec.base16Alphabet[i]? := by decide
  have A : ∀ x : Byte, (x >>> 4).toNat = x.toNat / 16 ∧ (x &&& 0xF#8).toNat = x.toNat % 16 := by decide +kernel
  unfold ptrToHex
  rw [mapM_ok _ (fun x : Byte => [nibbleLt.getD (x.toNat / 16) 0, nibbleLt.getD (x.toNat % 16) 0]), Out.bind_ok]
  · refine ⟨_, rfl, ?_⟩
    unfold Keccak.b16
    rw [List.map_flatten, List.map_map, List.flatMap_def]
    congr 1
    apply List.map_congr_left
    intro x _
    have := x.isLt
    simp only [Function.comp, List.map_cons, List.map_nil]
    rw [(L _ (by omega : x.toNat / 16 < 16)).2, (L _ (by omega : x.toNat % 16 < 16)).2]
  · intro x _
    have := x.isLt
    rw [(A x).1, (A x).2, (L _ (by omega : x.toNat / 16 < 16)).1, Out.bind_ok, (L _ (by omega : x.toNat % 16 < 16)).1, Out.bind_ok]
    rfl

theorem hexWords_eq (z : Bytes) (n : Nat) (h : z.length = 8 * n) : ∃ hx, hexWords z n = .ok hx ∧ hx.map some = Keccak.b16 z := by
  obtain ⟨hx, e, q⟩ := Keccak.hexOut_eq z (by omega)
  refine ⟨hx, ?_, q⟩
  unfold Keccak.hexOut at e
  unfold hexWords
  rw [show z.length / 8 = n by omega] at e
  rw [← e]
  congr 1
  funext ws
  rw [if_neg (by omega)]

/-- The output as asked for: the digest, or its base16 text. -/
def Shows (hex : Bool) (z out : Bytes) : Prop := if hex then out.map some = Keccak.b16 z else out = z

theorem fixed_eq {w : Nat} (V : Var w) (n : Nat) (key msg z : Bytes) (hex : Bool) (hk : key.length ≤ 8 * n)
    (hb : blake2 V key msg (8 * n) = .ok z) (hz : z.length = 8 * n) :
    ∃ out, fixed V (8 * n) key (some msg) hex = .ok ⟨.success, out⟩ ∧ Shows hex z out := by
  unfold fixed
  dsimp only
  rw [if_neg (by omega), hb, Out.bind_ok, if_neg (by omega)]
  cases hex
  · exact ⟨z, rfl, rfl⟩
  · obtain ⟨hx, e, q⟩ := hexWords_eq z n hz
    refine ⟨hx, ?_, q⟩
    rw [if_pos rfl, show 8 * n / 8 = n by omega, e]
    rfl

theorem anySize_eq {w : Nat} (V : Var w) (n nn : Nat) (key msg z : Bytes) (hex : Bool) (hk : key.length ≤ n) (h0 : 0 < nn) (hn : nn ≤ n)
    (hb : blake2 V key msg nn = .ok z) (hz : z.length = nn) :
    ∃ out, anySize V n key (some msg) nn hex = .ok ⟨.success, out⟩ ∧ Shows hex z out := by
  unfold anySize
  dsimp only
  rw [if_neg (by omega), if_neg (by omega), hb, Out.bind_ok, if_neg (by omega)]
  cases hex
  · exact ⟨z, rfl, rfl⟩
  · obtain ⟨hx, e, q⟩ := ptrToHex_eq z
    refine ⟨hx, ?_, q⟩
    rw [if_pos rfl, e]
    rfl

/-- C107: the task-level functions for BLAKE2b succeed exactly for keys and sizes within the limits of RFC 7693, and give its digest. -/
theorem blake2b_task (key msg : Bytes) (nn : Nat) (hex : Bool) (hm : msg.length + 128 < 2 ^ 64) :
    (key.length ≤ 64 → ∃ out, blake2b512 key (some msg) hex = .ok ⟨.success, out⟩ ∧ Shows hex (Spec.Blake2.digest Spec.Blake2.b key msg 64) out) ∧
    (key.length ≤ 64 → 0 < nn → nn ≤ 64 →
      ∃ out, blake2bN key (some msg) nn hex = .ok ⟨.success, out⟩ ∧ Shows hex (Spec.Blake2.digest Spec.Blake2.b key msg nn) out) ∧
    (64 < key.length → blake2b512 key (some msg) hex = .ok ⟨.keyError, []⟩ ∧ blake2bN key (some msg) nn hex = .ok ⟨.keyError, []⟩) ∧
    (key.length ≤ 64 → (nn = 0 ∨ 64 < nn) → blake2bN key (some msg) nn hex = .ok ⟨.processError, []⟩) := by
  refine ⟨fun hk => ?_, fun hk h0 hn => ?_, fun hk => ⟨?_, ?_⟩, fun hk hn => ?_⟩
  · exact fixed_eq b 8 key msg _ hex hk (blake2b_rfc7693 key msg 64 hk hm) (digest_length _ _ _ _ (by decide))
  · exact anySize_eq b 64 nn key msg _ hex hk h0 hn (blake2b_rfc7693 key msg nn hk hm) (digest_length _ _ _ _ hn)
  · unfold blake2b512 fixed; exact if_pos hk
  · unfold blake2bN anySize; exact if_pos hk
  · unfold blake2bN anySize
    exact (if_neg (by omega)).trans (if_pos hn)

/-- C107: the task-level functions for BLAKE2s. -/
theorem blake2s_task_partial (key msg : Bytes) (nn : Nat) (hex : Bool) (hm : msg.length + 64 < 2 ^ 32) :
    (key.length ≤ 32 → ∃ out, blake2s256 key (some msg) hex = .ok ⟨.success, out⟩ ∧ Shows hex (Spec.Blake2.digest Spec.Blake2.s key msg 32) out) ∧
    (key.length ≤ 32 → 0 < nn → nn ≤ 32 →
      ∃ out, blake2sN key (some msg) nn hex = .ok ⟨.success, out⟩ ∧ Shows hex (Spec.Blake2.digest Spec.Blake2.s key msg nn) out) ∧
    (32 < key.length → blake2s256 key (some msg) hex = .ok ⟨.keyError, []⟩ ∧ blake2sN key (some msg) nn hex = .ok ⟨.keyError, []⟩) ∧
    (key.length ≤ 32 → (nn = 0 ∨ 32 < nn) → blake2sN key (some msg) nn hex = .ok ⟨.processError, []⟩) := by
  refine ⟨fun hk => ?_, fun hk h0 hn => ?_, fun hk => ⟨?_, ?_⟩, fun hk hn => ?_⟩
  · exact fixed_eq s 4 key msg _ hex hk (blake2s_rfc7693_partial key msg 32 hk hm) (digest_length _ _ _ _ (by decide))
  · exact anySize_eq s 32 nn key msg _ hex hk h0 hn (blake2s_rfc7693_partial key msg nn hk hm) (digest_length _ _ _ _ hn)
  · unfold blake2s256 fixed; exact if_pos hk
  · unfold blake2sN anySize; exact if_pos hk
  · unfold blake2sN anySize
    exact (if_neg (by omega)).trans (if_pos hn)

/-- C107: **the block size reported for BLAKE2bN is that of BLAKE2s**: HMAC, which pads its key to this size, is not that of RFC 2104
over BLAKE2b. -/
theorem blake2bN_input_size : blake2bNInputSize ≠ Spec.Blake2.b.bb ∧ blake2b512InputSize = Spec.Blake2.b.bb := by decide

/-! Appendices A and B of RFC 7693, and the first vector of src/tests/blake2s256_test_vector.h with a key (of 32 bytes, and no message). -/
example : blake2b512 [] (some [0x61, 0x62, 0x63]) true = .ok ⟨.success, ascii
    "BA80A53F981C4D0D6A2797B69F12F6E94C212F14685AC4B74B12BB6FDBFFA2D17D87C5392AAB792DC252D5DE4533CC9518D38AA8DBF1925AB92386EDD4009923"⟩ := by
  decide +kernel
example : blake2s256 [] (some [0x61, 0x62, 0x63]) true = .ok ⟨.success, ascii
    "508C5E8C327C14E2E1A72BA34EEB452F37458B209ED63A294D999B4C86675982"⟩ := by decide +kernel
example : blake2sN ((List.range 32).map (BitVec.ofNat 8)) (some []) 32 true = .ok ⟨.success, ascii
    "48A8997DA407876B3D79C0D92325AD3B89CBB754D86AB71AEE047AD345FD2C49"⟩ := by decide +kernel
/-! Two blocks, the first being the key. -/
example : blake2sN [7] (some [1, 2]) 4 true = .ok ⟨.success, ascii "0413B03A"⟩ := by decide +kernel

end Kryptos.Blake2
