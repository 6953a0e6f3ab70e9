import Verif.Lemmas.BlockModes
import Verif.Props.Padding
/-
  Modes of operation (C07 - C10, C12, C13) of the generic block cipher task, for an arbitrary
  block cipher `C` (`Lawful C`: blocks keep their length and `dec` undoes `enc`).
-/
namespace Kryptos.Block

theorem pad_blocks (C : Cipher) (m : Bytes) (hm : m ≠ []) (r : Bool) (rnd : Nat → Byte) :
    ∃ p q ps, Padding.ansiX923 m C.bs r rnd = some (q :: ps : List Bytes).flatten ∧
      (q :: ps).flatten = p ∧ Spec.X923 C.bs m p ∧ Blocks C.bs (q :: ps) := by
  obtain ⟨p, hp, hx⟩ := Padding.ansiX923_spec m C.bs r rnd hm C.bs_pos
  have hmod : p.length % C.bs = 0 := by obtain ⟨_, _, _, _, _, _, h⟩ := hx; exact h
  have hne : p ≠ [] := by
    obtain ⟨k, f, _, _, _, h, _⟩ := hx
    rw [h]; simp
  obtain ⟨ps, hb, hf⟩ := exists_blocks C.bs C.bs_pos p hmod
  match ps, hb, hf with
  | [], _, hf => exact absurd hf.symm hne
  | q :: ps, hb, hf => exact ⟨p, q, ps, by rw [hf]; exact hp, hf, hx, hb⟩

theorem encrypting_decrypt : encrypting .decrypt = false := rfl
theorem pick_ecb (C : Cipher) : pick C .decrypt .ecb = C.dec := rfl
theorem pick_cbc (C : Cipher) : pick C .decrypt .cbc = C.dec := rfl
theorem pick_ofb (C : Cipher) (a : Action) : pick C a .ofb = C.enc := by simp [pick]
theorem pick_ctr (C : Cipher) (a : Action) : pick C a .ctr = C.enc := by simp [pick]

section C08

variable (C : Cipher) (hC : Lawful C) (m : Bytes) (hm : m ≠ []) (stale : Bytes)
  (hs : stale.length ≤ C.bs) (rnd : Nat → Byte) (iv : Bytes) (hiv : iv.length = C.bs)
  (ctr : Option W32)
include hC hm

include hs in
/-- C08 (ECB).  An ECB encryption task emits the ECB encryption of an X9.23 padding of the
plaintext. -/
theorem ecb_encrypt_standard (ivo : Option Bytes) :
    ∃ p ps, Spec.X923 C.bs m p ∧ Blocks C.bs ps ∧ ps.flatten = p ∧
      process C .ecb .encrypt m stale rnd ivo ctr = .ok
        { out := some (Spec.ecb C.enc ps).flatten, size := p.length, iv := ivo, ctr } := by
  obtain ⟨p, q, ps, h1, h2, h3, h4⟩ := pad_blocks C m hm true rnd
  refine ⟨p, q :: ps, h3, h4, h2, ?_⟩
  have hl := (ecb_blocks C.enc C.bs hC.enc_len _ h4).flatten_length
  have hl2 := h4.flatten_length
  simp only [process, processEcb, encrypting, pick]
  simp only [true_or, decide_true, if_true, h1]
  rw [ecbLoop_blocks C.enc C.bs C.bs_pos hC.enc_len _ h4 _ _ hs (Nat.le_refl _)]
  simp only [Out.bind_ok, Out.pure_eq, hl]
  rw [← h2, hl2]
  simp [Spec.ecb]

include hs hiv in
/-- C08 (CBC).  A CBC encryption task emits the IV and the CBC encryption of an X9.23 padding of
the plaintext. -/
theorem cbc_encrypt_standard :
    ∃ p ps, Spec.X923 C.bs m p ∧ Blocks C.bs ps ∧ ps.flatten = p ∧
      process C .cbc .encrypt m stale rnd (some iv) ctr = .ok
        { out := some (iv ++ (Spec.cbc C.enc iv ps).flatten), size := C.bs + p.length,
          iv := some (List.replicate C.bs 0#8), ctr } := by
  obtain ⟨p, q, ps, h1, h2, h3, h4⟩ := pad_blocks C m hm true rnd
  refine ⟨p, q :: ps, h3, h4, h2, ?_⟩
  have hl := (cbc_blocks C hC _ h4 iv hiv).1.flatten_length
  have hl2 := h4.flatten_length
  have hl3 := (cbc_blocks C hC _ h4 iv hiv).2
  have hq := h4.cons.1
  simp only [process, processIv, encrypting, pick, cbcBody]
  simp only [true_or, decide_true, if_true, h1, hiv, ne_eq, not_true_eq_false, if_false]
  have ht : (q :: ps).flatten.take C.bs = q := by rw [List.flatten_cons, ← hq]; simp
  have hd : (q :: ps).flatten.drop C.bs = ps.flatten := by rw [List.flatten_cons, ← hq]; simp
  have hge : ¬ (q :: ps).flatten.length < C.bs := by
    rw [hl2, List.length_cons, Nat.succ_mul]; omega
  rw [if_neg hge]
  simp only [Out.bind_ok, ht, hd]
  rw [cbcLoop_enc C.enc C.bs C.bs_pos hC.enc_len ps q iv iv stale _ h4 hiv hs (Nat.le_refl _)]
  simp only [Out.bind_ok, Out.pure_eq, hl, hl3]
  rw [← h2, hl2]

include hiv in
/-- C08 (OFB). -/
theorem ofb_encrypt_standard :
    ∃ p ps, Spec.X923 C.bs m p ∧ Blocks C.bs ps ∧ ps.flatten = p ∧
      process C .ofb .encrypt m stale rnd (some iv) ctr = .ok
        { out := some (iv ++ (Spec.ofb C.enc iv ps).flatten), size := C.bs + p.length,
          iv := some (List.replicate C.bs 0#8), ctr } := by
  obtain ⟨p, q, ps, h1, h2, h3, h4⟩ := pad_blocks C m hm true rnd
  refine ⟨p, q :: ps, h3, h4, h2, ?_⟩
  have hb := ofb_blocks C.enc C.bs hC.enc_len _ h4 iv hiv
  have hl := hb.1.flatten_length
  have hl2 := h4.flatten_length
  simp only [process, processIv, encrypting, pick, ofbBody]
  simp only [true_or, decide_true, if_true, h1, hiv, ne_eq, not_true_eq_false, if_false]
  rw [ofbLoop_blocks C.enc C.bs C.bs_pos hC.enc_len _ h4 iv _ hiv (Nat.le_refl _)]
  simp only [Out.bind_ok, Out.pure_eq, hl, hb.2.1]
  rw [← h2, hl2]

/-- C08, C10 (CTR, also the encryption part of GCM).  The IV block is a nonce followed by a
big-endian 32-bit counter `c`; the task emits the IV and the CTR encryption with counter blocks
`nonce ‖ c`, `nonce ‖ c+1`, ...; if the caller supplied a counter variable, it finally holds `c`
plus the number of blocks, modulo 2^32. -/
theorem ctr_encrypt_standard (mode : Mode) (hmode : mode = .ctr ∨ mode = .gcm)
    (nonce : Bytes) (c : W32) (hn : nonce.length + 4 = C.bs) :
    ∃ p ps, Spec.X923 C.bs m p ∧ Blocks C.bs ps ∧ ps.flatten = p ∧
      process C mode .encrypt m stale rnd (some (nonce ++ Spec.be32 c)) ctr = .ok
        { out := some (nonce ++ Spec.be32 c ++ (Spec.ctr C.enc nonce c ps).flatten),
          size := C.bs + p.length, iv := some (List.replicate C.bs 0#8),
          ctr := ctr.map fun _ => c + BitVec.ofNat 32 ps.length } := by
  obtain ⟨p, q, ps, h1, h2, h3, h4⟩ := pad_blocks C m hm true rnd
  refine ⟨p, q :: ps, h3, h4, h2, ?_⟩
  have hb := ctr_blocks C.enc C.bs hC.enc_len nonce hn _ h4 c
  have hl := hb.1.flatten_length
  have hl2 := h4.flatten_length
  have hiv : (nonce ++ Spec.be32 c).length = C.bs := by simp [be32_length, hn]
  have key : processIv C .encrypt m rnd (nonce ++ Spec.be32 c) ctr (ctrBody C C.enc ctr) = .ok
        { out := some (nonce ++ Spec.be32 c ++ (Spec.ctr C.enc nonce c (q :: ps)).flatten),
          size := C.bs + p.length, iv := some (List.replicate C.bs 0#8),
          ctr := ctr.map fun _ => c + BitVec.ofNat 32 (q :: ps).length } := by
    simp only [processIv, encrypting, ctrBody]
    simp only [true_or, decide_true, if_true, h1, hiv, ne_eq, not_true_eq_false, if_false]
    rw [ctrLoop_blocks C.enc C.bs C.bs_pos hC.enc_len nonce _ h4 hn c _ (Nat.le_refl _)]
    cases ctr with
    | none =>
      simp only [Out.bind_ok, Out.pure_eq, hl, hb.2.1]
      rw [← h2, hl2]; rfl
    | some c0 =>
      simp only [Out.bind_ok, ivCounter_eq, Out.pure_eq, hl, hb.2.1]
      rw [← h2, hl2]; rfl
  rcases hmode with rfl | rfl
  · simpa [process, pick] using key
  · simpa [process, pick] using key

end C08

/-! ### C07: round trip -/

/-- C07.  For every correct block cipher with blocks of 1 to 255 bytes (at least 4 for CTR) and
each of ECB, CBC, OFB, CTR: whatever IV, filler bytes, counter and previous buffer contents were
used on either side, decrypting what encryption emitted reports the plaintext size and yields the
plaintext. -/
theorem block_mode_roundtrip (C : Cipher) (hC : Lawful C) (hbs : C.bs ≤ 255) (mode : Mode)
    (hmode : mode = .ecb ∨ mode = .cbc ∨ mode = .ofb ∨ (mode = .ctr ∧ 4 ≤ C.bs))
    (m : Bytes) (hm : m ≠ []) (hbig : m.length + C.bs < 2 ^ 64)
    (stale stale' : Bytes) (hs : stale.length ≤ C.bs) (hs' : stale'.length ≤ C.bs)
    (rnd rnd' : Nat → Byte) (iv iv' : Bytes) (hiv : iv.length = C.bs) (hiv' : iv'.length = C.bs)
    (ctr ctr' : Option W32) :
    ∃ e ct, process C mode .encrypt m stale rnd (some iv) ctr = .ok e ∧ e.out = some ct ∧
      e.size = ct.length ∧
      ∃ d buf, process C mode .decrypt ct stale' rnd' (some iv') ctr' = .ok d ∧
        d.out = some buf ∧ d.size = m.length ∧ buf.take d.size = m := by
  have small : ∀ p, Spec.X923 C.bs m p → p.length < 2 ^ 64 := by
    rintro p ⟨k, f, _, hk, hf, hp, _⟩
    rw [hp]; simp; omega
  rcases hmode with rfl | rfl | rfl | ⟨rfl, h4⟩
  · obtain ⟨p, ps, hx, hb, hf, he⟩ := ecb_encrypt_standard C hC m hm stale hs rnd ctr (some iv)
    have hbe := ecb_blocks C.enc C.bs hC.enc_len _ hb
    refine ⟨_, _, he, rfl, ?_, ?_⟩
    · simp only [hbe.flatten_length]; rw [← hf, hb.flatten_length]; simp [Spec.ecb]
    · obtain ⟨o, ho, ht⟩ := unpad_x923 C.bs hbs m p hx (small p hx)
      refine ⟨{ out := some o, size := m.length, iv := some iv', ctr := ctr' }, o, ?_, rfl, rfl, ht⟩
      have hde : Spec.ecb C.dec (Spec.ecb C.enc ps) = ps := by
        simp only [Spec.ecb, List.map_map]
        conv => rhs; rw [← List.map_id ps]
        apply List.map_congr_left
        intro q hq
        exact hC.dec_enc q (hb q hq)
      simp only [process, processEcb, encrypting_decrypt, pick_ecb, Bool.false_eq_true, if_false]
      rw [ecbLoop_blocks C.dec C.bs C.bs_pos hC.dec_len _ hbe _ _ hs' (Nat.le_refl _), hde]
      simp only [Out.bind_ok, hf, ho, Out.pure_eq]
  · obtain ⟨p, ps, hx, hb, hf, he⟩ := cbc_encrypt_standard C hC m hm stale hs rnd iv hiv ctr
    have hbe := cbc_blocks C hC _ hb iv hiv
    refine ⟨_, _, he, rfl, ?_, ?_⟩
    · simp only [List.length_append, hbe.1.flatten_length, hbe.2, hiv]
      rw [← hf, hb.flatten_length]
    · obtain ⟨o, ho, ht⟩ := unpad_x923 C.bs hbs m p hx (small p hx)
      refine ⟨{ out := some o, size := m.length, iv := some (List.replicate C.bs 0#8), ctr := ctr' },
        o, ?_, rfl, rfl, ht⟩
      simp only [process, processIv, encrypting_decrypt, pick_cbc, cbcBody, Bool.false_eq_true,
        if_false, reduceCtorEq]
      rw [if_neg (by simp [hiv']), if_neg (by simp [hiv])]
      have e1 : (iv ++ (Spec.cbc C.enc iv ps).flatten).take C.bs = iv := by rw [← hiv]; simp
      have e2 : (iv ++ (Spec.cbc C.enc iv ps).flatten).drop C.bs =
        (Spec.cbc C.enc iv ps).flatten := by rw [← hiv]; simp
      simp only [e1, e2, Out.bind_ok]
      rw [cbcLoop_dec C.dec C.bs C.bs_pos hC.dec_len _ hbe.1 iv _ _ hiv hs' (by simp [hiv]),
        cbcDec_cbc C hC ps hb iv hiv]
      simp only [Out.bind_ok, hf, ho, Out.pure_eq]
  · obtain ⟨p, ps, hx, hb, hf, he⟩ := ofb_encrypt_standard C hC m hm stale rnd iv hiv ctr
    have hbe := ofb_blocks C.enc C.bs hC.enc_len _ hb iv hiv
    refine ⟨_, _, he, rfl, ?_, ?_⟩
    · simp only [List.length_append, hbe.1.flatten_length, hbe.2.1, hiv]
      rw [← hf, hb.flatten_length]
    · obtain ⟨o, ho, ht⟩ := unpad_x923 C.bs hbs m p hx (small p hx)
      refine ⟨{ out := some o, size := m.length, iv := some (List.replicate C.bs 0#8), ctr := ctr' },
        o, ?_, rfl, rfl, ht⟩
      simp only [process, processIv, encrypting_decrypt, pick_ofb, ofbBody, Bool.false_eq_true,
        if_false]
      rw [if_neg (by simp [hiv']), if_neg (by simp [hiv])]
      have e1 : (iv ++ (Spec.ofb C.enc iv ps).flatten).take C.bs = iv := by rw [← hiv]; simp
      have e2 : (iv ++ (Spec.ofb C.enc iv ps).flatten).drop C.bs =
        (Spec.ofb C.enc iv ps).flatten := by rw [← hiv]; simp
      simp only [e1, e2]
      rw [ofbLoop_blocks C.enc C.bs C.bs_pos hC.enc_len _ hbe.1 iv _ hiv (by simp [hiv]), hbe.2.2]
      simp only [Out.bind_ok, hf, ho, Out.pure_eq]
  · obtain ⟨nonce, c, rfl⟩ := exists_counter iv (by omega)
    have hn : nonce.length + 4 = C.bs := by rw [← hiv]; simp [be32_length]
    obtain ⟨p, ps, hx, hb, hf, he⟩ :=
      ctr_encrypt_standard C hC m hm stale rnd ctr .ctr (Or.inl rfl) nonce c hn
    have hbe := ctr_blocks C.enc C.bs hC.enc_len nonce hn _ hb c
    refine ⟨_, _, he, rfl, ?_, ?_⟩
    · simp only [List.length_append, hbe.1.flatten_length, hbe.2.1, be32_length, hn]
      rw [← hf, hb.flatten_length]
    · obtain ⟨o, ho, ht⟩ := unpad_x923 C.bs hbs m p hx (small p hx)
      have e1 : (nonce ++ Spec.be32 c ++ (Spec.ctr C.enc nonce c ps).flatten).take C.bs =
        nonce ++ Spec.be32 c := by rw [← hiv]; exact List.take_left
      have e2 : (nonce ++ Spec.be32 c ++ (Spec.ctr C.enc nonce c ps).flatten).drop C.bs =
        (Spec.ctr C.enc nonce c ps).flatten := by rw [← hiv]; exact List.drop_left
      refine ⟨{ out := some o, size := m.length, iv := some (List.replicate C.bs 0#8),
                ctr := ctr'.map fun _ => c + BitVec.ofNat 32 ps.length }, o, ?_, rfl, rfl, ht⟩
      simp only [process, processIv, encrypting_decrypt, pick_ctr, ctrBody, Bool.false_eq_true,
        if_false]
      rw [if_neg (by simp [hiv']), if_neg (by simp [be32_length]; omega)]
      simp only [e1, e2]
      rw [ctrLoop_blocks C.enc C.bs C.bs_pos hC.enc_len nonce _ hbe.1 hn c _
        (by simp [be32_length]; omega), hbe.2.2, hbe.2.1]
      cases ctr' with
      | none => simp only [Out.bind_ok, hf, ho, Out.pure_eq, Option.map_none]
      | some c0 => simp only [Out.bind_ok, ivCounter_eq, hf, ho, Out.pure_eq, Option.map_some]

/-! ### A concrete cipher to instantiate the hypotheses -/

/-- A toy cipher with four byte blocks: rotate the block by one byte and add 1 to each byte. -/
def toy : Cipher where
  bs := 4
  bs_pos := by decide
  enc := fun b => (b.drop 1 ++ b.take 1).map (· + 1)
  dec := fun b => (b.drop 3 ++ b.take 3).map (· - 1)

theorem toy_lawful : Lawful toy where
  enc_len := by intro b hb; simp [toy] at hb ⊢; omega
  dec_len := by intro b hb; simp [toy] at hb ⊢; omega
  dec_enc := by
    intro b hb
    match b, hb with
    | [x, y, z, w], _ => simp [toy, BitVec.add_sub_cancel]

/-- The hypotheses of `block_mode_roundtrip` are met (CTR, toy cipher). -/
example : ∃ e ct, process toy .ctr .encrypt [1, 2, 3, 4, 5] [] (fun _ => 9) (some [0, 0, 0, 1])
      (some 0) = .ok e ∧ e.out = some ct ∧ e.size = ct.length ∧
      ∃ d buf, process toy .ctr .decrypt ct [] (fun _ => 7) (some [4, 4, 4, 4]) none = .ok d ∧
        d.out = some buf ∧ d.size = 5 ∧ buf.take d.size = [1, 2, 3, 4, 5] :=
  block_mode_roundtrip toy toy_lawful (by decide) .ctr (by simp [toy]) [1, 2, 3, 4, 5] (by simp)
    (by decide) [] [] (by simp) (by simp) _ _ _ _ rfl rfl _ _

/-! ### C09: length of the ciphertext -/

/-- C09.  The ciphertext length is a function of the plaintext length and the mode: the next
strict multiple of the block size, plus one block for the IV modes. -/
theorem ciphertext_length (C : Cipher) (hC : Lawful C) (mode : Mode)
    (hmode : mode = .ecb ∨ mode = .cbc ∨ mode = .ofb ∨ (mode = .ctr ∧ 4 ≤ C.bs))
    (m : Bytes) (hm : m ≠ []) (stale : Bytes) (hs : stale.length ≤ C.bs)
    (rnd : Nat → Byte) (iv : Bytes) (hiv : iv.length = C.bs) (ctr : Option W32) :
    ∃ e ct, process C mode .encrypt m stale rnd (some iv) ctr = .ok e ∧ e.out = some ct ∧
      e.size = ct.length ∧
      ct.length = (m.length / C.bs + 1) * C.bs + (if mode = .ecb then 0 else C.bs) := by
  have hx923 : ∀ p, Spec.X923 C.bs m p → p.length = (m.length / C.bs + 1) * C.bs := by
    rintro p ⟨k, f, hk1, hk2, hf, hp, hmod⟩
    have hl : p.length = m.length + k := by rw [hp]; simp; omega
    have hbs := C.bs_pos
    have hdm := Nat.div_add_mod m.length C.bs
    have hpd := Nat.div_add_mod p.length C.bs
    rw [hmod, Nat.add_zero] at hpd
    have hlt := Nat.mod_lt m.length hbs
    have hq : p.length / C.bs = m.length / C.bs + 1 := by
      apply Nat.le_antisymm
      · apply Nat.le_of_lt_succ
        apply Nat.div_lt_of_lt_mul
        have e : C.bs * (m.length / C.bs + 1).succ =
          C.bs * (m.length / C.bs) + C.bs + C.bs := by simp [Nat.mul_add]
        omega
      · apply Nat.succ_le_of_lt
        rcases Nat.lt_or_ge (m.length / C.bs) (p.length / C.bs) with h | h
        · exact h
        · exfalso
          have := Nat.mul_le_mul_left C.bs h
          omega
    rw [← hpd, hq, Nat.mul_comm]
  rcases hmode with rfl | rfl | rfl | ⟨rfl, h4⟩
  · obtain ⟨p, ps, hx, hb, hf, he⟩ := ecb_encrypt_standard C hC m hm stale hs rnd ctr (some iv)
    have hbe := ecb_blocks C.enc C.bs hC.enc_len _ hb
    have hl : p.length = (Spec.ecb C.enc ps).flatten.length := by
      rw [hbe.flatten_length, ← hf, hb.flatten_length]; simp [Spec.ecb]
    exact ⟨_, _, he, rfl, hl, by rw [← hl, hx923 p hx]; simp⟩
  · obtain ⟨p, ps, hx, hb, hf, he⟩ := cbc_encrypt_standard C hC m hm stale hs rnd iv hiv ctr
    have hbe := cbc_blocks C hC _ hb iv hiv
    have hl : (iv ++ (Spec.cbc C.enc iv ps).flatten).length = C.bs + p.length := by
      rw [List.length_append, hbe.1.flatten_length, hbe.2, hiv, ← hf, hb.flatten_length]
    exact ⟨_, _, he, rfl, hl.symm, by rw [hl, hx923 p hx]; simp [Nat.add_comm]⟩
  · obtain ⟨p, ps, hx, hb, hf, he⟩ := ofb_encrypt_standard C hC m hm stale rnd iv hiv ctr
    have hbe := ofb_blocks C.enc C.bs hC.enc_len _ hb iv hiv
    have hl : (iv ++ (Spec.ofb C.enc iv ps).flatten).length = C.bs + p.length := by
      rw [List.length_append, hbe.1.flatten_length, hbe.2.1, hiv, ← hf, hb.flatten_length]
    exact ⟨_, _, he, rfl, hl.symm, by rw [hl, hx923 p hx]; simp [Nat.add_comm]⟩
  · obtain ⟨nonce, c, rfl⟩ := exists_counter iv (by omega)
    have hn : nonce.length + 4 = C.bs := by rw [← hiv]; simp [be32_length]
    obtain ⟨p, ps, hx, hb, hf, he⟩ :=
      ctr_encrypt_standard C hC m hm stale rnd ctr .ctr (Or.inl rfl) nonce c hn
    have hbe := ctr_blocks C.enc C.bs hC.enc_len nonce hn _ hb c
    have hl : (nonce ++ Spec.be32 c ++ (Spec.ctr C.enc nonce c ps).flatten).length =
        C.bs + p.length := by
      rw [List.length_append, hbe.1.flatten_length, hbe.2.1, hiv, ← hf, hb.flatten_length]
    exact ⟨_, _, he, rfl, hl.symm, by rw [hl, hx923 p hx]; simp [Nat.add_comm]⟩

end Kryptos.Block
