import Verif.Props.GcmTask
/-
  Histories of block cipher tasks: C10 (CTR counter), C11 (IVs), C12 (deterministic padding),
  C13 (malformed ciphertext).
-/
namespace Kryptos.Block
open Kryptos.Gcm

/-! ### C10 -/

/-- One CTR encryption as a caller does it: set the IV (prefix and four arbitrary bytes), run the
setup with the shared counter, run the cipher. -/
def ctrCall (C : Cipher) (key nonce old : Bytes) (c : W32) (m fresh stale : Bytes)
    (rnd : Nat → Byte) : Out Task := do
  let t ← setup C.bs
    { key := none, mode := .nr, action := .encrypt, inp := some m, iv := some (nonce ++ old),
      ctr := some c, aad := none, out := none, outSize := 0, result := .nr } key .ctr fresh
  cipherTask C .unsupported t stale rnd

/-- The outputs of a sequence of CTR encryptions that share the counter variable; each call uses
the value its predecessor left there. -/
def ctrHistory (C : Cipher) (key nonce : Bytes) (old fresh stale : Nat → Bytes)
    (rnd : Nat → Nat → Byte) : W32 → Nat → List Bytes → Out (List Bytes × W32)
  | c, _, [] => .ok ([], c)
  | c, i, m :: ms => do
    let t ← ctrCall C key nonce (old i) c m (fresh i) (stale i) (rnd i)
    match t.out, t.ctr with
    | some o, some c' => do
      let (os, cf) ← ctrHistory C key nonce old fresh stale rnd c' (i + 1) ms
      return (o :: os, cf)
    | _, _ => .ub

/-- One call: the output is the IV block with the counter, followed by the CTR encryption of the
padded message, and the counter variable has advanced by the number of blocks. -/
theorem ctrCall_eq (C : Cipher) (hC : Lawful C) (key nonce old : Bytes) (hkey : key ≠ [])
    (hold : old.length = 4) (hn : nonce.length + 4 = C.bs) (c : W32) (m : Bytes) (hm : m ≠ [])
    (fresh stale : Bytes) (rnd : Nat → Byte) :
    ∃ p ps t, Spec.X923 C.bs m p ∧ Blocks C.bs ps ∧ ps.flatten = p ∧
      ctrCall C key nonce old c m fresh stale rnd = .ok t ∧ t.result = .success ∧
      t.out = some (nonce ++ Spec.be32 c ++ (Spec.ctr C.enc nonce c ps).flatten) ∧
      t.ctr = some (c + BitVec.ofNat 32 ps.length) := by
  obtain ⟨p, ps, hx, hb, hf, he⟩ := ctr_encrypt_standard C hC m hm stale rnd (some c) .ctr
    (Or.inl rfl) nonce c hn
  refine ⟨p, ps, ?_⟩
  have hiv : (nonce ++ Spec.be32 c).length = C.bs := by simp [be32_length, hn]
  have hne : nonce ++ Spec.be32 c ≠ [] := by simp [Spec.be32]
  unfold ctrCall setup
  simp only [reduceCtorEq, and_false, if_false, if_true]
  rw [if_neg (by simp [hold, hn]), putCounter_eq nonce old c hold]
  simp only [Out.bind_ok, Out.pure_eq, cipherTask]
  rw [if_neg]
  · simp only [reduceCtorEq, if_false, runProcess, he, Out.bind_ok, Out.pure_eq,
      and_false]
    exact ⟨_, hx, hb, hf, rfl, rfl, rfl, rfl⟩
  · simp [taskCheck, hkey, hm, hne, hn, be32_length]

/-- C10.  A whole history of CTR encryptions sharing nonce and counter emits, message by message,
the IV block and consecutive pieces of one single CTR encryption (counter blocks nonce ‖ c,
nonce ‖ c+1, ...) of the concatenation of the padded messages; the counter variable ends at the
initial value plus the total number of blocks. -/
theorem ctr_history (C : Cipher) (hC : Lawful C) (key nonce : Bytes) (hkey : key ≠ [])
    (hn : nonce.length + 4 = C.bs) (old fresh stale : Nat → Bytes)
    (hold : ∀ i, (old i).length = 4) (rnd : Nat → Nat → Byte) (ms : List Bytes)
    (hms : ∀ m ∈ ms, m ≠ []) :
    ∀ (c : W32) (i : Nat), ∃ pss css : List (List Bytes),
      List.Forall₂ (fun m ps => Spec.X923 C.bs m ps.flatten ∧ Blocks C.bs ps) ms pss ∧
      List.Forall₂ (fun ps cs => ps.length = List.length cs) pss css ∧
      css.flatten = Spec.ctr C.enc nonce c pss.flatten ∧
      ∃ os, ctrHistory C key nonce old fresh stale rnd c i ms =
          .ok (os, c + BitVec.ofNat 32 pss.flatten.length) ∧
        List.Forall₂ (fun o cs => o.drop C.bs = List.flatten cs) os css := by
  induction ms with
  | nil => intro c i; exact ⟨[], [], .nil, .nil, rfl, [], by simp [ctrHistory], .nil⟩
  | cons m ms ih =>
    intro c i
    obtain ⟨p, ps, t, hx, hb, hf, hrun, _, hout, hctr⟩ := ctrCall_eq C hC key nonce (old i) hkey
      (hold i) hn c m (hms m (by simp)) (fresh i) (stale i) (rnd i)
    obtain ⟨pss, css, h1, h2, h3, os, h4, h5⟩ := ih (fun m' hm' => hms m' (by simp [hm']))
      (c + BitVec.ofNat 32 ps.length) (i + 1)
    have hcat : ∀ (xs ys : List Bytes) (c : W32), Spec.ctr C.enc nonce c (xs ++ ys) =
        Spec.ctr C.enc nonce c xs ++ Spec.ctr C.enc nonce (c + BitVec.ofNat 32 xs.length) ys := by
      intro xs ys
      induction xs with
      | nil => intro c; simp [Spec.ctr]
      | cons x xs ihx =>
        intro c
        simp only [List.cons_append, Spec.ctr, ihx]
        congr 3
        rw [List.length_cons, BitVec.add_assoc, Nat.add_comm xs.length 1, BitVec.ofNat_add]
    have hlen := (ctr_blocks C.enc C.bs hC.enc_len nonce hn ps hb c).2.1
    refine ⟨ps :: pss, Spec.ctr C.enc nonce c ps :: css, .cons ⟨hf ▸ hx, hb⟩ h1,
      .cons hlen.symm h2, ?_, ?_⟩
    · rw [List.flatten_cons, List.flatten_cons, hcat, h3]
    · refine ⟨(nonce ++ Spec.be32 c ++ (Spec.ctr C.enc nonce c ps).flatten) :: os, ?_, .cons ?_ h5⟩
      · simp only [ctrHistory, hrun, Out.bind_ok, hout, hctr, h4, Out.pure_eq]
        rw [List.flatten_cons, List.length_append, BitVec.ofNat_add, BitVec.add_assoc]
      · have : C.bs = (nonce ++ Spec.be32 c).length := by simp [be32_length, hn]
        rw [this]; exact List.drop_left

/-- Block `i` of a CTR encryption is masked with the encryption of nonce ‖ (c + i). -/
theorem ctr_block (E : Bytes → Bytes) (nonce : Bytes) (ps : List Bytes) :
    ∀ (c : W32) (i : Nat) (p : Bytes), ps[i]? = some p →
      (Spec.ctr E nonce c ps)[i]? =
        some (Spec.xorBlock p (E (nonce ++ Spec.be32 (c + BitVec.ofNat 32 i)))) := by
  induction ps with
  | nil => intro c i p h; simp at h
  | cons q ps ih =>
    intro c i p h
    cases i with
    | zero => simp at h; subst h; simp [Spec.ctr]
    | succ i =>
      simp at h
      rw [Spec.ctr, List.getElem?_cons_succ, ih _ i p h, Nat.add_comm i 1, BitVec.ofNat_add,
        ← BitVec.add_assoc]

/-- C10, distinctness: fewer than or exactly 2^32 consecutive blocks use pairwise different
counter blocks. -/
theorem ctr_blocks_distinct (nonce : Bytes) (c : W32) (i j : Nat) (hi : i < 2 ^ 32)
    (hj : j < 2 ^ 32) (h : nonce ++ Spec.be32 (c + BitVec.ofNat 32 i) =
      nonce ++ Spec.be32 (c + BitVec.ofNat 32 j)) : i = j := by
  have h1 := List.append_cancel_left h
  have h2 : c + BitVec.ofNat 32 i = c + BitVec.ofNat 32 j := by
    have e1 := ivCounter_eq [] (c + BitVec.ofNat 32 i)
    rw [h1, ivCounter_eq] at e1
    exact (Out.ok.inj e1).symm
  have h3 := (BitVec.add_right_inj c).mp h2
  have := congrArg BitVec.toNat h3
  rwa [BitVec.toNat_ofNat, BitVec.toNat_ofNat, Nat.mod_eq_of_lt hi, Nat.mod_eq_of_lt hj] at this

/-- The hypotheses of `ctr_history` are met by two messages under the toy cipher. -/
example : ∃ os cf, ctrHistory toy [1] [] (fun _ => [0, 0, 0, 0]) (fun _ => []) (fun _ => [])
    (fun _ _ => 3) 0xFFFFFFFF#32 0 [[1, 2], [3, 4, 5, 6]] = .ok (os, cf) := by
  obtain ⟨_, _, _, _, _, os, h, _⟩ := ctr_history toy toy_lawful [1] [] (by simp) rfl
    (fun _ => [0, 0, 0, 0]) (fun _ => []) (fun _ => []) (fun _ => rfl) (fun _ _ => 3)
    [[1, 2], [3, 4, 5, 6]] (by simp) 0xFFFFFFFF#32 0
  exact ⟨_, _, h⟩

/-! ### C11 -/

/-- Using a task object for one more encryption: new input, setup, cipher.  `fresh` is the random
block the setup draws if it needs an IV. -/
def encryptWith (C : Cipher) (t : Task) (key : Bytes) (mode : Mode) (m fresh stale : Bytes)
    (rnd : Nat → Byte) : Out Task := do
  let t ← setup C.bs { t with inp := some m, action := .encrypt, out := none } key mode fresh
  cipherTask C .unsupported t stale rnd

theorem encryptWith_iv (C : Cipher) (hC : Lawful C) (t : Task) (key : Bytes) (hkey : key ≠ [])
    (mode : Mode) (hmode : mode = .cbc ∨ mode = .ofb ∨ (mode = .ctr ∧ 4 ≤ C.bs))
    (m : Bytes) (hm : m ≠ []) (fresh stale : Bytes) (hs : stale.length ≤ C.bs)
    (rnd : Nat → Byte) (iv : Bytes) (hiv : iv.length = C.bs)
    (htiv : t.iv = some iv ∨ (t.iv = none ∧ fresh = iv)) (hctr : t.ctr = none) :
    ∃ t' o, encryptWith C t key mode m fresh stale rnd = .ok t' ∧ t'.result = .success ∧
      t'.out = some o ∧ o.take C.bs = iv ∧ t'.iv = some (List.replicate C.bs 0#8) ∧
      t'.ctr = none := by
  have hbs := C.bs_pos
  have hne : iv ≠ [] := by intro h0; rw [h0] at hiv; simp at hiv; omega
  have hset : setup C.bs { t with inp := some m, action := .encrypt, out := none } key mode fresh =
      .ok { t with
        key := some key
        mode := mode
        inp := some m
        action := .encrypt
        out := none
        iv := some iv } := by
    have hm4 : mode = .cbc ∨ mode = .ofb ∨ mode = .ctr ∨ mode = .gcm := by
      rcases hmode with h | h | ⟨h, _⟩ <;> simp [h]
    unfold setup
    rcases htiv with h | ⟨h, h'⟩
    · simp only [h, hctr, reduceCtorEq, and_false, if_false]
      split <;> rfl
    · simp only [h, h', hctr, hm4, and_self, if_true]
      split <;> rfl
  have hproc : ∃ r o, process C mode .encrypt m stale rnd (some iv) none = .ok r ∧ r.out = some o ∧
      o.take C.bs = iv ∧ r.iv = some (List.replicate C.bs 0#8) ∧ r.ctr = none := by
    rcases hmode with rfl | rfl | ⟨rfl, h4⟩
    · obtain ⟨p, ps, _, _, _, h⟩ := cbc_encrypt_standard C hC m hm stale hs rnd iv hiv none
      exact ⟨_, _, h, rfl, by rw [← hiv]; exact List.take_left, rfl, rfl⟩
    · obtain ⟨p, ps, _, _, _, h⟩ := ofb_encrypt_standard C hC m hm stale rnd iv hiv none
      exact ⟨_, _, h, rfl, by rw [← hiv]; exact List.take_left, rfl, rfl⟩
    · obtain ⟨nonce, c, rfl⟩ := exists_counter iv (by omega)
      have hn : nonce.length + 4 = C.bs := by rw [← hiv]; simp [be32_length]
      obtain ⟨p, ps, _, _, _, h⟩ := ctr_encrypt_standard C hC m hm stale rnd none .ctr (Or.inl rfl)
        nonce c hn
      exact ⟨_, _, h, rfl, by rw [← hiv]; exact List.take_left, rfl, rfl⟩
  obtain ⟨r, o, h1, h2, h3, h4, h5⟩ := hproc
  have hgcm : mode ≠ .gcm := by rcases hmode with h | h | ⟨h, _⟩ <;> simp [h]
  have hnr : mode ≠ .nr := by rcases hmode with h | h | ⟨h, _⟩ <;> simp [h]
  unfold encryptWith
  rw [hset]
  simp only [Out.bind_ok, cipherTask]
  rw [if_neg]
  · simp only [hgcm, false_and, if_false, runProcess, hctr, h1, Out.bind_ok, Out.pure_eq, h2,
      and_false]
    exact ⟨_, o, rfl, rfl, rfl, h3, h4, h5⟩
  · simp [taskCheck, hkey, hm, hne, hiv, hnr]

/-- C11, the part that holds: the first encryption with a task uses the caller's IV if there is
one and the fresh random block otherwise.  What is missing: later encryptions, see
`iv_silently_reused`. -/
theorem first_iv_partial (C : Cipher) (hC : Lawful C) (t : Task) (key : Bytes) (hkey : key ≠ [])
    (mode : Mode) (hmode : mode = .cbc ∨ mode = .ofb ∨ (mode = .ctr ∧ 4 ≤ C.bs))
    (m : Bytes) (hm : m ≠ []) (fresh stale : Bytes) (hs : stale.length ≤ C.bs)
    (hf : fresh.length = C.bs) (rnd : Nat → Byte) (hctr : t.ctr = none)
    (htiv : ∀ v, t.iv = some v → v.length = C.bs) :
    ∃ t' o, encryptWith C t key mode m fresh stale rnd = .ok t' ∧ t'.result = .success ∧
      t'.out = some o ∧ o.take C.bs = t.iv.getD fresh := by
  cases hv : t.iv with
  | none =>
    obtain ⟨t', o, h1, h2, h3, h4, _⟩ := encryptWith_iv C hC t key hkey mode hmode m hm fresh stale hs
      rnd fresh hf (Or.inr ⟨hv, rfl⟩) hctr
    exact ⟨t', o, h1, h2, h3, h4⟩
  | some v =>
    obtain ⟨t', o, h1, h2, h3, h4, _⟩ := encryptWith_iv C hC t key hkey mode hmode m hm fresh stale hs
      rnd v (htiv v hv) (Or.inl hv) hctr
    exact ⟨t', o, h1, h2, h3, h4⟩

/-- C11 is violated.  Encrypt three messages with one task object and no caller supplied IV: the
first uses a fresh IV, but the second and the third use the same all-zero IV, whatever the random
generator would have offered and although the caller never chose it. -/
theorem iv_silently_reused (C : Cipher) (hC : Lawful C) (t : Task) (key : Bytes) (hkey : key ≠ [])
    (mode : Mode) (hmode : mode = .cbc ∨ mode = .ofb ∨ (mode = .ctr ∧ 4 ≤ C.bs))
    (m₁ m₂ m₃ : Bytes) (h₁ : m₁ ≠ []) (h₂ : m₂ ≠ []) (h₃ : m₃ ≠ [])
    (f₁ f₂ f₃ s₁ s₂ s₃ : Bytes) (hf₁ : f₁.length = C.bs)
    (hs₁ : s₁.length ≤ C.bs) (hs₂ : s₂.length ≤ C.bs) (hs₃ : s₃.length ≤ C.bs)
    (r₁ r₂ r₃ : Nat → Byte) (htiv : t.iv = none) (hctr : t.ctr = none) :
    ∃ t₁ t₂ t₃ o₁ o₂ o₃,
      encryptWith C t key mode m₁ f₁ s₁ r₁ = .ok t₁ ∧ t₁.out = some o₁ ∧ o₁.take C.bs = f₁ ∧
      encryptWith C t₁ key mode m₂ f₂ s₂ r₂ = .ok t₂ ∧ t₂.out = some o₂ ∧
      o₂.take C.bs = List.replicate C.bs 0#8 ∧
      encryptWith C t₂ key mode m₃ f₃ s₃ r₃ = .ok t₃ ∧ t₃.out = some o₃ ∧
      o₃.take C.bs = List.replicate C.bs 0#8 := by
  obtain ⟨t₁, o₁, a1, _, a3, a4, a5, a6⟩ := encryptWith_iv C hC t key hkey mode hmode m₁ h₁ f₁ s₁ hs₁
    r₁ f₁ hf₁ (Or.inr ⟨htiv, rfl⟩) hctr
  obtain ⟨t₂, o₂, b1, _, b3, b4, b5, b6⟩ := encryptWith_iv C hC t₁ key hkey mode hmode m₂ h₂ f₂ s₂ hs₂
    r₂ _ (by simp) (Or.inl a5) a6
  obtain ⟨t₃, o₃, c1, _, c3, c4, _, _⟩ := encryptWith_iv C hC t₂ key hkey mode hmode m₃ h₃ f₃ s₃ hs₃
    r₃ _ (by simp) (Or.inl b5) b6
  exact ⟨t₁, t₂, t₃, o₁, o₂, o₃, a1, a3, a4, b1, b3, b4, c1, c3, c4⟩

/-- Instance: a fresh task and the toy cipher in CBC mode. -/
example := iv_silently_reused toy toy_lawful
  { key := none, mode := .nr, action := .nr, inp := none, iv := none, ctr := none, aad := none,
    out := none, outSize := 0, result := .nr } [1] (by simp) .cbc (Or.inl rfl)
  [1] [2] [3] (by simp) (by simp) (by simp) [1, 2, 3, 4] [5, 6, 7, 8] [9, 9, 9, 9] [] [] [] rfl
  (by simp) (by simp) (by simp) (fun _ => 0) (fun _ => 0) (fun _ => 0) rfl rfl

/-! ### C12 -/

theorem ansiX923_det (m : Bytes) (bs : Nat) (rnd : Nat → Byte) :
    Padding.ansiX923 m bs false rnd = Padding.ansiX923 m bs true (fun _ => 0#8) := by
  simp [Padding.ansiX923, List.map_const']

/-- In OFB and CTR the action without random padding is the ordinary encryption with zero
filler. -/
theorem without_random_pad_eq (C : Cipher) (mode : Mode) (hmode : mode = .ofb ∨ mode = .ctr)
    (m stale : Bytes) (rnd : Nat → Byte) (iv : Option Bytes) (ctr : Option W32) :
    process C mode .encryptWithoutRandomPad m stale rnd iv ctr =
      process C mode .encrypt m stale (fun _ => 0#8) iv ctr := by
  have h1 : encrypting .encryptWithoutRandomPad = true := rfl
  have h2 : encrypting .encrypt = true := rfl
  rcases hmode with rfl | rfl
  · cases iv with
    | none => rfl
    | some v =>
      simp only [process, pick_ofb, processIv, h1, h2, reduceCtorEq, decide_false, decide_true,
        ansiX923_det]
  · cases iv with
    | none => rfl
    | some v =>
      simp only [process, pick_ctr, processIv, h1, h2, reduceCtorEq, decide_false, decide_true,
        ansiX923_det]

/-- C12 for OFB and CTR.  Missing: ECB, CBC and GCM, where the claim is false
(`without_random_pad_ecb_wrong`, `without_random_pad_cbc_wrong`,
`without_random_pad_gcm_unauthenticated`). -/
theorem without_random_pad_roundtrip_partial (C : Cipher) (hC : Lawful C) (hbs : C.bs ≤ 255)
    (mode : Mode) (hmode : mode = .ofb ∨ (mode = .ctr ∧ 4 ≤ C.bs))
    (m : Bytes) (hm : m ≠ []) (hbig : m.length + C.bs < 2 ^ 64)
    (stale stale' : Bytes) (hs : stale.length ≤ C.bs) (hs' : stale'.length ≤ C.bs)
    (rnd rnd' : Nat → Byte) (iv iv' : Bytes) (hiv : iv.length = C.bs) (hiv' : iv'.length = C.bs)
    (ctr ctr' : Option W32) :
    ∃ e ct, process C mode .encryptWithoutRandomPad m stale rnd (some iv) ctr = .ok e ∧
      e.out = some ct ∧ e.size = ct.length ∧
      ∃ d buf, process C mode .decrypt ct stale' rnd' (some iv') ctr' = .ok d ∧
        d.out = some buf ∧ d.size = m.length ∧ buf.take d.size = m := by
  rw [without_random_pad_eq C mode (by rcases hmode with h | ⟨h, _⟩ <;> simp [h])]
  exact block_mode_roundtrip C hC hbs mode
    (by rcases hmode with h | h
        · exact Or.inr (Or.inr (Or.inl h))
        · exact Or.inr (Or.inr (Or.inr h)))
    m hm hbig stale stale' hs hs' _ rnd' iv iv' hiv hiv' ctr ctr'

/-- C12 is false in ECB: the action runs the block *decryption*, and so does the decrypt action;
what comes back is the plaintext decrypted twice. -/
theorem without_random_pad_ecb_wrong :
    ∃ (C : Cipher) (_ : Lawful C) (m : Bytes) (e : Processed) (ct : Bytes) (d : Processed)
      (buf : Bytes), m ≠ [] ∧
      process C .ecb .encryptWithoutRandomPad m [] (fun _ => 0) none none = .ok e ∧
      e.out = some ct ∧
      process C .ecb .decrypt ct [] (fun _ => 0) none none = .ok d ∧ d.out = some buf ∧
      ¬ (d.size = m.length ∧ buf.take d.size = m) := by
  refine ⟨toy, toy_lawful, [1, 2, 3, 4, 5], ⟨some [3, 0, 1, 2, 2, 4, 0xFF, 0xFF], 8, none, none⟩,
    [3, 0, 1, 2, 2, 4, 0xFF, 0xFF], ?_⟩
  refine ⟨⟨some [1, 2, 0xFF, 0, 0xFE, 1, 3, 0], (8 + (2 ^ 64 - 0xFE)) % 2 ^ 64, none, none⟩,
    [1, 2, 0xFF, 0, 0xFE, 1, 3, 0], by simp, by decide +kernel, rfl, by decide +kernel, rfl,
    by simp⟩

/-- C12 is false in CBC: neither the IV nor the previous block is mixed in, and the block function
is the decryption. -/
theorem without_random_pad_cbc_wrong :
    ∃ (C : Cipher) (_ : Lawful C) (m iv : Bytes) (e : Processed) (ct : Bytes) (d : Processed)
      (buf : Bytes), m ≠ [] ∧ iv.length = C.bs ∧
      process C .cbc .encryptWithoutRandomPad m [] (fun _ => 0) (some iv) none = .ok e ∧
      e.out = some ct ∧
      process C .cbc .decrypt ct [] (fun _ => 0) (some iv) none = .ok d ∧ d.out = some buf ∧
      ¬ (d.size = m.length ∧ buf.take d.size = m) := by
  refine ⟨toy, toy_lawful, [1, 2, 3, 4, 5], [7, 7, 7, 7],
    ⟨some [7, 7, 7, 7, 3, 0, 1, 2, 2, 4, 0xFF, 0xFF], 12, some [0, 0, 0, 0], none⟩,
    [7, 7, 7, 7, 3, 0, 1, 2, 2, 4, 0xFF, 0xFF], ?_⟩
  refine ⟨⟨some [6, 5, 0xF8, 7, 0xFD, 1, 2, 0], (8 + (2 ^ 64 - 0xFC)) % 2 ^ 64,
    some [0, 0, 0, 0], none⟩,
    [6, 5, 0xF8, 7, 0xFD, 1, 2, 0], by simp, rfl, by decide +kernel, rfl, by decide +kernel, rfl,
    by simp⟩

/-- C12 is false in GCM: the action emits no tag, so the decrypt action reports corrupted data. -/
theorem without_random_pad_gcm_unauthenticated :
    ∃ (C : Cipher) (_ : Lawful C) (t t₁ t₂ : Task) (o : Bytes), C.bs = 16 ∧
      cipherTask C .standard { t with action := .encryptWithoutRandomPad } [] (fun _ => 0) = .ok t₁ ∧
      t₁.result = .success ∧ t₁.out = some o ∧
      cipherTask C .standard { t with action := .decrypt, inp := some o } [] (fun _ => 0) = .ok t₂ ∧
      t₂.result = .gmacError ∧ t₂.out = none := by
  have h1 : (match cipherTask toy16 .standard
        { sampleTask with action := .encryptWithoutRandomPad } [] (fun _ => 0) with
      | .ok t₁ => match t₁.out with
        | some o => match cipherTask toy16 .standard
            { sampleTask with action := .decrypt, inp := some o } [] (fun _ => 0) with
          | .ok t₂ => decide (t₁.result = .success ∧ t₂.result = .gmacError ∧ t₂.out = none)
          | .ub => false
        | none => false
      | .ub => false) = true := by decide +kernel
  revert h1
  cases e1 : cipherTask toy16 .standard
        { sampleTask with action := .encryptWithoutRandomPad } [] (fun _ => 0) with
  | ub => intro h; cases h
  | ok t₁ =>
    cases e2 : t₁.out with
    | none => simp [e2]
    | some o =>
      cases e3 : cipherTask toy16 .standard
            { sampleTask with action := .decrypt, inp := some o } [] (fun _ => 0) with
      | ub => intro h; simp only [e2, e3, Bool.false_eq_true] at h
      | ok t₂ =>
        intro h
        simp only [e2, e3, decide_eq_true_eq] at h
        exact ⟨toy16, toy16_lawful, sampleTask, t₁, t₂, o, rfl, e1, h.1, e2, e3, h.2⟩

/-! ### C13 -/

/-- C13, bounds.  Decrypting data of a proper length (a positive multiple of the block size, plus
one block in the IV modes), whatever the content, stays in bounds and allocates exactly the length
of the data part; data shorter than a block is rejected in the IV modes.  Missing: other lengths
(`decrypt_iv_only_unsafe`, `decrypt_ragged_unsafe`) and the bound on the reported size
(`decrypt_size_underflow`), where the claim is false. -/
theorem decrypt_in_bounds_partial (C : Cipher) (hC : Lawful C) (mode : Mode)
    (hmode : mode = .ecb ∨ mode = .cbc ∨ mode = .ofb ∨ (mode = .ctr ∧ 4 ≤ C.bs))
    (inp stale : Bytes) (hs : stale.length ≤ C.bs) (rnd : Nat → Byte) (iv : Bytes)
    (hiv : iv.length = C.bs) (ctr : Option W32) :
    (inp.length % C.bs = 0 → inp.length ≥ (if mode = .ecb then C.bs else 2 * C.bs) →
      ∃ r buf, process C mode .decrypt inp stale rnd (some iv) ctr = .ok r ∧ r.out = some buf ∧
        buf.length = inp.length - (if mode = .ecb then 0 else C.bs)) ∧
    (mode ≠ .ecb → inp.length < C.bs →
      ∃ r, process C mode .decrypt inp stale rnd (some iv) ctr = .ok r ∧ r.out = none) := by
  have hbs := C.bs_pos
  have hun : ∀ o : Bytes, 0 < o.length → ∃ o' s, unpad o = .ok (o', s) ∧ o'.length = o.length := by
    intro o ho
    unfold unpad
    rw [if_neg (by omega), rd_eq_ok (show o.length - 1 < o.length by omega)]
    exact ⟨_, _, rfl, by simp⟩
  constructor
  · intro hmod hge
    rcases hmode with rfl | rfl | rfl | ⟨rfl, h4⟩
    · simp only [if_true, ge_iff_le] at hge ⊢
      obtain ⟨ps, hb, hf⟩ := exists_blocks C.bs hbs inp hmod
      have hl := (ecb_blocks C.dec C.bs hC.dec_len ps hb).flatten_length
      have hl' := hb.flatten_length
      rw [hf] at hl'
      have hol : (Spec.ecb C.dec ps).flatten.length = inp.length := by
        rw [hl, hl']; simp [Spec.ecb]
      obtain ⟨o', s, hu, hul⟩ := hun _ (by rw [hol]; omega)
      refine ⟨{ out := some o', size := s, iv := some iv, ctr }, o', ?_, rfl, by rw [hul, hol]; simp⟩
      simp only [process, processEcb, encrypting_decrypt, pick_ecb, Bool.false_eq_true, if_false]
      rw [← hf, ecbLoop_blocks C.dec C.bs C.bs_pos hC.dec_len _ hb _ _ hs (Nat.le_refl _)]
      simp only [Out.bind_ok, hu, Out.pure_eq]
    all_goals
      simp only [reduceCtorEq, if_false, ge_iff_le] at hge ⊢
      obtain ⟨ps, hb, hf⟩ := exists_blocks C.bs hbs (inp.drop C.bs)
        (by rw [List.length_drop]
            have := Nat.mod_eq_sub_mod (show C.bs ≤ inp.length by omega)
            omega)
      have hl' := hb.flatten_length
      rw [hf] at hl'
      have htl : (inp.take C.bs).length = C.bs := by simp; omega
    · have hlc : ∀ (ps : List Bytes) (iv : Bytes), Blocks C.bs ps → iv.length = C.bs →
          (cbcDec C.dec iv ps).flatten.length = ps.length * C.bs := by
        intro ps
        induction ps with
        | nil => intro iv _ _; simp [cbcDec]
        | cons p ps ih =>
          intro iv hb hiv
          have hp := hb.cons
          simp only [cbcDec, List.flatten_cons, List.length_append, ih p hp.2 hp.1, List.length_cons,
            Nat.succ_mul]
          have : (Spec.xorBlock (C.dec p) iv).length = C.bs := by
            simp [Spec.xorBlock, hC.dec_len p hp.1, hiv]
          omega
      have hol := hlc ps (inp.take C.bs) hb htl
      obtain ⟨o', s, hu, hul⟩ := hun (cbcDec C.dec (inp.take C.bs) ps).flatten (by
        rw [hol, ← hl']; simp; omega)
      refine ⟨{ out := some o', size := s, iv := some (List.replicate C.bs 0#8), ctr }, o', ?_, rfl,
        by rw [hul, hol, ← hl']; simp⟩
      simp only [process, processIv, encrypting_decrypt, pick_cbc, cbcBody, Bool.false_eq_true,
        if_false, reduceCtorEq]
      rw [if_neg (by simp [hiv]), if_neg (by omega)]
      simp only [Out.bind_ok]
      rw [← hf, cbcLoop_dec C.dec C.bs C.bs_pos hC.dec_len _ hb _ _ _ htl hs (by rw [hf]; simp)]
      simp only [Out.bind_ok, hu, Out.pure_eq]
    · have hob := ofb_blocks C.enc C.bs hC.enc_len ps hb (inp.take C.bs) htl
      have hol := hob.1.flatten_length
      rw [hob.2.1, ← hl'] at hol
      obtain ⟨o', s, hu, hul⟩ := hun (Spec.ofb C.enc (inp.take C.bs) ps).flatten (by
        rw [hol]; simp; omega)
      refine ⟨{ out := some o', size := s, iv := some (List.replicate C.bs 0#8), ctr }, o', ?_, rfl,
        by rw [hul, hol]; simp⟩
      simp only [process, processIv, encrypting_decrypt, pick_ofb, ofbBody, Bool.false_eq_true,
        if_false]
      rw [if_neg (by simp [hiv]), if_neg (by omega)]
      rw [← hf, ofbLoop_blocks C.enc C.bs C.bs_pos hC.enc_len _ hb _ _ htl (by rw [hf]; simp)]
      simp only [Out.bind_ok, hu, Out.pure_eq]
    · obtain ⟨nonce, c, hnc⟩ := exists_counter (inp.take C.bs) (by omega)
      have hn : nonce.length + 4 = C.bs := by rw [← htl, hnc]; simp [be32_length]
      have hob := ctr_blocks C.enc C.bs hC.enc_len nonce hn ps hb c
      have hol := hob.1.flatten_length
      rw [hob.2.1, ← hl'] at hol
      obtain ⟨o', s, hu, hul⟩ := hun (Spec.ctr C.enc nonce c ps).flatten (by
        rw [hol]; simp; omega)
      refine ⟨⟨some o', s, some (List.replicate C.bs 0#8),
          ctr.map fun _ => c + BitVec.ofNat 32 ps.length⟩, o', ?_, rfl,
        by rw [hul, hol]; simp⟩
      simp only [process, processIv, encrypting_decrypt, pick_ctr, ctrBody, Bool.false_eq_true,
        if_false]
      rw [if_neg (by simp [hiv]), if_neg (by omega)]
      rw [← hf, hnc, ctrLoop_blocks C.enc C.bs C.bs_pos hC.enc_len nonce _ hb hn c _
        (by rw [hf]; simp)]
      cases ctr with
      | none => simp only [Out.bind_ok, hu, Out.pure_eq, Option.map_none]
      | some c0 => simp only [Out.bind_ok, ivCounter_eq, hu, Out.pure_eq, Option.map_some]
  · intro hne hlt
    rcases hmode with rfl | rfl | rfl | ⟨rfl, h4⟩
    · exact absurd rfl hne
    all_goals
      refine ⟨{ out := none, size := 0, iv := some iv, ctr }, ?_, rfl⟩
      simp only [process, processIv, encrypting_decrypt, Bool.false_eq_true, if_false]
      rw [if_neg (by simp [hiv]), if_pos hlt]
      rfl

/-- C13 is violated: ciphertext consisting of an IV only makes every cipher and IV mode access the
byte in front of an empty buffer. -/
theorem decrypt_iv_only_unsafe (C : Cipher) (mode : Mode)
    (hmode : mode = .cbc ∨ mode = .ofb ∨ mode = .ctr) (inp stale : Bytes) (rnd : Nat → Byte)
    (iv : Bytes) (hiv : iv.length = C.bs) (hlen : inp.length = C.bs) :
    process C mode .decrypt inp stale rnd (some iv) none = .ub := by
  have hd : inp.drop C.bs = [] := List.drop_eq_nil_of_le (by omega)
  have hb : ∀ o, blockParser o C.bs [] = none := fun o => blockParser_nil o C.bs
  rcases hmode with rfl | rfl | rfl
  · simp only [process, processIv, encrypting_decrypt, Bool.false_eq_true, if_false, hd]
    rw [if_neg (by simp [hiv]), if_neg (by omega)]
    simp [cbcBody, cbcLoop_nil, unpad]
  · simp only [process, processIv, encrypting_decrypt, Bool.false_eq_true, if_false, hd]
    rw [if_neg (by simp [hiv]), if_neg (by omega)]
    have : ∀ f o cap, ofbLoop f C.bs C.bs_pos o [] cap = .ok [] := by
      intro f o cap; rw [ofbLoop]; split
      · rfl
      · rename_i h; rw [hb] at h; cases h
    simp [ofbBody, this, unpad]
  · simp only [process, processIv, encrypting_decrypt, Bool.false_eq_true, if_false, hd]
    rw [if_neg (by simp [hiv]), if_neg (by omega)]
    have : ∀ f o cap, ctrLoop f C.bs C.bs_pos o [] cap = .ok ([], o) := by
      intro f o cap; rw [ctrLoop]; split
      · rfl
      · rename_i h; rw [hb] at h; cases h
    simp [ctrBody, this, unpad]

/-- C13 is violated: a ciphertext whose length is not a multiple of the block size makes the
library write a whole block into the remaining shorter space. -/
theorem decrypt_ragged_unsafe :
    process toy .ecb .decrypt [1, 2, 3, 4, 5] [] (fun _ => 0) none none = .ub := by decide +kernel

/-- C13 is violated: the reported size is the buffer size minus the last decrypted byte, without a
check; four bytes of ciphertext yield a reported size close to 2^64. -/
theorem decrypt_size_underflow :
    ∃ r, process toy .ecb .decrypt [0xC9, 0, 0, 0] [] (fun _ => 0) none none = .ok r ∧
      r.out = some [0xFF, 0xC8, 0xFF, 0] ∧ r.size = 2 ^ 64 - 251 := by
  exact ⟨⟨some [0xFF, 0xC8, 0xFF, 0], 2 ^ 64 - 251, none, none⟩, by decide +kernel, rfl, rfl⟩

/-- The check lets a block cipher task pass exactly when the key and the input are non-empty, the
mode is known, the action is one of the three cipher actions and, in a mode that uses an IV, the
IV is exactly one block long. -/
theorem taskCheck_iff (bs : Nat) (hbs : 0 < bs) (t : Task) : taskCheck bs t = .success ↔
    (∃ k, t.key = some k ∧ 0 < k.length) ∧ t.mode ≠ .nr ∧
    (t.mode ≠ .ecb → ∃ v, t.iv = some v ∧ v.length = bs) ∧
    (t.action = .encrypt ∨ t.action = .decrypt ∨ t.action = .encryptWithoutRandomPad) ∧
    (∃ i, t.inp = some i ∧ 0 < i.length) := by
  have nb : ∀ v : Bytes, (v.length = bs ∧ v ≠ []) ↔ v.length = bs := fun v =>
    ⟨fun h => h.1, fun h => ⟨h, List.length_pos_iff.mp (by omega)⟩⟩
  have opt : ∀ o : Option Bytes, ¬ (o = none ∨ o = some []) ↔ ∃ k, o = some k ∧ 0 < k.length := by
    intro o
    cases o with
    | none => simp
    | some k => cases k <;> simp
  have hmode : t.mode ≠ .nr → ((t.mode = .cbc ∨ t.mode = .ofb ∨ t.mode = .ctr ∨ t.mode = .gcm) ↔
      t.mode ≠ .ecb) := by cases t.mode <;> simp
  unfold taskCheck
  by_cases h1 : t.key = none ∨ t.key = some []
  · rw [if_pos h1]
    constructor
    · intro h; cases h
    · intro h; exact absurd h1 ((opt _).mpr h.1)
  · rw [if_neg h1]
    by_cases h2 : t.mode = .nr
    · rw [if_pos h2]
      constructor
      · intro h; cases h
      · intro h; exact absurd h2 h.2.1
    · rw [if_neg h2]
      by_cases h3 : (t.mode = .cbc ∨ t.mode = .ofb ∨ t.mode = .ctr ∨ t.mode = .gcm) ∧
          ¬ (∃ v, t.iv = some v ∧ v.length = bs ∧ v ≠ [])
      · rw [if_pos h3]
        constructor
        · intro h; cases h
        · intro h
          obtain ⟨v, hv, hl⟩ := h.2.2.1 ((hmode h2).mp h3.1)
          exact absurd ⟨v, hv, (nb v).mpr hl⟩ h3.2
      · rw [if_neg h3]
        have h3' : t.mode ≠ .ecb → ∃ v, t.iv = some v ∧ v.length = bs := by
          intro hm
          apply Decidable.byContradiction
          intro hc
          exact h3 ⟨(hmode h2).mpr hm, fun ⟨v, hv, hl⟩ => hc ⟨v, hv, hl.1⟩⟩
        by_cases h4 : t.action ≠ .encrypt ∧ t.action ≠ .decrypt ∧ t.action ≠ .encryptWithoutRandomPad
        · rw [if_pos h4]
          constructor
          · intro h; cases h
          · intro h
            rcases h.2.2.2.1 with h | h | h
            · exact absurd h h4.1
            · exact absurd h h4.2.1
            · exact absurd h h4.2.2
        · rw [if_neg h4]
          have h4' : t.action = .encrypt ∨ t.action = .decrypt ∨
              t.action = .encryptWithoutRandomPad := by
            revert h4; cases t.action <;> simp
          by_cases h5 : t.inp = none ∨ t.inp = some []
          · rw [if_pos h5]
            constructor
            · intro h; cases h
            · intro h; exact absurd h5 ((opt _).mpr h.2.2.2.2)
          · rw [if_neg h5]
            exact ⟨fun _ => ⟨(opt _).mp h1, h2, h3', h4', (opt _).mp h5⟩, fun _ => rfl⟩

/-- Concrete case. -/
example : taskCheck 4 ⟨some [1], .cbc, .encrypt, some [7], some [1, 2, 3, 4], none, none, none, 0, .nr⟩ =
    .success := by decide

end Kryptos.Block
