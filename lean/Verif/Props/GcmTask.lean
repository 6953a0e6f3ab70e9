import Verif.Props.Gcm
/-
  GCM at the level of tasks: C14 (acceptance, round trip), C09 (length).
-/
namespace Kryptos.Gcm
open Kryptos.Block

theorem ghash_total (h a c : Bytes) (hh : h.length = 16) :
    ∃ r, ghash h a c = .ok r ∧ r.length = 16 := by
  obtain ⟨H, hH, _⟩ := loadBlock_take h (by omega)
  obtain ⟨C, hC, _⟩ := loadBlocks_pad c
  have hA : ∃ A, loadAad a = .ok A := by
    unfold loadAad
    split
    · obtain ⟨A, hA, _⟩ := loadBlocks_pad a; exact ⟨A, hA⟩
    · exact ⟨[], rfl⟩
  obtain ⟨A, hA⟩ := hA
  unfold ghash
  rw [hH, hC, hA]
  simp only [Out.bind_ok, Out.pure_eq]
  exact ⟨_, rfl, rfl⟩

/-- The block function `kryptos_<cipher>_e` applies: block encryption for the ciphers instantiated
with the standard macro, block *decryption* for those with the custom one (RC6). -/
def blockE (C : Cipher) : EKind → Bytes → Bytes
  | .custom => C.dec
  | _ => C.enc

theorem ecb_any (C : Cipher) (f : Bytes → Bytes)
    (hf : ∀ b : Bytes, b.length = C.bs → (f b).length = C.bs) (a : Action)
    (ha : a = .encrypt ∨ a = .encryptWithoutRandomPad) (hp : pick C a .ecb = f)
    (m : Bytes) (hm : m ≠ []) (stale : Bytes) (hs : stale.length ≤ C.bs) (rnd : Nat → Byte)
    (iv : Option Bytes) (ctr : Option W32) :
    ∃ p ps, Spec.X923 C.bs m p ∧ Blocks C.bs ps ∧ ps.flatten = p ∧
      process C .ecb a m stale rnd iv ctr = .ok
        { out := some (Spec.ecb f ps).flatten, size := p.length, iv, ctr } := by
  obtain ⟨p, q, ps, h1, h2, h3, h4⟩ := pad_blocks C m hm (decide (a = .encrypt)) rnd
  refine ⟨p, q :: ps, h3, h4, h2, ?_⟩
  have hl := (ecb_blocks f C.bs hf _ h4).flatten_length
  have hl2 := h4.flatten_length
  have henc : encrypting a = true := by rcases ha with rfl | rfl <;> rfl
  simp only [process, processEcb, henc, hp, if_true, h1]
  rw [ecbLoop_blocks f C.bs C.bs_pos hf _ h4 _ _ hs (Nat.le_refl _)]
  simp only [Out.bind_ok, Out.pure_eq, hl]
  rw [← h2, hl2]
  simp [Spec.ecb]

theorem eFunc_ok (C : Cipher) (hC : Lawful C) (hbs : C.bs = 16) (kind : EKind)
    (hk : kind ≠ .unsupported) (stale : Bytes) (hs : stale.length ≤ 16) (rnd : Nat → Byte)
    (h : Bytes) (hh : h.length = 16) :
    eFunc C kind stale rnd h = .ok (.success, blockE C kind h) := by
  have hne : h ≠ [] := by intro h0; rw [h0] at hh; simp at hh
  have first : ∀ p ps, Spec.X923 C.bs h p → Blocks C.bs ps → ps.flatten = p →
      ∃ qs, ps = h :: qs := by
    rintro p ps ⟨k, fl, _, _, _, hp, _⟩ hb hf
    match ps, hb, hf with
    | [], _, hf =>
      rw [hp] at hf; exfalso; simp at hf
    | q :: qs, hb, hf =>
      refine ⟨qs, ?_⟩
      rw [hp, List.append_assoc, List.flatten_cons] at hf
      rw [(List.append_inj hf (by rw [hb.cons.1, hbs, hh])).1]
  cases kind with
  | unsupported => exact absurd rfl hk
  | standard =>
    obtain ⟨p, ps, h1, h2, h3, h4⟩ := ecb_any C C.enc hC.enc_len .encrypt (Or.inl rfl) rfl h hne stale
      (by rw [hbs]; exact hs) rnd none none
    obtain ⟨qs, rfl⟩ := first p ps h1 h2 h3
    have hl : (C.enc h).length = 16 := by rw [hC.enc_len h (by rw [hbs, hh]), hbs]
    simp only [eFunc, h4, Out.bind_ok, Spec.ecb, List.map_cons, List.flatten_cons]
    rw [if_neg (by simp [hl]), List.take_append_of_le_length (by omega),
      List.take_of_length_le (by omega)]
    rfl
  | custom =>
    obtain ⟨p, ps, h1, h2, h3, h4⟩ := ecb_any C C.dec hC.dec_len .encryptWithoutRandomPad
      (Or.inr rfl) rfl h hne stale (by rw [hbs]; exact hs) rnd none none
    obtain ⟨qs, rfl⟩ := first p ps h1 h2 h3
    have hl : (C.dec h).length = 16 := by rw [hC.dec_len h (by rw [hbs, hh]), hbs]
    simp only [eFunc, h4, Out.bind_ok, Spec.ecb, List.map_cons, List.flatten_cons]
    rw [if_neg (by simp [hl]), List.take_append_of_le_length (by omega),
      List.take_of_length_le (by omega)]
    rfl

theorem blockE_len (C : Cipher) (hC : Lawful C) (hbs : C.bs = 16) (kind : EKind) (h : Bytes)
    (hh : h.length = 16) : (blockE C kind h).length = 16 := by
  cases kind <;> simp only [blockE] <;>
    first
      | rw [hC.enc_len h (by rw [hbs, hh]), hbs]
      | rw [hC.dec_len h (by rw [hbs, hh]), hbs]

/-- The tag of the library as a function of the cipher, the additional data and IV ‖ ciphertext
(the value `gcmTag` returns when the block function is total). -/
def libTag (C : Cipher) (kind : EKind) (a c : Bytes) : Bytes :=
  match gcmTag (fun h => .ok (.success, blockE C kind h)) c 16 a with
  | .ok (_, t) => t
  | .ub => []

theorem gcmTag_eq (C : Cipher) (hC : Lawful C) (hbs : C.bs = 16) (kind : EKind)
    (E : Bytes → Out (TaskResult × Bytes))
    (hE : ∀ h : Bytes, h.length = 16 → E h = .ok (.success, blockE C kind h))
    (a c : Bytes) (hc : 16 ≤ c.length) :
    gcmTag E c 16 a = .ok (.success, libTag C kind a c) ∧ (libTag C kind a c).length = 16 := by
  have hH := blockE_len C hC hbs kind (List.replicate 16 0#8) (by simp)
  obtain ⟨y, hy, hyl⟩ := ghash_total (blockE C kind (List.replicate 16 0#8)) [] (c.take 16) hH
  obtain ⟨t, ht, htl⟩ := ghash_total (blockE C kind (List.replicate 16 0#8)) a (c.drop 16) hH
  have hY := blockE_len C hC hbs kind y hyl
  have key : ∀ E : Bytes → Out (TaskResult × Bytes),
      (∀ h : Bytes, h.length = 16 → E h = .ok (.success, blockE C kind h)) →
      gcmTag E c 16 a = .ok (.success, List.zipWith (· ^^^ ·) t (blockE C kind y)) := by
    intro E hE
    unfold gcmTag
    rw [hE _ (by simp)]
    simp only [Out.bind_ok, ne_eq, not_true_eq_false, if_false]
    have hy0 : gcmY0 (blockE C kind (List.replicate 16 0#8)) c 16 = .ok y := by
      unfold gcmY0
      rw [if_pos (by decide), if_neg (by omega), hy]
    rw [hy0]
    simp only [Out.bind_ok]
    rw [if_neg (by omega), ht]
    simp only [Out.bind_ok]
    rw [hE y hyl]
    simp
  have hlib : libTag C kind a c = List.zipWith (· ^^^ ·) t (blockE C kind y) := by
    unfold libTag
    rw [key _ (fun _ _ => rfl)]
  rw [hlib]
  exact ⟨key E hE, by simp [htl, hY]⟩

/-- C14/C15.  For additional data and ciphertexts below 2^21 bytes the tag of the library is the
tag of SP 800-38D for a 128-bit IV, with the block function the library uses for it. -/
theorem libTag_is_standard_partial (C : Cipher) (hC : Lawful C) (hbs : C.bs = 16) (kind : EKind)
    (a iv ct : Bytes) (hiv : iv.length = 16) (ha : a.length < 2 ^ 21) (hct : ct.length < 2 ^ 21) :
    libTag C kind a (iv ++ ct) = Spec.Gcm.tag (blockE C kind) iv a ct := by
  have hH := blockE_len C hC hbs kind (List.replicate 16 0#8) (by simp)
  have h1 : (iv ++ ct).take 16 = iv := by rw [← hiv]; simp
  have h2 : (iv ++ ct).drop 16 = ct := by rw [← hiv]; simp
  have hy := ghash_is_standard_partial (blockE C kind (List.replicate 16 0#8)) [] iv hH (by simp)
    (by omega) (by simp) (by omega)
  have ht := ghash_is_standard_partial (blockE C kind (List.replicate 16 0#8)) a ct hH
    (by omega) (by omega) (by omega) (by omega)
  unfold libTag gcmTag
  simp only [Out.bind_ok, ne_eq, not_true_eq_false, if_false]
  have hy0 : gcmY0 (blockE C kind (List.replicate 16 0#8)) (iv ++ ct) 16 =
      .ok (Spec.Gcm.bytes (Spec.Gcm.S
        (Spec.Gcm.block (blockE C kind (List.replicate 16 0#8))) [] iv)) := by
    unfold gcmY0
    rw [if_pos (by decide), if_neg (by simp [hiv]), h1, hy]
  rw [hy0]
  simp only [Out.bind_ok]
  rw [if_neg (by simp [hiv]), h2, ht]
  rfl

/-- The state of a task ready to be run in GCM mode: key, 16-byte IV and non-empty input. -/
structure Ready (t : Task) (act : Action) (data : Bytes) : Prop where
  key : ∃ k, t.key = some k ∧ k ≠ []
  mode : t.mode = .gcm
  action : t.action = act
  inp : t.inp = some data
  ne : data ≠ []
  iv : ∃ v, t.iv = some v ∧ v.length = 16
  out : t.out = none

theorem Ready.check {t : Task} {act : Action} {inp : Bytes} (h : Ready t act inp)
    (ha : act = .encrypt ∨ act = .decrypt) : taskCheck 16 t = .success := by
  obtain ⟨k, hk, hk0⟩ := h.key
  obtain ⟨v, hv, hvl⟩ := h.iv
  have hv0 : v ≠ [] := by intro h0; rw [h0] at hvl; simp at hvl
  unfold taskCheck
  rw [if_neg (by simp [hk, hk0]), if_neg (by simp [h.mode]),
    if_neg (by simp [hv, hvl, hv0]), if_neg (by rw [h.action]; rcases ha with rfl | rfl <;> simp),
    if_neg (by simp [h.inp, h.ne])]

/-- C14, rejection.  Whatever 32 or more bytes are presented: if the 16 leading bytes are not the
tag of the rest, the task ends with the authentication error, without output. -/
theorem gcm_rejects_forgery_partial (C : Cipher) (hC : Lawful C) (hbs : C.bs = 16) (kind : EKind)
    (hk : kind ≠ .unsupported) (t : Task) (inp : Bytes) (ht : Ready t .decrypt inp)
    (stale : Bytes) (hs : stale.length ≤ 16) (rnd : Nat → Byte) (hlen : 32 ≤ inp.length)
    (hbad : inp.take 16 ≠ libTag C kind (t.aad.getD []) (inp.drop 16)) :
    cipherTask C kind t stale rnd = .ok { t with result := .gmacError } := by
  obtain ⟨v, hv, hvl⟩ := ht.iv
  have htag := gcmTag_eq C hC hbs kind (eFunc C kind stale rnd)
    (eFunc_ok C hC hbs kind hk stale hs rnd) (t.aad.getD []) (inp.drop 16) (by simp; omega)
  have hver : gcmVerify (eFunc C kind stale rnd) inp 16 (t.aad.getD []) =
      .ok (.gmacError, inp) := by
    unfold gcmVerify
    rw [if_neg (by omega), htag.1]
    simp only [Out.bind_ok, if_true]
    rw [if_pos (fun h => hbad h.symm)]
    rfl
  unfold cipherTask
  rw [hbs, ht.check (Or.inr rfl)]
  simp only [ne_eq, not_true_eq_false, if_false, ht.inp, hv, Option.map_some, Option.getD_some, hvl,
    ht.mode, ht.action, and_self, if_true, hver, Out.bind_ok, reduceCtorEq, not_false_eq_true,
    and_false, false_and, Out.pure_eq, ht.out]

/-- C14, acceptance implies authenticity: a successful decryption task had a correct tag. -/
theorem gcm_success_implies_tag_partial (C : Cipher) (hC : Lawful C) (hbs : C.bs = 16)
    (kind : EKind) (hk : kind ≠ .unsupported) (t t' : Task) (inp : Bytes)
    (ht : Ready t .decrypt inp) (stale : Bytes) (hs : stale.length ≤ 16) (rnd : Nat → Byte)
    (hlen : 32 ≤ inp.length) (hrun : cipherTask C kind t stale rnd = .ok t')
    (hok : t'.result = .success ∨ t'.out ≠ none) :
    inp.take 16 = libTag C kind (t.aad.getD []) (inp.drop 16) := by
  by_contra hbad
  rw [gcm_rejects_forgery_partial C hC hbs kind hk t inp ht stale hs rnd hlen hbad] at hrun
  cases hrun
  rcases hok with h | h
  · cases h
  · exact h ht.out

/-- C14: fewer than 16 bytes are rejected without output. -/
theorem gcm_rejects_short (C : Cipher) (hbs : C.bs = 16) (kind : EKind) (t : Task) (inp : Bytes)
    (ht : Ready t .decrypt inp) (stale : Bytes) (rnd : Nat → Byte) (hlen : inp.length < 16) :
    cipherTask C kind t stale rnd = .ok { t with result := .processError } := by
  obtain ⟨v, hv, hvl⟩ := ht.iv
  have hver : gcmVerify (eFunc C kind stale rnd) inp 16 (t.aad.getD []) =
      .ok (.processError, inp) := by
    unfold gcmVerify
    rw [if_pos hlen]; rfl
  unfold cipherTask
  rw [hbs, ht.check (Or.inr rfl)]
  simp only [ne_eq, not_true_eq_false, if_false, ht.inp, hv, Option.map_some, Option.getD_some, hvl,
    ht.mode, ht.action, and_self, if_true, hver, Out.bind_ok, reduceCtorEq, not_false_eq_true,
    Out.pure_eq, ht.out]

/-- C14 is violated for inputs of 16 to 31 bytes: the tag computation reads past the buffer. -/
theorem gcm_unsafe_short (C : Cipher) (hC : Lawful C) (hbs : C.bs = 16) (kind : EKind)
    (hk : kind ≠ .unsupported) (t : Task) (inp : Bytes) (ht : Ready t .decrypt inp)
    (stale : Bytes) (hs : stale.length ≤ 16) (rnd : Nat → Byte)
    (h16 : 16 ≤ inp.length) (h32 : inp.length < 32) :
    cipherTask C kind t stale rnd = .ub := by
  obtain ⟨v, hv, hvl⟩ := ht.iv
  have htag : gcmTag (eFunc C kind stale rnd) (inp.drop 16) 16 (t.aad.getD []) = .ub := by
    unfold gcmTag
    rw [eFunc_ok C hC hbs kind hk stale hs rnd _ (by simp)]
    simp only [Out.bind_ok, ne_eq, not_true_eq_false, if_false]
    have : gcmY0 (blockE C kind (List.replicate 16 0#8)) (inp.drop 16) 16 = .ub := by
      unfold gcmY0
      rw [if_pos (by decide), if_pos (by simp; omega)]
    rw [this]; rfl
  have hver : gcmVerify (eFunc C kind stale rnd) inp 16 (t.aad.getD []) = .ub := by
    unfold gcmVerify
    rw [if_neg (by omega), htag]; rfl
  unfold cipherTask
  rw [hbs, ht.check (Or.inr rfl)]
  simp only [ne_eq, not_true_eq_false, if_false, ht.inp, hv, Option.map_some, Option.getD_some, hvl,
    ht.mode, ht.action, and_self, if_true, hver, Out.bind_ub]

theorem process_gcm (C : Cipher) (a : Action) (inp stale : Bytes) (rnd : Nat → Byte)
    (iv : Option Bytes) (ctr : Option W32) :
    process C .gcm a inp stale rnd iv ctr = process C .ctr a inp stale rnd iv ctr := by
  have : pick C a .gcm = pick C a .ctr := by simp [pick]
  simp only [process, this]

/-- C14, C09.  A GCM encryption task succeeds and emits tag ‖ IV ‖ CTR encryption, where the tag
is that of the additional data and IV ‖ ciphertext; the length is that of the CTR output plus 16;
and any decryption task with the same key and additional data accepts it and yields the
plaintext. -/
theorem gcm_roundtrip (C : Cipher) (hC : Lawful C) (hbs : C.bs = 16) (kind : EKind)
    (hk : kind ≠ .unsupported) (t : Task) (m iv : Bytes) (ht : Ready t .encrypt m)
    (hiv : t.iv = some iv) (hbig : m.length + 64 < 2 ^ 64)
    (stale stale' : Bytes) (hs : stale.length ≤ 16) (hs' : stale'.length ≤ 16)
    (rnd rnd' : Nat → Byte) :
    ∃ t₁ c, cipherTask C kind t stale rnd = .ok t₁ ∧ t₁.result = .success ∧
      t₁.out = some (libTag C kind (t.aad.getD []) (iv ++ c) ++ iv ++ c) ∧
      t₁.outSize = 32 + (m.length / 16 + 1) * 16 ∧
      c.length = (m.length / 16 + 1) * 16 ∧
      ∀ t₂ : Task, Ready t₂ .decrypt (libTag C kind (t.aad.getD []) (iv ++ c) ++ iv ++ c) →
        t₂.aad = t.aad →
        ∃ t₃ buf, cipherTask C kind t₂ stale' rnd' = .ok t₃ ∧ t₃.result = .success ∧
          t₃.out = some buf ∧ t₃.outSize = m.length ∧ buf.take t₃.outSize = m := by
  have hivl : iv.length = 16 := by obtain ⟨v, hv, hvl⟩ := ht.iv; rw [hiv] at hv; cases hv; exact hvl
  obtain ⟨nonce, c0, hivc⟩ := exists_counter iv (by omega)
  have hn : nonce.length + 4 = C.bs := by
    have := congrArg List.length hivc
    simp [be32_length] at this; omega
  -- encryption
  obtain ⟨p, ps, hx, hb, hf, he⟩ := ctr_encrypt_standard C hC m ht.ne stale rnd t.ctr .gcm
    (Or.inr rfl) nonce c0 hn
  obtain ⟨e', ct', he', ho', hsz', hlen'⟩ := ciphertext_length C hC .ctr
    (Or.inr (Or.inr (Or.inr ⟨rfl, by omega⟩))) m ht.ne stale (by omega) rnd iv (by omega) t.ctr
  rw [process_gcm] at he
  rw [hivc, he] at he'
  cases he'
  cases ho'
  generalize hc : (Spec.ctr C.enc nonce c0 ps).flatten = c at *
  have hcl : c.length = (m.length / 16 + 1) * 16 := by
    rw [← hivc] at hlen'
    simp [hbs] at hlen'; omega
  have htagE := gcmTag_eq C hC hbs kind (eFunc C kind stale rnd)
    (eFunc_ok C hC hbs kind hk stale hs rnd) (t.aad.getD []) (iv ++ c) (by simp; omega)
  have hauth : gcmAuth (eFunc C kind stale rnd) (iv ++ c) 16 (t.aad.getD []) =
      .ok (.success, libTag C kind (t.aad.getD []) (iv ++ c) ++ (iv ++ c)) := by
    unfold gcmAuth
    rw [htagE.1]
    simp
  have hrun : ∃ t₁, cipherTask C kind t stale rnd = .ok t₁ ∧ t₁.result = .success ∧
      t₁.out = some (libTag C kind (t.aad.getD []) (iv ++ c) ++ iv ++ c) ∧
      t₁.outSize = 32 + (m.length / 16 + 1) * 16 := by
    unfold cipherTask
    rw [hbs, ht.check (Or.inl rfl)]
    simp only [ne_eq, not_true_eq_false, if_false, ht.inp, hiv, Option.map_some, Option.getD_some,
      hivl, ht.mode, ht.action, and_false, reduceCtorEq, runProcess, process_gcm]
    rw [hivc, he, ← hivc]
    simp only [Out.bind_ok, Out.pure_eq, and_self, if_true, hauth,
      not_true_eq_false, if_false]
    refine ⟨_, rfl, rfl, by simp, ?_⟩
    simp [htagE.2, hcl]; omega
  obtain ⟨t₁, hr1, hr2, hr3, hr4⟩ := hrun
  refine ⟨t₁, c, hr1, hr2, hr3, hr4, hcl, ?_⟩
  -- decryption
  intro t₂ ht₂ haad
  obtain ⟨v, hv, hvl⟩ := ht₂.iv
  have htagD := gcmTag_eq C hC hbs kind (eFunc C kind stale' rnd')
    (eFunc_ok C hC hbs kind hk stale' hs' rnd') (t.aad.getD []) (iv ++ c) (by simp; omega)
  have hver : gcmVerify (eFunc C kind stale' rnd')
      (libTag C kind (t.aad.getD []) (iv ++ c) ++ iv ++ c) 16 (t.aad.getD []) =
      .ok (.success, iv ++ c) := by
    have e1 : (libTag C kind (t.aad.getD []) (iv ++ c) ++ iv ++ c).take 16 =
        libTag C kind (t.aad.getD []) (iv ++ c) := by
      rw [List.append_assoc, ← htagD.2]; exact List.take_left
    have e2 : (libTag C kind (t.aad.getD []) (iv ++ c) ++ iv ++ c).drop 16 = iv ++ c := by
      rw [List.append_assoc]
      conv => lhs; rw [← htagD.2]
      exact List.drop_left
    unfold gcmVerify
    rw [if_neg (by simp [htagD.2]), e1, e2, htagD.1]
    simp
  obtain ⟨e, ct, he2, hout, hsz, d, buf, hd, hdo, hds, hdt⟩ := block_mode_roundtrip C hC (by omega) .ctr
    (Or.inr (Or.inr (Or.inr ⟨rfl, by omega⟩))) m ht.ne (by omega) stale stale' (by omega) (by omega)
    rnd rnd' iv v (by omega) (by omega) t.ctr t₂.ctr
  rw [hivc, he] at he2
  cases he2
  cases hout
  rw [← hivc] at hd
  refine ⟨{ t₂ with inp := some (iv ++ c), iv := d.iv, ctr := d.ctr, out := some buf, outSize := d.size,
                    result := .success }, buf, ?_, rfl, rfl, hds, hdt⟩
  unfold cipherTask
  rw [hbs, ht₂.check (Or.inr rfl)]
  simp only [ne_eq, not_true_eq_false, if_false, ht₂.inp, hv, Option.map_some, Option.getD_some,
    hvl, ht₂.mode, ht₂.action, and_self, if_true, haad, hver, Out.bind_ok, runProcess, process_gcm]
  rw [hd]
  simp [hdo]

/-! ### The hypotheses are satisfiable -/

/-- A toy cipher with 16-byte blocks. -/
def toy16 : Cipher where
  bs := 16
  bs_pos := by decide
  enc := fun b => (b.drop 1 ++ b.take 1).map (· + 1)
  dec := fun b => (b.drop 15 ++ b.take 15).map (· - 1)

theorem toy16_lawful : Lawful toy16 where
  enc_len := by intro b hb; simp [toy16] at hb ⊢; omega
  dec_len := by intro b hb; simp [toy16] at hb ⊢; omega
  dec_enc := by
    intro b hb
    match b, hb with
    | [_, _, _, _, _, _, _, _, _, _, _, _, _, _, _, _], _ => simp [toy16, BitVec.add_sub_cancel]

/-- A task ready for GCM encryption. -/
def sampleTask : Task where
  key := some [1]
  mode := .gcm
  action := .encrypt
  inp := some [1, 2, 3]
  iv := some (List.replicate 16 5#8)
  ctr := none
  aad := some [9]
  out := none
  outSize := 0
  result := .nr

theorem sample_ready : Ready sampleTask .encrypt [1, 2, 3] where
  key := ⟨[1], rfl, by simp⟩
  mode := rfl
  action := rfl
  inp := rfl
  ne := by simp
  iv := ⟨_, rfl, by simp⟩
  out := rfl

/-- Encryption of `sampleTask` followed by decryption. -/
example : ∃ t₁ c, cipherTask toy16 .standard sampleTask [] (fun _ => 0) = .ok t₁ ∧
    t₁.result = .success ∧ t₁.outSize = 48 ∧
    ∃ t₃ buf, cipherTask toy16 .standard
      { sampleTask with action := .decrypt, inp := some (libTag toy16 .standard [9]
        (List.replicate 16 5#8 ++ c) ++ List.replicate 16 5#8 ++ c) } [] (fun _ => 1) = .ok t₃ ∧
      t₃.result = .success ∧ t₃.out = some buf ∧ buf.take t₃.outSize = [1, 2, 3] := by
  obtain ⟨t₁, c, h1, h2, h3, h4, h5, h6⟩ := gcm_roundtrip toy16 toy16_lawful rfl .standard (by simp)
    sampleTask [1, 2, 3] (List.replicate 16 5#8) sample_ready rfl (by simp) [] [] (by simp) (by simp)
    (fun _ => 0) (fun _ => 1)
  refine ⟨t₁, c, h1, h2, h4, ?_⟩
  obtain ⟨t₃, buf, k1, k2, k3, k4, k5⟩ := h6 { sampleTask with
      action := .decrypt
      inp := some (libTag toy16 .standard [9]
        (List.replicate 16 5#8 ++ c) ++ List.replicate 16 5#8 ++ c) }
    ⟨⟨[1], rfl, by simp⟩, rfl, rfl, rfl, by simp, ⟨_, rfl, by simp⟩, rfl⟩ rfl
  exact ⟨t₃, buf, k1, k2, k3, k5⟩

end Kryptos.Gcm
