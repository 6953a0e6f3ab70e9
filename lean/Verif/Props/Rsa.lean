import Verif.Lemmas.Pk
import Verif.Lemmas.MpPow
import Verif.Lemmas.Pratt
import Verif.Props.Oaep
import Verif.Props.TaskCheck
/-
  RSA (C51).  The statements are about the documents that the tasks exchange: keys, ciphertexts and signatures are PEM buffers,
  a number is the value of its digits, and a message of bytes is the number with these digits in radix 256, most significant
  first.
-/
namespace Kryptos.Rsa
open Mp Spec.Mp Hash

variable {w : Nat}

/-- The number of a message. -/
def num (m : Bytes) : Nat := ofDigitsBE 256 (m.map BitVec.toNat)

/-- Two buffers with the numbers of an RSA key pair: the modulus is a product of two different primes, and the exponents are
inverse to each other modulo `p - 1` and `q - 1`. -/
structure KeyPair (w : Nat) (pub priv : Bytes) (n e d : Num w) : Prop where
  pubN : getMp w "RSA PARAM N" pub = .ok (some n)
  pubE : getMp w "RSA PARAM E" pub = .ok (some e)
  privN : getMp w "RSA PARAM N" priv = .ok (some n)
  privD : getMp w "RSA PARAM D" priv = .ok (some d)
  numbers : ∃ p q, p.Prime ∧ q.Prime ∧ p ≠ q ∧ val n.data = p * q ∧
    val e.data * val d.data ≡ 1 [MOD p - 1] ∧ val e.data * val d.data ≡ 1 [MOD q - 1]

theorem KeyPair.ne_zero {pub priv : Bytes} {n e d : Num w} (k : KeyPair w pub priv n e d) : val n.data ≠ 0 := by
  obtain ⟨p, q, hp, hq, -, h, -⟩ := k.numbers
  rw [h]
  exact Nat.mul_ne_zero hp.ne_zero hq.ne_zero

theorem KeyPair.pow {pub priv : Bytes} {n e d : Num w} (k : KeyPair w pub priv n e d) (m : Nat) :
    (m ^ val e.data) ^ val d.data ≡ m [MOD val n.data] := by
  obtain ⟨p, q, hp, hq, hpq, h, h1, h2⟩ := k.numbers
  rw [h]
  exact rsa_pow p q _ _ hp hq hpq h1 h2 m

theorem gN : Pem.Good (ascii "RSA PARAM N") := by refine ⟨?_, ?_, ?_, ?_, ?_⟩ <;> decide +kernel
theorem gE : Pem.Good (ascii "RSA PARAM E") := by refine ⟨?_, ?_, ?_, ?_, ?_⟩ <;> decide +kernel
theorem gD : Pem.Good (ascii "RSA PARAM D") := by refine ⟨?_, ?_, ?_, ?_, ?_⟩ <;> decide +kernel
theorem gC : Pem.Good (ascii "RSA PARAM C") := by refine ⟨?_, ?_, ?_, ?_, ?_⟩ <;> decide +kernel
theorem gX : Pem.Good (ascii "RSA PARAM X") := by refine ⟨?_, ?_, ?_, ?_, ?_⟩ <;> decide +kernel
theorem gS : Pem.Good (ascii "RSA PARAM S") := by refine ⟨?_, ?_, ?_, ?_, ?_⟩ <;> decide +kernel

/-- Every pair of a valid modulus and exponents can be written into buffers. -/
theorem keyPair_exists (hw : w = 32 ∨ w = 64) (n e d : Digits w) (hn : n ≠ []) (he : e ≠ []) (hd : d ≠ [])
    (h : ∃ p q, p.Prime ∧ q.Prime ∧ p ≠ q ∧ val n = p * q ∧ val e * val d ≡ 1 [MOD p - 1] ∧ val e * val d ≡ 1 [MOD q - 1]) :
    ∃ pub priv, putMps none [("RSA PARAM N", (⟨n, false⟩ : Num w)), ("RSA PARAM E", ⟨e, false⟩)] = .ok (.success, some pub) ∧
      putMps none [("RSA PARAM N", (⟨n, false⟩ : Num w)), ("RSA PARAM D", ⟨d, false⟩)] = .ok (.success, some priv) ∧
      pub ≠ [] ∧ priv ≠ [] ∧ KeyPair w pub priv ⟨n, false⟩ ⟨e, false⟩ ⟨d, false⟩ := by
  obtain ⟨pub, h1, h2, h3⟩ := putMps_get hw [("RSA PARAM N", (⟨n, false⟩ : Num w)), ("RSA PARAM E", ⟨e, false⟩)] (by simp)
    (by simp [gN, gE, hn, he]) (by simp only [List.map_cons, List.map_nil]; decide +kernel)
  obtain ⟨priv, h4, h5, h6⟩ := putMps_get hw [("RSA PARAM N", (⟨n, false⟩ : Num w)), ("RSA PARAM D", ⟨d, false⟩)] (by simp)
    (by simp [gN, gD, hn, hd]) (by simp only [List.map_cons, List.map_nil]; decide +kernel)
  have a1 := h3 ("RSA PARAM N", ⟨n, false⟩) (by simp)
  have a2 := h3 ("RSA PARAM E", ⟨e, false⟩) (by simp)
  have a3 := h6 ("RSA PARAM N", ⟨n, false⟩) (by simp)
  have a4 := h6 ("RSA PARAM D", ⟨d, false⟩) (by simp)
  exact ⟨pub, priv, h1, h4, h2, h5, a1, a2, a3, a4, h⟩

/-! ## Bytes and numbers -/

theorem rawBuffer_num (hw : w = 32 ∨ w = 64) (m : Bytes) (hm : m ≠ []) : ∃ d : Digits w,
    rawBuffer w m = .ok (some ⟨d, false⟩) ∧ val d = num m ∧ d ≠ [] ∧
      asTaskOut (⟨d, false⟩ : Num w) = List.replicate ((m.length + w / 8 - 1) / (w / 8) * (w / 8) - m.length) 0 ++ m := by
  have key : ∀ k, 0 < k → ∃ d : Digits (8 * k), rawBuffer (8 * k) m = .ok (some ⟨d, false⟩) ∧ val d = num m ∧ d ≠ [] ∧
      asTaskOut (⟨d, false⟩ : Num (8 * k)) = List.replicate ((m.length + k - 1) / k * k - m.length) 0 ++ m := by
    intro k hk
    obtain ⟨d, h1, h2, h3⟩ := raw_buffer_value k hk m hm
    obtain ⟨n, h4, h5⟩ := raw_buffer_task_out k hk m hm
    rw [h1, Out.ok.injEq, Option.some.injEq] at h4
    refine ⟨d, h1, h2, ?_, by rw [h4]; exact h5⟩
    intro h0
    rw [h0] at h3
    have := List.length_pos_iff.2 hm
    have : 1 ≤ (m.length + k - 1) / k := (Nat.le_div_iff_mul_le hk).2 (by omega)
    simp at h3
    omega
  rcases hw with rfl | rfl
  · exact key 4 (by decide)
  · exact key 8 (by decide)

theorem taskOut_num (hw : w = 32 ∨ w = 64) (n : Num w) :
    num (asTaskOut n) = val n.data ∧ (asTaskOut n).length = n.data.length * (w / 8) := by
  rcases hw with rfl | rfl
  · exact task_out_value 4 n
  · exact task_out_value 8 n

theorem num_inj (a b : Bytes) (hl : a.length = b.length) (h : num a = num b) : a = b := by
  have hlt : ∀ (l : Bytes) (d : Nat), d ∈ l.map BitVec.toNat → d < 256 := by
    intro l d hd
    obtain ⟨b, -, rfl⟩ := List.mem_map.1 hd
    exact b.isLt
  exact (List.map_inj_right fun a b h => BitVec.eq_of_toNat_eq h).1
    (ofBE_inj 256 _ _ (by simpa using hl) (hlt a) (hlt b) h)

theorem num_lt (a : Bytes) : num a < 256 ^ a.length := by
  have := ofBE_lt 256 (a.map BitVec.toNat) (by
    intro d hd
    obtain ⟨b, -, rfl⟩ := List.mem_map.1 hd
    exact b.isLt)
  simpa [num] using this

/-- A message of whole digits of which the first is not zero, or of one digit. -/
def Whole (w : Nat) (m : Bytes) : Prop :=
  ∃ l, 1 ≤ l ∧ m.length = l * (w / 8) ∧ (l = 1 ∨ 2 ^ (w * (l - 1)) ≤ num m)

theorem normed_whole (hw : w = 32 ∨ w = 64) (r : Num w) (hr : Normed r) (m : Bytes) (hm : Whole w m) (hv : val r.data = num m) :
    asTaskOut r = m := by
  obtain ⟨l, hl, h1, h2⟩ := hm
  obtain ⟨t1, t2⟩ := taskOut_num hw r
  refine num_inj _ _ ?_ (by rw [t1, hv])
  rw [t2, h1]
  congr 1
  have h3 : val r.data < 2 ^ (w * l) := by
    rw [hv]
    refine lt_of_lt_of_eq (num_lt m) ?_
    rw [h1, show (256 : Nat) = 2 ^ 8 from rfl, ← pow_mul]
    congr 1
    rcases hw with rfl | rfl <;> omega
  rcases Nat.lt_or_ge 1 l with h | h
  · exact normed_length r hr l h (by rw [hv]; exact h2.resolve_left (by omega)) h3
  · have hl1 : l = 1 := by omega
    subst hl1
    rw [Nat.mul_one] at h3
    have hs : sig r.data ≤ 1 := by
      by_contra hc
      have := sig_pos_le r.data (by omega)
      have h4 : 2 ^ w ≤ 2 ^ (w * (sig r.data - 1)) := by
        refine Nat.pow_le_pow_right (by decide) ?_
        calc w = w * 1 := (Nat.mul_one w).symm
          _ ≤ _ := Nat.mul_le_mul_left w (by omega)
      omega
    rw [hr]
    omega

/-! ## Encryption and decryption -/

theorem normed_ne_nil (r : Num w) (h : Normed r) : r.data ≠ [] := by
  apply List.length_pos_iff.1
  rw [h]
  omega

theorem encrypt_run (hw : w = 32 ∨ w = 64) {key inp : Bytes} {n e : Num w} (hN : getMp w "RSA PARAM N" key = .ok (some n))
    (hE : getMp w "RSA PARAM E" key = .ok (some e)) (hn0 : val n.data ≠ 0) (hi : inp ≠ []) (hl : inp.length ≤ byteSize n) :
    ∃ m c pem, rawBuffer w inp = .ok (some m) ∧ val m.data = num inp ∧ meModN m e n = .ok (some c) ∧ c.neg = false ∧ Normed c ∧
      val c.data ≡ num inp ^ val e.data [MOD val n.data] ∧
      encrypt w key inp = .ok (.success, some pem) ∧ pem ≠ [] ∧ getMp w "RSA PARAM C" pem = .ok (some c) := by
  have hw16 : 16 ≤ w := by rcases hw with rfl | rfl <;> decide
  obtain ⟨d, m1, m2, m3, -⟩ := rawBuffer_num hw inp hi
  have hnn := (getMp_spec (by omega) hN).1
  obtain ⟨c, c1, c2, c3⟩ := me_congruent hw16 ⟨d, false⟩ e n hnn hn0
  have c4 := me_normed hw16 _ _ _ _ hnn hn0 c1
  obtain ⟨pem, p1, p2, p3⟩ := putMps_get hw [("RSA PARAM C", c)] (by simp) (by simpa [gC] using normed_ne_nil c c4) (by simp)
  have p3 := p3 _ (List.mem_singleton.2 rfl)
  refine ⟨_, c, pem, m1, m2, c1, c2, c4, m2 ▸ c3, ?_, p2, ?_⟩
  · rw [encrypt, hN, Out.bind_ok]
    simp only
    rw [if_neg (by omega), hE, Out.bind_ok]
    simp only [m1, Out.bind_ok, c1, p1]
  · rw [p3, ← c2]

theorem decrypt_run (hw : w = 32 ∨ w = 64) {key inp : Bytes} {n d c : Num w} (hN : getMp w "RSA PARAM N" key = .ok (some n))
    (hD : getMp w "RSA PARAM D" key = .ok (some d)) (hC : getMp w "RSA PARAM C" inp = .ok (some c)) (hn0 : val n.data ≠ 0) :
    ∃ m, meModN c d n = .ok (some m) ∧ Normed m ∧ val m.data ≡ val c.data ^ val d.data [MOD val n.data] ∧
      decrypt w key inp = .ok (.success, some (asTaskOut m)) := by
  have hw16 : 16 ≤ w := by rcases hw with rfl | rfl <;> decide
  have hnn := (getMp_spec (by omega) hN).1
  obtain ⟨m, c1, c2, c3⟩ := me_congruent hw16 c d n hnn hn0
  refine ⟨m, c1, me_normed hw16 _ _ _ _ hnn hn0 c1, c3, ?_⟩
  rw [decrypt, hN, Out.bind_ok]
  simp only [hD, Out.bind_ok, hC, c1, Out.pure_eq]

/-- For every key pair and every message which is not longer than the modulus, encryption and decryption succeed, and the
message decrypted is congruent to the one encrypted.  Its length is a multiple of the digit size. -/
theorem rsa_congruent (hw : w = 32 ∨ w = 64) {pub priv : Bytes} {n e d : Num w} (k : KeyPair w pub priv n e d) (inp : Bytes)
    (hi : inp ≠ []) (hl : inp.length ≤ byteSize n) :
    ∃ c out, encrypt w pub inp = .ok (.success, some c) ∧ decrypt w priv c = .ok (.success, some out) ∧
      num out ≡ num inp [MOD val n.data] ∧ out.length % (w / 8) = 0 := by
  obtain ⟨m, c, pem, -, -, -, -, -, h1, h2, -, h3⟩ := encrypt_run hw k.pubN k.pubE k.ne_zero hi hl
  obtain ⟨r, -, -, h4, h5⟩ := decrypt_run hw k.privN k.privD h3 k.ne_zero
  obtain ⟨t1, t2⟩ := taskOut_num hw r
  refine ⟨pem, _, h2, h5, ?_, by rw [t2, Nat.mul_mod_left]⟩
  rw [t1]
  exact (h4.trans (h1.pow _)).trans (k.pow _)

/-- C51 in part: when the highest digit of the modulus is not zero and no guess overflows in the divisions of the two powers,
the message decrypted is the message modulo `n`; it is the message itself, byte by byte, when that is below the modulus and has
whole digits with a first digit different from zero.  Missing for the full property: the other keys and messages
(`rsa_wrong`), and messages of other lengths, which come back with zeros in front or without leading zero digits
(`rsa_lengths`). -/
theorem rsa_roundtrip_partial (hw : w = 32 ∨ w = 64) {pub priv : Bytes} {n e d : Num w} (k : KeyPair w pub priv n e d)
    (inp : Bytes) (hi : inp ≠ []) (hl : inp.length ≤ byteSize n) (hs : sig n.data = n.data.length)
    (he : MeetsNoOverflow w (num inp) (val e.data) (val n.data))
    (hd : MeetsNoOverflow w (num inp ^ val e.data % val n.data) (val d.data) (val n.data)) :
    ∃ c out, encrypt w pub inp = .ok (.success, some c) ∧ decrypt w priv c = .ok (.success, some out) ∧
      num out = num inp % val n.data ∧ (num inp < val n.data → Whole w inp → out = inp) := by
  have hw16 : 16 ≤ w := by rcases hw with rfl | rfl <;> decide
  obtain ⟨m, c, pem, -, hm, m1, -, -, -, h2, -, h3⟩ := encrypt_run hw k.pubN k.pubE k.ne_zero hi hl
  obtain ⟨r, r1, r2, -, h5⟩ := decrypt_run hw k.privN k.privD h3 k.ne_zero
  have hnn := (getMp_spec (by omega) k.pubN).1
  obtain ⟨c', c1, -, c2⟩ := me_partial hw16 m e n (getMp_spec (by omega) k.pubE).2.1 hnn k.ne_zero hs (hm ▸ he)
  rw [m1, Out.ok.injEq, Option.some.injEq] at c1
  subst c1
  rw [hm] at c2
  obtain ⟨r', d1, -, d2⟩ := me_partial hw16 c d n (getMp_spec (by omega) k.privD).2.1 hnn k.ne_zero hs (c2 ▸ hd)
  rw [r1, Out.ok.injEq, Option.some.injEq] at d1
  subst d1
  obtain ⟨t1, t2⟩ := taskOut_num hw r
  have hval : val r.data = num inp % val n.data := by
    rw [d2, c2, Nat.pow_mod, Nat.mod_mod, ← Nat.pow_mod]
    exact k.pow _
  refine ⟨pem, _, h2, h5, by rw [t1, hval], fun h4 h6 => normed_whole hw r r2 inp h6 ?_⟩
  rw [hval, Nat.mod_eq_of_lt h4]

/-- For a modulus of one digit there are no further conditions. -/
theorem rsa_single_digit (hw : w = 32 ∨ w = 64) {pub priv : Bytes} {n e d : Num w} (k : KeyPair w pub priv n e d)
    (h1 : n.data.length = 1) (inp : Bytes) (hi : inp ≠ []) (hl : inp.length ≤ w / 8) :
    ∃ c out, encrypt w pub inp = .ok (.success, some c) ∧ decrypt w priv c = .ok (.success, some out) ∧
      num out = num inp % val n.data ∧ (num inp < val n.data → inp.length = w / 8 → out = inp) := by
  have hlt := val_lt n.data
  rw [h1, Nat.mul_one] at hlt
  have hs : sig n.data = n.data.length := by
    have := sig_le n.data
    have : sig n.data ≠ 0 := fun h' => k.ne_zero ((sig_zero _).1 h')
    omega
  have hno : ∀ b x, MeetsNoOverflow w b x (val n.data) := fun b x kk j =>
    ⟨no_overflow_single _ _ _ k.ne_zero hlt, no_overflow_single _ _ _ k.ne_zero hlt⟩
  obtain ⟨c, out, a1, a2, a3, a4⟩ := rsa_roundtrip_partial hw k inp hi (by rw [byteSize, h1, Nat.one_mul]; exact hl) hs
    (hno _ _) (hno _ _)
  exact ⟨c, out, a1, a2, a3, fun h2 h3 => a4 h2 ⟨1, le_refl _, by rw [h3, Nat.one_mul], .inl rfl⟩⟩

/-- A message of broken digits never comes back as it was, whatever the key. -/
theorem rsa_lengths (hw : w = 32 ∨ w = 64) {pub priv : Bytes} {n e d : Num w} (k : KeyPair w pub priv n e d) (inp : Bytes)
    (hi : inp ≠ []) (hl : inp.length ≤ byteSize n) (h : inp.length % (w / 8) ≠ 0) :
    ∃ c out, encrypt w pub inp = .ok (.success, some c) ∧ decrypt w priv c = .ok (.success, some out) ∧ out ≠ inp := by
  obtain ⟨c, out, a1, a2, -, a4⟩ := rsa_congruent hw k inp hi hl
  exact ⟨c, out, a1, a2, fun he => h (he ▸ a4)⟩

/-- A message at or above the modulus is encrypted without complaint, and another one is decrypted. -/
theorem rsa_large (hw : w = 32 ∨ w = 64) {pub priv : Bytes} {n e d : Num w} (k : KeyPair w pub priv n e d)
    (h1 : n.data.length = 1) (inp : Bytes) (hi : inp ≠ []) (hl : inp.length ≤ w / 8) (h : val n.data ≤ num inp) :
    ∃ c out, encrypt w pub inp = .ok (.success, some c) ∧ decrypt w priv c = .ok (.success, some out) ∧ num out ≠ num inp := by
  obtain ⟨c, out, a1, a2, a3, -⟩ := rsa_single_digit hw k h1 inp hi hl
  refine ⟨c, out, a1, a2, fun he => ?_⟩
  have := Nat.mod_lt (num inp) (Nat.pos_of_ne_zero k.ne_zero)
  omega

/-- Only messages longer than the modulus are refused. -/
theorem rsa_refuses {key inp : Bytes} {n : Num w} (hN : getMp w "RSA PARAM N" key = .ok (some n)) (hl : byteSize n < inp.length) :
    encrypt w key inp = .ok (.invalidParams, none) := by
  rw [encrypt, hN, Out.bind_ok]
  simp only
  rw [if_pos hl, Out.pure_eq]

/-! ## The tasks -/

theorem afterCheck_pass {t : TaskCheck.Task} {check : TaskCheck.Task → Out TaskCheck.Verdict} {f : Bytes → Bytes → Out Res}
    {key inp : Bytes} (hc : check t = .ok none) (hk : t.key = some key) (hi : t.inp = some inp) :
    afterCheck t check f = f key inp := by
  rw [afterCheck, hc, Out.bind_ok]
  simp only [hk, hi]

/-- The encrypting task of the library with a public key. -/
theorem cipher_encrypt (hw : 8 ≤ w) (t : TaskCheck.Task) (ht : t.cipher = .rsa) (ha : t.action = .encrypt) {key inp : Bytes}
    {n e : Num w} (hk : t.key = some key) (hi : t.inp = some inp) (hk0 : key ≠ []) (hi0 : inp ≠ [])
    (hN : getMp w "RSA PARAM N" key = .ok (some n)) (hE : getMp w "RSA PARAM E" key = .ok (some e)) :
    cipher w t = encrypt w key inp := by
  have hp : TaskCheck.check t = .ok none := by
    rw [TaskCheck.check_pk (o := false) (pub := TaskCheck.rsaPub) (priv := TaskCheck.rsaPriv) (by rw [ht]; rfl) (by rw [ha]; simp)]
    refine ⟨⟨key, hk, hk0⟩, ⟨inp, hi, hi0⟩, by simp [ht], .inl ⟨ha, ?_⟩, by simp⟩
    rw [hk]
    intro h hh
    simp only [TaskCheck.rsaPub, List.mem_cons, List.not_mem_nil, or_false] at hh
    rcases hh with rfl | rfl
    · exact (getMp_spec hw hN).2.2
    · exact (getMp_spec hw hE).2.2
  rw [cipher, afterCheck_pass hp hk hi]
  simp only [ha]

/-- The decrypting task of the library with a private key. -/
theorem cipher_decrypt (hw : 8 ≤ w) (t : TaskCheck.Task) (ht : t.cipher = .rsa) (ha : t.action = .decrypt) {key inp : Bytes}
    {n d : Num w} (hk : t.key = some key) (hi : t.inp = some inp) (hk0 : key ≠ []) (hi0 : inp ≠ [])
    (hN : getMp w "RSA PARAM N" key = .ok (some n)) (hD : getMp w "RSA PARAM D" key = .ok (some d)) :
    cipher w t = decrypt w key inp := by
  have hp : TaskCheck.check t = .ok none := by
    rw [TaskCheck.check_pk (o := false) (pub := TaskCheck.rsaPub) (priv := TaskCheck.rsaPriv) (by rw [ht]; rfl) (by rw [ha]; simp)]
    refine ⟨⟨key, hk, hk0⟩, ⟨inp, hi, hi0⟩, by simp [ht], .inr ⟨ha, ?_⟩, by simp⟩
    rw [hk]
    intro h hh
    simp only [TaskCheck.rsaPriv, List.mem_cons, List.not_mem_nil, or_false] at hh
    rcases hh with rfl | rfl
    · exact (getMp_spec hw hN).2.2
    · exact (getMp_spec hw hD).2.2
  rw [cipher, afterCheck_pass hp hk hi]
  simp only [ha]

/-! ## Signatures -/

theorem signCore_run (hw : w = 32 ∨ w = 64) {n d : Num w} (hnn : n.neg = false) (hn0 : val n.data ≠ 0) {em x : Bytes}
    (he : em ≠ []) (hx : x ≠ []) (hl : em.length ≤ byteSize n) :
    ∃ (m s : Num w) (xd : Digits w) (pem : Bytes), val m.data = num em ∧ meModN m d n = .ok (some s) ∧
      val s.data ≡ num em ^ val d.data [MOD val n.data] ∧ rawBuffer w x = .ok (some ⟨xd, false⟩) ∧
      signCore w d n em x = .ok (.success, some pem) ∧ pem ≠ [] ∧ getMp w "RSA PARAM X" pem = .ok (some ⟨xd, false⟩) ∧
      getMp w "RSA PARAM S" pem = .ok (some s) := by
  have hw16 : 16 ≤ w := by rcases hw with rfl | rfl <;> decide
  obtain ⟨m, m1, m2, m3, -⟩ := rawBuffer_num hw em he
  obtain ⟨xd, x1, x2, x3, -⟩ := rawBuffer_num hw x hx
  obtain ⟨s, c1, c2, c3⟩ := me_congruent hw16 ⟨m, false⟩ d n hnn hn0
  have c4 := me_normed hw16 _ _ _ _ hnn hn0 c1
  obtain ⟨pem, p1, p2, p3⟩ := putMps_get hw [("RSA PARAM X", ⟨xd, false⟩), ("RSA PARAM S", s)] (by simp)
    (by simp [gX, gS, x3, normed_ne_nil s c4]) (by simp only [List.map_cons, List.map_nil]; decide +kernel)
  have pX := p3 _ (List.mem_cons_self ..)
  have pS := p3 ("RSA PARAM S", s) (by simp)
  refine ⟨⟨m, false⟩, s, xd, pem, m2, c1, m2 ▸ c3, x1, ?_, p2, pX, by rw [pS, ← c2]⟩
  rw [signCore, if_neg (by omega), m1, Out.bind_ok]
  simp only [c1, Out.bind_ok, x1, p1]

theorem sign_eq {key inp : Bytes} {n d : Num w} (hN : getMp w "RSA PARAM N" key = .ok (some n))
    (hD : getMp w "RSA PARAM D" key = .ok (some d)) : sign w none key inp = signCore w d n inp inp := by
  rw [sign, hD, Out.bind_ok]
  simp only [hN, Out.bind_ok]

/-- Verification of a plain signature accepts exactly when the power of the signature is the number in the document. -/
theorem verify_eq (hw : w = 32 ∨ w = 64) {key doc : Bytes} {n e x s : Num w} (hN : getMp w "RSA PARAM N" key = .ok (some n))
    (hE : getMp w "RSA PARAM E" key = .ok (some e)) (hX : getMp w "RSA PARAM X" doc = .ok (some x))
    (hS : getMp w "RSA PARAM S" doc = .ok (some s)) (hn0 : val n.data ≠ 0) :
    ∃ xp, meModN s e n = .ok (some xp) ∧ xp.neg = false ∧ verify w none key doc =
      if val x.data = val xp.data then .ok (.success, some (asTaskOut x)) else .ok (.invalidSignature, none) := by
  have hw16 : 16 ≤ w := by rcases hw with rfl | rfl <;> decide
  obtain ⟨xp, c1, c2, c3⟩ := me_congruent hw16 s e n (getMp_spec (by omega) hN).1 hn0
  refine ⟨xp, c1, c2, ?_⟩
  rw [verify, hX, Out.bind_ok]
  simp only [hS, Out.bind_ok, hE, hN, c1, Out.pure_eq]
  have := eq_exact x xp
  rw [(getMp_spec (by omega) hX).1, c2] at this
  by_cases h : val x.data = val xp.data
  · rw [if_pos h, if_neg (by rw [ne, this.2 ⟨rfl, h⟩]; decide)]
  · rw [if_neg h]
    have : eq x xp = false := by
      rw [← Bool.not_eq_true, this]
      exact fun hc => h hc.2
    rw [if_pos (by rw [ne, this]; rfl)]

/-- Signatures of messages below the modulus verify, under the conditions on the divisions of the two powers, and verification
gives the message, with zeros in front up to whole digits. -/
theorem rsa_sign_verify_partial (hw : w = 32 ∨ w = 64) {pub priv : Bytes} {n e d : Num w} (k : KeyPair w pub priv n e d)
    (inp : Bytes) (hi : inp ≠ []) (hl : inp.length ≤ byteSize n) (hs : sig n.data = n.data.length) (hlt : num inp < val n.data)
    (hd : MeetsNoOverflow w (num inp) (val d.data) (val n.data))
    (he : MeetsNoOverflow w (num inp ^ val d.data % val n.data) (val e.data) (val n.data)) :
    ∃ doc, sign w none priv inp = .ok (.success, some doc) ∧ verify w none pub doc = .ok (.success,
      some (List.replicate ((inp.length + w / 8 - 1) / (w / 8) * (w / 8) - inp.length) 0 ++ inp)) := by
  have hw16 : 16 ≤ w := by rcases hw with rfl | rfl <;> decide
  have hnn := (getMp_spec (by omega) k.pubN).1
  obtain ⟨m, s, xd, doc, h1, h2, -, h4, h5, -, h6, h7⟩ := signCore_run hw hnn k.ne_zero (d := d) hi hi hl
  obtain ⟨xd', x1, x2, -, x3⟩ := rawBuffer_num hw inp hi
  rw [h4, Out.ok.injEq, Option.some.injEq] at x1
  rw [← x1] at x3
  obtain ⟨xp, v1, v2, v3⟩ := verify_eq hw k.pubN k.pubE h6 h7 k.ne_zero
  refine ⟨doc, by rw [sign_eq k.privN k.privD, h5], ?_⟩
  obtain ⟨s', c1, -, c2⟩ := me_partial hw16 m d n (getMp_spec (by omega) k.privD).2.1 hnn k.ne_zero hs (h1 ▸ hd)
  rw [h2, Out.ok.injEq, Option.some.injEq] at c1
  subst c1
  rw [h1] at c2
  obtain ⟨xp', d1, -, d2⟩ := me_partial hw16 s e n (getMp_spec (by omega) k.pubE).2.1 hnn k.ne_zero hs (c2 ▸ he)
  rw [v1, Out.ok.injEq, Option.some.injEq] at d1
  subst d1
  rw [v3, if_pos, x3]
  have : xd = xd' := by simpa using x1
  rw [d2, c2, Nat.pow_mod, Nat.mod_mod, ← Nat.pow_mod, ← pow_mul, Nat.mul_comm, pow_mul, this]
  show val xd' = _
  rw [x2, k.pow (num inp), Nat.mod_eq_of_lt hlt]

/-- Signatures can be forged from the public key alone: for any number, its power is a message for which it is a signature that
verifies.  The message is taken from the document, and is not hashed. -/
theorem rsa_forgery (hw : w = 32 ∨ w = 64) {pub : Bytes} {n e : Num w} (hN : getMp w "RSA PARAM N" pub = .ok (some n))
    (hE : getMp w "RSA PARAM E" pub = .ok (some e)) (hn0 : val n.data ≠ 0) (s : Digits w) (hs : s ≠ []) :
    ∃ x doc, meModN ⟨s, false⟩ e n = .ok (some x) ∧
      putMps none [("RSA PARAM X", x), ("RSA PARAM S", ⟨s, false⟩)] = .ok (.success, some doc) ∧
      verify w none pub doc = .ok (.success, some (asTaskOut x)) := by
  have hw16 : 16 ≤ w := by rcases hw with rfl | rfl <;> decide
  have hnn := (getMp_spec (by omega) hN).1
  obtain ⟨x, c1, c2, c3⟩ := me_congruent hw16 ⟨s, false⟩ e n hnn hn0
  have c4 := me_normed hw16 _ _ _ _ hnn hn0 c1
  obtain ⟨pem, p1, p2, p3⟩ := putMps_get hw [("RSA PARAM X", x), ("RSA PARAM S", ⟨s, false⟩)] (by simp)
    (by simp [gX, gS, hs, normed_ne_nil x c4]) (by simp only [List.map_cons, List.map_nil]; decide +kernel)
  have pX := p3 _ (List.mem_cons_self ..)
  have pS := p3 ("RSA PARAM S", ⟨s, false⟩) (by simp)
  obtain ⟨xp, v1, v2, v3⟩ := verify_eq hw hN hE pX pS hn0
  rw [c1, Out.ok.injEq, Option.some.injEq] at v1
  subst v1
  refine ⟨x, pem, c1, p1, ?_⟩
  rw [v3, if_pos rfl]
  rfl

/-! ## PSS and OAEP -/

theorem padDigits_length (hw : 8 ≤ w) (m : Bytes) : (padDigits w m).length % (w / 8) = 0 := by
  have hk : 0 < w / 8 := Nat.div_pos hw (by decide)
  rw [padDigits, List.length_append, List.length_replicate]
  generalize w / 8 = k at hk
  have h1 := Nat.mod_lt m.length hk
  rcases Nat.eq_zero_or_pos (m.length % k) with h0 | h0
  · rw [h0, Nat.sub_zero, Nat.mod_self, Nat.add_zero, h0]
  · rw [Nat.mod_eq_of_lt (show k - m.length % k < k by omega), ← Nat.mod_add_mod, Nat.add_sub_cancel' h1.le, Nat.mod_self]

theorem round_up (k l : Nat) (hk : 0 < k) (h : l % k = 0) : (l + k - 1) / k * k - l = 0 := by
  obtain ⟨c, rfl⟩ := Nat.dvd_of_mod_eq_zero h
  have : (k * c + k - 1) / k = c := by
    rw [show k * c + k - 1 = k * c + (k - 1) by omega, Nat.mul_add_div hk, Nat.div_eq_of_lt (by omega), Nat.add_zero]
  rw [this, Nat.mul_comm, Nat.sub_self]

/-- PSS signatures verify, and give the message filled with zeros at its end to whole digits, when the encoded message is below
the modulus and its first digit is not zero, under the conditions on the divisions of the two powers. -/
theorem rsa_pss_partial (hw : w = 32 ∨ w = 64) {pub priv : Bytes} {n e d : Num w} (k : KeyPair w pub priv n e d)
    {hash : HashFn} {H : Bytes → Bytes} {h : Nat} (hh : Oaep.HashOk hash H h) (salt inp em : Bytes) (hi : inp ≠ [])
    (hlen : (padDigits w inp).length < 2 ^ 60) (hsl : h + salt.length + 2 < 2 ^ 64)
    (hem : Oaep.pssEncode hash h (some salt) (padDigits w inp) salt.length = .ok (some em))
    (hl : (padDigits w inp).length ≤ byteSize n) (hs : sig n.data = n.data.length) (hlt : num em < val n.data) (hW : Whole w em)
    (hd : MeetsNoOverflow w (num em) (val d.data) (val n.data))
    (he : MeetsNoOverflow w (num em ^ val d.data % val n.data) (val e.data) (val n.data)) :
    ∃ doc, sign w (some ⟨hash, h, some salt, salt.length⟩) priv inp = .ok (.success, some doc) ∧
      verify w (some ⟨hash, h, some salt, salt.length⟩) pub doc = .ok (.success, some (padDigits w inp)) := by
  have hw16 : 16 ≤ w := by rcases hw with rfl | rfl <;> decide
  have hnn := (getMp_spec (by omega) k.pubN).1
  have hpad : padDigits w inp ≠ [] := by simp [padDigits, hi]
  have hk0 : n.data.length * w ≠ 0 := by
    have := List.length_pos_iff.2 (getMp_spec (by omega) k.pubN).2.1
    exact Nat.mul_ne_zero (by omega) (by omega)
  obtain ⟨hel, hver⟩ := Oaep.pss_roundtrip hh (padDigits w inp) salt em (n.data.length * w) hk0 hlen hsl hem
  have hem0 : em ≠ [] := by
    intro h0
    rw [h0] at hel
    exact hpad (List.length_eq_zero_iff.1 hel.symm)
  obtain ⟨m, s, xd, doc, h1, h2, -, h4, h5, -, h6, h7⟩ := signCore_run hw hnn k.ne_zero (d := d) hem0 hpad (by omega)
  obtain ⟨xd', x1, x2, -, x3⟩ := rawBuffer_num hw (padDigits w inp) hpad
  rw [h4, Out.ok.injEq, Option.some.injEq] at x1
  rw [← x1, round_up _ _ (by omega) (padDigits_length (by omega) inp), List.replicate_zero, List.nil_append] at x3
  refine ⟨doc, ?_, ?_⟩
  · rw [sign, k.privD, Out.bind_ok]
    simp only [k.privN, Out.bind_ok, hem, h5]
  · obtain ⟨s', c1, -, c2⟩ := me_partial hw16 m d n (getMp_spec (by omega) k.privD).2.1 hnn k.ne_zero hs (h1 ▸ hd)
    rw [h2, Out.ok.injEq, Option.some.injEq] at c1
    subst c1
    rw [h1] at c2
    obtain ⟨xp, d1, -, d2⟩ := me_partial hw16 s e n (getMp_spec (by omega) k.pubE).2.1 hnn k.ne_zero hs (c2 ▸ he)
    have hxp : val xp.data = num em := by
      rw [d2, c2, Nat.pow_mod, Nat.mod_mod, ← Nat.pow_mod, ← pow_mul, Nat.mul_comm, pow_mul, k.pow (num em),
        Nat.mod_eq_of_lt hlt]
    have hout := normed_whole hw xp (me_normed hw16 _ _ _ _ hnn k.ne_zero d1) em hW hxp
    rw [verify, h6, Out.bind_ok]
    simp only [h7, Out.bind_ok, k.pubE, k.pubN, d1, x3, hout, hver, Out.pure_eq, if_true]

/-- RSA with OAEP gives back the message, for every message accepted, seed and label, when the encoded message is below the
modulus and its first digit is not zero, under the conditions on the divisions of the two powers. -/
theorem rsa_oaep_partial (hw : w = 32 ∨ w = 64) {pub priv : Bytes} {n e d : Num w} (k : KeyPair w pub priv n e d)
    {hash : HashFn} {H : Bytes → Bytes} {h : Nat} (hh : Oaep.HashOk hash H h) (seed : Option Bytes) (inp em : Bytes)
    (label : Option Bytes) (hsd : ∀ x, seed = some x → x.length = h) (hlb : (Oaep.labelOf label).length < 2 ^ 61)
    (hk : byteSize n < 2 ^ 60) (hem : Oaep.apply hash h seed inp (byteSize n) label = .ok (some em))
    (hs : sig n.data = n.data.length) (hlt : num em < val n.data) (hW : Whole w em)
    (he : MeetsNoOverflow w (num em) (val e.data) (val n.data))
    (hd : MeetsNoOverflow w (num em ^ val e.data % val n.data) (val d.data) (val n.data)) :
    ∃ c, oaep w hash h seed label .encrypt pub inp = .ok (.success, some c) ∧
      oaep w hash h none label .decrypt priv c = .ok (.success, some inp) := by
  have hw16 : 16 ≤ w := by rcases hw with rfl | rfl <;> decide
  obtain ⟨h1, h2⟩ := Oaep.oaep_roundtrip hh seed inp em (byteSize n) label hsd hlb hk hem
  have hem0 : em ≠ [] := by
    intro h0
    obtain ⟨l, a, b, -⟩ := hW
    rw [h0] at b
    have : 0 < w / 8 := Nat.div_pos (by omega) (by decide)
    have := Nat.mul_pos (show 0 < l by omega) this
    simp at b
    omega
  obtain ⟨c, out, a1, a2, -, a3⟩ := rsa_roundtrip_partial hw k em hem0 (by omega) hs he hd
  have := a3 hlt hW
  subst this
  refine ⟨c, ?_, ?_⟩
  · rw [oaep, k.pubN, Out.bind_ok]
    simp only [if_true, hem, Out.bind_ok, a1]
  · rw [oaep, k.privN, Out.bind_ok]
    simp only [a2, Out.bind_ok, h2, Out.pure_eq]
    rfl

/-! ## A key pair -/

/-- A key with a modulus of two digits; both exponents are `lcm (p - 1) (q - 1) - 1`. -/
def sampleN : Num 64 := ⟨[0xe6a3ae95718ab675, 0xbcdbd5bfb1f4cddf], false⟩
def sampleE : Num 64 := ⟨[0x856d166ef8a351bf, 0x2a690ec3bfc3ff], false⟩

theorem sample_key : ∃ pub priv, pub ≠ [] ∧ priv ≠ [] ∧ KeyPair 64 pub priv sampleN sampleE sampleE := by
  obtain ⟨pub, priv, -, -, h1, h2, h3⟩ := keyPair_exists (.inr rfl) sampleN.data sampleE.data sampleE.data (by decide) (by decide)
    (by decide) ⟨_, _, Pratt.prime_a, Pratt.prime_b, by decide, by decide +kernel, by decide +kernel, by decide +kernel⟩
  exact ⟨pub, priv, h1, h2, h3⟩

theorem sample_shape : Shape 64 (val sampleN.data) 2 0 := by
  constructor <;> decide +kernel

/-- The message is `2 ^ 32 + 1`. -/
def badMessage : Bytes := [0, 0, 0, 1, 0, 0, 0, 1]

/-- C51 is violated: with this valid key pair the message `2 ^ 32 + 1`, of one whole digit and below the modulus, is not what
is decrypted. -/
theorem rsa_wrong : ∃ pub priv, KeyPair 64 pub priv sampleN sampleE sampleE ∧ num badMessage < val sampleN.data ∧
    Whole 64 badMessage ∧ ∃ c out, encrypt 64 pub badMessage = .ok (.success, some c) ∧
      decrypt 64 priv c = .ok (.success, some out) ∧ num out ≠ num badMessage := by
  obtain ⟨pub, priv, -, -, k⟩ := sample_key
  have hlt : num badMessage < val sampleN.data := by decide +kernel
  refine ⟨pub, priv, k, hlt, ⟨1, le_refl _, rfl, .inl rfl⟩, ?_⟩
  obtain ⟨m, c, pem, -, hm, m1, -, -, -, h2, -, h3⟩ := encrypt_run (inp := badMessage) (.inr rfl) k.pubN k.pubE k.ne_zero
    (by decide) (by decide)
  obtain ⟨r, r1, -, -, h5⟩ := decrypt_run (.inr rfl) k.privN k.privD h3 k.ne_zero
  have hs : sig sampleN.data = sampleN.data.length := by decide +kernel
  refine ⟨pem, _, h2, h5, ?_⟩
  rw [(taskOut_num (.inr rfl) r).1]
  obtain ⟨c', c1, -, c2⟩ := me_partial (by decide) m sampleE sampleN (by decide) rfl k.ne_zero hs
    (by rw [hm]; exact meetsB_spec (l := 2) (s := 0) (J := 4) (K := 128) sample_shape (by decide +kernel))
  rw [m1, Out.ok.injEq, Option.some.injEq] at c1
  subst c1
  have hc : val c.data = 0xbcdbd5be383d2261fc71be538e75498c := by
    rw [c2, hm, ← Pratt.powM_small _ _ _ 128 (by decide +kernel) (by decide +kernel)]
    decide +kernel
  have hP : val c.data ^ (val sampleE.data / 2) % val sampleN.data =
      Pratt.powM (val sampleN.data) 0xbcdbd5be383d2261fc71be538e75498c (val sampleE.data / 2) 128 1 := by
    rw [hc, Pratt.powM_small _ _ _ 128 (by decide +kernel) (by decide +kernel)]
  obtain ⟨r', e1, e2⟩ := me_last_wrong (by decide) c sampleE sampleN rfl k.ne_zero hs (by decide +kernel)
    (by rw [hc]; exact meetsB_spec (l := 2) (s := 0) (J := 4) (K := 128) sample_shape (by decide +kernel))
    (fun j => by rw [hP]; exact safeB_spec (n := 2) (s := 0) (J := 4) sample_shape (by decide +kernel) j)
    0 (by
      rw [pow_mul, pow_two, Nat.mul_mod, hP, hc, ← guessB_iff sample_shape]
      decide +kernel)
  rw [r1, Out.ok.injEq, Option.some.injEq] at e1
  subst e1
  omega

/-- A message of two digits which comes back with this key. -/
example : ∃ pub priv, KeyPair 64 pub priv sampleN sampleE sampleE ∧
    ∃ c, encrypt 64 pub (ascii "attack at dawn!!") = .ok (.success, some c) ∧
      decrypt 64 priv c = .ok (.success, some (ascii "attack at dawn!!")) := by
  obtain ⟨pub, priv, -, -, k⟩ := sample_key
  have hW : Whole 64 (ascii "attack at dawn!!") := ⟨2, by decide, by decide +kernel, .inr (by decide +kernel)⟩
  obtain ⟨c, out, h1, h2, -, h3⟩ := rsa_roundtrip_partial (.inr rfl) k (ascii "attack at dawn!!") (by decide +kernel)
    (by decide +kernel) (by decide +kernel)
    (meetsB_spec (l := 2) (s := 0) (J := 4) (K := 128) sample_shape (by decide +kernel))
    (by
      rw [← Pratt.powM_small _ _ _ 128 (by decide +kernel) (by decide +kernel)]
      exact meetsB_spec (l := 2) (s := 0) (J := 4) (K := 128) sample_shape (by decide +kernel))
  have := h3 (by decide +kernel) hW
  subst this
  exact ⟨pub, priv, k, c, h1, h2⟩

/-- Its signature verifies, and comes back. -/
example : ∃ pub priv, KeyPair 64 pub priv sampleN sampleE sampleE ∧
    ∃ c, sign 64 none priv (ascii "attack at dawn!!") = .ok (.success, some c) ∧
      verify 64 none pub c = .ok (.success, some (ascii "attack at dawn!!")) := by
  obtain ⟨pub, priv, -, -, k⟩ := sample_key
  obtain ⟨c, h1, h2⟩ := rsa_sign_verify_partial (.inr rfl) k (ascii "attack at dawn!!") (by decide +kernel)
    (by decide +kernel) (by decide +kernel) (by decide +kernel)
    (meetsB_spec (l := 2) (s := 0) (J := 4) (K := 128) sample_shape (by decide +kernel))
    (by
      rw [← Pratt.powM_small _ _ _ 128 (by decide +kernel) (by decide +kernel)]
      exact meetsB_spec (l := 2) (s := 0) (J := 4) (K := 128) sample_shape (by decide +kernel))
  refine ⟨pub, priv, k, c, h1, h2.trans ?_⟩
  decide +kernel

/-- A function in the place of the hash, small enough to compute with. -/
def sumHash : HashFn := fun m _ => .ok [m.foldl (· + ·) 0x5a#8]

theorem sumHash_ok : Oaep.HashOk sumHash (fun m => [m.foldl (· + ·) 0x5a#8]) 1 := ⟨by decide, fun _ _ => rfl, fun _ => rfl⟩

def sampleEm : Bytes := Spec.Pkcs1.oaep (fun m => [m.foldl (· + ·) 0x5a#8]) 1 16 [] [7] (ascii "hello")

/-- A message of five bytes with OAEP. -/
example : ∃ pub priv, KeyPair 64 pub priv sampleN sampleE sampleE ∧
    ∃ c, oaep 64 sumHash 1 (some [7]) none .encrypt pub (ascii "hello") = .ok (.success, some c) ∧
      oaep 64 sumHash 1 none none .decrypt priv c = .ok (.success, some (ascii "hello")) := by
  obtain ⟨pub, priv, -, -, k⟩ := sample_key
  have h1 : Oaep.apply sumHash 1 (some [7]) (ascii "hello") (byteSize sampleN) none = .ok (some sampleEm) :=
    Oaep.oaep_apply sumHash_ok [7] (ascii "hello") 16 none rfl (by decide) (by decide) (by decide +kernel) (by decide +kernel)
  obtain ⟨c, h2, h3⟩ := rsa_oaep_partial (.inr rfl) k sumHash_ok (some [7]) (ascii "hello") sampleEm none
    (by simp) (by decide) (by decide) h1 (by decide +kernel) (by decide +kernel)
    ⟨2, by decide, by decide +kernel, .inr (by decide +kernel)⟩
    (meetsB_spec (l := 2) (s := 0) (J := 4) (K := 128) sample_shape (by decide +kernel))
    (by
      rw [← Pratt.powM_small _ _ _ 128 (by decide +kernel) (by decide +kernel)]
      exact meetsB_spec (l := 2) (s := 0) (J := 4) (K := 128) sample_shape (by decide +kernel))
  exact ⟨pub, priv, k, c, h2, h3⟩

def samplePss : Bytes := Spec.Pkcs1.pss (fun m => [m.foldl (· + ·) 0x5a#8]) 1 (ascii "attack at dawn\x00\x00") [3, 5] 16

/-- A signature with PSS; the message comes back with two zeros. -/
example : ∃ pub priv, KeyPair 64 pub priv sampleN sampleE sampleE ∧
    ∃ doc, sign 64 (some ⟨sumHash, 1, some [3, 5], 2⟩) priv (ascii "attack at dawn") = .ok (.success, some doc) ∧
      verify 64 (some ⟨sumHash, 1, some [3, 5], 2⟩) pub doc = .ok (.success, some (ascii "attack at dawn\x00\x00")) := by
  obtain ⟨pub, priv, -, -, k⟩ := sample_key
  have hp : padDigits 64 (ascii "attack at dawn") = ascii "attack at dawn\x00\x00" := by decide +kernel
  have h1 : Oaep.pssEncode sumHash 1 (some [3, 5]) (padDigits 64 (ascii "attack at dawn")) 2 = .ok (some samplePss) := by
    rw [hp]
    exact Oaep.pss_encode sumHash_ok (ascii "attack at dawn\x00\x00") [3, 5] (by decide +kernel) (by decide +kernel)
  obtain ⟨c, h2, h3⟩ := rsa_pss_partial (.inr rfl) k sumHash_ok [3, 5] (ascii "attack at dawn") samplePss
    (by decide +kernel) (by decide +kernel) (by decide) h1 (by decide +kernel) (by decide +kernel) (by decide +kernel)
    ⟨2, by decide, by decide +kernel, .inr (by decide +kernel)⟩
    (meetsB_spec (l := 2) (s := 0) (J := 4) (K := 128) sample_shape (by decide +kernel))
    (by
      rw [← Pratt.powM_small _ _ _ 128 (by decide +kernel) (by decide +kernel)]
      exact meetsB_spec (l := 2) (s := 0) (J := 4) (K := 128) sample_shape (by decide +kernel))
  rw [hp] at h3
  exact ⟨pub, priv, k, c, h2, h3⟩

/-- With the key `n = 3233 = 61 * 53`, `e = 17`, `d = 413` messages of less than eight bytes are filled up, and 3234 comes back
as 1. -/
theorem small_key : ∃ pub priv, pub ≠ [] ∧ priv ≠ [] ∧ KeyPair 64 pub priv ⟨[3233], false⟩ ⟨[17], false⟩ ⟨[413], false⟩ := by
  obtain ⟨pub, priv, -, -, h1, h2, h3⟩ := keyPair_exists (w := 64) (.inr rfl) [3233] [17] [413] (by decide) (by decide)
    (by decide) ⟨61, 53, by norm_num, by norm_num, by decide, by decide +kernel, by decide +kernel, by decide +kernel⟩
  exact ⟨pub, priv, h1, h2, h3⟩

example : ∃ pub priv, KeyPair 64 pub priv ⟨[3233], false⟩ ⟨[17], false⟩ ⟨[413], false⟩ ∧
    (∃ c, encrypt 64 pub [0, 0, 0, 0, 0, 0, 7, 9] = .ok (.success, some c) ∧
      decrypt 64 priv c = .ok (.success, some [0, 0, 0, 0, 0, 0, 7, 9])) ∧
    (∃ c out, encrypt 64 pub [7, 9] = .ok (.success, some c) ∧ decrypt 64 priv c = .ok (.success, some out) ∧ out ≠ [7, 9]) ∧
    (∃ c out, encrypt 64 pub [0, 0, 0, 0, 0, 0, 12, 162] = .ok (.success, some c) ∧
      decrypt 64 priv c = .ok (.success, some out) ∧ num out = 1) ∧
    encrypt 64 pub [1, 2, 3, 4, 5, 6, 7, 8, 9] = .ok (.invalidParams, none) := by
  obtain ⟨pub, priv, -, -, k⟩ := small_key
  refine ⟨pub, priv, k, ?_, rsa_lengths (.inr rfl) k _ (by decide) (by decide) (by decide), ?_,
    rsa_refuses k.pubN (by decide)⟩
  · obtain ⟨c, out, h1, h2, -, h3⟩ := rsa_single_digit (.inr rfl) k rfl [0, 0, 0, 0, 0, 0, 7, 9] (by decide) (by decide)
    have := h3 (by decide +kernel) rfl
    subst this
    exact ⟨c, h1, h2⟩
  · obtain ⟨c, out, h1, h2, h3, -⟩ := rsa_single_digit (.inr rfl) k rfl [0, 0, 0, 0, 0, 0, 12, 162] (by decide) (by decide)
    exact ⟨c, out, h1, h2, by rw [h3]; decide +kernel⟩

/-- The tasks with this key: what the encrypting one gives, the decrypting one takes back. -/
example : ∃ pub priv, ∃ c, c ≠ [] ∧
    cipher 64 ⟨.rsa, .nr, .encrypt, some pub, false, 0, some [0, 0, 0, 0, 0, 0, 7, 9], fun _ => false⟩ = .ok (.success, some c) ∧
    cipher 64 ⟨.rsa, .nr, .decrypt, some priv, false, 0, some c, fun _ => false⟩ =
      .ok (.success, some [0, 0, 0, 0, 0, 0, 7, 9]) := by
  obtain ⟨pub, priv, k1, k2, k⟩ := small_key
  obtain ⟨c, out, h1, h2, -, h3⟩ := rsa_single_digit (.inr rfl) k rfl [0, 0, 0, 0, 0, 0, 7, 9] (by decide) (by decide)
  have := h3 (by decide +kernel) rfl
  subst this
  have hc : c ≠ [] := by
    rintro rfl
    obtain ⟨m, c, pem, -, -, -, -, -, -, h4, h5, -⟩ := encrypt_run (inp := [0, 0, 0, 0, 0, 0, 7, 9]) (.inr rfl) k.pubN k.pubE
      k.ne_zero (by decide) (by decide)
    rw [h1] at h4
    simp at h4
    exact h5 h4
  refine ⟨pub, priv, c, hc, ?_, ?_⟩
  · rw [cipher_encrypt (by decide) _ rfl rfl rfl rfl k1 (by decide) k.pubN k.pubE, h1]
  · rw [cipher_decrypt (by decide) _ rfl rfl rfl rfl k2 hc k.privN k.privD, h2]

/-- The signature 5 for the number `5 ^ 17 mod 3233`, made without the private key. -/
example : ∃ pub priv, ∃ (x : Num 64) (doc : Bytes), KeyPair 64 pub priv ⟨[3233], false⟩ ⟨[17], false⟩ ⟨[413], false⟩ ∧
    verify 64 none pub doc = .ok (.success, some (asTaskOut x)) := by
  obtain ⟨pub, priv, k1, k2, k⟩ := small_key
  obtain ⟨x, doc, -, -, h⟩ := rsa_forgery (.inr rfl) k.pubN k.pubE k.ne_zero [5] (by decide)
  exact ⟨pub, priv, x, doc, k, h⟩

end Kryptos.Rsa
