import Verif.Props.Elgamal
/-
  Decryption with OAEP of a ciphertext that comes from anyone (C122): one document makes it read out of bounds, under every private key
  with more than one digit. For blocks of the size of the modulus the blocks for which removing the padding is undefined are
  characterised.
-/
namespace Kryptos.Oaep
open Hash

variable {hash : HashFn} {H : Bytes → Bytes} {h : Nat}

/-- Every block of `k` bytes that begins with a zero is the masking of some seed and block. -/
theorem mask_surj (hh : HashOk hash H h) (k : Nat) (hk1 : h + 1 ≤ k) (body : Bytes) (hb : body.length = k - 1) :
    ∃ seed db, seed.length = h ∧ db.length = k - h - 1 ∧ 0#8 :: body = Spec.Pkcs1.mask H h k seed db := by
  refine ⟨xorB (body.take h) (Spec.Pkcs1.mgf1 H h (body.drop h) h), xorB (body.drop h)
    (Spec.Pkcs1.mgf1 H h (xorB (body.take h) (Spec.Pkcs1.mgf1 H h (body.drop h) h)) (k - h - 1)), ?_, ?_, ?_⟩
  · rw [xorB_length] <;> simp [mgf1_length hh, hb] <;> omega
  · rw [xorB_length] <;> simp [mgf1_length hh, hb] <;> omega
  · show 0#8 :: body = 0#8 :: (xorB _ (Spec.Pkcs1.mgf1 H h (xorB (xorB _ _) _) h) ++ xorB (xorB _ _) _)
    rw [xorB_cancel (body.drop h) _ (by rw [mgf1_length hh, List.length_drop]; omega),
      xorB_cancel (body.take h) _ (by rw [mgf1_length hh, List.length_take]; omega), List.take_append_drop]

/-- The unmasked blocks that are read past their end: the hash of the label and nothing but zeros. -/
theorem checkDb_ub_iff (hh : HashOk hash H h) (k : Nat) (db : Bytes) (label : Option Bytes) (hl : (labelOf label).length < 2 ^ 61)
    (hd : db.length = k - h - 1) (hk : 2 * h + 1 ≤ k) :
    checkDb hash h k db label = .ub ↔ db = H (labelOf label) ++ List.replicate (k - 2 * h - 1) 0#8 := by
  rw [checkDb, hh.runHash _ hl, Out.bind_ok]
  simp only
  rw [if_neg (by rw [hh.len]; simp), if_neg (by omega)]
  constructor
  · intro hc
    split at hc
    · cases hc
    next ht =>
    have hz := skipZeros_eq (db.drop h)
    split at hc
    next hr =>
      rw [hr, List.append_nil] at hz
      have hlen := congrArg List.length hz
      rw [List.length_drop, List.length_replicate, hd] at hlen
      rw [← hlen, show k - h - 1 - h = k - 2 * h - 1 by omega] at hz
      rw [← hz, ← show db.take h = H (labelOf label) by simpa using ht, List.take_append_drop]
    next =>
      split at hc
      · cases hc
      · split at hc <;> cases hc
  · rintro rfl
    rw [List.take_left' (hh.len _), if_neg (by simp), List.drop_left' (hh.len _), skipZeros_zeros]

/-- For blocks of the size of the modulus, removing the padding is undefined for exactly the maskings of such blocks. -/
theorem oaep_drop_ub_iff (hh : HashOk hash H h) (em : Bytes) (k : Nat) (label : Option Bytes) (hl : (labelOf label).length < 2 ^ 61)
    (hk : k < 2 ^ 60) (hk1 : 2 * h + 1 ≤ k) (he : em.length = k) :
    drop hash h em k label = .ub ↔
      ∃ seed, seed.length = h ∧ em = Spec.Pkcs1.mask H h k seed (H (labelOf label) ++ List.replicate (k - 2 * h - 1) 0#8) := by
  constructor
  · intro hd
    cases em with
    | nil => cases hd
    | cons b body =>
      have hb : b = 0#8 := by
        by_contra hb
        rw [drop] at hd
        simp [hb] at hd
      subst hb
      obtain ⟨seed, db, h1, h2, h3⟩ := mask_surj hh k (by omega) body (by simp at he; omega)
      rw [h3, drop_mask hh k seed db label h1 h2 (by omega) hk, checkDb_ub_iff hh k db label hl h2 hk1] at hd
      exact ⟨seed, h1, by rw [h3, hd]⟩
  · rintro ⟨seed, hs, rfl⟩
    have hd : (H (labelOf label) ++ List.replicate (k - 2 * h - 1) 0#8).length = k - h - 1 := by
      simp [hh.len]; omega
    rw [drop_mask hh k seed _ label hs hd (by omega) hk, checkDb_ub_iff hh k _ label hl hd hk1]

end Kryptos.Oaep

namespace Kryptos.Rsa
open Mp Spec.Mp Hash

variable {w : Nat}

/-- The number one is written with one digit, which begins with a zero. -/
theorem one_out (hw : w = 32 ∨ w = 64) {r : Num w} (hr : Is r 1) (hn : Normed r) : ∃ body, asTaskOut r = 0#8 :: body ∧ body.length + 1 = w / 8 := by
  have hw8 : 8 ≤ w := by rcases hw with rfl | rfl <;> decide
  have hs : sig r.data ≤ 1 := by
    by_contra hc
    have h2 := sig_pos_le r.data (by omega)
    have h3 : 2 ^ w ≤ 2 ^ (w * (sig r.data - 1)) := Nat.pow_le_pow_right (by decide) (Nat.le_mul_of_pos_right w (by omega))
    have h4 : 2 ^ 8 ≤ 2 ^ w := Nat.pow_le_pow_right (by decide) hw8
    have := hr.2.2
    omega
  have hl : r.data.length = 1 := by
    rw [hn]
    omega
  obtain ⟨a, ha⟩ := List.length_eq_one_iff.1 hl
  have h1 : a = 1#w := by
    have := hr.2.2
    rw [ha] at this
    apply BitVec.eq_of_toNat_eq
    rw [show a.toNat = 1 by simpa [val] using this]
    rcases hw with rfl | rfl <;> rfl
  rw [asTaskOut, ha, h1]
  rcases hw with rfl | rfl <;> exact ⟨_, rfl, rfl⟩

/-- C122 is violated: one document makes decryption read out of bounds, under every private key with more than one digit, whatever
the hash function and the label are. -/
theorem rsa_oaep_one_ub (hw : w = 32 ∨ w = 64) : ∃ doc, doc ≠ [] ∧ ∀ (key : Bytes) (n d : Num w), getMp w "RSA PARAM N" key = .ok (some n) →
    getMp w "RSA PARAM D" key = .ok (some d) → 2 ≤ n.data.length → 1 < val n.data → ∀ (hash : HashFn) (h : Nat) (seed label : Option Bytes),
    h + 1 ≤ byteSize n → oaep w hash h seed label .decrypt key doc = .ub := by
  have hw16 : 16 ≤ w := by rcases hw with rfl | rfl <;> decide
  obtain ⟨doc, -, d2, d3⟩ := putMps_get hw [("RSA PARAM C", (one : Num w))] (by simp) (by simp [gC, one]) (by simp)
  refine ⟨doc, d2, fun key n d hN hD h2 hv hash h seed label hk => ?_⟩
  have dC := d3 ("RSA PARAM C", one) (by simp)
  have i1 : Is (⟨(one : Num w).data, false⟩ : Num w) 1 := is_one (by omega)
  obtain ⟨m, m1, m2, -, m4⟩ := decrypt_run hw hN hD dC (by omega)
  obtain ⟨r, r1, r2⟩ := Dh.me_one hw16 i1 d (Elgamal.getMp_is (by omega) hN) hv
  obtain rfl : m = r := Option.some.inj (Out.ok.inj (m1.symm.trans r1))
  obtain ⟨body, b1, b2⟩ := one_out hw r2 m2
  rw [oaep, hN, Out.bind_ok]
  simp only [m4, Out.bind_ok, b1]
  rw [if_neg (by decide), Oaep.oaep_drop_short_unsafe hash h body (byteSize n) label hk]
  · rfl
  · have : 2 * w ≤ n.data.length * w := Nat.mul_le_mul_right w h2
    rw [byteSize, b2]
    omega

/-- The same for the task of the library. -/
theorem rsa_oaep_task_ub (hw : w = 32 ∨ w = 64) : ∃ doc, doc ≠ [] ∧ ∀ (t : TaskCheck.Task) (key : Bytes) (n d : Num w),
    t.cipher = .rsaoaep → t.action = .decrypt → t.key = some key → key ≠ [] → t.inp = some doc → t.args 0 = t.args 1 → t.args 2 = t.args 3 →
    getMp w "RSA PARAM N" key = .ok (some n) → getMp w "RSA PARAM D" key = .ok (some d) → 2 ≤ n.data.length → 1 < val n.data →
    ∀ (hash : HashFn) (h : Nat) (seed label : Option Bytes), h + 1 ≤ byteSize n → oaepCipher w hash h seed label t = .ub := by
  obtain ⟨doc, d1, d2⟩ := rsa_oaep_one_ub hw
  refine ⟨doc, d1, fun t key n d ht ha hk hk0 hi a1 a2 hN hD h2 hv hash h seed label hl => ?_⟩
  have hw8 : 8 ≤ w := by rcases hw with rfl | rfl <;> decide
  have hp : TaskCheck.check t = .ok none := by
    rw [TaskCheck.check_pk (o := true) (pub := TaskCheck.rsaPub) (priv := TaskCheck.rsaPriv) (by rw [ht]; rfl) (by rw [ha]; simp)]
    refine ⟨⟨key, hk, hk0⟩, ⟨doc, hi, d1⟩, by simp [ht], .inr ⟨ha, ?_⟩, fun _ => ⟨a1, a2⟩⟩
    rw [hk]
    intro h hh
    simp only [TaskCheck.rsaPriv, List.mem_cons, List.not_mem_nil, or_false] at hh
    rcases hh with rfl | rfl
    · exact (getMp_spec hw8 hN).2.2
    · exact (getMp_spec hw8 hD).2.2
  rw [oaepCipher, if_neg (by simp [ha]), afterCheck_pass hp hk hi, ha]
  exact d2 key n d hN hD h2 hv hash h seed label hl

/-- Decryption is defined when the decrypted block has the size of the modulus and is not the masking of a block without an end. -/
theorem rsa_oaep_ub_iff_partial (hw : w = 32 ∨ w = 64) {key doc : Bytes} {n d c : Num w} (hN : getMp w "RSA PARAM N" key = .ok (some n))
    (hD : getMp w "RSA PARAM D" key = .ok (some d)) (hC : getMp w "RSA PARAM C" doc = .ok (some c)) (hn0 : val n.data ≠ 0)
    {hash : HashFn} {H : Bytes → Bytes} {h : Nat} (hh : Oaep.HashOk hash H h) (seed label : Option Bytes)
    (hl : (Oaep.labelOf label).length < 2 ^ 61) (hk : byteSize n < 2 ^ 60) (hk1 : 2 * h + 1 ≤ byteSize n) {m : Num w}
    (hm : meModN c d n = .ok (some m)) (hs : (asTaskOut m).length = byteSize n) :
    oaep w hash h seed label .decrypt key doc = .ub ↔ ∃ s, s.length = h ∧
      asTaskOut m = Spec.Pkcs1.mask H h (byteSize n) s (H (Oaep.labelOf label) ++ List.replicate (byteSize n - 2 * h - 1) 0#8) := by
  obtain ⟨m', m1, -, -, m4⟩ := decrypt_run hw hN hD hC hn0
  obtain rfl : m = m' := Option.some.inj (Out.ok.inj (hm.symm.trans m1))
  rw [← Oaep.oaep_drop_ub_iff hh (asTaskOut m) (byteSize n) label hl hk hk1 hs, oaep, hN, Out.bind_ok]
  simp only [m4, Out.bind_ok]
  rw [if_neg (by decide)]
  cases hd : Oaep.drop hash h (asTaskOut m) (byteSize n) label with
  | ub => simp
  | ok o => cases o <;> simp

/-- The hypotheses are met by the key with a modulus of two digits. -/
example : ∃ priv doc, oaepCipher 64 sumHash 1 none none ⟨.rsaoaep, .nr, .decrypt, some priv, false, 0, some doc, fun _ => false⟩ = .ub := by
  obtain ⟨pub, priv, -, hp, k⟩ := sample_key
  obtain ⟨doc, -, h⟩ := rsa_oaep_task_ub (w := 64) (.inr rfl)
  exact ⟨priv, doc, h _ priv _ _ rfl rfl rfl hp rfl rfl rfl k.privN k.privD (by decide) (by decide +kernel) _ _ _ _ (by decide)⟩

/-- The hypotheses of the characterisation are met by a key of one digit, for which the same document is judged. -/
example : ∃ priv doc, oaep 64 sumHash 1 none none .decrypt priv doc ≠ .ub := by
  obtain ⟨pub, priv, -, -, k⟩ := small_key
  obtain ⟨doc, -, -, d3⟩ := putMps_get (w := 64) (.inr rfl) [("RSA PARAM C", (one : Num 64))] (by simp) (by simp [gC, one]) (by simp)
  have dC := d3 ("RSA PARAM C", one) (by simp)
  obtain ⟨r, r1, r2⟩ := Dh.me_one (w := 64) (by decide) (m := ⟨(one : Num 64).data, false⟩) (is_one (by decide)) ⟨[413], false⟩
    (n := ⟨[3233], false⟩) (c := 3233) ⟨by decide, rfl, rfl⟩ (by decide)
  have hr := me_normed (by decide) _ _ _ _ rfl k.ne_zero r1
  obtain ⟨body, b1, b2⟩ := one_out (.inr rfl) r2 hr
  refine ⟨priv, doc, fun hu => ?_⟩
  obtain ⟨s, s1, s2⟩ := (rsa_oaep_ub_iff_partial (.inr rfl) k.privN k.privD dC k.ne_zero sumHash_ok none none (by decide) (by decide) (by decide) r1
    (by rw [b1, List.length_cons, b2]; rfl)).1 hu
  have ho : asTaskOut r = [0#8, 0#8, 0#8, 0#8, 0#8, 0#8, 0#8, 1#8] := by
    have h1 : num (asTaskOut r) = 1 := by rw [(taskOut_num (.inr rfl) r).1]; exact r2.2.2
    refine num_inj _ _ (by rw [b1, List.length_cons, b2]; rfl) (h1.trans (by decide))
  obtain ⟨a, rfl⟩ := List.length_eq_one_iff.1 s1
  rw [ho] at s2
  have : ∀ a : Byte, [0#8, 0#8, 0#8, 0#8, 0#8, 0#8, 0#8, 1#8] ≠ Spec.Pkcs1.mask (fun m => [m.foldl (· + ·) 0x5a#8]) 1
      (byteSize (⟨[3233], false⟩ : Num 64)) [a] ([(Oaep.labelOf none).foldl (· + ·) 0x5a#8] ++
        List.replicate (byteSize (⟨[3233], false⟩ : Num 64) - 2 * 1 - 1) 0#8) := by decide +kernel
  exact this a s2

/-- A block that is read past its end, and one that is not. -/
example : (∃ em : Bytes, em.length = 10 ∧ Oaep.drop sumHash 1 em 10 none = .ub) ∧
    ∃ em : Bytes, em.length = 10 ∧ Oaep.drop sumHash 1 em 10 none ≠ .ub := by
  refine ⟨⟨_, ?_, (Oaep.oaep_drop_ub_iff sumHash_ok _ 10 none (by decide) (by norm_num) (by decide) ?_).2 ⟨[3#8], rfl, rfl⟩⟩,
    List.replicate 10 1#8, rfl, by decide⟩ <;> decide +kernel

end Kryptos.Rsa

namespace Kryptos.Elgamal
open Mp Spec.Mp Hash
open Rsa (Res getMp putMps getMp_spec num byteSize putMps_get)

variable {w : Nat}

/-- The same document for ElGamal: both numbers are one. -/
theorem elgamal_oaep_one_ub (hw : w = 32 ∨ w = 64) : ∃ doc, doc ≠ [] ∧ ∀ (pub priv : Bytes) (p g b d : Num w) (q : Option (Num w)),
    KeyPair w pub priv p q g b d → 2 ≤ p.data.length → ∀ (rnd : Nat → Byte) (fuel : Nat) (hash : HashFn) (h : Nat) (seed label : Option Bytes),
    h + 1 ≤ byteSize p → oaep w rnd fuel hash h seed label .decrypt priv doc = .ub := by
  have hw16 : 16 ≤ w := by rcases hw with rfl | rfl <;> decide
  have hw8 : 8 ≤ w := by omega
  obtain ⟨doc, -, d2, d3⟩ := putMps_get hw [("ELGAMAL PARAM Y", (one : Num w)), ("ELGAMAL PARAM E", one)] (by simp) (by simp [gY, gE, one])
    (by simp only [List.map_cons, List.map_nil]; decide +kernel)
  refine ⟨doc, d2, fun pub priv p g b d q k h2 rnd fuel hash h seed label hk => ?_⟩
  have dY := d3 ("ELGAMAL PARAM Y", one) (by simp)
  have dE := d3 ("ELGAMAL PARAM E", one) (by simp)
  have i1 : Is (⟨(one : Num w).data, false⟩ : Num w) 1 := is_one (by omega)
  have ip := getMp_is hw8 k.privP
  have hp1 : 1 < val p.data := k.prime.one_lt
  obtain ⟨t, r, e1, e2, -⟩ := exponent_is hw8 ip (getMp_is hw8 k.privD) k.range
  obtain ⟨a, a1, a2⟩ := Dh.me_one hw16 i1 r ip hp1
  obtain ⟨x, X, x1, x2, x3, -, x5⟩ := mulMod_run hw16 i1 a2 ip (by omega)
  obtain rfl : X = 1 := by
    rw [x5 (.inl (by omega)), Nat.mod_eq_of_lt (by omega)]
  obtain ⟨body, b1, b2⟩ := Rsa.one_out hw x2 x3
  have hdec : decrypt w priv doc = .ok (.success, some (asTaskOut x)) := by
    rw [decrypt, k.privP, Out.bind_ok]
    simp only [k.privD, e1, e2, dE, a1, dY, x1, Out.bind_ok]
    rfl
  rw [oaep, k.privP, Out.bind_ok]
  simp only [hdec, Out.bind_ok, b1]
  rw [if_neg (by decide), Oaep.oaep_drop_short_unsafe hash h body (byteSize p) label hk]
  · rfl
  · have : 2 * w ≤ p.data.length * w := Nat.mul_le_mul_right w h2
    rw [byteSize, b2]
    omega

/-- The hypotheses are met by a key of two digits. -/
example : ∃ priv doc, ∀ fuel, oaep 64 (fun _ => 0) fuel Rsa.sumHash 1 none none .decrypt priv doc = .ub := by
  obtain ⟨pub, priv, b, -, -, k, -⟩ := wrong_keys
  obtain ⟨doc, -, h⟩ := elgamal_oaep_one_ub (w := 64) (.inr rfl)
  exact ⟨priv, doc, fun fuel => h pub priv _ _ _ _ _ k (by decide) _ fuel _ _ _ _ (by decide)⟩

end Kryptos.Elgamal
