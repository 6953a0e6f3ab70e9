import Verif.Props.Dh
import Verif.Props.Elgamal
/-
  The verification of received parameters and public keys (C116): `kryptos_dh_verify_domain_params` and
  `kryptos_elgamal_verify_public_key`.
-/
namespace Kryptos.Mp
open Spec.Mp

variable {w : Nat}

/-- A prime of one digit is found to be prime when all bytes that may be drawn are acceptable, unless `N - 1` has too many factors 2. -/
theorem isPrime_digit (hw : 16 ≤ w) (rnd : Nat → Byte) (fuel i : Nat) (n : Num w) (N k M : Nat) (hn : Is n N) (h1 : n.data.length = 1)
    (hp : N.Prime) (h5 : 5 ≤ N) (hk : N - 1 = 2 ^ k * M) (hM : M % 2 = 1) (hk0 : 0 < k) (hk15 : k ≤ 15) (hf : N ≤ fuel)
    (ha : ∀ j, 1 < (rnd j).toNat % (N - 2)) : isPrime rnd fuel i n = .ok (some true) := by
  obtain ⟨j, hj⟩ := fermat_prime_single hw rnd i n N 7 hn h1 hp
  obtain ⟨v, v1, -⟩ := millerRabin_single hw rnd fuel j n N 14 k M hn h1 h5 hk hM hk0 hf (ha j)
  have v2 := millerRabin_prime_single hw rnd fuel j _ n N 14 k M v hn h1 hp (by omega) hk hM hk15 v1
  rw [isPrime, hj, Out.bind_ok, if_pos rfl, v1, v2]
  rfl

end Kryptos.Mp

namespace Kryptos.Dl
open Mp Spec.Mp

/-- The parameters 23, 11 and 4 are accepted. -/
theorem verify_sample : verify (w := 32) (fun _ _ => 5) 100 ⟨[23], false⟩ ⟨[11], false⟩ ⟨[4], false⟩ = .ok (some .success) := by
  have ip : Is (⟨[23], false⟩ : Num 32) 23 := ⟨by decide, rfl, by decide⟩
  have iq : Is (⟨[11], false⟩ : Num 32) 11 := ⟨by decide, rfl, by decide⟩
  have ig : Is (⟨[4], false⟩ : Num 32) 4 := ⟨by decide, rfl, by decide⟩
  refine (verify_single_digit (by decide) _ _ ip iq ig rfl rfl).2 ⟨⟨by decide, by decide, by decide, by decide⟩, ?_, ?_⟩
  · exact isPrime_digit (by decide) _ 100 0 _ 11 1 5 iq rfl (by norm_num) (by decide) (by decide) (by decide) (by decide) (by decide)
      (by decide) (fun _ => by decide)
  · exact isPrime_digit (by decide) _ 100 0 _ 23 1 11 ip rfl (by norm_num) (by decide) (by decide) (by decide) (by decide) (by decide)
      (by decide) (fun _ => by decide)

end Kryptos.Dl

namespace Kryptos.Dh
open Mp Spec.Mp

variable {w : Nat}

/-- The verification of a buffer is the one of the three numbers in it. -/
theorem verifyParams_eq (rnd : Nat → Nat → Byte) (fuel : Nat) (b : Bytes) (p q g : Num w) (h0 : b ≠ [])
    (hp : Rsa.getMp w "DH PARAM P" b = .ok (some p)) (hq : Rsa.getMp w "DH PARAM Q" b = .ok (some q))
    (hg : Rsa.getMp w "DH PARAM G" b = .ok (some g)) : verifyParams w rnd fuel (some b) = Dl.verify rnd fuel p q g := by
  simp only [verifyParams]
  rw [if_neg (by simpa using h0), hp, Out.bind_ok]
  simp only [hq, hg, Out.bind_ok]

/-- Parameters are accepted only when a buffer with the three numbers is given. -/
theorem verifyParams_numbers (rnd : Nat → Nat → Byte) (fuel : Nat) (params : Option Bytes)
    (h : verifyParams w rnd fuel params = .ok (some .success)) : ∃ b p q g, params = some b ∧ b ≠ [] ∧
      Rsa.getMp w "DH PARAM P" b = .ok (some p) ∧ Rsa.getMp w "DH PARAM Q" b = .ok (some q) ∧
      Rsa.getMp w "DH PARAM G" b = .ok (some g) := by
  cases params with
  | none => simp [verifyParams] at h
  | some b =>
    simp only [verifyParams] at h
    by_cases h0 : b.length = 0
    · rw [if_pos h0] at h; simp at h
    · rw [if_neg h0] at h
      cases hp : Rsa.getMp w "DH PARAM P" b with
      | ub => rw [hp] at h; cases h
      | ok p =>
        rw [hp, Out.bind_ok] at h
        cases p with
        | none => simp at h
        | some p =>
          simp only [] at h
          cases hq : Rsa.getMp w "DH PARAM Q" b with
          | ub => rw [hq] at h; cases h
          | ok q =>
            rw [hq, Out.bind_ok] at h
            cases q with
            | none => simp at h
            | some q =>
              simp only [] at h
              cases hg : Rsa.getMp w "DH PARAM G" b with
              | ub => rw [hg] at h; cases h
              | ok g =>
                rw [hg, Out.bind_ok] at h
                cases g with
                | none => simp at h
                | some g => exact ⟨b, p, q, g, rfl, by simpa using h0, hp, hq, hg⟩

/-- C116 for Diffie-Hellman: parameters which are accepted are sound, and both numbers have passed the test of primality. -/
theorem dh_verify_sound (hw : 16 ≤ w) (rnd : Nat → Nat → Byte) (fuel : Nat) (params : Option Bytes)
    (h : verifyParams w rnd fuel params = .ok (some .success)) : ∃ (b : Bytes) (p q g : Num w), params = some b ∧
      Rsa.getMp w "DH PARAM P" b = .ok (some p) ∧ Rsa.getMp w "DH PARAM Q" b = .ok (some q) ∧
      Rsa.getMp w "DH PARAM G" b = .ok (some g) ∧ Dl.Sound (val p.data) (val q.data) (val g.data) ∧
      isPrime (rnd 0) fuel 0 q = .ok (some true) ∧ isPrime (rnd 1) fuel 0 p = .ok (some true) := by
  obtain ⟨b, p, q, g, rfl, h0, hp, hq, hg⟩ := verifyParams_numbers rnd fuel params h
  rw [verifyParams_eq rnd fuel b p q g h0 hp hq hg] at h
  obtain ⟨s1, s2, s3⟩ := Dl.verify_sound hw rnd fuel (Elgamal.getMp_is (by omega) hp) (Elgamal.getMp_is (by omega) hq)
    (Elgamal.getMp_is (by omega) hg) h
  exact ⟨b, p, q, g, rfl, hp, hq, hg, s1, s2, s3⟩

/-- For numbers of one digit the parameters are accepted exactly when they are sound and both pass the test of primality. -/
theorem dh_verify_single_digit (hw : 16 ≤ w) (rnd : Nat → Nat → Byte) (fuel : Nat) (b : Bytes) (p q g : Num w) (h0 : b ≠ [])
    (hp : Rsa.getMp w "DH PARAM P" b = .ok (some p)) (hq : Rsa.getMp w "DH PARAM Q" b = .ok (some q))
    (hg : Rsa.getMp w "DH PARAM G" b = .ok (some g)) (hpl : p.data.length = 1) (hql : q.data.length = 1) :
    verifyParams w rnd fuel (some b) = .ok (some .success) ↔ Dl.Sound (val p.data) (val q.data) (val g.data) ∧
      isPrime (rnd 0) fuel 0 q = .ok (some true) ∧ isPrime (rnd 1) fuel 0 p = .ok (some true) := by
  rw [verifyParams_eq rnd fuel b p q g h0 hp hq hg]
  exact Dl.verify_single_digit hw rnd fuel (Elgamal.getMp_is (by omega) hp) (Elgamal.getMp_is (by omega) hq)
    (Elgamal.getMp_is (by omega) hg) hpl hql

/-- Parameters with a missing number are refused. -/
theorem dh_verify_missing (rnd : Nat → Nat → Byte) (fuel : Nat) (b : Bytes)
    (h : Rsa.getMp w "DH PARAM P" b = .ok none ∨ ∃ p, Rsa.getMp w "DH PARAM P" b = .ok (some p) ∧
      (Rsa.getMp w "DH PARAM Q" b = .ok none ∨ ∃ q, Rsa.getMp w "DH PARAM Q" b = .ok (some q) ∧ Rsa.getMp w "DH PARAM G" b = .ok none)) :
    verifyParams w rnd fuel (some b) = .ok (some .invalidParams) := by
  simp only [verifyParams]
  by_cases h0 : b.length = 0
  · rw [if_pos h0]
  · rw [if_neg h0]
    rcases h with h | ⟨p, hp, h | ⟨q, hq, h⟩⟩
    · rw [h]; rfl
    · rw [hp, Out.bind_ok]; simp only [h]; rfl
    · rw [hp, Out.bind_ok]; simp only [hq, h, Out.bind_ok]; rfl

/-- Beside the theorems: the parameters 23, 11 and 4 in a buffer are accepted. -/
example : ∃ b, verifyParams 32 (fun _ _ => 5) 100 (some b) = .ok (some .success) := by
  obtain ⟨b, h1, h2, h3⟩ := Rsa.putMps_get (w := 32) (.inl rfl) [("DH PARAM P", ⟨[23], false⟩), ("DH PARAM Q", ⟨[11], false⟩),
    ("DH PARAM G", ⟨[4], false⟩)] (by simp) (by simp [gP, gQ, gG]) (by simp only [List.map_cons, List.map_nil]; decide +kernel)
  refine ⟨b, ?_⟩
  rw [verifyParams_eq _ _ b _ _ _ h2 (h3 ("DH PARAM P", ⟨[23], false⟩) (by simp)) (h3 ("DH PARAM Q", ⟨[11], false⟩) (by simp))
    (h3 ("DH PARAM G", ⟨[4], false⟩) (by simp))]
  exact Dl.verify_sample

end Kryptos.Dh

namespace Kryptos.Elgamal
open Mp Spec.Mp Rsa

variable {w : Nat}

/-- The verification of a key is the one of three numbers of it; the fourth one only has to be there. -/
theorem verifyPublicKey_eq (rnd : Nat → Nat → Byte) (fuel : Nat) (key : Bytes) (p q g b : Num w) (h0 : key ≠ [])
    (hp : getMp w "ELGAMAL PARAM P" key = .ok (some p)) (hq : getMp w "ELGAMAL PARAM Q" key = .ok (some q))
    (hg : getMp w "ELGAMAL PARAM G" key = .ok (some g)) (hb : getMp w "ELGAMAL PARAM B" key = .ok (some b)) :
    verifyPublicKey w rnd fuel key = Dl.verify rnd fuel p q g := by
  rw [verifyPublicKey, if_neg (by simpa using h0), hb, Out.bind_ok]
  simp only [hp, hq, hg, Out.bind_ok]

/-- C116 for ElGamal in part: a key which is accepted has all four numbers, and its parameters are sound.  Missing for the full
property: that `B` is in the group (`elgamal_verify_one`). -/
theorem elgamal_verify_partial (hw : 16 ≤ w) (rnd : Nat → Nat → Byte) (fuel : Nat) (key : Bytes)
    (h : verifyPublicKey w rnd fuel key = .ok (some .success)) : ∃ p q g b : Num w,
      getMp w "ELGAMAL PARAM P" key = .ok (some p) ∧ getMp w "ELGAMAL PARAM Q" key = .ok (some q) ∧
      getMp w "ELGAMAL PARAM G" key = .ok (some g) ∧ getMp w "ELGAMAL PARAM B" key = .ok (some b) ∧
      Dl.Sound (val p.data) (val q.data) (val g.data) ∧
      isPrime (rnd 0) fuel 0 q = .ok (some true) ∧ isPrime (rnd 1) fuel 0 p = .ok (some true) := by
  have h' := h
  rw [verifyPublicKey] at h
  by_cases h0 : key.length = 0
  · rw [if_pos h0] at h; simp at h
  · rw [if_neg h0] at h
    cases hb : getMp w "ELGAMAL PARAM B" key with
    | ub => rw [hb] at h; cases h
    | ok b =>
      rw [hb, Out.bind_ok] at h
      cases b with
      | none => simp at h
      | some b =>
        simp only [] at h
        cases hp : getMp w "ELGAMAL PARAM P" key with
        | ub => rw [hp] at h; cases h
        | ok p =>
          rw [hp, Out.bind_ok] at h
          cases p with
          | none => simp at h
          | some p =>
            simp only [] at h
            cases hq : getMp w "ELGAMAL PARAM Q" key with
            | ub => rw [hq] at h; cases h
            | ok q =>
              rw [hq, Out.bind_ok] at h
              cases q with
              | none => simp at h
              | some q =>
                simp only [] at h
                cases hg : getMp w "ELGAMAL PARAM G" key with
                | ub => rw [hg] at h; cases h
                | ok g =>
                  rw [hg, Out.bind_ok] at h
                  cases g with
                  | none => simp at h
                  | some g =>
                    rw [verifyPublicKey_eq rnd fuel key p q g b (by simpa using h0) hp hq hg hb] at h'
                    obtain ⟨s1, s2, s3⟩ := Dl.verify_sound hw rnd fuel (getMp_is (by omega) hp) (getMp_is (by omega) hq)
                      (getMp_is (by omega) hg) h'
                    exact ⟨p, q, g, b, rfl, rfl, rfl, rfl, s1, s2, s3⟩

/-- `B` is not looked at: two keys which differ only in `B` get the same answer. -/
theorem elgamal_verify_ignores_b (rnd : Nat → Nat → Byte) (fuel : Nat) (key key' : Bytes) (p q g b b' : Num w) (h0 : key ≠ [])
    (h0' : key' ≠ []) (hp : getMp w "ELGAMAL PARAM P" key = .ok (some p)) (hq : getMp w "ELGAMAL PARAM Q" key = .ok (some q))
    (hg : getMp w "ELGAMAL PARAM G" key = .ok (some g)) (hb : getMp w "ELGAMAL PARAM B" key = .ok (some b))
    (hp' : getMp w "ELGAMAL PARAM P" key' = .ok (some p)) (hq' : getMp w "ELGAMAL PARAM Q" key' = .ok (some q))
    (hg' : getMp w "ELGAMAL PARAM G" key' = .ok (some g)) (hb' : getMp w "ELGAMAL PARAM B" key' = .ok (some b')) :
    verifyPublicKey w rnd fuel key = verifyPublicKey w rnd fuel key' := by
  rw [verifyPublicKey_eq rnd fuel key p q g b h0 hp hq hg hb, verifyPublicKey_eq rnd fuel key' p q g b' h0' hp' hq' hg' hb']

/-- For all good parameters the key with `B` = 1 is accepted, and whatever is encrypted for it can be read from the ciphertext. -/
theorem elgamal_verify_one (hw : w = 32 ∨ w = 64) (rnd : Nat → Nat → Byte) (fuel : Nat) (p q g : Num w) (hp : p.data ≠ []) (hq : q.data ≠ [])
    (hg : g.data ≠ []) (np : p.neg = false) (nq : q.neg = false) (ng : g.neg = false)
    (h : Dl.verify rnd fuel p q g = .ok (some .success)) :
    ∃ pub, verifyPublicKey w rnd fuel pub = .ok (some .success) ∧ getMp w "ELGAMAL PARAM P" pub = .ok (some p) ∧
      getMp w "ELGAMAL PARAM B" pub = .ok (some one) ∧
      ∀ x i : Num w, x.data ≠ [] → i.data ≠ [] → x.neg = false → i.neg = false →
        ∃ doc y, encryptWith p g one x i = .ok (.success, some doc) ∧ getMp w "ELGAMAL PARAM Y" doc = .ok (some y) ∧
          val y.data ≡ val x.data [MOD val p.data] := by
  have i1 := is_one (w := w) (by omega)
  have ip := Is.intro hp np
  have iq := Is.intro hq nq
  have ig := Is.intro hg ng
  obtain ⟨pub, priv, -, -, k1, -, k2, k3, k4, k5, -⟩ := keys_put hw p q g one one hp hq hg (List.ne_nil_of_length_pos i1.1)
    (List.ne_nil_of_length_pos i1.1)
  rw [Dh.num_eta ip] at k2
  rw [Dh.num_eta iq] at k3
  rw [Dh.num_eta ig] at k4
  rw [Dh.num_eta i1] at k5
  refine ⟨pub, ?_, k2, k5, fun x i hx hi nx ni => ?_⟩
  · rw [verifyPublicKey_eq rnd fuel pub p q g one k1 k2 k3 k4 k5]; exact h
  · have hs := (Dl.verify_sound (by omega) rnd fuel ip iq ig h).1
    have hP : val p.data ≠ 0 := by have := hs.upper; omega
    obtain ⟨doc, y, ke, km, Y, KE, KM, e1, -, e2, -, e3, e4, -, -, -, e5, -, e6, -⟩ := encryptWith_run hw ip ig i1 (Is.intro hx nx)
      (Is.intro hi ni) hP
    refine ⟨doc, y, e1, e4, ?_⟩
    rw [e2.2.2]
    rw [one_pow] at e5
    simpa using e6.trans (e5.mul_left (val x.data))

/-- Parameters to which it applies. -/
example : ∃ pub, verifyPublicKey 32 (fun _ _ => 5) 100 pub = .ok (some .success) ∧ getMp 32 "ELGAMAL PARAM B" pub = .ok (some one) := by
  obtain ⟨pub, h1, -, h3, -⟩ := elgamal_verify_one (w := 32) (.inl rfl) (fun _ _ => 5) 100 ⟨[23], false⟩ ⟨[11], false⟩ ⟨[4], false⟩
    (by simp) (by simp) (by simp) rfl rfl rfl Dl.verify_sample
  exact ⟨pub, h1, h3⟩

end Kryptos.Elgamal
