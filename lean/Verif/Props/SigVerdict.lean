import Verif.Props.EcTotal
import Verif.Props.Ecdsa
/-
  Verification of a signature whose document comes from anyone: it ends, with the message or with a refusal (C121). For DSA this fails
  for the documents in which a field is missing, and for no others.
-/
namespace Kryptos.Sig
open Mp Spec.Mp

/-- The two verdicts on a signature of the message `x`: accepted with the message, refused without one. -/
def Judged (x : Bytes) (o : Rsa.Res) : Prop := o = (.success, some x) ∨ o = (.invalidSignature, none)

/-- More fuel does not change an inverse. -/
theorem modinvRs_le {w : Nat} {f g : Nat} (hfg : f ≤ g) {a m r : Num w} (h : modinvRs f a m = .ok (some r)) :
    modinvRs g a m = .ok (some r) := by
  rw [modinvRs] at h ⊢
  cases hl : rsLoop m f (assign none m) (assign none a) zero one with
  | ub => rw [hl] at h; cases h
  | ok o =>
    rw [hl, Out.bind_ok] at h
    cases o with
    | none => cases h
    | some x => rw [Ec.rsLoop_le m hfg hl, Out.bind_ok]; exact h

/-- The inverse for an odd modulus, with one result for all sufficient fuel. -/
theorem inverse_ends {w : Nat} (hw : 8 ≤ w) {a m : Num w} {A M : Nat} (ha : Is a A) (hm : Is m M) (hodd : M % 2 = 1) :
    ∃ r, Ec.Any r ∧ ∀ f, A + M < f → Dsa.inverse f a m = .ok (some r) := by
  obtain ⟨v, V, v1, v2, -⟩ := Dsa.inverse_is hw ha hm hodd (A + M + 1) (by omega)
  refine ⟨v, ⟨V, v2⟩, fun f hf => ?_⟩
  rw [Dsa.inverse, modinv, hm.isOdd (by omega), Out.bind_ok, decide_eq_true hodd] at v1 ⊢
  exact modinvRs_le (by omega) v1

end Kryptos.Sig

namespace Kryptos.Dsa
open Mp Spec.Mp Sig Hash
open Rsa (Res getMp putMps getMp_spec num)

variable {w : Nat}

/-- Every complete document is judged, whatever its numbers are, within a number of steps that its `S` and the order bound. -/
theorem dsa_verdict_partial (hw : w = 32 ∨ w = 64) {hash : HashFn} (hh : Digests hash) {key doc x : Bytes} {p q g e r s : Num w}
    (k : Pub w key p q g e) (d : Doc w doc x r s) (hp : val p.data ≠ 0) (hodd : val q.data % 2 = 1) :
    ∃ o, Judged x o ∧ ∀ fuel, val s.data + val q.data < fuel → verify w hash fuel key doc = .ok (some o) := by
  have hw16 : 16 ≤ w := by rcases hw with rfl | rfl <;> decide
  have ip := getMp_is (by omega) k.getP
  have iq := getMp_is (by omega) k.getQ
  have ig := getMp_is (by omega) k.getG
  have ie := getMp_is (by omega) k.getE
  have ir := getMp_is (by omega) d.getR
  have is := getMp_is (by omega) d.getS
  obtain ⟨v, ⟨V, v2⟩, v1⟩ := inverse_ends (by omega) is iq hodd
  obtain ⟨dg, g1, g2⟩ := hh x d.ne
  obtain ⟨h, h1, h2⟩ := hashNum_is (w := w) hw g1 g2
  obtain ⟨K, u1, u2, U1, U2, -, -, a2, -, -, a4, -, -, a6⟩ := verifyWith_run (p := p) hw16 g e iq ir (by omega) (v1 (val s.data + val q.data + 1) (by omega)) v2 x h1 h2
  obtain ⟨ma, MA, m1, m2, -⟩ := ig.me hw16 a2 ip hp
  obtain ⟨mb, MB, n1, n2, -⟩ := ie.me hw16 a4 ip hp
  obtain ⟨T, V', R', -, -, -, -, -, -, t4⟩ := verifyEnd_run hw16 ip iq ir hp (by omega) m1 m2 n1 n2 x
  rw [t4, Out.bind_ok] at a6
  refine ⟨if V' = R' then (.success, some x) else (.invalidSignature, none), ?_, fun fuel hf => ?_⟩
  · by_cases hv : V' = R' <;> simp [Judged, hv]
  · rw [verify_run k d, show verifyWith hash fuel p q g e r s x = verifyWith hash (val s.data + val q.data + 1) p q g e r s x by
      simp only [verifyWith, v1 _ hf, v1 _ (Nat.lt_succ_self _)]]
    exact a6

/-- The documents for which verification is undefined are those in which the message, `R` or `S` is missing. -/
theorem dsa_verify_ub_iff (hw : w = 32 ∨ w = 64) {hash : HashFn} (hh : Digests hash) {key doc : Bytes} {p q g e : Num w}
    (k : Pub w key p q g e) (hp : val p.data ≠ 0) (hodd : val q.data % 2 = 1) {x : Option Bytes} {r s : Option (Num w)}
    (hx : Pem.getData (some (ascii "DSA X")) (some doc) = .ok x) (hr : getMp w "DSA R" doc = .ok r) (hs : getMp w "DSA S" doc = .ok s) :
    ∃ f0, ∀ fuel, f0 ≤ fuel → (verify w hash fuel key doc = .ub ↔ x = none ∨ x = some [] ∨ r = none ∨ s = none) := by
  match x, r, s, hx, hr, hs with
  | none, r, s, hx, hr, hs =>
    exact ⟨0, fun fuel _ => ⟨fun _ => .inl rfl, fun _ => dsa_no_message w hash fuel k hx⟩⟩
  | some [], r, s, hx, hr, hs =>
    refine ⟨0, fun fuel _ => ⟨fun _ => .inr (.inl rfl), fun _ => ?_⟩⟩
    simp only [verify, k.getP, k.getG, k.getQ, k.getE, hx, Out.bind_ok, List.length_nil, if_true]
  | some (a :: x), none, s, hx, hr, hs =>
    refine ⟨0, fun fuel _ => ⟨fun _ => .inr (.inr (.inl rfl)), fun _ => ?_⟩⟩
    simp only [verify, k.getP, k.getG, k.getQ, k.getE, hx, hr, Out.bind_ok, List.length_cons, Nat.add_eq_zero_iff, Nat.one_ne_zero, and_false,
      if_false]
  | some (a :: x), some r, none, hx, hr, hs =>
    refine ⟨0, fun fuel _ => ⟨fun _ => .inr (.inr (.inr rfl)), fun _ => ?_⟩⟩
    simp only [verify, k.getP, k.getG, k.getQ, k.getE, hx, hr, hs, Out.bind_ok, List.length_cons, Nat.add_eq_zero_iff, Nat.one_ne_zero,
      and_false, if_false]
  | some (a :: x), some r, some s, hx, hr, hs =>
    obtain ⟨o, -, h⟩ := dsa_verdict_partial hw hh k ⟨hx, by simp, hr, hs⟩ hp hodd
    refine ⟨val s.data + val q.data + 1, fun fuel hf => ⟨fun hu => ?_, fun hc => by simp at hc⟩⟩
    rw [h fuel hf] at hu
    cases hu

/-- The verifying task of the library judges every complete document. -/
theorem dsa_task_verdict_partial (hw : w = 32 ∨ w = 64) {hash : HashFn} (hh : Digests hash) (t : TaskCheck.Task) (ht : t.cipher = .dsa)
    {key doc x : Bytes} {p q g e r s : Num w} (hk : t.key = some key) (hi : t.inp = some doc) (hi0 : doc ≠ []) (hk0 : key ≠ [])
    (k : Pub w key p q g e) (d : Doc w doc x r s) (hp : val p.data ≠ 0) (hodd : val q.data % 2 = 1) (hg : val g.data ≠ 0) :
    ∃ o, Judged x o ∧ ∀ fuel, val s.data + val q.data < fuel → verifyTask w hash fuel t = .ok (some o) := by
  obtain ⟨o, ho, h⟩ := dsa_verdict_partial hw hh k d hp hodd
  refine ⟨o, ho, fun fuel hf => ?_⟩
  rw [verifyTask_eq (by rcases hw with rfl | rfl <;> decide) hash fuel t ht hk hi hi0 hk0 k hp (by omega) hg]
  exact h fuel hf

/-- The hypotheses are met: numbers that no signer makes, an `R` above the modulus and an `S` that is the order, are judged. -/
example : ∃ pub doc o, Judged (ascii "pay") o ∧ ∀ fuel, 11 + 11 < fuel → verify 64 Rsa.sumHash fuel pub doc = .ok (some o) := by
  obtain ⟨pub, priv, e, -, k⟩ := sample
  obtain ⟨-, doc, -, -, -, d⟩ := doc_put (.inr rfl) (ascii "pay") (by decide) (⟨[100, 7], false⟩ : Num 64) ⟨[11], false⟩ (by simp) (by simp)
  obtain ⟨o, h1, h2⟩ := dsa_verdict_partial (.inr rfl) (hash := Rsa.sumHash) (fun x _ => ⟨_, sumHash_run x, by simp⟩) k.isPub d (by decide)
    (by decide)
  exact ⟨pub, doc, o, h1, h2⟩

/-- The hypotheses of the characterisation are met, and its right side holds for a document that is just a text: the public key is
good, and verification reads what was never set. -/
example : ∃ pub, ∃ f0, ∀ fuel, f0 ≤ fuel → verify 64 Rsa.sumHash fuel pub (ascii "no signature") = .ub := by
  obtain ⟨pub, priv, e, -, k⟩ := sample
  obtain ⟨f0, h⟩ := dsa_verify_ub_iff (.inr rfl) (hash := Rsa.sumHash) (fun x _ => ⟨_, sumHash_run x, by simp⟩) k.isPub (by decide) (by decide)
    (doc := ascii "no signature") (x := none) (r := none) (s := none) (by decide +kernel) (by decide +kernel) (by decide +kernel)
  exact ⟨pub, f0, fun fuel hf => (h fuel hf).2 (.inl rfl)⟩

end Kryptos.Dsa

namespace Kryptos.Ecdsa
open Mp Spec.Mp Sig Ec Hash
open Rsa (Res getMp putMps getMp_spec num)
open Dsa (hashNum inverse getMp_is)

variable {w : Nat}

/-- Every complete document is judged, whatever its numbers are, and whether or not the modulus is prime and the points are on the
curve. -/
theorem ecdsa_verdict (hw : w = 32 ∨ w = 64) {hash : HashFn} (hh : Dsa.Digests hash) {key doc x : Bytes} {c : Curve w} {q r s : Num w}
    {g b : Point w} (k : Pub w key c q g b) (d : Doc w doc x r s) (hs : Nat) (hsz : c.p.data.length * w ≤ hs * 8)
    (ho : val c.p.data % 2 = 1) (hP : 1 < val c.p.data) (hodd : val q.data % 2 = 1) :
    ∃ o f0, Judged x o ∧ ∀ fuel, f0 ≤ fuel → verify w hash hs fuel key doc = .ok (some o) := by
  have hw16 : 16 ≤ w := by rcases hw with rfl | rfl <;> decide
  have hw8 : 8 ≤ w := by omega
  have ip := getMp_is hw8 k.dom.getP
  have ia : Any c.a := ⟨_, getMp_is hw8 k.dom.getA⟩
  have iq := getMp_is hw8 k.dom.getQ
  have ig : AnyPt g := ⟨⟨_, getMp_is hw8 k.dom.getX⟩, ⟨_, getMp_is hw8 k.dom.getY⟩⟩
  have ib : AnyPt b := ⟨⟨_, getMp_is hw8 k.getBX⟩, ⟨_, getMp_is hw8 k.getBY⟩⟩
  have ir := getMp_is hw8 d.getR
  have is := getMp_is hw8 d.getS
  obtain ⟨v, ⟨V, v2⟩, v1⟩ := inverse_ends hw8 is iq hodd
  obtain ⟨dg, g1, g2⟩ := hh x d.xne
  obtain ⟨h, h1, h2⟩ := Dsa.hashNum_is (w := w) hw g1 g2
  have hQ : val q.data ≠ 0 := by omega
  obtain ⟨a, a1, a2⟩ := (v2.assignOpt hw8 none).mul hw8 h2
  obtain ⟨u1, U1, b1, b2, -⟩ := a2.modO hw16 iq hQ
  obtain ⟨e, e1, e2⟩ := (v2.assignOpt hw8 none).mul hw8 ir
  obtain ⟨u2, U2, d1, d2, -⟩ := e2.modO hw16 iq hQ
  obtain ⟨p1, f1, k1, j1⟩ := mul_any hw16 ip ia ho hP ig ⟨_, b2⟩
  obtain ⟨p2, f2, k2, j2⟩ := mul_any hw16 ip ia ho hP ib ⟨_, d2⟩
  obtain ⟨p3, f3, k3, -⟩ := add_any hw16 ip ia ho hP j1 j2
  refine ⟨if eq p3.x r then (.success, some x) else (.invalidSignature, none), val s.data + val q.data + 1 + f1 + f2 + f3, ?_, fun fuel hf => ?_⟩
  · by_cases hv : eq p3.x r = true <;> simp [Judged, hv]
  · rw [verify_run hw8 k d hsz]
    simp only [verifyWith, v1 fuel (by omega), Out.bind_ok, h1, a1, b1, e1, d1, verifyEnd, k1 fuel (by omega), k2 fuel (by omega),
      k3 fuel (by omega)]
    by_cases hv : eq p3.x r = true <;> simp [hv]

/-- A document in which a field is missing is an error. -/
theorem ecdsa_missing (hash : HashFn) (fuel : Nat) {key doc : Bytes} {c : Curve w} {q : Num w}
    {g b : Point w} (k : Pub w key c q g b) (hd : doc ≠ []) (hs : Nat) (hsz : c.p.data.length * w ≤ hs * 8) {x : Option Bytes}
    {r s : Option (Num w)} (hx : Pem.getData (some (ascii "ECDSA X")) (some doc) = .ok x) (hr : getMp w "ECDSA R" doc = .ok r)
    (hss : getMp w "ECDSA S" doc = .ok s) (hm : x = none ∨ x = some [] ∨ r = none ∨ s = none) :
    verify w hash hs fuel key doc = .ok (some (.processError, none)) := by
  have e1 : (doc.length = 0 || key.length = 0) = false := by simpa using ⟨hd, k.dom.ne⟩
  have e2 : ¬ hs * 8 < c.p.data.length * w := by omega
  rw [verify, e1, if_neg (by simp)]
  simp only [k.dom.getP, k.dom.getA, k.dom.getB, k.dom.getQ, k.dom.getX, k.dom.getY, k.getBX, k.getBY, hx, hr, hss, Out.bind_ok, e2, if_false]
  match x, r, s, hm with
  | _, none, _, _ => rfl
  | _, some _, none, _ => rfl
  | none, some _, some _, _ => rfl
  | some [], some _, some _, _ => rfl

/-- The hypotheses are met: an `R` of two digits and an `S` that is the order are judged. -/
example : ∃ pub doc o f0, Judged (ascii "pay") o ∧ ∀ fuel, f0 ≤ fuel → verify 32 Rsa.sumHash 4 fuel pub doc = .ok (some o) := by
  obtain ⟨pub, priv, b, k⟩ := sample
  obtain ⟨-, doc, -, -, d⟩ := doc_put (w := 32) (.inl rfl) (ascii "pay") (by decide) (r := ⟨[100, 7], false⟩) (s := ⟨[19], false⟩)
    ⟨by decide, rfl, rfl⟩ ⟨by decide, rfl, rfl⟩
  obtain ⟨o, f0, h1, h2⟩ := ecdsa_verdict (.inl rfl) (hash := Rsa.sumHash) (fun x _ => ⟨_, Dsa.sumHash_run x, by simp⟩) k.isPub d 4 (by decide)
    (by decide) (by decide) (by decide)
  exact ⟨pub, doc, o, f0, h1, h2⟩

end Kryptos.Ecdsa

namespace Kryptos.Rsa
open Mp Spec.Mp Sig Hash

/-- Plain RSA judges every complete document. -/
theorem rsa_verdict {w : Nat} (hw : w = 32 ∨ w = 64) {key doc : Bytes} {n e x s : Num w} (hN : getMp w "RSA PARAM N" key = .ok (some n))
    (hE : getMp w "RSA PARAM E" key = .ok (some e)) (hX : getMp w "RSA PARAM X" doc = .ok (some x))
    (hS : getMp w "RSA PARAM S" doc = .ok (some s)) (hn0 : val n.data ≠ 0) :
    ∃ o, Judged (asTaskOut x) o ∧ verify w none key doc = .ok o := by
  obtain ⟨xp, -, -, h⟩ := verify_eq hw hN hE hX hS hn0
  rw [h]
  split
  · exact ⟨_, .inl rfl, rfl⟩
  · exact ⟨_, .inr rfl, rfl⟩

/-- A document in which a field is missing is an error, with PSS as well. -/
theorem rsa_missing (w : Nat) (pss : Option Pss) (key : Bytes) {doc : Bytes} {x s : Option (Num w)} (hX : getMp w "RSA PARAM X" doc = .ok x)
    (hS : getMp w "RSA PARAM S" doc = .ok s) (hm : x = none ∨ s = none) : verify w pss key doc = .ok (.processError, none) := by
  rw [verify, hX, Out.bind_ok]
  match x, s, hm with
  | none, _, _ => rfl
  | some x, none, _ => simp only [hS, Out.bind_ok]; rfl

/-- PSS verification is defined for every block, whatever is in it. -/
theorem pssVerify_ends {hash : HashFn} {H : Bytes → Bytes} {h : Nat} (hh : Oaep.HashOk hash H h) (m em : Bytes) (k s : Nat)
    (hm : m.length < 2 ^ 61) (he : em.length < 2 ^ 60) (hs : h + s + 2 < 2 ^ 64) : ∃ b, Oaep.pssVerify hash h m em k s = .ok b := by
  rw [Oaep.pssVerify]
  split
  · exact ⟨_, rfl⟩
  rw [if_neg (by omega)]
  split
  · exact ⟨_, rfl⟩
  next hle =>
  split
  · exact ⟨_, rfl⟩
  rw [hh.runHash m hm, Out.bind_ok]
  simp only
  rw [if_neg (show ¬ (H m).length ≠ h by rw [hh.len]; simp)]
  split
  · exact ⟨_, rfl⟩
  have hl1 : ((em.drop (em.length - h - 1)).take h).length < 2 ^ 60 := by
    rw [List.length_take, List.length_drop]
    omega
  rw [Oaep.mgf_spec hh _ hl1, Out.bind_ok]
  simp only
  have hdb : (if 0 < em.length - s - h - 2 then [0#8] ++ (Oaep.xorB (Spec.Pkcs1.mgf1 H h ((em.drop (em.length - h - 1)).take h)
      (em.length - h - 1)) (em.take (em.length - h - 1))).drop 1 else Oaep.xorB (Spec.Pkcs1.mgf1 H h
      ((em.drop (em.length - h - 1)).take h) (em.length - h - 1)) (em.take (em.length - h - 1))).length ≤ em.length + 1 := by
    have hx : (Oaep.xorB (Spec.Pkcs1.mgf1 H h ((em.drop (em.length - h - 1)).take h) (em.length - h - 1))
        (em.take (em.length - h - 1))).length ≤ em.length := by
      rw [Oaep.xorB, List.length_zipWith, List.length_take]
      omega
    split
    · rw [List.length_append, List.length_drop, List.length_singleton]
      omega
    · omega
  generalize (if 0 < em.length - s - h - 2 then [0#8] ++ (Oaep.xorB (Spec.Pkcs1.mgf1 H h ((em.drop (em.length - h - 1)).take h)
      (em.length - h - 1)) (em.take (em.length - h - 1))).drop 1 else Oaep.xorB (Spec.Pkcs1.mgf1 H h
      ((em.drop (em.length - h - 1)).take h) (em.length - h - 1)) (em.take (em.length - h - 1))) = db at hdb ⊢
  split
  · exact ⟨_, rfl⟩
  split
  · exact ⟨_, rfl⟩
  have hl2 : (List.replicate 8 0#8 ++ H m ++ db.drop (db.length - s)).length < 2 ^ 61 := by
    rw [List.length_append, List.length_append, List.length_replicate, hh.len, List.length_drop]
    omega
  rw [hh.runHash _ hl2, Out.bind_ok]
  simp only
  split <;> exact ⟨_, rfl⟩

/-- RSA with PSS judges every complete document. -/
theorem rsa_pss_verdict {w : Nat} (hw : w = 32 ∨ w = 64) {key doc : Bytes} {n e x s : Num w} (hN : getMp w "RSA PARAM N" key = .ok (some n))
    (hE : getMp w "RSA PARAM E" key = .ok (some e)) (hX : getMp w "RSA PARAM X" doc = .ok (some x))
    (hS : getMp w "RSA PARAM S" doc = .ok (some s)) (hn0 : val n.data ≠ 0) {hash : HashFn} {H : Bytes → Bytes} {h : Nat}
    (hh : Oaep.HashOk hash H h) (salt : Option Bytes) (ss : Nat) (hx : (asTaskOut x).length < 2 ^ 61)
    (hp : ∀ xp, meModN s e n = .ok (some xp) → (asTaskOut xp).length < 2 ^ 60) (hs : h + ss + 2 < 2 ^ 64) :
    ∃ o, Judged (asTaskOut x) o ∧ verify w (some ⟨hash, h, salt, ss⟩) key doc = .ok o := by
  obtain ⟨xp, c1, -, -⟩ := verify_eq hw hN hE hX hS hn0
  obtain ⟨b, hb⟩ := pssVerify_ends hh (asTaskOut x) (asTaskOut xp) (n.data.length * w) ss hx (hp xp c1) hs
  rw [verify, hX, Out.bind_ok]
  simp only [hS, Out.bind_ok, hE, hN, c1, hb]
  cases b
  · exact ⟨_, .inr rfl, rfl⟩
  · exact ⟨_, .inl rfl, rfl⟩

/-- With a modulus of one digit the block is one digit. -/
theorem block_short {w : Nat} (hw : w = 32 ∨ w = 64) {s e n : Num w} (he : e.data ≠ []) (hn : n.neg = false) (hn0 : val n.data ≠ 0)
    (h1 : n.data.length = 1) (xp : Num w) (h : meModN s e n = .ok (some xp)) : (asTaskOut xp).length < 2 ^ 60 := by
  have hw16 : 16 ≤ w := by rcases hw with rfl | rfl <;> decide
  obtain ⟨r, c1, -, c3⟩ := me_single_digit hw16 s e n he hn hn0 h1
  obtain rfl : xp = r := Option.some.inj (Out.ok.inj (h.symm.trans c1))
  have hN := me_normed hw16 _ _ _ _ hn hn0 h
  have hlt := val_lt n.data
  rw [h1, Nat.mul_one] at hlt
  have hv : val xp.data < 2 ^ w := by
    rw [c3]
    exact lt_trans (Nat.mod_lt _ (Nat.pos_of_ne_zero hn0)) hlt
  have hs : sig xp.data ≤ 1 := by
    by_contra hc
    have h2 := sig_pos_le xp.data (by omega)
    have h3 : 2 ^ w ≤ 2 ^ (w * (sig xp.data - 1)) := Nat.pow_le_pow_right (by decide) (Nat.le_mul_of_pos_right w (by omega))
    omega
  have hl : xp.data.length = 1 := by
    rw [hN]
    omega
  obtain ⟨a, ha⟩ := List.length_eq_one_iff.1 hl
  rw [asTaskOut, ha]
  rcases hw with rfl | rfl <;> simp

/-- A document with any two numbers. -/
theorem any_doc {w : Nat} (hw : w = 32 ∨ w = 64) (x s : Digits w) (hx : x ≠ []) (hs : s ≠ []) :
    ∃ doc, getMp w "RSA PARAM X" doc = .ok (some ⟨x, false⟩) ∧ getMp w "RSA PARAM S" doc = .ok (some ⟨s, false⟩) := by
  obtain ⟨pem, -, -, p3⟩ := putMps_get hw [("RSA PARAM X", ⟨x, false⟩), ("RSA PARAM S", ⟨s, false⟩)] (by simp)
    (by simp [gX, gS, hs, hx]) (by simp only [List.map_cons, List.map_nil]; decide +kernel)
  exact ⟨pem, p3 ("RSA PARAM X", ⟨x, false⟩) (by simp), p3 ("RSA PARAM S", ⟨s, false⟩) (by simp)⟩

/-- The hypotheses are met: a signature above the modulus is judged, with and without PSS. -/
example : ∃ pub doc o o' x, Judged x o ∧ Judged x o' ∧ verify 64 none pub doc = .ok o ∧ verify 64 (some ⟨sumHash, 1, none, 3⟩) pub doc = .ok o' := by
  obtain ⟨pub, priv, -, -, k⟩ := small_key
  obtain ⟨doc, dx, ds⟩ := any_doc (w := 64) (.inr rfl) [7, 1] [4000] (by decide) (by decide)
  obtain ⟨o, h1, h2⟩ := rsa_verdict (.inr rfl) k.pubN k.pubE dx ds k.ne_zero
  obtain ⟨o', h3, h4⟩ := rsa_pss_verdict (.inr rfl) k.pubN k.pubE dx ds k.ne_zero sumHash_ok none 3 (by simp [asTaskOut])
    (block_short (.inr rfl) (by decide) rfl k.ne_zero rfl) (by norm_num)
  exact ⟨pub, doc, o, o', _, h1, h3, h2, h4⟩

end Kryptos.Rsa
