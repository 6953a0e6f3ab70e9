import Verif.Props.Ecdh
import Verif.Props.Dsa
import Verif.Lemmas.EcJac
import Verif.Model.Ecdsa
/-
  ECDSA (C54, C98).
-/
namespace Kryptos.Ecdsa
open Mp Spec.Mp Ec Hash
open Hmac (runHash)
open Rsa (Res getMp putMps getMp_spec num)
open Ecdh (CurveCtx getRandomD xOf num_eta pt_eta mul_zero)
open Dsa (hashNum inverse getMp_is hashNum_is inverse_is Digests)

variable {w : Nat}

theorem gP : Pem.Good (ascii "ECDSA P") := by refine ⟨?_, ?_, ?_, ?_, ?_⟩ <;> decide +kernel
theorem gA : Pem.Good (ascii "ECDSA A") := by refine ⟨?_, ?_, ?_, ?_, ?_⟩ <;> decide +kernel
theorem gB : Pem.Good (ascii "ECDSA B") := by refine ⟨?_, ?_, ?_, ?_, ?_⟩ <;> decide +kernel
theorem gQ : Pem.Good (ascii "ECDSA Q") := by refine ⟨?_, ?_, ?_, ?_, ?_⟩ <;> decide +kernel
theorem gAX : Pem.Good (ascii "ECDSA A X") := by refine ⟨?_, ?_, ?_, ?_, ?_⟩ <;> decide +kernel
theorem gAY : Pem.Good (ascii "ECDSA A Y") := by refine ⟨?_, ?_, ?_, ?_, ?_⟩ <;> decide +kernel
theorem gBX : Pem.Good (ascii "ECDSA B X") := by refine ⟨?_, ?_, ?_, ?_, ?_⟩ <;> decide +kernel
theorem gBY : Pem.Good (ascii "ECDSA B Y") := by refine ⟨?_, ?_, ?_, ?_, ?_⟩ <;> decide +kernel
theorem gD : Pem.Good (ascii "ECDSA D") := by refine ⟨?_, ?_, ?_, ?_, ?_⟩ <;> decide +kernel
theorem gX : Pem.Good (ascii "ECDSA X") := by refine ⟨?_, ?_, ?_, ?_, ?_⟩ <;> decide +kernel
theorem gR : Pem.Good (ascii "ECDSA R") := by refine ⟨?_, ?_, ?_, ?_, ?_⟩ <;> decide +kernel
theorem gS : Pem.Good (ascii "ECDSA S") := by refine ⟨?_, ?_, ?_, ?_, ?_⟩ <;> decide +kernel

/-! ## Documents -/

/-- A signature: the message and two numbers. -/
structure Doc (w : Nat) (doc x : Bytes) (r s : Num w) : Prop where
  ne : doc ≠ []
  getX : Pem.getData (some (ascii "ECDSA X")) (some doc) = .ok (some x)
  xne : x ≠ []
  getR : getMp w "ECDSA R" doc = .ok (some r)
  getS : getMp w "ECDSA S" doc = .ok (some s)

/-- The part that both keys have: the curve, the order and the generator. -/
structure Domain (w : Nat) (key : Bytes) (c : Curve w) (q : Num w) (g : Point w) : Prop where
  ne : key ≠ []
  getP : getMp w "ECDSA P" key = .ok (some c.p)
  getA : getMp w "ECDSA A" key = .ok (some c.a)
  getB : getMp w "ECDSA B" key = .ok (some c.b)
  getQ : getMp w "ECDSA Q" key = .ok (some q)
  getX : getMp w "ECDSA A X" key = .ok (some g.x)
  getY : getMp w "ECDSA A Y" key = .ok (some g.y)

/-- A public key. -/
structure Pub (w : Nat) (key : Bytes) (c : Curve w) (q : Num w) (g b : Point w) : Prop where
  dom : Domain w key c q g
  getBX : getMp w "ECDSA B X" key = .ok (some b.x)
  getBY : getMp w "ECDSA B Y" key = .ok (some b.y)

/-- A private key. -/
structure Priv (w : Nat) (key : Bytes) (c : Curve w) (q : Num w) (g : Point w) (d : Num w) : Prop where
  dom : Domain w key c q g
  getD : getMp w "ECDSA D" key = .ok (some d)

theorem doc_put (hw : w = 32 ∨ w = 64) (x : Bytes) (hx : x ≠ []) {r s : Num w} {R S : Nat} (hr : Is r R) (hs : Is s S) :
    ∃ o doc, Pem.putData true none (some (ascii "ECDSA X")) (some x) = .ok (.success, o) ∧
      putMps o [("ECDSA R", r), ("ECDSA S", s)] = .ok (.success, some doc) ∧ Doc w doc x r s := by
  obtain ⟨o, doc, d1, d2, d3, d4, d5, -⟩ := Rsa.putData_putMps_get hw "ECDSA X" x hx [("ECDSA R", r), ("ECDSA S", s)] gX
    (by
      simp only [List.mem_cons, List.not_mem_nil, or_false, forall_eq_or_imp, forall_eq]
      exact ⟨⟨gR, hr.ne_nil⟩, ⟨gS, hs.ne_nil⟩⟩) (by simp only [List.map_cons, List.map_nil]; decide +kernel)
  have h1 := d5 ("ECDSA R", r) (by simp)
  have h2 := d5 ("ECDSA S", s) (by simp)
  rw [num_eta hr] at h1
  rw [num_eta hs] at h2
  exact ⟨o, doc, d1, d2, d3, d4, hx, h1, h2⟩

theorem set_curve (hw : 8 ≤ w) {key : Bytes} {c : Curve w} {q : Num w} {g : Point w} (k : Domain w key c q g) :
    setCurve c.a c.b c.p = c ∧ setPoint g.x g.y = g := by
  constructor
  · rw [setCurve, assign_none_eq hw _ (getMp_is hw k.getA).1, assign_none_eq hw _ (getMp_is hw k.getB).1,
      assign_none_eq hw _ (getMp_is hw k.getP).1]
  · exact pt_eta hw (getMp_is hw k.getX) (getMp_is hw k.getY)

/-- Verification once all numbers are read. -/
theorem verify_run (hw : 8 ≤ w) {hash : HashFn} {hs fuel : Nat} {key doc x : Bytes} {c : Curve w} {q r s : Num w} {g b : Point w}
    (k : Pub w key c q g b) (d : Doc w doc x r s) (hsz : c.p.data.length * w ≤ hs * 8) :
    verify w hash hs fuel key doc = verifyWith hash fuel c q g b r s x := by
  obtain ⟨e1, e2⟩ := set_curve hw k.dom
  have e3 : setPoint b.x b.y = b := pt_eta hw (getMp_is hw k.getBX) (getMp_is hw k.getBY)
  have h1 : (doc.length = 0 || key.length = 0) = false := by simpa using ⟨d.ne, k.dom.ne⟩
  have h2 : ¬ hs * 8 < c.p.data.length * w := by omega
  have h3 : ¬ x.length = 0 := by simpa using d.xne
  rw [verify, h1, if_neg (by simp)]
  simp only [k.dom.getP, k.dom.getA, k.dom.getB, k.dom.getQ, k.dom.getX, k.dom.getY, k.getBX, k.getBY, d.getX, d.getR, d.getS, Out.bind_ok,
    h2, h3, if_false, e1, e2, e3]

/-- Signing once all numbers are read. -/
theorem sign_run (hw : 8 ≤ w) {hash : HashFn} {hs fuel : Nat} {rnd : Nat → Byte} {key x : Bytes} {c : Curve w} {q d ke : Num w} {g : Point w}
    (k : Priv w key c q g d) (hx : x ≠ []) (hsz : c.p.data.length * w ≤ hs * 8)
    (hke : getRandomD rnd fuel q (c.p.data.length * w) = .ok (some ke)) :
    sign w hash hs rnd fuel key x = signWith hash fuel ⟨c.p.data.length * w, c, q, g⟩ d ke x := by
  obtain ⟨e1, e2⟩ := set_curve hw k.dom
  have h1 : (x.length = 0 || key.length = 0) = false := by simpa using ⟨hx, k.dom.ne⟩
  have h2 : ¬ hs * 8 < c.p.data.length * w := by omega
  rw [sign, h1, if_neg (by simp)]
  simp only [k.dom.getP, k.dom.getA, k.dom.getB, k.dom.getQ, k.dom.getX, k.dom.getY, k.getD, Out.bind_ok, h2, if_false, hke, e1, e2]

/-! ## Forgery -/

/-- A multiplication by zero. -/
theorem mul_by_zero (hw : 8 ≤ w) (fuel : Nat) (p : Point w) {u : Num w} (hu : Is u 0) (c : Curve w) :
    ∃ s, Ec.mul fuel p u c = .ok (some s) ∧ Is s.x 0 ∧ Is s.y 0 :=
  ⟨_, by rw [Ec.mul, hu.eq is_zero, decide_eq_true rfl]; rfl, is_zero.assignOpt hw none, is_zero.assignOpt hw none⟩

/-- The sum of two pairs of zeros. -/
theorem add_zeros (hw : 16 ≤ w) {P A : Nat} {c : Curve w} (hp : Is c.p P) (ha : Is c.a A) (hodd : P % 2 = 1) (hP : 1 < P) (fuel : Nat)
    {p q : Point w} (h1 : Is p.x 0) (h2 : Is p.y 0) (h3 : Is q.x 0) (h4 : Is q.y 0) :
    ∃ s, Ec.add fuel p q c = .ok (some s) ∧ Is s.x 0 := by
  have hw8 : 8 ≤ w := by omega
  have : NeZero P := ⟨by omega⟩
  have hz := is_zero (w := w)
  have hfit : Fits c P A 1 := ⟨hp, ha, hodd, by
    rw [Ne, ZMod.natCast_eq_zero_iff, Nat.dvd_one]
    omega⟩
  have hsm : RedFine w c.p (0 : Nat) := redFine_small _ (by omega) (by rw [hp.2.2]; omega)
  obtain ⟨u, u1, u2, u3⟩ := ptModP_run hw hfit hP h1 h2 hsm hsm
  obtain ⟨v, v1, v2, v3⟩ := ptModP_run hw hfit hP h3 h4 hsm hsm
  rw [Nat.cast_zero, ZMod.val_zero] at u2 u3 v2 v3
  refine ⟨setPoint v.x v.y, ?_, v2.assignOpt hw8 none⟩
  rw [Ec.add, u1, Out.bind_ok]
  simp only [v1, Out.bind_ok]
  rw [addReduced, u2.eq hz, u3.eq hz]
  rfl

/-- A signature whose second number is zero is accepted when the first one is zero, and refused otherwise, whatever the message and the
key are. -/
theorem verifyWith_zero (hw : w = 32 ∨ w = 64) {hash : HashFn} {x dg : Bytes} (hdg : runHash hash x = .ok (some dg)) (hd0 : dg ≠ [])
    {P A Q R : Nat} {c : Curve w} {q r s : Num w} (g b : Point w) (hp : Is c.p P) (ha : Is c.a A) (ho : P % 2 = 1) (hP : 1 < P) (hq : Is q Q)
    (hodd : Q % 2 = 1) (hQ : 1 < Q) (hr : Is r R) (hs : Is s 0) (fuel : Nat) (hf : Q < fuel) :
    verifyWith hash fuel c q g b r s x = .ok (some (if R = 0 then (.success, some x) else (.invalidSignature, none))) := by
  have hw16 : 16 ≤ w := by rcases hw with rfl | rfl <;> decide
  have hw8 : 8 ≤ w := by omega
  obtain ⟨v, V, v1, v2, -, -, v3⟩ := inverse_is hw8 hs hq hodd fuel (by omega)
  obtain rfl := v3 (by rw [Nat.gcd_zero_left]; omega)
  obtain ⟨h, h1, h2⟩ := hashNum_is (w := w) hw hdg hd0
  obtain ⟨a1, a2, a3⟩ := (v2.assignOpt hw8 none).mul hw8 h2
  obtain ⟨b1, b2, b3⟩ := (v2.assignOpt hw8 none).mul hw8 hr
  rw [Nat.zero_mul] at a3 b3
  obtain ⟨u1, U1, c1, c2, -, c3⟩ := a3.modO hw16 hq (by omega)
  obtain ⟨u2, U2, d1, d2, -, d3⟩ := b3.modO hw16 hq (by omega)
  rw [c3 (.inl (by rw [hq.2.2]; omega)), Nat.zero_mod] at c2
  rw [d3 (.inl (by rw [hq.2.2]; omega)), Nat.zero_mod] at d2
  obtain ⟨y, y1, y2, y3⟩ := mul_by_zero hw8 fuel g c2 c
  obtain ⟨z, z1, z2, z3⟩ := mul_by_zero hw8 fuel b d2 c
  obtain ⟨t, t1, t2⟩ := add_zeros hw16 hp ha ho hP fuel y2 y3 z2 z3
  simp only [verifyWith, v1, h1, a2, c1, b2, d1, Out.bind_ok, verifyEnd, y1, z1, t1, t2.eq hr]
  by_cases h0 : R = 0
  · subst h0
    simp
  · simp [h0, Ne.symm h0]

/-- **C98** is violated: a document with two zeros is accepted as the signature of every message, under every public key with an odd
modulus and an odd order. -/
theorem ecdsa_forgery (hw : w = 32 ∨ w = 64) {hash : HashFn} (hh : Digests hash) {key doc x : Bytes} {c : Curve w} {q r s : Num w}
    {g b : Point w} (k : Pub w key c q g b) (d : Doc w doc x r s) (hs : Nat) (hsz : c.p.data.length * w ≤ hs * 8) (hp : 1 < val c.p.data)
    (hpo : val c.p.data % 2 = 1) (hq : 1 < val q.data) (hqo : val q.data % 2 = 1) (hr0 : val r.data = 0) (hs0 : val s.data = 0) (fuel : Nat)
    (hf : val q.data < fuel) : verify w hash hs fuel key doc = .ok (some (.success, some x)) := by
  have hw8 : 8 ≤ w := by rcases hw with rfl | rfl <;> decide
  obtain ⟨dg, g1, g2⟩ := hh x d.xne
  have ir := getMp_is hw8 d.getR
  have is := getMp_is hw8 d.getS
  rw [hr0] at ir
  rw [hs0] at is
  rw [verify_run hw8 k d hsz, verifyWith_zero hw g1 g2 g b (getMp_is hw8 k.dom.getP) (getMp_is hw8 k.dom.getA) hpo hp
    (getMp_is hw8 k.dom.getQ) hqo hq ir is fuel hf]
  rfl

/-- Such a document exists for every message; it depends on nothing else. -/
theorem ecdsa_forgery_doc (hw : w = 32 ∨ w = 64) (x : Bytes) (hx : x ≠ []) :
    ∃ doc, Doc w doc x zero zero ∧ ∀ (hash : HashFn), Digests hash → ∀ (key : Bytes) (c : Curve w) (q : Num w) (g b : Point w),
      Pub w key c q g b → ∀ hs, c.p.data.length * w ≤ hs * 8 → 1 < val c.p.data → val c.p.data % 2 = 1 → 1 < val q.data →
      val q.data % 2 = 1 → ∀ fuel, val q.data < fuel → verify w hash hs fuel key doc = .ok (some (.success, some x)) := by
  obtain ⟨o, doc, -, -, d⟩ := doc_put hw x hx (is_zero (w := w)) (is_zero (w := w))
  exact ⟨doc, d, fun hash hh key c q g b k hs hsz hp hpo hq hqo fuel hf =>
    ecdsa_forgery hw hh k d hs hsz hp hpo hq hqo is_zero.2.2 is_zero.2.2 fuel hf⟩

/-! ## Signing and verifying -/

variable {P A B : Nat}

/-- Two keys that belong together, on a curve over a prime field, with a generator of prime order. -/
structure KeyPair [Fact P.Prime] (w : Nat) (pub priv : Bytes) (c : Curve w) (q : Num w) (g b : Point w) (d : Num w) (G : (W P A B).Point) :
    Prop where
  isPub : Pub w pub c q g b
  isPriv : Priv w priv c q g d
  fits : Fits c P A B
  gen : Rep g G
  prime : (val q.data).Prime
  odd : val q.data % 2 = 1
  order : val q.data • G = 0
  match_ : Rep b (val d.data • G)

theorem nsmul_congr [Fact P.Prime] {G : (W P A B).Point} {Q a b : Nat} (h : Q • G = 0) (hab : a ≡ b [MOD Q]) : a • G = b • G := by
  have key : ∀ n : Nat, n • G = (n % Q) • G := by
    intro n
    conv_lhs => rw [← Nat.mod_add_div n Q, add_smul, Nat.mul_comm, mul_smul, h, nsmul_zero, add_zero]
  rw [key a, key b, hab]

/-- The divisions of signing and verifying do not meet an overflow of the guess: `KI` is the inverse of the ephemeral key, `V` the one of
the second number of the signature. -/
structure Fine [Fact P.Prime] (c : Curve w) (q : Num w) (G : (W P A B).Point) (D KE H KI V : Nat) : Prop where
  ke : MulFine c.p KE G
  s : DivFine w q ((H + D * xOf (KE • G)) * KI)
  u1 : DivFine w q (V * H)
  u2 : DivFine w q (V * xOf (KE • G))
  mul1 : MulFine c.p (V * H % val q.data) G
  mul2 : MulFine c.p (V * xOf (KE • G) % val q.data) (D • G)
  add : AddFineP c.p ((V * H % val q.data) • G) ((V * xOf (KE • G) % val q.data) • (D • G))

theorem signWith_run (hw : w = 32 ∨ w = 64) [Fact P.Prime] {hash : HashFn} {fuel : Nat} {e : CurveCtx w} {d ke : Num w} {Q D KE : Nat}
    {G : (W P A B).Point} (hfit : Fits e.ec P A B) (hg : Rep e.g G) (hq : Is e.q Q) (hd : Is d D) (hk : Is ke KE) (hQ : Q ≠ 0) (hodd : Q % 2 = 1)
    (hfu : 3 * P < fuel) (hfq : KE + Q < fuel) {x dg : Bytes} (hx : x ≠ []) (hdg : runHash hash x = .ok (some dg)) (hd0 : dg ≠ [])
    (hf : MulFine e.ec.p KE G) (hne : num dg + D * xOf (KE • G) ≠ 0) :
    ∃ r s S KI doc, Is r (xOf (KE • G)) ∧ Is s S ∧ KI < Q ∧ (Nat.gcd KE Q = 1 → KE * KI ≡ 1 [MOD Q]) ∧
      S ≡ (num dg + D * xOf (KE • G)) * KI [MOD Q] ∧
      (DivFine w e.q ((num dg + D * xOf (KE • G)) * KI) → S = (num dg + D * xOf (KE • G)) * KI % Q) ∧
      Doc w doc x r s ∧ signWith hash fuel e d ke x = .ok (some (.success, some doc)) := by
  have hw16 : 16 ≤ w := by rcases hw with rfl | rfl <;> decide
  have hw8 : 8 ≤ w := by omega
  obtain ⟨r, r1, r2⟩ := ec_mul_partial hw16 hfit G hg hk hf fuel hfu
  obtain ⟨v, V, v1, v2, v3, v4, -⟩ := inverse_is hw8 hk hq hodd fuel hfq
  obtain ⟨t, t1, t2⟩ := hd.mul hw8 r2.isX
  obtain ⟨h, h1, h2⟩ := hashNum_is (w := w) hw hdg hd0
  obtain ⟨u, u1, u2⟩ := h2.add hw8 t2 hne
  obtain ⟨y, y1, y2⟩ := u2.mul hw8 v2
  obtain ⟨s, S, s1, s2, s3, s4⟩ := y2.modO hw16 hq hQ
  obtain ⟨o, doc, d1, d2, d3⟩ := doc_put hw x hx r2.isX s2
  refine ⟨r.x, s, S, V, doc, r2.isX, s2, v3, v4, s3, s4, d3, ?_⟩
  simp only [signWith, r1, v1, t1, h1, u1, y1, s1, d1, d2, Out.bind_ok, ne_eq, not_true_eq_false, if_false, Out.pure_eq]

/-- **C54** for ECDSA, the part proved for every prime: what is signed verifies, provided that the second number of the signature is not
zero and that the divisions do not meet an overflow of the guess. -/
theorem ecdsa_sign_verify_partial (hw : w = 32 ∨ w = 64) [Fact P.Prime] {hash : HashFn} {x dg : Bytes} (hx : x ≠ [])
    (hdg : runHash hash x = .ok (some dg)) (hd0 : dg ≠ []) {pub priv : Bytes} {c : Curve w} {q d : Num w} {g b : Point w}
    {G : (W P A B).Point} (k : KeyPair w pub priv c q g b d G) (hs : Nat) (hsz : c.p.data.length * w ≤ hs * 8) (rnd : Nat → Byte)
    (fuel : Nat) (hfu : 3 * P < fuel) (hfq : 2 * val q.data < fuel) {ke : Num w}
    (hke : getRandomD rnd fuel q (c.p.data.length * w) = .ok (some ke)) {KI V : Nat}
    (hne : ¬ val q.data ∣ num dg + val d.data * xOf (val ke.data • G)) (hKI : KI < val q.data)
    (hKI' : val ke.data * KI ≡ 1 [MOD val q.data]) (hV : V < val q.data)
    (hV' : (num dg + val d.data * xOf (val ke.data • G)) * V ≡ val ke.data [MOD val q.data])
    (f : Fine c q G (val d.data) (val ke.data) (num dg) KI V) :
    ∃ doc, sign w hash hs rnd fuel priv x = .ok (some (.success, some doc)) ∧
      verify w hash hs fuel pub doc = .ok (some (.success, some x)) := by
  have hw16 : 16 ≤ w := by rcases hw with rfl | rfl <;> decide
  have hw8 : 8 ≤ w := by omega
  have iq := getMp_is hw8 k.isPub.dom.getQ
  have id := getMp_is hw8 k.isPriv.getD
  obtain ⟨ike, e1, e2⟩ := Ecdh.secretD_range_partial hw8 rnd fuel _ iq hke
  have hprime := k.prime
  have hodd := k.odd
  have horder := k.order
  obtain ⟨Q, hQ⟩ : ∃ Q, Q = val q.data := ⟨_, rfl⟩
  obtain ⟨D, hD⟩ : ∃ D, D = val d.data := ⟨_, rfl⟩
  obtain ⟨KE, hKE⟩ : ∃ KE, KE = val ke.data := ⟨_, rfl⟩
  obtain ⟨H, hH⟩ : ∃ H, H = num dg := ⟨_, rfl⟩
  have hQ1 := hprime.one_lt
  have cop : Nat.gcd (val ke.data) (val q.data) = 1 := (Nat.coprime_of_lt_prime (by omega) e2 hprime).symm
  obtain ⟨r, s, S, KI', doc, r1, s1, v1, v2, s2, s3, d1, d2⟩ := signWith_run (e := ⟨c.p.data.length * w, c, q, g⟩) hw k.fits k.gen iq id ike
    (by omega) hodd hfu (by omega) hx hdg hd0 f.ke (fun hz => hne (by rw [hz]; exact dvd_zero _))
  have hVI : KI' = KI := by
    have := Nat.ModEq.cancel_left_of_coprime (by rw [Nat.gcd_comm]; exact cop) ((v2 cop).trans hKI'.symm)
    exact Nat.ModEq.eq_of_lt_of_lt this v1 hKI
  subst hVI
  have hS : S < val q.data := by
    rw [s3 f.s]
    exact Nat.mod_lt _ (by omega)
  refine ⟨doc, by rw [sign_run hw8 k.isPriv hx hsz hke, d2], ?_⟩
  obtain ⟨R, hR⟩ : ∃ R, R = xOf (val ke.data • G) := ⟨_, rfl⟩
  have f2 := f.u2
  have f3 := f.mul1
  have f4 := f.mul2
  have f5 := f.add
  have f1 := f.u1
  rw [← hR] at r1 s2 hne hV' f2 f4 f5
  have hSV : S * V ≡ 1 [MOD val q.data] := by
    calc S * V ≡ (num dg + val d.data * R) * KI' * V [MOD val q.data] := s2.mul_right V
      _ = (num dg + val d.data * R) * V * KI' := by ring
      _ ≡ val ke.data * KI' [MOD val q.data] := hV'.mul_right KI'
      _ ≡ 1 [MOD val q.data] := hKI'
  have copS : Nat.gcd S (val q.data) = 1 := by
    have hns : ¬ val q.data ∣ S := by
      intro hdvd
      have h00 : S * V ≡ 0 [MOD val q.data] := (Nat.modEq_zero_iff_dvd).2 (hdvd.mul_right V)
      have := hSV.symm.trans h00
      rw [Nat.modEq_zero_iff_dvd, Nat.dvd_one] at this
      omega
    exact (Nat.Coprime.symm ((Nat.Prime.coprime_iff_not_dvd hprime).2 hns))
  obtain ⟨si, SI, i1, i2, i3, i4, -⟩ := inverse_is hw8 s1 iq hodd fuel (by omega)
  have hSI : SI = V := by
    have := Nat.ModEq.cancel_left_of_coprime (by rw [Nat.gcd_comm]; exact copS) ((i4 copS).trans hSV.symm)
    exact Nat.ModEq.eq_of_lt_of_lt this i3 hV
  subst hSI
  obtain ⟨h, h1, h2⟩ := hashNum_is (w := w) hw hdg hd0
  obtain ⟨a1, a2, a3⟩ := (i2.assignOpt hw8 none).mul hw8 h2
  obtain ⟨b1, b2, b3⟩ := (i2.assignOpt hw8 none).mul hw8 r1
  obtain ⟨u1, U1, c1, c2, -, c3⟩ := a3.modO hw16 iq (by omega)
  obtain ⟨u2, U2, x1, x2, -, x3⟩ := b3.modO hw16 iq (by omega)
  rw [c3 f1] at c2
  rw [x3 f2] at x2
  obtain ⟨y, y1, y2⟩ := ec_mul_partial hw16 k.fits G k.gen c2 f3 fuel hfu
  obtain ⟨z, z1, z2⟩ := ec_mul_partial hw16 k.fits _ k.match_ x2 f4 fuel hfu
  obtain ⟨t, t1, t2⟩ := ec_add_partial hw16 k.fits _ _ y2 z2 f5 fuel hfu
  have hsum : (SI * num dg % val q.data) • G + (SI * R % val q.data) • (val d.data • G) = val ke.data • G := by
    rw [← mul_smul, ← add_smul]
    refine nsmul_congr horder ?_
    calc SI * num dg % val q.data + SI * R % val q.data * val d.data ≡ SI * num dg + SI * R * val d.data [MOD val q.data] :=
          (Nat.mod_modEq _ _).add ((Nat.mod_modEq _ _).mul_right _)
      _ = (num dg + val d.data * R) * SI := by ring
      _ ≡ val ke.data [MOD val q.data] := hV'
  rw [hsum] at t2
  have ht := t2.isX
  rw [← hR] at ht
  rw [verify_run hw8 k.isPub d1 hsz]
  simp only [verifyWith, i1, h1, a2, c1, b2, x1, Out.bind_ok, verifyEnd, y1, z1, t1, ht.eq r1]
  simp

/-- **C54** for ECDSA with a prime and an order of one digit, without further conditions on the divisions. -/
theorem ecdsa_single_digit (hw : w = 32 ∨ w = 64) [Fact P.Prime] {hash : HashFn} {x dg : Bytes} (hx : x ≠ [])
    (hdg : runHash hash x = .ok (some dg)) (hd0 : dg ≠ []) {pub priv : Bytes} {c : Curve w} {q d : Num w} {g b : Point w}
    {G : (W P A B).Point} (k : KeyPair w pub priv c q g b d G) (hs : Nat) (hsz : c.p.data.length * w ≤ hs * 8)
    (hp1 : c.p.data.length = 1) (hq1 : q.data.length = 1) (rnd : Nat → Byte)
    (fuel : Nat) (hfu : 3 * P < fuel) (hfq : 2 * val q.data < fuel) {ke : Num w}
    (hke : getRandomD rnd fuel q (c.p.data.length * w) = .ok (some ke))
    (hne : ¬ val q.data ∣ num dg + val d.data * xOf (val ke.data • G)) :
    ∃ doc, sign w hash hs rnd fuel priv x = .ok (some (.success, some doc)) ∧
      verify w hash hs fuel pub doc = .ok (some (.success, some x)) := by
  have hw8 : 8 ≤ w := by rcases hw with rfl | rfl <;> decide
  have iq := getMp_is hw8 k.isPub.dom.getQ
  have hprime := k.prime
  have hQ1 := hprime.one_lt
  obtain ⟨ike, e1, e2⟩ := Ecdh.secretD_range_partial hw8 rnd fuel _ iq hke
  have inv : ∀ a, ¬ val q.data ∣ a → ∃ b < val q.data, a * b ≡ 1 [MOD val q.data] := by
    intro a ha
    obtain ⟨b, hb⟩ := Nat.exists_mul_mod_eq_one_of_coprime ((Nat.Prime.coprime_iff_not_dvd hprime).2 ha).symm hQ1
    refine ⟨b % val q.data, Nat.mod_lt _ (by omega), ?_⟩
    have : a * (b % val q.data) ≡ a * b [MOD val q.data] := (Nat.mod_modEq b _).mul_left a
    refine this.trans ?_
    rw [Nat.ModEq, hb.2, Nat.mod_eq_of_lt hQ1]
  obtain ⟨KI, k1, k2⟩ := inv (val ke.data) (fun h => by have := Nat.le_of_dvd (by omega) h; omega)
  obtain ⟨I, b1, b2⟩ := inv _ hne
  have hP := (Fact.out : P.Prime).ne_zero
  have hq' := divFine_single q (by omega) hq1
  have hst := fun D (Q : (W P A B).Point) => stepsFine_single k.fits.p hP hp1 (highBits D) Q
  exact ecdsa_sign_verify_partial hw hx hdg hd0 k hs hsz rnd fuel hfu hfq hke (V := I * val ke.data % val q.data) hne k1 k2 (Nat.mod_lt _ (by omega)) (by
      refine ((Nat.mod_modEq _ _).mul_left _).trans ?_
      rw [← Nat.mul_assoc]
      simpa using b2.mul_right (val ke.data))
    ⟨hst _ _ _, hq' _, hq' _, hq' _, hst _ _ _, hst _ _ _, addFineP_single k.fits.p hP hp1 _ _⟩

/-- **C54** is violated for ECDSA: a signature whose second number is zero is written by the code, and then refused. -/
theorem ecdsa_zero_refused (hw : w = 32 ∨ w = 64) [Fact P.Prime] {hash : HashFn} {x dg : Bytes} (hx : x ≠ [])
    (hdg : runHash hash x = .ok (some dg)) (hd0 : dg ≠ []) {pub priv : Bytes} {c : Curve w} {q d : Num w} {g b : Point w}
    {G : (W P A B).Point} (k : KeyPair w pub priv c q g b d G) (hs : Nat) (hsz : c.p.data.length * w ≤ hs * 8)
    (hp1 : c.p.data.length = 1) (hq1 : q.data.length = 1) (rnd : Nat → Byte)
    (fuel : Nat) (hfu : 3 * P < fuel) (hfq : 2 * val q.data < fuel) {ke : Num w}
    (hke : getRandomD rnd fuel q (c.p.data.length * w) = .ok (some ke))
    (hz : val q.data ∣ num dg + val d.data * xOf (val ke.data • G)) (hnz : num dg + val d.data * xOf (val ke.data • G) ≠ 0)
    (hr : xOf (val ke.data • G) ≠ 0) :
    ∃ doc, sign w hash hs rnd fuel priv x = .ok (some (.success, some doc)) ∧
      verify w hash hs fuel pub doc = .ok (some (.invalidSignature, none)) := by
  have hw8 : 8 ≤ w := by rcases hw with rfl | rfl <;> decide
  have iq := getMp_is hw8 k.isPub.dom.getQ
  have id := getMp_is hw8 k.isPriv.getD
  have hprime := k.prime
  have hQ1 := hprime.one_lt
  have hP := (Fact.out : P.Prime)
  obtain ⟨ike, e1, e2⟩ := Ecdh.secretD_range_partial hw8 rnd fuel _ iq hke
  obtain ⟨r, s, S, KI', doc, r1, s1, v1, v2, s2, s3, d1, d2⟩ := signWith_run (e := ⟨c.p.data.length * w, c, q, g⟩) hw k.fits k.gen iq id ike
    (by omega) k.odd hfu (by omega) hx hdg hd0 (stepsFine_single k.fits.p hP.ne_zero hp1 _ _ _) hnz
  have hS : S = 0 := by
    rw [s3 (divFine_single q (by omega) hq1 _)]
    exact Nat.mod_eq_zero_of_dvd (hz.mul_right _)
  subst hS
  refine ⟨doc, by rw [sign_run hw8 k.isPriv hx hsz hke, d2], ?_⟩
  rw [verify_run hw8 k.isPub d1 hsz, verifyWith_zero hw hdg hd0 g b k.fits.p k.fits.a k.fits.odd hP.one_lt iq k.odd hQ1 r1 s1 fuel (by omega),
    if_neg hr]

/-! ## Keys -/

/-- **C54** for ECDSA: the keys that are made belong together. -/
theorem ecdsa_keys_partial (hw : w = 32 ∨ w = 64) [Fact P.Prime] {e : CurveCtx w} {Q : Nat} {G : (W P A B).Point} (h : Ecdh.Good e P A B Q G)
    (hprime : Q.Prime) (hodd : Q % 2 = 1) (horder : Q • G = 0) (rnd : Nat → Byte) (fuel : Nat) (hfu : 3 * P < fuel) {d : Num w}
    (hd : getRandomD rnd fuel e.q e.bits = .ok (some d)) (hf : MulFine e.ec.p (val d.data) G) :
    ∃ pub priv b, mkKeyPair rnd fuel e = .ok (some (.success, some pub, some priv)) ∧ KeyPair w pub priv e.ec e.q e.g b d G ∧
      0 < val d.data ∧ val d.data < Q := by
  have hw16 : 16 ≤ w := by rcases hw with rfl | rfl <;> decide
  have hw8 : 8 ≤ w := by omega
  obtain ⟨id, e1, e2⟩ := Ecdh.secretD_range_partial hw8 rnd fuel _ h.q hd
  obtain ⟨b, b1, b2⟩ := ec_mul_partial hw16 h.fits G h.g id hf fuel hfu
  obtain ⟨Y, hY⟩ := h.g.isY
  obtain ⟨Z, hZ⟩ := b2.isY
  obtain ⟨pub, p1, p2, p3⟩ := Rsa.putMps_get hw (pubOps e b) (by simp [pubOps]) (by
      simp only [pubOps, List.mem_cons, List.not_mem_nil, or_false, forall_eq_or_imp, forall_eq]
      exact ⟨⟨gP, h.fits.p.ne_nil⟩, ⟨gA, h.fits.a.ne_nil⟩, ⟨gB, h.b.ne_nil⟩, ⟨gQ, h.q.ne_nil⟩, ⟨gAX, h.g.isX.ne_nil⟩, ⟨gAY, hY.ne_nil⟩,
        ⟨gBX, b2.isX.ne_nil⟩, ⟨gBY, hZ.ne_nil⟩⟩) (by simp only [pubOps, List.map_cons, List.map_nil]; decide +kernel)
  obtain ⟨priv, q1, q2, q3⟩ := Rsa.putMps_get hw (privOps e d) (by simp [privOps]) (by
      simp only [privOps, List.mem_cons, List.not_mem_nil, or_false, forall_eq_or_imp, forall_eq]
      exact ⟨⟨gD, id.ne_nil⟩, ⟨gP, h.fits.p.ne_nil⟩, ⟨gA, h.fits.a.ne_nil⟩, ⟨gB, h.b.ne_nil⟩, ⟨gQ, h.q.ne_nil⟩, ⟨gAX, h.g.isX.ne_nil⟩,
        ⟨gAY, hY.ne_nil⟩⟩) (by simp only [privOps, List.map_cons, List.map_nil]; decide +kernel)
  simp only [pubOps, List.mem_cons, List.not_mem_nil, or_false, forall_eq_or_imp, forall_eq, num_eta h.fits.p, num_eta h.fits.a,
    num_eta h.b, num_eta h.q, num_eta h.g.isX, num_eta hY, num_eta b2.isX, num_eta hZ] at p3
  simp only [privOps, List.mem_cons, List.not_mem_nil, or_false, forall_eq_or_imp, forall_eq, num_eta h.fits.p, num_eta h.fits.a,
    num_eta h.b, num_eta h.q, num_eta h.g.isX, num_eta hY, num_eta id] at q3
  refine ⟨pub, priv, b, ?_, ⟨⟨⟨p2, p3.1, p3.2.1, p3.2.2.1, p3.2.2.2.1, p3.2.2.2.2.1, p3.2.2.2.2.2.1⟩, p3.2.2.2.2.2.2.1, p3.2.2.2.2.2.2.2⟩,
    ⟨⟨q2, q3.2.1, q3.2.2.1, q3.2.2.2.1, q3.2.2.2.2.1, q3.2.2.2.2.2.1, q3.2.2.2.2.2.2⟩, q3.1⟩, h.fits, h.g, by rwa [h.q.2.2],
    by rwa [h.q.2.2], by rwa [h.q.2.2], b2⟩, by omega, e2⟩
  simp only [mkKeyPair, hd, b1, p1, q1, Out.bind_ok, ne_eq, not_true_eq_false, if_false, Out.pure_eq]

/-- The same without a condition on the divisions, for a prime of one digit. -/
theorem ecdsa_keys_single (hw : w = 32 ∨ w = 64) [Fact P.Prime] {e : CurveCtx w} {Q : Nat} {G : (W P A B).Point} (h : Ecdh.Good e P A B Q G)
    (h1 : e.ec.p.data.length = 1) (hprime : Q.Prime) (hodd : Q % 2 = 1) (horder : Q • G = 0) (rnd : Nat → Byte) (fuel : Nat)
    (hfu : 3 * P < fuel) {d : Num w} (hd : getRandomD rnd fuel e.q e.bits = .ok (some d)) :
    ∃ pub priv b, mkKeyPair rnd fuel e = .ok (some (.success, some pub, some priv)) ∧ KeyPair w pub priv e.ec e.q e.g b d G ∧
      0 < val d.data ∧ val d.data < Q :=
  ecdsa_keys_partial hw h hprime hodd horder rnd fuel hfu hd (stepsFine_single h.fits.p (Fact.out : P.Prime).ne_zero h1 _ _ _)

/-! ## Concrete cases -/

theorem xOf_of_check [Fact P.Prime] {gx gy e x : Nat} (hg : (W P A B).Nonsingular gx gy) (he : e ≠ 0) (hx : x < P)
    (h : EcJac.mulIs P A gx gy e (fun X _ Z => Nat.beq (X % P) (x * (Z * Z) % P)) = true) :
    xOf (e • (.some _ _ hg : (W P A B).Point)) = x := by
  obtain ⟨X, Y, Z, h1, h2, -, h3, h4⟩ := EcJac.mulIs_spec hg he h
  rw [Nat.beq_eq] at h1
  have e1 : (X : ZMod P) = x * Z ^ 2 := by
    rw [(ZMod.natCast_eq_natCast_iff' X (x * (Z * Z)) P).2 h1]
    push_cast
    ring
  have e3 : (X : ZMod P) / Z ^ 2 = x := by rw [e1]; field_simp
  rw [h4, xOf, e3, ZMod.val_natCast_of_lt hx]

theorem on17' : (W 17 2 2).Nonsingular ((5 : Nat) : ZMod 17) ((1 : Nat) : ZMod 17) := on17

/-- Keys on the sample curve: the generator has the order 19, the private key is 7. -/
theorem sample : ∃ pub priv b, KeyPair (A := 2) (B := 2) 32 pub priv curve17 ⟨[19], false⟩ ⟨⟨[5], false⟩, ⟨[1], false⟩⟩ b ⟨[7], false⟩
    (.some _ _ on17') := by
  obtain ⟨pub, priv, b, -, k, -⟩ := ecdsa_keys_single (.inl rfl) (G := .some _ _ on17') Ecdh.good17 rfl (by norm_num) (by norm_num)
    (EcJac.order_of_check on17' (by norm_num) (by decide +kernel)) (fun i => [0, 0, 0, 31, 0, 0, 0, 7].getD i 0) 52 (by norm_num)
    (d := ⟨[7], false⟩) (by decide +kernel)
  exact ⟨pub, priv, b, k⟩

theorem sample_draw : getRandomD (fun i => [0, 0, 0, 3].getD i 0) 60 (⟨[19], false⟩ : Num 32) 32 = .ok (some ⟨[3], false⟩) := by
  decide +kernel

theorem sample_x : xOf (3 • (.some _ _ on17' : (W 17 2 2).Point)) = 10 :=
  xOf_of_check on17' (by norm_num) (by norm_num) (by decide +kernel)

/-- A signature that verifies. -/
example : ∃ pub priv doc, sign 32 Rsa.sumHash 4 (fun i => [0, 0, 0, 3].getD i 0) 60 priv (ascii "hi") = .ok (some (.success, some doc)) ∧
    verify 32 Rsa.sumHash 4 60 pub doc = .ok (some (.success, some (ascii "hi"))) := by
  obtain ⟨pub, priv, b, k⟩ := sample
  obtain ⟨doc, h⟩ := ecdsa_single_digit (.inl rfl) (by decide) (Dsa.sumHash_run (ascii "hi")) (by simp) k 4 (by decide) rfl rfl _ 60
    (by norm_num) (by decide) sample_draw (by
      rw [show val (⟨[3], false⟩ : Num 32).data = 3 from rfl, sample_x]
      decide +kernel)
  exact ⟨pub, priv, doc, h⟩

/-- A signature that is made and refused. -/
example : ∃ x pub priv doc, sign 32 Rsa.sumHash 4 (fun i => [0, 0, 0, 3].getD i 0) 60 priv x = .ok (some (.success, some doc)) ∧
    verify 32 Rsa.sumHash 4 60 pub doc = .ok (some (.invalidSignature, none)) := by
  obtain ⟨pub, priv, b, k⟩ := sample
  obtain ⟨doc, h⟩ := ecdsa_zero_refused (.inl rfl) (x := [11#8]) (by decide) (Dsa.sumHash_run [11#8]) (by simp) k 4 (by decide) rfl rfl _ 60
    (by norm_num) (by decide) sample_draw (by
      rw [show val (⟨[3], false⟩ : Num 32).data = 3 from rfl, sample_x]
      decide +kernel) (by
      rw [show val (⟨[3], false⟩ : Num 32).data = 3 from rfl, sample_x]
      decide +kernel) (by
      rw [show val (⟨[3], false⟩ : Num 32).data = 3 from rfl, sample_x]
      decide)
  exact ⟨_, pub, priv, doc, h⟩

/-- The hypotheses of the forgery are met. -/
example : ∃ pub doc, verify 32 Rsa.sumHash 4 60 pub doc = .ok (some (.success, some (ascii "pay"))) := by
  obtain ⟨pub, priv, b, k⟩ := sample
  obtain ⟨doc, -, h⟩ := ecdsa_forgery_doc (w := 32) (.inl rfl) (ascii "pay") (by decide)
  exact ⟨pub, doc, h _ (fun x _ => ⟨_, Dsa.sumHash_run x, by simp⟩) _ _ _ _ _ k.isPub 4 (by decide) (by decide) (by decide) (by decide) (by decide) 60
    (by decide)⟩

end Kryptos.Ecdsa
