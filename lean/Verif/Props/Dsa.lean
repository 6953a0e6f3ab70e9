import Verif.Props.DlParams
import Verif.Props.MpInv
import Verif.Props.Rsa
import Verif.Model.Dsa
/-
  DSA (C54, C75).
-/
namespace Kryptos.Dsa
open Mp Spec.Mp Hash Hmac
open Rsa (Res getMp putMps getMp_spec num)

variable {w : Nat}

theorem gP : Pem.Good (ascii "DSA P") := by refine ⟨?_, ?_, ?_, ?_, ?_⟩ <;> decide +kernel
theorem gQ : Pem.Good (ascii "DSA Q") := by refine ⟨?_, ?_, ?_, ?_, ?_⟩ <;> decide +kernel
theorem gG : Pem.Good (ascii "DSA G") := by refine ⟨?_, ?_, ?_, ?_, ?_⟩ <;> decide +kernel
theorem gE : Pem.Good (ascii "DSA E") := by refine ⟨?_, ?_, ?_, ?_, ?_⟩ <;> decide +kernel
theorem gD : Pem.Good (ascii "DSA D") := by refine ⟨?_, ?_, ?_, ?_, ?_⟩ <;> decide +kernel
theorem gR : Pem.Good (ascii "DSA R") := by refine ⟨?_, ?_, ?_, ?_, ?_⟩ <;> decide +kernel
theorem gS : Pem.Good (ascii "DSA S") := by refine ⟨?_, ?_, ?_, ?_, ?_⟩ <;> decide +kernel
theorem gX : Pem.Good (ascii "DSA X") := by refine ⟨?_, ?_, ?_, ?_, ?_⟩ <;> decide +kernel

/-- A signature document: the message and two numbers. -/
structure Doc (w : Nat) (doc x : Bytes) (r s : Num w) : Prop where
  getX : Pem.getData (some (ascii "DSA X")) (some doc) = .ok (some x)
  ne : x ≠ []
  getR : getMp w "DSA R" doc = .ok (some r)
  getS : getMp w "DSA S" doc = .ok (some s)

/-- A public key. -/
structure Pub (w : Nat) (key : Bytes) (p q g e : Num w) : Prop where
  getP : getMp w "DSA P" key = .ok (some p)
  getQ : getMp w "DSA Q" key = .ok (some q)
  getG : getMp w "DSA G" key = .ok (some g)
  getE : getMp w "DSA E" key = .ok (some e)

/-- A private key. -/
structure Priv (w : Nat) (key : Bytes) (p q g d : Num w) : Prop where
  getP : getMp w "DSA P" key = .ok (some p)
  getQ : getMp w "DSA Q" key = .ok (some q)
  getG : getMp w "DSA G" key = .ok (some g)
  getD : getMp w "DSA D" key = .ok (some d)

theorem getMp_is (hw : 8 ≤ w) {h : String} {buf : Bytes} {n : Num w} (hg : getMp w h buf = .ok (some n)) : Is n (val n.data) := by
  obtain ⟨h1, h2, -⟩ := getMp_spec hw hg
  exact .intro h2 h1

/-- The documents that signing writes. -/
theorem doc_put (hw : w = 32 ∨ w = 64) (x : Bytes) (hx : x ≠ []) (r s : Num w) (hr : r.data ≠ []) (hs : s.data ≠ []) :
    ∃ o doc, Pem.putData true none (some (ascii "DSA X")) (some x) = .ok (.success, o) ∧
      putMps o [("DSA R", r), ("DSA S", s)] = .ok (.success, some doc) ∧ doc ≠ [] ∧
      Doc w doc x ⟨r.data, false⟩ ⟨s.data, false⟩ := by
  have hw8 : 8 ≤ w := by rcases hw with rfl | rfl <;> decide
  let ops : List (Bytes × Bytes) := [(ascii "DSA X", x), (ascii "DSA R", leBytes r.data), (ascii "DSA S", leBytes s.data)]
  have hnodup : (ops.map Prod.fst).Nodup := by
    simp only [ops, List.map_cons, List.map_nil]
    decide +kernel
  have hgood : ∀ y ∈ ops, Pem.Good y.1 := by simp [ops, gX, gR, gS]
  have hspec := Rsa.specRun_fresh ops [] (by
      intro y hy
      simp only [ops, List.mem_cons, List.not_mem_nil, or_false] at hy
      rcases hy with rfl | rfl | rfl
      · exact hx
      · exact Rsa.leBytes_ne_nil hw8 _ hr
      · exact Rsa.leBytes_ne_nil hw8 _ hs) (by simpa using hnodup)
  rw [List.nil_append] at hspec
  obtain ⟨doc, h1, h2⟩ := Pem.holds_run true ops hgood (by rw [hspec.2]; simp [ops])
  rw [hspec.2] at h2
  have hl : ∀ y ∈ ops, ops.lookup y.1 = some y.2 := Rsa.nodup_lookup ops hnodup
  have l1 := hl (ascii "DSA X", x) (by simp [ops])
  have l2 := hl (ascii "DSA R", leBytes r.data) (by simp [ops])
  have l3 := hl (ascii "DSA S", leBytes s.data) (by simp [ops])
  have g1 := h2.get gX
  rw [l1] at g1
  have g2 := h2.getMp w hw gR r.data hr l2
  have g3 := h2.getMp w hw gS s.data hs l3
  have hs1 := hspec.1
  simp only [ops, Pem.runPuts] at h1
  cases hp : Pem.putData true none (some (ascii "DSA X")) (some x) with
  | ub => rw [hp] at h1; simp at h1
  | ok o =>
    rw [hp, Out.bind_ok] at h1
    cases hq : Pem.runPuts true o.2 [(ascii "DSA R", leBytes r.data), (ascii "DSA S", leBytes s.data)] with
    | ub =>
      exfalso
      simp only [Pem.runPuts] at hq
      rw [hq] at h1
      simp at h1
    | ok v =>
      have h1' : (do
          let t ← Pem.runPuts true o.2 [(ascii "DSA R", leBytes r.data), (ascii "DSA S", leBytes s.data)]
          pure (o.1 :: t.1, t.2)) = Out.ok ((Pem.specRun [] ops).1, some doc) := h1
      rw [hq] at h1'
      simp only [Out.bind_ok, Out.pure_eq, Out.ok.injEq, Prod.mk.injEq] at h1'
      rw [← h1'.1] at hs1
      have ho : o.1 = .success := hs1 _ (by simp)
      refine ⟨o.2, doc, ?_, ?_, h2.ne_nil, g1, hx, g2, g3⟩
      · rw [← ho]
      · refine Rsa.runPuts_putMps [("DSA R", r), ("DSA S", s)] o.2 (some doc) v.1 ?_ (fun t ht => hs1 t (by simp [ht]))
        simp only [List.map_cons, List.map_nil]
        rw [hq, ← h1'.2]

/-- What a hash function gives: some bytes for every message. -/
def Digests (hash : HashFn) : Prop := ∀ x, x ≠ [] → ∃ d, runHash hash x = .ok (some d) ∧ d ≠ []

theorem hashNum_is (hw : w = 32 ∨ w = 64) {hash : HashFn} {x d : Bytes} (hd : runHash hash x = .ok (some d)) (h0 : d ≠ []) :
    ∃ h, hashNum w hash x = .ok (some h) ∧ Is h (num d) := by
  obtain ⟨n, n1, n2, n3, -⟩ := Rsa.rawBuffer_num (w := w) hw d h0
  exact ⟨⟨n, false⟩, by simp only [hashNum, hd, Out.bind_ok, n1], List.length_pos_iff.2 n3, rfl, n2⟩

theorem inverse_is (hw : 8 ≤ w) {a m : Num w} {A M : Nat} (ha : Is a A) (hm : Is m M) (hodd : M % 2 = 1) (f : Nat) (hf : A + M < f) :
    ∃ r R, inverse f a m = .ok (some r) ∧ Is r R ∧ R < M ∧ (Nat.gcd A M = 1 → A * R ≡ 1 [MOD M]) ∧ (Nat.gcd A M ≠ 1 → R = 0) := by
  have hodd' : val m.data % 2 = 1 := by rw [hm.2.2]; exact hodd
  obtain ⟨r, h1, h2, h3, h6, h4, h5⟩ := modinvRs_spec hw a m (List.ne_nil_of_length_pos ha.1) (List.ne_nil_of_length_pos hm.1)
    ha.2.1 hm.2.1 hodd' f (by rw [ha.2.2, hm.2.2]; exact hf)
  rw [ha.2.2, hm.2.2] at h4 h5
  rw [hm.2.2] at h3
  refine ⟨r, val r.data, ?_, .intro h6 h2, h3, fun h => by rw [Nat.mul_comm]; exact h4 h, h5⟩
  rw [inverse, modinv, hm.isOdd (by omega), Out.bind_ok, decide_eq_true hodd]
  exact h1

/-! ## The steps -/

theorem verifyEnd_run (hw : 16 ≤ w) {p q g e r u1 u2 a b : Num w} {P Q R A B : Nat} (hp : Is p P) (hq : Is q Q) (hr : Is r R)
    (hP : P ≠ 0) (hQ : Q ≠ 0) (ha : meModN g u1 p = .ok (some a)) (ia : Is a A) (hb : meModN e u2 p = .ok (some b)) (ib : Is b B)
    (x : Bytes) :
    ∃ T V' R', T ≡ A * B [MOD P] ∧ (DivFine w p (A * B) → T = A * B % P) ∧ V' ≡ T [MOD Q] ∧ (DivFine w q T → V' = T % Q) ∧
      R' ≡ R [MOD Q] ∧ (DivFine w q R → R' = R % Q) ∧
      verifyEnd p q g e r u1 u2 x = .ok (if V' = R' then (.success, some x) else (.invalidSignature, none)) := by
  obtain ⟨m, m1, m2⟩ := ia.mul (by omega) ib
  obtain ⟨t, T, t1, t2, t3, t4⟩ := m2.modO hw hp hP
  obtain ⟨v, V', v1, v2, v3, v4⟩ := (t2.assignOpt (by omega) none).modO hw hq hQ
  obtain ⟨r', R', r1, r2, r3, r4⟩ := hr.modO hw hq hQ
  refine ⟨T, V', R', t3, t4, v3, v4, r3, r4, ?_⟩
  rw [verifyEnd, ha, Out.bind_ok, hb, Out.bind_ok]
  simp only [mulO, m1, Out.bind_ok, t1, v1, r1]
  rw [(v2.assignOpt (by omega) none).eq (r2.assignOpt (by omega) none)]
  by_cases h : V' = R' <;> simp [h]

theorem verifyWith_run (hw : 16 ≤ w) {hash : HashFn} {fuel : Nat} {p q r s v h : Num w} (g e : Num w) {Q R V H : Nat} (hq : Is q Q)
    (hr : Is r R) (hQ : Q ≠ 0) (hv : inverse fuel s q = .ok (some v)) (iv : Is v V) (x : Bytes)
    (hh : hashNum w hash x = .ok (some h)) (ih : Is h H) :
    ∃ K u1 u2 U1 U2, K ≡ V [MOD Q] ∧ (DivFine w q V → K = V % Q) ∧ Is u1 U1 ∧ U1 ≡ K * H [MOD Q] ∧
      (DivFine w q (K * H) → U1 = K * H % Q) ∧ Is u2 U2 ∧ U2 ≡ K * R [MOD Q] ∧ (DivFine w q (K * R) → U2 = K * R % Q) ∧
      verifyWith hash fuel p q g e r s x = (do let o ← verifyEnd p q g e r u1 u2 x; return some o) := by
  obtain ⟨k, K, k1, k2, k3, k4⟩ := iv.modO hw hq hQ
  obtain ⟨a, a1, a2⟩ := (k2.assignOpt (by omega) none).mul (by omega) ih
  obtain ⟨u1, U1, b1, b2, b3, b4⟩ := a2.modO hw hq hQ
  obtain ⟨c, c1, c2⟩ := (k2.assignOpt (by omega) none).mul (by omega) hr
  obtain ⟨u2, U2, d1, d2, d3, d4⟩ := c2.modO hw hq hQ
  refine ⟨K, _, _, U1, U2, k3, k4, b2.assignOpt (by omega) none, b3, b4, d2.assignOpt (by omega) none, d3, d4, ?_⟩
  simp only [verifyWith, hv, Out.bind_ok, k1, hh, a1, b1, c1, d1]

theorem signWith_run (hw : w = 32 ∨ w = 64) {hash : HashFn} {fuel : Nat} {p q g d ke v a h : Num w} {Q D V A H : Nat} (hq : Is q Q)
    (hd : Is d D) (hQ : Q ≠ 0) (hv : inverse fuel ke q = .ok (some v)) (iv : Is v V) (ha : meModN g ke p = .ok (some a)) (ia : Is a A)
    (x : Bytes) (hx : x ≠ []) (hh : hashNum w hash x = .ok (some h)) (ih : Is h H) :
    ∃ r R, Is r R ∧ R ≡ A [MOD Q] ∧ (DivFine w q A → R = A % Q) ∧ (D * R + H ≠ 0 →
      ∃ s S doc, Is s S ∧ S ≡ (D * R + H) * V [MOD Q] ∧ (DivFine w q ((D * R + H) * V) → S = (D * R + H) * V % Q) ∧ doc ≠ [] ∧
      Doc w doc x r s ∧ signWith hash fuel p q g d ke x = .ok (some (.success, some doc))) := by
  have hw16 : 16 ≤ w := by rcases hw with rfl | rfl <;> decide
  obtain ⟨r, R, r1, r2, r3, r4⟩ := ia.modO hw16 hq hQ
  have r5 := r2.assignOpt (w := w) (by omega) none
  refine ⟨_, R, r5, r3, r4, fun hne => ?_⟩
  obtain ⟨t, t1, t2⟩ := hd.mul (by omega) r5
  obtain ⟨u, u1, u2⟩ := t2.add (by omega) ih hne
  obtain ⟨y, y1, y2⟩ := u2.mul (by omega) iv
  obtain ⟨s, S, s1, s2, s3, s4⟩ := y2.modO hw16 hq hQ
  obtain ⟨o, doc, d1, d2, d3, d4⟩ := doc_put hw x hx (assign none r) s (List.ne_nil_of_length_pos r5.1) (List.ne_nil_of_length_pos s2.1)
  have e1 : (⟨(assign none r).data, false⟩ : Num w) = assign none r := by rw [← r5.2.1]
  have e2 : (⟨s.data, false⟩ : Num w) = s := by rw [← s2.2.1]
  rw [e1, e2] at d4
  refine ⟨s, S, doc, s2, s3, s4, d3, d4, ?_⟩
  simp only [signWith, hv, Out.bind_ok, ha, r1, hh, t1, u1, y1, s1, d1, d2]
  simp

/-- Verification once all numbers are read. -/
theorem verify_run {hash : HashFn} {fuel : Nat} {key doc x : Bytes} {p q g e r s : Num w} (k : Pub w key p q g e)
    (d : Doc w doc x r s) : verify w hash fuel key doc = verifyWith hash fuel p q g e r s x := by
  have : ¬ x.length = 0 := by simpa using d.ne
  simp only [verify, k.getP, k.getG, k.getQ, k.getE, d.getX, d.getR, d.getS, Out.bind_ok, this, if_false]

/-! ## Forgery -/

/-- C75 is violated: a document with `R = 1` and `S = 0` is accepted as the signature of every message, under every public key
with an odd order. -/
theorem dsa_forgery (hw : w = 32 ∨ w = 64) {hash : HashFn} (hh : Digests hash) {key doc x : Bytes} {p q g e r s : Num w}
    (k : Pub w key p q g e) (d : Doc w doc x r s) (hp : 1 < val p.data) (hq : 1 < val q.data) (hodd : val q.data % 2 = 1)
    (hr : val r.data = 1) (hs : val s.data = 0) (fuel : Nat) (hf : val q.data < fuel) :
    verify w hash fuel key doc = .ok (some (.success, some x)) := by
  have hw16 : 16 ≤ w := by rcases hw with rfl | rfl <;> decide
  have ip := getMp_is (by omega) k.getP
  have iq := getMp_is (by omega) k.getQ
  have ir := getMp_is (by omega) d.getR
  have is := getMp_is (by omega) d.getS
  rw [hr] at ir
  rw [hs] at is
  obtain ⟨v, V, v1, v2, -, -, v3⟩ := inverse_is (by omega) is iq hodd fuel (by omega)
  obtain rfl := v3 (by rw [Nat.gcd_zero_left]; omega)
  obtain ⟨dg, g1, g2⟩ := hh x d.ne
  obtain ⟨h, h1, h2⟩ := hashNum_is (w := w) hw g1 g2
  obtain ⟨K, u1, u2, U1, U2, -, a1, a2, -, a3, a4, -, a5, a6⟩ := verifyWith_run (p := p) hw16 g e iq ir (by omega) v1 v2 x h1 h2
  obtain rfl : K = 0 := by rw [a1 (.inl (by omega)), Nat.zero_mod]
  have b1 : U1 = 0 := by rw [a3 (.inl (by omega)), Nat.zero_mul, Nat.zero_mod]
  have b2 : U2 = 0 := by rw [a5 (.inl (by omega)), Nat.zero_mul, Nat.zero_mod]
  obtain ⟨ma, m1, m2⟩ := Is.me_zero hw16 g (e := u1) (by rw [a2.2.2, b1]) ip hp
  obtain ⟨mb, m3, m4⟩ := Is.me_zero hw16 e (e := u2) (by rw [a4.2.2, b2]) ip hp
  obtain ⟨T, V', R', -, t1, -, t2, -, t3, t4⟩ := verifyEnd_run hw16 ip iq ir (by omega) (by omega) m1 m2 m3 m4 x
  rw [verify_run k d, a6, t4, t3 (.inl (by omega))]
  have hT := t1 (.inl (by omega))
  rw [Nat.one_mul, Nat.mod_eq_of_lt hp] at hT
  rw [hT] at t2
  rw [t2 (.inl (by omega))]
  simp

/-- Such a document exists for every message. -/
theorem dsa_forgery_doc (hw : w = 32 ∨ w = 64) (x : Bytes) (hx : x ≠ []) :
    ∃ doc, doc ≠ [] ∧ Doc w doc x one zero ∧ ∀ (hash : HashFn), Digests hash → ∀ (key : Bytes) (p q g e : Num w), Pub w key p q g e →
      1 < val p.data → 1 < val q.data → val q.data % 2 = 1 → ∀ fuel, val q.data < fuel →
      verify w hash fuel key doc = .ok (some (.success, some x)) := by
  have hw16 : 16 ≤ w := by rcases hw with rfl | rfl <;> decide
  have h1 := is_one (w := w) (by omega)
  have h0 := is_zero (w := w)
  obtain ⟨o, doc, -, -, d3, d4⟩ := doc_put hw x hx (one : Num w) zero (List.ne_nil_of_length_pos h1.1) (List.ne_nil_of_length_pos h0.1)
  have e1 : (⟨(one : Num w).data, false⟩ : Num w) = one := rfl
  have e2 : (⟨(zero : Num w).data, false⟩ : Num w) = zero := rfl
  rw [e1, e2] at d4
  exact ⟨doc, d3, d4, fun hash hh key p q g e k hp hq ho fuel hf => dsa_forgery hw hh k d4 hp hq ho h1.2.2 h0.2.2 fuel hf⟩

/-! ## Signing and verifying -/

/-- The two halves of a key pair. -/
structure KeyPair (w : Nat) (pub priv : Bytes) (p q g e d : Num w) : Prop where
  isPub : Pub w pub p q g e
  isPriv : Priv w priv p q g d
  prime : (val q.data).Prime
  odd : val q.data % 2 = 1
  big : 1 < val p.data
  order : val g.data ^ val q.data ≡ 1 [MOD val p.data]
  match_ : val e.data ≡ val g.data ^ val d.data [MOD val p.data]

/-- The first number of the signature, for the parameters and the ephemeral key. -/
def sigR (P Q G KE : Nat) : Nat := G ^ KE % P % Q

/-- The divisions of signing and verifying are among those which `kryptos_mp_div` does right: `KI` and `V` are the inverses of
the ephemeral key and of the second number of the signature. -/
structure Fine (p q : Num w) (G E D KE H KI V : Nat) : Prop where
  top : sig p.data = p.data.length
  ke : MeetsNoOverflow w G KE (val p.data)
  r : DivFine w q (G ^ KE % val p.data)
  s : DivFine w q ((D * sigR (val p.data) (val q.data) G KE + H) * KI)
  u1 : DivFine w q (V * H)
  u2 : DivFine w q (V * sigR (val p.data) (val q.data) G KE)
  gu : MeetsNoOverflow w G (V * H % val q.data) (val p.data)
  eu : MeetsNoOverflow w E (V * sigR (val p.data) (val q.data) G KE % val q.data) (val p.data)
  prod : DivFine w p ((G ^ (V * H % val q.data) % val p.data) *
    (E ^ (V * sigR (val p.data) (val q.data) G KE % val q.data) % val p.data))

theorem pow_mod_order {G P Q a b : Nat} (h : G ^ Q ≡ 1 [MOD P]) (hab : a ≡ b [MOD Q]) : G ^ a ≡ G ^ b [MOD P] := by
  have key : ∀ n, G ^ n ≡ G ^ (n % Q) [MOD P] := by
    intro n
    conv_lhs => rw [← Nat.mod_add_div n Q, pow_add, pow_mul]
    have := (h.pow (n / Q)).mul_left (G ^ (n % Q))
    rwa [one_pow, Nat.mul_one] at this
  have := key a
  rw [hab] at this
  exact this.trans (key b).symm

/-- C54 for DSA: whatever the ephemeral key, a signature verifies under the matching public key, when the second number is
invertible and no quotient guess of a division overflows.  Missing for the full property: the signatures with a second number
that is zero, which are written and then refused (`dsa_zero_refused`), and the divisions which are wrong
(`Mp.div_exact_iff`). -/
theorem dsa_sign_verify_partial (hw : w = 32 ∨ w = 64) {hash : HashFn} {x dg : Bytes} (hx : x ≠ [])
    (hdg : runHash hash x = .ok (some dg)) (hd0 : dg ≠ []) {pub priv : Bytes} {p q g e d : Num w} (k : KeyPair w pub priv p q g e d)
    {ke : Num w} {KE KI V : Nat} (ike : Is ke KE) (h0 : 0 < KE) (h1 : KE < val q.data)
    (hne : ¬ val q.data ∣ val d.data * sigR (val p.data) (val q.data) (val g.data) KE + num dg)
    (hKI : KI < val q.data) (hKI' : KE * KI ≡ 1 [MOD val q.data]) (hV : V < val q.data)
    (hV' : (val d.data * sigR (val p.data) (val q.data) (val g.data) KE + num dg) * V ≡ KE [MOD val q.data])
    (f : Fine p q (val g.data) (val e.data) (val d.data) KE (num dg) KI V) (fuel : Nat) (hf : 2 * val q.data < fuel) :
    ∃ doc r s, signWith hash fuel p q g d ke x = .ok (some (.success, some doc)) ∧ doc ≠ [] ∧ Doc w doc x r s ∧
      val r.data = sigR (val p.data) (val q.data) (val g.data) KE ∧
      verify w hash fuel pub doc = .ok (some (.success, some x)) := by
  have hw16 : 16 ≤ w := by rcases hw with rfl | rfl <;> decide
  have ip := getMp_is (by omega) k.isPub.getP
  have iq := getMp_is (by omega) k.isPub.getQ
  have ig := getMp_is (by omega) k.isPub.getG
  have ie := getMp_is (by omega) k.isPub.getE
  have id := getMp_is (by omega) k.isPriv.getD
  have hbig := k.big
  have hprime := k.prime
  have hodd := k.odd
  have horder := k.order
  have hmatch := k.match_
  set P := val p.data with hP
  set Q := val q.data with hQ
  set G := val g.data with hG
  set E := val e.data with hE
  set D := val d.data with hD
  set H := num dg with hH
  have hQ1 := hprime.one_lt
  -- signing
  have cop : Nat.gcd KE Q = 1 := (Nat.coprime_of_lt_prime (by omega) h1 hprime).symm
  obtain ⟨vi, VI, v1, v2, v3, v4, -⟩ := inverse_is (by omega) ike iq hodd fuel (by omega)
  have hVI : VI = KI := by
    have := Nat.ModEq.cancel_left_of_coprime (by rw [Nat.gcd_comm]; exact cop) ((v4 cop).trans hKI'.symm)
    exact Nat.ModEq.eq_of_lt_of_lt this v3 hKI
  subst hVI
  obtain ⟨a, A, a1, a2, -, -, a3⟩ := ig.me hw16 ike ip (by omega)
  have hA := a3 f.top f.ke
  obtain ⟨h, h2, h3⟩ := hashNum_is (w := w) hw hdg hd0
  obtain ⟨r, R, r1, -, r2, r3⟩ := signWith_run hw (g := g) (d := d) iq id (by omega) v1 v2 a1 a2 x hx h2 h3
  have hR : R = sigR P Q G KE := by rw [sigR, ← hA]; exact r2 (by rw [hA]; exact f.r)
  rw [← hR] at hne hV'
  have hRQ : R < Q := by rw [hR]; exact Nat.mod_lt _ (by omega)
  obtain ⟨s, S, doc, s1, s2, s3, d1, d2, d3⟩ := r3 (fun hz => hne (by rw [hz]; exact dvd_zero _))
  have hS : S < Q := by
    rw [s3 (by have := f.s; rw [← hR] at this; exact this)]
    exact Nat.mod_lt _ (by omega)
  refine ⟨doc, r, s, d3, d1, d2, by rw [r1.2.2, hR], ?_⟩
  -- verifying
  have hSV : S * V ≡ 1 [MOD Q] := by
    calc S * V ≡ (D * R + H) * VI * V [MOD Q] := s2.mul_right V
      _ = (D * R + H) * V * VI := by ring
      _ ≡ KE * VI [MOD Q] := hV'.mul_right VI
      _ ≡ 1 [MOD Q] := hKI'
  have copS : Nat.gcd S Q = 1 := by
    have hns : ¬ Q ∣ S := by
      intro hdvd
      have h00 : S * V ≡ 0 [MOD Q] := (Nat.modEq_zero_iff_dvd).2 (hdvd.mul_right V)
      have := hSV.symm.trans h00
      rw [Nat.modEq_zero_iff_dvd, Nat.dvd_one] at this
      omega
    exact (Nat.Coprime.symm ((Nat.Prime.coprime_iff_not_dvd hprime).2 hns))
  obtain ⟨si, SI, i1, i2, i3, i4, -⟩ := inverse_is (by omega) s1 iq hodd fuel (by omega)
  have hSI : SI = V := by
    have := Nat.ModEq.cancel_left_of_coprime (by rw [Nat.gcd_comm]; exact copS) ((i4 copS).trans hSV.symm)
    exact Nat.ModEq.eq_of_lt_of_lt this i3 hV
  subst hSI
  obtain ⟨K, u1, u2, U1, U2, -, c1, c2, c3, c4, c5, c6, c7, c8⟩ := verifyWith_run (p := p) hw16 g e iq r1 (by omega) i1 i2 x h2 h3
  have hK : K = SI := by rw [c1 (.inl (by omega)), Nat.mod_eq_of_lt hV]
  subst hK
  have hU1 : U1 = K * H % Q := c4 f.u1
  have hU2 : U2 = K * R % Q := c7 (by have := f.u2; rw [← hR] at this; exact this)
  obtain ⟨ma, MA, m1, m2, -, m3, m4⟩ := ig.me hw16 c2 ip (by omega)
  obtain ⟨mb, MB, n1, n2, -, n3, n4⟩ := ie.me hw16 c5 ip (by omega)
  have hMA : MA = G ^ (K * H % Q) % P := by rw [m4 f.top (by rw [hU1]; exact f.gu), hU1]
  have hMB : MB = E ^ (K * R % Q) % P := by
    rw [n4 f.top (by have := f.eu; rw [← hR] at this; rw [hU2]; exact this), hU2]
  obtain ⟨T, V', R', t0, t1, -, t2, -, t3, t4⟩ := verifyEnd_run hw16 ip iq r1 (by omega) (by omega) m1 m2 n1 n2 x
  have hT : T = G ^ KE % P := by
    have e1 : T = MA * MB % P := t1 (by have := f.prod; rw [← hR] at this; rw [hMA, hMB]; exact this)
    rw [e1]
    have e2 : MA * MB ≡ G ^ KE [MOD P] := by
      calc MA * MB ≡ G ^ U1 * E ^ U2 [MOD P] := m3.mul n3
        _ ≡ G ^ U1 * (G ^ D) ^ U2 [MOD P] := (hmatch.pow U2).mul_left _
        _ = G ^ (U1 + D * U2) := by rw [← pow_mul, ← pow_add]
        _ ≡ G ^ KE [MOD P] := by
          refine pow_mod_order horder ?_
          calc U1 + D * U2 ≡ K * H + D * (K * R) [MOD Q] := c3.add (c6.mul_left D)
            _ = (D * R + H) * K := by ring
            _ ≡ KE [MOD Q] := hV'
    exact e2
  rw [verify_run k.isPub d2, c8, t4, t3 (.inl hRQ), Nat.mod_eq_of_lt hRQ, t2 (by rw [hT]; exact f.r), hT, hR]
  simp [sigR]

/-- C54 for DSA with parameters of one digit, without further conditions on the divisions. -/
theorem dsa_single_digit (hw : w = 32 ∨ w = 64) {hash : HashFn} {x dg : Bytes} (hx : x ≠ [])
    (hdg : runHash hash x = .ok (some dg)) (hd0 : dg ≠ []) {pub priv : Bytes} {p q g e d : Num w} (k : KeyPair w pub priv p q g e d)
    (hp1 : p.data.length = 1) (hq1 : q.data.length = 1) (rnd : Nat → Byte) (fuel : Nat) (hf : 2 * val q.data < fuel) {ke : Num w}
    (hke : Dl.draw rnd fuel one q = .ok (some ke))
    (hne : ¬ val q.data ∣ val d.data * sigR (val p.data) (val q.data) (val g.data) (val ke.data) + num dg) :
    ∃ doc, sign w hash rnd fuel priv x = .ok (some (.success, some doc)) ∧
      verify w hash fuel pub doc = .ok (some (.success, some x)) := by
  have hw16 : 16 ≤ w := by rcases hw with rfl | rfl <;> decide
  have iq := getMp_is (by omega) k.isPub.getQ
  have hbig := k.big
  have hprime := k.prime
  have hQ1 := hprime.one_lt
  obtain ⟨KE, ike, e1, e2⟩ := Dl.draw_range (by omega) rnd fuel (is_one (w := w) (by omega)) iq (by omega) hke
  rw [ike.2.2] at hne
  have inv : ∀ a, ¬ val q.data ∣ a → ∃ b < val q.data, a * b ≡ 1 [MOD val q.data] := by
    intro a ha
    obtain ⟨b, hb⟩ := Nat.exists_mul_mod_eq_one_of_coprime ((Nat.Prime.coprime_iff_not_dvd hprime).2 ha).symm hQ1
    refine ⟨b % val q.data, Nat.mod_lt _ (by omega), ?_⟩
    have : a * (b % val q.data) ≡ a * b [MOD val q.data] := (Nat.mod_modEq b _).mul_left a
    refine this.trans ?_
    rw [Nat.ModEq, hb.2, Nat.mod_eq_of_lt hQ1]
  obtain ⟨KI, k1, k2⟩ := inv KE (fun h => by have := Nat.le_of_dvd (by omega) h; omega)
  obtain ⟨B, b1, b2⟩ := inv _ hne
  have hfine : Fine p q (val g.data) (val e.data) (val d.data) KE (num dg) KI (B * KE % val q.data) := by
    have hp := fun a k => meets_single p (by omega) hp1 a k
    have hp' := divFine_single p (by omega) hp1
    have hq' := divFine_single q (by omega) hq1
    exact ⟨(hp 0 0).1, (hp _ _).2, hq' _, hq' _, hq' _, hq' _, (hp _ _).2, (hp _ _).2, hp' _⟩
  obtain ⟨doc, r, s, d1, -, -, -, d2⟩ := dsa_sign_verify_partial hw hx hdg hd0 k ike (by omega) (by omega) hne k1 k2
    (Nat.mod_lt _ (by omega)) (by
      refine ((Nat.mod_modEq _ _).mul_left _).trans ?_
      rw [← Nat.mul_assoc]
      simpa using b2.mul_right KE) hfine fuel hf
  refine ⟨doc, ?_, d2⟩
  rw [sign, k.isPriv.getP, Out.bind_ok]
  simp only [k.isPriv.getG, k.isPriv.getQ, k.isPriv.getD, Out.bind_ok, hke]
  exact d1

/-- C54 is violated for DSA: a signature whose second number is zero is written by the code, and then refused. -/
theorem dsa_zero_refused (hw : w = 32 ∨ w = 64) {hash : HashFn} {x dg : Bytes} (hx : x ≠ [])
    (hdg : runHash hash x = .ok (some dg)) (hd0 : dg ≠ []) {pub priv : Bytes} {p q g e d : Num w} (k : KeyPair w pub priv p q g e d)
    (hp1 : p.data.length = 1) (hq1 : q.data.length = 1) (rnd : Nat → Byte) (fuel : Nat) (hf : 2 * val q.data < fuel) {ke : Num w}
    (hke : Dl.draw rnd fuel one q = .ok (some ke))
    (hz : val q.data ∣ val d.data * sigR (val p.data) (val q.data) (val g.data) (val ke.data) + num dg)
    (hnz : val d.data * sigR (val p.data) (val q.data) (val g.data) (val ke.data) + num dg ≠ 0)
    (hr : sigR (val p.data) (val q.data) (val g.data) (val ke.data) ≠ 1) :
    ∃ doc, sign w hash rnd fuel priv x = .ok (some (.success, some doc)) ∧
      verify w hash fuel pub doc = .ok (some (.invalidSignature, none)) := by
  have hw16 : 16 ≤ w := by rcases hw with rfl | rfl <;> decide
  have ip := getMp_is (by omega) k.isPub.getP
  have iq := getMp_is (by omega) k.isPub.getQ
  have ig := getMp_is (by omega) k.isPub.getG
  have id := getMp_is (by omega) k.isPriv.getD
  have hbig := k.big
  have hprime := k.prime
  have hodd := k.odd
  have hQ1 := hprime.one_lt
  have hq' := divFine_single q (by omega) hq1
  obtain ⟨KE, ike, e1, e2⟩ := Dl.draw_range (by omega) rnd fuel (is_one (w := w) (by omega)) iq (by omega) hke
  rw [ike.2.2] at hz hnz hr
  obtain ⟨vi, VI, v1, v2, v3, v4, -⟩ := inverse_is (by omega) ike iq hodd fuel (by omega)
  obtain ⟨a, A, a1, a2, -, -, a3⟩ := ig.me hw16 ike ip (by omega)
  have hA := a3 (meets_single p (by omega) hp1 0 0).1 (meets_single p (by omega) hp1 _ _).2
  obtain ⟨h, h2, h3⟩ := hashNum_is (w := w) hw hdg hd0
  obtain ⟨r, R, r1, -, r2, r3⟩ := signWith_run hw (g := g) (d := d) iq id (by omega) v1 v2 a1 a2 x hx h2 h3
  have hR : R = sigR (val p.data) (val q.data) (val g.data) KE := by rw [sigR, ← hA]; exact r2 (hq' _)
  rw [← hR] at hz hnz hr
  have hRQ : R < val q.data := by rw [hR]; exact Nat.mod_lt _ (by omega)
  obtain ⟨s, S, doc, s1, s2, s3, d1, d2, d3⟩ := r3 hnz
  have hS : S = 0 := by rw [s3 (hq' _)]; exact Nat.mod_eq_zero_of_dvd (hz.mul_right _)
  subst hS
  refine ⟨doc, ?_, ?_⟩
  · rw [sign, k.isPriv.getP, Out.bind_ok]
    simp only [k.isPriv.getG, k.isPriv.getQ, k.isPriv.getD, Out.bind_ok, hke]
    exact d3
  · obtain ⟨v, V, v1, v2, -, -, v3⟩ := inverse_is (by omega) s1 iq hodd fuel (by omega)
    obtain rfl := v3 (by rw [Nat.gcd_zero_left]; omega)
    obtain ⟨K, u1, u2, U1, U2, -, a1, a2, -, a3, a4, -, a5, a6⟩ := verifyWith_run (p := p) hw16 g e iq r1 (by omega) v1 v2 x h2 h3
    obtain rfl : K = 0 := by rw [a1 (.inl (by omega)), Nat.zero_mod]
    have b1 : U1 = 0 := by rw [a3 (.inl (by omega)), Nat.zero_mul, Nat.zero_mod]
    have b2 : U2 = 0 := by rw [a5 (.inl (by omega)), Nat.zero_mul, Nat.zero_mod]
    obtain ⟨ma, m1, m2⟩ := Is.me_zero hw16 g (e := u1) (by rw [a2.2.2, b1]) ip hbig
    obtain ⟨mb, m3, m4⟩ := Is.me_zero hw16 e (e := u2) (by rw [a4.2.2, b2]) ip hbig
    obtain ⟨T, V', R', -, t1, -, t2, -, t3, t4⟩ := verifyEnd_run hw16 ip iq r1 (by omega) (by omega) m1 m2 m3 m4 x
    rw [verify_run k.isPub d2, a6, t4, t3 (.inl (by omega)), Nat.mod_eq_of_lt hRQ]
    have hT := t1 (.inl (by omega))
    rw [Nat.one_mul, Nat.mod_eq_of_lt hbig] at hT
    rw [hT] at t2
    rw [t2 (.inl (by omega)), Nat.mod_eq_of_lt hQ1]
    simp [show ¬ 1 = R from fun h => hr h.symm]

/-- A document without a message is not refused: its verification reads fields that were never set. -/
theorem dsa_no_message (w : Nat) (hash : HashFn) (fuel : Nat) {key doc : Bytes} {p q g e : Num w} (k : Pub w key p q g e)
    (hd : Pem.getData (some (ascii "DSA X")) (some doc) = .ok none) : verify w hash fuel key doc = .ub := by
  simp only [verify, k.getP, k.getG, k.getQ, k.getE, hd, Out.bind_ok]

/-! ## Keys -/

theorem keys_put (hw : w = 32 ∨ w = 64) (p q g e d : Num w) (hp : p.data ≠ []) (hq : q.data ≠ []) (hg : g.data ≠ []) (he : e.data ≠ [])
    (hd : d.data ≠ []) :
    ∃ pub priv, putMps none [("DSA P", p), ("DSA Q", q), ("DSA G", g), ("DSA E", e)] = .ok (.success, some pub) ∧
      putMps none [("DSA P", p), ("DSA Q", q), ("DSA G", g), ("DSA D", d)] = .ok (.success, some priv) ∧ pub ≠ [] ∧ priv ≠ [] ∧
      Pub w pub ⟨p.data, false⟩ ⟨q.data, false⟩ ⟨g.data, false⟩ ⟨e.data, false⟩ ∧
      Priv w priv ⟨p.data, false⟩ ⟨q.data, false⟩ ⟨g.data, false⟩ ⟨d.data, false⟩ := by
  obtain ⟨pub, h1, h2, h3⟩ := Rsa.putMps_get hw [("DSA P", p), ("DSA Q", q), ("DSA G", g), ("DSA E", e)] (by simp)
    (by simp [gP, gQ, gG, gE, hp, hq, hg, he]) (by simp only [List.map_cons, List.map_nil]; decide +kernel)
  obtain ⟨priv, h4, h5, h6⟩ := Rsa.putMps_get hw [("DSA P", p), ("DSA Q", q), ("DSA G", g), ("DSA D", d)] (by simp)
    (by simp [gP, gQ, gG, gD, hp, hq, hg, hd]) (by simp only [List.map_cons, List.map_nil]; decide +kernel)
  have a1 := h3 ("DSA P", p) (by simp)
  have a2 := h3 ("DSA Q", q) (by simp)
  have a3 := h3 ("DSA G", g) (by simp)
  have a4 := h3 ("DSA E", e) (by simp)
  have b1 := h6 ("DSA P", p) (by simp)
  have b2 := h6 ("DSA Q", q) (by simp)
  have b3 := h6 ("DSA G", g) (by simp)
  have b4 := h6 ("DSA D", d) (by simp)
  exact ⟨pub, priv, h1, h4, h2, h5, ⟨a1, a2, a3, a4⟩, ⟨b1, b2, b3, b4⟩⟩

/-- The keys that the library makes for parameters of a prime order are the two halves of a key pair, whatever private key was
drawn. -/
theorem dsa_keys (hw : w = 32 ∨ w = 64) {p q g d : Num w} {P Q G : Nat} (hp : Is p P) (hq : Is q Q) (hg : Is g G) (hprime : Q.Prime)
    (hodd : Q % 2 = 1) (hs : Dl.Sound P Q G) (rnd : Nat → Byte) (fuel : Nat) (hd : Dl.draw rnd fuel one q = .ok (some d)) :
    ∃ pub priv e, mkKeys rnd fuel p q g = .ok (some (.success, some pub, some priv)) ∧ KeyPair w pub priv p q g e d ∧
      0 < val d.data ∧ val d.data < Q := by
  have hw16 : 16 ≤ w := by rcases hw with rfl | rfl <;> decide
  have h1 := hs.lower
  have h2 := hs.upper
  have hQ1 := hprime.one_lt
  obtain ⟨D, id, d1, d2⟩ := Dl.draw_range (by omega) rnd fuel (is_one (w := w) (by omega)) hq (by omega) hd
  obtain ⟨e, E, e1, e2, -, e3, -⟩ := hg.me hw16 id hp (by omega)
  obtain ⟨pub, priv, h1, h2, h3, h4, h5, h6⟩ := keys_put hw p q g e d (List.ne_nil_of_length_pos hp.1)
    (List.ne_nil_of_length_pos hq.1) (List.ne_nil_of_length_pos hg.1) (List.ne_nil_of_length_pos e2.1) (List.ne_nil_of_length_pos id.1)
  have ep : (⟨p.data, false⟩ : Num w) = p := by rw [← hp.2.1]
  have eq : (⟨q.data, false⟩ : Num w) = q := by rw [← hq.2.1]
  have eg : (⟨g.data, false⟩ : Num w) = g := by rw [← hg.2.1]
  have ee : (⟨e.data, false⟩ : Num w) = e := by rw [← e2.2.1]
  have ed : (⟨d.data, false⟩ : Num w) = d := by rw [← id.2.1]
  rw [ep, eq, eg, ee] at h5
  rw [ep, eq, eg, ed] at h6
  refine ⟨pub, priv, e, ?_, ⟨h5, h6, by rw [hq.2.2]; exact hprime, by rw [hq.2.2]; exact hodd, by rw [hp.2.2]; omega, ?_, ?_⟩, ?_⟩
  · simp [mkKeys, hd, e1, h1, h2]
  · rw [hg.2.2, hq.2.2, hp.2.2]
    exact hs.order
  · rw [hg.2.2, e2.2.2, hp.2.2, id.2.2]
    exact e3
  · rw [id.2.2]
    omega

/-! ## Tasks -/

theorem getMp_full (hw : 8 ≤ w) {h : String} {key : Bytes} {n : Num w} (hg : getMp w h key = .ok (some n)) (h0 : val n.data ≠ 0) :
    ∃ d, Pem.getData (some (ascii h)) (some key) = .ok (some d) ∧ d ≠ [] := by
  obtain ⟨-, -, d, hd⟩ := getMp_spec hw hg
  refine ⟨d, hd, ?_⟩
  rintro rfl
  rw [getMp, Pem.getMpData, hd, Out.bind_ok] at hg
  simp only [Out.pure_eq, Out.ok.injEq, Option.some.injEq] at hg
  apply h0
  rw [← hg, ← isZeroD_iff, isZeroD, List.all_eq_true]
  have key : ∀ n, ∀ x ∈ Pem.digitsOfBytes w n [], x = 0 := by
    intro n
    induction n with
    | zero => simp [Pem.digitsOfBytes]
    | succ n ih =>
      simp only [Pem.digitsOfBytes, List.take_nil, List.drop_nil, List.foldr_nil, List.mem_cons]
      rintro x (rfl | hx)
      · rfl
      · exact ih x hx
  intro x hx
  simpa using key _ x hx

/-- The verifying task of the library with a public key. -/
theorem verifyTask_eq (hw : 8 ≤ w) (hash : HashFn) (fuel : Nat) (t : TaskCheck.Task) (ht : t.cipher = .dsa) {key inp : Bytes}
    {p q g e : Num w} (hk : t.key = some key) (hi : t.inp = some inp) (hi0 : inp ≠ []) (hk0 : key ≠ []) (k : Pub w key p q g e)
    (hp : val p.data ≠ 0) (hq : val q.data ≠ 0) (hg : val g.data ≠ 0) :
    verifyTask w hash fuel t = verify w hash fuel key inp := by
  have hc : TaskCheck.checkVerify t = .ok none := by
    rw [TaskCheck.checkVerify_iff]
    refine ⟨_, _, by rw [ht]; rfl, ⟨inp, hi, hi0⟩, ⟨key, hk, hk0⟩, ?_, ?_, by simp [TaskCheck.PssArgs, ht]⟩
    · rw [hk]
      intro h hh
      simp only [List.mem_cons, List.not_mem_nil, or_false] at hh
      rcases hh with rfl | rfl | rfl
      · exact getMp_full hw k.getP hp
      · exact getMp_full hw k.getQ hq
      · exact getMp_full hw k.getG hg
    · rw [hk]
      intro h hh
      simp only [List.mem_cons, List.not_mem_nil, or_false] at hh
      rw [hh]
      exact (getMp_spec hw k.getE).2.2
  rw [verifyTask, afterCheck, hc, Out.bind_ok]
  simp only [hk, hi]

/-- The signing task of the library with a private key. -/
theorem signTask_eq (hw : 8 ≤ w) (hash : HashFn) (rnd : Nat → Byte) (fuel : Nat) (t : TaskCheck.Task) (ht : t.cipher = .dsa)
    {key inp : Bytes} {p q g d : Num w} (hk : t.key = some key) (hi : t.inp = some inp) (hi0 : inp ≠ []) (hk0 : key ≠ [])
    (k : Priv w key p q g d) (hp : val p.data ≠ 0) (hq : val q.data ≠ 0) (hg : val g.data ≠ 0) :
    signTask w hash rnd fuel t = sign w hash rnd fuel key inp := by
  have hc : TaskCheck.checkSign t = .ok none := by
    rw [TaskCheck.checkSign_iff]
    refine ⟨_, _, by rw [ht]; rfl, ⟨inp, hi, hi0⟩, ⟨key, hk, hk0⟩, ?_, ?_, by simp [TaskCheck.PssArgs, ht]⟩
    · rw [hk]
      intro h hh
      simp only [List.mem_cons, List.not_mem_nil, or_false] at hh
      rcases hh with rfl | rfl | rfl
      · exact getMp_full hw k.getP hp
      · exact getMp_full hw k.getQ hq
      · exact getMp_full hw k.getG hg
    · rw [hk]
      intro h hh
      simp only [List.mem_cons, List.not_mem_nil, or_false] at hh
      rw [hh]
      exact (getMp_spec hw k.getD).2.2
  rw [signTask, afterCheck, hc, Out.bind_ok]
  simp only [hk, hi]

/-- The forgery through the library's task: for every message there is one document which every verifying task accepts, whatever
the public key, as long as its order is odd. -/
theorem dsa_forgery_task (hw : w = 32 ∨ w = 64) (x : Bytes) (hx : x ≠ []) : ∃ doc, ∀ (t : TaskCheck.Task) (hash : HashFn) (key : Bytes)
    (p q g e : Num w), t.cipher = .dsa → t.key = some key → key ≠ [] → t.inp = some doc → Digests hash → Pub w key p q g e →
    1 < val p.data → 1 < val q.data → val q.data % 2 = 1 → val g.data ≠ 0 → ∀ fuel, val q.data < fuel →
    verifyTask w hash fuel t = .ok (some (.success, some x)) := by
  obtain ⟨doc, h1, -, h3⟩ := dsa_forgery_doc hw x hx
  refine ⟨doc, fun t hash key p q g e ht hk hk0 hi hh k hp hq ho hg fuel hf => ?_⟩
  rw [verifyTask_eq (by rcases hw with rfl | rfl <;> decide) hash fuel t ht hk hi h1 hk0 k (by omega) (by omega) hg]
  exact h3 hash hh key p q g e k hp hq ho fuel hf

/-! ## Concrete cases -/

/-- Parameters 23, 11, 4 and the private key 5. -/
theorem sample : ∃ pub priv e, pub ≠ [] ∧ KeyPair 64 pub priv ⟨[23], false⟩ ⟨[11], false⟩ ⟨[4], false⟩ e ⟨[5], false⟩ := by
  obtain ⟨pub, priv, -, -, h3, -, h5, h6⟩ := keys_put (.inr rfl) (⟨[23], false⟩ : Num 64) ⟨[11], false⟩ ⟨[4], false⟩ ⟨[12], false⟩
    ⟨[5], false⟩ (by simp) (by simp) (by simp) (by simp) (by simp)
  exact ⟨pub, priv, _, h3, h5, h6, show Nat.Prime 11 by norm_num, by decide, by decide, by decide, by decide⟩

theorem sample_draw : Dl.draw (fun _ => 3#8) 40 one (⟨[11], false⟩ : Num 64) = .ok (some ⟨[3], false⟩) := by decide +kernel

theorem sumHash_run (x : Bytes) : runHash Rsa.sumHash x = .ok (some [x.foldl (· + ·) 0x5a#8]) := rfl

/-- A signature that verifies. -/
example : ∃ pub priv doc, sign 64 Rsa.sumHash (fun _ => 3#8) 40 priv (ascii "hi") = .ok (some (.success, some doc)) ∧
    verify 64 Rsa.sumHash 40 pub doc = .ok (some (.success, some (ascii "hi"))) := by
  obtain ⟨pub, priv, e, -, k⟩ := sample
  obtain ⟨doc, h⟩ := dsa_single_digit (.inr rfl) (by decide) (sumHash_run (ascii "hi")) (by simp) k rfl rfl _ 40 (by decide) sample_draw
    (by decide +kernel)
  exact ⟨pub, priv, doc, h⟩

/-- A signature that is made and refused. -/
example : ∃ pub priv doc, sign 64 Rsa.sumHash (fun _ => 3#8) 40 priv (ascii "hh") = .ok (some (.success, some doc)) ∧
    verify 64 Rsa.sumHash 40 pub doc = .ok (some (.invalidSignature, none)) := by
  obtain ⟨pub, priv, e, -, k⟩ := sample
  obtain ⟨doc, h⟩ := dsa_zero_refused (.inr rfl) (by decide) (sumHash_run (ascii "hh")) (by simp) k rfl rfl _ 40 (by decide) sample_draw
    (by decide +kernel) (by decide +kernel) (by decide +kernel)
  exact ⟨pub, priv, doc, h⟩

/-- A forgery. -/
example : ∃ pub priv e doc, KeyPair 64 pub priv ⟨[23], false⟩ ⟨[11], false⟩ ⟨[4], false⟩ e ⟨[5], false⟩ ∧
    verify 64 Rsa.sumHash 40 pub doc = .ok (some (.success, some (ascii "pay"))) := by
  obtain ⟨pub, priv, e, -, k⟩ := sample
  obtain ⟨doc, -, -, h⟩ := dsa_forgery_doc (w := 64) (.inr rfl) (ascii "pay") (by decide)
  exact ⟨pub, priv, e, doc, k, h _ (fun x _ => ⟨_, sumHash_run x, by simp⟩) pub _ _ _ _ k.isPub (by decide) (by decide) (by decide) 40
    (by decide)⟩

end Kryptos.Dsa
