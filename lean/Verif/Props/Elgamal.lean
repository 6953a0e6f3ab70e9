import Verif.Props.Dh
import Verif.Props.Rsa
import Verif.Model.Elgamal
/-
  ElGamal (C53).
-/
namespace Kryptos.Elgamal
open Mp Spec.Mp Hash
open Rsa (Res getMp putMps byteSize num Whole normed_whole getMp_spec taskOut_num rawBuffer_num num_lt)

variable {w : Nat}

theorem gP : Pem.Good (ascii "ELGAMAL PARAM P") := by refine ⟨?_, ?_, ?_, ?_, ?_⟩ <;> decide +kernel
theorem gQ : Pem.Good (ascii "ELGAMAL PARAM Q") := by refine ⟨?_, ?_, ?_, ?_, ?_⟩ <;> decide +kernel
theorem gG : Pem.Good (ascii "ELGAMAL PARAM G") := by refine ⟨?_, ?_, ?_, ?_, ?_⟩ <;> decide +kernel
theorem gB : Pem.Good (ascii "ELGAMAL PARAM B") := by refine ⟨?_, ?_, ?_, ?_, ?_⟩ <;> decide +kernel
theorem gD : Pem.Good (ascii "ELGAMAL PARAM D") := by refine ⟨?_, ?_, ?_, ?_, ?_⟩ <;> decide +kernel
theorem gE : Pem.Good (ascii "ELGAMAL PARAM E") := by refine ⟨?_, ?_, ?_, ?_, ?_⟩ <;> decide +kernel
theorem gY : Pem.Good (ascii "ELGAMAL PARAM Y") := by refine ⟨?_, ?_, ?_, ?_, ?_⟩ <;> decide +kernel

theorem getMp_is (hw : 8 ≤ w) {h : String} {buf : Bytes} {n : Num w} (hg : getMp w h buf = .ok (some n)) : Is n (val n.data) := by
  obtain ⟨h1, h2, -⟩ := getMp_spec hw hg
  exact .intro h2 h1

/-- The two halves of a key pair; `q` may be missing. -/
structure KeyPair (w : Nat) (pub priv : Bytes) (p : Num w) (q : Option (Num w)) (g b d : Num w) : Prop where
  pubP : getMp w "ELGAMAL PARAM P" pub = .ok (some p)
  pubQ : getMp w "ELGAMAL PARAM Q" pub = .ok q
  pubG : getMp w "ELGAMAL PARAM G" pub = .ok (some g)
  pubB : getMp w "ELGAMAL PARAM B" pub = .ok (some b)
  privP : getMp w "ELGAMAL PARAM P" priv = .ok (some p)
  privD : getMp w "ELGAMAL PARAM D" priv = .ok (some d)
  prime : (val p.data).Prime
  unit : ¬ val p.data ∣ val g.data
  range : val d.data < val p.data
  match_ : val b.data ≡ val g.data ^ val d.data [MOD val p.data]

/-- The number modulo which the ephemeral key is drawn. -/
def ord (p : Num w) (q : Option (Num w)) : Num w := match q with
  | some q => q
  | none => p

/-! ## The steps -/

theorem mulMod_run (hw : 16 ≤ w) {x y n : Num w} {a b c : Nat} (hx : Is x a) (hy : Is y b) (hn : Is n c) (hc : c ≠ 0) :
    ∃ r B, mulMod x (some y) n = .ok (some r) ∧ Is r B ∧ Normed r ∧ B ≡ a * b [MOD c] ∧ (DivFine w n (a * b) → B = a * b % c) :=
  hx.mulmod hw hy hn hc

theorem encryptWith_run (hw : w = 32 ∨ w = 64) {p g b x i : Num w} {P G B X I : Nat} (hp : Is p P) (hg : Is g G) (hb : Is b B) (hx : Is x X)
    (hi : Is i I) (hP : P ≠ 0) :
    ∃ (doc : Bytes) (y ke km : Num w) (Y KE KM : Nat), encryptWith p g b x i = .ok (.success, some doc) ∧ doc ≠ [] ∧ Is y Y ∧ Is ke KE ∧ Is km KM ∧
      getMp w "ELGAMAL PARAM Y" doc = .ok (some y) ∧ getMp w "ELGAMAL PARAM E" doc = .ok (some ke) ∧
      KE ≡ G ^ I [MOD P] ∧ (sig p.data = p.data.length → MeetsNoOverflow w G I P → KE = G ^ I % P) ∧
      KM ≡ B ^ I [MOD P] ∧ (sig p.data = p.data.length → MeetsNoOverflow w B I P → KM = B ^ I % P) ∧
      Y ≡ X * KM [MOD P] ∧ (DivFine w p (X * KM) → Y = X * KM % P) := by
  have hw16 : 16 ≤ w := by rcases hw with rfl | rfl <;> decide
  obtain ⟨ke, KE, a1, a2, -, a3, a4⟩ := hg.me hw16 hi hp hP
  obtain ⟨km, KM, b1, b2, -, b3, b4⟩ := hb.me hw16 hi hp hP
  obtain ⟨y, Y, c1, c2, -, c3, c4⟩ := mulMod_run hw16 hx b2 hp hP
  obtain ⟨doc, d1, d2, d3⟩ := Rsa.putMps_get hw [("ELGAMAL PARAM Y", y), ("ELGAMAL PARAM E", ke)] (by simp)
    (by simp [gY, gE, List.ne_nil_of_length_pos c2.1, List.ne_nil_of_length_pos a2.1])
    (by simp only [List.map_cons, List.map_nil]; decide +kernel)
  have e1 := d3 ("ELGAMAL PARAM Y", y) (by simp)
  have e2 := d3 ("ELGAMAL PARAM E", ke) (by simp)
  simp only [Dh.num_eta c2, Dh.num_eta a2] at e1 e2
  refine ⟨doc, y, ke, km, Y, KE, KM, ?_, d2, c2, a2, b2, e1, e2, a3, a4, b3, b4, c3, c4⟩
  simp only [encryptWith, a1, b1, c1, Out.bind_ok, d1]

/-- The exponent of decryption. -/
theorem exponent_is (hw : 8 ≤ w) {p d : Num w} {P D : Nat} (hp : Is p P) (hd : Is d D) (hlt : D < P) :
    ∃ t r, sub (assign none p) d = .ok t ∧ sub t one = .ok r ∧ Is r (P - 1 - D) := by
  obtain ⟨t, h1, h2⟩ := (hp.assignOpt hw none).sub hw hd (by omega)
  obtain ⟨r, h3, h4⟩ := h2.sub hw (is_one (by omega)) (by omega)
  exact ⟨t, r, h1, h3, by rw [show P - 1 - D = P - D - 1 by omega]; exact h4⟩

theorem decrypt_run (hw : w = 32 ∨ w = 64) {pub priv doc : Bytes} {p g b d : Num w} {q : Option (Num w)}
    (k : KeyPair w pub priv p q g b d) {y ke : Num w} {Y KE : Nat} (hy : getMp w "ELGAMAL PARAM Y" doc = .ok (some y))
    (he : getMp w "ELGAMAL PARAM E" doc = .ok (some ke)) (iy : Is y Y) (ie : Is ke KE) :
    ∃ (x ki : Num w) (X KI : Nat), decrypt w priv doc = .ok (.success, some (asTaskOut x)) ∧ Is x X ∧ Normed x ∧ Is ki KI ∧
      mulMod y (some ki) p = .ok (some x) ∧
      KI ≡ KE ^ (val p.data - 1 - val d.data) [MOD val p.data] ∧ (sig p.data = p.data.length →
        MeetsNoOverflow w KE (val p.data - 1 - val d.data) (val p.data) → KI = KE ^ (val p.data - 1 - val d.data) % val p.data) ∧
      X ≡ Y * KI [MOD val p.data] ∧ (DivFine w p (Y * KI) → X = Y * KI % val p.data) := by
  have hw16 : 16 ≤ w := by rcases hw with rfl | rfl <;> decide
  have ip := getMp_is (by omega) k.pubP
  have id := getMp_is (by omega) k.privD
  have hP : val p.data ≠ 0 := k.prime.ne_zero
  obtain ⟨t, r, r1, r2, r3⟩ := exponent_is (by omega) ip id k.range
  obtain ⟨ki, KI, a1, a2, -, a3, a4⟩ := ie.me hw16 r3 ip hP
  obtain ⟨x, X, c1, c2, c5, c3, c4⟩ := mulMod_run hw16 iy a2 ip hP
  refine ⟨x, ki, X, KI, ?_, c2, c5, a2, c1, a3, a4, c3, c4⟩
  rw [decrypt, k.privP, Out.bind_ok]
  simp only [k.privD, Out.bind_ok, r1, r2, he, a1, hy, c1, Out.pure_eq]

/-- Decryption undoes encryption, on numbers. -/
theorem elgamal_pow {P G D B X I : Nat} (hp : P.Prime) (hu : ¬ P ∣ G) (hd : D < P) (hb : B ≡ G ^ D [MOD P]) :
    X * B ^ I * (G ^ I) ^ (P - 1 - D) ≡ X [MOD P] := by
  have hf : G ^ (P - 1) ≡ 1 [MOD P] := by
    have := Nat.ModEq.pow_totient ((Nat.Prime.coprime_iff_not_dvd hp).2 hu).symm
    rwa [Nat.totient_prime hp] at this
  calc X * B ^ I * (G ^ I) ^ (P - 1 - D) ≡ X * (G ^ D) ^ I * (G ^ I) ^ (P - 1 - D) [MOD P] :=
        ((hb.pow I).mul_left X).mul_right _
    _ = X * (G ^ (P - 1)) ^ I := by
      rw [Nat.mul_assoc, ← pow_mul, ← pow_mul, ← pow_mul, ← pow_add]
      congr 2
      rw [Nat.mul_comm D I, ← Nat.mul_add, Nat.mul_comm (P - 1) I]
      congr 1
      omega
    _ ≡ X * 1 ^ I [MOD P] := (hf.pow I).mul_left X
    _ = X := by rw [one_pow, Nat.mul_one]

/-- The divisions of encryption and decryption are among those which `kryptos_mp_div` does right. -/
structure Fine (p : Num w) (G B D X I : Nat) : Prop where
  top : sig p.data = p.data.length
  gi : MeetsNoOverflow w G I (val p.data)
  bi : MeetsNoOverflow w B I (val p.data)
  y : DivFine w p (X * (B ^ I % val p.data))
  inv : MeetsNoOverflow w (G ^ I % val p.data) (val p.data - 1 - D) (val p.data)
  x : DivFine w p ((X * (B ^ I % val p.data) % val p.data) * ((G ^ I % val p.data) ^ (val p.data - 1 - D) % val p.data))

theorem fine_single {p : Num w} (hP : val p.data ≠ 0) (h1 : p.data.length = 1) (G B D X I : Nat) : Fine p G B D X I := by
  have h := fun a k => meets_single p hP h1 a k
  have h' := divFine_single p hP h1
  exact ⟨(h 0 0).1, (h _ _).2, (h _ _).2, h' _, (h _ _).2, h' _⟩

/-- A product whose reduction overflows a quotient guess comes out not reduced. -/
theorem mulMod_wrong (hw : 16 ≤ w) {x y n r : Num w} {a b : Nat} (hx : Is x a) (hy : Is y b) (hn : n.neg = false) (hn0 : val n.data ≠ 0)
    (j : Nat) (hj : GuessOverflows w (a * b) (val n.data) j) (h : mulMod x (some y) n = .ok (some r)) : val n.data ≤ val r.data := by
  obtain ⟨m, h1, h2⟩ := hx.mul (by omega) hy
  obtain ⟨q, r', d1, -, -, -, -, -, d7⟩ := div_exact_iff hw m n (List.ne_nil_of_length_pos h2.1) h2.2.1 hn hn0
  simp only [mulMod, mulO, modO, h1, d1, Out.bind_ok, Option.map_some, Out.ok.injEq, Option.some.injEq] at h
  subst h
  by_contra hlt
  exact (d7.1 (by omega)).2 j (by rw [h2.2.2]; exact hj)

/-! ## Encryption and decryption -/

/-- The encrypting function up to the choice of the ephemeral key. -/
theorem encrypt_run (hw : w = 32 ∨ w = 64) {pub priv : Bytes} {p g b d : Num w} {q : Option (Num w)} (k : KeyPair w pub priv p q g b d)
    (inp : Bytes) (hi : inp ≠ []) (h0 : 0 < num inp) (hlt : num inp < val p.data) (rnd : Nat → Byte) (fuel : Nat) {i : Num w}
    (hd : Dl.draw rnd fuel two (ord p q) = .ok (some i)) :
    ∃ x, Is x (num inp) ∧ encrypt w rnd fuel pub inp = (do let r ← encryptWith p g b x i; return some r) := by
  have hw16 : 16 ≤ w := by rcases hw with rfl | rfl <;> decide
  have ip := getMp_is (by omega) k.pubP
  obtain ⟨xd, x1, x2, x3, -⟩ := rawBuffer_num (w := w) hw inp hi
  have ix : Is (⟨xd, false⟩ : Num w) (num inp) := ⟨List.length_pos_iff.2 x3, rfl, x2⟩
  obtain ⟨p1, s1, s2⟩ := (ip.assignOpt (w := w) (by omega) none).sub (by omega) (is_one (by omega)) (by omega)
  refine ⟨⟨xd, false⟩, ix, ?_⟩
  rw [encrypt, k.pubP, Out.bind_ok]
  simp only [s1, Out.bind_ok, x1]
  rw [ix.lt (is_one (by omega)), ix.gt s2, decide_eq_false (show ¬ num inp < 1 by omega),
    decide_eq_false (show ¬ val p.data - 1 < num inp by omega)]
  simp only [Bool.or_self, Bool.false_eq_true, if_false, k.pubQ, k.pubG, k.pubB, Out.bind_ok]
  cases q <;> (simp only [ord] at hd; simp only [hd, Out.bind_ok])

/-- Messages that are zero or not below the modulus are refused. -/
theorem elgamal_range (hw : w = 32 ∨ w = 64) {pub priv : Bytes} {p g b d : Num w} {q : Option (Num w)} (k : KeyPair w pub priv p q g b d)
    (inp : Bytes) (hi : inp ≠ []) (h : num inp = 0 ∨ val p.data ≤ num inp) (rnd : Nat → Byte) (fuel : Nat) :
    encrypt w rnd fuel pub inp = .ok (some (.invalidParams, none)) := by
  have hw16 : 16 ≤ w := by rcases hw with rfl | rfl <;> decide
  have ip := getMp_is (by omega) k.pubP
  have hP := k.prime.two_le
  obtain ⟨xd, x1, x2, x3, -⟩ := rawBuffer_num (w := w) hw inp hi
  have ix : Is (⟨xd, false⟩ : Num w) (num inp) := ⟨List.length_pos_iff.2 x3, rfl, x2⟩
  obtain ⟨p1, s1, s2⟩ := (ip.assignOpt (w := w) (by omega) none).sub (by omega) (is_one (by omega)) (by omega)
  rw [encrypt, k.pubP, Out.bind_ok]
  simp only [s1, Out.bind_ok, x1]
  rw [ix.lt (is_one (by omega)), ix.gt s2]
  have : (decide (num inp < 1) || decide (val p.data - 1 < num inp)) = true := by
    simp only [Bool.or_eq_true, decide_eq_true_eq]
    omega
  rw [this]
  rfl

/-- For every key pair, every message in the range and whatever ephemeral key is drawn, encryption and decryption succeed; what is
decrypted is congruent to the message, and when no quotient guess of a division overflows it is the message: as a number, and byte
by byte for messages of whole digits. -/
theorem elgamal_run (hw : w = 32 ∨ w = 64) {pub priv : Bytes} {p g b d : Num w} {q : Option (Num w)} (k : KeyPair w pub priv p q g b d)
    (inp : Bytes) (hi : inp ≠ []) (h0 : 0 < num inp) (hlt : num inp < val p.data) (rnd : Nat → Byte) (fuel : Nat) {i : Num w} {I : Nat}
    (hd : Dl.draw rnd fuel two (ord p q) = .ok (some i)) (ii : Is i I) :
    ∃ c out, encrypt w rnd fuel pub inp = .ok (some (.success, some c)) ∧ c ≠ [] ∧ decrypt w priv c = .ok (.success, some out) ∧
      num out ≡ num inp [MOD val p.data] ∧
      (Fine p (val g.data) (val b.data) (val d.data) (num inp) I → num out = num inp ∧ (Whole w inp → out = inp)) := by
  have hw16 : 16 ≤ w := by rcases hw with rfl | rfl <;> decide
  have ip := getMp_is (by omega) k.pubP
  have ig := getMp_is (by omega) k.pubG
  have ib := getMp_is (by omega) k.pubB
  obtain ⟨x, ix, hx⟩ := encrypt_run hw k inp hi h0 hlt rnd fuel hd
  obtain ⟨doc, y, ke, km, Y, KE, KM, e1, e2, iy, ie, ik, gy, ge, c1, c2, c3, c4, c5, c6⟩ :=
    encryptWith_run hw ip ig ib ix ii k.prime.ne_zero
  obtain ⟨r, ki, R, KI, d1, d2, d3, d4, -, d5, d6, d7, d8⟩ := decrypt_run hw k gy ge iy ie
  obtain ⟨t1, -⟩ := taskOut_num hw r
  have main := elgamal_pow (X := num inp) (I := I) k.prime k.unit k.range k.match_
  refine ⟨doc, _, by rw [hx, e1]; rfl, e2, d1, ?_, fun f => ?_⟩
  · rw [t1, d2.2.2]
    calc R ≡ Y * KI [MOD val p.data] := d7
      _ ≡ num inp * KM * KE ^ (val p.data - 1 - val d.data) [MOD val p.data] := c5.mul d5
      _ ≡ num inp * val b.data ^ I * (val g.data ^ I) ^ (val p.data - 1 - val d.data) [MOD val p.data] :=
        (c3.mul_left _).mul (c1.pow _)
      _ ≡ num inp [MOD val p.data] := main
  · obtain rfl := c2 f.top f.gi
    obtain rfl := c4 f.top f.bi
    obtain rfl := c6 f.y
    obtain rfl := d6 f.top f.inv
    have hR := d8 f.x
    have hval : R = num inp := by
      rw [hR, ← Nat.mod_eq_of_lt hlt]
      refine Nat.ModEq.trans ?_ main
      rw [← Nat.mul_mod, ← Nat.pow_mod, ← Nat.mul_mod_mod]
      exact ((Nat.mod_modEq _ _).trans (Nat.mul_mod_mod _ _ _)).mul (Nat.mod_modEq _ _)
    exact ⟨by rw [t1, d2.2.2, hval], fun hW => normed_whole hw r d3 inp hW (by rw [d2.2.2, hval])⟩

/-- C53: decryption returns the message, whatever ephemeral key is drawn.  Missing for the full property: the keys and messages for
which a quotient guess overflows (`elgamal_wrong`), and messages which are not of whole digits, which come back with zeros in front or
without leading zero digits. -/
theorem elgamal_roundtrip_partial (hw : w = 32 ∨ w = 64) {pub priv : Bytes} {p g b d : Num w} {q : Option (Num w)}
    (k : KeyPair w pub priv p q g b d) (inp : Bytes) (hW : Whole w inp) (h0 : 0 < num inp) (hlt : num inp < val p.data)
    (rnd : Nat → Byte) (fuel : Nat) {i : Num w} {I : Nat} (hd : Dl.draw rnd fuel two (ord p q) = .ok (some i)) (ii : Is i I)
    (f : Fine p (val g.data) (val b.data) (val d.data) (num inp) I) :
    ∃ c, encrypt w rnd fuel pub inp = .ok (some (.success, some c)) ∧ decrypt w priv c = .ok (.success, some inp) := by
  have hi : inp ≠ [] := by
    rintro rfl
    exact absurd h0 (by decide)
  obtain ⟨c, out, h1, -, h2, -, h3⟩ := elgamal_run hw k inp hi h0 hlt rnd fuel hd ii
  obtain rfl := (h3 f).2 hW
  exact ⟨c, h1, h2⟩

theorem draw_is (hw : 8 ≤ w) (rnd : Nat → Byte) (fuel : Nat) {lo n i : Num w} (h : Dl.draw rnd fuel lo n = .ok (some i)) : ∃ I, Is i I := by
  rw [Dl.draw] at h
  cases hs : sub (assign none n) lo with
  | ub => rw [hs] at h; simp at h
  | ok hi =>
    rw [hs, Out.bind_ok] at h
    cases hm : Dl.topMask hi.data with
    | ub => rw [hm] at h; simp at h
    | ok mask =>
      rw [hm, Out.bind_ok] at h
      have key : ∀ f j, Dl.drawLoop rnd mask lo hi n.data.length f j = .ok (some i) → ∃ I, Is i I := by
        intro f
        induction f with
        | zero => intro j h; simp [Dl.drawLoop] at h
        | succ f ih =>
          intro j h
          obtain ⟨X, hX⟩ := Dl.rand_is hw rnd j (n.data.length * w)
          have hx := Is.intro (a := (⟨Dl.andLast mask (rand w rnd j (n.data.length * w)).data, false⟩ : Num w))
            (List.length_pos_iff.1 (by rw [Dl.andLast_length]; exact hX.1)) rfl
          simp only [Dl.drawLoop] at h
          split at h
          · exact ih _ h
          · simp only [Out.ok.injEq, Option.some.injEq] at h
            exact ⟨_, h ▸ hx⟩
      exact key _ _ h

/-- For a modulus of one digit there are no conditions on the divisions. -/
theorem elgamal_single_digit (hw : w = 32 ∨ w = 64) {pub priv : Bytes} {p g b d : Num w} {q : Option (Num w)}
    (k : KeyPair w pub priv p q g b d) (h1 : p.data.length = 1) (inp : Bytes) (hl : inp.length = w / 8) (h0 : 0 < num inp)
    (hlt : num inp < val p.data) (rnd : Nat → Byte) (fuel : Nat) {i : Num w} (hd : Dl.draw rnd fuel two (ord p q) = .ok (some i)) :
    ∃ c, encrypt w rnd fuel pub inp = .ok (some (.success, some c)) ∧ decrypt w priv c = .ok (.success, some inp) := by
  obtain ⟨I, ii⟩ := draw_is (by rcases hw with rfl | rfl <;> decide) rnd fuel hd
  exact elgamal_roundtrip_partial hw k inp ⟨1, le_refl _, by omega, .inl rfl⟩ h0 hlt rnd fuel hd ii
    (fine_single k.prime.ne_zero h1 _ _ _ _ _)

/-- With OAEP. -/
theorem elgamal_oaep_partial (hw : w = 32 ∨ w = 64) {pub priv : Bytes} {p g b d : Num w} {q : Option (Num w)}
    (k : KeyPair w pub priv p q g b d) {hash : HashFn} {H : Bytes → Bytes} {h : Nat} (hh : Oaep.HashOk hash H h) (seed : Option Bytes)
    (inp em : Bytes) (label : Option Bytes) (hsd : ∀ x, seed = some x → x.length = h) (hlb : (Oaep.labelOf label).length < 2 ^ 61)
    (hk : byteSize p < 2 ^ 60) (hem : Oaep.apply hash h seed inp (byteSize p) label = .ok (some em))
    (hW : Whole w em) (h0 : 0 < num em) (hlt : num em < val p.data)
    (rnd : Nat → Byte) (fuel : Nat) {i : Num w} {I : Nat} (hd : Dl.draw rnd fuel two (ord p q) = .ok (some i)) (ii : Is i I)
    (f : Fine p (val g.data) (val b.data) (val d.data) (num em) I) :
    ∃ c, oaep w rnd fuel hash h seed label .encrypt pub inp = .ok (some (.success, some c)) ∧
      oaep w rnd fuel hash h none label .decrypt priv c = .ok (some (.success, some inp)) := by
  obtain ⟨h1, h2⟩ := Oaep.oaep_roundtrip hh seed inp em (byteSize p) label hsd hlb hk hem
  obtain ⟨c, a1, a2⟩ := elgamal_roundtrip_partial hw k em hW h0 hlt rnd fuel hd ii f
  refine ⟨c, ?_, ?_⟩
  · rw [oaep, k.pubP, Out.bind_ok]
    simp only [if_true, hem, Out.bind_ok, a1]
  · rw [oaep, k.privP, Out.bind_ok]
    simp only [a2, Out.bind_ok, h2, Out.pure_eq]
    rfl

/-! ## Keys and tasks -/

theorem keys_put (hw : w = 32 ∨ w = 64) (p q g b d : Num w) (hp : p.data ≠ []) (hq : q.data ≠ []) (hg : g.data ≠ []) (hb : b.data ≠ [])
    (hd : d.data ≠ []) :
    ∃ pub priv, putMps none [("ELGAMAL PARAM P", p), ("ELGAMAL PARAM Q", q), ("ELGAMAL PARAM G", g), ("ELGAMAL PARAM B", b)] =
        .ok (.success, some pub) ∧
      putMps none [("ELGAMAL PARAM P", p), ("ELGAMAL PARAM D", d)] = .ok (.success, some priv) ∧ pub ≠ [] ∧ priv ≠ [] ∧
      getMp w "ELGAMAL PARAM P" pub = .ok (some ⟨p.data, false⟩) ∧ getMp w "ELGAMAL PARAM Q" pub = .ok (some ⟨q.data, false⟩) ∧
      getMp w "ELGAMAL PARAM G" pub = .ok (some ⟨g.data, false⟩) ∧ getMp w "ELGAMAL PARAM B" pub = .ok (some ⟨b.data, false⟩) ∧
      getMp w "ELGAMAL PARAM P" priv = .ok (some ⟨p.data, false⟩) ∧ getMp w "ELGAMAL PARAM D" priv = .ok (some ⟨d.data, false⟩) := by
  obtain ⟨pub, h1, h2, h3⟩ := Rsa.putMps_get hw [("ELGAMAL PARAM P", p), ("ELGAMAL PARAM Q", q), ("ELGAMAL PARAM G", g), ("ELGAMAL PARAM B", b)]
    (by simp) (by simp [gP, gQ, gG, gB, hp, hq, hg, hb]) (by simp only [List.map_cons, List.map_nil]; decide +kernel)
  obtain ⟨priv, h4, h5, h6⟩ := Rsa.putMps_get hw [("ELGAMAL PARAM P", p), ("ELGAMAL PARAM D", d)] (by simp)
    (by simp [gP, gD, hp, hd]) (by simp only [List.map_cons, List.map_nil]; decide +kernel)
  have a1 := h3 ("ELGAMAL PARAM P", p) (by simp)
  have a2 := h3 ("ELGAMAL PARAM Q", q) (by simp)
  have a3 := h3 ("ELGAMAL PARAM G", g) (by simp)
  have a4 := h3 ("ELGAMAL PARAM B", b) (by simp)
  have b1 := h6 ("ELGAMAL PARAM P", p) (by simp)
  have b2 := h6 ("ELGAMAL PARAM D", d) (by simp)
  exact ⟨pub, priv, h1, h4, h2, h5, a1, a2, a3, a4, b1, b2⟩

/-- The keys that the library makes are the two halves of a key pair, whatever private key was drawn, when the modulus is prime and the
parameters pass the library's check. -/
theorem elgamal_keys (hw : w = 32 ∨ w = 64) {p q g d : Num w} {P Q G : Nat} (hp : Is p P) (hq : Is q Q) (hg : Is g G) (hprime : P.Prime)
    (hs : Dl.Sound P Q G) (hQ : 2 ≤ Q) (rnd : Nat → Byte) (fuel : Nat) (hd : Dl.draw rnd fuel two q = .ok (some d)) :
    ∃ pub priv b, mkKeys rnd fuel p q g = .ok (some (.success, some pub, some priv)) ∧ pub ≠ [] ∧ priv ≠ [] ∧
      KeyPair w pub priv p (some q) g b d ∧ meModN g d p = .ok (some b) := by
  have hw16 : 16 ≤ w := by rcases hw with rfl | rfl <;> decide
  have h1 := hs.lower
  have h2 := hs.upper
  have hP := hprime.two_le
  obtain ⟨D, id, d1, d2⟩ := Dl.draw_range (by omega) rnd fuel (is_two (w := w) (by omega)) hq (by omega) hd
  have hQP : Q ≤ P - 1 := Nat.le_of_dvd (by omega) hs.divides
  obtain ⟨b, B, e1, e2, -, e3, -⟩ := hg.me hw16 id hp (by omega)
  obtain ⟨pub, priv, h1, h2, h3, h4, h5, h6, h7, h8, h9, h10⟩ := keys_put hw p q g b d (List.ne_nil_of_length_pos hp.1)
    (List.ne_nil_of_length_pos hq.1) (List.ne_nil_of_length_pos hg.1) (List.ne_nil_of_length_pos e2.1) (List.ne_nil_of_length_pos id.1)
  rw [Dh.num_eta hp] at h5 h9
  rw [Dh.num_eta hq] at h6
  rw [Dh.num_eta hg] at h7
  rw [Dh.num_eta e2] at h8
  rw [Dh.num_eta id] at h10
  refine ⟨pub, priv, b, by simp [mkKeys, hd, e1, h1, h2], h3, h4, ⟨h5, h6, h7, h8, h9, h10, by rw [hp.2.2]; exact hprime, ?_, ?_, ?_⟩, e1⟩
  · rw [hp.2.2, hg.2.2]
    intro hdvd
    have := Nat.le_of_dvd (by omega) hdvd
    omega
  · rw [id.2.2, hp.2.2]
    omega
  · rw [e2.2.2, hg.2.2, id.2.2, hp.2.2]
    exact e3

/-- The encrypting task of the library with a public key. -/
theorem cipher_encrypt (hw : 8 ≤ w) (rnd : Nat → Byte) (fuel : Nat) (t : TaskCheck.Task) (ht : t.cipher = .elgamal) (ha : t.action = .encrypt)
    {pub priv inp : Bytes} {p g b d : Num w} {q : Option (Num w)} (k : KeyPair w pub priv p q g b d) (hk : t.key = some pub)
    (hi : t.inp = some inp) (hk0 : pub ≠ []) (hi0 : inp ≠ []) : cipher w rnd fuel t = encrypt w rnd fuel pub inp := by
  have hp : TaskCheck.check t = .ok none := by
    rw [TaskCheck.check_pk (o := false) (pub := TaskCheck.elgPub) (priv := TaskCheck.elgPriv) (by rw [ht]; rfl) (by rw [ha]; simp)]
    refine ⟨⟨pub, hk, hk0⟩, ⟨inp, hi, hi0⟩, by simp [ht], .inl ⟨ha, ?_⟩, by simp⟩
    rw [hk]
    intro h hh
    simp only [TaskCheck.elgPub, List.mem_cons, List.not_mem_nil, or_false] at hh
    rcases hh with rfl | rfl | rfl
    · exact (getMp_spec hw k.pubP).2.2
    · exact (getMp_spec hw k.pubG).2.2
    · exact (getMp_spec hw k.pubB).2.2
  rw [cipher, afterCheck, hp, Out.bind_ok]
  simp only [hk, hi, ha]

/-- The decrypting task of the library with a private key. -/
theorem cipher_decrypt (hw : 8 ≤ w) (rnd : Nat → Byte) (fuel : Nat) (t : TaskCheck.Task) (ht : t.cipher = .elgamal) (ha : t.action = .decrypt)
    {pub priv inp : Bytes} {p g b d : Num w} {q : Option (Num w)} (k : KeyPair w pub priv p q g b d) (hk : t.key = some priv)
    (hi : t.inp = some inp) (hk0 : priv ≠ []) (hi0 : inp ≠ []) :
    cipher w rnd fuel t = (do let r ← decrypt w priv inp; return some r) := by
  have hp : TaskCheck.check t = .ok none := by
    rw [TaskCheck.check_pk (o := false) (pub := TaskCheck.elgPub) (priv := TaskCheck.elgPriv) (by rw [ht]; rfl) (by rw [ha]; simp)]
    refine ⟨⟨priv, hk, hk0⟩, ⟨inp, hi, hi0⟩, by simp [ht], .inr ⟨ha, ?_⟩, by simp⟩
    rw [hk]
    intro h hh
    simp only [TaskCheck.elgPriv, List.mem_cons, List.not_mem_nil, or_false] at hh
    rcases hh with rfl | rfl
    · exact (getMp_spec hw k.privP).2.2
    · exact (getMp_spec hw k.privD).2.2
  rw [cipher, afterCheck, hp, Out.bind_ok]
  simp only [hk, hi, ha]

/-- A generation of parameters that fails is not noticed: the function goes on with `NULL` numbers. -/
theorem elgamal_keys_undefined (rnd : Nat → Nat → Nat → Byte) (rndD : Nat → Byte) (fuel pBits qBits : Nat)
    (h : Dl.generate w rnd pBits qBits fuel 0 = .ok (some none)) : mkKeyPair w rnd rndD fuel pBits qBits = .ub := by
  rw [mkKeyPair, h, Out.bind_ok]

/-! ## Concrete cases -/

open Dh (sampleP sample_prime sample_shape)

def wrongG : Num 64 := ⟨[0xeb4b5dc776dbb5d0, 0x2f4cc8a9d7dfab76], false⟩
def wrongQ : Num 64 := ⟨[13297], false⟩
def wrongX : Bytes := [0xb1, 0x5b, 0x25, 0x55, 0xcd, 0x0f, 0xf7, 0x94, 0x5b, 0x72, 0x78, 0xe8, 0x56, 0x97, 0x64, 0x61]

/-- C53 is violated: with these parameters, a prime modulus, a generator of prime order, keys made by the library, and a message of two
whole digits below the modulus, encryption and decryption succeed and another message is decrypted. -/
theorem elgamal_wrong : (val sampleP.data).Prime ∧ (val wrongQ.data).Prime ∧ Dl.Sound (val sampleP.data) (val wrongQ.data) (val wrongG.data) ∧
    0 < num wrongX ∧ num wrongX < val sampleP.data ∧
    ∃ pub priv c out, mkKeys (fun i => if i % 8 = 7 then 7#8 else 0) 40 sampleP wrongQ wrongG = .ok (some (.success, some pub, some priv)) ∧
      encrypt 64 (fun i => if i % 8 = 7 then 2#8 else 0) 40 pub wrongX = .ok (some (.success, some c)) ∧ decrypt 64 priv c = .ok (.success, some out) ∧
      out ≠ wrongX := by
  have hsound : Dl.Sound (val sampleP.data) (val wrongQ.data) (val wrongG.data) := by
    refine ⟨by decide +kernel, by decide +kernel, by decide +kernel, ?_⟩
    rw [Nat.ModEq, ← Pratt.powM_small _ _ _ 14 (by decide +kernel) (by decide +kernel)]
    decide +kernel
  have h0 : 0 < num wrongX := by decide +kernel
  have hlt : num wrongX < val sampleP.data := by decide +kernel
  refine ⟨sample_prime, show Nat.Prime 13297 by norm_num, hsound, h0, hlt, ?_⟩
  have ip : Is sampleP (val sampleP.data) := .intro (by decide) rfl
  have iq : Is wrongQ (val wrongQ.data) := .intro (by decide) rfl
  have ig : Is wrongG (val wrongG.data) := .intro (by decide) rfl
  have i2 : Is (⟨[2], false⟩ : Num 64) 2 := .intro (by decide) rfl
  have i7 : Is (⟨[7], false⟩ : Num 64) 7 := .intro (by decide) rfl
  have hd7 : Dl.draw (fun i => if i % 8 = 7 then 7#8 else 0) 40 two wrongQ = .ok (some ⟨[7], false⟩) := by decide +kernel
  have hd2 : Dl.draw (fun i => if i % 8 = 7 then 2#8 else 0) 40 two wrongQ = .ok (some ⟨[2], false⟩) := by decide +kernel
  have hs : sig sampleP.data = sampleP.data.length := by decide +kernel
  have hP0 : val sampleP.data ≠ 0 := by decide +kernel
  obtain ⟨pub, priv, b, k1, k2, k3, k, kb⟩ := elgamal_keys (w := 64) (.inr rfl) ip iq ig sample_prime hsound (by decide +kernel) _ _ hd7
  have meets : ∀ b e K, meetsB 64 2 0 (val sampleP.data) 4 b e K = true → MeetsNoOverflow 64 b e (val sampleP.data) :=
    fun b e K h => meetsB_spec (l := 2) (s := 0) (J := 4) (K := K) sample_shape h
  obtain ⟨b', Bv, x1, x2, -, -, x3⟩ := ig.me (by decide) i7 ip hP0
  rw [kb, Out.ok.injEq, Option.some.injEq] at x1
  subst x1
  have hB := x3 hs (meets _ _ 3 (by decide +kernel))
  obtain ⟨x, ix, hx⟩ := encrypt_run (.inr rfl) k wrongX (by decide) h0 hlt _ 40 hd2
  obtain ⟨doc, y, ke, km, Y, KE, KM, e1, e2, iy, ie, ik, gy, ge, c1, c2, c3, c4, c5, c6⟩ :=
    encryptWith_run (.inr rfl) ip ig x2 ix i2 hP0
  obtain ⟨r, ki, R, KI, d1, d2, d3, d4, dm, d5, d6, d7, d8⟩ := decrypt_run (.inr rfl) k gy ge iy ie
  obtain ⟨t1, -⟩ := taskOut_num (.inr rfl) r
  refine ⟨pub, priv, doc, _, k1, by rw [hx, e1]; rfl, d1, fun hout => ?_⟩
  have hKE := c2 hs (meets _ _ 2 (by decide +kernel))
  have hKM := c4 hs (meets _ _ 2 (by rw [hB]; decide +kernel))
  have hKM' : num wrongX * KM % val sampleP.data = 0x1cec966cd3d121b96 := by rw [hKM, hB]; decide +kernel
  have hY : Y = 0x1cec966cd3d121b96 := by
    rw [← hKM']
    exact c6 (.inr ⟨hs, fun j => safeB_spec (n := 2) (s := 0) (J := 4) sample_shape (by rw [hKM, hB]; decide +kernel) j⟩)
  have h7 : val (⟨[7], false⟩ : Num 64).data = 7 := by decide
  have hKI := d6 hs (meets _ _ 128 (by rw [hKE, h7]; decide +kernel))
  rw [h7, ← Pratt.powM_small _ _ _ 128 (by decide +kernel) (by decide +kernel), hKE] at hKI
  have hKI' : KI = 0x6f738f735a937739abf8624e6eb89de4 := by rw [hKI]; decide +kernel
  have hbad := mulMod_wrong (by decide) iy d4 rfl hP0 0 (by rw [hY, hKI', ← guessB_iff sample_shape]; decide +kernel) dm
  rw [← t1, hout] at hbad
  omega

/-- A ciphertext that comes back: parameters 23, 11, 4. -/
example : ∃ pub priv c, encrypt 64 (fun _ => 3#8) 40 pub [0, 0, 0, 0, 0, 0, 0, 17] = .ok (some (.success, some c)) ∧
    decrypt 64 priv c = .ok (.success, some [0, 0, 0, 0, 0, 0, 0, 17]) := by
  have hd : Dl.draw (fun _ => 3#8) 40 two (⟨[11], false⟩ : Num 64) = .ok (some ⟨[3], false⟩) := by decide +kernel
  obtain ⟨pub, priv, b, -, -, -, k, -⟩ := elgamal_keys (w := 64) (.inr rfl) (p := ⟨[23], false⟩) (q := ⟨[11], false⟩) (g := ⟨[4], false⟩)
    (P := 23) (Q := 11) (G := 4) (.intro (by decide) rfl) (.intro (by decide) rfl) (.intro (by decide) rfl) (by norm_num)
    ⟨by decide, by decide, by decide, by decide⟩ (by decide) _ _ hd
  obtain ⟨c, h⟩ := elgamal_single_digit (.inr rfl) k rfl [0, 0, 0, 0, 0, 0, 0, 17] rfl (by decide +kernel) (by decide +kernel) _ _ hd
  exact ⟨pub, priv, c, h⟩

/-- The keys of `elgamal_wrong`. -/
theorem wrong_keys : ∃ (pub priv : Bytes) (b : Num 64), pub ≠ [] ∧ priv ≠ [] ∧ KeyPair 64 pub priv sampleP (some wrongQ) wrongG b ⟨[7], false⟩ ∧
    val b.data = val wrongG.data ^ 7 % val sampleP.data := by
  have ip : Is sampleP (val sampleP.data) := .intro (by decide) rfl
  have iq : Is wrongQ (val wrongQ.data) := .intro (by decide) rfl
  have ig : Is wrongG (val wrongG.data) := .intro (by decide) rfl
  have i7 : Is (⟨[7], false⟩ : Num 64) 7 := .intro (by decide) rfl
  have hd7 : Dl.draw (fun i => if i % 8 = 7 then 7#8 else 0) 40 two wrongQ = .ok (some ⟨[7], false⟩) := by decide +kernel
  have hP0 : val sampleP.data ≠ 0 := by decide +kernel
  obtain ⟨pub, priv, b, k1, k2, k3, k, kb⟩ := elgamal_keys (w := 64) (.inr rfl) ip iq ig sample_prime elgamal_wrong.2.2.1
    (by decide +kernel) _ _ hd7
  obtain ⟨b', Bv, x1, x2, -, -, x3⟩ := ig.me (by decide) i7 ip hP0
  rw [kb, Out.ok.injEq, Option.some.injEq] at x1
  subst x1
  exact ⟨pub, priv, b, k2, k3, k, x2.2.2.trans (x3 (by decide +kernel) (meetsB_spec (l := 2) (s := 0) (J := 4) (K := 3) sample_shape
    (by decide +kernel)))⟩

/-- The divisions for the message `X` are right with these keys. -/
def fineB (X : Nat) : Bool :=
  let P := val sampleP.data
  let y := X * ((val wrongG.data ^ 7 % P) ^ 2 % P)
  safeB 64 2 0 P 4 y && safeB 64 2 0 P 4 (y % P * 0x6f738f735a937739abf8624e6eb89de4)

theorem fineB_spec {X : Nat} (h : fineB X = true) :
    Fine sampleP (val wrongG.data) (val wrongG.data ^ 7 % val sampleP.data) (val (⟨[7], false⟩ : Num 64).data) X 2 := by
  have h7 : val (⟨[7], false⟩ : Num 64).data = 7 := by decide
  have hs : sig sampleP.data = sampleP.data.length := by decide +kernel
  have meets : ∀ b e K, meetsB 64 2 0 (val sampleP.data) 4 b e K = true → MeetsNoOverflow 64 b e (val sampleP.data) :=
    fun b e K h => meetsB_spec (l := 2) (s := 0) (J := 4) (K := K) sample_shape h
  have hk : (val wrongG.data ^ 2 % val sampleP.data) ^ (val sampleP.data - 1 - 7) % val sampleP.data =
      0x6f738f735a937739abf8624e6eb89de4 := by
    rw [← Pratt.powM_small _ _ _ 128 (by decide +kernel) (by decide +kernel)]
    decide +kernel
  simp only [fineB, Bool.and_eq_true] at h
  rw [h7]
  exact ⟨hs, meets _ _ 2 (by decide +kernel), meets _ _ 2 (by decide +kernel), .inr ⟨hs, fun j => safeB_spec sample_shape h.1 j⟩,
    meets _ _ 128 (by decide +kernel), .inr ⟨hs, fun j => by rw [hk]; exact safeB_spec sample_shape h.2 j⟩⟩

/-- With the same keys, a message of two digits that comes back through the tasks of the library. -/
example : ∃ pub priv c : Bytes, c ≠ [] ∧
    cipher 64 (fun i => if i % 8 = 7 then 2#8 else 0) 40
      ⟨.elgamal, .nr, .encrypt, some pub, false, 0, some (ascii "attack at dawn!!"), fun _ => false⟩ = .ok (some (.success, some c)) ∧
    cipher 64 (fun i => if i % 8 = 7 then 2#8 else 0) 40 ⟨.elgamal, .nr, .decrypt, some priv, false, 0, some c, fun _ => false⟩ =
      .ok (some (.success, some (ascii "attack at dawn!!"))) := by
  obtain ⟨pub, priv, b, k1, k2, k, hb⟩ := wrong_keys
  have hd2 : Dl.draw (fun i => if i % 8 = 7 then 2#8 else 0) 40 two wrongQ = .ok (some ⟨[2], false⟩) := by decide +kernel
  obtain ⟨c, out, h1, h2, h3, -, h4⟩ := elgamal_run (.inr rfl) k (ascii "attack at dawn!!") (by decide +kernel) (by decide +kernel)
    (by decide +kernel) _ _ hd2 (I := 2) (.intro (by decide) rfl)
  have := (h4 (by rw [hb]; exact fineB_spec (by decide +kernel))).2 ⟨2, by decide, by decide +kernel, .inr (by decide +kernel)⟩
  subst this
  refine ⟨pub, priv, c, h2, ?_, ?_⟩
  · rw [cipher_encrypt (by decide) _ _ _ rfl rfl k rfl rfl k1 (by decide +kernel), h1]
  · rw [cipher_decrypt (by decide) _ _ _ rfl rfl k rfl rfl k2 h2, h3]
    rfl

/-- And one with OAEP. -/
example : ∃ pub priv c : Bytes,
    oaep 64 (fun i => if i % 8 = 7 then 2#8 else 0) 40 Rsa.sumHash 1 (some [7]) none .encrypt pub (ascii "hello") =
      .ok (some (.success, some c)) ∧
    oaep 64 (fun i => if i % 8 = 7 then 2#8 else 0) 40 Rsa.sumHash 1 none none .decrypt priv c =
      .ok (some (.success, some (ascii "hello"))) := by
  obtain ⟨pub, priv, b, k1, k2, k, hb⟩ := wrong_keys
  have hd2 : Dl.draw (fun i => if i % 8 = 7 then 2#8 else 0) 40 two wrongQ = .ok (some ⟨[2], false⟩) := by decide +kernel
  have h1 : Oaep.apply Rsa.sumHash 1 (some [7]) (ascii "hello") (byteSize sampleP) none = .ok (some Rsa.sampleEm) :=
    Oaep.oaep_apply Rsa.sumHash_ok [7] (ascii "hello") 16 none rfl (by decide) (by decide) (by decide +kernel) (by decide +kernel)
  obtain ⟨c, h2, h3⟩ := elgamal_oaep_partial (.inr rfl) k Rsa.sumHash_ok (some [7]) (ascii "hello") Rsa.sampleEm none (by simp) (by decide)
    (by decide) h1 ⟨2, by decide, by decide +kernel, .inr (by decide +kernel)⟩ (by decide +kernel) (by decide +kernel) _ _ hd2
    (I := 2) (.intro (by decide) rfl) (by rw [hb]; exact fineB_spec (by decide +kernel))
  exact ⟨pub, priv, c, h2, h3⟩

end Kryptos.Elgamal
