import Verif.Props.Rsa
import Verif.Props.MillerRabin
import Verif.Props.MpInv
/-
  The generation of RSA keys (C115).
-/
namespace Kryptos.Mp
open Spec.Mp

variable {w : Nat}

/-! ## A loop which has ended ends in the same way with more fuel -/

theorem stripEven_more (f : Nat) : ∀ (x r : Num w) (g : Nat), f ≤ g → stripEven f x = .ok (some r) → stripEven g x = .ok (some r) := by
  induction f with
  | zero => intro x r g _ h; simp [stripEven] at h
  | succ f ih =>
    intro x r g hg h
    obtain ⟨g, rfl⟩ := Nat.exists_eq_add_of_le' (show 1 ≤ g by omega)
    rw [stripEven] at h ⊢
    cases ho : isOdd x with
    | ub => rw [ho] at h; cases h
    | ok o =>
      rw [ho] at h
      cases o with
      | true => exact h
      | false => exact ih _ _ g (by omega) h

theorem evenBoth_more (f : Nat) : ∀ (x y z : Num w) (r : Num w × Num w × Num w) (g : Nat), f ≤ g →
    evenBoth f x y z = .ok (some r) → evenBoth g x y z = .ok (some r) := by
  induction f with
  | zero => intro x y z r g _ h; simp [evenBoth] at h
  | succ f ih =>
    intro x y z r g hg h
    obtain ⟨g, rfl⟩ := Nat.exists_eq_add_of_le' (show 1 ≤ g by omega)
    rw [evenBoth] at h ⊢
    cases ho : isOdd x with
    | ub => rw [ho] at h; cases h
    | ok o =>
      rw [ho] at h
      cases o with
      | true => exact h
      | false =>
        simp only [Out.bind_ok, Bool.false_eq_true, if_false] at h ⊢
        cases hp : isOdd y with
        | ub => rw [hp] at h; cases h
        | ok o =>
          rw [hp] at h
          cases o with
          | true => exact h
          | false => exact ih _ _ _ _ g (by omega) h

theorem gcdLoop_more (f : Nat) : ∀ (x y : Num w) (t : Option (Num w)) (r : Num w) (g : Nat), f ≤ g →
    gcdLoop f x y t = .ok (some r) → gcdLoop g x y t = .ok (some r) := by
  induction f with
  | zero => intro x y t r g _ h; simp [gcdLoop] at h
  | succ f ih =>
    intro x y t r g hg h
    obtain ⟨g, rfl⟩ := Nat.exists_eq_add_of_le' (show 1 ≤ g by omega)
    rw [gcdLoop] at h ⊢
    by_cases hz : ne x zero = true
    · rw [if_pos hz] at h ⊢
      cases hx : stripEven f x with
      | ub => rw [hx] at h; cases h
      | ok o =>
        rw [hx] at h
        cases o with
        | none => cases h
        | some x' =>
          rw [stripEven_more f x x' g (by omega) hx]
          simp only [Out.bind_ok] at h ⊢
          cases hy : stripEven f y with
          | ub => rw [hy] at h; cases h
          | ok o =>
            rw [hy] at h
            cases o with
            | none => cases h
            | some y' =>
              rw [stripEven_more f y y' g (by omega) hy]
              simp only [Out.bind_ok] at h ⊢
              cases ht : (if lt y' x' then sub (assign t x') y' else sub (assign t y') x') with
              | ub => rw [ht] at h; cases h
              | ok t' =>
                rw [ht] at h
                simp only [Out.bind_ok] at h ⊢
                split
                · next hge => rw [if_pos hge] at h; exact ih _ _ _ _ g (by omega) h
                · next hge => rw [if_neg hge] at h; exact ih _ _ _ _ g (by omega) h
    · rw [if_neg hz] at h ⊢; exact h

theorem gcd_more (f g : Nat) (hg : f ≤ g) (a b r : Num w) (h : gcd f a b = .ok (some r)) : gcd g a b = .ok (some r) := by
  rw [gcd] at h ⊢
  generalize (if gt a b then (assign none a, assign none b) else (assign none b, assign none a)) = xy at h ⊢
  cases he : evenBoth f xy.1 xy.2 one with
  | ub => rw [he] at h; cases h
  | ok o =>
    rw [he] at h
    rcases o with - | ⟨x, y, z⟩
    · cases h
    · rw [evenBoth_more f _ _ _ _ g hg he]
      simp only [Out.bind_ok] at h ⊢
      cases hl : gcdLoop f x y none with
      | ub => rw [hl] at h; cases h
      | ok o =>
        rw [hl] at h
        cases o with
        | none => cases h
        | some y' =>
          rw [gcdLoop_more f _ _ _ _ g hg hl]
          exact h

theorem euclidLoop_more (f : Nat) : ∀ (s : Euclid w) (r : Option (Euclid w)) (g : Nat), f ≤ g →
    euclidLoop f s = .ok (some r) → euclidLoop g s = .ok (some r) := by
  induction f with
  | zero => intro s r g _ h; simp [euclidLoop] at h
  | succ f ih =>
    intro s r g hg h
    obtain ⟨g, rfl⟩ := Nat.exists_eq_add_of_le' (show 1 ≤ g by omega)
    rw [euclidLoop] at h ⊢
    by_cases hz : ne s.v3 zero = true
    · rw [if_pos hz] at h ⊢
      cases hs : euclidStep s with
      | ub => rw [hs] at h; cases h
      | ok o =>
        rw [hs] at h
        cases o with
        | none => exact h
        | some s' => exact ih _ _ g (by omega) h
    · rw [if_neg hz] at h ⊢; exact h

theorem modinv_more (f g : Nat) (hg : f ≤ g) (u v r : Num w) (V : Nat) (hv : Is v V) (he : V % 2 = 0) (hw : 8 ≤ w)
    (h : modinv f u v = .ok (some r)) : modinv g u v = .ok (some r) := by
  rw [modinv, hv.isOdd (by omega), Out.bind_ok, decide_eq_false (by omega)] at h ⊢
  simp only [Bool.false_eq_true, if_false] at h ⊢
  cases hl : euclidLoop f ⟨assign none one, assign none u, assign none zero, assign none v, none, false⟩ with
  | ub => rw [hl] at h; cases h
  | ok o =>
    rw [hl] at h
    cases o with
    | none => cases h
    | some s =>
      rw [euclidLoop_more f _ _ g hg hl]
      exact h

/-- Whatever `kryptos_mp_gcd` returns, for numbers different from zero, is the greatest common divisor. -/
theorem gcd_returns (hw : 8 ≤ w) (a b r : Num w) (A B : Nat) (ha : Is a A) (hb : Is b B) (hA : A ≠ 0) (hB : B ≠ 0) (f : Nat)
    (h : gcd f a b = .ok (some r)) : Is r (Nat.gcd A B) := by
  have e1 := ha.2.2
  have e2 := hb.2.2
  obtain ⟨r', h1, h2, h3⟩ := gcd_exact hw a b (List.ne_nil_of_length_pos ha.1) (List.ne_nil_of_length_pos hb.1) ha.2.1 hb.2.1
    (by omega) (by omega) (max f (val a.data + val b.data + 1)) (by omega)
  rw [gcd_more f _ (by omega) a b r h] at h1
  injection h1 with h1
  injection h1 with h1
  subst h1
  rw [e1, e2] at h3
  refine ⟨?_, h2, h3⟩
  refine List.length_pos_iff.2 fun h0 => ?_
  rw [h0] at h3
  exact absurd h3.symm (Nat.gcd_pos_of_pos_left _ (Nat.pos_of_ne_zero hA)).ne'

/-- No guess overflows in a division by a larger number. -/
theorem no_overflow_lt (x y j : Nat) (h : x < y) (hw : 0 < w) : ¬ GuessOverflows w x y j := by
  have hy : y ≠ 0 := by omega
  have hB : 1 < 2 ^ w := Nat.one_lt_two_pow hw.ne'
  have l1 : (2 ^ w) ^ (digitCount w y - 1) ≤ y := by
    rw [digitCount, Nat.add_sub_cancel]; exact Nat.pow_log_le_self _ hy
  have l2 : y < 2 ^ (w * digitCount w y) := by
    rw [pow_mul]; exact Nat.lt_pow_succ_log_self hB y
  have l3 : y < 2 ^ (Nat.log 2 y + 1) := Nat.lt_pow_succ_log_self (by decide) y
  have l4 : Nat.log 2 y + 1 ≤ w * digitCount w y :=
    (Nat.log_lt_of_lt_pow hy l2)
  have l5 : y * 2 ^ normShift w y < (2 ^ w) ^ digitCount w y := by
    rw [← pow_mul]
    calc y * 2 ^ normShift w y < 2 ^ (Nat.log 2 y + 1) * 2 ^ normShift w y := Nat.mul_lt_mul_of_pos_right l3 (Nat.two_pow_pos _)
      _ = 2 ^ (w * digitCount w y) := by rw [← pow_add, normShift]; congr 1; omega
  have l6 : 1 ≤ y * 2 ^ normShift w y / (2 ^ w) ^ (digitCount w y - 1) := by
    rw [Nat.le_div_iff_mul_le (Nat.pow_pos (by omega)), one_mul]
    exact l1.trans (Nat.le_mul_of_pos_right _ (Nat.two_pow_pos _))
  have l7 : x % (y * (2 ^ w) ^ (j + 1)) * 2 ^ normShift w y / (2 ^ w) ^ (digitCount w y + j) = 0 := by
    refine Nat.div_eq_of_lt ?_
    calc _ ≤ y * 2 ^ normShift w y := Nat.mul_le_mul_right _ ((Nat.mod_le _ _).trans h.le)
      _ < _ := l5
      _ ≤ _ := Nat.pow_le_pow_right (by omega) (by omega)
  simp only [GuessOverflows, l7]
  omega

/-- Euclid's algorithm from a number of one digit: all divisions are right if the modulus is not too long. -/
theorem euclidOk_small (c F : Nat) (hw : 0 < w) (h0 : c ≠ 0) (hc : c < 2 ^ w) (hcF : c < F) (hF : F < c * (2 ^ w) ^ 2) :
    EuclidOk w c F := by
  have key : ∀ x y, EuclidPair c F x y → (x = c ∧ y = F) ∨ (x = F ∧ y = c) ∨ (x < 2 ^ w ∧ y < 2 ^ w) := by
    intro x y h
    induction h with
    | base => exact .inl ⟨rfl, rfl⟩
    | @step x y _ hy ih =>
      rcases ih with ⟨rfl, rfl⟩ | ⟨rfl, rfl⟩ | ⟨h1, h2⟩
      · exact .inr (.inl ⟨rfl, Nat.mod_eq_of_lt hcF⟩)
      · exact .inr (.inr ⟨hc, lt_trans (Nat.mod_lt _ (Nat.pos_of_ne_zero hy)) hc⟩)
      · exact .inr (.inr ⟨h2, lt_trans (Nat.mod_lt _ (Nat.pos_of_ne_zero hy)) h2⟩)
  intro x y h hy
  rcases key x y h with ⟨rfl, rfl⟩ | ⟨rfl, rfl⟩ | ⟨h1, h2⟩
  · exact ⟨lt_of_lt_of_le hcF (Nat.le_mul_of_pos_right _ (Nat.pow_pos (Nat.two_pow_pos w))), fun j => no_overflow_lt _ _ j hcF hw⟩
  · exact ⟨hF, fun j => no_overflow_single _ _ j hy hc⟩
  · refine ⟨lt_of_lt_of_le h1 ?_, fun j => no_overflow_single x y j hy h2⟩
    calc 2 ^ w ≤ (2 ^ w) ^ 2 := Nat.le_self_pow (by omega) _
      _ ≤ y * (2 ^ w) ^ 2 := Nat.le_mul_of_pos_left _ (Nat.pos_of_ne_zero hy)

/-- A run of the generator for a prime of one digit of 32 bits: the bytes drawn are those of the prime, and then 2. -/
theorem genPrime_digit (N k M : Nat) (hp : N.Prime) (hlo : 2 ^ 31 ≤ N) (hk : N - 1 = 2 ^ k * M) (hM : M % 2 = 1) (hk0 : 0 < k)
    (hk6 : k ≤ 6) (rnd : Nat → Byte) (hc : (candidate rnd 0 1 : Num (8 * 4)) = ⟨[BitVec.ofNat _ N], false⟩) (h32 : N < 2 ^ 32)
    (h2 : rnd 4 = 2) (f : Nat) (hf : N < f) :
    genPrime 32 rnd (f + 1) 0 32 = .ok (some ⟨[BitVec.ofNat _ N], false⟩) := by
  have hn : Is (⟨[BitVec.ofNat _ N], false⟩ : Num (8 * 4)) N := by
    refine ⟨by simp, rfl, ?_⟩
    simp only [val, BitVec.toNat_ofNat, Nat.mul_zero, Nat.add_zero]
    exact Nat.mod_eq_of_lt h32
  obtain ⟨f, rfl⟩ : ∃ g, f = g + 1 := ⟨f - 1, by omega⟩
  have hs : sieveLoop (f + 1) (⟨[BitVec.ofNat _ N], false⟩ : Num (8 * 4)) = .ok (some ⟨[BitVec.ofNat _ N], false⟩) := by
    rw [sieveLoop, smallPrimesTest_spec 4 (by decide) _ N hn smallPrimes fun p hp => by
      obtain ⟨h1, -, h3⟩ := (smallPrimes_complete p).1 hp
      exact ⟨h1.pos, by omega⟩]
    rw [decide_eq_true]
    · rfl
    · intro p hm hd
      obtain ⟨h1, -, h3⟩ := (smallPrimes_complete p).1 hm
      rcases (Nat.dvd_prime hp).1 hd with h | h
      · exact h1.one_lt.ne' h
      · have : (2 : Nat) ^ 31 = 2147483648 := by decide
        omega
  have hmod : 1 < (rnd 4).toNat % (N - 2) := by
    have : (2 : Nat) ^ 31 = 2147483648 := by decide
    rw [h2, show (2 : Byte).toNat = 2 by decide, Nat.mod_eq_of_lt (by omega)]
    decide
  have h31 : (2 : Nat) ^ 31 = 2147483648 := by decide
  obtain ⟨v, v1, -⟩ := millerRabin_single (w := 8 * 4) (by decide) rnd (f + 1) 4 ⟨[BitVec.ofNat _ N], false⟩ N 5 k M hn rfl
    (by omega) hk hM hk0 (by omega) hmod
  have v2 := millerRabin_prime_single (w := 8 * 4) (by decide) _ _ _ _ _ N 5 k M v hn rfl hp (by omega) hk hM (by omega) v1
  show genPrime (8 * 4) _ _ _ _ = _
  rw [genPrime, show newSize (8 * 4) (32 / (8 * 4) * (8 * 4)) = 1 by decide, genPrimeLoop, hc, hs]
  simp only [Out.bind_ok]
  rw [show 0 + 1 * (8 * 4 / 8) = 4 by decide, v1, v2]
  rfl

end Kryptos.Mp

namespace Kryptos.Rsa
open Mp Spec.Mp

variable {w : Nat}

theorem candidateE_is (hw : 8 ≤ w) (rnd : Nat → Byte) (i : Nat) (phi : Num w) :
    Is (candidateE w rnd i (newSize w (phi.data.length * w))) (val (candidateE w rnd i (newSize w (phi.data.length * w))).data) := by
  refine ⟨?_, rfl, rfl⟩
  rw [newSize_mul hw]
  simp only [candidateE, List.length_map, List.length_range]
  omega

/-- The exponent that `kryptos_rsa_eval_e` returns is not zero, below `phi`, and without a common factor with it. -/
theorem evalELoop_sound (hw : 8 ≤ w) (rnd : Nat → Byte) (phi : Num w) (F : Nat) (hF : Is phi F) (f : Nat) :
    ∀ (i : Nat) (e : Num w), evalELoop rnd phi f i = .ok (some e) → ∃ E, Is e E ∧ 0 < E ∧ E < F ∧ Nat.gcd E F = 1 := by
  induction f with
  | zero => intro i e h; simp [evalELoop] at h
  | succ f ih =>
    intro i e h
    have hc := candidateE_is hw rnd i phi
    rw [evalELoop] at h
    generalize candidateE w rnd i (newSize w (phi.data.length * w)) = c at hc h
    generalize val c.data = C at hc
    rw [hc.ge hF] at h
    by_cases hge : F ≤ C
    · rw [decide_eq_true hge, if_pos rfl] at h; exact ih _ _ h
    · rw [decide_eq_false hge, if_neg (by decide)] at h
      cases hg : gcd f c phi with
      | ub => rw [hg] at h; cases h
      | ok o =>
        rw [hg] at h
        cases o with
        | none => cases h
        | some g =>
          have h0 : C ≠ 0 := by
            intro h0
            rw [gcd_zero_diverges hw c phi (List.ne_nil_of_length_pos hc.1) (List.ne_nil_of_length_pos hF.1) hc.2.1 hF.2.1
              (.inl (hc.2.2.trans h0))] at hg
            cases hg
          have g1 := gcd_returns hw c phi g C F hc hF h0 (by omega) f hg
          simp only [Out.bind_ok, g1.ne (is_one (by omega))] at h
          by_cases h1 : Nat.gcd C F = 1
          · rw [decide_eq_false (by simpa using h1), if_neg (by decide)] at h
            simp only [Out.pure_eq, Out.ok.injEq, Option.some.injEq] at h
            subst h
            exact ⟨C, hc, by omega, by omega, h1⟩
          · rw [decide_eq_true h1, if_pos rfl] at h; exact ih _ _ h

/-- What `kryptos_mp_gen_prime` guarantees about a number of `bits` bits: the highest bit asked for (in whole digits) is reached,
no prime up to 17863 divides it, and it has passed the test of Miller and Rabin for a base. -/
def PrimeLike (w bits P : Nat) : Prop :=
  2 ^ (w * max (bits / w) 1 - 1) ≤ P ∧ (∀ p, p.Prime → p ≤ 17863 → ¬ p ∣ P) ∧ ∃ a, 1 < a ∧ StrongPrp P a

theorem genPrime_like (hw : w = 32 ∨ w = 64) (rnd : Nat → Byte) (fuel i bits : Nat) (c : Num w)
    (h : genPrime w rnd fuel i bits = .ok (some c)) : ∃ C, Is c C ∧ PrimeLike w bits C ∧ C % 2 = 1 ∧ 3 < C := by
  have key : ∀ k, 2 ≤ k → ∀ c : Num (8 * k), genPrime (8 * k) rnd fuel i bits = .ok (some c) →
      ∃ C, Is c C ∧ PrimeLike (8 * k) bits C ∧ C % 2 = 1 ∧ 3 < C := by
    intro k hk c h
    obtain ⟨C, c1, c2, c3, -, -, a, -, -, c4, c5⟩ := genPrime_sound k hk rnd fuel i bits c h
    refine ⟨C, c1, ⟨c2, c3, _, c4, c5⟩, ?_, ?_⟩
    · have := c3 2 Nat.prime_two (by decide)
      omega
    · refine lt_of_lt_of_le (by decide : 3 < 2 ^ 2) (le_trans (Nat.pow_le_pow_right (by decide) ?_) c2)
      have : 8 * k * 1 ≤ 8 * k * max (bits / (8 * k)) 1 := Nat.mul_le_mul_left _ (Nat.le_max_right _ _)
      exact le_trans (by omega) (Nat.sub_le_sub_right this 1)
  rcases hw with rfl | rfl
  · exact key 4 (by decide) c h
  · exact key 8 (by decide) c h

/-- The steps between the primes and the exponents, for two odd numbers. -/
theorem mkNumbers_eq (hw : 8 ≤ w) (rndP rndQ rndE : Nat → Byte) (fuel bits : Nat) (p q : Num w) (P Q : Nat) (hp : Is p P) (hq : Is q Q)
    (hP : 0 < P) (hQ : 0 < Q) (gp : genPrime w rndP fuel 0 (bits / 2) = .ok (some p))
    (gq : genPrime w rndQ fuel 0 (bits / 2) = .ok (some q)) : ∃ n phi : Num w, Is n (P * Q) ∧ Is phi ((P - 1) * (Q - 1)) ∧
      mkNumbers w rndP rndQ rndE fuel bits = (do
        match ← evalELoop rndE phi fuel 0 with
        | none => return none
        | some e => do
          match ← modinv fuel e phi with
          | none => return none
          | some d => return some (n, e, d)) := by
  obtain ⟨n, n1, n2⟩ := hp.mul hw hq
  obtain ⟨t, t1, t2⟩ := hp.sub hw (is_one (by omega)) hP
  obtain ⟨u, u1, u2⟩ := (hq.assignSome t).sub hw (is_one (by omega)) hQ
  obtain ⟨phi, f1, f2⟩ := t2.mul hw u2
  refine ⟨n, phi, n2, f2, ?_⟩
  rw [mkNumbers, gp, Out.bind_ok, gq, Out.bind_ok]
  simp only []
  rw [hp.assignNone hw, n1, Out.bind_ok, t1, Out.bind_ok, u1, Out.bind_ok, t2.assignNone hw, f1, Out.bind_ok]
  rfl

/-- The numbers of a key pair. -/
theorem mkNumbers_sound (hw : w = 32 ∨ w = 64) (rndP rndQ rndE : Nat → Byte) (fuel bits : Nat) (n e d : Num w)
    (h : mkNumbers w rndP rndQ rndE fuel bits = .ok (some (n, e, d))) :
    ∃ P Q E, PrimeLike w (bits / 2) P ∧ PrimeLike w (bits / 2) Q ∧ Is n (P * Q) ∧ Is e E ∧ 0 < E ∧ E < (P - 1) * (Q - 1) ∧
      Nat.gcd E ((P - 1) * (Q - 1)) = 1 ∧
      (EuclidOk w E ((P - 1) * (Q - 1)) → ∃ D, Is d D ∧ D < (P - 1) * (Q - 1) ∧ E * D ≡ 1 [MOD (P - 1) * (Q - 1)]) := by
  have hw8 : 16 ≤ w := by omega
  have h0 := h
  rw [mkNumbers] at h0
  cases gp : genPrime w rndP fuel 0 (bits / 2) with
  | ub => rw [gp] at h0; cases h0
  | ok op =>
    rw [gp, Out.bind_ok] at h0
    cases gq : genPrime w rndQ fuel 0 (bits / 2) with
    | ub => rw [gq] at h0; cases h0
    | ok oq =>
      rw [gq, Out.bind_ok] at h0
      cases op with
      | none => cases h0
      | some p =>
        cases oq with
        | none => cases h0
        | some q =>
          clear h0
          obtain ⟨P, p1, p2, p3, p4⟩ := genPrime_like hw rndP fuel 0 _ p gp
          obtain ⟨Q, q1, q2, q3, q4⟩ := genPrime_like hw rndQ fuel 0 _ q gq
          obtain ⟨n', phi, n1, f1, hm⟩ := mkNumbers_eq (by omega) rndP rndQ rndE fuel bits p q P Q p1 q1 (by omega) (by omega) gp gq
          rw [hm] at h
          cases he : evalELoop rndE phi fuel 0 with
          | ub => rw [he] at h; cases h
          | ok oe =>
            rw [he, Out.bind_ok] at h
            cases oe with
            | none => cases h
            | some e' =>
              obtain ⟨E, e1, e2, e3, e4⟩ := evalELoop_sound (by omega) rndE phi _ f1 fuel 0 e' he
              simp only [] at h
              cases hd : modinv fuel e' phi with
              | ub => rw [hd] at h; cases h
              | ok od =>
                rw [hd, Out.bind_ok] at h
                cases od with
                | none => cases h
                | some d' =>
                  simp only [Out.pure_eq, Out.ok.injEq, Option.some.injEq, Prod.mk.injEq] at h
                  obtain ⟨rfl, rfl, rfl⟩ := h
                  refine ⟨P, Q, E, p2, q2, n1, e1, e2, e3, e4, fun hok => ?_⟩
                  have hev : ((P - 1) * (Q - 1)) % 2 = 0 := by
                    rw [Nat.mul_mod, show (P - 1) % 2 = 0 by omega]; simp
                  obtain ⟨r, r1, r2, r3, r4, -⟩ := modinv_even_partial hw8 e' phi (List.ne_nil_of_length_pos e1.1)
                    (List.ne_nil_of_length_pos f1.1) e1.2.1 f1.2.1 (by rw [f1.2.2]; exact hev) (by rw [f1.2.2]; omega)
                    (by rw [e1.2.2, f1.2.2]; exact hok) (max fuel (val phi.data + 1)) (by omega)
                  rw [modinv_more fuel _ (by omega) e' phi d' _ f1 hev (by omega) hd] at r1
                  injection r1 with r1
                  injection r1 with r1
                  subst r1
                  rw [e1.2.2, f1.2.2] at r4
                  rw [f1.2.2] at r3
                  refine ⟨_, ⟨?_, r2, rfl⟩, r3, r4 e4⟩
                  refine List.length_pos_iff.2 fun h0 => ?_
                  have := r4 e4
                  rw [h0] at this
                  have h1 := (Nat.modEq_iff_dvd' (by simp [val])).1 this
                  have hb : 2 ≤ (P - 1) * (Q - 1) := by
                    have : 2 * 1 ≤ (P - 1) * (Q - 1) := Nat.mul_le_mul (by omega) (by omega)
                    omega
                  simp only [val, Nat.mul_zero, Nat.sub_zero, Nat.dvd_one] at h1
                  omega

/-- C115 in part: what `kryptos_rsa_mk_key_pair` leaves in the two buffers.  The modulus is a product of two numbers from the prime
generator, the public exponent is below `(P - 1)(Q - 1)` and has no factor in common with it; and when the two numbers are
different primes and the divisions of Euclid's algorithm are right, the buffers are a key pair, so that every message which
is not too long comes back modulo `n`.  Missing for the full property: equal numbers (`keygen_equal_primes`), the exponent 1
(`keygen_exponent_one`), ending (`keygen_exponent_zero`), and that the numbers are prime. -/
theorem keygen_partial (hw : w = 32 ∨ w = 64) (rndP rndQ rndE : Nat → Byte) (fuel bits : Nat) (hb : 16 ≤ bits) (r : TaskResult)
    (pub priv : Option Bytes) (h : mkKeyPair w rndP rndQ rndE fuel bits = .ok (some (r, pub, priv))) :
    ∃ (n e d : Num w) (P Q E : Nat), PrimeLike w (bits / 2) P ∧ PrimeLike w (bits / 2) Q ∧ Is n (P * Q) ∧ Is e E ∧ 0 < E ∧
      E < (P - 1) * (Q - 1) ∧ Nat.gcd E ((P - 1) * (Q - 1)) = 1 ∧
      (P.Prime → Q.Prime → P ≠ Q → EuclidOk w E ((P - 1) * (Q - 1)) →
        ∃ pub' priv', r = .success ∧ pub = some pub' ∧ priv = some priv' ∧ KeyPair w pub' priv' n e d ∧
          ∀ inp : Bytes, inp ≠ [] → inp.length ≤ byteSize n → ∃ c out, encrypt w pub' inp = .ok (.success, some c) ∧
            decrypt w priv' c = .ok (.success, some out) ∧ num out ≡ num inp [MOD P * Q]) := by
  rw [mkKeyPair, if_neg (by omega)] at h
  cases hm : mkNumbers w rndP rndQ rndE fuel bits with
  | ub => rw [hm] at h; cases h
  | ok o =>
    rw [hm, Out.bind_ok] at h
    rcases o with - | ⟨n, e, d⟩
    · cases h
    · obtain ⟨P, Q, E, h1, h2, h3, h4, h5, h6, h7, h8⟩ := mkNumbers_sound hw rndP rndQ rndE fuel bits n e d hm
      refine ⟨n, e, d, P, Q, E, h1, h2, h3, h4, h5, h6, h7, fun hP hQ hPQ hok => ?_⟩
      obtain ⟨D, d1, d2, d3⟩ := h8 hok
      obtain ⟨pub', priv', k1, k2, k3, k4, k5⟩ := keyPair_exists hw n.data e.data d.data (List.ne_nil_of_length_pos h3.1)
        (List.ne_nil_of_length_pos h4.1) (List.ne_nil_of_length_pos d1.1) ⟨P, Q, hP, hQ, hPQ, h3.2.2, by
          rw [h4.2.2, d1.2.2]
          exact ⟨d3.of_mul_right _, d3.of_mul_left _⟩⟩
      have en : (⟨n.data, false⟩ : Num w) = n := by rw [← h3.2.1]
      have ee : (⟨e.data, false⟩ : Num w) = e := by rw [← h4.2.1]
      have ed : (⟨d.data, false⟩ : Num w) = d := by rw [← d1.2.1]
      rw [en, ee] at k1
      rw [en, ed] at k2
      rw [en, ee, ed] at k5
      simp only [k1, k2, Out.bind_ok, ne_eq, not_true_eq_false, if_false, Out.pure_eq, Out.ok.injEq, Option.some.injEq,
        Prod.mk.injEq] at h
      obtain ⟨rfl, rfl, rfl⟩ := h
      refine ⟨pub', priv', rfl, rfl, rfl, k5, fun inp hi hl => ?_⟩
      obtain ⟨c, out, c1, c2, c3, -⟩ := rsa_congruent hw k5 inp hi hl
      rw [h3.2.2] at c3
      exact ⟨c, out, c1, c2, c3⟩

/-- Keys of less than sixteen bits are refused, and nothing is written. -/
theorem keygen_short (rndP rndQ rndE : Nat → Byte) (fuel bits : Nat) (hb : bits ≤ 15) :
    mkKeyPair w rndP rndQ rndE fuel bits = .ok (some (.invalidParams, none, none)) := by rw [mkKeyPair, if_pos (by omega)]

/-! ## Runs -/

/-- The bytes from which the exponent `c` is made: the first digit is `c` and the others are zero. -/
def bytesE (c : Byte) (i : Nat) : Byte := if i = 3 then c else 0

theorem val_zeros (l : List (BitVec w)) (h : ∀ x ∈ l, x = 0) : val l = 0 := by
  induction l with
  | nil => rfl
  | cons x l ih =>
    rw [val, h x (by simp), ih fun y hy => h y (by simp [hy])]
    simp

theorem candidateE_small (hw : w = 32 ∨ w = 64) (c : Byte) (phi : Num w) :
    Is (candidateE w (bytesE c) 0 (newSize w (phi.data.length * w))) c.toNat := by
  obtain ⟨h1, h2, -⟩ := candidateE_is (w := w) (by omega) (bytesE c) 0 phi
  refine ⟨h1, h2, ?_⟩
  rw [newSize_mul (by omega)]
  obtain ⟨m, hm⟩ : ∃ m, max phi.data.length 1 = m + 1 := ⟨max phi.data.length 1 - 1, by omega⟩
  rw [hm, candidateE]
  simp only [List.range_succ_eq_map, List.map_cons, List.map_map, val]
  rw [val_zeros _ (by
    intro x hx
    obtain ⟨j, -, rfl⟩ := List.mem_map.1 hx
    have z : ∀ t, 3 < t → bytesE c t = 0 := fun t ht => by rw [bytesE, if_neg (by omega)]
    simp only [Function.comp]
    rw [z _ (by omega), z _ (by omega), z _ (by omega), z _ (by omega)]
    rcases hw with rfl | rfl <;> decide), Nat.mul_zero (2 ^ w)]
  show (((0 : Byte) ++ (0 : Byte) ++ (0 : Byte) ++ c).signExtend w).toNat = c.toNat
  clear h1 h2
  rcases hw with rfl | rfl <;> revert c <;> decide +kernel

/-- The first candidate is taken when it is good. -/
theorem evalELoop_small (hw : w = 32 ∨ w = 64) (c : Byte) (phi : Num w) (F : Nat) (hF : Is phi F) (h0 : c ≠ 0) (h1 : c.toNat < F)
    (h2 : Nat.gcd c.toNat F = 1) (f : Nat) (hf : c.toNat + F < f) :
    ∃ e, evalELoop (bytesE c) phi (f + 1) 0 = .ok (some e) ∧ Is e c.toNat := by
  have hc := candidateE_small hw c phi
  refine ⟨_, ?_, hc⟩
  rw [evalELoop]
  generalize candidateE w (bytesE c) 0 (newSize w (phi.data.length * w)) = e at hc ⊢
  have hc0 : c.toNat ≠ 0 := fun h => h0 (by apply BitVec.eq_of_toNat_eq; simpa using h)
  obtain ⟨g, g1, g2, g3⟩ := gcd_exact (w := w) (by omega) e phi (List.ne_nil_of_length_pos hc.1) (List.ne_nil_of_length_pos hF.1)
    hc.2.1 hF.2.1 (by rw [hc.2.2]; exact hc0) (by rw [hF.2.2]; omega) f (by rw [hc.2.2, hF.2.2]; exact hf)
  have gi := gcd_returns (by omega) e phi g _ _ hc hF hc0 (by omega) f g1
  rw [hc.ge hF, decide_eq_false (by omega), if_neg (by decide), g1, Out.bind_ok]
  simp only [gi.ne (is_one (by omega))]
  rw [decide_eq_false (by simpa using h2)]
  rfl

/-- A whole run, with the primes given. -/
theorem mkNumbers_run (hw : w = 32 ∨ w = 64) (rndP rndQ : Nat → Byte) (c : Byte) (f bits : Nat) (p q : Num w) (P Q : Nat)
    (hp : Is p P) (hq : Is q Q) (oP : P % 2 = 1) (hP : 2 < P) (hQ : 2 < Q)
    (gp : genPrime w rndP (f + 1) 0 (bits / 2) = .ok (some p)) (gq : genPrime w rndQ (f + 1) 0 (bits / 2) = .ok (some q))
    (h0 : c ≠ 0) (h1 : c.toNat < (P - 1) * (Q - 1)) (h2 : Nat.gcd c.toNat ((P - 1) * (Q - 1)) = 1)
    (h3 : (P - 1) * (Q - 1) < c.toNat * (2 ^ w) ^ 2) (hf : c.toNat + (P - 1) * (Q - 1) < f) :
    ∃ (n e d : Num w) (D : Nat), mkNumbers w rndP rndQ (bytesE c) (f + 1) bits = .ok (some (n, e, d)) ∧ Is n (P * Q) ∧
      Is e c.toNat ∧ Is d D ∧ D < (P - 1) * (Q - 1) ∧ c.toNat * D ≡ 1 [MOD (P - 1) * (Q - 1)] := by
  obtain ⟨n, phi, n1, f1, hm⟩ := mkNumbers_eq (by omega) rndP rndQ (bytesE c) (f + 1) bits p q P Q hp hq (by omega) (by omega) gp gq
  obtain ⟨e, e1, e2⟩ := evalELoop_small hw c phi _ f1 h0 h1 h2 f hf
  have hc0 : c.toNat ≠ 0 := fun h => h0 (by apply BitVec.eq_of_toNat_eq; simpa using h)
  have hok : EuclidOk w c.toNat ((P - 1) * (Q - 1)) := by
    refine euclidOk_small _ _ (by omega) hc0 (lt_of_lt_of_le c.isLt (Nat.pow_le_pow_right (by decide) (by omega))) h1 h3
  have hev : ((P - 1) * (Q - 1)) % 2 = 0 := by
    rw [Nat.mul_mod, show (P - 1) % 2 = 0 by omega]; simp
  obtain ⟨d, d1, d2, d3, d4, -⟩ := modinv_even_partial (by omega) e phi (List.ne_nil_of_length_pos e2.1)
    (List.ne_nil_of_length_pos f1.1) e2.2.1 f1.2.1 (by rw [f1.2.2]; exact hev) (by rw [f1.2.2]; omega)
    (by rw [e2.2.2, f1.2.2]; exact hok) (f + 1) (by rw [f1.2.2]; omega)
  rw [hm, e1, Out.bind_ok]
  simp only [d1, Out.bind_ok]
  rw [e2.2.2, f1.2.2] at d4
  rw [f1.2.2] at d3
  refine ⟨n, e, d, _, rfl, n1, e2, ⟨?_, d2, rfl⟩, d3, d4 h2⟩
  refine List.length_pos_iff.2 fun hd0 => ?_
  have := d4 h2
  rw [hd0] at this
  have h1 := (Nat.modEq_iff_dvd' (by simp [val])).1 this
  have hb : 2 * 2 ≤ (P - 1) * (Q - 1) := Nat.mul_le_mul (by omega) (by omega)
  simp only [val, Nat.mul_zero, Nat.sub_zero, Nat.dvd_one] at h1
  omega

/-- The bytes of the prime 4294967291, and then 2. -/
def bytesP (i : Nat) : Byte := if i < 3 then 0xFF else if i = 3 then 0xFB else 2

/-- The bytes of the prime 4294967279, and then 2. -/
def bytesQ (i : Nat) : Byte := if i < 3 then 0xFF else if i = 3 then 0xEF else 2

theorem prime_P : Nat.Prime 4294967291 := by
  refine Pratt.pratt _ 2 32 [2, 5, 19, 22605091] ?_ (by norm_num) (by norm_num) (by norm_num) (by decide +kernel) (by decide +kernel)
  simp only [List.mem_cons, List.not_mem_nil, or_false]
  rintro q (rfl | rfl | rfl | rfl) <;> norm_num

theorem prime_Q : Nat.Prime 4294967279 := by
  refine Pratt.pratt _ 7 32 [2, 7, 17, 18046081] ?_ (by norm_num) (by norm_num) (by norm_num) (by decide +kernel) (by decide +kernel)
  simp only [List.mem_cons, List.not_mem_nil, or_false]
  rintro q (rfl | rfl | rfl | rfl) <;> norm_num

theorem gen_P (f : Nat) (hf : 4294967291 < f) : genPrime 32 bytesP (f + 1) 0 32 = .ok (some ⟨[4294967291], false⟩) :=
  genPrime_digit 4294967291 1 2147483645 prime_P (by decide) (by decide) (by decide) (by decide) (by decide) bytesP (by decide +kernel)
    (by decide) (by decide) f hf

theorem gen_Q (f : Nat) (hf : 4294967279 < f) : genPrime 32 bytesQ (f + 1) 0 32 = .ok (some ⟨[4294967279], false⟩) :=
  genPrime_digit 4294967279 1 2147483639 prime_Q (by decide) (by decide) (by decide) (by decide) (by decide) bytesQ (by decide +kernel)
    (by decide) (by decide) f hf

/-- Beside `keygen_partial`: a run for 64 bits with digits of 32 bits; it ends, the numbers are two different primes, and the
exponent is 3. -/
theorem keygen_run (f : Nat) (hf : 2 ^ 64 ≤ f) : ∃ pub priv n e d, mkKeyPair 32 bytesP bytesQ (bytesE 3) (f + 1) 64 =
      .ok (some (.success, some pub, some priv)) ∧ KeyPair 32 pub priv n e d ∧ val n.data = 4294967291 * 4294967279 ∧ val e.data = 3 := by
  obtain ⟨n, e, d, D, h1, h2, h3, h4, -, h6⟩ := mkNumbers_run (w := 32) (.inl rfl) bytesP bytesQ 3 f 64 ⟨[4294967291], false⟩
    ⟨[4294967279], false⟩ 4294967291 4294967279 ⟨by decide, rfl, by decide⟩ ⟨by decide, rfl, by decide⟩ (by decide) (by decide) (by decide)
    (gen_P f (by omega)) (gen_Q f (by omega)) (by decide) (by decide) (by decide +kernel) (by decide +kernel)
    (lt_of_lt_of_le (by decide +kernel) hf)
  obtain ⟨pub, priv, k1, k2, -, -, k5⟩ := keyPair_exists (w := 32) (.inl rfl) n.data e.data d.data (List.ne_nil_of_length_pos h2.1)
    (List.ne_nil_of_length_pos h3.1) (List.ne_nil_of_length_pos h4.1) ⟨4294967291, 4294967279, prime_P, prime_Q, by decide, h2.2.2, by
      rw [h3.2.2, h4.2.2]
      exact ⟨h6.of_mul_right _, h6.of_mul_left _⟩⟩
  have en : (⟨n.data, false⟩ : Num 32) = n := by rw [← h2.2.1]
  have ee : (⟨e.data, false⟩ : Num 32) = e := by rw [← h3.2.1]
  have ed : (⟨d.data, false⟩ : Num 32) = d := by rw [← h4.2.1]
  rw [en, ee] at k1
  rw [en, ed] at k2
  rw [en, ee, ed] at k5
  refine ⟨pub, priv, n, e, d, ?_, k5, h2.2.2, h3.2.2⟩
  rw [mkKeyPair, if_neg (by decide), h1]
  simp only [k1, k2, Out.bind_ok, ne_eq, not_true_eq_false, if_false, Out.pure_eq]

/-- The two numbers may be the same: then the message `P` is lost. -/
theorem keygen_equal_primes (f : Nat) (hf : 2 ^ 64 ≤ f) : ∃ (n e d : Num 32), mkNumbers 32 bytesP bytesP (bytesE 3) (f + 1) 64 =
      .ok (some (n, e, d)) ∧ val n.data = 4294967291 ^ 2 ∧ val e.data = 3 ∧
      ¬ (4294967291 ^ val e.data) ^ val d.data ≡ 4294967291 [MOD val n.data] := by
  obtain ⟨n, e, d, D, h1, h2, h3, h4, -, h6⟩ := mkNumbers_run (w := 32) (.inl rfl) bytesP bytesP 3 f 64 ⟨[4294967291], false⟩
    ⟨[4294967291], false⟩ 4294967291 4294967291 ⟨by decide, rfl, by decide⟩ ⟨by decide, rfl, by decide⟩ (by decide) (by decide) (by decide)
    (gen_P f (by omega)) (gen_P f (by omega)) (by decide) (by decide) (by decide +kernel) (by decide +kernel)
    (lt_of_lt_of_le (by decide +kernel) hf)
  refine ⟨n, e, d, h1, by rw [h2.2.2]; decide, h3.2.2, ?_⟩
  rw [h2.2.2, h3.2.2, h4.2.2]
  intro h
  have hD : D ≠ 0 := by
    rintro rfl
    exact absurd h6 (by decide +kernel)
  have hd : 4294967291 * 4294967291 ∣ (4294967291 ^ (3 : Byte).toNat) ^ D := by
    obtain ⟨k, rfl⟩ := Nat.exists_eq_succ_of_ne_zero hD
    rw [pow_succ]
    exact Dvd.dvd.mul_left (by decide +kernel) _
  have h0 := (Nat.modEq_zero_iff_dvd.2 hd).symm.trans h
  exact absurd h0 (by decide +kernel)

/-- The exponent may be 1: then the private exponent is 1 as well, and every message is its own ciphertext. -/
theorem keygen_exponent_one (f : Nat) (hf : 2 ^ 64 ≤ f) : ∃ (n e d : Num 32), mkNumbers 32 bytesP bytesQ (bytesE 1) (f + 1) 64 =
      .ok (some (n, e, d)) ∧ val e.data = 1 ∧ val d.data = 1 := by
  obtain ⟨n, e, d, D, h1, h2, h3, h4, h5, h6⟩ := mkNumbers_run (w := 32) (.inl rfl) bytesP bytesQ 1 f 64 ⟨[4294967291], false⟩
    ⟨[4294967279], false⟩ 4294967291 4294967279 ⟨by decide, rfl, by decide⟩ ⟨by decide, rfl, by decide⟩ (by decide) (by decide) (by decide)
    (gen_P f (by omega)) (gen_Q f (by omega)) (by decide) (by decide) (by decide +kernel) (by decide +kernel)
    (lt_of_lt_of_le (by decide +kernel) hf)
  refine ⟨n, e, d, h1, h3.2.2, ?_⟩
  rw [h4.2.2]
  rw [show (1 : Byte).toNat = 1 by decide, Nat.one_mul] at h6
  rw [Nat.ModEq, Nat.mod_eq_of_lt h5] at h6
  rw [h6]

/-- A candidate of zero is not refused, and with it the search for the exponent never ends, whatever the primes are. -/
theorem keygen_exponent_zero (hw : w = 32 ∨ w = 64) (rndE : Nat → Byte) (phi : Num w) (F : Nat) (hF : Is phi F) (hpos : 0 < F)
    (i : Nat) (h0 : ∀ j < 4 * phi.data.length, rndE (i + j) = 0) (f : Nat) : evalELoop rndE phi f i = .ok none := by
  cases f with
  | zero => rfl
  | succ f =>
    have hc : Is (candidateE w rndE i (newSize w (phi.data.length * w))) 0 := by
      obtain ⟨h1, h2, -⟩ := candidateE_is (w := w) (by omega) rndE i phi
      refine ⟨h1, h2, val_zeros _ fun x hx => ?_⟩
      have hl := hF.1
      rw [newSize_mul (by omega), Nat.max_eq_left (by omega), candidateE] at hx
      obtain ⟨d, hd, rfl⟩ := List.mem_map.1 hx
      rw [List.mem_range] at hd
      have e1 := h0 (4 * d) (by omega)
      have e2 := h0 (4 * d + 1) (by omega)
      have e3 := h0 (4 * d + 2) (by omega)
      have e4 := h0 (4 * d + 3) (by omega)
      simp only [← Nat.add_assoc] at e2 e3 e4
      rw [e1, e2, e3, e4]
      rcases hw with rfl | rfl <;> decide
    rw [evalELoop]
    generalize candidateE w rndE i (newSize w (phi.data.length * w)) = e at hc ⊢
    rw [hc.ge hF, decide_eq_false (by omega), if_neg (by decide),
      gcd_zero_diverges (by omega) e phi (List.ne_nil_of_length_pos hc.1) (List.ne_nil_of_length_pos hF.1) hc.2.1 hF.2.1
        (.inl hc.2.2), Out.bind_ok]
    rfl

example : evalELoop (fun i => if i < 4 then 0 else 7) (⟨[60], false⟩ : Num 32) 1000 0 = .ok none :=
  keygen_exponent_zero (.inl rfl) _ _ 60 ⟨by decide, rfl, by decide⟩ (by decide) 0 (by decide) _

end Kryptos.Rsa
