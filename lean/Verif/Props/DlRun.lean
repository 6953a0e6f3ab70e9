import Verif.Props.RsaKeys
import Verif.Props.DhParams
/-
  The tests of primality for primes of several digits, the verification of parameters of several digits, and a run of
  `kryptos_dh_mk_domain_params` (C44, C74, C120).
-/
namespace Kryptos.Mp
open Spec.Mp

variable {w : Nat}

/-- Fermat's test does not reject a prime of any size, when all draws give the same number and no guess overflows for it. -/
theorem fermatLoop_draws (hw : 16 ≤ w) (rnd : Nat → Byte) (n n1 n2 : Num w) (N c : Nat) (hn : Is n N) (htop : sig n.data = n.data.length)
    (hp : N.Prime) (hn1 : Is n1 (N - 1)) (hc : c + 1 < N)
    (hd : ∀ t, ∃ a, genRandom rnd (t * genRandomBytes n2) n2 = .ok (some a) ∧ Is a c) (hm : MeetsNoOverflow w (c + 1) (N - 1) N) (k : Nat) :
    ∀ t, fermatLoop rnd n n1 n2 k (t * genRandomBytes n2) = .ok (true, (t + k) * genRandomBytes n2) := by
  induction k with
  | zero => intro t; rfl
  | succ k ih =>
    intro t
    obtain ⟨r, r1, r2⟩ := hd t
    obtain ⟨a, a1, a2⟩ := r2.add (by omega) (is_one (w := w) (by omega)) (by omega)
    obtain ⟨x, B, x1, x2, -, -, x3⟩ := a2.me hw hn1 hn (by omega)
    have hfer : (c + 1) ^ (N - 1) % N = 1 := by
      have : Fact N.Prime := ⟨hp⟩
      have hcop : Nat.Coprime (c + 1) N := ((hp.coprime_iff_not_dvd).2 (Nat.not_dvd_of_pos_of_lt (by omega) (by omega))).symm
      have := Nat.ModEq.pow_totient hcop
      rw [Nat.totient_prime hp] at this
      rw [this, Nat.mod_eq_of_lt (by omega)]
    have hx : eq x one = true := by
      rw [x2.eq (is_one (by omega)), x3 htop hm, hfer]; rfl
    rw [fermatLoop, r1]
    simp only [Out.bind_ok, a1, x1, hx, if_true]
    rw [show t * genRandomBytes n2 + genRandomBytes n2 = (t + 1) * genRandomBytes n2 by ring, ih (t + 1),
      show t + 1 + k = t + (k + 1) by ring]

/-- C44 for primes of several digits, in part: a prime is accepted by both tests when all draws give the number `c`, `N - 1` is divisible
by two at most fifteen times and no guess overflows.  Missing for the full property: the overflows, which exist for every odd
number with more than one digit (`overflow_odd`). -/
theorem isPrime_draws_partial (hw : 16 ≤ w) (rnd : Nat → Byte) (fuel : Nat) (n : Num w) (N c k M : Nat) (hn : Is n N)
    (htop : sig n.data = n.data.length) (hp : N.Prime) (h5 : 5 ≤ N) (hk : N - 1 = 2 ^ k * M) (hM : M % 2 = 1)
    (hk15 : k ≤ 15) (hf : N ≤ fuel) (hc : 1 < c) (hcN : c + 1 < N)
    (hd : ∀ (p : Num w) (t : Nat), Is p (N - 2) → sig p.data = p.data.length →
      ∃ a, genRandom rnd (t * genRandomBytes p) p = .ok (some a) ∧ Is a c)
    (hm : MeetsNoOverflow w (c + 1) (N - 1) N) (hch : ChainOk w N M c 14) : isPrime rnd fuel 0 n = .ok (some true) := by
  have hone := is_one (w := w) (by omega)
  have htwo := is_two (w := w) (by omega)
  have ho : N % 2 = 1 := by
    rcases hp.eq_two_or_odd with h | h
    · omega
    · exact h
  have hbytes : ∀ p : Num w, Is p (N - 2) → sig p.data = p.data.length → genRandomBytes p = newSize w (digitCount w (N - 2) * w) := by
    intro p hp hs
    rw [genRandomBytes, ← hs, ← digitCount_eq (by omega) p.data (by rw [hp.2.2]; omega), hp.2.2]
  have hfm : fermat rnd 0 n 7 = .ok (true, 7 * newSize w (digitCount w (N - 2) * w)) := by
    rw [fermat, hn.le htwo, if_neg (by simp; omega)]
    obtain ⟨n1, e1, hn1⟩ := hn.sub (by omega) hone (by omega)
    obtain ⟨p, e2, hp', hpt⟩ := hn1.subNorm (by omega) hone (by omega) (by omega)
    rw [show N - 1 - 1 = N - 2 by omega] at hp'
    simp only [hn.isOdd (show 0 < w by omega), Out.bind_ok, ho, decide_true, Bool.not_true, Bool.false_eq_true, if_false,
      hn.assignNone (show 8 ≤ w by omega), e1, hn1.assignNone (show 8 ≤ w by omega), e2]
    have := fermatLoop_draws hw rnd n n1 p N c hn htop hp hn1 hcN (fun t => hd p t hp' hpt) hm 7 0
    rw [Nat.zero_mul] at this
    rw [this, hbytes p hp' hpt, Nat.zero_add]
  have hmr : ∃ j, millerRabin rnd fuel (7 * newSize w (digitCount w (N - 2) * w)) n 14 = .ok (some (true, j)) := by
    rcases millerRabin_eq hw rnd fuel (7 * newSize w (digitCount w (N - 2) * w)) n N 14 hn (by omega) ho with
      ⟨-, h⟩ | ⟨n1, m, p, k', M', hn1, hmI, hpp, hpt, h0, hk', hM', e1, -⟩
    · omega
    · obtain ⟨rfl, rfl⟩ := odd_part_unique (hk.symm.trans hk') hM hM'
      obtain ⟨a, a1, a2⟩ := hd p 7 hpp hpt
      rw [hbytes p hpp hpt] at a1
      obtain ⟨f, rfl⟩ : ∃ f, fuel = f + 1 := ⟨fuel - 1, by omega⟩
      have hdraw : drawBase rnd p (f + 1) (7 * newSize w (digitCount w (N - 2) * w)) =
          .ok (some (some a, 7 * newSize w (digitCount w (N - 2) * w) + genRandomBytes p)) := by
        rw [drawBase, a1]
        simp only [Out.bind_ok]
        rw [if_neg]
        rw [a2.le hone]
        simpa using hc
      obtain ⟨v, v1, v2⟩ := mrBase_spec hw n n1 m a N M c 14 (by omega) hn htop hn1 hmI a2.2.2 hch
      have hv : v = true := by
        rw [v2]
        rcases prime_chain N M c k hp hk (Nat.not_dvd_of_pos_of_lt (by omega) (by omega)) with h | ⟨j, h, h'⟩
        · exact .inl h
        · exact .inr ⟨j, by omega, h'⟩
      refine ⟨7 * newSize w (digitCount w (N - 2) * w) + genRandomBytes p, ?_⟩
      rw [e1 (by omega), hdraw]
      simp only [Out.bind_ok, v1, hv]
  obtain ⟨j, hj⟩ := hmr
  rw [isPrime, hfm]
  simp only [Out.bind_ok, if_true, hj]
  rfl

/-- The chain of a prime which is 3 modulo 4: after the first power there are only 1 and `-1`. -/
theorem chainOk_three (N M a : Nat) (hp : N.Prime) (hk : N - 1 = 2 * M) (ha : ¬ N ∣ a) (h0 : MeetsNoOverflow w a M N)
    (h1 : MeetsNoOverflow w 1 2 N) (h2 : MeetsNoOverflow w (N - 1) 2 N) (s : Nat) : ChainOk w N M a s := by
  have hN := hp.two_le
  have hx : a ^ M % N = 1 ∨ a ^ M % N = N - 1 := by
    rcases prime_chain N M a 1 hp (by rw [hk, pow_one]) ha with h | ⟨j, hj, h⟩
    · exact .inl h
    · obtain rfl : j = 0 := by omega
      rw [pow_zero, Nat.mul_one] at h
      exact .inr h
  refine ⟨h0, fun t _ => ?_⟩
  rcases Nat.eq_zero_or_pos t with rfl | ht
  · rw [pow_zero, Nat.mul_one]
    rcases hx with h | h <;> rw [h] <;> assumption
  · have : a ^ (M * 2 ^ t) % N = 1 := by
      obtain ⟨t, rfl⟩ : ∃ t', t = t' + 1 := ⟨t - 1, by omega⟩
      have hf : a ^ (N - 1) ≡ 1 [MOD N] := by
        have := Nat.ModEq.pow_totient ((hp.coprime_iff_not_dvd).2 ha).symm
        rwa [Nat.totient_prime hp] at this
      have h3 := hf.pow (2 ^ t)
      rw [one_pow, ← pow_mul, hk] at h3
      rw [pow_succ, show M * (2 ^ t * 2) = 2 * M * 2 ^ t by ring, h3, Nat.mod_eq_of_lt (by omega)]
    rw [this]
    exact h1

end Kryptos.Mp

namespace Kryptos.Dl
open Mp Spec.Mp

variable {w : Nat}

/-- C74 for numbers of several digits, in part: sound parameters for which both tests answer yes are accepted when the divisions are
among those that are right. -/
theorem verify_fine_partial (hw : 16 ≤ w) (rnd : Nat → Nat → Byte) (fuel : Nat) {p q g : Num w} {P Q G : Nat} (hp : Is p P)
    (hq : Is q Q) (hg : Is g G) (hs : Sound P Q G) (t1 : isPrime (rnd 0) fuel 0 q = .ok (some true))
    (t2 : isPrime (rnd 1) fuel 0 p = .ok (some true)) (hf : DivFine w q (P - 1)) (m1 : sig p.data = p.data.length)
    (m2 : MeetsNoOverflow w G Q P) : verify rnd fuel p q g = .ok (some .success) := by
  obtain ⟨s1, s2, s3, s4⟩ := hs
  have hP : P ≠ 0 := by omega
  have hQ : Q ≠ 0 := by
    rintro rfl
    have := Nat.eq_zero_of_zero_dvd s3
    omega
  obtain ⟨p1, h1, h2⟩ := sub_one_is (by omega) hp
  rw [if_neg hP] at h2
  obtain ⟨d, r, A, B, d1, -, d2, -, d3⟩ := h2.div hw hq hQ
  have hB : B = 0 := by
    rw [d3 hf]
    exact Nat.mod_eq_zero_of_dvd s3
  obtain ⟨e, E, e1, e2, -, -, e3⟩ := hg.me hw hq hp hP
  have hE : E = 1 := by
    rw [e3 m1 m2, s4, Nat.mod_eq_of_lt (by omega)]
  have ho : verifyOrder p q g p1 = .ok .success := by
    rw [verifyOrder, d1, Out.bind_ok]
    simp only [d2.ne is_zero]
    rw [if_neg (by simpa using hB), e1, Out.bind_ok]
    simp only [e2.ne (is_one (by omega : 0 < w))]
    rw [if_neg (by simpa using hE)]
    rfl
  rw [verify, h1, Out.bind_ok, hg.le (is_one (by omega)), hg.ge h2, if_neg (by simp; omega), t1, Out.bind_ok]
  simp only [t2, Out.bind_ok, ho]
  rfl

/-! ## A run -/

theorem prime_a : Nat.Prime 536870923 := by
  refine Pratt.pratt _ 3 30 [2, 3, 7, 23, 555767] ?_ (by decide) (by decide) (by decide) (by decide +kernel) (by decide +kernel)
  intro q hq
  simp only [List.mem_cons, List.not_mem_nil, or_false] at hq
  rcases hq with rfl | rfl | rfl | rfl | rfl <;> norm_num

theorem prime_q : Nat.Prime 2147483693 := by
  refine Pratt.pratt _ 2 32 [2, 2, 536870923] ?_ (by decide) (by decide) (by decide) (by decide +kernel) (by decide +kernel)
  intro q hq
  simp only [List.mem_cons, List.not_mem_nil, or_false] at hq
  rcases hq with rfl | rfl | rfl
  · exact Nat.prime_two
  · exact Nat.prime_two
  · exact prime_a

theorem prime_p : Nat.Prime 4294967387 := by
  refine Pratt.pratt _ 2 33 [2, 2147483693] ?_ (by decide) (by decide) (by decide) (by decide +kernel) (by decide +kernel)
  intro q hq
  simp only [List.mem_cons, List.not_mem_nil, or_false] at hq
  rcases hq with rfl | rfl
  · exact Nat.prime_two
  · exact prime_q

/-- The square of a number has an order dividing half of `P - 1`. -/
theorem sound_square (P Q h : Nat) (hp : P.Prime) (hQ : P - 1 = 2 * Q) (h1 : 1 < h * h) (h2 : h * h < P - 1) : Sound P Q (h * h) := by
  refine ⟨h1, h2, ⟨2, by omega⟩, ?_⟩
  have hh : h < P := by
    have := Nat.le_mul_self h
    omega
  have h0 : 0 < h := Nat.pos_of_ne_zero (by rintro rfl; omega)
  have := Nat.ModEq.pow_totient (((hp.coprime_iff_not_dvd).2 (Nat.not_dvd_of_pos_of_lt h0 hh)).symm)
  rw [Nat.totient_prime hp, hQ, pow_mul, pow_two] at this
  exact this

theorem shape_p : Shape 32 4294967387 2 31 := ⟨by decide, by decide, by decide, by decide, by decide, by decide⟩

/-- The bytes drawn: those of the order, of the factor 2, of the number 3, and for the tests of primality. -/
def bytes (c s i : Nat) : Byte :=
  if c = 0 ∧ s = 0 then (if i = 0 then 0x80 else if i = 3 then 45 else if i = 4 then 2 else 0)
  else if c = 0 ∧ s = 1 then (if i = 3 then 2 else 0)
  else if c = 0 ∧ s = 2 then (if i = 3 then 3 else 0)
  else if c = 1 ∧ s = 0 then 5
  else (if i % 2 = 1 then 2 else 0)

/-- All draws give the number 2. -/
theorem draw_two (rnd : Nat → Byte) (h : ∀ i, rnd i = if i % 2 = 1 then 2 else 0) (p : Num 32) (t : Nat) (hp : Is p (4294967387 - 2))
    (hs : sig p.data = p.data.length) : ∃ a, genRandom rnd (t * genRandomBytes p) p = .ok (some a) ∧ Is a 2 := by
  have hl : p.data.length = 2 := by
    rw [← hs, ← digitCount_eq (by decide) p.data (by rw [hp.2.2]; decide), hp.2.2]
    exact (Shape.count (w := 32) (s := 31) ⟨by decide, by decide, by decide, by decide, by decide, by decide⟩)
  have hb : genRandomBytes p = 2 := by rw [genRandomBytes, hl]; decide
  have hr : Is (genRandomRaw rnd (t * genRandomBytes p) p) 2 := by
    refine ⟨by simp [genRandomRaw, hb], rfl, ?_⟩
    simp only [genRandomRaw, hb]
    rw [show List.range 2 = [0, 1] from rfl]
    simp only [List.map_cons, List.map_nil, h, val]
    rw [if_pos (by omega), if_neg (by omega)]
    decide
  obtain ⟨q, r, A, B, d1, -, d2, -, d3⟩ := hr.div (by decide) hp (by decide)
  refine ⟨r, by rw [genRandom, d1]; rfl, ?_⟩
  rwa [d3 (.inl (by rw [hp.2.2]; decide)), show 2 % (4294967387 - 2) = 2 by decide] at d2

/-- The prime of two digits is found to be prime. -/
theorem isPrime_p (rnd : Nat → Byte) (h : ∀ i, rnd i = if i % 2 = 1 then 2 else 0) (fuel : Nat) (hf : 4294967387 ≤ fuel) :
    isPrime rnd fuel 0 (⟨[91, 1], false⟩ : Num 32) = .ok (some true) := by
  refine isPrime_draws_partial (by decide) rnd fuel _ 4294967387 2 1 2147483693 ⟨by decide, rfl, by decide⟩ (by decide) prime_p
    (by decide) (by decide) (by decide) (by decide) hf (by decide) (by decide) (draw_two rnd h)
    (meetsB_spec (l := 2) (s := 31) (J := 4) (K := 33) shape_p (by decide +kernel))
    (chainOk_three _ _ _ prime_p (by decide) (by decide)
      (meetsB_spec (l := 2) (s := 31) (J := 4) (K := 33) shape_p (by decide +kernel))
      (meetsB_spec (l := 2) (s := 31) (J := 4) (K := 33) shape_p (by decide +kernel))
      (meetsB_spec (l := 2) (s := 31) (J := 4) (K := 33) shape_p (by decide +kernel)) _)

theorem is_p : Is (⟨[91, 1], false⟩ : Num 32) 4294967387 := ⟨by decide, rfl, by decide⟩

theorem is_q : Is (⟨[2147483693], false⟩ : Num 32) 2147483693 := ⟨by decide, rfl, by decide⟩

theorem genPrime_q (f : Nat) (hf : 2147483693 < f) : genPrime 32 (bytes 0 0) (f + 1) 0 32 = .ok (some ⟨[2147483693], false⟩) :=
  genPrime_digit 2147483693 2 536870923 prime_q (by decide) (by decide) (by decide) (by decide) (by decide) _ (by decide +kernel)
    (by decide) (by decide) f hf

theorem findP_first (rnd : Nat → Nat → Byte) (b : Nat) (q j m p : Num w) (f : Nat)
    (h1 : (⟨setEven (rand w (rnd 0) 0 b).data, false⟩ : Num w) = j) (h2 : mul (assign none j) q = .ok m) (h3 : add m one = .ok p)
    (h4 : isPrime (rnd 1) f 0 p = .ok (some true)) : findP rnd b q (f + 1) 0 = .ok (some (p, j)) := by
  subst h1
  rw [findP]
  simp only [h2, h3, h4, Out.bind_ok]
  rfl

theorem getG_first (rnd : Nat → Nat → Byte) (p j p1 h g : Num w) (f : Nat) (h1 : rand w (rnd 0) 0 (p.data.length * w) = h)
    (h2 : (le h one || ge h p1) = false) (h3 : meModN h j p = .ok (some g)) (h4 : eq g one = false) :
    getG rnd p j p1 (f + 2) 0 = .ok (some (some g)) := by
  subst h1
  have e : getH rnd p p1 (f + 1) 0 = .ok (some (rand w (rnd 0) 0 (p.data.length * w), 1)) := by
    rw [getH]
    simp only [h2]
    rfl
  rw [getG, e, Out.bind_ok]
  simp only [h3, h4, Out.bind_ok]
  rfl

theorem findP_p (f : Nat) (hf : 4294967387 ≤ f) :
    findP (fun c => bytes 0 (2 * c + 1)) 32 (⟨[2147483693], false⟩ : Num 32) (f + 1) 0 =
      .ok (some (⟨[91, 1], false⟩, ⟨[2], false⟩)) :=
  findP_first _ 32 _ _ ⟨[90, 1], false⟩ _ f (by decide +kernel) (by decide +kernel) (by decide +kernel)
    (isPrime_p (bytes 0 3) (fun i => by simp [bytes]) f hf)

theorem getG_g : ∃ g : Num 32, Is g 9 ∧
    ∀ f, getG (fun c => bytes 0 (2 * c + 2)) (⟨[91, 1], false⟩ : Num 32) ⟨[2], false⟩ ⟨[90, 1], false⟩ (f + 2) 0 = .ok (some (some g)) := by
  obtain ⟨g, G, g1, g2, -, -, g3⟩ := Is.me (w := 32) (by decide) (m := ⟨[3, 0], false⟩) (a := 3) (e := ⟨[2], false⟩) (k := 2)
    ⟨by decide, rfl, by decide⟩ ⟨by decide, rfl, by decide⟩ is_p (by decide)
  have hG : G = 9 := by
    rw [g3 (by decide) (meetsB_spec (l := 2) (s := 31) (J := 4) (K := 33) shape_p (by decide +kernel))]
    decide
  subst hG
  refine ⟨g, g2, fun f => getG_first _ _ _ _ ⟨[3, 0], false⟩ _ f (by decide +kernel) (by decide +kernel) g1 ?_⟩
  rw [g2.eq (is_one (by decide))]
  decide

theorem verify_run (f : Nat) (hf : 4294967387 ≤ f) (g : Num 32) (hg : Is g 9) :
    verify (bytes 1) f (⟨[91, 1], false⟩ : Num 32) ⟨[2147483693], false⟩ g = .ok (some .success) := by
  have hm := meetsB_spec (w := 32) (n := 4294967387) (l := 2) (s := 31) (J := 4) (b := 9) (e := 2147483693) (K := 33) shape_p
    (by decide +kernel)
  have hs : Sound 4294967387 2147483693 9 := sound_square 4294967387 2147483693 3 prime_p (by decide) (by decide) (by decide)
  exact verify_fine_partial (by decide) _ _ is_p is_q hg hs
    (isPrime_digit (by decide) _ _ 0 _ 2147483693 2 536870923 is_q rfl prime_q (by decide) (by decide) (by decide) (by decide)
      (by decide) (by omega) (fun _ => by show 1 < (5 : Byte).toNat % _; decide))
    (isPrime_p _ (fun i => by simp [bytes]) _ hf) (divFine_single _ (by decide) rfl _) (by decide) hm

theorem genTemp_first (rnd : Nat → Nat → Byte) (pb qb f : Nat) {q p j p1 g : Num w} (h1 : genPrime w (rnd 0) f 0 qb = .ok (some q))
    (h2 : findP (fun c => rnd (2 * c + 1)) (if qb < pb then pb - qb else qb - pb) q f 0 = .ok (some (p, j)))
    (h3 : sub (assign none p) one = .ok p1) (h4 : getG (fun c => rnd (2 * c + 2)) p j p1 f 0 = .ok (some (some g))) :
    genTemp w rnd f pb qb = .ok (some (some (p, q, g))) := by
  rw [genTemp, h1, Out.bind_ok]
  simp only [h2, h3, h4, Out.bind_ok]
  rfl

theorem generate_first (rnd : Nat → Nat → Nat → Byte) (pb qb f : Nat) {p q g : Num w}
    (h1 : genTemp w (rnd 0) f pb qb = .ok (some (some (p, q, g)))) (h2 : verify (rnd 1) f p q g = .ok (some .success)) :
    generate w rnd pb qb (f + 1) 0 = .ok (some (some (p, q, g))) := by
  rw [generate, h1, Out.bind_ok]
  simp only [h2, Out.bind_ok]
  rfl

/-- Parameters are generated: the order 2147483693, the prime 4294967387 and the generator 9. -/
theorem generate_run (f : Nat) (hf : 4294967387 ≤ f) : ∃ g : Num 32, Is g 9 ∧
    generate 32 bytes 64 32 (f + 3) 0 = .ok (some (some (⟨[91, 1], false⟩, ⟨[2147483693], false⟩, g))) := by
  obtain ⟨g, hg, g1⟩ := getG_g
  have hp1 : sub (assign none (⟨[91, 1], false⟩ : Num 32)) one = .ok ⟨[90, 1], false⟩ := by decide +kernel
  exact ⟨g, hg, generate_first _ 64 32 (f + 2) (genTemp_first _ 64 32 (f + 2) (genPrime_q (f + 1) (by omega)) (findP_p (f + 1) (by omega))
    hp1 (g1 f)) (verify_run (f + 2) (by omega) g hg)⟩

end Kryptos.Dl

namespace Kryptos.Dh
open Mp Spec.Mp

/-- A run of `kryptos_dh_mk_domain_params` which succeeds, so that `mkDomainParams_sound` applies to it. -/
theorem mkDomainParams_run (f : Nat) (hf : 4294967387 ≤ f) : ∃ b, mkDomainParams 32 Dl.bytes (f + 3) 64 32 = .ok (some (.success, some b)) := by
  obtain ⟨g, ig, h⟩ := Dl.generate_run f hf
  obtain ⟨b, b1, -⟩ := params_roundtrip (w := 32) (.inl rfl) ⟨[91, 1], false⟩ ⟨[2147483693], false⟩ g 4294967387 2147483693 9
    ⟨by decide, rfl, by decide⟩ ⟨by decide, rfl, by decide⟩ ig
  exact ⟨b, by rw [mkDomainParams, if_neg (by decide), h, Out.bind_ok]; simp only [b1, Out.bind_ok]; rfl⟩

end Kryptos.Dh
