import Verif.Props.MpPrime
import Mathlib.FieldTheory.Finite.Basic
import Mathlib.Tactic.NormNum.Prime
/-
  The primality tests (C44) and the generated primes (C67).
-/
namespace Kryptos.Mp
open Spec.Mp

variable {w : Nat}

/-! ### What the tests should decide -/

/-- `n` is a strong probable prime to the base `a`: with `n - 1 = 2 ^ k * m`, `m` odd, `a ^ m` is 1 or one of the first `k`
repeated squares of it is `-1`, modulo `n`. -/
def StrongPrp (n a : Nat) : Prop :=
  ∃ k m, n - 1 = 2 ^ k * m ∧ m % 2 = 1 ∧ (a ^ m % n = 1 ∨ ∃ j < k, a ^ (m * 2 ^ j) % n = n - 1)

/-- What the code decides for the base `a`, with `n - 1 = 2 ^ k * m`: it makes `s` squarings, whatever `k` is. -/
def Verdict (n m a s : Nat) : Prop := a ^ m % n = 1 ∨ ∃ j ≤ s, a ^ (m * 2 ^ j) % n = n - 1

/-- Every prime divisor of `n` is 1 modulo `2 ^ (j + 1)` when `a ^ (m * 2 ^ j)` is `-1` modulo `n`. -/
theorem prime_factor_modEq (n m a j p : Nat) (hn : 3 ≤ n) (ho : n % 2 = 1) (h : a ^ (m * 2 ^ j) % n = n - 1) (hp : p.Prime)
    (hpn : p ∣ n) : p ≡ 1 [MOD 2 ^ (j + 1)] := by
  have : Fact p.Prime := ⟨hp⟩
  have hp2 : p ≠ 2 := by rintro rfl; omega
  have hlt : 2 < p := lt_of_le_of_ne hp.two_le (Ne.symm hp2)
  have : Fact (2 < p) := ⟨hlt⟩
  have hx : ((a : ZMod p) ^ m) ^ 2 ^ j = -1 := by
    have h1 : a ^ (m * 2 ^ j) ≡ n - 1 [MOD n] := by rw [Nat.ModEq, h, Nat.mod_eq_of_lt (by omega)]
    have h2 := (ZMod.natCast_eq_natCast_iff _ _ _).2 (h1.of_dvd hpn)
    have h3 : (n : ZMod p) = 0 := (ZMod.natCast_eq_zero_iff _ _).2 hpn
    rw [Nat.cast_sub (by omega), h3] at h2
    rw [← pow_mul, ← Nat.cast_pow, h2]; simp
  have hne : (-1 : ZMod p) ≠ 1 := ZMod.neg_one_ne_one
  have hord : orderOf ((a : ZMod p) ^ m) = 2 ^ (j + 1) := by
    apply orderOf_eq_prime_pow
    · rw [hx]; exact hne
    · rw [pow_succ, pow_mul, hx]; simp
  have h0 : (a : ZMod p) ^ m ≠ 0 := by
    intro h0
    rw [h0, zero_pow (Nat.two_pow_pos j).ne'] at hx
    exact hne (by rw [← hx]; simpa using congrArg Neg.neg hx)
  have hd := ZMod.orderOf_dvd_card_sub_one h0
  rw [hord] at hd
  exact ((Nat.modEq_iff_dvd' (by omega)).2 hd).symm

theorem prod_modEq_one (q : Nat) (l : List Nat) (h : ∀ p ∈ l, p ≡ 1 [MOD q]) : l.prod ≡ 1 [MOD q] := by
  induction l with
  | nil => rfl
  | cons p l ih =>
    rw [List.prod_cons]
    simpa using (h p (by simp)).mul (ih fun x hx => h x (by simp [hx]))

/-- The extra squarings of the code do no harm: what it accepts is a strong probable prime. -/
theorem Verdict.strong {n m a s k : Nat} (hn : 3 ≤ n) (hk : n - 1 = 2 ^ k * m) (hm : m % 2 = 1) (hpos : 0 < k)
    (h : Verdict n m a s) : StrongPrp n a := by
  refine ⟨k, m, hk, hm, h.imp_right fun ⟨j, _, h⟩ => ⟨j, ?_, h⟩⟩
  have ho : n % 2 = 1 := by
    obtain ⟨k, rfl⟩ := Nat.exists_eq_succ_of_ne_zero hpos.ne'
    rw [pow_succ] at hk
    have : n = 2 * (2 ^ k * m) + 1 := by rw [show 2 * (2 ^ k * m) = 2 ^ k * 2 * m by ring]; omega
    omega
  have h1 : n ≡ 1 [MOD 2 ^ (j + 1)] := by
    have := prod_modEq_one (2 ^ (j + 1)) n.primeFactorsList fun p hp =>
      prime_factor_modEq n m a j p hn ho h (Nat.prime_of_mem_primeFactorsList hp) (Nat.dvd_of_mem_primeFactorsList hp)
    rwa [Nat.prod_primeFactorsList (by omega)] at this
  have hd : 2 ^ (j + 1) ∣ 2 ^ k * m := hk ▸ (Nat.modEq_iff_dvd' (by omega)).1 h1.symm
  have hc : Nat.Coprime (2 ^ (j + 1)) m := Nat.Coprime.pow_left _ (coprime_two hm)
  have := (Nat.pow_dvd_pow_iff_le_right (by decide : 1 < 2)).1 (hc.dvd_of_dvd_mul_right hd)
  omega

/-- The chain of squares of a base which a prime does not divide reaches 1 through `-1`. -/
theorem prime_chain (n m a k : Nat) (hp : n.Prime) (hk : n - 1 = 2 ^ k * m) (ha : ¬ n ∣ a) :
    a ^ m % n = 1 ∨ ∃ j < k, a ^ (m * 2 ^ j) % n = n - 1 := by
  have : Fact n.Prime := ⟨hp⟩
  have h1 : (a : ZMod n) ≠ 0 := fun h => ha ((ZMod.natCast_eq_zero_iff _ _).1 h)
  have hone : ∀ x : Nat, (x : ZMod n) = 1 → x % n = 1 := by
    intro x hx
    have : x ≡ 1 [MOD n] := (ZMod.natCast_eq_natCast_iff _ _ _).1 (by simpa using hx)
    rw [this, Nat.mod_eq_of_lt hp.one_lt]
  have hneg : ∀ x : Nat, (x : ZMod n) = -1 → x % n = n - 1 := by
    intro x hx
    have : x ≡ n - 1 [MOD n] := (ZMod.natCast_eq_natCast_iff _ _ _).1 (by
      rw [hx, Nat.cast_sub hp.one_lt.le]; simp)
    rw [this, Nat.mod_eq_of_lt (by have := hp.pos; omega)]
  have key : ∀ k, (a : ZMod n) ^ (m * 2 ^ k) = 1 → (a : ZMod n) ^ m = 1 ∨ ∃ j < k, (a : ZMod n) ^ (m * 2 ^ j) = -1 := by
    intro k
    induction k with
    | zero => intro h; left; simpa using h
    | succ k ih =>
      intro h
      rw [pow_succ, ← mul_assoc, pow_mul] at h
      rcases sq_eq_one_iff.1 h with h | h
      · rcases ih h with h | ⟨j, h1, h2⟩
        · exact .inl h
        · exact .inr ⟨j, by omega, h2⟩
      · exact .inr ⟨k, by omega, h⟩
  have h2 : (a : ZMod n) ^ (m * 2 ^ k) = 1 := by
    rw [mul_comm, ← hk]; exact ZMod.pow_card_sub_one_eq_one h1
  rcases key k h2 with h | ⟨j, h3, h4⟩
  · exact .inl (hone _ (by push_cast; exact h))
  · exact .inr ⟨j, h3, hneg _ (by push_cast; exact h4)⟩

/-! ### The test for one base -/

/-- No guess overflows in the divisions of the test for the base `a`. -/
def ChainOk (w n m a s : Nat) : Prop :=
  MeetsNoOverflow w a m n ∧ ∀ t < s, MeetsNoOverflow w (a ^ (m * 2 ^ t) % n) 2 n

/-- Numbers of one digit give no overflow. -/
theorem chainOk_single (n m a s : Nat) (hn : n ≠ 0) (h : n < 2 ^ w) : ChainOk w n m a s :=
  ⟨fun _ _ => ⟨no_overflow_single _ _ _ hn h, no_overflow_single _ _ _ hn h⟩,
    fun _ _ _ _ => ⟨no_overflow_single _ _ _ hn h, no_overflow_single _ _ _ hn h⟩⟩

/-- The squarings, when no guess overflows. -/
theorem mrLoop_spec (hw : 16 ≤ w) (n n1 : Num w) (N m a : Nat) (hN : 3 ≤ N) (hn : Is n N) (htop : sig n.data = n.data.length)
    (hn1 : Is n1 (N - 1)) (s : Nat) : ∀ (t : Nat) (x : Num w),
      (∀ u, t ≤ u → u < t + s → MeetsNoOverflow w (a ^ (m * 2 ^ u) % N) 2 N) → x.neg = false →
      val x.data = a ^ (m * 2 ^ t) % N →
      mrLoop n n1 s x = .ok (decide (∃ j, j ≤ t + s ∧ t < j ∧ a ^ (m * 2 ^ j) % N = N - 1)) := by
  have h2 := is_two (w := w) (by omega)
  induction s with
  | zero =>
    intro t x _ _ _
    rw [mrLoop, decide_eq_false]
    rintro ⟨j, h1, h2, -⟩
    omega
  | succ s ih =>
    intro t x hch hxn hx
    obtain ⟨b, b1, b2, b3⟩ := me_partial hw x two n (by simp [two]) hn.2.1 (by rw [hn.2.2]; omega) htop (by
      rw [hx, h2.2.2, hn.2.2]; exact hch t (le_refl _) (by omega))
    rw [hx, h2.2.2, hn.2.2, ← Nat.pow_mod, ← pow_mul, mul_assoc, ← pow_succ] at b3
    have hb1 : eq b one = decide (a ^ (m * 2 ^ (t + 1)) % N = 1) := by
      rw [Bool.eq_iff_iff, eq_spec, b2, b3, (is_one (w := w) (by omega)).2.2]; simp [one]
    have hbn : eq b n1 = decide (a ^ (m * 2 ^ (t + 1)) % N = N - 1) := by
      rw [Bool.eq_iff_iff, eq_spec, b2, b3, hn1.2.2, hn1.2.1]; simp
    rw [mrLoop, b1]
    simp only [Out.bind_ok, hb1, hbn, decide_eq_true_eq]
    split
    · rename_i h
      rw [decide_eq_false]
      rintro ⟨j, h3, h4, h5⟩
      obtain ⟨d, rfl⟩ : ∃ d, j = t + 1 + d := ⟨j - (t + 1), by omega⟩
      rw [pow_add, ← mul_assoc, pow_mul, Nat.pow_mod, h, one_pow, Nat.mod_eq_of_lt (by omega)] at h5
      omega
    · split
      · rename_i h
        rw [decide_eq_true]
        exact ⟨t + 1, by omega, by omega, h⟩
      · rename_i h h'
        rw [ih (t + 1) b (fun u h3 h4 => hch u (by omega) (by omega)) b2 b3]
        congr 1
        rw [decide_eq_decide]
        constructor
        · rintro ⟨j, h3, h4, h5⟩
          exact ⟨j, by omega, by omega, h5⟩
        · rintro ⟨j, h3, h4, h5⟩
          refine ⟨j, by omega, ?_, h5⟩
          rcases Nat.lt_or_ge (t + 1) j with h6 | h6
          · exact h6
          · obtain rfl : j = t + 1 := by omega
            exact absurd h5 h'

/-- The verdict of the code for a base, when no guess overflows. -/
theorem mrBase_spec (hw : 16 ≤ w) (n n1 m a : Num w) (N M A s : Nat) (hN : 3 ≤ N) (hn : Is n N)
    (htop : sig n.data = n.data.length) (hn1 : Is n1 (N - 1)) (hm : Is m M) (ha : val a.data = A) (hch : ChainOk w N M A s) :
    ∃ v, mrBase n n1 m a s = .ok v ∧ (v = true ↔ Verdict N M A s) := by
  obtain ⟨x, x1, x2, x3⟩ := me_partial hw a m n (List.ne_nil_of_length_pos hm.1) hn.2.1 (by rw [hn.2.2]; omega) htop (by
    rw [ha, hm.2.2, hn.2.2]; exact hch.1)
  rw [ha, hm.2.2, hn.2.2] at x3
  have hx1 : eq x one = decide (A ^ M % N = 1) := by
    rw [Bool.eq_iff_iff, eq_spec, x2, x3, (is_one (w := w) (by omega)).2.2]; simp [one]
  have hxn : eq x n1 = decide (A ^ M % N = N - 1) := by
    rw [Bool.eq_iff_iff, eq_spec, x2, x3, hn1.2.2, hn1.2.1]; simp
  rw [mrBase, x1]
  simp only [Out.bind_ok, hx1, hxn, Bool.or_eq_true, decide_eq_true_eq]
  split
  · rename_i h
    refine ⟨true, rfl, iff_of_true rfl ?_⟩
    rcases h with h | h
    · exact .inl h
    · exact .inr ⟨0, by omega, by simpa using h⟩
  · rename_i h
    refine ⟨_, mrLoop_spec hw n n1 N M A hN hn htop hn1 s 0 x (fun u _ hu => hch.2 u (by omega)) x2 (by simpa using x3), ?_⟩
    rw [decide_eq_true_eq]
    constructor
    · rintro ⟨j, h3, -, h5⟩
      exact .inr ⟨j, by omega, h5⟩
    · rintro (h3 | ⟨j, h3, h4⟩)
      · exact absurd (.inl h3) h
      · refine ⟨j, by omega, ?_, h4⟩
        rcases Nat.eq_zero_or_pos j with rfl | hj
        · exact absurd (.inr (by simpa using h4)) h
        · exact hj

/-- What the code accepts satisfies the congruences, also when guesses overflow. -/
theorem mrLoop_sound (hw : 16 ≤ w) (n n1 : Num w) (N m a : Nat) (hN : 3 ≤ N) (hn : Is n N) (hn1 : Is n1 (N - 1)) (s : Nat) :
    ∀ (t : Nat) (x : Num w), val x.data ≡ a ^ (m * 2 ^ t) [MOD N] → mrLoop n n1 s x = .ok true →
      ∃ j, j ≤ t + s ∧ a ^ (m * 2 ^ j) % N = N - 1 := by
  have h2 := is_two (w := w) (by omega)
  induction s with
  | zero => intro t x _ h; simp [mrLoop] at h
  | succ s ih =>
    intro t x hx h
    obtain ⟨b, b1, b2, b3⟩ := me_congruent hw x two n hn.2.1 (by rw [hn.2.2]; omega)
    rw [h2.2.2, hn.2.2] at b3
    have b4 : val b.data ≡ a ^ (m * 2 ^ (t + 1)) [MOD N] := by
      refine b3.trans ((hx.pow 2).trans ?_)
      rw [← pow_mul, mul_assoc, ← pow_succ]
    rw [mrLoop, b1] at h
    simp only [Out.bind_ok] at h
    split at h
    · cases h
    · split at h
      · rename_i h3
        rw [eq_spec, hn1.2.2] at h3
        rw [h3.2] at b4
        exact ⟨t + 1, by omega, by rw [← b4, Nat.mod_eq_of_lt (by omega)]⟩
      · obtain ⟨j, h3, h4⟩ := ih (t + 1) b b4 h
        exact ⟨j, by omega, h4⟩

theorem mrBase_sound (hw : 16 ≤ w) (n n1 m a : Num w) (N M A s : Nat) (hN : 3 ≤ N) (hn : Is n N) (hn1 : Is n1 (N - 1))
    (hm : Is m M) (ha : val a.data = A) (h : mrBase n n1 m a s = .ok true) : Verdict N M A s := by
  obtain ⟨x, x1, x2, x3⟩ := me_congruent hw a m n hn.2.1 (by rw [hn.2.2]; omega)
  rw [ha, hm.2.2, hn.2.2] at x3
  rw [mrBase, x1] at h
  simp only [Out.bind_ok, Bool.or_eq_true] at h
  split at h
  · rename_i h3
    rcases h3 with h3 | h3
    · rw [eq_spec, (is_one (w := w) (by omega)).2.2] at h3
      rw [h3.2] at x3
      exact .inl (by rw [← x3, Nat.mod_eq_of_lt (by omega)])
    · rw [eq_spec, hn1.2.2] at h3
      rw [h3.2] at x3
      exact .inr ⟨0, by omega, by rw [pow_zero, mul_one, ← x3, Nat.mod_eq_of_lt (by omega)]⟩
  · obtain ⟨j, h3, h4⟩ := mrLoop_sound hw n n1 N M A hN hn hn1 s 0 x (by simpa using x3) h
    exact .inr ⟨j, by omega, h4⟩

/-! ### The whole test -/

/-- The odd part of `n - 1` is found, with fuel enough. -/
theorem splitLoop_spec (hw : 8 ≤ w) (n1 : Num w) (P : Nat) (hP : 0 < P) (hn1 : Is n1 P) (fuel : Nat) :
    ∀ (pn : Nat) (m : Option (Num w)) (nd : Num w), 2 ^ pn ∣ P → Is nd (P / 2 ^ pn) →
      splitLoop n1 fuel pn m nd = .ok none ∧ fuel + pn ≤ P ∨
      ∃ r k M, splitLoop n1 fuel pn m nd = .ok (some r) ∧ Is r M ∧ pn ≤ k ∧ P = 2 ^ k * M ∧ M % 2 = 1 := by
  induction fuel with
  | zero =>
    intro pn m nd hd _
    have := Nat.le_of_dvd hP hd
    have : pn < 2 ^ pn := Nat.lt_two_pow_self
    exact .inl ⟨rfl, by omega⟩
  | succ f ih =>
    intro pn m nd hd hnd
    obtain ⟨q, r, q1, q2, q3, q4, q5, q6⟩ := div2p_exact hw n1 (pn + 1) (List.ne_nil_of_length_pos hn1.1) hn1.2.1
    rw [hn1.2.2] at q2 q3
    have hr : eq r zero = decide (P % 2 ^ (pn + 1) = 0) := by
      rw [Bool.eq_iff_iff, eq_spec, q5, q3, (is_zero (w := w)).2.2]; simp [zero]
    rw [splitLoop, q1]
    simp only [Out.bind_ok, hr, decide_eq_true_eq]
    split
    · rename_i h
      rcases ih (pn + 1) (some (assign m nd)) q (Nat.dvd_of_mod_eq_zero h) ⟨List.length_pos_iff.2 q6, q4, q2⟩ with
        ⟨h1, h2⟩ | ⟨r', k, M, h1, h2, h3, h4, h5⟩
      · exact .inl ⟨h1, by omega⟩
      · exact .inr ⟨r', k, M, h1, h2, by omega, h4, h5⟩
    · rename_i h
      refine .inr ⟨_, pn, P / 2 ^ pn, rfl, hnd.assignOpt hw m, le_refl _, (Nat.mul_div_cancel' hd).symm, ?_⟩
      by_contra hodd
      apply h
      obtain ⟨c, hc⟩ := hd
      rw [hc, Nat.mul_div_cancel_left _ (Nat.two_pow_pos _)] at hodd
      rw [hc, pow_succ, Nat.mul_mod_mul_left]
      rw [show c % 2 = 0 by omega, Nat.mul_zero]

/-- The number under test, the numbers derived from it, and the loops of the test. -/
theorem millerRabin_eq (hw : 16 ≤ w) (rnd : Nat → Byte) (fuel i : Nat) (n : Num w) (N sn : Nat) (hn : Is n N) (hN : 3 ≤ N)
    (ho : N % 2 = 1) :
    millerRabin rnd fuel i n sn = .ok none ∧ fuel < N ∨
    ∃ n1 m p k M, Is n1 (N - 1) ∧ Is m M ∧ Is p (N - 2) ∧ sig p.data = p.data.length ∧ 0 < k ∧ N - 1 = 2 ^ k * M ∧ M % 2 = 1 ∧
      (N ≠ 3 → millerRabin rnd fuel i n sn = (do
        let a ← drawBase rnd p fuel i
        match a with
        | none => .ok none
        | some (none, i) => .ok (some (false, i))
        | some (some a, i) => do
          let v ← mrBase n n1 m a sn
          .ok (some (v, i)))) ∧
      (N = 3 → ∃ a, Is a 1 ∧ millerRabin rnd fuel i n sn = (do
          let v ← mrBase n n1 m a sn
          .ok (some (v, i)))) := by
  have h1 := is_one (w := w) (by omega)
  have h2 := is_two (w := w) (by omega)
  obtain ⟨n1, e1, hn1⟩ := hn.sub (by omega) h1 (by omega)
  obtain ⟨p, e2, hp, hpt⟩ := hn1.subNorm (by omega) h1 (by omega) (by omega)
  obtain ⟨q, r, q1, q2, q3, q4, q5, q6⟩ := div2p_exact (w := w) (by omega) n1 1 (List.ne_nil_of_length_pos hn1.1) hn1.2.1
  rw [hn1.2.2] at q2
  rcases splitLoop_spec (w := w) (by omega) n1 (N - 1) (by omega) hn1 fuel 1 none q
    (Nat.dvd_of_mod_eq_zero (by omega)) ⟨List.length_pos_iff.2 q6, q4, q2⟩ with ⟨m1, m2⟩ | ⟨m, k, M, m1, m2, m3, m4, m5⟩
  · left
    refine ⟨?_, by omega⟩
    rw [millerRabin, hn.isOdd (by omega)]
    simp only [Out.bind_ok, ho, hn.eq h2, hn.assignNone (by omega), e1, q1, m1]
    rw [if_neg (by simp), if_neg (by simp; omega)]
  right
  have hpv : N - 1 - 1 = N - 2 := by omega
  have heq : eq p one = decide (N = 3) := by
    rw [hp.eq h1, decide_eq_decide]; omega
  have hmain : millerRabin rnd fuel i n sn = (if !decide (N = 3) then (do
        let a ← drawBase rnd p fuel i
        match a with
        | none => .ok none
        | some (none, i) => .ok (some (false, i))
        | some (some a, i) => do
          let v ← mrBase n n1 m a sn
          .ok (some (v, i)))
      else do
        let v ← mrBase n n1 m (assign (some two) p) sn
        .ok (some (v, i))) := by
    rw [millerRabin, hn.isOdd (by omega)]
    simp only [Out.bind_ok, ho, hn.eq h2, hn.assignNone (by omega), e1, q1, m1, hn1.assignNone (by omega), e2, heq]
    rw [if_neg (by simp), if_neg (by simp; omega)]
    rfl
  refine ⟨n1, m, p, k, M, hn1, m2, hpv ▸ hp, hpt, m3, m4, m5, fun h => ?_, fun h => ⟨assign (some two) p, ?_, ?_⟩⟩
  · rw [hmain, if_pos (by simpa using h)]
  · have := hp.assignSome two
    rwa [show N - 1 - 1 = 1 by omega] at this
  · rw [hmain, if_neg (by simpa using h)]

/-- A random number is not negative, and there is one when the bound is not zero. -/
theorem genRandom_some (hw : 16 ≤ w) (rnd : Nat → Byte) (i : Nat) (p : Num w) (P : Nat) (hp : Is p P) (h0 : P ≠ 0) :
    ∃ a, genRandom rnd i p = .ok (some a) ∧ a.neg = false ∧ a.data ≠ [] := by
  have hr : (genRandomRaw rnd i p).data ≠ [] := by
    apply List.ne_nil_of_length_pos
    simp [genRandomRaw, genRandomBytes, newSize_mul (show 8 ≤ w by omega)]
  obtain ⟨q, r, d1, -, d3, -, d5, -⟩ := div_exact_iff hw (genRandomRaw rnd i p) p hr rfl hp.2.1 (by rw [hp.2.2]; exact h0)
  exact ⟨r, by rw [genRandom, d1]; rfl, d3, d5⟩

/-- The base comes from the random number generator and is greater than 1. -/
theorem drawBase_sound (hw : 16 ≤ w) (rnd : Nat → Byte) (p : Num w) (P : Nat) (hp : Is p P) (h0 : P ≠ 0) (fuel : Nat) :
    ∀ i, drawBase rnd p fuel i = .ok none ∨
      ∃ t a, drawBase rnd p fuel i = .ok (some (some a, t + genRandomBytes p)) ∧ genRandom rnd t p = .ok (some a) ∧ i ≤ t ∧
        1 < val a.data := by
  induction fuel with
  | zero => intro i; exact .inl rfl
  | succ f ih =>
    intro i
    obtain ⟨g, g1, g2, g3⟩ := genRandom_some hw rnd i p P hp h0
    rw [drawBase, g1]
    simp only [Out.bind_ok]
    split
    · rcases ih (i + genRandomBytes p) with h | ⟨t, a, h1, h2, h3, h4⟩
      · exact .inl h
      · exact .inr ⟨t, a, h1, h2, by omega, h4⟩
    · rename_i h
      refine .inr ⟨i, g, rfl, g1, le_refl _, ?_⟩
      rw [(Is.intro g3 g2).le (is_one (by omega))] at h
      simpa using h

/-- A number accepted by `kryptos_mp_miller_rabin_test` is odd and greater than 1, and, but for 3, a strong probable prime to a
base which was drawn.  This holds for all sizes, also when the divisions go wrong, and for any number of squarings. -/
theorem millerRabin_sound (hw : 16 ≤ w) (rnd : Nat → Byte) (fuel i j : Nat) (n : Num w) (N sn : Nat) (hn : Is n N) (hN : 3 ≤ N)
    (h : millerRabin rnd fuel i n sn = .ok (some (true, j))) :
    N % 2 = 1 ∧ (N = 3 ∨ ∃ (p : Num w) (t : Nat) (a : Num w), Is p (N - 2) ∧ i ≤ t ∧ genRandom rnd t p = .ok (some a) ∧ 1 < val a.data ∧
      StrongPrp N (val a.data)) := by
  have ho : N % 2 = 1 := by
    by_contra ho
    rw [millerRabin, hn.isOdd (by omega)] at h
    simp [ho] at h
  refine ⟨ho, ?_⟩
  rcases millerRabin_eq hw rnd fuel i n N sn hn hN ho with ⟨h1, -⟩ | ⟨n1, m, p, k, M, hn1, hm, hp, -, h0, hk, hM, h1, -⟩
  · rw [h] at h1; cases h1
  · by_cases h3 : N = 3
    · exact .inl h3
    · right
      rw [h1 h3] at h
      rcases drawBase_sound hw rnd p _ hp (by omega) fuel i with e | ⟨t, a, e1, e2, e3, e4⟩
      · rw [e] at h; cases h
      · rw [e1] at h
        simp only [Out.bind_ok] at h
        refine ⟨p, t, a, hp, e3, e2, e4, ?_⟩
        cases hb : mrBase n n1 m a sn with
        | ub => rw [hb] at h; cases h
        | ok v =>
          rw [hb] at h
          simp only [Out.bind_ok, Out.ok.injEq, Option.some.injEq, Prod.mk.injEq] at h
          rw [h.1] at hb
          exact (mrBase_sound hw n n1 m a N M _ sn hN hn hn1 hm rfl hb).strong hN hk hM h0

/-- The odd part is determined. -/
theorem odd_part_unique {k m k' m' : Nat} (h : 2 ^ k * m = 2 ^ k' * m') (hm : m % 2 = 1) (hm' : m' % 2 = 1) : k = k' ∧ m = m' := by
  have key : ∀ {a b x y : Nat}, 2 ^ a * x = 2 ^ b * y → y % 2 = 1 → a ≤ b := by
    intro a b x y h hy
    have hd : 2 ^ a ∣ 2 ^ b * y := ⟨x, h.symm⟩
    exact (Nat.pow_dvd_pow_iff_le_right (by decide : 1 < 2)).1
      ((Nat.Coprime.pow_left _ (coprime_two hy)).dvd_of_dvd_mul_right hd)
  have e : k = k' := le_antisymm (key h hm') (key h.symm hm)
  subst e
  exact ⟨rfl, Nat.eq_of_mul_eq_mul_left (Nat.two_pow_pos k) h⟩

/-- A prime is accepted when `n - 1` is divisible by two at most `sn + 1` times, the bases are less than the prime and no guess
overflows.  Missing for the full property: the primes for which the number of squarings is too small, some of which are
rejected (`millerRabin_rejects_prime`), the prime 2 (`millerRabin_two`), and the overflows of division. -/
theorem millerRabin_prime_partial (hw : 16 ≤ w) (rnd : Nat → Byte) (fuel i j : Nat) (n : Num w) (N sn k M : Nat) (v : Bool)
    (hn : Is n N) (htop : sig n.data = n.data.length) (hp : N.Prime) (h2 : N ≠ 2) (hk : N - 1 = 2 ^ k * M) (hM : M % 2 = 1)
    (hks : k ≤ sn + 1)
    (hb : ∀ (p : Num w) (t : Nat) (a : Num w), Is p (N - 2) → sig p.data = p.data.length → i ≤ t → genRandom rnd t p = .ok (some a) →
      val a.data < N ∧ ChainOk w N M (val a.data) sn)
    (h3 : ChainOk w N M 1 sn)
    (h : millerRabin rnd fuel i n sn = .ok (some (v, j))) : v = true := by
  have hN : 3 ≤ N := by have := hp.two_le; omega
  have ho : N % 2 = 1 := by
    rcases hp.eq_two_or_odd with h | h
    · exact absurd h h2
    · exact h
  rcases millerRabin_eq hw rnd fuel i n N sn hn hN ho with ⟨h1, -⟩ | ⟨n1, m, p, k', M', hn1, hm, hpp, hpt, h0, hk', hM', h1, h1'⟩
  · rw [h] at h1; cases h1
  · obtain ⟨rfl, rfl⟩ := odd_part_unique (hk.symm.trans hk') hM hM'
    have hacc : ∀ a : Num w, ¬ N ∣ val a.data → ChainOk w N M (val a.data) sn → mrBase n n1 m a sn = .ok true := by
      intro a ha hc
      obtain ⟨v, v1, v2⟩ := mrBase_spec hw n n1 m a N M _ sn hN hn htop hn1 hm rfl hc
      rw [v1, v2.2]
      rcases prime_chain N M (val a.data) k hp hk ha with h | ⟨j, h, h'⟩
      · exact .inl h
      · exact .inr ⟨j, by omega, h'⟩
    by_cases hN3 : N = 3
    · obtain ⟨a, a1, a2⟩ := h1' hN3
      rw [a2, hacc a (by rw [a1.2.2, hN3]; decide) (by rw [a1.2.2]; exact h3)] at h
      simp only [Out.bind_ok, Out.ok.injEq, Option.some.injEq, Prod.mk.injEq] at h
      exact h.1.symm
    · rw [h1 hN3] at h
      rcases drawBase_sound hw rnd p _ hpp (by omega) fuel i with e | ⟨t, a, e1, e2, e3, e4⟩
      · rw [e] at h; cases h
      · obtain ⟨b1, b2⟩ := hb p t a hpp hpt e3 e2
        rw [e1] at h
        simp only [Out.bind_ok] at h
        rw [hacc a (Nat.not_dvd_of_pos_of_lt (by omega) b1) b2] at h
        simp only [Out.bind_ok, Out.ok.injEq, Option.some.injEq, Prod.mk.injEq] at h
        exact h.1.symm

/-- Without conditions on the divisions for primes of one digit. -/
theorem millerRabin_prime_single (hw : 16 ≤ w) (rnd : Nat → Byte) (fuel i j : Nat) (n : Num w) (N sn k M : Nat) (v : Bool)
    (hn : Is n N) (h1 : n.data.length = 1) (hp : N.Prime) (h2 : N ≠ 2) (hk : N - 1 = 2 ^ k * M) (hM : M % 2 = 1)
    (hks : k ≤ sn + 1) (h : millerRabin rnd fuel i n sn = .ok (some (v, j))) : v = true := by
  have hlt : N < 2 ^ w := by have := val_lt n.data; rwa [h1, mul_one, hn.2.2] at this
  have hN : 3 ≤ N := by have := hp.two_le; omega
  have htop : sig n.data = n.data.length := by
    have := sig_le n.data
    have : sig n.data ≠ 0 := fun h' => by have := (sig_zero _).1 h'; rw [hn.2.2] at this; omega
    omega
  refine millerRabin_prime_partial hw rnd fuel i j n N sn k M v hn htop hp h2 hk hM hks (fun p t a h3 h4 _ h5 => ⟨?_, ?_⟩)
    (chainOk_single _ _ _ _ (by omega) hlt) h
  · obtain ⟨r, r1, r2⟩ := genRandom_lt hw p (h3.length_one h4 (by omega)) h3.2.1 (by rw [h3.2.2]; omega) rnd t
    rw [h5] at r1
    injection r1 with r1
    injection r1 with r1
    subst r1
    rw [h3.2.2] at r2
    omega
  · exact chainOk_single _ _ _ _ (by omega) hlt

/-- The verdict for a number of one digit, when the first byte drawn is acceptable: exactly whether one of the first `sn + 1`
powers is `-1` or the first one is 1. -/
theorem millerRabin_single (hw : 16 ≤ w) (rnd : Nat → Byte) (fuel i : Nat) (n : Num w) (N sn k M : Nat) (hn : Is n N)
    (h1 : n.data.length = 1) (hN : 5 ≤ N) (hk : N - 1 = 2 ^ k * M) (hM : M % 2 = 1) (hk0 : 0 < k) (hf : N ≤ fuel)
    (ha : 1 < (rnd i).toNat % (N - 2)) :
    ∃ v, millerRabin rnd fuel i n sn = .ok (some (v, i + 1)) ∧ (v = true ↔ Verdict N M ((rnd i).toNat % (N - 2)) sn) := by
  have hlt : N < 2 ^ w := by have := val_lt n.data; rwa [h1, mul_one, hn.2.2] at this
  have htop : sig n.data = n.data.length := by
    have := sig_le n.data
    have : sig n.data ≠ 0 := fun h' => by have := (sig_zero _).1 h'; rw [hn.2.2] at this; omega
    omega
  have ho : N % 2 = 1 := by
    obtain ⟨k, rfl⟩ := Nat.exists_eq_succ_of_ne_zero hk0.ne'
    rw [pow_succ] at hk
    have : N = 2 * (2 ^ k * M) + 1 := by rw [show 2 * (2 ^ k * M) = 2 ^ k * 2 * M by ring]; omega
    omega
  rcases millerRabin_eq hw rnd fuel i n N sn hn (by omega) ho with ⟨-, h⟩ | ⟨n1, m, p, k', M', hn1, hm, hpp, hpt, h0, hk', hM', e1, -⟩
  · omega
  · obtain ⟨rfl, rfl⟩ := odd_part_unique (hk.symm.trans hk') hM hM'
    have hpl := hpp.length_one hpt (by omega)
    have hbytes : genRandomBytes p = 1 := by rw [genRandomBytes, newSize_mul (by omega), hpl]; rfl
    have hraw : Is (genRandomRaw rnd i p) (rnd i).toNat := by
      have hb : (rnd i).toNat < 2 ^ w := lt_of_lt_of_le (rnd i).isLt (Nat.pow_le_pow_right (by omega) (by omega))
      exact ⟨by simp [genRandomRaw, hbytes], rfl, by simp [genRandomRaw, hbytes, val, Nat.mod_eq_of_lt hb]⟩
    obtain ⟨q, r, d1, -, d3⟩ := hraw.div1 hw hpp hpl (by omega)
    have hg : genRandom rnd i p = .ok (some r) := by rw [genRandom, d1]; rfl
    obtain ⟨f, rfl⟩ : ∃ f, fuel = f + 1 := ⟨fuel - 1, by omega⟩
    have hdraw : drawBase rnd p (f + 1) i = .ok (some (some r, i + 1)) := by
      rw [drawBase, hg]
      simp only [Out.bind_ok, hbytes]
      rw [if_neg]
      rw [d3.le (is_one (by omega))]
      simpa using ha
    obtain ⟨v, v1, v2⟩ := mrBase_spec hw n n1 m r N M _ sn (by omega) hn htop hn1 hm d3.2.2
      (chainOk_single _ _ _ _ (by omega) hlt)
    refine ⟨v, ?_, v2⟩
    rw [e1 (by omega), hdraw]
    simp only [Out.bind_ok, v1]

/-! ### Primes rejected and tests without end -/

/-- When no power that the code computes is 1 or `-1`, the number is rejected; for a prime with `n - 1` divisible by two more than
`sn + 1` times and a base which is not a square this is so. -/
theorem millerRabin_rejects_prime (hw : 32 ≤ w) (fuel : Nat) (hf : 65537 ≤ fuel) (rnd : Nat → Byte) (i : Nat) (h3 : rnd i = 3) :
    (65537 : Nat).Prime ∧ millerRabin rnd fuel i (⟨[65537], false⟩ : Num w) 14 = .ok (some (false, i + 1)) := by
  refine ⟨by norm_num, ?_⟩
  have hlt : 65537 < 2 ^ w := lt_of_lt_of_le (by decide : 65537 < 2 ^ 32) (Nat.pow_le_pow_right (by omega) hw)
  obtain ⟨v, v1, v2⟩ := millerRabin_single (w := w) (by omega) rnd fuel i ⟨[65537], false⟩ 65537 14 16 1
    ⟨by simp, rfl, by simp [val, Nat.mod_eq_of_lt hlt]⟩ rfl (by decide) (by decide) (by decide) (by decide) hf (by rw [h3]; decide)
  rw [v1]
  cases v with
  | false => rfl
  | true =>
    have := v2.1 rfl
    rw [h3] at this
    have hv : (3#8).toNat % (65537 - 2) = 3 := by decide
    exfalso
    revert this
    rw [show ((3 : Byte).toNat % (65537 - 2)) = 3 by decide, Verdict]
    rintro (h | ⟨j, hj, h⟩)
    · revert h; decide
    · rw [one_mul] at h
      have key : ∀ j, j ≤ 14 → 3 ^ 2 ^ j % 65537 ≠ 65537 - 1 := by decide +kernel
      exact key j hj h

/-- The prime 2 is rejected: the test for even numbers comes first. -/
theorem millerRabin_two (hw : 16 ≤ w) (rnd : Nat → Byte) (fuel i sn : Nat) :
    millerRabin rnd fuel i (two : Num w) sn = .ok (some (false, i)) := by
  rw [millerRabin, (is_two (w := w) (by omega)).isOdd (by omega)]
  rfl

/-- Even numbers are rejected. -/
theorem millerRabin_even (hw : 16 ≤ w) (rnd : Nat → Byte) (fuel i sn : Nat) (n : Num w) (N : Nat) (hn : Is n N) (he : N % 2 = 0) :
    millerRabin rnd fuel i n sn = .ok (some (false, i)) := by
  rw [millerRabin, hn.isOdd (by omega)]
  simp [he]

/-- The test never ends for the number 1: the loop that looks for the odd part of 0 goes on for ever. -/
theorem millerRabin_one_diverges (hw : 16 ≤ w) (rnd : Nat → Byte) (fuel i sn : Nat) (n : Num w) (hn : Is n 1) :
    millerRabin rnd fuel i n sn = .ok none := by
  have h1 := is_one (w := w) (by omega)
  have h2 := is_two (w := w) (by omega)
  obtain ⟨n1, e1, hn1⟩ := hn.sub (by omega) h1 (by omega)
  have hloop : ∀ fuel pn m nd, splitLoop n1 fuel pn m nd = .ok none := by
    intro fuel
    induction fuel with
    | zero => intros; rfl
    | succ f ih =>
      intro pn m nd
      obtain ⟨q, r, q1, q2, q3, q4, q5, q6⟩ := div2p_exact (w := w) (by omega) n1 (pn + 1) (List.ne_nil_of_length_pos hn1.1)
        hn1.2.1
      have hr : eq r zero = true := by
        rw [eq_spec, q5, q3, hn1.2.2, (is_zero (w := w)).2.2]; simp [zero]
      rw [splitLoop, q1]
      simp only [Out.bind_ok, hr, if_true]
      exact ih _ _ _
  obtain ⟨q, r, q1, -⟩ := div2p_exact (w := w) (by omega) n1 1 (List.ne_nil_of_length_pos hn1.1) hn1.2.1
  rw [millerRabin, hn.isOdd (by omega)]
  simp only [Out.bind_ok, hn.eq h2, hn.assignNone (by omega), e1, q1, hloop]
  rfl

/-- For a number of one digit greater than 3 the test ends when an acceptable base is drawn at some time. -/
theorem drawBase_ends (hw : 16 ≤ w) (rnd : Nat → Byte) (p : Num w) (P : Nat) (hp : Is p P) (h1 : p.data.length = 1) (h0 : P ≠ 0)
    (t : Nat) : ∀ (fuel i : Nat), t < fuel → 1 < (rnd (i + t)).toNat % P → drawBase rnd p fuel i ≠ .ok none := by
  have hbytes : genRandomBytes p = 1 := by rw [genRandomBytes, newSize_mul (by omega), h1]; rfl
  have hraw : ∀ i, ∃ r, genRandom rnd i p = .ok (some r) ∧ Is r ((rnd i).toNat % P) := by
    intro i
    have hb : (rnd i).toNat < 2 ^ w := lt_of_lt_of_le (rnd i).isLt (Nat.pow_le_pow_right (by omega) (by omega))
    have : Is (genRandomRaw rnd i p) (rnd i).toNat :=
      ⟨by simp [genRandomRaw, hbytes], rfl, by simp [genRandomRaw, hbytes, val, Nat.mod_eq_of_lt hb]⟩
    obtain ⟨q, r, d1, -, d3⟩ := this.div1 hw hp h1 h0
    exact ⟨r, by rw [genRandom, d1]; rfl, d3⟩
  induction t with
  | zero =>
    intro fuel i hf ha
    obtain ⟨f, rfl⟩ : ∃ f, fuel = f + 1 := ⟨fuel - 1, by omega⟩
    obtain ⟨r, r1, r2⟩ := hraw i
    rw [drawBase, r1]
    simp only [Out.bind_ok]
    rw [if_neg (by rw [r2.le (is_one (by omega))]; simpa using ha)]
    simp
  | succ t ih =>
    intro fuel i hf ha
    obtain ⟨f, rfl⟩ : ∃ f, fuel = f + 1 := ⟨fuel - 1, by omega⟩
    obtain ⟨r, r1, r2⟩ := hraw i
    rw [drawBase, r1]
    simp only [Out.bind_ok]
    split
    · rw [hbytes]
      exact ih f (i + 1) (by omega) (by rw [show i + 1 + t = i + (t + 1) by omega]; exact ha)
    · simp

/-- The test ends for every odd number of one digit greater than 3, once a byte comes which gives a base greater than 1.  Missing
for the full property: the number 1, for which it does not end (`millerRabin_one_diverges`), and longer numbers. -/
theorem millerRabin_ends_partial (hw : 16 ≤ w) (rnd : Nat → Byte) (fuel i t : Nat) (n : Num w) (N sn : Nat) (hn : Is n N)
    (h1 : n.data.length = 1) (hN : 5 ≤ N) (ho : N % 2 = 1) (hf : N ≤ fuel) (ht : t < fuel)
    (ha : 1 < (rnd (i + t)).toNat % (N - 2)) : ∃ v j, millerRabin rnd fuel i n sn = .ok (some (v, j)) := by
  have hlt : N < 2 ^ w := by have := val_lt n.data; rwa [h1, mul_one, hn.2.2] at this
  have htop : sig n.data = n.data.length := by
    have := sig_le n.data
    have : sig n.data ≠ 0 := fun h' => by have := (sig_zero _).1 h'; rw [hn.2.2] at this; omega
    omega
  rcases millerRabin_eq hw rnd fuel i n N sn hn (by omega) ho with ⟨-, h⟩ | ⟨n1, m, p, k, M, hn1, hm, hpp, hpt, h0, hk, hM, e1, -⟩
  · omega
  · rcases drawBase_sound hw rnd p _ hpp (by omega) fuel i with e | ⟨t, a, d1, -, -, -⟩
    · exact absurd e (drawBase_ends hw rnd p _ hpp (hpp.length_one hpt (by omega)) (by omega) t fuel i ht ha)
    · obtain ⟨v, v1, -⟩ := mrBase_spec hw n n1 m a N M _ sn (by omega) hn htop hn1 hm rfl (chainOk_single _ _ _ _ (by omega) hlt)
      exact ⟨v, t + genRandomBytes p, by rw [e1 (by omega), d1]; simp only [Out.bind_ok, v1]⟩

/-- 101 is accepted with five squarings when the first byte is 2. -/
example : ∃ v, millerRabin (fun _ => 2) 101 0 (⟨[101], false⟩ : Num 32) 5 = .ok (some (v, 1)) ∧ v = true := by
  obtain ⟨v, j, h⟩ := millerRabin_ends_partial (w := 32) (by decide) (fun _ => 2) 101 0 0 ⟨[101], false⟩ 101 5
    ⟨by decide, rfl, by decide⟩ rfl (by decide) (by decide) (by decide) (by decide) (by decide)
  obtain ⟨v', h', -⟩ := millerRabin_single (w := 32) (by decide) (fun _ => 2) 101 0 ⟨[101], false⟩ 101 5 2 25
    ⟨by decide, rfl, by decide⟩ rfl (by decide) (by decide) (by decide) (by decide) (by decide) (by decide)
  exact ⟨v', h', millerRabin_prime_single (w := 32) (by decide) _ _ _ _ _ 101 5 2 25 v' ⟨by decide, rfl, by decide⟩ rfl
    (by norm_num) (by decide) (by decide) (by decide) (by decide) h'⟩

/-! ### Fermat's test -/

/-- Fermat's test does not reject primes of one digit. -/
theorem fermatLoop_prime (hw : 16 ≤ w) (rnd : Nat → Byte) (n n1 n2 : Num w) (N : Nat) (hn : Is n N) (h1 : n.data.length = 1)
    (hp : N.Prime) (hN : 3 ≤ N) (hn1 : Is n1 (N - 1)) (hn2 : Is n2 (N - 2)) (h2 : n2.data.length = 1) (k : Nat) :
    ∀ i, ∃ j, fermatLoop rnd n n1 n2 k i = .ok (true, j) := by
  induction k with
  | zero => intro i; exact ⟨i, rfl⟩
  | succ k ih =>
    intro i
    obtain ⟨r, r1, r2⟩ := genRandom_lt hw n2 h2 hn2.2.1 (by rw [hn2.2.2]; omega) rnd i
    obtain ⟨r', r1', r3, r4⟩ := genRandom_some hw rnd i n2 _ hn2 (by omega)
    rw [r1] at r1'
    injection r1' with r1'
    injection r1' with r1'
    subst r1'
    rw [hn2.2.2] at r2
    obtain ⟨a, a1, a2⟩ := (Is.intro r4 r3).add (by omega) (is_one (w := w) (by omega)) (by omega)
    obtain ⟨x, x1, x2, x3⟩ := me_single_digit hw a n1 n (List.ne_nil_of_length_pos hn1.1) hn.2.1 (by rw [hn.2.2]; omega) h1
    rw [a2.2.2, hn1.2.2, hn.2.2] at x3
    have hfer : (val r.data + 1) ^ (N - 1) % N = 1 := by
      have : Fact N.Prime := ⟨hp⟩
      have hc : Nat.Coprime (val r.data + 1) N := ((hp.coprime_iff_not_dvd).2 (Nat.not_dvd_of_pos_of_lt (by omega) (by omega))).symm
      have := Nat.ModEq.pow_totient hc
      rw [Nat.totient_prime hp] at this
      rw [this, Nat.mod_eq_of_lt (by omega)]
    have hx : eq x one = true := by
      rw [eq_spec, x2, x3, hfer, (is_one (w := w) (by omega)).2.2]; simp [one]
    rw [fermatLoop, r1]
    simp only [Out.bind_ok, a1, x1, hx, if_true]
    exact ih _

theorem fermat_prime_single (hw : 16 ≤ w) (rnd : Nat → Byte) (i : Nat) (n : Num w) (N k : Nat) (hn : Is n N)
    (h1 : n.data.length = 1) (hp : N.Prime) : ∃ j, fermat rnd i n k = .ok (true, j) := by
  have hone := is_one (w := w) (by omega)
  have htwo := is_two (w := w) (by omega)
  have hlt : N < 2 ^ w := by have := val_lt n.data; rwa [h1, mul_one, hn.2.2] at this
  have h2 := hp.two_le
  rw [fermat, hn.le htwo, hn.eq htwo]
  by_cases h : N ≤ 2
  · rw [if_pos (by simpa using h), decide_eq_true (by omega)]
    exact ⟨i, rfl⟩
  · rw [if_neg (by simpa using h)]
    obtain ⟨n1, e1, hn1⟩ := hn.sub (by omega) hone (by omega)
    obtain ⟨p, e2, hp', hpt⟩ := hn1.subNorm (by omega) hone (by omega) (by omega)
    have ho : N % 2 = 1 := by
      rcases hp.eq_two_or_odd with h | h
      · omega
      · exact h
    rw [show N - 1 - 1 = N - 2 by omega] at hp'
    simp only [hn.isOdd (show 0 < w by omega), Out.bind_ok, ho, decide_true, Bool.not_true, Bool.false_eq_true, if_false,
      hn.assignNone (show 8 ≤ w by omega), e1, hn1.assignNone (show 8 ≤ w by omega), e2]
    exact fermatLoop_prime hw rnd n n1 p N hn h1 hp (by omega) hn1 hp' (hp'.length_one hpt (by omega)) k i

/-- `kryptos_mp_is_prime` says that the prime 65537 is composite when the random bytes are all 3. -/
theorem isPrime_wrong (hw : 32 ≤ w) (fuel : Nat) (hf : 65537 ≤ fuel) :
    (65537 : Nat).Prime ∧ isPrime (fun _ => 3) fuel 0 (⟨[65537], false⟩ : Num w) = .ok (some false) := by
  have hlt : 65537 < 2 ^ w := lt_of_lt_of_le (by decide : 65537 < 2 ^ 32) (Nat.pow_le_pow_right (by omega) hw)
  obtain ⟨j, hj⟩ := fermat_prime_single (w := w) (by omega) (fun _ => 3) 0 ⟨[65537], false⟩ 65537 7
    ⟨by simp, rfl, by simp [val, Nat.mod_eq_of_lt hlt]⟩ rfl (by norm_num)
  obtain ⟨hp, hm⟩ := millerRabin_rejects_prime hw fuel hf (fun _ => 3) j rfl
  exact ⟨hp, by rw [isPrime, hj]; simp only [Out.bind_ok, if_true, hm]; rfl⟩

/-- 2 is declared composite as well. -/
theorem isPrime_two (hw : 16 ≤ w) (rnd : Nat → Byte) (fuel i : Nat) : isPrime rnd fuel i (two : Num w) = .ok (some false) := by
  have h2 := is_two (w := w) (by omega)
  have hf : fermat rnd i (two : Num w) 7 = .ok (true, i) := by
    rw [fermat, h2.le h2, h2.eq h2]; simp
  rw [isPrime, hf]
  simp only [Out.bind_ok, if_true, millerRabin_two hw]
  rfl

/-! ### Generated primes -/

theorem setOdd_spec (hw : 0 < w) (d : Digits w) (hd : d ≠ []) : (setOdd d).length = d.length ∧ val (setOdd d) % 2 = 1 := by
  cases d with
  | nil => exact absurd rfl hd
  | cons x l =>
    refine ⟨rfl, ?_⟩
    obtain ⟨u, rfl⟩ : ∃ u, w = u + 1 := ⟨w - 1, by omega⟩
    have h1 : (1 : BitVec (u + 1)).toNat = 1 := by simp
    rw [setOdd, val, BitVec.toNat_or, h1, pow_succ, mul_assoc, mul_comm (2 ^ u), mul_assoc, Nat.add_mul_mod_self_left]
    have : (x.toNat ||| 1).testBit 0 = true := by simp
    rw [Nat.testBit_zero] at this
    exact of_decide_eq_true this

theorem orLast_top (hw : 2 ≤ w) (d : Digits w) (hd : d ≠ []) :
    (orLast ((1 : BitVec w) <<< (w - 1)) d).length = d.length ∧ 2 ^ (w * d.length - 1) ≤ val (orLast ((1 : BitVec w) <<< (w - 1)) d) ∧
      val (orLast ((1 : BitVec w) <<< (w - 1)) d) % 2 = val d % 2 := by
  have hs : ((1 : BitVec w) <<< (w - 1)).toNat = 2 ^ (w - 1) := by
    have : 1 < 2 ^ w := Nat.one_lt_two_pow (by omega)
    rw [BitVec.toNat_shiftLeft, show (1 : BitVec w) = BitVec.ofNat _ 1 from rfl, BitVec.toNat_ofNat, Nat.mod_eq_of_lt this, Nat.shiftLeft_eq, one_mul,
      Nat.mod_eq_of_lt (Nat.pow_lt_pow_right (by decide) (by omega))]
  have heven : ∀ x, 2 ^ w * x % 2 = 0 := by
    intro x
    obtain ⟨u, rfl⟩ : ∃ u, w = u + 1 := ⟨w - 1, by omega⟩
    rw [pow_succ, mul_comm (2 ^ u), mul_assoc, Nat.mul_mod_right]
  induction d with
  | nil => exact absurd rfl hd
  | cons x l ih =>
    cases l with
    | nil =>
      refine ⟨rfl, ?_, ?_⟩
      · simp only [orLast, val, BitVec.toNat_or, hs, List.length_cons, List.length_nil, mul_zero, add_zero, zero_add, mul_one]
        exact Nat.right_le_or
      · simp only [orLast, val, BitVec.toNat_or, hs, mul_zero, add_zero]
        have hb : (x.toNat ||| 2 ^ (w - 1)).testBit 0 = x.toNat.testBit 0 := by
          rw [Nat.testBit_or, Nat.testBit_two_pow, decide_eq_false (by omega), Bool.or_false]
        simp only [Nat.testBit_zero, decide_eq_decide] at hb
        omega
    | cons y l =>
      obtain ⟨h1, h2, h3⟩ := ih (by simp)
      refine ⟨by rw [orLast, List.length_cons, h1]; rfl, ?_, ?_⟩
      · rw [orLast, val]
        refine le_trans ?_ (Nat.le_add_left _ _)
        refine le_trans ?_ (Nat.mul_le_mul_left _ h2)
        rw [← pow_add]
        refine Nat.pow_le_pow_right (by decide) ?_
        rw [List.length_cons (a := x), Nat.mul_succ]
        have : w * 1 ≤ w * (y :: l).length := Nat.mul_le_mul_left _ (by simp)
        omega
      · rw [orLast, val, val, Nat.add_mod, heven, Nat.add_mod (x.toNat), heven]

/-- The candidates that the search goes through. -/
theorem sieveLoop_spec (k : Nat) (hk : 2 ≤ k) (fuel : Nat) : ∀ (c r : Num (8 * k)) (C : Nat), Is c C → 0 < C →
    sieveLoop fuel c = .ok (some r) →
    ∃ R, Is r R ∧ C ≤ R ∧ R % 2 = C % 2 ∧ ∀ p, p.Prime → p ≠ 2 → p ≤ 17863 → ¬ p ∣ R := by
  induction fuel with
  | zero => intro c r C _ _ h; simp [sieveLoop] at h
  | succ f ih =>
    intro c r C hc h0 h
    obtain ⟨v, v1, v2⟩ := smallPrimesTest_exact k hk c (List.ne_nil_of_length_pos hc.1) hc.2.1
    obtain ⟨a, a1, a2⟩ := hc.add (by omega) (is_two (w := 8 * k) (by omega)) (by omega)
    rw [sieveLoop, v1] at h
    simp only [Out.bind_ok] at h
    cases v with
    | true =>
      simp only [if_true, Out.ok.injEq, Option.some.injEq] at h
      subst h
      refine ⟨C, hc, le_refl _, rfl, ?_⟩
      rw [hc.2.2] at v2
      exact v2.1 rfl
    | false =>
      simp only [Bool.false_eq_true, if_false, a1, Out.bind_ok] at h
      obtain ⟨R, r1, r2, r3, r4⟩ := ih a r _ a2 (by omega) h
      exact ⟨R, r1, by omega, by omega, r4⟩

theorem candidate_spec (hw : 8 ≤ w) (rnd : Nat → Byte) (i n : Nat) (hn : 0 < n) :
    ∃ C, Is (candidate rnd i n : Num w) C ∧ 2 ^ (w * n - 1) ≤ C ∧ C % 2 = 1 := by
  have hl : (randDigits w rnd i n).length = n := by simp [randDigits]
  have hne : randDigits w rnd i n ≠ [] := List.ne_nil_of_length_pos (by omega)
  obtain ⟨s1, s2⟩ := setOdd_spec (by omega) _ hne
  have hne' : setOdd (randDigits w rnd i n) ≠ [] := List.ne_nil_of_length_pos (by omega)
  obtain ⟨t1, t2, t3⟩ := orLast_top (by omega) _ hne'
  refine ⟨_, ⟨?_, rfl, rfl⟩, ?_, ?_⟩
  · simp only [candidate, t1, s1, hl]; exact hn
  · rw [s1, hl] at t2; exact t2
  · simp only [candidate, t3, s2]

theorem genPrimeLoop_spec (k : Nat) (hk : 2 ≤ k) (rnd : Nat → Byte) (fuel : Nat) :
    ∀ (i n : Nat) (c : Num (8 * k)), 0 < n → genPrimeLoop rnd fuel i n = .ok (some c) →
      ∃ C t j fuel', Is c C ∧ 2 ^ (8 * k * n - 1) ≤ C ∧ C % 2 = 1 ∧ (∀ p, p.Prime → p ≤ 17863 → ¬ p ∣ C) ∧
        millerRabin rnd fuel' t c 5 = .ok (some (true, j)) := by
  induction fuel with
  | zero => intro i n c _ h; simp [genPrimeLoop] at h
  | succ f ih =>
    intro i n c hn h
    obtain ⟨C0, c1, c2, c3⟩ := candidate_spec (w := 8 * k) (by omega) rnd i n hn
    rw [genPrimeLoop] at h
    cases hs : sieveLoop f (candidate rnd i n : Num (8 * k)) with
    | ub => rw [hs] at h; cases h
    | ok o =>
      rw [hs] at h
      simp only [Out.bind_ok] at h
      cases o with
      | none => cases h
      | some d =>
        obtain ⟨D, d1, d2, d3, d4⟩ := sieveLoop_spec k hk f _ d C0 c1 (by omega) hs
        have hno : ∀ p, p.Prime → p ≤ 17863 → ¬ p ∣ D := by
          intro p hp hle
          by_cases h2 : p = 2
          · rw [h2]; omega
          · exact d4 p hp h2 hle
        have hlen : n ≤ d.data.length := by
          have h1 := val_lt d.data
          rw [d1.2.2] at h1
          have h2 := (Nat.pow_lt_pow_iff_right (a := 2) (by decide)).1 (lt_of_le_of_lt (c2.trans d2) h1)
          by_contra hcon
          have : 8 * k * (d.data.length + 1) ≤ 8 * k * n := Nat.mul_le_mul_left _ (by omega)
          rw [Nat.mul_succ] at this
          omega
        simp only [] at h
        cases hm : millerRabin rnd f (i + n * (8 * k / 8)) d 5 with
        | ub => rw [hm] at h; cases h
        | ok v =>
          rw [hm] at h
          simp only [Out.bind_ok] at h
          rcases v with - | ⟨v, j⟩
          · cases h
          · cases v with
            | true =>
              simp only [Out.ok.injEq, Option.some.injEq] at h
              subst h
              exact ⟨D, _, j, f, d1, c2.trans d2, by omega, hno, hm⟩
            | false =>
              obtain ⟨C, t, j', f', e1, e2, e3⟩ := ih j d.data.length c (by omega) h
              refine ⟨C, t, j', f', e1, le_trans ?_ e2, e3⟩
              refine Nat.pow_le_pow_right (by decide) ?_
              have : 8 * k * n ≤ 8 * k * d.data.length := Nat.mul_le_mul_left _ hlen
              omega

/-- What `kryptos_mp_gen_prime` gives is odd, has no prime factor up to 17863, has its highest bit in or above the place asked for
(rounded down to whole digits), and is a strong probable prime to a base which was drawn. -/
theorem genPrime_sound (k : Nat) (hk : 2 ≤ k) (rnd : Nat → Byte) (fuel i bits : Nat) (c : Num (8 * k))
    (h : genPrime (8 * k) rnd fuel i bits = .ok (some c)) :
    ∃ C, Is c C ∧ 2 ^ (8 * k * max (bits / (8 * k)) 1 - 1) ≤ C ∧ (∀ p, p.Prime → p ≤ 17863 → ¬ p ∣ C) ∧
      ∃ (p : Num (8 * k)) (t : Nat) (a : Num (8 * k)), Is p (C - 2) ∧ genRandom rnd t p = .ok (some a) ∧ 1 < val a.data ∧
        StrongPrp C (val a.data) := by
  rw [genPrime, newSize_mul (show 8 ≤ 8 * k by omega)] at h
  obtain ⟨C, t, j, f, c1, c2, c3, c4, c5⟩ := genPrimeLoop_spec k hk rnd fuel i _ c (Nat.le_max_right _ _) h
  have hbig : 3 < C := by
    refine lt_of_lt_of_le (by decide : 3 < 2 ^ 2) (le_trans (Nat.pow_le_pow_right (by decide) ?_) c2)
    have : 8 * k * 1 ≤ 8 * k * max (bits / (8 * k)) 1 := Nat.mul_le_mul_left _ (Nat.le_max_right _ _)
    exact le_trans (by omega) (Nat.sub_le_sub_right this 1)
  obtain ⟨-, h3 | ⟨p, t', a, e1, -, e3, e4, e5⟩⟩ := millerRabin_sound (by omega) rnd f t j c C 5 c1 (by omega) c5
  · omega
  · exact ⟨C, c1, c2, c4, p, t', a, e1, e3, e4, e5⟩

/-- Hence a number generated below the square of the first prime after the table is a prime. -/
theorem genPrime_prime_of_small (k : Nat) (hk : 2 ≤ k) (rnd : Nat → Byte) (fuel i bits : Nat) (c : Num (8 * k))
    (h : genPrime (8 * k) rnd fuel i bits = .ok (some c)) (hs : val c.data < 17864 * 17864) : (val c.data).Prime := by
  obtain ⟨C, c1, c2, c3, -⟩ := genPrime_sound k hk rnd fuel i bits c h
  rw [c1.2.2] at hs ⊢
  have hC : 2 ≤ C := by
    refine le_trans (by decide : 2 ≤ 2 ^ 1) (le_trans (Nat.pow_le_pow_right (by decide) ?_) c2)
    have : 8 * k * 1 ≤ 8 * k * max (bits / (8 * k)) 1 := Nat.mul_le_mul_left _ (Nat.le_max_right _ _)
    exact le_trans (by omega) (Nat.sub_le_sub_right this 1)
  by_contra hnp
  have hm := Nat.minFac_prime (show C ≠ 1 by omega)
  have hle : 17864 ≤ C.minFac := by
    by_contra hlt
    exact c3 _ hm (by omega) (Nat.minFac_dvd C)
  have h1 := Nat.minFac_sq_le_self (by omega) hnp
  rw [sq] at h1
  exact absurd (lt_of_le_of_lt ((Nat.mul_le_mul hle hle).trans h1) hs) (lt_irrefl _)

/-- A run of the generator: with the bytes `FF`, `F1` and then 2 for ever, and digits of 16 bits, the prime 65521 comes out. -/
theorem genPrime_run : genPrime (8 * 2) (fun i => if i = 0 then 0xFF else if i = 1 then 0xF1 else 2) 70000 0 16 =
    .ok (some ⟨[65521], false⟩) := by
  have hc : (candidate (fun i => if i = 0 then 0xFF else if i = 1 then 0xF1 else 2) 0 1 : Num (8 * 2)) = ⟨[65521], false⟩ := by
    decide
  have hn : Is (⟨[65521], false⟩ : Num (8 * 2)) 65521 := ⟨by decide, rfl, by decide⟩
  have hs : sieveLoop 69999 (⟨[65521], false⟩ : Num (8 * 2)) = .ok (some ⟨[65521], false⟩) := by
    rw [sieveLoop, smallPrimesTest_spec 2 (by decide) _ 65521 hn smallPrimes fun p hp => by
      obtain ⟨h1, -, h3⟩ := (smallPrimes_complete p).1 hp
      exact ⟨h1.pos, by omega⟩]
    rw [decide_eq_true (by decide +kernel)]
    rfl
  obtain ⟨v, v1, -⟩ := millerRabin_single (w := 8 * 2) (by decide) (fun i => if i = 0 then 0xFF else if i = 1 then 0xF1 else 2)
    69999 2 ⟨[65521], false⟩ 65521 5 4 4095 hn rfl (by decide) (by decide) (by decide) (by decide) (by decide) (by decide)
  have v2 := millerRabin_prime_single (w := 8 * 2) (by decide) _ _ _ _ _ 65521 5 4 4095 v hn rfl (by norm_num) (by decide)
    (by decide) (by decide) (by decide) v1
  rw [genPrime, show newSize (8 * 2) (16 / (8 * 2) * (8 * 2)) = 1 by decide, genPrimeLoop, hc, hs]
  simp only [Out.bind_ok]
  rw [show 0 + 1 * (8 * 2 / 8) = 2 by decide, v1, v2]
  rfl

end Kryptos.Mp
