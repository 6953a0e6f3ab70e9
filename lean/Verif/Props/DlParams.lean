import Verif.Model.DlParams
import Verif.Lemmas.Pk
import Verif.Props.MillerRabin
/-
  Domain parameters (C74): what `kryptos_verify_dl_params` accepts, and that the parameters made by
  `kryptos_generate_dl_params` are accepted.
-/
namespace Kryptos.Dl
open Mp Spec.Mp

variable {w : Nat}

/-- What the verification is for: `g` generates a group of order dividing `q`, and `q` divides `p - 1`. -/
structure Sound (p q g : Nat) : Prop where
  lower : 1 < g
  upper : g < p - 1
  divides : q ∣ p - 1
  order : g ^ q ≡ 1 [MOD p]

theorem sub_one_is (hw : 8 ≤ w) {p : Num w} {P : Nat} (hp : Is p P) :
    ∃ p1, sub (assign none p) one = .ok p1 ∧ Is p1 (if P = 0 then 1 else P - 1) := by
  have h1 := hp.assignOpt hw none
  by_cases h0 : P = 0
  · have hz : isZeroD (one : Num w).data = false := by
      rw [← Bool.not_eq_true, isZeroD_iff, (is_one (by omega)).2.2]; decide
    rw [sub, if_neg (by simp [hz]), if_pos ((isZeroD_iff _).2 (by rw [h1.2.2, h0])), if_pos h0]
    exact ⟨_, rfl, (is_one (by omega)).assignOpt hw none⟩
  · rw [if_neg h0]
    exact h1.sub hw (is_one (by omega)) (by omega)

theorem verifyOrder_sound (hw : 16 ≤ w) {p q g p1 : Num w} {P Q G R : Nat} (hp : Is p P) (hq : Is q Q) (hg : Is g G) (h1 : Is p1 R)
    (hP : P ≠ 0) (h : verifyOrder p q g p1 = .ok .success) : Q ∣ R ∧ G ^ Q ≡ 1 [MOD P] := by
  rw [verifyOrder] at h
  by_cases hQ : Q = 0
  · rw [div_zero _ _ (by rw [hq.2.2, hQ])] at h
    simp at h
  · obtain ⟨d, r, A, B, d1, -, d2, d3, -⟩ := h1.div hw hq hQ
    rw [d1, Out.bind_ok] at h
    simp only [d2.ne is_zero, Out.pure_eq] at h
    by_cases hB : B = 0
    · rw [if_neg (by simpa using hB)] at h
      obtain ⟨e, E, e1, e2, -, e3, -⟩ := hg.me hw hq hp hP
      rw [e1, Out.bind_ok] at h
      simp only [e2.ne (is_one (by omega))] at h
      by_cases hE : E = 1
      · exact ⟨⟨A, by rw [d3, hB, Nat.mul_comm]; rfl⟩, (hE ▸ e3).symm⟩
      · rw [if_pos (by simpa using hE)] at h
        simp at h
    · rw [if_pos (by simpa using hB)] at h
      simp at h

/-- C74 in one direction: parameters that are accepted are sound, whatever the random numbers of the primality tests, and both
`p` and `q` have passed the test. -/
theorem verify_sound (hw : 16 ≤ w) (rnd : Nat → Nat → Byte) (fuel : Nat) {p q g : Num w} {P Q G : Nat} (hp : Is p P) (hq : Is q Q)
    (hg : Is g G) (h : verify rnd fuel p q g = .ok (some .success)) :
    Sound P Q G ∧ isPrime (rnd 0) fuel 0 q = .ok (some true) ∧ isPrime (rnd 1) fuel 0 p = .ok (some true) := by
  obtain ⟨p1, h1, h2⟩ := sub_one_is (by omega) hp
  rw [verify, h1, Out.bind_ok, hg.le (is_one (by omega)), hg.ge h2] at h
  by_cases hc : G ≤ 1 ∨ (if P = 0 then 1 else P - 1) ≤ G
  · rw [if_pos (by simpa using hc)] at h
    simp at h
  rw [if_neg (by simpa using hc)] at h
  have hP : P ≠ 0 := by
    intro h0
    rw [if_pos h0] at hc
    omega
  rw [if_neg hP] at hc h2
  cases hpq : isPrime (rnd 0) fuel 0 q with
  | ub => rw [hpq] at h; simp at h
  | ok o =>
    rw [hpq, Out.bind_ok] at h
    rcases o with _ | _ | _
    · simp at h
    · simp at h
    · simp only at h
      cases hpp : isPrime (rnd 1) fuel 0 p with
      | ub => rw [hpp] at h; simp at h
      | ok o =>
        rw [hpp, Out.bind_ok] at h
        rcases o with _ | _ | _
        · simp at h
        · simp at h
        · simp only at h
          cases ho : verifyOrder p q g p1 with
          | ub => rw [ho] at h; simp at h
          | ok r =>
            rw [ho] at h
            simp only [Out.bind_ok, Out.pure_eq, Out.ok.injEq, Option.some.injEq] at h
            obtain ⟨s1, s2⟩ := verifyOrder_sound hw hp hq hg h2 hP (h ▸ ho)
            exact ⟨⟨by omega, by omega, s1, s2⟩, rfl, rfl⟩

/-- For numbers of one digit the verification accepts exactly the sound parameters for which both tests of primality answer
yes. -/
theorem verify_single_digit (hw : 16 ≤ w) (rnd : Nat → Nat → Byte) (fuel : Nat) {p q g : Num w} {P Q G : Nat} (hp : Is p P)
    (hq : Is q Q) (hg : Is g G) (hpl : p.data.length = 1) (hql : q.data.length = 1) :
    verify rnd fuel p q g = .ok (some .success) ↔
      Sound P Q G ∧ isPrime (rnd 0) fuel 0 q = .ok (some true) ∧ isPrime (rnd 1) fuel 0 p = .ok (some true) := by
  refine ⟨verify_sound hw rnd fuel hp hq hg, ?_⟩
  rintro ⟨⟨s1, s2, s3, s4⟩, t1, t2⟩
  have hP : P ≠ 0 := by omega
  have hQ : Q ≠ 0 := by
    rintro rfl
    have := Nat.eq_zero_of_zero_dvd s3
    omega
  obtain ⟨p1, h1, h2⟩ := sub_one_is (by omega) hp
  rw [if_neg hP] at h2
  obtain ⟨d, r, A, B, d1, -, d2, -, d3⟩ := h2.div hw hq hQ
  have hB : B = 0 := by
    rw [d3 (divFine_single q (by rw [hq.2.2]; exact hQ) hql _)]
    exact Nat.mod_eq_zero_of_dvd s3
  obtain ⟨e, E, e1, e2, -, -, e3⟩ := hg.me hw hq hp hP
  obtain ⟨m1, m2⟩ := meets_single p (by rw [hp.2.2]; exact hP) hpl G Q
  rw [hp.2.2] at m2
  have hE : E = 1 := by
    rw [e3 m1 m2, s4, Nat.mod_eq_of_lt (by omega)]
  have ho : verifyOrder p q g p1 = .ok .success := by
    rw [verifyOrder, d1, Out.bind_ok]
    simp only [d2.ne is_zero]
    rw [if_neg (by simpa using hB), e1, Out.bind_ok]
    simp only [e2.ne (is_one (by omega : 0 < w))]
    rw [if_neg (by simpa using hE)]
    rfl
  rw [verify, h1, Out.bind_ok, hg.le (is_one (by omega)), hg.ge h2, if_neg (by simp; omega), t1, Out.bind_ok]
  simp only [t2, Out.bind_ok, ho]
  rfl

/-- The order of `g` is exactly `q` when `q` is a prime: `g` is not one modulo `p`. -/
theorem Sound.orderOf {p q g : Nat} (h : Sound p q g) (hq : q.Prime) : orderOf (g : ZMod p) = q := by
  have := Fact.mk hq
  refine orderOf_eq_prime ?_ ?_
  · rw [← Nat.cast_one, ← Nat.cast_pow, ZMod.natCast_eq_natCast_iff]
    exact h.order
  · intro h1
    rw [← Nat.cast_one, ZMod.natCast_eq_natCast_iff, Nat.ModEq, Nat.mod_eq_of_lt (by have := h.upper; omega),
      Nat.mod_eq_of_lt (by have := h.upper; have := h.lower; omega)] at h1
    have := h.lower
    omega

/-! ## Generated parameters -/

theorem verifyOrder_result (p q g p1 : Num w) (r : TaskResult) (h : verifyOrder p q g p1 = .ok r) :
    r = .success ∨ r = .invalidParams := by
  rw [verifyOrder] at h
  cases hd : div p1 q with
  | ub => rw [hd] at h; simp at h
  | ok o =>
    rw [hd, Out.bind_ok] at h
    rcases o with _ | ⟨d, m⟩
    · simp only [Out.pure_eq, Out.ok.injEq] at h; exact .inr h.symm
    · simp only at h
      split at h
      · simp only [Out.pure_eq, Out.ok.injEq] at h; exact .inr h.symm
      · cases he : meModN g q p with
        | ub => rw [he] at h; simp at h
        | ok o =>
          rw [he, Out.bind_ok] at h
          rcases o with _ | e
          · simp at h
          · simp only at h
            split at h
            · simp only [Out.pure_eq, Out.ok.injEq] at h; exact .inr h.symm
            · simp only [Out.pure_eq, Out.ok.injEq] at h; exact .inl h.symm

theorem verify_result (rnd : Nat → Nat → Byte) (fuel : Nat) (p q g : Num w) (r : TaskResult)
    (h : verify rnd fuel p q g = .ok (some r)) : r = .success ∨ r = .invalidParams := by
  rw [verify] at h
  cases hs : sub (assign none p) one with
  | ub => rw [hs] at h; simp at h
  | ok p1 =>
    rw [hs, Out.bind_ok] at h
    split at h
    · simp only [Out.pure_eq, Out.ok.injEq, Option.some.injEq] at h; exact .inr h.symm
    · cases hpq : isPrime (rnd 0) fuel 0 q with
      | ub => rw [hpq] at h; simp at h
      | ok o =>
        rw [hpq, Out.bind_ok] at h
        rcases o with _ | _ | _
        · simp at h
        · simp only [Out.pure_eq, Out.ok.injEq, Option.some.injEq] at h; exact .inr h.symm
        · simp only at h
          cases hpp : isPrime (rnd 1) fuel 0 p with
          | ub => rw [hpp] at h; simp at h
          | ok o =>
            rw [hpp, Out.bind_ok] at h
            rcases o with _ | _ | _
            · simp at h
            · simp only [Out.pure_eq, Out.ok.injEq, Option.some.injEq] at h; exact .inr h.symm
            · simp only at h
              cases ho : verifyOrder p q g p1 with
              | ub => rw [ho] at h; simp at h
              | ok r' =>
                rw [ho] at h
                simp only [Out.bind_ok, Out.pure_eq, Out.ok.injEq, Option.some.injEq] at h
                exact h ▸ verifyOrder_result _ _ _ _ _ ho

theorem rand_is (hw : 8 ≤ w) (rnd : Nat → Byte) (i bits : Nat) : ∃ R, Is (rand w rnd i bits) R := by
  refine ⟨_, .intro ?_ rfl⟩
  apply List.length_pos_iff.1
  simp only [rand, randDigits, List.length_map, List.length_range]
  rw [newSize_mul hw]
  exact Nat.lt_of_lt_of_le Nat.one_pos (Nat.le_max_right _ _)

theorem setEven_ne_nil (d : Digits w) (h : d ≠ []) : setEven d ≠ [] := by
  cases d <;> simp_all [setEven]

theorem findP_is (hw : 8 ≤ w) (rnd : Nat → Nat → Byte) (jBits : Nat) {q : Num w} {Q : Nat} (hq : Is q Q) :
    ∀ (f c : Nat) (p j : Num w), findP rnd jBits q f c = .ok (some (p, j)) → ∃ J, Is j J ∧ Is p (J * Q + 1)
  | 0, _, _, _, h => by simp [findP] at h
  | f + 1, c, p, j, h => by
    obtain ⟨R, hR⟩ := rand_is hw (rnd c) 0 jBits
    have hj := Is.intro (a := (⟨setEven (rand w (rnd c) 0 jBits).data, false⟩ : Num w))
      (setEven_ne_nil _ (List.ne_nil_of_length_pos hR.1)) rfl
    obtain ⟨t, t1, t2⟩ := (hj.assignOpt hw none).mul hw hq
    obtain ⟨u, u1, u2⟩ := t2.add hw (is_one (by omega)) (by omega)
    simp only [findP, t1, u1, Out.bind_ok] at h
    cases hp : isPrime (rnd (c + 1)) f 0 u with
    | ub => rw [hp] at h; simp at h
    | ok o =>
      rw [hp, Out.bind_ok] at h
      rcases o with _ | _ | _
      · simp at h
      · exact findP_is hw rnd jBits hq f (c + 2) p j h
      · simp only [Out.pure_eq, Out.ok.injEq, Option.some.injEq, Prod.mk.injEq] at h
        obtain ⟨rfl, rfl⟩ := h
        exact ⟨_, hj, u2⟩

theorem getG_is (hw : 16 ≤ w) (rnd : Nat → Nat → Byte) {p j p1 : Num w} {P : Nat} (hp : Is p P) (hP : P ≠ 0) :
    ∀ (f c : Nat) (g : Num w), getG rnd p j p1 f c = .ok (some (some g)) → ∃ G, Is g G
  | 0, _, _, h => by simp [getG] at h
  | f + 1, c, g, h => by
    rw [getG] at h
    cases hh : getH rnd p p1 f c with
    | ub => rw [hh] at h; simp at h
    | ok o =>
      rw [hh, Out.bind_ok] at h
      rcases o with _ | ⟨x, c'⟩
      · simp at h
      · simp only at h
        obtain ⟨r, r1, r2, -⟩ := me_congruent hw x j p hp.2.1 (by rw [hp.2.2]; exact hP)
        rw [r1, Out.bind_ok] at h
        simp only at h
        split at h
        · exact getG_is hw rnd hp hP f c' g h
        · simp only [Out.pure_eq, Out.ok.injEq, Option.some.injEq] at h
          have := me_normed hw _ _ _ _ hp.2.1 (by rw [hp.2.2]; exact hP) r1
          subst h
          exact ⟨_, by rw [this]; omega, r2, rfl⟩

theorem genTemp_is (k : Nat) (hk : 2 ≤ k) (rnd : Nat → Nat → Byte) (fuel pBits qBits : Nat) (p q g : Num (8 * k))
    (h : genTemp (8 * k) rnd fuel pBits qBits = .ok (some (some (p, q, g)))) :
    ∃ J Q G, Is p (J * Q + 1) ∧ Is q Q ∧ Is g G ∧ 2 ^ (8 * k * max (qBits / (8 * k)) 1 - 1) ≤ Q := by
  rw [genTemp] at h
  cases hq : genPrime (8 * k) (rnd 0) fuel 0 qBits with
  | ub => rw [hq] at h; simp at h
  | ok o =>
    rw [hq, Out.bind_ok] at h
    rcases o with _ | q'
    · simp at h
    · simp only at h
      obtain ⟨Q, q1, q2, -⟩ := genPrime_sound k hk _ _ _ _ _ hq
      cases hf : findP (fun c => rnd (2 * c + 1)) (if qBits < pBits then pBits - qBits else qBits - pBits) q' fuel 0 with
      | ub => rw [hf] at h; simp at h
      | ok o =>
        rw [hf, Out.bind_ok] at h
        rcases o with _ | ⟨p', j⟩
        · simp at h
        · simp only at h
          obtain ⟨J, j1, j2⟩ := findP_is (by omega) _ _ q1 _ _ _ _ hf
          cases hs : sub (assign none p') one with
          | ub => rw [hs] at h; simp at h
          | ok p1 =>
            rw [hs, Out.bind_ok] at h
            cases hg : getG (fun c => rnd (2 * c + 2)) p' j p1 fuel 0 with
            | ub => rw [hg] at h; simp at h
            | ok o =>
              rw [hg, Out.bind_ok] at h
              rcases o with _ | _ | g'
              · simp at h
              · simp at h
              · simp only [Out.pure_eq, Out.ok.injEq, Option.some.injEq, Prod.mk.injEq] at h
                obtain ⟨rfl, rfl, rfl⟩ := h
                obtain ⟨G, g1⟩ := getG_is (by omega) _ j2 (by omega) _ _ _ hg
                exact ⟨J, Q, G, j2, q1, g1, q2⟩

/-- C74, the other direction: parameters that are generated are sound and have passed the tests of primality, and `q` has the size
wanted, rounded down to whole digits. -/
theorem generate_sound (k : Nat) (hk : 2 ≤ k) (rnd : Nat → Nat → Nat → Byte) (pBits qBits : Nat) :
    ∀ (f c : Nat) (p q g : Num (8 * k)), generate (8 * k) rnd pBits qBits f c = .ok (some (some (p, q, g))) →
      ∃ P Q G, Is p P ∧ Is q Q ∧ Is g G ∧ Sound P Q G ∧ 2 ^ (8 * k * max (qBits / (8 * k)) 1 - 1) ≤ Q ∧
        ∃ t f', isPrime (rnd t 0) f' 0 q = .ok (some true) ∧ isPrime (rnd t 1) f' 0 p = .ok (some true)
  | 0, _, _, _, _, h => by simp [generate] at h
  | f + 1, c, p, q, g, h => by
    rw [generate] at h
    cases ht : genTemp (8 * k) (rnd (2 * c)) f pBits qBits with
    | ub => rw [ht] at h; simp at h
    | ok o =>
      rw [ht, Out.bind_ok] at h
      rcases o with _ | _ | ⟨p', q', g'⟩
      · simp at h
      · simp at h
      · simp only at h
        obtain ⟨J, Q, G, a1, a2, a3, a4⟩ := genTemp_is k hk _ _ _ _ _ _ _ ht
        cases hv : verify (rnd (2 * c + 1)) f p' q' g' with
        | ub => rw [hv] at h; simp at h
        | ok o =>
          rw [hv, Out.bind_ok] at h
          rcases o with _ | r
          · simp at h
          · rcases verify_result _ _ _ _ _ _ hv with rfl | rfl
            · simp only [Out.pure_eq, Out.ok.injEq, Option.some.injEq, Prod.mk.injEq] at h
              obtain ⟨rfl, rfl, rfl⟩ := h
              obtain ⟨s1, s2, s3⟩ := verify_sound (by omega) _ _ a1 a2 a3 hv
              exact ⟨_, Q, G, a1, a2, a3, s1, a4, _, _, s2, s3⟩
            · exact generate_sound k hk rnd pBits qBits f (c + 1) p q g h

/-! ## Random numbers below an order -/

theorem andLast_length (m : BitVec w) : ∀ d : Digits w, (andLast m d).length = d.length
  | [] => rfl
  | [_] => rfl
  | _ :: e :: l => by simp [andLast, andLast_length m (e :: l)]

/-- A number drawn is in the range wanted. -/
theorem draw_range (hw : 8 ≤ w) (rnd : Nat → Byte) (fuel : Nat) {lo n r : Num w} {L N : Nat} (hl : Is lo L) (hn : Is n N) (hle : L ≤ N)
    (h : draw rnd fuel lo n = .ok (some r)) : ∃ R, Is r R ∧ L ≤ R ∧ R ≤ N - L := by
  obtain ⟨hi, h1, h2⟩ := (hn.assignOpt hw none).sub hw hl hle
  rw [draw, h1, Out.bind_ok] at h
  cases hm : topMask hi.data with
  | ub => rw [hm] at h; simp at h
  | ok mask =>
    rw [hm, Out.bind_ok] at h
    have key : ∀ f i, drawLoop rnd mask lo hi n.data.length f i = .ok (some r) → ∃ R, Is r R ∧ L ≤ R ∧ R ≤ N - L := by
      intro f
      induction f with
      | zero => intro i h; simp [drawLoop] at h
      | succ f ih =>
        intro i h
        obtain ⟨X, hX⟩ := rand_is hw rnd i (n.data.length * w)
        have hx := Is.intro (a := (⟨andLast mask (rand w rnd i (n.data.length * w)).data, false⟩ : Num w))
          (List.length_pos_iff.1 (by rw [andLast_length]; exact hX.1)) rfl
        simp only [drawLoop, hx.lt hl, hx.gt h2] at h
        split at h
        · exact ih _ h
        · rename_i hc
          simp only [Out.ok.injEq, Option.some.injEq] at h
          simp only [Bool.or_eq_true, decide_eq_true_eq, not_or, Nat.not_lt] at hc
          exact ⟨_, h ▸ hx, hc.1, hc.2⟩
    exact key _ _ h

/-- The order must not be too small: from a number of one digit, at most the bound, the mask cannot be made. -/
theorem draw_undefined (hw : 8 ≤ w) (rnd : Nat → Byte) (fuel : Nat) {lo n : Num w} {L : Nat} (hl : Is lo L)
    (hn : Is n L) : draw rnd fuel lo n = .ub := by
  obtain ⟨hi, h1, h2⟩ := (hn.assignOpt hw none).sub hw hl le_rfl
  rw [draw, h1, Out.bind_ok]
  have hz := (isZeroD_iff hi.data).2 (by rw [h2.2.2, Nat.sub_self])
  have : topMask hi.data = .ub := by
    rw [topMask, rd_eq_ok (show hi.data.length - 1 < hi.data.length by have := h2.1; omega)]
    simp only [isZeroD, List.all_eq_true] at hz
    rw [Out.bind_ok, if_pos (by simpa using hz _ (List.getElem_mem _))]
  rw [this]
  rfl

example : verify (w := 16) (fun _ _ => 5) 100 ⟨[23], false⟩ ⟨[11], false⟩ ⟨[4], false⟩ = .ok (some .success) := by decide +kernel

end Kryptos.Dl
