import Verif.Props.MpGcd
import Mathlib.Tactic.LinearCombination
import Mathlib.Data.Int.ModEq
/-
  Modular inverses of big numbers (C42).
-/
namespace Kryptos.Mp
open Spec.Mp

variable {w : Nat}

theorem coprime_two {m : Nat} (h : m % 2 = 1) : Nat.Coprime 2 m := by
  rw [Nat.Coprime, Nat.gcd_rec, h]; rfl

/-- Halving both sides of a congruence modulo an odd number. -/
theorem half_modEq {m r u a : Nat} (hm : m % 2 = 1) (h : r * a ≡ u [MOD m]) (hu : u % 2 = 0) :
    (if r % 2 = 1 then r + m else r) / 2 * a ≡ u / 2 [MOD m] := by
  have hc := coprime_two hm
  apply Nat.ModEq.cancel_left_of_coprime (c := 2) (by rw [Nat.gcd_comm]; exact hc)
  rw [← Nat.mul_assoc, Nat.mul_div_cancel' (by split <;> omega), Nat.mul_div_cancel' (by omega)]
  split
  · rw [Nat.add_mul]
    have := Nat.ModEq.add h (show m * a ≡ 0 [MOD m] by simp [Nat.ModEq])
    simpa using this
  · exact h

/-- The halves of `kryptos_mp_modinv_rs`. -/
theorem halve_spec (hw : 8 ≤ w) {r m : Num w} {x k : Nat} (hr : Is r x) (hm : Is m k) :
    ∃ q, (if !decide (x % 2 = 1) then .ok r else addS r m) = .ok q ∧
      Is (rsh q 1) ((if x % 2 = 1 then x + k else x) / 2) := by
  by_cases h : x % 2 = 1
  · obtain ⟨q, h1, h2⟩ := hr.addS hw hm
    refine ⟨q, by simp [h, h1], ?_⟩
    rw [if_pos h]; simpa using h2.rsh hw 1
  · refine ⟨r, by simp [h], ?_⟩
    rw [if_neg h]; simpa using hr.rsh hw 1

theorem rsLoop_spec (hw : 8 ≤ w) (a : Nat) (m : Num w) (k : Nat) (hm : Is m k) (hk : k % 2 = 1) (f : Nat)
    (u v r s : Num w) (nu nv nr ns : Nat) (hu : Is u nu) (hv : Is v nv) (hr : Is r nr) (hs : Is s ns)
    (h1 : nr * a ≡ nu [MOD k]) (h2 : ns * a ≡ nv [MOD k]) (h3 : nr < k) (h4 : ns ≤ k) (h5 : nu ≠ 0)
    (ho : nu % 2 = 1 ∨ nv % 2 = 1) (hf : nu + nv < f) :
    ∃ u' r' x, rsLoop m f u v r s = .ok (some (u', r')) ∧ Is u' (Nat.gcd nu nv) ∧ Is r' x ∧ x < k ∧
      x * a ≡ Nat.gcd nu nv [MOD k] := by
  induction f generalizing u v r s nu nv nr ns with
  | zero => omega
  | succ f ih =>
    rw [rsLoop, hv.isZero]
    by_cases hz : nv = 0
    · subst hz
      rw [Nat.gcd_zero_right]
      exact ⟨u, r, nr, by simp, hu, hr, h3, h1⟩
    · rw [decide_eq_false hz]
      simp only [Bool.false_eq_true, if_false, hu.isOdd (by omega), hv.isOdd (by omega), hr.isOdd (by omega), hs.isOdd (by omega),
        Out.bind_ok]
      by_cases hue : nu % 2 = 1
      · rw [decide_eq_true hue]
        simp only [Bool.not_true, Bool.false_eq_true, if_false]
        by_cases hve : nv % 2 = 1
        · rw [decide_eq_true hve]
          simp only [Bool.not_true, Bool.false_eq_true, if_false, hu.gt hv]
          by_cases hg : nv < nu
          · rw [decide_eq_true hg, if_pos rfl]
            obtain ⟨u2, e1, e2⟩ := hu.subS hw hv (by omega)
            obtain ⟨r2, e3, e4⟩ := hr.subMod hw hs hm h4
            rw [e1, Out.bind_ok]
            have hmod : (if ns ≤ nr then nr - ns else nr + k - ns) * a ≡ nu - nv [MOD k] := by
              have h12 : nr * a + nv ≡ nu + ns * a [MOD k] := by
                have := Nat.ModEq.add h1 h2.symm
                exact this
              apply Nat.ModEq.add_right_cancel' nv
              rw [Nat.sub_add_cancel (by omega)]
              apply Nat.ModEq.add_right_cancel' (ns * a)
              rw [Nat.add_right_comm, ← Nat.add_mul]
              split
              · rw [Nat.sub_add_cancel (by omega)]; exact h12
              · rw [Nat.sub_add_cancel (by omega), Nat.add_mul, Nat.add_right_comm]
                have := Nat.ModEq.add h12 (show k * a ≡ 0 [MOD k] by simp [Nat.ModEq])
                simpa using this
            obtain ⟨u', r', x, g1, g2, g3, g4, g5⟩ := ih u2 v r2 s _ _ _ _ e2 hv e4 hs hmod h2 (by split <;> omega) h4 (by omega)
              (Or.inr hve) (by omega)
            refine ⟨u', r', x, ?_, ?_, g3, g4, ?_⟩
            · change ((subS r s).bind fun r => (if r.neg then addS r m else .ok r).bind fun r => rsLoop m f u2 v r s) = _
              rw [show ((subS r s).bind fun r => (if r.neg then addS r m else .ok r).bind fun r => rsLoop m f u2 v r s) =
                ((subS r s).bind fun r => if r.neg then addS r m else .ok r).bind fun r => rsLoop m f u2 v r s from by
                  cases subS r s <;> rfl, e3]
              exact g1
            · rwa [Nat.gcd_sub_self_left (by omega)] at g2
            · rwa [Nat.gcd_sub_self_left (by omega)] at g5
          · rw [decide_eq_false hg, if_neg (by decide)]
            obtain ⟨v2, e1, e2⟩ := hv.subS hw hu (by omega)
            obtain ⟨s2, e3, e4⟩ := hs.subMod hw hr hm (by omega)
            rw [e1, Out.bind_ok]
            have hmod : (if nr ≤ ns then ns - nr else ns + k - nr) * a ≡ nv - nu [MOD k] := by
              have h12 : ns * a + nu ≡ nv + nr * a [MOD k] := Nat.ModEq.add h2 h1.symm
              apply Nat.ModEq.add_right_cancel' nu
              rw [Nat.sub_add_cancel (by omega)]
              apply Nat.ModEq.add_right_cancel' (nr * a)
              rw [Nat.add_right_comm, ← Nat.add_mul]
              split
              · rw [Nat.sub_add_cancel (by omega)]; exact h12
              · rw [Nat.sub_add_cancel (by omega), Nat.add_mul, Nat.add_right_comm]
                have := Nat.ModEq.add h12 (show k * a ≡ 0 [MOD k] by simp [Nat.ModEq])
                simpa using this
            obtain ⟨u', r', x, g1, g2, g3, g4, g5⟩ := ih u v2 r s2 _ _ _ _ hu e2 hr e4 h1 hmod h3 (by split <;> omega) h5
              (Or.inl hue) (by omega)
            refine ⟨u', r', x, ?_, ?_, g3, g4, ?_⟩
            · change ((subS s r).bind fun s => (if s.neg then addS s m else .ok s).bind fun s => rsLoop m f u v2 r s) = _
              rw [show ((subS s r).bind fun s => (if s.neg then addS s m else .ok s).bind fun s => rsLoop m f u v2 r s) =
                ((subS s r).bind fun s => if s.neg then addS s m else .ok s).bind fun s => rsLoop m f u v2 r s from by
                  cases subS s r <;> rfl, e3]
              exact g1
            · rwa [Nat.gcd_sub_self_right (by omega)] at g2
            · rwa [Nat.gcd_sub_self_right (by omega)] at g5
        · rw [decide_eq_false hve]
          simp only [Bool.not_false, if_true]
          obtain ⟨q, q1, q2⟩ := halve_spec hw hs hm
          rw [q1, Out.bind_ok]
          have hv2 := hv.rsh hw 1
          rw [pow_one] at hv2
          obtain ⟨u', r', x, g1, g2, g3, g4, g5⟩ := ih u _ r _ _ _ _ _ hu hv2 hr q2 h1 (half_modEq hk h2 (by omega)) h3
            (by split <;> omega) h5 (Or.inl hue) (by omega)
          have e : Nat.gcd nu (nv / 2) = Nat.gcd nu nv := by
            rw [Nat.gcd_comm, ← gcd_strip 1 hue, pow_one, Nat.mul_div_cancel' (by omega), Nat.gcd_comm]
          rw [e] at g2 g5
          exact ⟨u', r', x, g1, g2, g3, g4, g5⟩
      · rw [decide_eq_false hue]
        simp only [Bool.not_false, if_true]
        obtain ⟨q, q1, q2⟩ := halve_spec hw hr hm
        rw [q1, Out.bind_ok]
        have hu2 := hu.rsh hw 1
        rw [pow_one] at hu2
        obtain ⟨u', r', x, g1, g2, g3, g4, g5⟩ := ih _ v _ s _ _ _ _ hu2 hv q2 hs (half_modEq hk h1 (by omega)) h2
          (by split <;> omega) h4 (by omega) (by omega) (by omega)
        have e : Nat.gcd (nu / 2) nv = Nat.gcd nu nv := by
          rw [← gcd_strip 1 (by omega : nv % 2 = 1), pow_one, Nat.mul_div_cancel' (by omega)]
        rw [e] at g2 g5
        exact ⟨u', r', x, g1, g2, g3, g4, g5⟩

/-- `kryptos_mp_modinv_rs` ends for every odd modulus. -/
theorem modinvRs_spec (hw : 8 ≤ w) (a m : Num w) (ha : a.data ≠ []) (hm : m.data ≠ []) (han : a.neg = false)
    (hmn : m.neg = false) (hodd : val m.data % 2 = 1) (f : Nat) (hf : val a.data + val m.data < f) :
    ∃ r, modinvRs f a m = .ok (some r) ∧ r.neg = false ∧ val r.data < val m.data ∧ r.data ≠ [] ∧
      (Nat.gcd (val a.data) (val m.data) = 1 → val r.data * val a.data ≡ 1 [MOD val m.data]) ∧
      (Nat.gcd (val a.data) (val m.data) ≠ 1 → val r.data = 0) := by
  have hA := Is.intro ha han
  have hM := Is.intro hm hmn
  obtain ⟨u', r', x, h1, h2, h3, h4, h5⟩ := rsLoop_spec hw (val a.data) m (val m.data) hM hodd f m a zero one _ _ 0 1 hM hA is_zero
    (is_one (by omega)) (by simp [Nat.ModEq]) (by rw [Nat.one_mul]) (by omega) (by omega) (by omega) (Or.inl hodd) (by omega)
  rw [Nat.gcd_comm] at h2 h5
  rw [modinvRs, hM.assignNone hw, hA.assignNone hw, h1, Out.bind_ok]
  simp only [h2.gt (is_one (w := w) (by omega)), h3.gt hM, h3.2.1]
  have hpos : 0 < Nat.gcd (val a.data) (val m.data) := Nat.gcd_pos_of_pos_right _ (by omega)
  by_cases hg : Nat.gcd (val a.data) (val m.data) = 1
  · rw [hg] at h5 ⊢
    refine ⟨r', ?_, h3.2.1, by rw [h3.2.2]; exact h4, List.ne_nil_of_length_pos h3.1, fun _ => by rw [h3.2.2]; exact h5, fun h => absurd rfl h⟩
    rw [decide_eq_false (by omega), decide_eq_false (by omega)]; rfl
  · refine ⟨zero, ?_, rfl, ?_, by simp [zero], fun h => absurd h hg, fun _ => ?_⟩
    · rw [decide_eq_true (by omega)]; rfl
    · rw [is_zero.2.2]; omega
    · exact is_zero.2.2

/-! ### The Euclidean loop, for even moduli -/

/-- The pairs of successive remainders in Euclid's algorithm on `u` and `v`. -/
inductive EuclidPair (u v : Nat) : Nat → Nat → Prop
  | base : EuclidPair u v u v
  | step {x y : Nat} : EuclidPair u v x y → y ≠ 0 → EuclidPair u v y (x % y)

/-- The divisions of Euclid's algorithm on `u` and `v` which the code does right: no quotient has more than two digits and no
guess of a digit overflows. -/
def EuclidOk (w u v : Nat) : Prop :=
  ∀ x y, EuclidPair u v x y → y ≠ 0 → x < y * (2 ^ w) ^ 2 ∧ ∀ j, ¬ GuessOverflows w x y j

/-- The sign of the coefficients. -/
def sgn (odd : Bool) : Int := if odd then -1 else 1

theorem euclidLoop_spec (hw : 16 ≤ w) (u v : Nat) (hv0 : v ≠ 0) (hok : EuclidOk w u v) (f : Nat) (s : Euclid w)
    (a1 a3 b1 b3 : Nat) (hu1 : Is s.u1 a1) (hu3 : Is s.u3 a3) (hv1 : Is s.v1 b1) (hv3 : Is s.v3 b3)
    (hp : EuclidPair u v a3 b3) (hi : a1 * b3 + b1 * a3 = v) (hc1 : (v : Int) ∣ sgn s.odd * a1 * u - a3)
    (hc2 : (v : Int) ∣ - sgn s.odd * b1 * u - b3) (hle : a1 ≤ v) (hle2 : b1 ≤ v) (hne : a1 ≠ 0 ∨ b3 < a3) (hf : b3 < f) :
    ∃ t x, euclidLoop f s = .ok (some (some t)) ∧ Is t.u3 (Nat.gcd a3 b3) ∧ Is t.u1 x ∧ x ≤ v ∧
      (v : Int) ∣ sgn t.odd * x * u - Nat.gcd a3 b3 := by
  have hw8 : 8 ≤ w := by omega
  induction f generalizing s a1 a3 b1 b3 with
  | zero => omega
  | succ f ih =>
    rw [euclidLoop, hv3.ne is_zero]
    by_cases hz : b3 = 0
    · subst hz
      rw [Nat.gcd_zero_right]
      exact ⟨s, a1, by simp, hu3, hu1, hle, hc1⟩
    · rw [decide_eq_true hz]
      simp only [if_true]
      obtain ⟨q, r, d1, d2, d3, d4, d5, d6, d7⟩ := div_exact_iff hw s.u3 s.v3 (List.ne_nil_of_length_pos hu3.1) hu3.2.1 hv3.2.1
        (by rw [hv3.2.2]; exact hz)
      rw [hu3.2.2, hv3.2.2] at d6 d7
      obtain ⟨o1, o2⟩ := hok a3 b3 hp hz
      have hlt : val r.data < b3 := d7.2 ⟨by
        refine lt_of_lt_of_le o1 (Nat.mul_le_mul_left _ (Nat.pow_le_pow_right (Nat.two_pow_pos w) ?_))
        simp only [divSteps]; split <;> omega, o2⟩
      have hrm : val r.data = a3 % b3 := by
        rw [d6, Nat.mul_comm, Nat.mul_add_mod, Nat.mod_eq_of_lt hlt]
      set qv := val q.data with hqv
      set rv := val r.data with hrv
      have hq := Is.intro d4 d2
      have hr := Is.intro d5 d3
      rw [← hqv] at hq
      rw [← hrv] at hr
      obtain ⟨t1, m1, m2⟩ := (hq.assignOpt hw8 s.t1).mul hw8 hv1
      have hsum : qv * b1 + a1 ≠ 0 := by
        rcases hne with h | h
        · omega
        · intro h0
          have ha : a1 = 0 := by omega
          have hb : b1 ≠ 0 := by rintro rfl; rw [ha] at hi; simp at hi; omega
          have hq0 : qv = 0 := by
            rcases Nat.mul_eq_zero.1 (show qv * b1 = 0 by omega) with h | h
            · exact h
            · exact absurd h hb
          rw [hq0] at d6; omega
      obtain ⟨t2, m3, m4⟩ := m2.add hw8 hu1 hsum
      have hst : euclidStep s = .ok (some ⟨assign (some s.u1) s.v1, assign (some s.u3) s.v3, assign (some s.v1) t2,
          assign (some s.v3) r, some t2, !s.odd⟩) := by
        rw [euclidStep, d1]; simp only [Out.bind_ok, m1, m3]
      have hi' : b1 * rv + (qv * b1 + a1) * b3 = v := by
        rw [← hi, d6]; ring
      have hle' : qv * b1 + a1 ≤ v := by
        rw [← hi']
        exact le_trans (Nat.le_mul_of_pos_right _ (Nat.pos_of_ne_zero hz)) (Nat.le_add_left _ _)
      have hsg : sgn (!s.odd) = - sgn s.odd := by cases s.odd <;> simp [sgn]
      have hp' : EuclidPair u v b3 rv := by rw [hrm]; exact .step hp hz
      have hc2' : (v : Int) ∣ - sgn (!s.odd) * ((qv * b1 + a1 : Nat) : Int) * u - rv := by
        have := Int.dvd_sub hc1 (Dvd.dvd.mul_left hc2 (qv : Int))
        have e : (- sgn (!s.odd) * ((qv * b1 + a1 : Nat) : Int) * u - rv : Int) =
            (sgn s.odd * a1 * u - a3) - qv * (- sgn s.odd * b1 * u - b3) := by
          rw [hsg, d6]; push_cast; ring
        rw [e]; exact this
      obtain ⟨t, x, g1, g2, g3, g4, g5⟩ := ih ⟨assign (some s.u1) s.v1, assign (some s.u3) s.v3, assign (some s.v1) t2,
          assign (some s.v3) r, some t2, !s.odd⟩ b1 b3 (qv * b1 + a1) rv (hv1.assignSome _) (hv3.assignSome _) (m4.assignSome _)
          (hr.assignSome _) hp' hi' (by rw [hsg]; exact hc2) hc2' hle2 hle' (Or.inr hlt) (by omega)
      refine ⟨t, x, ?_, ?_, g3, g4, ?_⟩
      · rw [hst]; exact g1
      · rw [hrm, Nat.gcd_comm, ← Nat.gcd_rec, Nat.gcd_comm] at g2; exact g2
      · rw [hrm, Nat.gcd_comm, ← Nat.gcd_rec, Nat.gcd_comm] at g5; exact g5

/-- `kryptos_mp_modinv` for an odd modulus: for every number of every size the function ends and gives the inverse below the
modulus, or zero when there is none. -/
theorem modinv_odd (hw : 8 ≤ w) (a m : Num w) (ha : a.data ≠ []) (hm : m.data ≠ []) (han : a.neg = false)
    (hmn : m.neg = false) (hodd : val m.data % 2 = 1) (f : Nat) (hf : val a.data + val m.data < f) :
    ∃ r, modinv f a m = .ok (some r) ∧ r.neg = false ∧ val r.data < val m.data ∧
      (Nat.gcd (val a.data) (val m.data) = 1 → val a.data * val r.data ≡ 1 [MOD val m.data]) ∧
      (Nat.gcd (val a.data) (val m.data) ≠ 1 → val r.data = 0) := by
  obtain ⟨r, h1, h2, h3, -, h4, h5⟩ := modinvRs_spec hw a m ha hm han hmn hodd f hf
  refine ⟨r, ?_, h2, h3, fun h => by rw [Nat.mul_comm]; exact h4 h, h5⟩
  rw [modinv, (Is.intro hm hmn).isOdd (by omega), Out.bind_ok, decide_eq_true hodd]
  exact h1

/-- `kryptos_mp_modinv` for an even modulus, when every division of Euclid's algorithm is one which `kryptos_mp_div` does
right.  Missing for the full property: the other pairs of numbers; on some of them the code has undefined behaviour
(`modinv_wrong`). -/
theorem modinv_even_partial (hw : 16 ≤ w) (a m : Num w) (ha : a.data ≠ []) (hm : m.data ≠ []) (han : a.neg = false)
    (hmn : m.neg = false) (heven : val m.data % 2 = 0) (hm0 : val m.data ≠ 0) (hok : EuclidOk w (val a.data) (val m.data))
    (f : Nat) (hf : val m.data < f) :
    ∃ r, modinv f a m = .ok (some r) ∧ r.neg = false ∧ val r.data < val m.data ∧
      (Nat.gcd (val a.data) (val m.data) = 1 → val a.data * val r.data ≡ 1 [MOD val m.data]) ∧
      (Nat.gcd (val a.data) (val m.data) ≠ 1 → val r.data = 0) := by
  have hw8 : 8 ≤ w := by omega
  have hA := Is.intro ha han
  have hM := Is.intro hm hmn
  have h1 := is_one (w := w) (by omega)
  rw [modinv, hM.isOdd (by omega), Out.bind_ok, decide_eq_false (by omega), h1.assignNone hw8, hA.assignNone hw8,
    is_zero.assignNone hw8, hM.assignNone hw8]
  set A := val a.data
  set M := val m.data
  obtain ⟨t, x, g1, g2, g3, g4, g5⟩ := euclidLoop_spec hw A M hm0 hok f ⟨one, a, zero, m, none, false⟩ 1 A 0 M h1 hA is_zero hM
    .base (by simp) (by simp [sgn]) (by simp [sgn]) (by omega) (by omega) (Or.inl (by omega)) hf
  simp only [Bool.false_eq_true, if_false, g1, Out.bind_ok, g2.eq h1]
  by_cases hg : Nat.gcd A M = 1
  · rw [hg] at g5 ⊢
    simp only [decide_true, if_true]
    have hx0 : x ≠ 0 ∧ x ≠ M := by
      have hM2 : ¬ (M : Int) ∣ 1 := by
        intro h
        have := Int.le_of_dvd (by omega) h
        omega
      constructor
      · rintro rfl
        apply hM2
        have := Int.dvd_neg.2 g5
        simpa using this
      · intro hx
        rw [hx] at g5
        apply hM2
        have e : (1 : Int) = sgn t.odd * M * A - (sgn t.odd * M * A - ((1 : Nat) : Int)) := by push_cast; ring
        rw [e]
        exact Int.dvd_sub (Dvd.dvd.mul_right (Dvd.dvd.mul_left (dvd_refl _) _) _) g5
    cases ho : t.odd with
    | false =>
      simp only [Bool.false_eq_true, if_false, g3.assignNone hw8]
      refine ⟨t.u1, rfl, g3.2.1, by rw [g3.2.2]; omega, fun _ => ?_, fun h => absurd rfl h⟩
      rw [g3.2.2]
      have : (A : Int) * x ≡ 1 [ZMOD M] := by
        rw [ho] at g5
        refine (Int.modEq_iff_dvd.2 ?_).symm
        simpa [sgn, mul_comm] using g5
      exact (Int.natCast_modEq_iff).1 (by push_cast; exact this)
    | true =>
      obtain ⟨r, r1, r2⟩ := hM.sub hw8 g3 g4
      simp only [if_true, r1, Out.bind_ok]
      refine ⟨r, rfl, r2.2.1, by rw [r2.2.2]; omega, fun _ => ?_, fun h => absurd rfl h⟩
      rw [r2.2.2]
      have : (A : Int) * ((M - x : Nat) : Int) ≡ 1 [ZMOD M] := by
        rw [ho] at g5
        refine (Int.modEq_iff_dvd.2 ?_).symm
        rw [Int.ofNat_sub g4]
        have e : (A : Int) * (M - x) - 1 = M * A + (sgn true * x * A - ((1 : Nat) : Int)) := by
          simp only [sgn, if_true]; push_cast; ring
        rw [e]
        exact Int.dvd_add (Dvd.intro _ rfl) g5
      exact (Int.natCast_modEq_iff).1 (by push_cast; push_cast at this; exact this)
  · rw [decide_eq_false hg]
    refine ⟨zero, rfl, rfl, by rw [is_zero.2.2]; omega, fun h => absurd h hg, fun _ => is_zero.2.2⟩

/-- Numbers of one digit meet the condition. -/
theorem euclidOk_single (u v : Nat) (hu : u < 2 ^ w) (hv : v < 2 ^ w) : EuclidOk w u v := by
  have key : ∀ x y, EuclidPair u v x y → x < 2 ^ w ∧ y < 2 ^ w := by
    intro x y h
    induction h with
    | base => exact ⟨hu, hv⟩
    | step _ hy ih => exact ⟨ih.2, lt_trans (Nat.mod_lt _ (Nat.pos_of_ne_zero hy)) ih.2⟩
  intro x y h hy
  obtain ⟨h1, h2⟩ := key x y h
  refine ⟨lt_of_lt_of_le h1 ?_, fun j => no_overflow_single x y j hy h2⟩
  calc 2 ^ w ≤ (2 ^ w) ^ 2 := Nat.le_self_pow (by omega) _
    _ ≤ y * (2 ^ w) ^ 2 := Nat.le_mul_of_pos_left _ (Nat.pos_of_ne_zero hy)

/-- `kryptos_mp_modinv` is exact for all even moduli of one digit. -/
theorem modinv_even_single (hw : 16 ≤ w) (a m : Num w) (ha : a.data.length = 1) (hm : m.data.length = 1) (han : a.neg = false)
    (hmn : m.neg = false) (heven : val m.data % 2 = 0) (hm0 : val m.data ≠ 0)
    (f : Nat) (hf : val m.data < f) :
    ∃ r, modinv f a m = .ok (some r) ∧ r.neg = false ∧ val r.data < val m.data ∧
      (Nat.gcd (val a.data) (val m.data) = 1 → val a.data * val r.data ≡ 1 [MOD val m.data]) ∧
      (Nat.gcd (val a.data) (val m.data) ≠ 1 → val r.data = 0) := by
  have h1 := val_lt a.data
  have h2 := val_lt m.data
  rw [ha, Nat.mul_one] at h1
  rw [hm, Nat.mul_one] at h2
  exact modinv_even_partial hw a m (List.ne_nil_of_length_pos (by omega)) (List.ne_nil_of_length_pos (by omega)) han hmn heven hm0
    (euclidOk_single _ _ h1 h2) f hf

theorem euclidLoop_ub (f k : Nat) (s : Euclid w) (h : euclidLoop f s = .ub) : euclidLoop (f + k) s = .ub := by
  induction f generalizing s with
  | zero => cases h
  | succ f ih =>
    rw [Nat.add_right_comm, euclidLoop]
    rw [euclidLoop] at h
    by_cases hz : ne s.v3 zero = true
    · rw [if_pos hz] at h ⊢
      cases e : euclidStep s with
      | ub => rfl
      | ok t =>
        rw [e, Out.bind_ok] at h
        rw [Out.bind_ok]
        cases t with
        | none => cases h
        | some t => exact ih t h
    · rw [if_neg hz] at h; cases h

/-- For the coprime numbers `2^64 - 1` and `2^192` the code has undefined behaviour: the quotient of a division by a number
with leading zero digits comes out as zero, and the sum of two zeros is memory which was never written. -/
theorem modinv_wrong (f : Nat) (hf : 2 ≤ f) :
    modinv f (⟨[0xFFFFFFFFFFFFFFFF], false⟩ : Num 64) ⟨[0, 0, 0, 1], false⟩ = .ub ∧ Nat.gcd (2 ^ 64 - 1) (2 ^ 192) = 1 := by
  refine ⟨?_, by decide +kernel⟩
  obtain ⟨k, rfl⟩ : ∃ k, f = 2 + k := ⟨f - 2, by omega⟩
  have h : euclidLoop 2 (⟨assign none one, assign none ⟨[0xFFFFFFFFFFFFFFFF], false⟩, assign none zero,
      assign none ⟨[0, 0, 0, 1], false⟩, none, false⟩ : Euclid 64) = .ub := by decide +kernel
  rw [modinv, show isOdd (⟨[0, 0, 0, 1], false⟩ : Num 64) = .ok false by decide +kernel, Out.bind_ok, if_neg (by decide),
    euclidLoop_ub 2 k _ h]
  rfl

example : (match modinv 100 (⟨[7], false⟩ : Num 64) ⟨[31], false⟩ with
    | .ok (some r) => decide (val r.data = 9)
    | _ => false) = true := by decide +kernel

example : (match modinv 30 (⟨[7], false⟩ : Num 16) ⟨[20], false⟩ with
    | .ok (some r) => decide (val r.data = 3)
    | _ => false) = true := by decide +kernel

end Kryptos.Mp
