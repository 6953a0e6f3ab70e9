import Verif.Model.MpGcd
import Verif.Lemmas.MpNat
import Mathlib.Data.Nat.GCD.Basic
/-
  The greatest common divisor of big numbers (C64).
-/
namespace Kryptos.Mp
open Spec.Mp

variable {w : Nat}

theorem stripEven_spec (hw : 8 ≤ w) (f : Nat) (x : Num w) (n : Nat) (hx : Is x n) (hn : n ≠ 0) (hf : n ≤ f) :
    ∃ r m k, stripEven f x = .ok (some r) ∧ Is r m ∧ m % 2 = 1 ∧ n = 2 ^ k * m := by
  induction f generalizing x n with
  | zero => omega
  | succ f ih =>
    rw [stripEven, hx.isOdd (by omega), Out.bind_ok]
    by_cases ho : n % 2 = 1
    · exact ⟨x, n, 0, by simp [ho], hx, ho, by simp⟩
    · have h2 := hx.rsh hw 1
      rw [pow_one] at h2
      obtain ⟨r, m, k, h3, h4, h5, h6⟩ := ih _ _ h2 (by omega) (by omega)
      refine ⟨r, m, k + 1, ?_, h4, h5, ?_⟩
      · rw [decide_eq_false ho]; exact h3
      · rw [pow_succ, Nat.mul_right_comm, ← h6]; omega

theorem stripEven_zero (hw : 8 ≤ w) (f : Nat) (x : Num w) (hx : Is x 0) : stripEven f x = .ok none := by
  induction f generalizing x with
  | zero => rfl
  | succ f ih =>
    rw [stripEven, hx.isOdd (by omega), Out.bind_ok, decide_eq_false (by decide)]
    exact ih _ (by simpa using hx.rsh hw 1)

theorem gcd_strip {m y : Nat} (k : Nat) (hy : y % 2 = 1) : Nat.gcd (2 ^ k * m) y = Nat.gcd m y :=
  Nat.Coprime.gcd_mul_left_cancel m (Nat.Coprime.pow_left k (by
    rw [Nat.Coprime, Nat.gcd_rec, hy]; rfl))

/-- The main loop: for numbers which are not both even. -/
theorem gcdLoop_spec (hw : 8 ≤ w) (f : Nat) (x y : Num w) (t : Option (Num w)) (n m : Nat) (hx : Is x n) (hy : Is y m)
    (hm : m ≠ 0) (ho : n % 2 = 1 ∨ m % 2 = 1) (hf : n + m < f) :
    ∃ r, gcdLoop f x y t = .ok (some r) ∧ Is r (Nat.gcd n m) := by
  induction f generalizing x y t n m with
  | zero => omega
  | succ f ih =>
    rw [gcdLoop, hx.ne is_zero]
    by_cases hn : n = 0
    · subst hn
      exact ⟨y, rfl, by rw [Nat.gcd_zero_left]; exact hy⟩
    · rw [decide_eq_true hn]
      obtain ⟨x', n', kx, hx1, hx2, hx3, hx4⟩ := stripEven_spec hw f x n hx hn (by omega)
      obtain ⟨y', m', ky, hy1, hy2, hy3, hy4⟩ := stripEven_spec hw f y m hy hm (by omega)
      have hkx : 0 < 2 ^ kx := Nat.two_pow_pos kx
      have hky : 0 < 2 ^ ky := Nat.two_pow_pos ky
      have hn' : n' ≤ n := by rw [hx4]; exact Nat.le_mul_of_pos_left _ hkx
      have hm' : m' ≤ m := by rw [hy4]; exact Nat.le_mul_of_pos_left _ hky
      have hg : Nat.gcd n m = Nat.gcd n' m' := by
        rcases ho with ho | ho
        · have : kx = 0 := by
            cases kx with
            | zero => rfl
            | succ k => rw [hx4, pow_succ, Nat.mul_assoc, Nat.mul_left_comm, Nat.mul_mod_right] at ho; omega
          rw [this] at hx4
          rw [hy4, Nat.gcd_comm, gcd_strip ky (by omega), Nat.gcd_comm]
          simp at hx4; rw [hx4]
        · have : ky = 0 := by
            cases ky with
            | zero => rfl
            | succ k => rw [hy4, pow_succ, Nat.mul_assoc, Nat.mul_left_comm, Nat.mul_mod_right] at ho; omega
          rw [this] at hy4
          rw [hx4, gcd_strip kx (by omega)]
          simp at hy4; rw [hy4]
      rw [hg]
      simp only [if_true, hx1, hy1, Out.bind_ok, hy2.lt hx2, hx2.ge hy2]
      by_cases hge : m' ≤ n'
      · -- the first is reduced
        have ht : ∃ r, (if decide (m' < n') = true then sub (assign t x') y' else sub (assign t y') x') = .ok r ∧ Is r (n' - m') := by
          by_cases hl : m' < n'
          · rw [decide_eq_true hl, if_pos rfl]; exact (hx2.assignOpt hw t).sub hw hy2 hge
          · have e : n' = m' := by omega
            rw [decide_eq_false hl, if_neg (by decide), e]
            subst e
            exact (hy2.assignOpt hw t).sub hw hx2 (Nat.le_refl _)
        obtain ⟨r, hr1, hr2⟩ := ht
        rw [hr1, Out.bind_ok, decide_eq_true hge, if_pos rfl]
        have hr3 := (hr2.rsh hw 1)
        rw [pow_one] at hr3
        obtain ⟨g, hg1, hg2⟩ := ih _ _ (some (rsh r 1)) _ _ (hr3.assignSome x') hy2 (by omega) (Or.inr hy3) (by omega)
        refine ⟨g, hg1, ?_⟩
        have e : Nat.gcd ((n' - m') / 2) m' = Nat.gcd n' m' := by
          rw [← gcd_strip 1 hy3, pow_one, Nat.mul_div_cancel' (by omega), Nat.gcd_sub_self_left hge]
        rw [← e]; exact hg2
      · have hl : ¬ m' < n' := by omega
        obtain ⟨r, hr1, hr2⟩ := (hy2.assignOpt hw t).sub hw hx2 (by omega : n' ≤ m')
        rw [decide_eq_false hl, if_neg (by decide), hr1, Out.bind_ok, decide_eq_false hge, if_neg (by decide)]
        have hr3 := (hr2.rsh hw 1)
        rw [pow_one] at hr3
        obtain ⟨g, hg1, hg2⟩ := ih _ _ (some (rsh r 1)) _ _ hx2 (hr3.assignSome y') (by omega) (Or.inl hx3) (by omega)
        refine ⟨g, hg1, ?_⟩
        have e : Nat.gcd n' ((m' - n') / 2) = Nat.gcd n' m' := by
          rw [Nat.gcd_comm, ← gcd_strip 1 hx3, pow_one, Nat.mul_div_cancel' (by omega), Nat.gcd_sub_self_left (by omega),
            Nat.gcd_comm]
        rw [← e]; exact hg2

theorem evenBoth_spec (hw : 8 ≤ w) (f : Nat) (x y g : Num w) (n m c : Nat) (hx : Is x n) (hy : Is y m) (hg : Is g c)
    (hn : n ≠ 0) (hm : m ≠ 0) (hf : n ≤ f) :
    ∃ x' y' g' n' m' k, evenBoth f x y g = .ok (some (x', y', g')) ∧ Is x' n' ∧ Is y' m' ∧ Is g' (2 ^ k * c) ∧
      n = 2 ^ k * n' ∧ m = 2 ^ k * m' ∧ (n' % 2 = 1 ∨ m' % 2 = 1) := by
  induction f generalizing x y g n m c with
  | zero => omega
  | succ f ih =>
    rw [evenBoth, hx.isOdd (by omega), hy.isOdd (by omega), Out.bind_ok, Out.bind_ok]
    by_cases ho : n % 2 = 1
    · exact ⟨x, y, g, n, m, 0, by rw [decide_eq_true ho]; rfl, hx, hy, by simpa using hg, by simp, by simp, Or.inl ho⟩
    · rw [decide_eq_false ho]
      by_cases ho' : m % 2 = 1
      · exact ⟨x, y, g, n, m, 0, by rw [decide_eq_true ho']; rfl, hx, hy, by simpa using hg, by simp, by simp, Or.inr ho'⟩
      · rw [decide_eq_false ho']
        have h1 := hx.rsh hw 1
        have h2 := hy.rsh hw 1
        rw [pow_one] at h1 h2
        obtain ⟨x', y', g', n', m', k, e, k1, k2, k3, k4, k5, k6⟩ := ih _ _ _ _ _ _ h1 h2 (hg.lsh hw 1) (by omega) (by omega) (by omega)
        refine ⟨x', y', g', n', m', k + 1, e, k1, k2, ?_, ?_, ?_, k6⟩
        · rw [pow_succ, Nat.mul_assoc]; simpa using k3
        · rw [pow_succ, Nat.mul_right_comm, ← k4]; omega
        · rw [pow_succ, Nat.mul_right_comm, ← k5]; omega

/-- `kryptos_mp_gcd` gives the greatest common divisor of two positive numbers, of every size, and ends: the number of steps
is bounded by their sum. -/
theorem gcd_exact (hw : 8 ≤ w) (a b : Num w) (ha : a.data ≠ []) (hb : b.data ≠ []) (han : a.neg = false) (hbn : b.neg = false)
    (ha0 : val a.data ≠ 0) (hb0 : val b.data ≠ 0) (f : Nat) (hf : val a.data + val b.data < f) :
    ∃ r, gcd f a b = .ok (some r) ∧ r.neg = false ∧ val r.data = Nat.gcd (val a.data) (val b.data) := by
  have hA := Is.intro ha han
  have hB := Is.intro hb hbn
  have key : ∀ (x y : Num w) (n m : Nat), Is x n → Is y m → n ≠ 0 → m ≠ 0 → n + m < f →
      ∃ r, ((evenBoth f x y one) >>= fun r => match r with
        | none => .ok none
        | some (x, y, g) => do
          let r ← gcdLoop f x y none
          match r with
          | none => .ok none
          | some y => do
            let p ← mul (assign none g) y
            .ok (some p)) = .ok (some r) ∧ r.neg = false ∧ val r.data = Nat.gcd n m := by
    intro x y n m hx hy hn hm hf
    obtain ⟨x', y', g', n', m', k, e, k1, k2, k3, k4, k5, k6⟩ := evenBoth_spec hw f x y one n m 1 hx hy (is_one (by omega)) hn hm (by omega)
    have hk : 0 < 2 ^ k := Nat.two_pow_pos k
    have l1 : n' ≤ n := by rw [k4]; exact Nat.le_mul_of_pos_left _ hk
    have l2 : m' ≤ m := by rw [k5]; exact Nat.le_mul_of_pos_left _ hk
    obtain ⟨y2, g1, g2⟩ := gcdLoop_spec hw f x' y' none n' m' k1 k2 (by rintro rfl; simp at k5; omega) k6 (by omega)
    obtain ⟨p, p1, p2⟩ := k3.mul hw g2
    refine ⟨p, ?_, p2.2.1, ?_⟩
    · rw [e]; simp only [Out.bind_ok, g1, k3.assignNone hw, p1]
    · rw [p2.2.2, Nat.mul_one, k4, k5, Nat.gcd_mul_left]
  rw [gcd, hA.gt hB]
  by_cases h : val b.data < val a.data
  · rw [decide_eq_true h]
    simp only [if_true, hA.assignNone hw, hB.assignNone hw]
    exact key a b _ _ hA hB ha0 hb0 hf
  · rw [decide_eq_false h]
    simp only [Bool.false_eq_true, if_false, hA.assignNone hw, hB.assignNone hw]
    obtain ⟨r, h1, h2, h3⟩ := key b a _ _ hB hA hb0 ha0 (by omega)
    exact ⟨r, h1, h2, by rw [h3, Nat.gcd_comm]⟩

example : (match gcd 80 (⟨[48, 0], false⟩ : Num 64) ⟨[18], false⟩ with
    | .ok (some r) => decide (val r.data = 6)
    | _ => false) = true := by decide +kernel

theorem evenBoth_zero (hw : 8 ≤ w) (f : Nat) (x y g : Num w) (n : Nat) (hx : Is x n) (hy : Is y 0) :
    evenBoth f x y g = .ok none ∨ ∃ x' y' g' n', evenBoth f x y g = .ok (some (x', y', g')) ∧ Is x' n' ∧ Is y' 0 ∧ n' % 2 = 1 := by
  induction f generalizing x y g n with
  | zero => exact Or.inl rfl
  | succ f ih =>
    rw [evenBoth, hx.isOdd (by omega), hy.isOdd (by omega), Out.bind_ok, Out.bind_ok]
    by_cases ho : n % 2 = 1
    · exact Or.inr ⟨x, y, g, n, by rw [decide_eq_true ho]; rfl, hx, hy, ho⟩
    · rw [decide_eq_false ho, decide_eq_false (by decide)]
      exact ih _ _ _ _ (hx.rsh hw 1) (by simpa using hy.rsh hw 1)

/-- When an operand of `kryptos_mp_gcd` is zero the function does not end, although the greatest common divisor is the other
operand. -/
theorem gcd_zero_diverges (hw : 8 ≤ w) (a b : Num w) (ha : a.data ≠ []) (hb : b.data ≠ []) (han : a.neg = false)
    (hbn : b.neg = false) (h : val a.data = 0 ∨ val b.data = 0) (f : Nat) : gcd f a b = .ok none := by
  have hA := Is.intro ha han
  have hB := Is.intro hb hbn
  have key : ∀ (x y : Num w) (n : Nat), Is x n → Is y 0 → 
      ((evenBoth f x y one) >>= fun r => match r with
        | none => .ok none
        | some (x, y, g) => do
          let r ← gcdLoop f x y none
          match r with
          | none => .ok none
          | some y => do
            let p ← mul (assign none g) y
            .ok (some p)) = .ok none := by
    intro x y n hx hy
    rcases evenBoth_zero hw f x y one n hx hy with e | ⟨x', y', g', n', e, k1, k2, k3⟩
    · rw [e]; rfl
    · rw [e]
      simp only [Out.bind_ok]
      have : gcdLoop f x' y' none = .ok none := by
        cases f with
        | zero => rfl
        | succ f =>
          rw [gcdLoop, k1.ne is_zero, decide_eq_true (by omega)]
          simp only [if_true]
          by_cases hf : n' ≤ f
          · obtain ⟨r, m, k, s1, s2, s3, s4⟩ := stripEven_spec hw f x' n' k1 (by omega) hf
            simp only [s1, Out.bind_ok, stripEven_zero hw f y' k2]
          · cases hs : stripEven f x' with
            | ub =>
              exfalso
              cases f with
              | zero => simp [stripEven] at hs
              | succ f =>
                rw [stripEven, k1.isOdd (by omega), Out.bind_ok, decide_eq_true k3] at hs
                simp at hs
            | ok r =>
              cases r with
              | none => rfl
              | some r => simp only [Out.bind_ok, stripEven_zero hw f y' k2]
      rw [this]; rfl
  rw [gcd, hA.gt hB]
  by_cases h' : val b.data < val a.data
  · rw [decide_eq_true h']
    simp only [if_true, hA.assignNone hw, hB.assignNone hw]
    exact key a b _ hA (by rw [show val b.data = 0 by omega] at hB; exact hB)
  · rw [decide_eq_false h']
    simp only [Bool.false_eq_true, if_false, hA.assignNone hw, hB.assignNone hw]
    exact key b a _ hB (by rw [show val a.data = 0 by omega] at hA; exact hA)

example : gcd 50 (⟨[12], false⟩ : Num 64) ⟨[0], false⟩ = .ok none :=
  gcd_zero_diverges (by decide) _ _ (by decide) (by decide) rfl rfl (Or.inr (by decide)) 50

end Kryptos.Mp
