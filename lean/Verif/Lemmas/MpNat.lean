import Verif.Props.MpDiv
/-
  Big numbers which are not negative, by their values.
-/
namespace Kryptos.Mp
open Spec.Mp

variable {w : Nat}

/-- `a` has a digit, is not negative and has the value `n`. -/
def Is (a : Num w) (n : Nat) : Prop := 0 < a.data.length ∧ a.neg = false ∧ val a.data = n

theorem Is.intro {a : Num w} (h : a.data ≠ []) (hn : a.neg = false) : Is a (val a.data) :=
  ⟨List.length_pos_iff.2 h, hn, rfl⟩

theorem is_zero : Is (zero : Num w) 0 := ⟨by simp [zero], rfl, by simp [zero, val]⟩

theorem is_one (hw : 0 < w) : Is (one : Num w) 1 := ⟨by simp [one], rfl, val_one hw⟩

theorem Is.assignNone (hw : 8 ≤ w) {a : Num w} {n : Nat} (h : Is a n) : assign none a = a := assign_none_eq hw a h.1

theorem Is.assignSome {a : Num w} {n : Nat} (h : Is a n) (d : Num w) : Is (assign (some d) a) n := by
  refine ⟨?_, h.2.1, ?_⟩
  · simp only [assign, length_padTo]; exact lt_of_lt_of_le h.1 (Nat.le_max_right _ _)
  · simp only [assign, val_padTo]; exact h.2.2

theorem Is.assignOpt (hw : 8 ≤ w) {a : Num w} {n : Nat} (h : Is a n) (d : Option (Num w)) : Is (assign d a) n := by
  cases d with
  | none => rw [h.assignNone hw]; exact h
  | some d => exact h.assignSome d

theorem Is.isOdd (hw : 0 < w) {a : Num w} {n : Nat} (h : Is a n) : isOdd a = .ok (decide (n % 2 = 1)) := by
  obtain ⟨⟨d, ng⟩, h1, h2, h3⟩ : ∃ b, b = a ∧ Is a n := ⟨a, rfl, h⟩
  subst h1
  obtain ⟨h4, h5⟩ := h3
  cases d with
  | nil => simp at h2
  | cons x l =>
    have hd : 2 ∣ 2 ^ w := dvd_pow_self 2 (by omega)
    have e : n % 2 = x.toNat % 2 := by
      rw [← h5, val, Nat.add_mod, Nat.mod_eq_zero_of_dvd (Dvd.dvd.mul_right hd _), Nat.add_zero, Nat.mod_mod]
    have e2 : x.getLsbD 0 = decide (n % 2 = 1) := by
      rw [e, BitVec.getLsbD, Nat.testBit_zero]
    simp only [Mp.isOdd, rd, List.getElem?_cons_zero]
    exact congrArg Out.ok e2

theorem Is.rsh (hw : 8 ≤ w) {a : Num w} {n : Nat} (h : Is a n) (k : Nat) : Is (rsh a k) (n / 2 ^ k) := by
  obtain ⟨h1, h2, h3⟩ := rsh_spec hw a k h.1
  exact ⟨by rw [h3]; exact h.1, h1, by rw [h2, h.2.2]⟩

theorem Is.lsh (hw : 8 ≤ w) {a : Num w} {n : Nat} (h : Is a n) (k : Nat) : Is (lsh a k) (2 ^ k * n) := by
  obtain ⟨h1, h2, h3⟩ := lsh_spec hw a k h.1
  exact ⟨by rw [h3]; exact lt_of_lt_of_le h.1 (Nat.le_add_right _ _), by rw [h1]; exact h.2.1, by rw [h2, h.2.2]⟩

theorem Is.sub (hw : 8 ≤ w) {a b : Num w} {n m : Nat} (ha : Is a n) (hb : Is b m) (h : m ≤ n) :
    ∃ r, sub a b = .ok r ∧ Is r (n - m) := by
  obtain ⟨r, h1, h2, h3⟩ := sub_le hw a b (by rw [ha.2.2, hb.2.2]; exact h) ha.1 ha.2.1
  exact ⟨_, h1, h3, rfl, by rw [h2, ha.2.2, hb.2.2]⟩

/-- A difference which is not zero has no leading zero digits. -/
theorem Is.subNorm (hw : 8 ≤ w) {a b : Num w} {n m : Nat} (ha : Is a n) (hb : Is b m) (h0 : 0 < m) (h : m < n) :
    ∃ r, Mp.sub a b = .ok r ∧ Is r (n - m) ∧ sig r.data = r.data.length := by
  obtain ⟨r, h1, h2⟩ := ha.sub hw hb h.le
  refine ⟨r, h1, h2, ?_⟩
  have hbz : isZeroD b.data = false := by rw [← Bool.not_eq_true, isZeroD_iff, hb.2.2]; omega
  have haz : isZeroD a.data = false := by rw [← Bool.not_eq_true, isZeroD_iff, ha.2.2]; omega
  have hfin : ∀ d : Num w, (if sig d.data = 0 then (⟨List.replicate d.data.length 0, d.neg⟩ : Num w)
      else ⟨d.data.take (sig d.data), d.neg⟩) = r → sig r.data = r.data.length := by
    intro d hd
    split at hd
    · exfalso
      have h3 := h2.2.2
      rw [← hd] at h3
      have : val (List.replicate d.data.length (0 : BitVec w)) = 0 := by
        generalize d.data.length = k
        induction k with
        | zero => rfl
        | succ k ih => rw [List.replicate_succ, val, ih]; simp
      simp only [this] at h3
      omega
    · subst hd
      simp only [List.length_take, sig_take_sig]
  rw [Mp.sub, hbz, haz] at h1
  rw [if_neg (by simp), if_neg (by simp)] at h1
  simp only [] at h1
  have hb : ∀ (o : Out (Num w)) (f : Num w → Out (Num w)), (o >>= f) = .ok r → ∃ d, f d = .ok r := by
    intro o f h
    cases o with
    | ub => cases h
    | ok d => exact ⟨d, h⟩
  obtain ⟨d, hd⟩ := hb _ _ h1
  injection hd with hd
  exact hfin d hd

/-- A number without leading zeros which is less than the radix has one digit. -/
theorem Is.length_one {a : Num w} {n : Nat} (ha : Is a n) (hs : sig a.data = a.data.length) (hn : n < 2 ^ w) :
    a.data.length = 1 := by
  have h1 := ha.1
  have := sig_pos_le a.data (by omega)
  rw [ha.2.2, hs] at this
  have := (Nat.pow_lt_pow_iff_right (a := 2) (by decide)).1 (lt_of_le_of_lt this hn)
  by_contra h
  have : w * 1 ≤ w * (a.data.length - 1) := Nat.mul_le_mul_left _ (by omega)
  omega

theorem Is.add (hw : 8 ≤ w) {a b : Num w} {n m : Nat} (ha : Is a n) (hb : Is b m) (h : n + m ≠ 0) :
    ∃ r, add a b = .ok r ∧ Is r (n + m) := by
  obtain ⟨r, h1, h2, h3⟩ := add_ok hw a b ha.1 hb.1 (by rw [ha.2.2, hb.2.2]; exact h)
  refine ⟨_, h1, ?_, ha.2.1, by rw [h2, ha.2.2, hb.2.2]⟩
  simp only []
  rw [← h3, Nat.pos_iff_ne_zero, ne_eq, sig_zero, h2, ha.2.2, hb.2.2]; exact h

theorem Is.mul (hw : 8 ≤ w) {a b : Num w} {n m : Nat} (ha : Is a n) (hb : Is b m) :
    ∃ r, mul a b = .ok r ∧ Is r (n * m) := by
  obtain ⟨r, h1, h2, h3⟩ := mul_spec hw a b
  exact ⟨_, h1, lt_of_lt_of_le Nat.one_pos (h3 ▸ Nat.le_max_right _ _), rfl, by rw [h2, ha.2.2, hb.2.2]⟩

theorem Is.signs {a b : Num w} {n m : Nat} (ha : Is a n) (hb : Is b m) : a.neg = b.neg := by rw [ha.2.1, hb.2.1]

theorem Is.eq {a b : Num w} {n m : Nat} (ha : Is a n) (hb : Is b m) : eq a b = decide (n = m) := by
  have := eq_spec a b
  rw [ha.2.2, hb.2.2, ha.2.1, hb.2.1] at this
  rw [Bool.eq_iff_iff, this]; simp

theorem Is.ne {a b : Num w} {n m : Nat} (ha : Is a n) (hb : Is b m) : ne a b = decide (n ≠ m) := by
  rw [Mp.ne, ha.eq hb]; simp

theorem Is.gt {a b : Num w} {n m : Nat} (ha : Is a n) (hb : Is b m) : gt a b = decide (m < n) := by
  have := gt_spec a b (ha.signs hb)
  rw [ha.2.2, hb.2.2] at this
  rw [Bool.eq_iff_iff, this]; simp

theorem Is.lt {a b : Num w} {n m : Nat} (ha : Is a n) (hb : Is b m) : lt a b = decide (n < m) := hb.gt ha

theorem Is.ge {a b : Num w} {n m : Nat} (ha : Is a n) (hb : Is b m) : ge a b = decide (m ≤ n) := by
  have := ge_spec a b (ha.signs hb)
  rw [ha.2.2, hb.2.2] at this
  rw [Bool.eq_iff_iff, this]; simp

theorem Is.le {a b : Num w} {n m : Nat} (ha : Is a n) (hb : Is b m) : le a b = decide (n ≤ m) := by
  have := le_spec a b (ha.signs hb)
  rw [ha.2.2, hb.2.2] at this
  rw [Bool.eq_iff_iff, this]; simp

theorem is_two (hw : 2 ≤ w) : Is (two : Num w) 2 := by
  refine ⟨by simp [two], rfl, ?_⟩
  have : 2 < 2 ^ w := lt_of_lt_of_le (by decide : 2 < 2 ^ 2) (Nat.pow_le_pow_right (by omega) hw)
  simp [two, val, Nat.mod_eq_of_lt this]

theorem Is.isZero {a : Num w} {n : Nat} (ha : Is a n) : isZero a = decide (n = 0) := by
  have := isZeroD_iff a.data
  rw [ha.2.2] at this
  rw [Bool.eq_iff_iff, Mp.isZero, this]; simp

theorem Is.canonical {a : Num w} {n : Nat} (ha : Is a n) : Canonical a :=
  ⟨List.ne_nil_of_length_pos ha.1, by rw [ha.2.1]; intro h; cases h⟩

theorem Is.signed {a : Num w} {n : Nat} (ha : Is a n) : signed a.neg (val a.data) = n := by
  rw [ha.2.1, ha.2.2]; rfl

theorem Is.of_signed {a : Num w} {n : Nat} (hc : Canonical a) (h : Spec.Mp.signed a.neg (val a.data) = n) : Is a n := by
  refine ⟨List.length_pos_iff.2 hc.1, ?_⟩
  cases hn : a.neg with
  | false => rw [hn] at h; exact ⟨rfl, by simpa [Spec.Mp.signed] using h⟩
  | true =>
    have := hc.2 hn
    rw [hn] at h
    simp only [Spec.Mp.signed, if_true] at h
    omega

theorem Is.addS (hw : 8 ≤ w) {a b : Num w} {n m : Nat} (ha : Is a n) (hb : Is b m) :
    ∃ r, addS a b = .ok r ∧ Is r (n + m) := by
  obtain ⟨r, h1, h2, h3⟩ := addS_exact hw a b ha.canonical hb.canonical
  refine ⟨r, h1, .of_signed h2 ?_⟩
  rw [h3, ha.signed, hb.signed]; push_cast; rfl

/-- The difference modulo `m`: subtract, then add the modulus if the result is negative. -/
theorem Is.subMod (hw : 8 ≤ w) {a b m : Num w} {x y k : Nat} (ha : Is a x) (hb : Is b y) (hm : Is m k) (h : y ≤ k) :
    ∃ r, (Mp.subS a b).bind (fun r => if r.neg then Mp.addS r m else .ok r) = .ok r ∧
      Is r (if y ≤ x then x - y else x + k - y) := by
  obtain ⟨r, h1, h2, h3⟩ := subS_exact hw a b ha.canonical hb.canonical
  rw [ha.signed, hb.signed] at h3
  rw [h1]
  simp only [Out.bind]
  by_cases hxy : y ≤ x
  · have hr : Is r (x - y) := .of_signed h2 (by rw [h3]; omega)
    rw [hr.2.1, if_pos hxy]
    exact ⟨r, rfl, hr⟩
  · have hn : r.neg = true := by
      cases hn : r.neg with
      | true => rfl
      | false => rw [hn] at h3; simp only [Spec.Mp.signed, Bool.false_eq_true, if_false] at h3; omega
    obtain ⟨q, g1, g2, g3⟩ := addS_exact hw r m h2 hm.canonical
    rw [if_neg hxy, if_pos hn]
    refine ⟨q, g1, .of_signed g2 ?_⟩
    rw [g3, h3, hm.signed]; omega

theorem Is.subS (hw : 8 ≤ w) {a b : Num w} {x y : Nat} (ha : Is a x) (hb : Is b y) (h : y ≤ x) :
    ∃ r, Mp.subS a b = .ok r ∧ Is r (x - y) := by
  obtain ⟨r, h1, h2, h3⟩ := subS_exact hw a b ha.canonical hb.canonical
  rw [ha.signed, hb.signed] at h3
  exact ⟨r, h1, .of_signed h2 (by rw [h3]; omega)⟩

end Kryptos.Mp
