import Verif.Lemmas.Ec
import Verif.Lemmas.Pratt
import Mathlib.AlgebraicGeometry.EllipticCurve.Affine.Point
/-
  The point arithmetic of src/kryptos_ec_utils.c is that of the group of an elliptic curve over a prime field, as Mathlib
  defines it.
-/
namespace Kryptos.Ec
open Mp Spec.Mp

variable {w : Nat}

/-- The curve `y² = x³ + a x + b` over the integers modulo `P`. -/
abbrev W (P A B : Nat) : WeierstrassCurve.Affine (ZMod P) := ⟨0, 0, 0, A, B⟩

variable {P A B : Nat}

/-- A pair of numbers represents a point: the pair of zeros the point at infinity, any other one its coordinates. -/
def Rep (pt : Point w) : (W P A B).Point → Prop
  | .zero => Is pt.x 0 ∧ Is pt.y 0
  | .some x y _ => Is pt.x x.val ∧ Is pt.y y.val

/-- The numbers of a curve: the modulus is odd, and the point with zero coordinates, which stands for infinity, is not on the
curve. -/
structure Fits (c : Curve w) (P A B : Nat) : Prop where
  p : Is c.p P
  a : Is c.a A
  odd : P % 2 = 1
  b : (B : ZMod P) ≠ 0

/-- The reductions of a doubling are right. -/
def DblFine (m : Num w) (A : Nat) (x y : ZMod P) : Prop :=
  let s := (3 * x ^ 2 + A) * (2 * y)⁻¹
  let u := s ^ 2 - 2 * x
  RedFine w m ((3 * (x.val * x.val) + A) * (2 * y)⁻¹.val) ∧ RedFine w m (s.val * s.val - x.val - x.val) ∧
    RedFine w m (s.val * (x.val - u.val) - y.val)

/-- The reductions of an addition of two points with different first coordinates are right. -/
def AddFine (m : Num w) (x y x' y' : ZMod P) : Prop :=
  let s := (y - y') * (x - x')⁻¹
  let u := s ^ 2 - x - x'
  RedFine w m (x.val - x'.val) ∧ RedFine w m ((y.val - y'.val) * (x - x')⁻¹.val) ∧ RedFine w m (s.val * s.val - x.val - x'.val) ∧
    RedFine w m ((x.val - u.val) * s.val - y.val)

theorem dblMain_run (hw : 16 ≤ w) [Fact P.Prime] {c : Curve w} {pt : Point w} {x y : ZMod P} (h : Fits c P A B)
    (hx : Is pt.x x.val) (hy : Is pt.y y.val) (hy0 : y ≠ 0) (hf : DblFine c.p A x y) (fuel : Nat) (hfu : 3 * P < fuel) :
    ∃ r, dblMain fuel pt c = .ok (some r) ∧
      Is r.x (((3 * x ^ 2 + A) * (2 * y)⁻¹) ^ 2 - 2 * x : ZMod P).val ∧
      Is r.y (((3 * x ^ 2 + A) * (2 * y)⁻¹) * (x - (((3 * x ^ 2 + A) * (2 * y)⁻¹) ^ 2 - 2 * x)) - y : ZMod P).val := by
  have hw8 : 8 ≤ w := by omega
  have hP : P.Prime := Fact.out
  have hP1 := hP.one_lt
  obtain ⟨f1, f2, f3⟩ := hf
  have i2 : IsZ (two : Num w) 2 := (is_two (w := w) (by omega)).z
  have i3 : IsZ (three : Num w) 3 := (show Is (three : Num w) 3 from ⟨by simp [three], rfl, by
    have : (3 : Nat) < 2 ^ w := lt_of_lt_of_le (by norm_num) (Nat.pow_le_pow_right (n := 2) (by omega) hw8)
    simp [three, val, Nat.mod_eq_of_lt this]⟩).z
  obtain ⟨t, t1, t2⟩ := i2.mul hw8 hy.z
  have t3 : Is t (2 * y.val) := t2.is
  have hne : ((2 * y.val : Nat) : ZMod P) = 2 * y := by push_cast; rw [ZMod.natCast_zmod_val]
  have h20 : (2 : ZMod P) ≠ 0 := by
    intro h2
    have : ((2 : Nat) : ZMod P) = 0 := by exact_mod_cast h2
    rw [ZMod.natCast_eq_zero_iff] at this
    have := Nat.le_of_dvd (by omega) this
    have := h.odd
    omega
  have hyv := ZMod.val_lt y
  obtain ⟨i, j1, j2⟩ := inv_run hw8 t3 h.p h.odd (by rw [hne]; exact mul_ne_zero h20 hy0) fuel (by omega)
  rw [hne] at j2
  obtain ⟨u, u1, u2⟩ := hx.z.mul hw8 hx.z
  obtain ⟨v, v1, v2⟩ := i3.mul hw8 u2
  obtain ⟨a, a1, a2⟩ := v2.add hw8 h.a.z
  obtain ⟨b, b1, b2⟩ := a2.mul hw8 j2.z
  obtain ⟨s, g, sh, s1, s2, s3⟩ := red_run hw b2 h.p hP1 (facOk_none _ 0) f1
  have es : ((((3 * ((x.val : Int) * x.val) + A) * ((2 * y)⁻¹.val : Int) : Int)) : ZMod P) = (3 * x ^ 2 + A) * (2 * y)⁻¹ := by
    push_cast
    simp only [ZMod.natCast_zmod_val]
    ring
  rw [es] at s3
  obtain ⟨l, hl⟩ : ∃ l, l = (3 * x ^ 2 + A) * (2 * y)⁻¹ := ⟨_, rfl⟩
  rw [← hl] at s3 f2 f3 ⊢
  obtain ⟨q, q1, q2⟩ := s3.z.mul hw8 s3.z
  obtain ⟨q', q3, q4⟩ := q2.sub hw8 hx.z
  obtain ⟨q'', q5, q6⟩ := q4.sub hw8 hx.z
  obtain ⟨rx, g', sh', r1, r2, r3⟩ := red_run hw q6 h.p hP1 s2 f2
  have ex : ((((l.val : Int) * l.val - x.val - x.val : Int)) : ZMod P) = l ^ 2 - 2 * x := by
    push_cast
    simp only [ZMod.natCast_zmod_val]
    ring
  rw [ex] at r3
  obtain ⟨d, d1, d2⟩ := hx.z.sub hw8 r3.z
  obtain ⟨e, e1, e2⟩ := s3.z.mul hw8 d2
  obtain ⟨k, k1, k2⟩ := e2.sub hw8 hy.z
  obtain ⟨ry, g'', sh'', z1, -, z3⟩ := red_run hw k2 h.p hP1 r2 f3
  have ey : ((((l.val : Int) * (x.val - (l ^ 2 - 2 * x).val) - y.val : Int)) : ZMod P) = l * (x - (l ^ 2 - 2 * x)) - y := by
    push_cast
    simp only [ZMod.natCast_zmod_val]
  rw [ey] at z3
  refine ⟨⟨rx, ry⟩, ?_, r3, z3⟩
  rw [dblMain]
  simp only [t1, j1, hx.assignNone hw8, s3.assignNone hw8, u1, v1, a1, b1, s1, q1, q3, q5, r1, d1, e1, k1, z1, Out.bind_ok]
  rfl

theorem addMain_run (hw : 16 ≤ w) [Fact P.Prime] {c : Curve w} {p q : Point w} {x y x' y' : ZMod P} (h : Fits c P A B)
    (hx : Is p.x x.val) (hy : Is p.y y.val) (hx' : Is q.x x'.val) (hy' : Is q.y y'.val) (hne : x ≠ x')
    (hf : AddFine c.p x y x' y') (t : Num w) (f : Option (Num w)) (sh : Nat) (hfac : FacOk c.p f sh) (fuel : Nat)
    (hfu : 3 * P < fuel) :
    ∃ r, addMain fuel p q c t f sh = .ok (some r) ∧
      Is r.x (((y - y') * (x - x')⁻¹) ^ 2 - x - x' : ZMod P).val ∧
      Is r.y ((x - (((y - y') * (x - x')⁻¹) ^ 2 - x - x')) * ((y - y') * (x - x')⁻¹) - y : ZMod P).val := by
  have hw8 : 8 ≤ w := by omega
  have hP : P.Prime := Fact.out
  have hP1 := hP.one_lt
  obtain ⟨f0, f1, f2, f3⟩ := hf
  obtain ⟨a, a1, a2⟩ := (hx.assignSome t).z.sub hw8 hx'.z
  obtain ⟨b, g1, sh1, b1, b2, b3⟩ := red_run hw a2 h.p hP1 hfac f0
  have eb : ((((x.val : Int) - x'.val : Int)) : ZMod P) = x - x' := by push_cast; simp only [ZMod.natCast_zmod_val]
  rw [eb] at b3
  have hlt := ZMod.val_lt (x - x')
  obtain ⟨i, i1, i2⟩ := inv_run hw8 b3 h.p h.odd (by rw [ZMod.natCast_zmod_val]; exact sub_ne_zero.2 hne) fuel (by omega)
  rw [ZMod.natCast_zmod_val] at i2
  obtain ⟨k, k1, k2⟩ := hy.z.sub hw8 hy'.z
  obtain ⟨l, l1, l2⟩ := k2.mul hw8 (i2.assignSome b).z
  obtain ⟨s, g2, sh2, s1, s2, s3⟩ := red_run hw l2 h.p hP1 b2 f1
  have es : (((((y.val : Int) - y'.val) * ((x - x')⁻¹.val : Int) : Int)) : ZMod P) = (y - y') * (x - x')⁻¹ := by
    push_cast; simp only [ZMod.natCast_zmod_val]
  rw [es] at s3
  obtain ⟨l, hl⟩ : ∃ l, l = (y - y') * (x - x')⁻¹ := ⟨_, rfl⟩
  rw [← hl] at s3 f2 f3 ⊢
  obtain ⟨o, q1, q2⟩ := s3.z.mul hw8 s3.z
  obtain ⟨o', q3, q4⟩ := q2.sub hw8 hx.z
  obtain ⟨o'', q5, q6⟩ := q4.sub hw8 hx'.z
  obtain ⟨rx, g', sh', r1, r2, r3⟩ := red_run hw q6 h.p hP1 s2 f2
  have ex : ((((l.val : Int) * l.val - x.val - x'.val : Int)) : ZMod P) = l ^ 2 - x - x' := by
    push_cast
    simp only [ZMod.natCast_zmod_val]
    ring
  rw [ex] at r3
  obtain ⟨d, d1, d2⟩ := hx.z.sub hw8 r3.z
  obtain ⟨e, e1, e2⟩ := d2.mul hw8 s3.z
  obtain ⟨m, m1, m2⟩ := e2.sub hw8 hy.z
  obtain ⟨ry, g'', sh'', z1, -, z3⟩ := red_run hw m2 h.p hP1 r2 f3
  have ey : (((((x.val : Int) - (l ^ 2 - x - x').val) * l.val - y.val : Int)) : ZMod P) = (x - (l ^ 2 - x - x')) * l - y := by
    push_cast
    simp only [ZMod.natCast_zmod_val]
  rw [ey] at z3
  refine ⟨⟨rx, ry⟩, ?_, r3, z3⟩
  rw [addMain]
  simp only [a1, b1, i1, k1, l1, s1, q1, q3, q5, r1, d1, e1, m1, z1, Out.bind_ok, hy.assignNone hw8, hx.assignNone hw8,
    s3.assignNone hw8, d2.assignNone hw8]
  rfl

/-! ## The group law -/

theorem setPoint_zero (hw : 8 ≤ w) : Rep (setPoint (zero : Num w) zero) (0 : (W P A B).Point) :=
  ⟨is_zero.assignOpt hw none, is_zero.assignOpt hw none⟩

/-- The reductions of the doubling of a point are right. -/
def DblFineP (m : Num w) : (W P A B).Point → Prop
  | .zero => True
  | .some x y _ => y ≠ 0 → DblFine m A x y

/-- The reductions of the addition of two points are right. -/
def AddFineP (m : Num w) : (W P A B).Point → (W P A B).Point → Prop
  | .some x y _, .some x' y' _ => (x ≠ x' → AddFine m x y x' y') ∧ (x = x' → y = y' → y ≠ 0 → DblFine m A x y)
  | _, _ => True

theorem two_ne {c : Curve w} (h : Fits c P A B) [Fact P.Prime] : (2 : ZMod P) ≠ 0 := by
  intro h2
  have hP : P.Prime := Fact.out
  have hP1 := hP.one_lt
  have : ((2 : Nat) : ZMod P) = 0 := by exact_mod_cast h2
  rw [ZMod.natCast_eq_zero_iff] at this
  have := Nat.le_of_dvd (by omega) this
  have := h.odd
  omega

theorem dbl_run (hw : 16 ≤ w) [Fact P.Prime] {c : Curve w} {pt : Point w} (h : Fits c P A B) (Q : (W P A B).Point) (hr : Rep pt Q)
    (hf : DblFineP c.p Q) (fuel : Nat) (hfu : 3 * P < fuel) :
    ∃ r, dbl fuel pt c = .ok (some r) ∧ Rep r (Q + Q) := by
  have hw8 : 8 ≤ w := by omega
  match Q, hr with
  | .zero, hr =>
    refine ⟨_, by rw [dbl, hr.2.eq is_zero, decide_eq_true rfl]; rfl, ?_⟩
    rw [← WeierstrassCurve.Affine.Point.zero_def, add_zero]
    exact setPoint_zero hw8
  | .some x y hn, hr =>
    by_cases hy : y = 0
    · refine ⟨_, by rw [dbl, hr.2.eq is_zero, decide_eq_true (by rw [hy, ZMod.val_zero])]; rfl, ?_⟩
      rw [WeierstrassCurve.Affine.Point.add_self_of_Y_eq (by simp [WeierstrassCurve.Affine.negY, hy])]
      exact setPoint_zero hw8
    · obtain ⟨r, r1, r2, r3⟩ := dblMain_run hw h hr.1 hr.2 hy (hf hy) fuel hfu
      refine ⟨r, by rw [dbl, hr.2.eq is_zero, decide_eq_false (by rwa [ZMod.val_eq_zero])]; exact r1, ?_⟩
      have hyn : y ≠ (W P A B).negY x y := by
        simp only [WeierstrassCurve.Affine.negY]
        intro he
        have : 2 * y = 0 := by linear_combination he
        exact (mul_ne_zero (two_ne h) hy) this
      rw [WeierstrassCurve.Affine.Point.add_self_of_Y_ne hyn]
      have hs : (W P A B).slope x x y y = (3 * x ^ 2 + A) * (2 * y)⁻¹ := by
        rw [WeierstrassCurve.Affine.slope_of_Y_ne rfl hyn, div_eq_mul_inv]
        simp only [WeierstrassCurve.Affine.negY]
        ring_nf
      simp only [Rep, WeierstrassCurve.Affine.addX, WeierstrassCurve.Affine.addY, WeierstrassCurve.Affine.negAddY,
        WeierstrassCurve.Affine.negY, hs]
      obtain ⟨l, hl⟩ : ∃ l, l = (3 * x ^ 2 + A) * (2 * y)⁻¹ := ⟨_, rfl⟩
      rw [← hl] at r2 r3 ⊢
      refine ⟨?_, ?_⟩
      · convert r2 using 2; ring
      · convert r3 using 2; ring

theorem ptModP_run (hw : 16 ≤ w) [NeZero P] {c : Curve w} {pt : Point w} {X Y : Nat} (h : Fits c P A B) (hP : 1 < P) (hx : Is pt.x X)
    (hy : Is pt.y Y) (fx : RedFine w c.p X) (fy : RedFine w c.p Y) :
    ∃ r, ptModP pt c.p = .ok (some r) ∧ Is r.x (X : ZMod P).val ∧ Is r.y (Y : ZMod P).val := by
  have hw8 : 8 ≤ w := by omega
  obtain ⟨a, f, sh, a1, a2, a3⟩ := red_run hw hx.z h.p hP (facOk_none _ 0) fx
  obtain ⟨b, f', sh', b1, b2, b3⟩ := red_run hw hy.z h.p hP a2 fy
  rw [Int.cast_natCast] at a3 b3
  refine ⟨⟨a, b⟩, ?_, a3, b3⟩
  rw [ptModP, hx.assignNone hw8, hy.assignNone hw8, a1, Out.bind_ok]
  simp only [b1, Out.bind_ok]
  rfl

theorem ptModP_rep (hw : 16 ≤ w) [Fact P.Prime] {c : Curve w} {pt : Point w} (h : Fits c P A B) (Q : (W P A B).Point) (hr : Rep pt Q) :
    ∃ r, ptModP pt c.p = .ok (some r) ∧ Rep r Q := by
  have hP : P.Prime := Fact.out
  have hP1 := hP.one_lt
  have hsm : ∀ n : Nat, n < P → RedFine w c.p n := fun n hn => redFine_small _ (by omega) (by rw [h.p.2.2]; omega)
  match Q, hr with
  | .zero, hr =>
    obtain ⟨r, r1, r2, r3⟩ := ptModP_run hw h hP1 hr.1 hr.2 (hsm 0 (by omega)) (hsm 0 (by omega))
    exact ⟨r, r1, by simpa using r2, by simpa using r3⟩
  | .some x y hn, hr =>
    obtain ⟨r, r1, r2, r3⟩ := ptModP_run hw h hP1 hr.1 hr.2 (hsm _ (ZMod.val_lt x)) (hsm _ (ZMod.val_lt y))
    rw [ZMod.natCast_zmod_val] at r2 r3
    exact ⟨r, r1, r2, r3⟩

theorem negY_run (hw : 16 ≤ w) [Fact P.Prime] {c : Curve w} {q : Point w} {y : ZMod P} (h : Fits c P A B) (hy : Is q.y y.val) :
    ∃ t f sh, negY q c = .ok (some t, f, sh) ∧ FacOk c.p f sh ∧ Is t (-y).val := by
  have hw8 : 8 ≤ w := by omega
  have hP : P.Prime := Fact.out
  have hlt := ZMod.val_lt y
  by_cases h0 : y = 0
  · refine ⟨zero, none, 0, by rw [negY, hy.eq is_zero, decide_eq_true (by rw [h0, ZMod.val_zero])]; rfl, facOk_none _ _, ?_⟩
    rw [h0, neg_zero, ZMod.val_zero]
    exact is_zero
  · obtain ⟨t, t1, t2⟩ := h.p.z.sub hw8 hy.z
    have : y.val ≠ 0 := by rwa [Ne, ZMod.val_eq_zero]
    obtain ⟨r, f, sh, r1, r2, r3⟩ := red_run hw t2 h.p hP.one_lt (facOk_none _ 0)
      (redFine_small _ (by omega) (by rw [h.p.2.2]; omega))
    refine ⟨r, f, sh, ?_, r2, ?_⟩
    · rw [negY, hy.eq is_zero, decide_eq_false this, h.p.assignNone hw8]
      simp only [Bool.false_eq_true, if_false, t1, Out.bind_ok, r1]
    · have e : ((((P : Int) - y.val : Int)) : ZMod P) = -y := by
        push_cast
        simp
      rwa [e] at r3

theorem not_origin {c : Curve w} (h : Fits c P A B) [Fact P.Prime] {x y : ZMod P} (hn : (W P A B).Nonsingular x y) :
    ¬ (x = 0 ∧ y = 0) := by
  rintro ⟨rfl, rfl⟩
  have := hn.1
  rw [WeierstrassCurve.Affine.equation_iff] at this
  refine h.b ?_
  simpa using this.symm

theorem addReduced_run (hw : 16 ≤ w) [Fact P.Prime] {c : Curve w} {p q : Point w} (h : Fits c P A B) (Q R : (W P A B).Point)
    (hq : Rep p Q) (hr : Rep q R) (hf : AddFineP c.p Q R) (fuel : Nat) (hfu : 3 * P < fuel) :
    ∃ r, addReduced fuel p q c = .ok (some r) ∧ Rep r (Q + R) := by
  have hw8 : 8 ≤ w := by omega
  match Q, R, hq, hr, hf with
  | .zero, R, hq, hr, _ =>
    refine ⟨setPoint q.x q.y, ?_, ?_⟩
    · rw [addReduced, hq.1.eq is_zero, hq.2.eq is_zero]; rfl
    · rw [← WeierstrassCurve.Affine.Point.zero_def, zero_add]
      match R, hr with
      | .zero, hr => exact ⟨hr.1.assignOpt hw8 none, hr.2.assignOpt hw8 none⟩
      | .some _ _ _, hr => exact ⟨hr.1.assignOpt hw8 none, hr.2.assignOpt hw8 none⟩
  | .some x y hn, .zero, hq, hr, _ =>
    have h0 := not_origin h hn
    refine ⟨setPoint p.x p.y, ?_, hq.1.assignOpt hw8 none, hq.2.assignOpt hw8 none⟩
    rw [addReduced, hq.1.eq is_zero, hq.2.eq is_zero, ← Bool.decide_and, decide_eq_false (by rwa [ZMod.val_eq_zero, ZMod.val_eq_zero]),
      hr.1.eq is_zero, hr.2.eq is_zero]
    rfl
  | .some x y hn, .some x' y' hn', hq, hr, hf =>
    have h0 := not_origin h hn
    have h0' := not_origin h hn'
    obtain ⟨t, f, sh, t1, t2, t3⟩ := negY_run hw h hr.2
    have inj : ∀ a b : ZMod P, (a.val = b.val) = (a = b) := fun a b => propext ⟨fun h => ZMod.val_injective P h, fun h => by rw [h]⟩
    have hneg : ∀ x y, (W P A B).negY x y = -y := fun x y => by simp [WeierstrassCurve.Affine.negY]
    rw [addReduced, hq.1.eq is_zero, hq.2.eq is_zero, ← Bool.decide_and, decide_eq_false (by rwa [ZMod.val_eq_zero, ZMod.val_eq_zero]),
      hr.1.eq is_zero, hr.2.eq is_zero, ← Bool.decide_and, decide_eq_false (by rwa [ZMod.val_eq_zero, ZMod.val_eq_zero]), t1,
      Out.bind_ok]
    dsimp only
    rw [hq.2.eq t3, hq.1.eq hr.1, hq.2.eq hr.2]
    simp only [Bool.false_eq_true, if_false, ← Bool.decide_and, decide_eq_true_eq, inj]
    by_cases c1 : y = -y' ∧ x = x'
    · refine ⟨_, by rw [if_pos c1]; rfl, ?_⟩
      rw [WeierstrassCurve.Affine.Point.add_of_Y_eq c1.2 (by rw [hneg]; exact c1.1)]
      exact setPoint_zero hw8
    · rw [if_neg c1]
      by_cases c2 : x = x' ∧ y = y'
      · rw [if_pos c2]
        obtain ⟨rfl, rfl⟩ := c2
        exact dbl_run hw h (.some x y hn) hq (fun hy => hf.2 rfl rfl hy) fuel hfu
      · rw [if_neg c2]
        have hx : x ≠ x' := by
          intro hx
          rcases WeierstrassCurve.Affine.Y_eq_of_X_eq hn.1 hn'.1 hx with e | e
          · exact c2 ⟨hx, e⟩
          · rw [hneg] at e; exact c1 ⟨e, hx⟩
        obtain ⟨r, r1, r2, r3⟩ := addMain_run hw h hq.1 hq.2 hr.1 hr.2 hx (hf.1 hx) t f sh t2 fuel hfu
        refine ⟨r, r1, ?_⟩
        rw [WeierstrassCurve.Affine.Point.add_of_X_ne hx]
        simp only [Rep, WeierstrassCurve.Affine.addX, WeierstrassCurve.Affine.addY, WeierstrassCurve.Affine.negAddY,
          WeierstrassCurve.Affine.negY, WeierstrassCurve.Affine.slope_of_X_ne hx, div_eq_mul_inv]
        obtain ⟨l, hl⟩ : ∃ l, l = (y - y') * (x - x')⁻¹ := ⟨_, rfl⟩
        rw [← hl] at r2 r3 ⊢
        refine ⟨?_, ?_⟩
        · convert r2 using 2; ring
        · convert r3 using 2; ring

theorem add_run (hw : 16 ≤ w) [Fact P.Prime] {c : Curve w} {p q : Point w} (h : Fits c P A B) (Q R : (W P A B).Point)
    (hq : Rep p Q) (hr : Rep q R) (hf : AddFineP c.p Q R) (fuel : Nat) (hfu : 3 * P < fuel) :
    ∃ r, add fuel p q c = .ok (some r) ∧ Rep r (Q + R) := by
  obtain ⟨a, a1, a2⟩ := ptModP_rep hw h Q hq
  obtain ⟨b, b1, b2⟩ := ptModP_rep hw h R hr
  obtain ⟨r, r1, r2⟩ := addReduced_run hw h Q R a2 b2 hf fuel hfu
  exact ⟨r, by rw [add, a1, Out.bind_ok]; simp only [b1, Out.bind_ok, r1], r2⟩

/-! ## Multiples -/

/-- The reductions in the steps of a multiplication are right. -/
def StepsFine [Fact P.Prime] (m : Num w) : List Bool → (W P A B).Point → (W P A B).Point → Prop
  | [], _, _ => True
  | b :: bs, Q, R => DblFineP m Q ∧ (b = true → AddFineP m R (Q + Q)) ∧ StepsFine m bs (Q + Q) (if b then R + (Q + Q) else R)

/-- The number with the given bits, lowest first. -/
def ofBits (bs : List Bool) : Nat := bs.foldr (fun b n => b.toNat + 2 * n) 0

theorem Rep.assignSome {pt : Point w} {Q : (W P A B).Point} (h : Rep pt Q) (a b : Num w) :
    Rep ⟨assign (some a) pt.x, assign (some b) pt.y⟩ Q := by
  match Q, h with
  | .zero, h => exact ⟨h.1.assignSome _, h.2.assignSome _⟩
  | .some _ _ _, h => exact ⟨h.1.assignSome _, h.2.assignSome _⟩

theorem Rep.setPoint (hw : 8 ≤ w) {pt : Point w} {Q : (W P A B).Point} (h : Rep pt Q) : Rep (setPoint pt.x pt.y) Q := by
  match Q, h with
  | .zero, h => exact ⟨h.1.assignOpt hw none, h.2.assignOpt hw none⟩
  | .some _ _ _, h => exact ⟨h.1.assignOpt hw none, h.2.assignOpt hw none⟩

theorem mulSteps_run (hw : 16 ≤ w) [Fact P.Prime] {c : Curve w} (h : Fits c P A B) (fuel : Nat) (hfu : 3 * P < fuel)
    (bs : List Bool) : ∀ {q r : Point w} (Q R : (W P A B).Point), Rep q Q → Rep r R → StepsFine c.p bs Q R →
    ∃ s, mulSteps fuel c bs q r = .ok (some s) ∧ Rep s (R + (2 * ofBits bs) • Q) := by
  induction bs with
  | nil =>
    intro q r Q R _ hr _
    exact ⟨r, rfl, by simpa [ofBits] using hr⟩
  | cons b bs ih =>
    intro q r Q R hq hr hf
    obtain ⟨t, t1, t2⟩ := dbl_run hw h Q hq hf.1 fuel hfu
    have hq' := t2.assignSome q.x q.y
    have e : (2 * ofBits (b :: bs)) • Q = b.toNat • (Q + Q) + (2 * ofBits bs) • (Q + Q) := by
      rw [← two_nsmul, smul_smul, smul_smul, ← add_smul]
      congr 1
      simp only [ofBits, List.foldr_cons]
      ring
    rw [mulSteps, t1, Out.bind_ok]
    cases b with
    | false =>
      obtain ⟨s, s1, s2⟩ := ih (Q + Q) R hq' hr hf.2.2
      refine ⟨s, s1, ?_⟩
      rw [e]
      simpa using s2
    | true =>
      obtain ⟨v, v1, v2⟩ := add_run hw h R (Q + Q) hr hq' (hf.2.1 rfl) fuel hfu
      obtain ⟨s, s1, s2⟩ := ih (Q + Q) (R + (Q + Q)) hq' (v2.assignSome r.x r.y) hf.2.2
      refine ⟨s, ?_, ?_⟩
      · simp only [if_true, v1, Out.bind_ok, s1]
      · rw [e]
        simpa [add_assoc] using s2

/-- The bits of a number after the lowest one, up to the highest that is set, and at least one. -/
def highBits (D : Nat) : List Bool := (List.range (max 1 (Nat.log2 D))).map fun i => D.testBit (i + 1)

theorem bits_reverse (d : Digits w) : (bitsMsb d).reverse = (List.range (w * d.length)).map (val d).testBit := by
  induction d with
  | nil => simp [bitsMsb]
  | cons x xs ih =>
    have : bitsMsb (x :: xs) = bitsMsb xs ++ (List.range w).reverse.map x.getLsbD := by simp [bitsMsb, List.flatMap_append]
    rw [this, List.reverse_append, ih, List.length_cons, Nat.mul_succ, Nat.add_comm, List.range_add, List.map_append, List.map_map,
      ← List.map_reverse, List.reverse_reverse]
    have hv : val (x :: xs) = 2 ^ w * val xs + x.toNat := by rw [val, Nat.add_comm]
    congr 1
    · refine List.map_congr_left fun i hi => ?_
      rw [hv, Nat.testBit_two_pow_mul_add _ x.isLt, if_pos (List.mem_range.1 hi), BitVec.testBit_toNat]
    · refine List.map_congr_left fun i _ => ?_
      simp only [Function.comp]
      rw [hv, Nat.testBit_two_pow_mul_add _ x.isLt, if_neg (by omega), Nat.add_sub_cancel_left]

theorem lead (D n : Nat) (h0 : D ≠ 0) (hlt : D < 2 ^ n) :
    (((List.range n).map D.testBit).reverse.dropWhile (· != true)).length = Nat.log2 D + 1 := by
  have hl : Nat.log2 D < n := (Nat.log2_lt h0).2 hlt
  obtain ⟨k, rfl⟩ : ∃ k, n = Nat.log2 D + 1 + k := ⟨n - Nat.log2 D - 1, by omega⟩
  rw [List.range_add, List.map_append, List.reverse_append, List.dropWhile_append_of_pos]
  · rw [List.range_succ, List.map_append, List.reverse_append]
    simp [Nat.testBit_log2 h0]
  · intro b hb
    simp only [List.mem_reverse, List.mem_map, List.mem_range] at hb
    obtain ⟨i, ⟨j, _, rfl⟩, rfl⟩ := hb
    rw [Nat.testBit_lt_two_pow]
    · rfl
    · exact lt_of_lt_of_le Nat.lt_log2_self (Nat.pow_le_pow_right (by omega) (by omega))

theorem ofBits_range (k : Nat) : ∀ D : Nat, ofBits ((List.range k).map D.testBit) = D % 2 ^ k := by
  induction k with
  | zero => intro D; simp [ofBits, Nat.mod_one]
  | succ k ih =>
    intro D
    have := ih (D / 2)
    rw [List.range_succ_eq_map, List.map_cons, List.map_map]
    have e : (Nat.testBit D ∘ Nat.succ) = (D / 2).testBit := by funext i; simp [Nat.testBit_succ]
    rw [e, ofBits, List.foldr_cons]
    rw [ofBits] at this
    rw [this, Nat.toNat_testBit, pow_zero, Nat.div_one, Nat.pow_succ', Nat.mod_mul]

theorem ofBits_high (D : Nat) : (D.testBit 0).toNat + 2 * ofBits (highBits D) = D := by
  have e : (fun i => D.testBit (i + 1)) = (D / 2).testBit := by funext i; rw [Nat.testBit_succ]
  have hlt : D / 2 < 2 ^ max 1 (Nat.log2 D) := by
    have h1 : D < 2 ^ (Nat.log2 D + 1) := Nat.lt_log2_self
    have h2 : 2 ^ (Nat.log2 D + 1) ≤ 2 ^ (max 1 (Nat.log2 D) + 1) := Nat.pow_le_pow_right (by omega) (by omega)
    rw [pow_succ 2 (max 1 _)] at h2
    omega
  rw [highBits, e, ofBits_range, Nat.mod_eq_of_lt hlt, Nat.toNat_testBit, pow_zero, Nat.div_one]
  omega

/-- The reductions of a multiplication by `D` are right. -/
def MulFine [Fact P.Prime] (m : Num w) (D : Nat) (Q : (W P A B).Point) : Prop :=
  StepsFine m (highBits D) Q (if D.testBit 0 then Q else 0)

/-- Part of C93. -/
theorem ec_mul_partial (hw : 16 ≤ w) [Fact P.Prime] {c : Curve w} {p : Point w} {d : Num w} {D : Nat} (h : Fits c P A B)
    (Q : (W P A B).Point) (hq : Rep p Q) (hd : Is d D) (hf : MulFine c.p D Q) (fuel : Nat) (hfu : 3 * P < fuel) :
    ∃ r, mul fuel p d c = .ok (some r) ∧ Rep r (D • Q) := by
  have hw8 : 8 ≤ w := by omega
  rw [mul, hd.eq is_zero]
  by_cases h0 : D = 0
  · refine ⟨_, by rw [decide_eq_true h0]; rfl, ?_⟩
    rw [h0, zero_nsmul]
    exact setPoint_zero hw8
  · rw [decide_eq_false h0]
    simp only [Bool.false_eq_true, if_false]
    have hl := hd.1
    have hlt := val_lt d.data
    have e := bits_reverse d.data
    have e2 := lead (val d.data) (w * d.data.length) (by rw [hd.2.2]; exact h0) hlt
    rw [← e, List.reverse_reverse] at e2
    rw [hd.2.2] at e e2 hlt
    have hn : 2 ≤ w * d.data.length := le_trans (by omega) (Nat.le_mul_of_pos_right w hl)
    obtain ⟨n, hn⟩ : ∃ n, w * d.data.length = n + 2 := ⟨w * d.data.length - 2, by omega⟩
    rw [hn, List.range_succ_eq_map, List.range_succ_eq_map] at e
    simp only [List.map_cons, List.map_map] at e
    rw [e, e2]
    have hL : Nat.log2 D < n + 2 := (Nat.log2_lt h0).2 (hn ▸ hlt)
    have hb : D.testBit (Nat.succ 0) :: ((List.range n).map (D.testBit ∘ Nat.succ ∘ Nat.succ)).take (Nat.log2 D + 1 - 2) = highBits D := by
      rw [highBits, show max 1 (Nat.log2 D) = (Nat.log2 D - 1) + 1 by omega, List.range_succ_eq_map, List.map_cons, List.map_map,
        ← List.map_take, List.take_range, show min (Nat.log2 D + 1 - 2) n = Nat.log2 D - 1 by omega]
      rfl
    have hr : Rep (if D.testBit 0 then setPoint p.x p.y else setPoint zero zero) (if D.testBit 0 then Q else 0) := by
      cases D.testBit 0
      · exact setPoint_zero hw8
      · exact hq.setPoint hw8
    obtain ⟨r, r1, r2⟩ := mulSteps_run hw h fuel hfu (highBits D) Q _ (hq.setPoint hw8) hr hf
    refine ⟨r, ?_, ?_⟩
    · rw [← hb] at r1
      exact r1
    · have : (if D.testBit 0 then Q else 0) + (2 * ofBits (highBits D)) • Q = D • Q := by
        conv_rhs => rw [← ofBits_high D]
        rw [add_smul]
        cases D.testBit 0 <;> simp
      rwa [this] at r2

/-! ## Moduli of one digit: nothing is left to assume -/

theorem dblFine_single {m : Num w} (hm : Is m P) (hP : P ≠ 0) (h1 : m.data.length = 1) (x y : ZMod P) : DblFine m A x y :=
  ⟨redFine_single hm hP h1 _, redFine_single hm hP h1 _, redFine_single hm hP h1 _⟩

theorem dblFineP_single {m : Num w} (hm : Is m P) (hP : P ≠ 0) (h1 : m.data.length = 1) (Q : (W P A B).Point) : DblFineP m Q := by
  match Q with
  | .zero => trivial
  | .some x y _ => exact fun _ => dblFine_single hm hP h1 x y

theorem addFineP_single {m : Num w} (hm : Is m P) (hP : P ≠ 0) (h1 : m.data.length = 1) (Q R : (W P A B).Point) :
    AddFineP m Q R := by
  match Q, R with
  | .zero, .zero => trivial
  | .zero, .some _ _ _ => trivial
  | .some _ _ _, .zero => trivial
  | .some x y _, .some x' y' _ =>
    exact ⟨fun _ => ⟨redFine_single hm hP h1 _, redFine_single hm hP h1 _, redFine_single hm hP h1 _, redFine_single hm hP h1 _⟩,
      fun _ _ _ => dblFine_single hm hP h1 x y⟩

theorem stepsFine_single [Fact P.Prime] {m : Num w} (hm : Is m P) (hP : P ≠ 0) (h1 : m.data.length = 1) (bs : List Bool) :
    ∀ Q R : (W P A B).Point, StepsFine m bs Q R := by
  induction bs with
  | nil => exact fun _ _ => trivial
  | cons b bs ih => exact fun Q R => ⟨dblFineP_single hm hP h1 Q, fun _ => addFineP_single hm hP h1 _ _, ih _ _⟩

variable [Fact P.Prime] {c : Curve w} {p q : Point w}

/-- **C93**, doubling, for a prime of one digit: `kryptos_ec_dbl` is the doubling of Mathlib's group of points. -/
theorem ec_dbl_single (hw : 16 ≤ w) (h : Fits c P A B) (h1 : c.p.data.length = 1) (Q : (W P A B).Point) (hq : Rep p Q) (fuel : Nat)
    (hfu : 3 * P < fuel) : ∃ r, dbl fuel p c = .ok (some r) ∧ Rep r (Q + Q) :=
  dbl_run hw h Q hq (dblFineP_single h.p (Fact.out : P.Prime).ne_zero h1 Q) fuel hfu

/-- **C93**, addition, for a prime of one digit. -/
theorem ec_add_single (hw : 16 ≤ w) (h : Fits c P A B) (h1 : c.p.data.length = 1) (Q R : (W P A B).Point) (hq : Rep p Q)
    (hr : Rep q R) (fuel : Nat) (hfu : 3 * P < fuel) : ∃ r, add fuel p q c = .ok (some r) ∧ Rep r (Q + R) :=
  add_run hw h Q R hq hr (addFineP_single h.p (Fact.out : P.Prime).ne_zero h1 Q R) fuel hfu

/-- **C93**, multiples, for a prime of one digit and a factor of any length: the `D`-fold sum. -/
theorem ec_mul_single (hw : 16 ≤ w) (h : Fits c P A B) (h1 : c.p.data.length = 1) {d : Num w} {D : Nat} (Q : (W P A B).Point)
    (hq : Rep p Q) (hd : Is d D) (fuel : Nat) (hfu : 3 * P < fuel) : ∃ r, mul fuel p d c = .ok (some r) ∧ Rep r (D • Q) :=
  ec_mul_partial hw h Q hq hd (stepsFine_single h.p (Fact.out : P.Prime).ne_zero h1 _ _ _) fuel hfu

/-- Part of C93, doubling, for any prime: the divisions of the three reductions must not meet an overflow of the guess. -/
theorem ec_dbl_partial (hw : 16 ≤ w) (h : Fits c P A B) (Q : (W P A B).Point) (hq : Rep p Q) (hf : DblFineP c.p Q) (fuel : Nat)
    (hfu : 3 * P < fuel) : ∃ r, dbl fuel p c = .ok (some r) ∧ Rep r (Q + Q) :=
  dbl_run hw h Q hq hf fuel hfu

/-- Part of C93, addition, for any prime. -/
theorem ec_add_partial (hw : 16 ≤ w) (h : Fits c P A B) (Q R : (W P A B).Point) (hq : Rep p Q) (hr : Rep q R)
    (hf : AddFineP c.p Q R) (fuel : Nat) (hfu : 3 * P < fuel) : ∃ r, add fuel p q c = .ok (some r) ∧ Rep r (Q + R) :=
  add_run hw h Q R hq hr hf fuel hfu

/-- A pair of numbers stands for at most one point. -/
theorem Rep.unique {c : Curve w} (h : Fits c P A B) {pt : Point w} {Q R : (W P A B).Point} (hq : Rep pt Q) (hr : Rep pt R) : Q = R := by
  match Q, R, hq, hr with
  | .zero, .zero, _, _ => rfl
  | .zero, .some x y hn, hq, hr =>
    have hx := hq.1.2.2.symm.trans hr.1.2.2
    have hy := hq.2.2.2.symm.trans hr.2.2.2
    exact absurd ⟨(ZMod.val_eq_zero x).1 hx.symm, (ZMod.val_eq_zero y).1 hy.symm⟩ (not_origin h hn)
  | .some x y hn, .zero, hq, hr =>
    have hx := hr.1.2.2.symm.trans hq.1.2.2
    have hy := hr.2.2.2.symm.trans hq.2.2.2
    exact absurd ⟨(ZMod.val_eq_zero x).1 hx.symm, (ZMod.val_eq_zero y).1 hy.symm⟩ (not_origin h hn)
  | .some x y hn, .some x' y' hn', hq, hr =>
    have hx := ZMod.val_injective P (hq.1.2.2.symm.trans hr.1.2.2)
    have hy := ZMod.val_injective P (hq.2.2.2.symm.trans hr.2.2.2)
    subst hx hy
    rfl

/-! ## Cases -/

section Cases

instance : Fact (Nat.Prime 17) := ⟨by norm_num⟩

/-- The curve `y² = x³ + 2x + 2` over the integers modulo 17. -/
def curve17 : Curve 32 := ⟨⟨[2], false⟩, ⟨[2], false⟩, ⟨[17], false⟩⟩

theorem fits17 : Fits curve17 17 2 2 :=
  ⟨⟨by decide, rfl, by decide⟩, ⟨by decide, rfl, by decide⟩, by norm_num, by decide⟩

theorem on17 : (W 17 2 2).Nonsingular 5 1 := by
  rw [WeierstrassCurve.Affine.nonsingular_iff, WeierstrassCurve.Affine.equation_iff]
  decide

/-- A case that meets the hypotheses of `ec_mul_single`, with what the code finds: `3 (5, 1) = (10, 6)`. -/
example : (∃ r, mul 52 ⟨⟨[5], false⟩, ⟨[1], false⟩⟩ ⟨[3], false⟩ curve17 = .ok (some r) ∧
      Rep r (3 • (.some 5 1 on17 : (W 17 2 2).Point))) ∧
    mul 52 ⟨⟨[5], false⟩, ⟨[1], false⟩⟩ ⟨[3], false⟩ curve17 = .ok (some ⟨⟨[10], false⟩, ⟨[6], false⟩⟩) :=
  ⟨ec_mul_single (p := ⟨⟨[5], false⟩, ⟨[1], false⟩⟩) (by norm_num) fits17 rfl (.some 5 1 on17)
    (show _ ∧ _ from ⟨⟨by decide, rfl, by decide⟩, ⟨by decide, rfl, by decide⟩⟩) ⟨by decide, rfl, by decide⟩ _ (by norm_num),
    by decide +kernel⟩

/-- **C93** needs `b` not to be zero.  On `y² = x³ + x` over the integers modulo 17 the pair of zeros is a point of order two;
the code takes it for infinity, and the sum with `(1, 6)`, which is `(1, 11)`, for `(1, 6)`. -/
theorem ec_add_origin_wrong : ∃ (h₁ : (W 17 1 0).Nonsingular 0 0) (h₂ : (W 17 1 0).Nonsingular 1 6),
    add 52 ⟨⟨[0], false⟩, ⟨[0], false⟩⟩ ⟨⟨[1], false⟩, ⟨[6], false⟩⟩ (⟨⟨[1], false⟩, ⟨[0], false⟩, ⟨[17], false⟩⟩ : Curve 32) =
      .ok (some ⟨⟨[1], false⟩, ⟨[6], false⟩⟩) ∧
    ¬ Rep (⟨⟨[1], false⟩, ⟨[6], false⟩⟩ : Point 32) ((.some 0 0 h₁ : (W 17 1 0).Point) + .some 1 6 h₂) := by
  refine ⟨?_, ?_, by decide +kernel, ?_⟩
  · rw [WeierstrassCurve.Affine.nonsingular_iff, WeierstrassCurve.Affine.equation_iff]; decide
  · rw [WeierstrassCurve.Affine.nonsingular_iff, WeierstrassCurve.Affine.equation_iff]; decide
  · intro h
    rw [WeierstrassCurve.Affine.Point.add_some (by simp)] at h
    have h2 := h.2.2.2
    rw [WeierstrassCurve.Affine.slope_of_X_ne (by simp)] at h2
    have e : ((0 : ZMod 17) - 6) / (0 - 1) = 6 := by rw [div_eq_iff (by decide)]; decide
    rw [e] at h2
    revert h2
    simp only [WeierstrassCurve.Affine.addX, WeierstrassCurve.Affine.addY, WeierstrassCurve.Affine.negAddY,
        WeierstrassCurve.Affine.negY]
    decide

theorem prime61 : Nat.Prime (2 ^ 61 - 1) := by
  refine Pratt.pratt _ 37 61 [2, 3, 3, 5, 5, 7, 11, 13, 31, 41, 61, 151, 331, 1321] ?_ (by norm_num) (by norm_num) (by norm_num)
    (by decide +kernel) (by decide +kernel)
  intro q hq
  simp only [List.mem_cons, List.not_mem_nil, or_false] at hq
  rcases hq with rfl | rfl | rfl | rfl | rfl | rfl | rfl | rfl | rfl | rfl | rfl | rfl | rfl | rfl <;> norm_num

instance : Fact (Nat.Prime (2 ^ 61 - 1)) := ⟨prime61⟩

/-- A curve over the integers modulo `2 ^ 61 - 1`, a prime of two digits, and a point of it. -/
def curve61 : Curve 32 := ⟨⟨[3926450931, 94343019], false⟩, ⟨[462481572, 12122195], false⟩, ⟨[4294967295, 536870911], false⟩⟩

def point61 : Point 32 := ⟨⟨[2556735616, 18622], false⟩, ⟨[1], false⟩⟩

theorem fits61 : Fits curve61 (2 ^ 61 - 1) 405200185137357555 52064431543216292 :=
  ⟨⟨by decide, rfl, by decide +kernel⟩, ⟨by decide, rfl, by decide +kernel⟩, by norm_num, by
    rw [Ne, ZMod.natCast_eq_zero_iff]
    norm_num⟩

theorem on61 : (W (2 ^ 61 - 1) 405200185137357555 52064431543216292).Nonsingular ((79983437721728 : Nat) : ZMod (2 ^ 61 - 1)) 1 := by
  rw [WeierstrassCurve.Affine.nonsingular_iff, WeierstrassCurve.Affine.equation_iff]
  constructor
  · have := (ZMod.natCast_eq_natCast_iff' 1 (79983437721728 ^ 3 + 405200185137357555 * 79983437721728 + 52064431543216292)
      (2 ^ 61 - 1)).2 (by norm_num)
    push_cast at this ⊢
    linear_combination this
  · right
    have h := two_ne fits61
    intro he
    refine h ?_
    simp only [] at he
    linear_combination he

/-- **C93** fails for primes of several digits: the reduction of the doubling of this point is not finished, and the first
coordinate of the result, of three digits, is not below the prime. -/
theorem ec_dbl_wrong : Rep point61 (.some _ _ on61) ∧
    ∃ r, dbl 400 point61 curve61 = .ok (some r) ∧ 2 ^ 61 - 1 < val r.x.data ∧
      ∀ Q : (W (2 ^ 61 - 1) 405200185137357555 52064431543216292).Point, ¬ Rep r Q := by
  refine ⟨⟨⟨by decide, rfl, ?_⟩, ⟨by decide, rfl, ?_⟩⟩, ⟨⟨[0x000000ff#32, 0x1ffffffe#32, 0x1fffffe0#32], false⟩,
    ⟨[0xc666f367#32, 0x1a991a3c#32], false⟩⟩, by decide +kernel, by decide +kernel, ?_⟩
  · rw [ZMod.val_natCast_of_lt (by norm_num)]
    decide +kernel
  · rw [ZMod.val_one]
    decide +kernel
  · intro Q hQ
    have hv : val ([0x000000ff#32, 0x1ffffffe#32, 0x1fffffe0#32] : Digits 32) = 9903519726293074841111101695 := by decide +kernel
    match Q, hQ with
    | .zero, hQ => exact absurd (hv.symm.trans hQ.1.2.2) (by norm_num)
    | .some x y _, hQ =>
      have := ZMod.val_lt x
      rw [← hQ.1.2.2] at this
      exact absurd this (by rw [hv]; norm_num)

end Cases

end Kryptos.Ec
