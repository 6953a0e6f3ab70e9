import Verif.Props.Ec
import Mathlib.Tactic.FieldSimp
/-
  Multiples of points of large curves, found by arithmetic with natural numbers in projective coordinates, for statements about the
  standard curves.  Nothing here is a model of the code.
-/
namespace Kryptos.EcJac
open Ec

variable {P A B : Nat} [Fact P.Prime]

/-- `(X, Y, Z)` stands for the point `(X / Z², Y / Z³)`. -/
def JRep (X Y Z : ZMod P) (Q : (W P A B).Point) : Prop :=
  Z ≠ 0 ∧ ∃ h : (W P A B).Nonsingular (X / Z ^ 2) (Y / Z ^ 3), Q = .some _ _ h

theorem JRep.of_eq {X Y Z x y : ZMod P} {Q : (W P A B).Point} {h : (W P A B).Nonsingular x y} (hQ : Q = .some x y h) (hZ : Z ≠ 0)
    (hx : x = X / Z ^ 2) (hy : y = Y / Z ^ 3) : JRep X Y Z Q := by
  subst hx hy
  exact ⟨hZ, h, hQ⟩

theorem jdbl {X Y Z : ZMod P} {Q : (W P A B).Point} (h : JRep X Y Z Q) (h2 : 2 * Y * Z ≠ 0) :
    JRep ((3 * X ^ 2 + (A : ZMod P) * Z ^ 4) ^ 2 - 2 * (4 * X * Y ^ 2))
      ((3 * X ^ 2 + (A : ZMod P) * Z ^ 4) * (4 * X * Y ^ 2 - ((3 * X ^ 2 + (A : ZMod P) * Z ^ 4) ^ 2 - 2 * (4 * X * Y ^ 2))) - 8 * Y ^ 4) (2 * Y * Z) (Q + Q) := by
  obtain ⟨hZ, hn, rfl⟩ := h
  have h20 : (2 : ZMod P) ≠ 0 := fun h => h2 (by rw [h]; ring)
  have hY : Y ≠ 0 := fun h => h2 (by rw [h]; ring)
  have hy : Y / Z ^ 3 ≠ 0 := div_ne_zero hY (pow_ne_zero _ hZ)
  have hyn : Y / Z ^ 3 ≠ (W P A B).negY (X / Z ^ 2) (Y / Z ^ 3) := by
    simp only [WeierstrassCurve.Affine.negY]
    intro he
    have : 2 * (Y / Z ^ 3) = 0 := by linear_combination he
    exact (mul_ne_zero h20 hy) this
  have hs : (W P A B).slope (X / Z ^ 2) (X / Z ^ 2) (Y / Z ^ 3) (Y / Z ^ 3) = (3 * X ^ 2 + (A : ZMod P) * Z ^ 4) / (2 * Y * Z) := by
    rw [WeierstrassCurve.Affine.slope_of_Y_ne rfl hyn]
    have e : Y / Z ^ 3 - (W P A B).negY (X / Z ^ 2) (Y / Z ^ 3) = 2 * (Y / Z ^ 3) := by
      simp only [WeierstrassCurve.Affine.negY]
      ring
    rw [e, div_eq_div_iff (mul_ne_zero h20 hy) h2]
    field_simp
    ring
  refine JRep.of_eq (WeierstrassCurve.Affine.Point.add_self_of_Y_ne hyn) h2 ?_ ?_
  · rw [hs, WeierstrassCurve.Affine.addX]
    field_simp
    ring
  · rw [hs]
    simp only [WeierstrassCurve.Affine.addY, WeierstrassCurve.Affine.negAddY, WeierstrassCurve.Affine.negY, WeierstrassCurve.Affine.addX]
    field_simp
    ring

theorem jadd {Y Z x y H : ZMod P} {Q : (W P A B).Point} (h : JRep (x * Z ^ 2 - H) Y Z Q) (hg : (W P A B).Nonsingular x y) (h2 : Z * H ≠ 0) :
    JRep ((y * Z ^ 3 - Y) ^ 2 - H ^ 3 - 2 * ((x * Z ^ 2 - H) * H ^ 2))
      ((y * Z ^ 3 - Y) * ((x * Z ^ 2 - H) * H ^ 2 - ((y * Z ^ 3 - Y) ^ 2 - H ^ 3 - 2 * ((x * Z ^ 2 - H) * H ^ 2))) - Y * H ^ 3) (Z * H)
      (Q + .some x y hg) := by
  obtain ⟨hZ, hn, rfl⟩ := h
  have hH : H ≠ 0 := fun h => h2 (by rw [h]; ring)
  have hx : (x * Z ^ 2 - H) / Z ^ 2 ≠ x := by
    intro h
    rw [div_eq_iff (pow_ne_zero _ hZ)] at h
    exact hH (by linear_combination -h)
  have hs : (W P A B).slope ((x * Z ^ 2 - H) / Z ^ 2) x (Y / Z ^ 3) y = (y * Z ^ 3 - Y) / (Z * H) := by
    rw [WeierstrassCurve.Affine.slope_of_X_ne hx, div_eq_div_iff (sub_ne_zero.2 hx) h2]
    field_simp
    ring
  refine JRep.of_eq (WeierstrassCurve.Affine.Point.add_of_X_ne hx) h2 ?_ ?_
  · rw [hs, WeierstrassCurve.Affine.addX]
    field_simp
    ring
  · rw [hs]
    simp only [WeierstrassCurve.Affine.addY, WeierstrassCurve.Affine.negAddY, WeierstrassCurve.Affine.negY, WeierstrassCurve.Affine.addX]
    field_simp
    ring

/-! ## With natural numbers -/

/-- A difference modulo `P` for a reduced number. -/
def subP (P a b : Nat) : Nat := (a + (P - b % P)) % P

/-- A doubling, followed by an addition of `(gx, gy)` for a set bit. -/
def step (P A gx gy : Nat) (bit : Nat) (X Y Z : Nat) (k : Nat → Nat → Nat → Bool) : Bool :=
  let YY := Y * Y % P
  let ZZ := Z * Z % P
  let S := 4 * X * YY % P
  let M := (3 * (X * X) + A * (ZZ * ZZ)) % P
  let X' := subP P (M * M) (2 * S)
  let Y' := subP P (M * subP P S X') (8 * (YY * YY))
  let Z' := 2 * Y * Z % P
  match bit with
  | 0 => k X' Y' Z'
  | _ =>
    let ZZ := Z' * Z' % P
    let H := subP P (gx * ZZ) X'
    let R := subP P (gy * (ZZ * Z' % P)) Y'
    let HH := H * H % P
    let HHH := H * HH % P
    let V := X' * HH % P
    let X3 := subP P (R * R) (HHH + 2 * V)
    k X3 (subP P (R * subP P V X3) (Y' * HHH)) (Z' * H % P)

/-- The multiple by the lowest `n` bits of `e`, from a point that stands for the higher ones. -/
def ladder (P A gx gy e : Nat) (fin : Nat → Nat → Nat → Bool) : Nat → Nat → Nat → Nat → Bool
  | 0, X, Y, Z => fin X Y Z
  | n + 1, X, Y, Z => step P A gx gy (e / 2 ^ n % 2) X Y Z (ladder P A gx gy e fin n)

theorem cast_subP (a b : Nat) : ((subP P a b : Nat) : ZMod P) = a - b := by
  have hP := (Fact.out : P.Prime).pos
  rw [subP, ZMod.natCast_mod, Nat.cast_add, Nat.cast_sub (Nat.mod_lt _ hP).le, ZMod.natCast_self, ZMod.natCast_mod]
  ring

theorem step_spec {gx gy bit X Y Z : Nat} {k : Nat → Nat → Nat → Bool} {Q : (W P A B).Point} (hb : bit < 2)
    (hg : (W P A B).Nonsingular gx gy) (hQ : (Z : ZMod P) ≠ 0 → JRep (X : ZMod P) Y Z Q) (h : step P A gx gy bit X Y Z k = true) :
    ∃ X' Y' Z' : Nat, k X' Y' Z' = true ∧ ((Z' : ZMod P) ≠ 0 → JRep (X' : ZMod P) Y' Z' (Q + Q + bit • .some _ _ hg)) := by
  have hd : ∀ X' Y' Z' : Nat, (X' : ZMod P) = (3 * X ^ 2 + A * Z ^ 4) ^ 2 - 2 * (4 * X * Y ^ 2) →
      (Y' : ZMod P) = (3 * X ^ 2 + A * Z ^ 4) * (4 * X * Y ^ 2 - ((3 * X ^ 2 + A * Z ^ 4) ^ 2 - 2 * (4 * X * Y ^ 2))) - 8 * Y ^ 4 →
      (Z' : ZMod P) = 2 * Y * Z → (Z' : ZMod P) ≠ 0 → JRep (X' : ZMod P) Y' Z' (Q + Q) := by
    intro X' Y' Z' e1 e2 e3 h0
    rw [e1, e2, e3]
    rw [e3] at h0
    exact jdbl (hQ fun h => h0 (by rw [h]; ring)) h0
  obtain rfl | rfl : bit = 0 ∨ bit = 1 := by omega
  · refine ⟨_, _, _, h, fun h0 => ?_⟩
    rw [zero_nsmul, add_zero]
    refine hd _ _ _ ?_ ?_ ?_ h0
    · simp only [cast_subP, Nat.cast_mul, Nat.cast_add, ZMod.natCast_mod]
      push_cast
      ring
    · simp only [cast_subP, Nat.cast_mul, Nat.cast_add, ZMod.natCast_mod]
      push_cast
      ring
    · simp only [Nat.cast_mul, ZMod.natCast_mod]
      push_cast
      ring
  · unfold step at h
    dsimp only at h
    obtain ⟨X', hX'⟩ : ∃ n, n = subP P ((3 * (X * X) + A * (Z * Z % P * (Z * Z % P))) % P * ((3 * (X * X) + A * (Z * Z % P * (Z * Z % P))) % P))
      (2 * (4 * X * (Y * Y % P) % P)) := ⟨_, rfl⟩
    rw [← hX'] at h
    obtain ⟨Y', hY'⟩ : ∃ n, n = subP P ((3 * (X * X) + A * (Z * Z % P * (Z * Z % P))) % P * subP P (4 * X * (Y * Y % P) % P) X')
      (8 * (Y * Y % P * (Y * Y % P))) := ⟨_, rfl⟩
    rw [← hY'] at h
    obtain ⟨Z', hZ'⟩ : ∃ n, n = 2 * Y * Z % P := ⟨_, rfl⟩
    rw [← hZ'] at h
    have e1 : (X' : ZMod P) = (3 * X ^ 2 + A * Z ^ 4) ^ 2 - 2 * (4 * X * Y ^ 2) := by
      rw [hX']
      simp only [cast_subP, Nat.cast_mul, Nat.cast_add, ZMod.natCast_mod]
      push_cast
      ring
    have e2 : (Y' : ZMod P) = (3 * X ^ 2 + A * Z ^ 4) * (4 * X * Y ^ 2 - ((3 * X ^ 2 + A * Z ^ 4) ^ 2 - 2 * (4 * X * Y ^ 2))) - 8 * Y ^ 4 := by
      rw [hY']
      simp only [cast_subP, Nat.cast_mul, Nat.cast_add, ZMod.natCast_mod, e1]
      push_cast
      ring
    have e3 : (Z' : ZMod P) = 2 * Y * Z := by
      rw [hZ']
      simp only [Nat.cast_mul, ZMod.natCast_mod]
      push_cast
      ring
    have hJ := hd X' Y' Z' e1 e2 e3
    clear hX' hY' hZ' e1 e2 e3 hd hQ
    refine ⟨_, _, _, h, fun h0 => ?_⟩
    simp only [cast_subP, Nat.cast_mul, Nat.cast_add, ZMod.natCast_mod] at h0 ⊢
    have hJ' := hJ fun h => h0 (by rw [h]; ring)
    have hx : (X' : ZMod P) = gx * Z' ^ 2 - (gx * Z' ^ 2 - X') := by ring
    rw [hx] at hJ'
    have := jadd hJ' hg (by
      intro h
      exact h0 (by linear_combination h))
    rw [one_nsmul]
    convert this using 1
    · push_cast; ring
    · push_cast; ring
    · ring

theorem ladder_spec {gx gy e : Nat} {fin : Nat → Nat → Nat → Bool} (hg : (W P A B).Nonsingular gx gy) (n : Nat) :
    ∀ (X Y Z : Nat) (Q : (W P A B).Point), ((Z : ZMod P) ≠ 0 → JRep (X : ZMod P) Y Z Q) → ladder P A gx gy e fin n X Y Z = true →
    ∃ X' Y' Z' : Nat, fin X' Y' Z' = true ∧ ((Z' : ZMod P) ≠ 0 → JRep (X' : ZMod P) Y' Z' (2 ^ n • Q + (e % 2 ^ n) • .some _ _ hg)) := by
  induction n with
  | zero =>
    intro X Y Z Q hQ h
    refine ⟨X, Y, Z, h, ?_⟩
    rwa [pow_zero, one_nsmul, Nat.mod_one, zero_nsmul, add_zero]
  | succ n ih =>
    intro X Y Z Q hQ h
    obtain ⟨X', Y', Z', h1, h2⟩ := step_spec (Nat.mod_lt _ (by omega)) hg hQ h
    obtain ⟨X3, Y3, Z3, h3, h4⟩ := ih X' Y' Z' _ h2 h1
    refine ⟨X3, Y3, Z3, h3, ?_⟩
    have : 2 ^ (n + 1) • Q + (e % 2 ^ (n + 1)) • (.some _ _ hg : (W P A B).Point) =
        2 ^ n • (Q + Q + (e / 2 ^ n % 2) • .some _ _ hg) + (e % 2 ^ n) • .some _ _ hg := by
      rw [nsmul_add, ← two_nsmul, ← mul_nsmul', ← mul_nsmul', add_assoc, ← add_nsmul, ← pow_succ, Nat.mod_pow_succ, Nat.add_comm (2 ^ n * _)]
    rwa [this]

/-- The multiple by `e` of the point `(gx, gy)`, for the bits below the highest one. -/
def mulIs (P A gx gy e : Nat) (fin : Nat → Nat → Nat → Bool) : Bool :=
  ladder P A gx gy e (fun X Y Z => !(Nat.beq (Z % P) 0) && fin X Y Z) (Nat.log2 e) gx gy 1

theorem mulIs_spec {gx gy e : Nat} {fin : Nat → Nat → Nat → Bool} (hg : (W P A B).Nonsingular gx gy) (he : e ≠ 0)
    (h : mulIs P A gx gy e fin = true) :
    ∃ X Y Z : Nat, fin X Y Z = true ∧ (Z : ZMod P) ≠ 0 ∧ JRep (X : ZMod P) Y Z (e • (.some _ _ hg : (W P A B).Point)) := by
  have h1 : JRep ((gx : Nat) : ZMod P) gy ((1 : Nat) : ZMod P) (.some _ _ hg : (W P A B).Point) :=
    JRep.of_eq rfl (by rw [Nat.cast_one]; exact one_ne_zero) (by simp) (by simp)
  obtain ⟨X, Y, Z, h2, h3⟩ := ladder_spec hg (Nat.log2 e) gx gy 1 _ (fun _ => h1) h
  simp only [Bool.and_eq_true, Bool.not_eq_true'] at h2
  have hz : (Z : ZMod P) ≠ 0 := by
    intro hz
    rw [ZMod.natCast_eq_zero_iff] at hz
    have := h2.1
    rw [Nat.mod_eq_zero_of_dvd hz] at this
    simp at this
  refine ⟨X, Y, Z, h2.2, hz, ?_⟩
  have := h3 hz
  rw [← add_nsmul] at this
  have e2 : 2 ^ Nat.log2 e + e % 2 ^ Nat.log2 e = e := by
    have h5 : 2 ^ Nat.log2 e ≤ e := Nat.log2_self_le he
    have h6 : e < 2 ^ (Nat.log2 e + 1) := Nat.lt_log2_self
    rw [pow_succ] at h6
    rw [Nat.mod_eq_sub_mod h5, Nat.mod_eq_of_lt (by omega)]
    omega
  rwa [e2] at this

/-- The last point is the opposite of the first one. -/
def orderCheck (P A gx gy q : Nat) : Bool :=
  mulIs P A gx gy (q - 1) fun X Y Z => Nat.beq (X % P) (gx * (Z * Z) % P) && Nat.beq ((Y + gy * (Z * Z * Z)) % P) 0

theorem order_of_check {gx gy q : Nat} (hg : (W P A B).Nonsingular gx gy) (hq : 1 < q) (h : orderCheck P A gx gy q = true) :
    q • (.some _ _ hg : (W P A B).Point) = 0 := by
  obtain ⟨X, Y, Z, h1, h2, -, h3, h4⟩ := mulIs_spec hg (by omega) h
  simp only [Bool.and_eq_true, Nat.beq_eq] at h1
  have e1 : (X : ZMod P) = gx * Z ^ 2 := by
    have := (ZMod.natCast_eq_natCast_iff' X (gx * (Z * Z)) P).2 h1.1
    rw [this]
    push_cast
    ring
  have e2 : (Y : ZMod P) + gy * Z ^ 3 = 0 := by
    have := (ZMod.natCast_eq_zero_iff (Y + gy * (Z * Z * Z)) P).2 (Nat.dvd_of_mod_eq_zero h1.2)
    push_cast at this
    linear_combination this
  have e3 : (X : ZMod P) / Z ^ 2 = gx := by rw [e1]; field_simp
  have e4 : (Y : ZMod P) / Z ^ 3 = -gy := by
    rw [div_eq_iff (pow_ne_zero _ h2)]
    linear_combination e2
  obtain ⟨m, rfl⟩ : ∃ m, q = m + 1 := ⟨q - 1, by omega⟩
  rw [Nat.add_sub_cancel] at h4
  rw [succ_nsmul, h4]
  exact WeierstrassCurve.Affine.Point.add_of_Y_eq e3 (by rw [e4]; simp [WeierstrassCurve.Affine.negY])

/-- The multiple is not the point at infinity. -/
theorem ne_zero_of_check {gx gy e : Nat} (hg : (W P A B).Nonsingular gx gy) (he : e ≠ 0)
    (h : mulIs P A gx gy e (fun _ _ _ => true) = true) : e • (.some _ _ hg : (W P A B).Point) ≠ 0 := by
  obtain ⟨X, Y, Z, -, h2, -, h3, h4⟩ := mulIs_spec hg he h
  rw [h4]
  exact WeierstrassCurve.Affine.Point.some_ne_zero _

end Kryptos.EcJac
