import Verif.Model.Ec
import Verif.Props.MpInv
import Verif.Props.MpReduce
import Verif.Lemmas.Pk
import Mathlib.Data.ZMod.Basic
import Mathlib.Algebra.Field.ZMod
/-
  Numbers with a sign through the steps of the point arithmetic, and reductions modulo a prime.
-/
namespace Kryptos.Ec
open Mp Spec.Mp

variable {w : Nat}

/-- A number in canonical form with a signed value. -/
def IsZ (a : Num w) (z : Int) : Prop := Canonical a ∧ signed a.neg (val a.data) = z

theorem _root_.Kryptos.Mp.Is.z {a : Num w} {n : Nat} (h : Is a n) : IsZ a n := ⟨h.canonical, h.signed⟩

theorem IsZ.is {a : Num w} {n : Nat} (h : IsZ a n) : Is a n := .of_signed h.1 h.2

theorem IsZ.add (hw : 8 ≤ w) {a b : Num w} {x y : Int} (ha : IsZ a x) (hb : IsZ b y) : ∃ r, addS a b = .ok r ∧ IsZ r (x + y) := by
  obtain ⟨r, h1, h2, h3⟩ := addS_exact hw a b ha.1 hb.1
  exact ⟨r, h1, h2, by rw [h3, ha.2, hb.2]⟩

theorem IsZ.sub (hw : 8 ≤ w) {a b : Num w} {x y : Int} (ha : IsZ a x) (hb : IsZ b y) : ∃ r, subS a b = .ok r ∧ IsZ r (x - y) := by
  obtain ⟨r, h1, h2, h3⟩ := subS_exact hw a b ha.1 hb.1
  exact ⟨r, h1, h2, by rw [h3, ha.2, hb.2]⟩

theorem IsZ.mul (hw : 8 ≤ w) {a b : Num w} {x y : Int} (ha : IsZ a x) (hb : IsZ b y) : ∃ r, mulS a b = .ok r ∧ IsZ r (x * y) := by
  obtain ⟨r, h1, h2, h3⟩ := mulS_exact hw a b ha.1 hb.1
  exact ⟨r, h1, h2, by rw [h3, ha.2, hb.2]⟩

theorem IsZ.assignNone (hw : 8 ≤ w) {a : Num w} {x : Int} (h : IsZ a x) : assign none a = a :=
  assign_none_eq hw a (List.length_pos_iff.2 h.1.1)

/-- The reduction of `z` modulo the number is right: no division is needed, or the one that is done is right. -/
def RedFine (w : Nat) (m : Num w) (z : Int) : Prop :=
  (z < 0 → DivFine w m (z.natAbs * (val m.data - 1))) ∧ (2 * (val m.data : Int) ≤ z → DivFine w m z.natAbs)

/-- A factor that a reduction leaves to the next one. -/
def FacOk (m : Num w) (f : Option (Num w)) (sh : Nat) : Prop :=
  ∀ g, f = some g → g.data ≠ [] ∧ g.neg = false ∧ val g.data * val m.data ≤ 2 ^ sh

theorem facOk_none (m : Num w) (sh : Nat) : FacOk m none sh := fun _ h => by cases h

theorem mod_run (hw : 16 ≤ w) {x m : Num w} {z : Int} {P : Nat} (hx : IsZ x z) (hm : Is m P) (hP : 1 < P) :
    ∃ r B, mod x m = .ok (some r) ∧ Is r B ∧ (B : Int) ≡ z [ZMOD P] ∧
      (DivFine w m (if z < 0 then z.natAbs * (P - 1) else z.natAbs) → B = (z % P).toNat) := by
  have hw8 : 8 ≤ w := by omega
  have hx2 := hx.2
  have hl := List.length_pos_iff.2 hx.1.1
  cases hn : x.neg with
  | true =>
    rw [hn] at hx2
    simp only [Spec.Mp.signed, if_true] at hx2
    have hxv := hx.1.2 hn
    have hz : z < 0 := by omega
    obtain ⟨n, hn'⟩ : ∃ n, n = z.natAbs := ⟨_, rfl⟩
    have hz' : z = -(n : Int) := by omega
    have i1 : Is (inv x) n := ⟨hl, by simp [inv, hn], by simp only [inv]; omega⟩
    obtain ⟨t, t1, t2⟩ := hm.sub hw8 (is_one (w := w) (by omega)) (by omega)
    obtain ⟨u, u1, u2⟩ := i1.mul hw8 t2
    obtain ⟨q, r, A, B, d1, -, d3, d4, d5⟩ := u2.div hw hm (by omega)
    have key : ((n * (P - 1) : Nat) : Int) ≡ z [ZMOD P] := by
      refine (Int.modEq_iff_dvd.2 ⟨-(n : Int), ?_⟩)
      rw [hz']
      push_cast [Nat.cast_sub (show 1 ≤ P by omega)]
      ring
    refine ⟨r, B, ?_, d3, ?_, ?_⟩
    · rw [mod, IsZ.assignNone hw8 hx, hn, hm.assignNone hw8]
      simp only [if_true, t1, u1, d1, Out.bind_ok, Option.map_some]
    · refine Int.ModEq.trans ?_ key
      rw [d4]
      push_cast
      exact (Int.modEq_iff_dvd.2 ⟨A, by ring⟩)
    · rw [if_pos hz, ← hn']
      intro h
      rw [d5 h]
      have := key
      rw [Int.ModEq] at this
      rw [← this, ← Int.natCast_mod, Int.toNat_natCast]
  | false =>
    rw [hn] at hx2
    simp only [Spec.Mp.signed, Bool.false_eq_true, if_false] at hx2
    have i1 : Is x z.natAbs := ⟨hl, hn, by omega⟩
    obtain ⟨q, r, A, B, d1, -, d3, d4, d5⟩ := i1.div hw hm (by omega)
    have hz : ((z.natAbs : Nat) : Int) = z := by omega
    refine ⟨r, B, ?_, d3, ?_, ?_⟩
    · rw [mod, IsZ.assignNone hw8 hx, hn]
      simp [d1]
    · rw [← hz, d4]
      push_cast
      exact (Int.modEq_iff_dvd.2 ⟨A, by ring⟩)
    · rw [if_neg (by omega)]
      intro h
      rw [d5 h, ← hz, ← Int.natCast_mod, Int.toNat_natCast, Int.natAbs_natCast]

theorem barrettMain_run (hw : 16 ≤ w) {x m f : Num w} {z : Int} {P sh : Nat} (hx : IsZ x z) (hm : Is m P) (hP : 1 < P)
    (hf : f.data ≠ [] ∧ f.neg = false ∧ val f.data * val m.data ≤ 2 ^ sh) :
    ∃ r B, barrettMain x f sh m = .ok (some r) ∧ Is r B ∧ (B : Int) ≡ z [ZMOD P] ∧ (RedFine w m z → B = (z % P).toNat) := by
  have hw8 : 8 ≤ w := by omega
  have hv := hm.2.2
  have hmd : m.data ≠ [] := List.ne_nil_of_length_pos hm.1
  have hm0 : val m.data ≠ 0 := by omega
  obtain ⟨q, hL, hq⟩ : ∃ q, Is (lsh (assign none m) 1) q ∧ q = 2 * P := ⟨_, by rw [hm.assignNone hw8]; exact hm.lsh hw8 1, by omega⟩
  have hx2 := hx.2
  obtain ⟨r, B, r1, r2, r3, r4⟩ := mod_run hw hx hm hP
  cases hn : x.neg with
  | true =>
    rw [hn] at hx2
    simp only [Spec.Mp.signed, if_true] at hx2
    have hxv := hx.1.2 hn
    refine ⟨r, B, by rw [barrettMain, hn]; simpa using r1, r2, r3, fun h => r4 ?_⟩
    rw [if_pos (by omega)]
    have := h.1 (by omega)
    rwa [hv] at this
  | false =>
    rw [hn] at hx2
    simp only [Spec.Mp.signed, Bool.false_eq_true, if_false] at hx2
    have i1 : Is x z.natAbs := ⟨List.length_pos_iff.2 hx.1.1, hn, by omega⟩
    by_cases hlt : z < 2 * P
    · obtain ⟨r, r1, r2⟩ := barrettMain_is hw8 x f m sh hx.1.1 hn hf.1 hf.2.1 hmd hm.2.1 hf.2.2 (by omega)
      have e : val x.data % val m.data = (z % P).toNat := by
        rw [hv, ← hx2, ← Int.natCast_mod, Int.toNat_natCast]
      refine ⟨r, _, r1, r2, ?_, fun _ => e⟩
      rw [hv, ← hx2]
      push_cast
      exact Int.mod_modEq _ _
    · refine ⟨r, B, ?_, r2, r3, fun h => r4 ?_⟩
      · rw [barrettMain, hn, i1.ge hL, decide_eq_true (by omega)]
        simpa using r1
      · rw [if_neg (by omega)]
        exact h.2 (by omega)

theorem barrett_run (hw : 16 ≤ w) {x m : Num w} {f : Option (Num w)} {z : Int} {P sh : Nat} (hx : IsZ x z) (hm : Is m P)
    (hP : 1 < P) (hf : FacOk m f sh) :
    ∃ r B f' sh', barrett x f sh m = .ok (some r, f', sh') ∧ FacOk m f' sh' ∧ Is r B ∧ (B : Int) ≡ z [ZMOD P] ∧
      (RedFine w m z → B = (z % P).toNat) := by
  have hm0 : val m.data ≠ 0 := by have := hm.2.2; omega
  cases f with
  | some g =>
    obtain ⟨r, B, r1, r2⟩ := barrettMain_run hw hx hm hP (hf g rfl)
    exact ⟨r, B, some g, sh, by rw [barrett, r1]; rfl, hf, r2⟩
  | none =>
    have hL := (is_one (w := w) (by omega)).lsh (by omega) (barrettShift m)
    rw [Nat.mul_one] at hL
    obtain ⟨q, q', A, B', d1, d2, -, d4, -⟩ := hL.div hw hm (by omega)
    have hfac : q.data ≠ [] ∧ q.neg = false ∧ val q.data * val m.data ≤ 2 ^ barrettShift m :=
      ⟨List.ne_nil_of_length_pos d2.1, d2.2.1, by rw [d2.2.2, hm.2.2, d4]; exact Nat.le_add_right _ _⟩
    obtain ⟨r, B, r1, r2⟩ := barrettMain_run hw hx hm hP hfac
    refine ⟨r, B, some q, barrettShift m, ?_, fun g hg => ?_, r2⟩
    · rw [barrett, hm.2.1, hm.isZero, decide_eq_false (by omega)]
      simp only [Bool.or_self, Bool.false_eq_true, if_false, if_neg (barrettShift_pos m hm0), d1, Out.bind_ok, r1]
    · rw [Option.some.injEq] at hg; exact hg ▸ hfac

theorem redFine_single {m : Num w} {P : Nat} (hm : Is m P) (hP : P ≠ 0) (h1 : m.data.length = 1) (z : Int) : RedFine w m z :=
  ⟨fun _ => divFine_single m (by rw [hm.2.2]; exact hP) h1 _, fun _ => divFine_single m (by rw [hm.2.2]; exact hP) h1 _⟩

theorem redFine_small (m : Num w) {z : Int} (h0 : 0 ≤ z) (h : z < 2 * val m.data) : RedFine w m z :=
  ⟨fun _ => by omega, fun _ => by omega⟩

/-! ## In the field -/

theorem toNat_zmod {P : Nat} [NeZero P] (z : Int) : (z % P).toNat = ((z : Int) : ZMod P).val := by
  have := ZMod.val_intCast (n := P) z
  omega

/-- A reduction gives the residue. -/
theorem red_run (hw : 16 ≤ w) {x m : Num w} {f : Option (Num w)} {z : Int} {P sh : Nat} [NeZero P] (hx : IsZ x z) (hm : Is m P)
    (hP : 1 < P) (hf : FacOk m f sh) (hr : RedFine w m z) :
    ∃ r f' sh', barrett x f sh m = .ok (some r, f', sh') ∧ FacOk m f' sh' ∧ Is r (z : ZMod P).val := by
  obtain ⟨r, B, f', sh', h1, h2, h3, -, h4⟩ := barrett_run hw hx hm hP hf
  rw [h4 hr, toNat_zmod] at h3
  exact ⟨r, f', sh', h1, h2, h3⟩

/-- The inverse modulo an odd prime. -/
theorem inv_run (hw : 8 ≤ w) {a m : Num w} {A P : Nat} [Fact P.Prime] (ha : Is a A) (hm : Is m P) (hodd : P % 2 = 1)
    (h0 : (A : ZMod P) ≠ 0) (fuel : Nat) (hf : A + P < fuel) :
    ∃ r, modinvRs fuel a m = .ok (some r) ∧ Is r ((A : ZMod P)⁻¹).val := by
  obtain ⟨r, h1, h2, h3, h4, h5, -⟩ := modinvRs_spec hw a m (List.ne_nil_of_length_pos ha.1) (List.ne_nil_of_length_pos hm.1)
    ha.2.1 hm.2.1 (by rw [hm.2.2]; exact hodd) fuel (by rw [ha.2.2, hm.2.2]; exact hf)
  rw [ha.2.2, hm.2.2] at h5
  rw [hm.2.2] at h3
  have hg : Nat.gcd A P = 1 := by
    refine Nat.Coprime.symm ((Nat.Prime.coprime_iff_not_dvd Fact.out).2 fun h => h0 ?_)
    rwa [ZMod.natCast_eq_zero_iff]
  have h6 := (ZMod.natCast_eq_natCast_iff _ _ _).2 (h5 hg)
  push_cast at h6
  refine ⟨r, h1, List.length_pos_iff.2 h4, h2, ?_⟩
  rw [← eq_inv_of_mul_eq_one_left h6, ZMod.val_natCast, Nat.mod_eq_of_lt h3]

end Kryptos.Ec
