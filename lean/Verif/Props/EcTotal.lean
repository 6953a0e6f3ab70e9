import Verif.Props.Ecdh
import Verif.Props.Elgamal
/-
  The point arithmetic ends with a result for every odd modulus, whatever the numbers are (prime or not, on a curve or not, reduced or
  not), and what that means for the documents a peer may send in an ECDH exchange (C96).
-/
namespace Kryptos.Ec
open Mp Spec.Mp

variable {w : Nat}

/-- Some number that is not negative. -/
def Any (a : Num w) : Prop := ∃ n, Is a n

/-- A pair of such numbers. -/
def AnyPt (p : Point w) : Prop := Any p.x ∧ Any p.y

theorem Any.assignOpt (hw : 8 ≤ w) {a : Num w} (h : Any a) (d : Option (Num w)) : Any (assign d a) := by
  obtain ⟨n, h⟩ := h
  exact ⟨n, h.assignOpt hw d⟩

theorem any_zero : Any (zero : Num w) := ⟨0, is_zero⟩

theorem AnyPt.setPoint (hw : 8 ≤ w) {p : Point w} (h : AnyPt p) : AnyPt (setPoint p.x p.y) := ⟨h.1.assignOpt hw none, h.2.assignOpt hw none⟩

theorem anyPt_zero (hw : 8 ≤ w) : AnyPt (Ec.setPoint (zero : Num w) zero) := ⟨any_zero.assignOpt hw none, any_zero.assignOpt hw none⟩

/-- More fuel does not change the end of the loop. -/
theorem rsLoop_mono (m : Num w) (f : Nat) : ∀ (u v r s : Num w) (x : Num w × Num w), rsLoop m f u v r s = .ok (some x) →
    rsLoop m (f + 1) u v r s = .ok (some x) := by
  induction f with
  | zero => intro u v r s x h; simp [rsLoop] at h
  | succ f ih =>
    intro u v r s x h
    rw [rsLoop] at h
    rw [rsLoop]
    split at h
    · rename_i hz; rw [if_pos hz]; exact h
    · rename_i hz
      rw [if_neg hz]
      cases hu : isOdd u with
      | ub => rw [hu] at h; cases h
      | ok ou =>
        rw [hu, Out.bind_ok] at h
        rw [Out.bind_ok]
        cases ou with
        | false =>
          simp only [Bool.not_false, if_true] at h ⊢
          cases h1 : isOdd r with
          | ub => rw [h1] at h; cases h
          | ok o =>
            rw [h1, Out.bind_ok] at h
            rw [Out.bind_ok]
            cases h2 : (if (!o) = true then Out.ok r else addS r m) with
            | ub => rw [h2] at h; cases h
            | ok r' => rw [h2, Out.bind_ok] at h; rw [Out.bind_ok]; exact ih _ _ _ _ _ h
        | true =>
          simp only [Bool.not_true, Bool.false_eq_true, if_false] at h ⊢
          cases hv : isOdd v with
          | ub => rw [hv] at h; cases h
          | ok ov =>
            rw [hv, Out.bind_ok] at h
            rw [Out.bind_ok]
            cases ov with
            | false =>
              simp only [Bool.not_false, if_true] at h ⊢
              cases h1 : isOdd s with
              | ub => rw [h1] at h; cases h
              | ok o =>
                rw [h1, Out.bind_ok] at h
                rw [Out.bind_ok]
                cases h2 : (if (!o) = true then Out.ok s else addS s m) with
                | ub => rw [h2] at h; cases h
                | ok r' => rw [h2, Out.bind_ok] at h; rw [Out.bind_ok]; exact ih _ _ _ _ _ h
            | true =>
              simp only [Bool.not_true, Bool.false_eq_true, if_false] at h ⊢
              split at h
              · rename_i hg
                rw [if_pos hg]
                cases h1 : subS u v with
                | ub => rw [h1] at h; cases h
                | ok u' =>
                  rw [h1, Out.bind_ok] at h
                  rw [Out.bind_ok]
                  cases h2 : subS r s with
                  | ub => rw [h2] at h; cases h
                  | ok r' =>
                    rw [h2, Out.bind_ok] at h
                    rw [Out.bind_ok]
                    cases h3 : (if r'.neg = true then addS r' m else Out.ok r') with
                    | ub => rw [h3] at h; cases h
                    | ok r'' => rw [h3, Out.bind_ok] at h; rw [Out.bind_ok]; exact ih _ _ _ _ _ h
              · rename_i hg
                rw [if_neg hg]
                cases h1 : subS v u with
                | ub => rw [h1] at h; cases h
                | ok u' =>
                  rw [h1, Out.bind_ok] at h
                  rw [Out.bind_ok]
                  cases h2 : subS s r with
                  | ub => rw [h2] at h; cases h
                  | ok r' =>
                    rw [h2, Out.bind_ok] at h
                    rw [Out.bind_ok]
                    cases h3 : (if r'.neg = true then addS r' m else Out.ok r') with
                    | ub => rw [h3] at h; cases h
                    | ok r'' => rw [h3, Out.bind_ok] at h; rw [Out.bind_ok]; exact ih _ _ _ _ _ h

theorem rsLoop_le (m : Num w) {f g : Nat} (hfg : f ≤ g) {u v r s : Num w} {x : Num w × Num w} (h : rsLoop m f u v r s = .ok (some x)) :
    rsLoop m g u v r s = .ok (some x) := by
  obtain ⟨k, rfl⟩ := Nat.exists_eq_add_of_le hfg
  clear hfg
  induction k with
  | zero => exact h
  | succ k ih => exact rsLoop_mono m _ _ _ _ _ _ ih

/-- The inverse ends for every odd modulus, also for numbers without an inverse. -/
theorem modinvRs_any (hw : 8 ≤ w) {a m : Num w} {P : Nat} (ha : Any a) (hm : Is m P) (ho : P % 2 = 1) :
    ∃ r f0, (∀ f, f0 ≤ f → modinvRs f a m = .ok (some r)) ∧ Any r := by
  obtain ⟨A, ha⟩ := ha
  obtain ⟨r, h1, h2, h3, h4, -⟩ := modinvRs_spec hw a m ha.ne_nil hm.ne_nil ha.2.1 hm.2.1 (by rw [hm.2.2]; exact ho) (A + P + 1)
    (by rw [ha.2.2, hm.2.2]; omega)
  refine ⟨r, A + P + 1, fun f hf => ?_, val r.data, Is.intro h4 h2⟩
  rw [modinvRs] at h1 ⊢
  cases hl : rsLoop m (A + P + 1) (assign none m) (assign none a) zero one with
  | ub => rw [hl] at h1; cases h1
  | ok o =>
    rw [hl, Out.bind_ok] at h1
    cases o with
    | none => cases h1
    | some x => rw [rsLoop_le m hf hl, Out.bind_ok]; exact h1

variable {P : Nat}

theorem dblMain_any (hw : 16 ≤ w) {c : Curve w} {pt : Point w} (hp : Is c.p P) (ha : Any c.a) (ho : P % 2 = 1) (hP : 1 < P)
    (h : AnyPt pt) : ∃ r f0, (∀ f, f0 ≤ f → dblMain f pt c = .ok (some r)) ∧ AnyPt r := by
  have hw8 : 8 ≤ w := by omega
  obtain ⟨⟨X, hx⟩, ⟨Y, hy⟩⟩ := h
  obtain ⟨A, ha⟩ := ha
  have i2 : IsZ (two : Num w) 2 := (is_two (w := w) (by omega)).z
  have i3 : IsZ (three : Num w) 3 := (show Is (three : Num w) 3 from ⟨by simp [three], rfl, by
    have : (3 : Nat) < 2 ^ w := lt_of_lt_of_le (by norm_num) (Nat.pow_le_pow_right (n := 2) (by omega) hw8)
    simp [three, val, Nat.mod_eq_of_lt this]⟩).z
  obtain ⟨t, t1, t2⟩ := i2.mul hw8 hy.z
  have t3 : Is t (2 * Y) := by
    have : IsZ t ((2 * Y : Nat) : Int) := by rw [Nat.cast_mul]; exact t2
    exact this.is
  obtain ⟨i, f0, j1, I, j2⟩ := modinvRs_any hw8 ⟨_, t3⟩ hp ho
  obtain ⟨u, u1, u2⟩ := hx.z.mul hw8 hx.z
  obtain ⟨v, v1, v2⟩ := i3.mul hw8 u2
  obtain ⟨a, a1, a2⟩ := v2.add hw8 ha.z
  obtain ⟨b, b1, b2⟩ := a2.mul hw8 j2.z
  obtain ⟨s, S, g, sh, s1, s2, s3, -⟩ := barrett_run hw b2 hp hP (facOk_none _ 0)
  obtain ⟨q, q1, q2⟩ := s3.z.mul hw8 s3.z
  obtain ⟨q', q3, q4⟩ := q2.sub hw8 hx.z
  obtain ⟨q'', q5, q6⟩ := q4.sub hw8 hx.z
  obtain ⟨rx, RX, g', sh', r1, r2, r3, -⟩ := barrett_run hw q6 hp hP s2
  obtain ⟨d, d1, d2⟩ := hx.z.sub hw8 r3.z
  obtain ⟨e, e1, e2⟩ := s3.z.mul hw8 d2
  obtain ⟨k, k1, k2⟩ := e2.sub hw8 hy.z
  obtain ⟨ry, RY, g'', sh'', z1, -, z3, -⟩ := barrett_run hw k2 hp hP r2
  refine ⟨⟨rx, ry⟩, f0, fun f hf => ?_, ⟨_, r3⟩, ⟨_, z3⟩⟩
  rw [dblMain]
  simp only [t1, j1 f hf, hx.assignNone hw8, s3.assignNone hw8, u1, v1, a1, b1, s1, q1, q3, q5, r1, d1, e1, k1, z1, Out.bind_ok]
  rfl

theorem dbl_any (hw : 16 ≤ w) {c : Curve w} {pt : Point w} (hp : Is c.p P) (ha : Any c.a) (ho : P % 2 = 1) (hP : 1 < P)
    (h : AnyPt pt) : ∃ r f0, (∀ f, f0 ≤ f → dbl f pt c = .ok (some r)) ∧ AnyPt r := by
  simp only [dbl]
  split
  · exact ⟨_, 0, fun _ _ => rfl, anyPt_zero (by omega)⟩
  · exact dblMain_any hw hp ha ho hP h

theorem addMain_any (hw : 16 ≤ w) {c : Curve w} {p q : Point w} (hp : Is c.p P) (ho : P % 2 = 1) (hP : 1 < P)
    (h1 : AnyPt p) (h2 : AnyPt q) (t : Num w) (f : Option (Num w)) (sh : Nat) (hfac : FacOk c.p f sh) :
    ∃ r f0, (∀ fuel, f0 ≤ fuel → addMain fuel p q c t f sh = .ok (some r)) ∧ AnyPt r := by
  have hw8 : 8 ≤ w := by omega
  obtain ⟨⟨X, hx⟩, ⟨Y, hy⟩⟩ := h1
  obtain ⟨⟨X', hx'⟩, ⟨Y', hy'⟩⟩ := h2
  obtain ⟨a, a1, a2⟩ := (hx.assignSome t).z.sub hw8 hx'.z
  obtain ⟨b, B, g1, sh1, b1, b2, b3, -⟩ := barrett_run hw a2 hp hP hfac
  obtain ⟨i, f0, i1, I, i2⟩ := modinvRs_any hw8 ⟨_, b3⟩ hp ho
  obtain ⟨k, k1, k2⟩ := hy.z.sub hw8 hy'.z
  obtain ⟨l, l1, l2⟩ := k2.mul hw8 (i2.assignSome b).z
  obtain ⟨s, S, g2, sh2, s1, s2, s3, -⟩ := barrett_run hw l2 hp hP b2
  obtain ⟨o, q1, q2⟩ := s3.z.mul hw8 s3.z
  obtain ⟨o', q3, q4⟩ := q2.sub hw8 hx.z
  obtain ⟨o'', q5, q6⟩ := q4.sub hw8 hx'.z
  obtain ⟨rx, RX, g', sh', r1, r2, r3, -⟩ := barrett_run hw q6 hp hP s2
  obtain ⟨d, d1, d2⟩ := hx.z.sub hw8 r3.z
  obtain ⟨e, e1, e2⟩ := d2.mul hw8 s3.z
  obtain ⟨m, m1, m2⟩ := e2.sub hw8 hy.z
  obtain ⟨ry, RY, g'', sh'', z1, -, z3, -⟩ := barrett_run hw m2 hp hP r2
  refine ⟨⟨rx, ry⟩, f0, fun fuel hf => ?_, ⟨_, r3⟩, ⟨_, z3⟩⟩
  rw [addMain]
  simp only [a1, b1, i1 fuel hf, k1, l1, s1, q1, q3, q5, r1, d1, e1, m1, z1, Out.bind_ok, hy.assignNone hw8, hx.assignNone hw8,
    s3.assignNone hw8, d2.assignNone hw8]
  rfl

theorem ptModP_any (hw : 16 ≤ w) {c : Curve w} {pt : Point w} (hp : Is c.p P) (hP : 1 < P) (h : AnyPt pt) :
    ∃ r, ptModP pt c.p = .ok (some r) ∧ AnyPt r := by
  have hw8 : 8 ≤ w := by omega
  obtain ⟨⟨X, hx⟩, ⟨Y, hy⟩⟩ := h
  obtain ⟨a, A, f, sh, a1, a2, a3, -⟩ := barrett_run hw hx.z hp hP (facOk_none _ 0)
  obtain ⟨b, B, f', sh', b1, b2, b3, -⟩ := barrett_run hw hy.z hp hP a2
  refine ⟨⟨a, b⟩, ?_, ⟨_, a3⟩, ⟨_, b3⟩⟩
  rw [ptModP, hx.assignNone hw8, hy.assignNone hw8, a1, Out.bind_ok]
  simp only [b1, Out.bind_ok]
  rfl

theorem negY_any (hw : 16 ≤ w) {c : Curve w} {q : Point w} (hp : Is c.p P) (hP : 1 < P) (h : AnyPt q) :
    ∃ t f sh, negY q c = .ok (some t, f, sh) ∧ FacOk c.p f sh := by
  have hw8 : 8 ≤ w := by omega
  obtain ⟨-, ⟨Y, hy⟩⟩ := h
  rw [negY]
  split
  · exact ⟨_, _, _, rfl, facOk_none _ _⟩
  · obtain ⟨t, t1, t2⟩ := hp.z.sub hw8 hy.z
    obtain ⟨r, R, f, sh, r1, r2, -⟩ := barrett_run hw t2 hp hP (facOk_none _ 0)
    exact ⟨r, f, sh, by rw [hp.assignNone hw8, t1, Out.bind_ok, r1], r2⟩

/-- An addition ends with a result for every odd modulus above 1. -/
theorem add_any (hw : 16 ≤ w) {c : Curve w} {p q : Point w} (hp : Is c.p P) (ha : Any c.a) (ho : P % 2 = 1) (hP : 1 < P)
    (h1 : AnyPt p) (h2 : AnyPt q) : ∃ r f0, (∀ fuel, f0 ≤ fuel → add fuel p q c = .ok (some r)) ∧ AnyPt r := by
  have hw8 : 8 ≤ w := by omega
  obtain ⟨p', p1, p2⟩ := ptModP_any hw hp hP h1
  obtain ⟨q', q1, q2⟩ := ptModP_any hw hp hP h2
  have : ∃ r f0, (∀ fuel, f0 ≤ fuel → addReduced fuel p' q' c = .ok (some r)) ∧ AnyPt r := by
    simp only [addReduced]
    split
    · exact ⟨_, 0, fun _ _ => rfl, q2.setPoint hw8⟩
    · split
      · exact ⟨_, 0, fun _ _ => rfl, p2.setPoint hw8⟩
      · obtain ⟨t, f, sh, t1, t2⟩ := negY_any hw hp hP q2
        simp only [t1, Out.bind_ok]
        split
        · exact ⟨_, 0, fun _ _ => rfl, anyPt_zero hw8⟩
        · split
          · exact dbl_any hw hp ha ho hP p2
          · exact addMain_any hw hp ho hP p2 q2 t f sh t2
  obtain ⟨r, f0, r1, r2⟩ := this
  refine ⟨r, f0, fun fuel hf => ?_, r2⟩
  rw [Ec.add, p1, Out.bind_ok]
  simp only [q1, Out.bind_ok]
  exact r1 fuel hf

theorem mulSteps_any (hw : 16 ≤ w) {c : Curve w} (hp : Is c.p P) (ha : Any c.a) (ho : P % 2 = 1) (hP : 1 < P) (bs : List Bool) :
    ∀ {q r : Point w}, AnyPt q → AnyPt r → ∃ s f0, (∀ fuel, f0 ≤ fuel → mulSteps fuel c bs q r = .ok (some s)) ∧ AnyPt s := by
  have hw8 : 8 ≤ w := by omega
  induction bs with
  | nil => intro q r _ hr; exact ⟨r, 0, fun _ _ => rfl, hr⟩
  | cons b bs ih =>
    intro q r hq hr
    obtain ⟨t, f1, t1, t2⟩ := dbl_any hw hp ha ho hP hq
    have hq' : AnyPt (⟨assign (some q.x) t.x, assign (some q.y) t.y⟩ : Point w) := ⟨t2.1.assignOpt hw8 _, t2.2.assignOpt hw8 _⟩
    cases b with
    | false =>
      obtain ⟨s, f2, s1, s2⟩ := ih hq' hr
      refine ⟨s, max f1 f2, fun fuel hf => ?_, s2⟩
      rw [mulSteps, t1 fuel (by omega), Out.bind_ok]
      exact s1 fuel (by omega)
    | true =>
      obtain ⟨u, f2, u1, u2⟩ := add_any hw hp ha ho hP hr hq'
      obtain ⟨s, f3, s1, s2⟩ := ih hq' (r := ⟨assign (some r.x) u.x, assign (some r.y) u.y⟩) ⟨u2.1.assignOpt hw8 _, u2.2.assignOpt hw8 _⟩
      refine ⟨s, max f1 (max f2 f3), fun fuel hf => ?_, s2⟩
      rw [mulSteps, t1 fuel (by omega), Out.bind_ok]
      dsimp only
      rw [if_pos rfl, u1 fuel (by omega), Out.bind_ok]
      exact s1 fuel (by omega)

/-- A multiplication ends with a result for every odd modulus above 1, whatever the point and the coefficient are. -/
theorem mul_any (hw : 16 ≤ w) {c : Curve w} {p : Point w} {d : Num w} (hp : Is c.p P) (ha : Any c.a) (ho : P % 2 = 1) (hP : 1 < P)
    (h : AnyPt p) (hd : Any d) : ∃ s f0, (∀ fuel, f0 ≤ fuel → mul fuel p d c = .ok (some s)) ∧ AnyPt s := by
  have hw8 : 8 ≤ w := by omega
  obtain ⟨D, hd⟩ := hd
  simp only [Ec.mul]
  split
  · exact ⟨_, 0, fun _ _ => rfl, anyPt_zero hw8⟩
  · obtain ⟨n, hn⟩ : ∃ n, w * d.data.length = n + 2 := by
      have := Nat.mul_le_mul (Nat.le_refl w) hd.1
      exact ⟨w * d.data.length - 2, by omega⟩
    rw [bits_reverse, hn, List.range_succ_eq_map, List.range_succ_eq_map]
    simp only [List.map_cons, List.map_map]
    refine mulSteps_any hw hp ha ho hP _ (h.setPoint hw8) ?_
    split
    · exact h.setPoint hw8
    · exact anyPt_zero hw8

end Kryptos.Ec

namespace Kryptos.Mp
open Spec.Mp

variable {w : Nat}

/-- Modulo zero the loop of the inverse never ends: `u` stays zero, which is even. -/
theorem rsLoop_zero_modulus (hw : 8 ≤ w) {m : Num w} (fuel : Nat) : ∀ {u v r s : Num w} {V : Nat}, Is u 0 → Is v V → V ≠ 0 → Is r 0 →
    rsLoop m fuel u v r s = .ok none := by
  induction fuel with
  | zero => intros; rfl
  | succ f ih =>
    intro u v r s V hu hv hV hr
    rw [rsLoop, hv.isZero, decide_eq_false hV, hu.isOdd (by omega), hr.isOdd (by omega)]
    have h1 := hu.rsh hw 1
    have h2 := hr.rsh hw 1
    rw [Nat.zero_div] at h1 h2
    exact ih h1 hv hV h2

end Kryptos.Mp

namespace Kryptos.Ecdh
open Mp Ec Spec.Mp
open Rsa (getMp putMps)

variable {w P : Nat}

theorem step_some {α β : Type} {x : Out (Option α)} {f : Option α → Out (Option β)} {b : β}
    (h : (x >>= f) = .ok (some b)) (hn : f none = .ok none) : ∃ a, x = .ok (some a) ∧ f (some a) = .ok (some b) := by
  cases x with
  | ub => cases h
  | ok o =>
    cases o with
    | none => rw [Out.bind_ok, hn] at h; cases h
    | some a => exact ⟨a, rfl, h⟩

/-- The numbers of a curve that is read are not negative. -/
theorem getCurve_any (hw : 8 ≤ w) {doc : Bytes} {cv : CurveCtx w} (h : getCurve w doc = .ok (some cv)) :
    Any cv.ec.p ∧ Any cv.ec.a ∧ Any cv.q ∧ AnyPt cv.g := by
  rw [getCurve] at h
  split at h
  · cases h
  · obtain ⟨p, h1, h⟩ := step_some h rfl
    obtain ⟨a, h2, h⟩ := step_some h rfl
    obtain ⟨b, h3, h⟩ := step_some h rfl
    obtain ⟨x, h4, h⟩ := step_some h rfl
    obtain ⟨y, h5, h⟩ := step_some h rfl
    obtain ⟨q, h6, h⟩ := step_some h rfl
    obtain ⟨t, h7, h⟩ := step_some h rfl
    cases h
    exact ⟨⟨_, Elgamal.getMp_is hw h1⟩, ⟨_, Elgamal.getMp_is hw h2⟩, ⟨_, Elgamal.getMp_is hw h6⟩,
      ⟨_, Elgamal.getMp_is hw h4⟩, ⟨_, Elgamal.getMp_is hw h5⟩⟩

theorem draw_le (rnd : Nat → Byte) (m : BitVec w) (small : Num w → Bool) (q k : Num w) (n f : Nat) : ∀ (i g : Nat), f ≤ g →
    draw rnd m small q n f i = some k → draw rnd m small q n g i = some k := by
  induction f with
  | zero => intro i g _ h; simp [draw] at h
  | succ f ih =>
    intro i g hg h
    obtain ⟨g, rfl⟩ : ∃ g', g = g' + 1 := ⟨g - 1, by omega⟩
    rw [draw] at h ⊢
    split at h
    · rename_i hc; rw [if_pos hc]; exact ih _ _ (by omega) h
    · rename_i hc; rw [if_neg hc]; exact h

theorem getRandomK_le {rnd : Nat → Byte} {f g : Nat} (hfg : f ≤ g) {q k : Num w} {bits : Nat}
    (h : getRandomK rnd f q bits = .ok (some k)) : getRandomK rnd g q bits = .ok (some k) := by
  rw [getRandomK] at h ⊢
  cases hm : mask w bits with
  | ub => rw [hm] at h; cases h
  | ok m =>
    rw [hm, Out.bind_ok] at h
    rw [Out.bind_ok]
    simp only [Out.pure_eq, Out.ok.injEq] at h ⊢
    exact draw_le rnd m _ q k _ f 0 g hfg h

/-- What Bob's step does with any document that gives a curve with an odd modulus: the curve may be none, the numbers may be
composite, and the points anywhere. -/
theorem bob_any (hw : w = 32 ∨ w = 64) {doc : Bytes} {cv : CurveCtx w} (hc : getCurve w doc = .ok (some cv)) (hp : Is cv.ec.p P)
    (ho : P % 2 = 1) (hP : 1 < P) {rnd : Nat → Byte} {f : Nat} {k : Num w} (hk : getRandomK rnd f cv.q cv.bits = .ok (some k)) (r : TaskResult) :
    ∃ out f0, ∀ fuel, f0 ≤ fuel → process rnd fuel ⟨r, none, some doc, none, none⟩ = bobEnd fuel cv k doc (some out) := by
  have hw8 : 8 ≤ w := by rcases hw with rfl | rfl <;> decide
  obtain ⟨-, ha, ⟨Q, hq⟩, hg⟩ := getCurve_any hw8 hc
  have hka : Any k := ⟨_, (secretK_range_partial hw8 _ _ _ hq hk).1⟩
  obtain ⟨kp, f1, k1, ⟨X, hX⟩, ⟨Y, hY⟩⟩ := mul_any (by rcases hw with rfl | rfl <;> decide) hp ha ho hP hg hka
  obtain ⟨out, d1, -⟩ := Rsa.putMps_get hw [("ECDH PARAM KP X", kp.x), ("ECDH PARAM KP Y", kp.y)] (by simp)
    (by
      simp only [List.mem_cons, List.not_mem_nil, or_false, forall_eq_or_imp, forall_eq]
      exact ⟨⟨gKX, hX.ne_nil⟩, ⟨gKY, hY.ne_nil⟩⟩) (by simp only [List.map_cons, List.map_nil]; decide +kernel)
  refine ⟨out, max f f1, fun fuel hf => ?_⟩
  simp only [process, bob, hc, getRandomK_le (show f ≤ fuel by omega) hk, k1 fuel (by omega), d1, Out.bind_ok, ne_eq, not_true_eq_false, if_false]

/-- **C96**, the part that holds: Bob's step ends with a key for every document that can be read and gives a curve with an odd modulus
and a point, whatever they are. -/
theorem bob_ends_partial (hw : w = 32 ∨ w = 64) {doc : Bytes} {cv : CurveCtx w} (hc : getCurve w doc = .ok (some cv)) (hp : Is cv.ec.p P)
    (ho : P % 2 = 1) (hP : 1 < P) {rnd : Nat → Byte} {f : Nat} {k : Num w} (hk : getRandomK rnd f cv.q cv.bits = .ok (some k)) (r : TaskResult)
    {x y : Num w} (hx : getMp w "ECDH PARAM KP X" doc = .ok (some x)) (hy : getMp w "ECDH PARAM KP Y" doc = .ok (some y)) :
    ∃ (out : Bytes) (key : Num w) (f0 : Nat), ∀ fuel, f0 ≤ fuel → process rnd fuel ⟨r, none, some doc, none, none⟩ =
      .ok (some ⟨.success, none, some doc, some out, some key⟩) := by
  have hw8 : 8 ≤ w := by rcases hw with rfl | rfl <;> decide
  obtain ⟨-, ha, ⟨Q, hq⟩, -⟩ := getCurve_any hw8 hc
  have hka : Any k := ⟨_, (secretK_range_partial hw8 _ _ _ hq hk).1⟩
  obtain ⟨out, f1, h1⟩ := bob_any hw hc hp ho hP hk r
  obtain ⟨t, f2, t1, -⟩ := mul_any (p := setPoint x y) (by rcases hw with rfl | rfl <;> decide) hp ha ho hP
    (AnyPt.setPoint (p := ⟨x, y⟩) hw8 ⟨⟨_, Elgamal.getMp_is hw8 hx⟩, ⟨_, Elgamal.getMp_is hw8 hy⟩⟩) hka
  refine ⟨out, t.x, max f1 f2, fun fuel hf => ?_⟩
  rw [h1 fuel (by omega), bobEnd, hx, Out.bind_ok]
  simp only [hy, Out.bind_ok, t1 fuel (by omega)]
  rfl

/-- **C96**: among the documents that can be read and give a curve with an odd modulus, the ones that make Bob release his point twice
are exactly those in which a coordinate of the point is missing. -/
theorem bob_double_free_iff (hw : w = 32 ∨ w = 64) {doc : Bytes} {cv : CurveCtx w} (hc : getCurve w doc = .ok (some cv)) (hp : Is cv.ec.p P)
    (ho : P % 2 = 1) (hP : 1 < P) {rnd : Nat → Byte} {f : Nat} {k : Num w} (hk : getRandomK rnd f cv.q cv.bits = .ok (some k)) (r : TaskResult)
    {x y : Option (Num w)} (hx : getMp w "ECDH PARAM KP X" doc = .ok x) (hy : getMp w "ECDH PARAM KP Y" doc = .ok y) :
    ∃ f0, ∀ fuel, f0 ≤ fuel → (process rnd fuel (⟨r, none, some doc, none, none⟩ : Ctx w) = .ub ↔ x = none ∨ y = none) := by
  match x, y, hx, hy with
  | some x, some y, hx, hy =>
    obtain ⟨out, key, f0, h⟩ := bob_ends_partial hw hc hp ho hP hk r hx hy
    exact ⟨f0, fun fuel hf => by rw [h fuel hf]; simp⟩
  | none, y, hx, hy =>
    obtain ⟨out, f1, h1⟩ := bob_any hw hc hp ho hP hk r
    exact ⟨f1, fun fuel hf => by rw [h1 fuel hf, bobEnd, hx]; simp⟩
  | some x, none, hx, hy =>
    obtain ⟨out, f1, h1⟩ := bob_any hw hc hp ho hP hk r
    exact ⟨f1, fun fuel hf => by rw [h1 fuel hf, bobEnd, hx, Out.bind_ok]; simp [hy]⟩

/-- **C96** for the other side: Alice's second step ends for every answer that can be read, with a failure exactly when a coordinate of
the point is missing, and otherwise with a key. -/
theorem alice_ends (hw : w = 32 ∨ w = 64) {cv : CurveCtx w} (hp : Is cv.ec.p P) (ha : Any cv.ec.a) (ho : P % 2 = 1) (hP : 1 < P) {k : Num w}
    (hk : Any k) (doc : Bytes) (r : TaskResult) (out : Option Bytes) (rnd : Nat → Byte)
    {x y : Option (Num w)} (hx : getMp w "ECDH PARAM KP X" doc = .ok x) (hy : getMp w "ECDH PARAM KP Y" doc = .ok y) :
    ∃ f0 c, (∀ fuel, f0 ≤ fuel → process rnd fuel ⟨r, some cv, some doc, out, some k⟩ = .ok (some c)) ∧
      (c = failed ↔ x = none ∨ y = none) ∧ (c ≠ failed → ∃ key : Num w, c = ⟨.success, none, some doc, out, some key⟩) := by
  have hw8 : 8 ≤ w := by rcases hw with rfl | rfl <;> decide
  match x, y, hx, hy with
  | some x, some y, hx, hy =>
    obtain ⟨t, f2, t1, -⟩ := mul_any (p := setPoint x y) (by rcases hw with rfl | rfl <;> decide) hp ha ho hP
      (AnyPt.setPoint (p := ⟨x, y⟩) hw8 ⟨⟨_, Elgamal.getMp_is hw8 hx⟩, ⟨_, Elgamal.getMp_is hw8 hy⟩⟩) hk
    refine ⟨f2, ⟨.success, none, some doc, out, some t.x⟩, fun fuel hf => ?_, by simp [failed], fun _ => ⟨_, rfl⟩⟩
    simp only [process, aliceEnd, hx, hy, Out.bind_ok, t1 fuel hf]
    rfl
  | none, y, hx, hy =>
    exact ⟨0, failed, fun fuel _ => by simp only [process, aliceEnd, hx, Out.bind_ok]; rfl, by simp, fun h => absurd rfl h⟩
  | some x, none, hx, hy =>
    exact ⟨0, failed, fun fuel _ => by simp only [process, aliceEnd, hx, hy, Out.bind_ok]; rfl, by simp, fun h => absurd rfl h⟩

/-- **C96** is violated in another way: a document whose order is at most 2 keeps Bob looking for a secret for ever. -/
theorem bob_hangs {doc : Bytes} {cv : CurveCtx w} (hw : 8 ≤ w) (hc : getCurve w doc = .ok (some cv)) {Q : Nat} (hq : Is cv.q Q)
    (hQ : Q ≤ 2) {m : BitVec w} (hb : mask w cv.bits = .ok m) (rnd : Nat → Byte) (fuel : Nat) (r : TaskResult) (out : Option Bytes) :
    process rnd fuel (⟨r, none, some doc, out, none⟩ : Ctx w) = .ok none := by
  have : getRandomK rnd fuel cv.q cv.bits = .ok none := by
    cases h : getRandomK rnd fuel cv.q cv.bits with
    | ub => rw [getRandomK, hb] at h; cases h
    | ok o =>
      cases o with
      | none => rfl
      | some k =>
        have := secretK_range_partial hw _ _ _ hq h
        omega
  simp only [process, bob, hc, this, Out.bind_ok]
  rfl

/-- The sample curve with the order 2: a document that anyone can send. -/
theorem bob_hangs_sample : ∃ doc, ∀ (rnd : Nat → Byte) (fuel : Nat) (r : TaskResult) (out : Option Bytes),
    process rnd fuel (⟨r, none, some doc, out, none⟩ : Ctx 32) = .ok none := by
  obtain ⟨cv, hcv⟩ : ∃ cv : CurveCtx 32, cv = ⟨5, curve17, ⟨[2], false⟩, ⟨⟨[5], false⟩, ⟨[1], false⟩⟩⟩ := ⟨_, rfl⟩
  have hG : Good cv 17 2 2 2 (.some 5 1 on17) := by
    rw [hcv]
    exact ⟨fits17, ⟨by decide, rfl, by decide⟩, ⟨by decide, rfl, by decide⟩,
      show _ ∧ _ from ⟨⟨by decide, rfl, by decide⟩, ⟨by decide, rfl, by decide⟩⟩, by decide⟩
  obtain ⟨Y, hY⟩ := hG.g.isY
  obtain ⟨o1, o2⟩ := curveOps hG cv.g hG.g.isX.ne_nil hY.ne_nil
  obtain ⟨o, doc, -, -, d3, d4, d5, -⟩ := Rsa.putData_putMps_get (.inl rfl) "ECDH PARAM EC BITS" (decimal cv.bits) (decimal_ne _)
    (offer cv cv.g) gBits o1 o2
  refine ⟨doc, fun rnd fuel r out => ?_⟩
  refine bob_hangs (m := (0xFFFFFFFF#32) >>> 27) (by decide) (getCurve_run hG d3 d4 (fun y hy => d5 y ?_)) hG.q (by decide)
    (by rw [hcv]; decide) rnd fuel r out
  simp only [offer, List.mem_cons, List.not_mem_nil, or_false] at hy ⊢
  tauto

/-- The documents of C94 meet the hypotheses: the offer on the sample curve, with the secret 7 on Bob's side. -/
example : ∃ (doc : Bytes) (out : Bytes) (key : Num 32) (f0 : Nat), ∀ fuel, f0 ≤ fuel →
    process (fun i => [0, 0, 0, 31, 0, 0, 0, 7].getD i 0) fuel ⟨.success, none, some doc, none, none⟩ =
      .ok (some ⟨.success, none, some doc, some out, some key⟩) := by
  obtain ⟨Y, hY⟩ := good17.g.isY
  obtain ⟨o1, o2⟩ := curveOps good17 ctx17.g good17.g.isX.ne_nil hY.ne_nil
  obtain ⟨o, doc, -, -, d3, d4, d5, -⟩ := Rsa.putData_putMps_get (.inl rfl) "ECDH PARAM EC BITS" (decimal ctx17.bits) (decimal_ne _)
    (offer ctx17 ctx17.g) gBits o1 o2
  have hc := getCurve_run good17 d3 d4 (fun y hy => d5 y (by
    simp only [offer, List.mem_cons, List.not_mem_nil, or_false] at hy ⊢
    tauto))
  exact ⟨doc, bob_ends_partial (.inl rfl) hc good17.fits.p (by decide) (by decide) (f := 52) (k := ⟨[7], false⟩) (by decide +kernel) _
    (d5 ("ECDH PARAM KP X", ctx17.g.x) (by simp [offer])) (d5 ("ECDH PARAM KP Y", ctx17.g.y) (by simp [offer]))⟩

/-- An answer that is no point of the curve, with composite modulus 15: Alice ends with a key. -/
example : ∃ (doc : Bytes) (f0 : Nat) (key : Num 32), ∀ fuel, f0 ≤ fuel →
    process (fun _ => 0) fuel ⟨.success, some ⟨5, ⟨⟨[2], false⟩, ⟨[2], false⟩, ⟨[15], false⟩⟩, ⟨[19], false⟩, ⟨⟨[5], false⟩, ⟨[1], false⟩⟩⟩,
      some doc, none, some ⟨[7], false⟩⟩ = .ok (some ⟨.success, none, some doc, none, some key⟩) := by
  have i3 : Is (three : Num 32) 3 := ⟨by decide, rfl, by decide⟩
  obtain ⟨doc, -, -, d3⟩ := Rsa.putMps_get (.inl rfl) [("ECDH PARAM KP X", (three : Num 32)), ("ECDH PARAM KP Y", three)] (by simp)
    (by
      simp only [List.mem_cons, List.not_mem_nil, or_false, forall_eq_or_imp, forall_eq]
      exact ⟨⟨gKX, i3.ne_nil⟩, ⟨gKY, i3.ne_nil⟩⟩) (by simp only [List.map_cons, List.map_nil]; decide +kernel)
  obtain ⟨f0, c, h1, h2, h3⟩ := alice_ends (P := 15) (.inl rfl)
    (cv := ⟨5, ⟨⟨[2], false⟩, ⟨[2], false⟩, ⟨[15], false⟩⟩, ⟨[19], false⟩, ⟨⟨[5], false⟩, ⟨[1], false⟩⟩⟩) ⟨by decide, rfl, by decide⟩
    ⟨2, by decide, rfl, by decide⟩ (by decide) (by decide) (k := ⟨[7], false⟩) ⟨7, by decide, rfl, by decide⟩ doc .success none (fun _ => 0)
    (d3 ("ECDH PARAM KP X", three) (by simp)) (d3 ("ECDH PARAM KP Y", three) (by simp))
  obtain ⟨key, rfl⟩ := h3 (by rw [Ne, h2]; simp)
  exact ⟨doc, f0, key, h1⟩

end Kryptos.Ecdh
