import Verif.Props.MpInv
/-
  The Barrett and Montgomery reductions of big numbers (C65).
-/
namespace Kryptos.Mp
open Spec.Mp

variable {w : Nat}

/-! ### Barrett -/

theorem barrettMain_is (hw : 8 ≤ w) (x factor m : Num w) (sh : Nat) (hx : x.data ≠ []) (hxn : x.neg = false)
    (hf : factor.data ≠ []) (hfn : factor.neg = false) (hm : m.data ≠ []) (hmn : m.neg = false)
    (hfac : val factor.data * val m.data ≤ 2 ^ sh) (hlt : val x.data < 2 * val m.data) :
    ∃ r, barrettMain x factor sh m = .ok (some r) ∧ Is r (val x.data % val m.data) := by
  have hX := Is.intro hx hxn
  have hF := Is.intro hf hfn
  have hM := Is.intro hm hmn
  have hL := hM.lsh hw 1
  rw [pow_one] at hL
  obtain ⟨t, t1, t2⟩ := hX.mul hw hF
  obtain ⟨p, p1, p2⟩ := (t2.rsh hw sh).mul hw hM
  have hq : val x.data * val factor.data / 2 ^ sh * val m.data ≤ val x.data := by
    have h1 := Nat.div_mul_le_self (val x.data * val factor.data) (2 ^ sh)
    refine Nat.le_of_mul_le_mul_right (c := 2 ^ sh) ?_ (Nat.two_pow_pos sh)
    calc val x.data * val factor.data / 2 ^ sh * val m.data * 2 ^ sh
        = val x.data * val factor.data / 2 ^ sh * 2 ^ sh * val m.data := by ring
      _ ≤ val x.data * val factor.data * val m.data := Nat.mul_le_mul_right _ h1
      _ = val x.data * (val factor.data * val m.data) := by ring
      _ ≤ val x.data * 2 ^ sh := Nat.mul_le_mul_left _ hfac
  obtain ⟨r, r1, r2⟩ := hX.sub hw p2 hq
  set c := val x.data * val factor.data / 2 ^ sh with hc
  have hmod : val x.data % val m.data = (val x.data - c * val m.data) % val m.data := by
    conv_lhs => rw [← Nat.sub_add_cancel hq]
    rw [Nat.add_mul_mod_self_right]
  rw [barrettMain, hxn, hM.assignNone hw, hX.ge hL, decide_eq_false (by omega)]
  simp only [Bool.or_self, Bool.false_eq_true, if_false, hX.assignNone hw, t1, Out.bind_ok, p1, r1, r2.ge hM]
  by_cases hge : val m.data ≤ val x.data - c * val m.data
  · obtain ⟨s, s1, s2⟩ := r2.sub hw hM hge
    refine ⟨s, by rw [decide_eq_true hge]; simp [s1], s2.1, s2.2.1, ?_⟩
    rw [s2.2.2, hmod, Nat.mod_eq_sub_mod hge, Nat.mod_eq_of_lt]
    omega
  · refine ⟨r, by rw [decide_eq_false hge]; simp, r2.1, r2.2.1, ?_⟩
    rw [r2.2.2, hmod, Nat.mod_eq_of_lt (by omega)]

theorem barrettMain_exact (hw : 8 ≤ w) (x factor m : Num w) (sh : Nat) (hx : x.data ≠ []) (hxn : x.neg = false)
    (hf : factor.data ≠ []) (hfn : factor.neg = false) (hm : m.data ≠ []) (hmn : m.neg = false)
    (hfac : val factor.data * val m.data ≤ 2 ^ sh) (hlt : val x.data < 2 * val m.data) :
    ∃ r, barrettMain x factor sh m = .ok (some r) ∧ r.neg = false ∧ val r.data = val x.data % val m.data := by
  obtain ⟨r, h1, h2⟩ := barrettMain_is hw x factor m sh hx hxn hf hfn hm hmn hfac hlt
  exact ⟨r, h1, h2.2⟩

theorem dropWhile_bits (l : List Bool) (h : l.foldl (fun a b => 2 * a + b.toNat) 0 ≠ 0) :
    l.dropWhile (· != true) ≠ [] := by
  induction l with
  | nil => simp at h
  | cons b l ih =>
    cases b with
    | false => simpa using ih (by simpa using h)
    | true => simp

theorem barrettShift_pos (m : Num w) (h : val m.data ≠ 0) : barrettShift m ≠ 0 := by
  have h1 := bits_val m.data 0
  rw [Nat.zero_mul, Nat.zero_add] at h1
  have h2 := dropWhile_bits (bitsMsb m.data) (by rw [h1]; exact h)
  have := List.length_pos_iff.2 h2
  rw [barrettShift]; omega

/-- `kryptos_mp_barrett_reduction` gives the remainder for every modulus and every argument below twice the modulus, and
leaves a factor and a shift with which the next call on the same modulus gives the remainder as well. -/
theorem barrett_exact (hw : 16 ≤ w) (x m : Num w) (hx : x.data ≠ []) (hxn : x.neg = false) (hm : m.data ≠ [])
    (hmn : m.neg = false) (hm0 : val m.data ≠ 0) (hlt : val x.data < 2 * val m.data) (sh0 : Nat) :
    ∃ r f sh, barrett x none sh0 m = .ok (some r, some f, sh) ∧ r.neg = false ∧ val r.data = val x.data % val m.data ∧
      ∀ y : Num w, y.data ≠ [] → y.neg = false → val y.data < 2 * val m.data →
        ∃ r', barrett y (some f) sh m = .ok (some r', some f, sh) ∧ r'.neg = false ∧
          val r'.data = val y.data % val m.data := by
  have hw8 : 8 ≤ w := by omega
  have hM := Is.intro hm hmn
  have hL := (is_one (w := w) (by omega)).lsh hw8 (barrettShift m)
  obtain ⟨q, r, d1, d2, d3, d4, d5, d6, -⟩ := div_exact_iff hw (lsh one (barrettShift m)) m (List.ne_nil_of_length_pos hL.1) hL.2.1
    hmn hm0
  rw [hL.2.2, Nat.mul_one] at d6
  have hfac : val q.data * val m.data ≤ 2 ^ barrettShift m := by rw [d6]; exact Nat.le_add_right _ _
  obtain ⟨z, z1, z2, z3⟩ := barrettMain_exact hw8 x q m _ hx hxn d4 d2 hm hmn hfac hlt
  refine ⟨z, q, barrettShift m, ?_, z2, z3, ?_⟩
  · rw [barrett, hmn, hM.isZero, decide_eq_false hm0]
    simp only [Bool.or_self, Bool.false_eq_true, if_false, if_neg (barrettShift_pos m hm0), d1, Out.bind_ok, z1]
  · intro y hy hyn hyl
    obtain ⟨z', y1, y2, y3⟩ := barrettMain_exact hw8 y q m _ hy hyn d4 d2 hm hmn hfac hyl
    exact ⟨z', by rw [barrett]; simp [y1], y2, y3⟩

/-- Larger arguments are left to `kryptos_mp_mod`. -/
theorem barrett_large_partial (hw : 16 ≤ w) (x m f : Num w) (sh : Nat) (hx : x.data ≠ []) (hxn : x.neg = false) (hm : m.data ≠ [])
    (hmn : m.neg = false) (hm0 : val m.data ≠ 0) (hlt : 2 * val m.data ≤ val x.data) (htop : sig m.data = m.data.length)
    (hgo : ∀ j, ¬ GuessOverflows w (val x.data) (val m.data) j) :
    ∃ r, barrett x (some f) sh m = .ok (some r, some f, sh) ∧ r.neg = false ∧ val r.data = val x.data % val m.data := by
  have hw8 : 8 ≤ w := by omega
  have hX := Is.intro hx hxn
  have hM := Is.intro hm hmn
  have hL := hM.lsh hw8 1
  rw [pow_one] at hL
  obtain ⟨r, h1, h2, h3⟩ := mod_nonneg_partial hw x m hx hxn hmn hm0 htop hgo
  refine ⟨r, ?_, h2, h3⟩
  rw [barrett, barrettMain, hxn, hM.assignNone hw8, hX.ge hL, decide_eq_true hlt]
  simp [h1]

/-- A modulus which is zero or negative is refused. -/
theorem barrett_refused (x m : Num w) (sh : Nat) (h : m.neg = true ∨ val m.data = 0) :
    barrett x none sh m = .ok (none, none, sh) := by
  have : (m.neg || isZero m) = true := by
    rcases h with h | h
    · simp [h]
    · rw [isZero, (isZeroD_iff _).2 h, Bool.or_true]
  rw [barrett, if_pos this]

example : (match barrett (⟨[5, 1], false⟩ : Num 64) none 0 ⟨[0xF000000000000001], false⟩ with
    | .ok (some r, _, _) => decide (val r.data = (2 ^ 64 + 5) % 0xF000000000000001)
    | _ => false) = true := by decide +kernel

/-! ### Montgomery -/

theorem halve_loop (hw : 8 ≤ w) (y : Num w) (m : Nat) (hy : Is y m) (hodd : m % 2 = 1) (k : Nat) (x : Num w) (n : Nat)
    (hx : Is x n) : ∃ r c v, halve y k x = .ok r ∧ Is r v ∧ v * 2 ^ k = n + c * m ∧ c < 2 ^ k := by
  induction k generalizing x n with
  | zero => exact ⟨x, 0, n, rfl, hx, by simp, by simp⟩
  | succ k ih =>
    rw [halve, hx.isOdd (by omega), Out.bind_ok]
    by_cases ho : n % 2 = 1
    · obtain ⟨s, s1, s2⟩ := hx.add hw hy (by omega)
      have s3 := s2.rsh hw 1
      rw [pow_one] at s3
      obtain ⟨r, c, v, r1, r2, r3, r4⟩ := ih _ _ s3
      refine ⟨r, 2 * c + 1, v, ?_, r2, ?_, by rw [pow_succ]; omega⟩
      · rw [decide_eq_true ho, if_pos rfl, s1, Out.bind_ok]; exact r1
      · rw [pow_succ, ← Nat.mul_assoc, r3]
        have : (n + m) / 2 * 2 = n + m := Nat.div_mul_cancel (by omega)
        linear_combination this
    · have s3 := hx.rsh hw 1
      rw [pow_one] at s3
      obtain ⟨r, c, v, r1, r2, r3, r4⟩ := ih _ _ s3
      refine ⟨r, 2 * c, v, ?_, r2, ?_, by rw [pow_succ]; omega⟩
      · rw [decide_eq_false ho, if_neg (by decide), Out.bind_ok]; exact r1
      · rw [pow_succ, ← Nat.mul_assoc, r3]
        have : n / 2 * 2 = n := Nat.div_mul_cancel (by omega)
        linear_combination this

/-- `kryptos_mp_montgomery_reduction_2kx_mod_y` divides by `2 ^ k` modulo an odd `y`, where `k` is the number of bits allocated
for `x`. -/
theorem montgomery2k_exact (hw : 8 ≤ w) (x y : Num w) (hx : x.data ≠ []) (hxn : x.neg = false) (hy : y.data ≠ [])
    (hyn : y.neg = false) (hodd : val y.data % 2 = 1) :
    ∃ r, montgomery2k x y = .ok r ∧ r.data ≠ [] ∧ r.neg = false ∧ val r.data < val y.data ∧
      val r.data * 2 ^ (x.data.length * w) ≡ val x.data [MOD val y.data] := by
  have hX := Is.intro hx hxn
  have hY := Is.intro hy hyn
  obtain ⟨r, c, v, r1, r2, r3, r4⟩ := halve_loop hw y _ hY hodd (x.data.length * w) x _ hX
  have hP := Nat.two_pow_pos (x.data.length * w)
  have hlt := val_lt x.data
  rw [Nat.mul_comm] at hlt
  set P := 2 ^ (x.data.length * w)
  set m := val y.data
  have hle : v ≤ m := by
    by_contra h
    have h1 : (m + 1) * P ≤ v * P := Nat.mul_le_mul_right _ (by omega)
    have h2 : c * m ≤ (P - 1) * m := Nat.mul_le_mul_right _ (by omega)
    rw [Nat.sub_mul, Nat.one_mul] at h2
    have h3 : m ≤ P * m := Nat.le_mul_of_pos_left _ hP
    rw [r3, Nat.add_mul, Nat.one_mul, Nat.mul_comm m P] at h1
    omega
  have hmod : v * P ≡ val x.data [MOD m] := by
    rw [r3, Nat.ModEq, Nat.add_mul_mod_self_right]
  rw [montgomery2k, hX.assignNone hw, r1, Out.bind_ok, r2.ge hY]
  by_cases hge : m ≤ v
  · obtain ⟨s, s1, s2⟩ := r2.sub hw hY hge
    refine ⟨s, by rw [decide_eq_true hge, if_pos rfl]; exact s1, List.ne_nil_of_length_pos s2.1, s2.2.1, ?_, ?_⟩
    · rw [s2.2.2]; omega
    · rw [s2.2.2]
      have e : v - m = 0 := by omega
      have e' : v = m := by omega
      rw [e, Nat.zero_mul]
      rw [e'] at hmod
      exact (show 0 ≡ m * P [MOD m] by simp [Nat.ModEq]).trans hmod
  · refine ⟨r, by rw [decide_eq_false hge]; rfl, List.ne_nil_of_length_pos r2.1, r2.2.1, ?_, ?_⟩
    · rw [r2.2.2]; omega
    · rw [r2.2.2]; exact hmod

theorem newSize_small (hw : 16 ≤ w) (n : Nat) (hn : 2 ≤ n) : newSize w (n * 8) < n := by
  rw [newSize, Nat.max_eq_left (by omega), Nat.div_lt_iff_lt_mul (by omega)]
  have : n * 16 ≤ n * w := Nat.mul_le_mul_left _ hw
  have h2 : 2 * (w - 8) ≤ n * (w - 8) := Nat.mul_le_mul_right _ hn
  rw [Nat.mul_sub, Nat.mul_sub] at h2
  omega

/-- What the reduction does before its last step: a number congruent to `x`. -/
theorem montgomery_core (hw : 16 ≤ w) (x y : Num w) (hx : x.data ≠ []) (hxn : x.neg = false) (hy : y.data ≠ [])
    (hyn : y.neg = false) (hodd : val y.data % 2 = 1) :
    ∃ r : Num w, montgomery x y = (if sig r.data = 0 then .ok (some r)
      else if newSize w (sig r.data * 8) < sig r.data then .ub
      else .ok (some ⟨padTo (newSize w (sig r.data * 8)) (r.data.take (sig r.data)), false⟩)) ∧ r.neg = false ∧
      val r.data ≡ val x.data [MOD val y.data] ∧ (y.data.length = 1 → val r.data < val y.data) := by
  have hw8 : 8 ≤ w := by omega
  have hX := Is.intro hx hxn
  have hY := Is.intro hy hyn
  have hy0 : val y.data ≠ 0 := by omega
  obtain ⟨z, z1, z2, z3, z4, z5⟩ := montgomery2k_exact hw8 x y hx hxn hy hyn hodd
  have hL := (is_one (w := w) (by omega)).lsh hw8 (x.data.length * w)
  obtain ⟨q, r, d1, d2, d3, d4, d5, d6, -⟩ := div_exact_iff hw (lsh one (x.data.length * w)) y (List.ne_nil_of_length_pos hL.1)
    hL.2.1 hyn hy0
  rw [hL.2.2, Nat.mul_one] at d6
  obtain ⟨p, p1, p2⟩ := (Is.intro z2 z3).mul hw8 (Is.intro d5 d3)
  obtain ⟨q', r', e1, e2, e3, e4, e5, e6, e7⟩ := div_exact_iff hw p y (List.ne_nil_of_length_pos p2.1) p2.2.1 hyn hy0
  refine ⟨r', ?_, e3, ?_, ?_⟩
  · rw [montgomery, z1, Out.bind_ok, d1, Out.bind_ok]
    simp only [p1, Out.bind_ok, e1]
  · have h1 : val r'.data ≡ val z.data * val r.data [MOD val y.data] := by
      rw [← p2.2.2, e6, Nat.ModEq, Nat.mul_add_mod_self_right]
    have h2 : val r.data ≡ 2 ^ (x.data.length * w) [MOD val y.data] := by
      rw [d6, Nat.ModEq, Nat.mul_add_mod_self_right]
    exact (h1.trans (h2.mul_left _)).trans z5
  · intro hl
    have hs : sig y.data = y.data.length := by
      have := sig_le y.data
      have : sig y.data ≠ 0 := fun h' => hy0 ((sig_zero _).1 h')
      omega
    have hlt := val_lt y.data
    rw [hl, Nat.mul_one] at hlt
    exact e7.2 ⟨size_right _ _ hs hy0, fun j => no_overflow_single _ _ j hy0 hlt⟩

/-- `kryptos_mp_montgomery_reduction` gives the remainder for every odd modulus of one digit and every number. -/
theorem montgomery_single (hw : 16 ≤ w) (x y : Num w) (hx : x.data ≠ []) (hxn : x.neg = false) (hy : y.data.length = 1)
    (hyn : y.neg = false) (hodd : val y.data % 2 = 1) :
    ∃ r, montgomery x y = .ok (some r) ∧ r.neg = false ∧ val r.data = val x.data % val y.data := by
  obtain ⟨r, h1, h2, h3, h4⟩ := montgomery_core hw x y hx hxn (List.ne_nil_of_length_pos (by omega)) hyn hodd
  have hr := h4 hy
  have hlt := val_lt y.data
  rw [hy, Nat.mul_one] at hlt
  have hv : val r.data = val x.data % val y.data := by
    rw [← h3, Nat.mod_eq_of_lt hr]
  rw [h1]
  by_cases hs : sig r.data = 0
  · exact ⟨r, by rw [if_pos hs], h2, hv⟩
  · have hs1 : sig r.data = 1 := by
      by_contra h
      have h5 := sig_pos_le r.data (by omega)
      have : 2 ^ w ≤ 2 ^ (w * (sig r.data - 1)) := Nat.pow_le_pow_right (by omega) (Nat.le_mul_of_pos_right _ (by omega))
      omega
    rw [if_neg hs, hs1]
    have : newSize w (1 * 8) = 1 := by rw [newSize]; apply Nat.div_eq_of_lt_le <;> omega
    rw [this]
    refine ⟨⟨padTo 1 (r.data.take 1), false⟩, by simp, rfl, ?_⟩
    simp only [val_padTo]
    rw [← hv, ← hs1, val_take_sig]

/-- When the remainder does not fit in one digit, `kryptos_mp_montgomery_reduction` writes outside the memory it has
allocated for the result: it allocates one byte, not one digit, for each digit. -/
theorem montgomery_out_of_bounds (hw : 16 ≤ w) (x y : Num w) (hx : x.data ≠ []) (hxn : x.neg = false) (hy : y.data ≠ [])
    (hyn : y.neg = false) (hodd : val y.data % 2 = 1) (hbig : 2 ^ w ≤ val x.data % val y.data) : montgomery x y = .ub := by
  obtain ⟨r, h1, h2, h3, -⟩ := montgomery_core hw x y hx hxn hy hyn hodd
  have hle : val x.data % val y.data ≤ val r.data := by rw [← h3]; exact Nat.mod_le _ _
  have hs : 2 ≤ sig r.data := by
    by_contra h
    have h5 := val_lt_sig r.data
    have : 2 ^ (w * sig r.data) ≤ 2 ^ w := Nat.pow_le_pow_right (by omega) (by
      calc w * sig r.data ≤ w * 1 := Nat.mul_le_mul_left _ (by omega)
        _ = w := Nat.mul_one w)
    omega
  rw [h1, if_neg (by omega), if_pos (newSize_small hw _ hs)]

example : montgomery (⟨[3, 1], false⟩ : Num 64) ⟨[1, 2], false⟩ = .ub :=
  montgomery_out_of_bounds (by decide) _ _ (by decide) rfl (by decide) rfl (by decide +kernel) (by decide +kernel)

/-- For an even modulus the result is wrong: 1 mod 2 comes out as 0. -/
theorem montgomery_even_wrong : ∃ r, montgomery (⟨[1], false⟩ : Num 64) ⟨[2], false⟩ = .ok (some r) ∧ val r.data ≠ 1 % 2 := by
  have h : (match montgomery (⟨[1], false⟩ : Num 64) ⟨[2], false⟩ with
    | .ok (some r) => decide (val r.data ≠ 1 % 2)
    | _ => false) = true := by decide +kernel
  split at h
  · rename_i r e
    exact ⟨r, e, of_decide_eq_true h⟩
  · cases h

example : (match montgomery (⟨[1, 0x8000000000000000], false⟩ : Num 64) ⟨[0x8000000000000003], false⟩ with
    | .ok (some r) => decide (val r.data = (2 ^ 127 + 1) % 0x8000000000000003)
    | _ => false) = true := by decide +kernel

end Kryptos.Mp
