import Verif.Lemmas.Mp
/-
  The division of src/kryptos_mp.c.
-/
namespace Kryptos.Mp
open Spec.Mp

variable {w : Nat}

theorem rd_digit (d : Digits w) (i : Nat) (h : i < d.length) :
    ∃ x, rd d i = .ok x ∧ x.toNat = val d / 2 ^ (w * i) % 2 ^ w := by
  refine ⟨d[i], by simp [rd, h], ?_⟩
  rw [val_take_add_drop i d (by omega), Nat.add_mul_div_left _ _ (Nat.two_pow_pos _),
    Nat.div_eq_of_lt (by have := val_lt (d.take i); rwa [List.length_take, Nat.min_eq_left (by omega)] at this),
    Nat.zero_add, List.drop_eq_getElem_cons h, val, Nat.add_mul_mod_self_left, Nat.mod_eq_of_lt d[i].isLt]

theorem sig_unique (d : Digits w) (n : Nat) (hn : 0 < n) (h1 : 2 ^ (w * (n - 1)) ≤ val d) (h2 : val d < 2 ^ (w * n)) :
    sig d = n := by
  have hs : 0 < sig d := by
    rcases Nat.eq_zero_or_pos (sig d) with h | h
    · have := (sig_zero d).1 h
      have := Nat.two_pow_pos (w * (n - 1))
      omega
    · exact h
  have h3 := sig_pos_le d hs
  have h4 := val_lt_sig d
  have l1 : ∀ a b, 2 ^ (w * a) < 2 ^ (w * b) → a < b := fun a b h =>
    Nat.lt_of_mul_lt_mul_left (a := w) ((Nat.pow_lt_pow_iff_right (by omega)).1 h)
  have := l1 _ _ (lt_of_le_of_lt h3 h2)
  have := l1 _ _ (lt_of_le_of_lt h1 h4)
  omega

/-- The highest significant digit. -/
theorem rd_top (d : Digits w) (h : 0 < sig d) :
    ∃ x, rd d (sig d - 1) = .ok x ∧ x.toNat = val d / 2 ^ (w * (sig d - 1)) ∧ x.toNat ≠ 0 := by
  have := sig_le d
  obtain ⟨x, h1, h2⟩ := rd_digit d (sig d - 1) (by omega)
  have h3 : val d / 2 ^ (w * (sig d - 1)) < 2 ^ w := by
    apply Nat.div_lt_of_lt_mul
    rw [← pow_add]
    have := val_lt_sig d
    rwa [show w * (sig d - 1) + w = w * sig d by
      obtain ⟨k, hk⟩ : ∃ k, sig d = k + 1 := ⟨sig d - 1, by omega⟩
      rw [hk, Nat.add_sub_cancel]; ring]
  rw [Nat.mod_eq_of_lt h3] at h2
  refine ⟨x, h1, h2, ?_⟩
  have := Nat.div_pos (sig_pos_le d h) (Nat.two_pow_pos _)
  omega

/-- Normalization shifts both operands by the same amount, until the highest digit of the divisor has its top bit. -/
theorem normalize_spec (hw : 8 ≤ w) (fuel : Nat) (xn yn : Num w) (s : Nat) (hy : val yn.data ≠ 0) (hx : 0 < xn.data.length)
    (hf : 2 ^ (w * sig yn.data) ≤ val yn.data * 2 ^ fuel) :
    ∃ k xn' yn', normalize fuel xn yn s = .ok (xn', yn', s + k) ∧
      val xn'.data = val xn.data * 2 ^ k ∧ val yn'.data = val yn.data * 2 ^ k ∧
      xn'.data.length = xn.data.length + k ∧ yn'.data.length = yn.data.length + k ∧
      sig yn'.data = sig yn.data ∧ 2 ^ (w * sig yn.data) ≤ 2 * val yn'.data ∧
      xn'.neg = xn.neg ∧ yn'.neg = yn.neg := by
  induction fuel generalizing xn yn s with
  | zero =>
    have := val_lt_sig yn.data
    omega
  | succ fuel ih =>
    have hs : 0 < sig yn.data := Nat.pos_of_ne_zero fun h => hy ((sig_zero _).1 h)
    obtain ⟨t, h1, h2, h3⟩ := rd_top yn.data hs
    have hyl : 0 < yn.data.length := by have := sig_le yn.data; omega
    have hpow : 2 ^ (w * sig yn.data) = 2 ^ (w * (sig yn.data - 1)) * 2 ^ w := by
      rw [← pow_add]; congr 1
      obtain ⟨k, hk⟩ : ∃ k, sig yn.data = k + 1 := ⟨sig yn.data - 1, by omega⟩
      rw [hk, Nat.add_sub_cancel]; ring
    have hww : 2 ^ w = 2 * 2 ^ (w - 1) := by
      rw [← pow_succ']; congr 1; omega
    rw [normalize, h1]
    simp only [Out.bind_ok]
    rw [if_neg (by omega)]
    by_cases hlt : t.toNat < 2 ^ (w - 1)
    · rw [if_pos hlt]
      obtain ⟨x1, x2, x3⟩ := lsh_spec hw xn 1 hx
      obtain ⟨y1, y2, y3⟩ := lsh_spec hw yn 1 hyl
      rw [show (1 + w - 1) / w = 1 by rw [Nat.div_eq_iff (by omega)]; omega] at x3 y3
      have hsig : sig (lsh yn 1).data = sig yn.data := by
        apply sig_unique _ _ hs
        · rw [y2]; have := sig_pos_le yn.data hs; omega
        · rw [y2, hpow, pow_one, hww]
          rw [h2, Nat.div_lt_iff_lt_mul (Nat.two_pow_pos _)] at hlt
          have : 2 * val yn.data < 2 * (2 ^ (w - 1) * 2 ^ (w * (sig yn.data - 1))) := by omega
          calc _ < _ := this
            _ = _ := by ring
      obtain ⟨k, xn', yn', e1, e2, e3, e4, e5, e6, e7, e8, e9⟩ := ih (lsh xn 1) (lsh yn 1) (s + 1)
        (by rw [y2]; omega) (by omega) (by rw [hsig, y2, pow_one, Nat.mul_assoc, Nat.mul_left_comm, ← pow_succ']; exact hf)
      refine ⟨k + 1, xn', yn', ?_, ?_, ?_, by omega, by omega, by rw [e6, hsig], by rw [← hsig]; exact e7,
        by rw [e8, x1], by rw [e9, y1]⟩
      · rw [e1, Nat.add_assoc, Nat.add_comm 1 k]
      · rw [e2, x2]; ring
      · rw [e3, y2]; ring
    · rw [if_neg hlt]
      refine ⟨0, xn, yn, rfl, by simp, by simp, rfl, rfl, rfl, ?_, rfl, rfl⟩
      rw [h2] at hlt
      have hge := Nat.le_of_not_lt hlt
      rw [Nat.le_div_iff_mul_le (Nat.two_pow_pos _)] at hge
      rw [hpow, hww]
      calc _ = 2 * (2 ^ (w - 1) * 2 ^ (w * (sig yn.data - 1))) := by ring
        _ ≤ _ := Nat.mul_le_mul_left _ hge

/-- Up to 255 subtractions. -/
theorem subtractB_spec (hw : 8 ≤ w) (fuel : Nat) (xn b : Num w) (qm : Nat) (hx : 0 < xn.data.length) (hxn : xn.neg = false)
    (hb : b.neg = false) :
    ∃ xn' k, subtractB fuel xn b qm = .ok (xn', qm + k) ∧ k ≤ fuel ∧ xn'.neg = false ∧ 0 < xn'.data.length ∧
      val xn.data = val xn'.data + k * val b.data ∧ (k < fuel → val xn'.data < val b.data) := by
  induction fuel generalizing xn qm with
  | zero => exact ⟨xn, 0, rfl, by omega, hxn, hx, by simp, by omega⟩
  | succ fuel ih =>
    rw [subtractB]
    by_cases hge : val b.data ≤ val xn.data
    · rw [if_pos ((ge_spec xn b (by rw [hxn, hb])).2 hge)]
      obtain ⟨r, h1, h2, h3⟩ := sub_le hw xn b hge hx hxn
      rw [h1]
      simp only [Out.bind_ok]
      obtain ⟨xn', k, e1, e2, e3, e4, e5, e6⟩ := ih ⟨r, false⟩ (qm + 1) h3 rfl
      refine ⟨xn', k + 1, ?_, by omega, e3, e4, ?_, fun h => e6 (by omega)⟩
      · rw [e1, Nat.add_assoc, Nat.add_comm 1 k]
      · simp only [h2] at e5
        rw [Nat.add_mul]; omega
    · rw [if_neg (by rw [ge_spec xn b (by rw [hxn, hb])]; exact hge)]
      exact ⟨xn, 0, rfl, by omega, hxn, hx, by simp, fun _ => by omega⟩

/-- The guess when the digits above the two which are read are zero. -/
theorem guess_spec (xn : Digits w) (xi : Nat) (top : BitVec w) (hxi : xi < xn.length) (ht : top.toNat ≠ 0)
    (hb : val xn < 2 ^ (w * (xi + 1))) :
    ∃ E, guess xn xi top = .ok (if 2 ^ w - 1 < E then 0xFF else E) ∧ E = val xn / 2 ^ (w * (xi - 1)) / top.toNat := by
  have ht' : top ≠ 0 := fun h => ht (by simp [h])
  obtain ⟨hi, h1, h2⟩ := rd_digit xn xi hxi
  refine ⟨_, ?_, rfl⟩
  rw [guess, h1]
  simp only [Out.bind_ok]
  have hhi : hi.toNat = val xn / 2 ^ (w * xi) := by
    rw [h2, Nat.mod_eq_of_lt]
    apply Nat.div_lt_of_lt_mul
    rw [← pow_add]
    rwa [show w * xi + w = w * (xi + 1) by ring]
  by_cases h : 1 ≤ xi
  · obtain ⟨lo, h3, h4⟩ := rd_digit xn (xi - 1) (by omega)
    rw [if_pos h, h3]
    simp only [Out.bind_ok]
    rw [if_neg ht']
    have : hi.toNat * 2 ^ w + lo.toNat = val xn / 2 ^ (w * (xi - 1)) := by
      rw [hhi, h4]
      have : val xn / 2 ^ (w * xi) = val xn / 2 ^ (w * (xi - 1)) / 2 ^ w := by
        rw [Nat.div_div_eq_div_mul, ← pow_add]
        congr 2
        obtain ⟨k, rfl⟩ : ∃ k, xi = k + 1 := ⟨xi - 1, by omega⟩
        rw [Nat.add_sub_cancel]; ring
      rw [this, Nat.mul_comm]
      exact Nat.div_add_mod _ _
    rw [this]
  · have h0 : xi = 0 := by omega
    subst h0
    rw [if_neg h]
    simp only [Out.bind_ok]
    rw [if_neg ht', hhi]

/-- In general the guess is some number below the radix. -/
theorem guess_any (hw : 8 ≤ w) (xn : Digits w) (xi : Nat) (top : BitVec w) (hxi : xi < xn.length) (ht : top.toNat ≠ 0) :
    ∃ E, guess xn xi top = .ok E ∧ E < 2 ^ w := by
  have ht' : top ≠ 0 := fun h => ht (by simp [h])
  have hp : 2 ^ 8 ≤ 2 ^ w := Nat.pow_le_pow_right (by omega) hw
  obtain ⟨hi, h1, h2⟩ := rd_digit xn xi hxi
  rw [guess, h1]
  simp only [Out.bind_ok]
  by_cases h : 1 ≤ xi
  · obtain ⟨lo, h3, h4⟩ := rd_digit xn (xi - 1) (by omega)
    rw [if_pos h, h3]
    simp only [Out.bind_ok]
    rw [if_neg ht']
    exact ⟨_, rfl, by split <;> omega⟩
  · rw [if_neg h]
    simp only [Out.bind_ok]
    rw [if_neg ht']
    exact ⟨_, rfl, by split <;> omega⟩

/-- The correction looks for the largest digit up to the guess that fits, among 255 candidates. -/
theorem correct_spec (hw : 8 ≤ w) (xn yn : Num w) (j fuel E : Nat) (hx : 0 < xn.data.length) (hy : 0 < yn.data.length)
    (hxn : xn.neg = false) (hyn : yn.neg = false) (hE : E < 2 ^ w) :
    ∃ (q : BitVec w) (xn' : Num w), correct xn yn j fuel E = .ok (q, xn') ∧ xn'.neg = false ∧ 0 < xn'.data.length ∧
      val xn.data = val xn'.data + q.toNat * (val yn.data * 2 ^ (w * j)) ∧ q.toNat ≤ E ∧
      (∀ t, t ≤ E → t * (val yn.data * 2 ^ (w * j)) ≤ val xn.data →
        (∀ u, t < u → u ≤ E → val xn.data < u * (val yn.data * 2 ^ (w * j))) →
        q.toNat = if E - t < fuel then t else 0) := by
  induction fuel generalizing E with
  | zero =>
    exact ⟨0, xn, rfl, hxn, hx, by simp, by simp, fun t _ _ _ => by simp⟩
  | succ fuel ih =>
    rw [correct]
    simp only [assign_none_eq hw yn hy]
    obtain ⟨b, b1, b2, b3, b4⟩ := mulDigit_spec hw yn (BitVec.ofNat w E) hy
    rw [b1]
    simp only [Out.bind_ok]
    rw [BitVec.toNat_ofNat, Nat.mod_eq_of_lt hE] at b2
    obtain ⟨l1, l2, l3⟩ := lsh_spec hw b (w * j) b3
    have hbv : val (lsh b (w * j)).data = E * (val yn.data * 2 ^ (w * j)) := by rw [l2, b2]; ring
    have hneg : xn.neg = (lsh b (w * j)).neg := by rw [hxn, l1, b4 hyn]
    by_cases hlt : val xn.data < E * (val yn.data * 2 ^ (w * j))
    · rw [if_pos ((lt_spec _ _ hneg).2 (by rw [hbv]; exact hlt))]
      have hE0 : E ≠ 0 := by rintro rfl; simp at hlt
      obtain ⟨q, xn', e1, e2, e3, e4, e5, e6⟩ := ih (E - 1) (by omega)
      refine ⟨q, xn', e1, e2, e3, e4, by omega, fun t h1 h2 h3 => ?_⟩
      have : t ≠ E := by rintro rfl; omega
      rw [e6 t (by omega) h2 (fun u hu1 hu2 => h3 u hu1 (by omega))]
      by_cases hc : E - t < fuel + 1
      · rw [if_pos hc, if_pos (by omega)]
      · rw [if_neg hc, if_neg (by omega)]
    · rw [if_neg (by rw [lt_spec _ _ hneg, hbv]; exact hlt)]
      obtain ⟨r, r1, r2, r3⟩ := sub_le hw xn (lsh b (w * j)) (by rw [hbv]; omega) hx hxn
      rw [r1]
      simp only [Out.bind_ok]
      refine ⟨BitVec.ofNat w E, ⟨r, false⟩, rfl, rfl, r3, ?_, ?_, fun t h1 h2 h3 => ?_⟩
      · rw [BitVec.toNat_ofNat, Nat.mod_eq_of_lt hE]
        simp only [r2, hbv]; omega
      · rw [BitVec.toNat_ofNat, Nat.mod_eq_of_lt hE]
      · rw [BitVec.toNat_ofNat, Nat.mod_eq_of_lt hE]
        have : t = E := by
          by_contra hne
          exact hlt (h3 E (by omega) (Nat.le_refl _))
        rw [this, Nat.sub_self, if_pos (by omega)]

/-! ### The arithmetic of the guess -/

/-- `GuessOverflows` for operands which are already shifted. -/
def Bad (B n top X Y j : Nat) : Prop := top ≤ X % (Y * B ^ (j + 1)) / B ^ (n + j)

theorem arith_bad {B k j X Y top : Nat} (hB : 0 < B) (h1 : B ≤ 2 * top) (h2 : Y < (top + 1) * B ^ k)
    (hbad : top ≤ X / B ^ (k + 1 + j)) : (B - 2) * (Y * B ^ j) ≤ X := by
  have hX : top * B ^ (k + 1 + j) ≤ X := (Nat.le_div_iff_mul_le (Nat.pow_pos hB)).1 hbad
  have h3 : (B - 2) * (top + 1) ≤ top * B := by
    rw [Nat.mul_comm top, Nat.sub_mul, Nat.mul_add]; omega
  calc (B - 2) * (Y * B ^ j) ≤ (B - 2) * ((top + 1) * B ^ k * B ^ j) :=
        Nat.mul_le_mul_left _ (Nat.mul_le_mul_right _ (Nat.le_of_lt h2))
    _ = (B - 2) * (top + 1) * (B ^ k * B ^ j) := by ring
    _ ≤ top * B * (B ^ k * B ^ j) := Nat.mul_le_mul_right _ h3
    _ = top * B ^ (k + 1 + j) := by ring
    _ ≤ X := hX

theorem arith_over {B k j X Y top E : Nat} (h1 : B ≤ 2 * top) (h2 : Y < (top + 1) * B ^ k)
    (hE : E = X / B ^ (k + j) / top) (hEB : E < B) : (E - 2) * (Y * B ^ j) ≤ X := by
  have hX : E * top * B ^ (k + j) ≤ X := by
    have h3 : E * top ≤ X / B ^ (k + j) := by rw [hE]; exact Nat.div_mul_le_self _ _
    exact (Nat.mul_le_mul_right _ h3).trans (Nat.div_mul_le_self _ _)
  have h3 : (E - 2) * (top + 1) ≤ E * top := by
    rw [Nat.mul_add, Nat.sub_mul]
    rcases Nat.lt_or_ge E 2 with h | h
    · rw [show E - 2 = 0 by omega]; omega
    · have : 2 * top ≤ E * top := Nat.mul_le_mul_right _ h
      omega
  calc (E - 2) * (Y * B ^ j) ≤ (E - 2) * ((top + 1) * B ^ k * B ^ j) :=
        Nat.mul_le_mul_left _ (Nat.mul_le_mul_right _ (Nat.le_of_lt h2))
    _ = (E - 2) * (top + 1) * (B ^ k * B ^ j) := by ring
    _ ≤ E * top * (B ^ k * B ^ j) := Nat.mul_le_mul_right _ h3
    _ = E * top * B ^ (k + j) := by ring
    _ ≤ X := hX

theorem arith_under {B k j X Y top q : Nat} (hB : 0 < B) (ht : 0 < top) (h2 : top * B ^ k ≤ Y)
    (hq : q * (Y * B ^ j) ≤ X) : q ≤ X / B ^ (k + j) / top := by
  rw [Nat.le_div_iff_mul_le ht, Nat.le_div_iff_mul_le (Nat.pow_pos hB)]
  calc q * top * B ^ (k + j) = q * (top * B ^ k * B ^ j) := by ring
    _ ≤ q * (Y * B ^ j) := Nat.mul_le_mul_left _ (Nat.mul_le_mul_right _ h2)
    _ ≤ X := hq

/-! ### The main loop -/

/-- Whatever the guesses are, the loop subtracts a multiple of the divisor. -/
theorem divLoop_any (hw : 8 ≤ w) (yn : Num w) (n : Nat) (top : BitVec w) (ht : top.toNat ≠ 0) (hy : 0 < yn.data.length)
    (hyn : yn.neg = false) (J : Nat) (xn : Num w) (hx : 0 < xn.data.length) (hxn : xn.neg = false) :
    ∃ q xn', divLoop yn n top J xn = .ok (q, xn') ∧ q.length = J ∧ xn'.neg = false ∧ 0 < xn'.data.length ∧
      val xn.data = val xn'.data + val q * val yn.data := by
  induction J generalizing xn with
  | zero => exact ⟨[], xn, rfl, rfl, hxn, hx, by simp [val]⟩
  | succ j ih =>
    obtain ⟨E, e1, e2⟩ := guess_any hw xn.data (if xn.data.length ≤ n + j then xn.data.length - 1 else n + j) top
      (by split <;> omega) ht
    obtain ⟨d, x1, c1, c2, c3, c4, -, -⟩ := correct_spec hw xn yn j 0xFF E hx hy hxn hyn e2
    obtain ⟨q, x2, h1, h2, h3, h4, h5⟩ := ih x1 c3 c2
    refine ⟨q ++ [d], x2, ?_, by simp [h2], h3, h4, ?_⟩
    · simp only [divLoop]
      rw [e1, Out.bind_ok, c1, Out.bind_ok, h1, Out.bind_ok]
    · rw [val_append, h2, c4, h5]
      simp only [val, Nat.mul_zero, Nat.add_zero]
      ring

/-- The loop leaves less than the divisor exactly when no guess overflows. -/
theorem divLoop_exact (hw : 16 ≤ w) (yn : Num w) (k : Nat) (top : BitVec w)
    (hY1 : (2 ^ w) ^ (k + 1) ≤ 2 * val yn.data) (hY2 : val yn.data < (2 ^ w) ^ (k + 1))
    (htop : top.toNat = val yn.data / (2 ^ w) ^ k) (hy : 0 < yn.data.length) (hyn : yn.neg = false)
    (J : Nat) (xn : Num w) (hx : 0 < xn.data.length) (hxn : xn.neg = false) (hX : val xn.data < val yn.data * (2 ^ w) ^ J) :
    ∃ q xn', divLoop yn (k + 1) top J xn = .ok (q, xn') ∧ q.length = J ∧ xn'.neg = false ∧ 0 < xn'.data.length ∧
      val xn.data = val xn'.data + val q * val yn.data ∧
      (val xn'.data < val yn.data ↔ ∀ j < J, ¬ Bad (2 ^ w) (k + 1) top.toNat (val xn.data) (val yn.data) j) := by
  have hB16 : 2 ^ 16 ≤ 2 ^ w := Nat.pow_le_pow_right (by omega) hw
  have hBe : 2 ^ w = 2 * 2 ^ (w - 1) := by rw [← pow_succ']; congr 1; omega
  have hpm : ∀ i, 2 ^ (w * i) = (2 ^ w) ^ i := fun i => pow_mul 2 w i
  have hBp : ∀ i, 0 < (2 ^ w) ^ i := fun i => Nat.pow_pos (Nat.two_pow_pos w)
  have ht2 : 2 ^ w ≤ 2 * top.toNat := by
    have : 2 ^ (w - 1) ≤ top.toNat := by
      rw [htop, Nat.le_div_iff_mul_le (hBp k)]
      rw [pow_succ, hBe] at hY1
      have : 2 * (2 ^ (w - 1) * (2 ^ w) ^ k) ≤ 2 * val yn.data := by
        rw [hBe]; calc _ = _ := by ring
          _ ≤ _ := hY1
      omega
    omega
  have htY : top.toNat * (2 ^ w) ^ k ≤ val yn.data := by rw [htop]; exact Nat.div_mul_le_self _ _
  have hYt : val yn.data < (top.toNat + 1) * (2 ^ w) ^ k := by
    rw [htop, Nat.mul_comm]; exact Nat.lt_mul_div_succ _ (hBp k)
  have htl := top.isLt
  have hY0 : 0 < val yn.data := by have := hBp (k + 1); omega
  induction J generalizing xn with
  | zero =>
    refine ⟨[], xn, rfl, rfl, hxn, hx, by simp [val], ?_⟩
    simpa using hX
  | succ j ih =>
    have hYB : 0 < val yn.data * (2 ^ w) ^ j := Nat.mul_pos hY0 (hBp j)
    have hmod : val xn.data % (val yn.data * (2 ^ w) ^ (j + 1)) = val xn.data := Nat.mod_eq_of_lt hX
    set X := val xn.data with hXdef
    set Y := val yn.data with hYdef
    set xi := if xn.data.length ≤ k + 1 + j then xn.data.length - 1 else k + 1 + j with hxi
    have hxil : xi < xn.data.length := by rw [hxi]; split <;> omega
    have hXlen := val_lt xn.data
    rw [← hXdef, hpm] at hXlen
    have hXn : X < (2 ^ w) ^ (k + 1 + j + 1) := by
      refine lt_of_lt_of_le hX ?_
      rw [Nat.add_assoc (k + 1), pow_add _ (k + 1)]
      exact Nat.mul_le_mul_right _ (Nat.le_of_lt hY2)
    obtain ⟨E, g1, g2⟩ := guess_spec xn.data xi top hxil (by omega) (by
      rw [← hXdef, hpm, hxi]
      split
      · rwa [Nat.sub_add_cancel hx]
      · exact hXn)
    rw [← hXdef, hpm] at g2
    set G := if 2 ^ w - 1 < E then 0xFF else E with hG
    have hGl : G < 2 ^ w := by rw [hG]; split <;> omega
    obtain ⟨d, x1, c1, c2, c3, c4, c5, c6⟩ := correct_spec (by omega) xn yn j 0xFF G hx hy hxn hyn hGl
    rw [← hXdef, ← hYdef, hpm] at c4
    simp only [← hXdef, ← hYdef, hpm] at c6
    have hstep : ∀ q xn', divLoop yn (k + 1) top j x1 = .ok (q, xn') →
        divLoop yn (k + 1) top (j + 1) xn = .ok (q ++ [d], xn') := by
      intro q xn' h
      simp only [divLoop]
      rw [show guess xn.data (if xn.data.length ≤ k + 1 + j then xn.data.length - 1 else k + 1 + j) top = .ok G from g1,
        Out.bind_ok, c1, Out.bind_ok, h, Out.bind_ok]
    have hval : ∀ (q : Digits w) (v : Nat), q.length = j → val x1.data = v + val q * Y →
        X = v + val (q ++ [d]) * Y := by
      intro q v h1 h2
      rw [val_append, h1, c4, h2, hpm]
      simp only [val, Nat.mul_zero, Nat.add_zero]
      ring
    by_cases hbad : Bad (2 ^ w) (k + 1) top.toNat X Y j
    · -- the digit is at most 255, much is left
      have hb : top.toNat ≤ X / (2 ^ w) ^ (k + 1 + j) := by rw [Bad, hmod] at hbad; exact hbad
      have hbig := arith_bad (Nat.two_pow_pos w) ht2 hYt hb
      have hlong : k + 1 + j < xn.data.length := by
        by_contra hlong
        have : (2 ^ w) ^ xn.data.length ≤ (2 ^ w) ^ (k + 1 + j) := Nat.pow_le_pow_right (Nat.two_pow_pos w) (by omega)
        rw [Nat.div_eq_of_lt (by omega)] at hb
        omega
      have hE : 2 ^ w ≤ E := by
        rw [g2, show xi = k + 1 + j by rw [hxi, if_neg (by omega)], Nat.le_div_iff_mul_le (by omega),
          show k + 1 + j - 1 = k + j by omega, Nat.le_div_iff_mul_le (hBp _)]
        have := (Nat.le_div_iff_mul_le (hBp _)).1 hb
        calc _ = top.toNat * (2 ^ w) ^ (k + 1 + j) := by ring
          _ ≤ _ := this
      have hd : d.toNat ≤ 255 := by
        rw [hG, if_pos (by omega)] at c5; exact c5
      have hleft : Y * (2 ^ w) ^ j ≤ val x1.data := by
        have h1 : d.toNat * (Y * (2 ^ w) ^ j) ≤ 255 * (Y * (2 ^ w) ^ j) := Nat.mul_le_mul_right _ hd
        have h2 : 256 * (Y * (2 ^ w) ^ j) ≤ (2 ^ w - 2) * (Y * (2 ^ w) ^ j) := Nat.mul_le_mul_right _ (by omega)
        have h3 := h2.trans hbig
        omega
      obtain ⟨q, x2, h1, h2, h3, h4, h5⟩ := divLoop_any (by omega) yn (k + 1) top (by omega) hy hyn j x1 c3 c2
      refine ⟨q ++ [d], x2, hstep _ _ h1, by simp [h2], h3, h4, hval _ _ h2 h5, ?_⟩
      constructor
      · intro hlt
        exfalso
        have hq := val_lt q
        rw [h2, hpm] at hq
        have : (val q + 1) * Y ≤ (2 ^ w) ^ j * Y := Nat.mul_le_mul_right _ hq
        rw [Nat.add_mul, Nat.one_mul, Nat.mul_comm ((2 ^ w) ^ j) Y] at this
        rw [← hYdef] at h5
        omega
      · intro h; exact absurd hbad (h j (by omega))
    · -- the digit is right
      have hb : X / (2 ^ w) ^ (k + 1 + j) < top.toNat := by rw [Bad, hmod] at hbad; omega
      have hd : d.toNat = X / (Y * (2 ^ w) ^ j) := by
        have hq1 := Nat.div_mul_le_self X (Y * (2 ^ w) ^ j)
        have hq2 : ∀ u, X / (Y * (2 ^ w) ^ j) < u → X < u * (Y * (2 ^ w) ^ j) := fun u hu =>
          (Nat.div_lt_iff_lt_mul hYB).1 hu
        rcases Nat.lt_or_ge (k + 1 + j) xn.data.length with hl | hl
        · rw [show xi = k + 1 + j by rw [hxi, if_neg (by omega)], show k + 1 + j - 1 = k + j by omega] at g2
          have hEB : E < 2 ^ w := by
            rw [g2, Nat.div_lt_iff_lt_mul (by omega), Nat.div_lt_iff_lt_mul (hBp _)]
            rw [Nat.div_lt_iff_lt_mul (hBp _)] at hb
            calc _ < _ := hb
              _ = _ := by ring
          have hGE : G = E := by rw [hG, if_neg (by omega)]
          have hqE : X / (Y * (2 ^ w) ^ j) ≤ E := by
            rw [g2]; exact arith_under (Nat.two_pow_pos w) (by omega) htY hq1
          have hEq : E - 2 ≤ X / (Y * (2 ^ w) ^ j) := by
            rw [Nat.le_div_iff_mul_le hYB]
            exact arith_over ht2 hYt g2 hEB
          rw [c6 (X / (Y * (2 ^ w) ^ j)) (by omega) hq1 (fun u hu _ => hq2 u hu), if_pos (by omega)]
        · have hXs : X < (2 ^ w) ^ (k + 1 + j) :=
            lt_of_lt_of_le hXlen (Nat.pow_le_pow_right (Nat.two_pow_pos w) hl)
          have hX2 : X < 2 * (Y * (2 ^ w) ^ j) := by
            rw [pow_add] at hXs
            have := Nat.mul_le_mul_right ((2 ^ w) ^ j) hY1
            rw [Nat.mul_assoc] at this
            omega
          rcases Nat.lt_or_ge X (Y * (2 ^ w) ^ j) with h0 | h0
          · rw [Nat.div_eq_of_lt h0] at hq1 hq2 ⊢
            rw [c6 0 (by omega) hq1 (fun u hu _ => hq2 u hu)]
            split <;> rfl
          · have hq : X / (Y * (2 ^ w) ^ j) = 1 := by
              rw [Nat.div_eq_iff hYB]; omega
            rw [hq] at hq1 hq2 ⊢
            have hYk : (2 ^ w) ^ k ≤ Y := by
              refine le_trans ?_ htY
              exact Nat.le_mul_of_pos_left _ (by omega)
            have hlen : xn.data.length = k + 1 + j := by
              have : (2 ^ w) ^ (k + j) < (2 ^ w) ^ xn.data.length := by
                refine lt_of_le_of_lt ?_ hXlen
                refine le_trans ?_ h0
                rw [pow_add]
                exact Nat.mul_le_mul_right _ hYk
              have := (Nat.pow_lt_pow_iff_right (show 1 < 2 ^ w by omega)).1 this
              omega
            rw [show xi = k + j by rw [hxi, if_pos hl]; omega] at g2
            have h1G : 1 ≤ G ∧ G ≤ 255 := by
              rcases Nat.eq_zero_or_pos (k + j) with hkj | hkj
              · obtain ⟨rfl, rfl⟩ : k = 0 ∧ j = 0 := by omega
                simp only [pow_zero, Nat.add_zero, Nat.div_one, Nat.mul_one, Nat.zero_sub] at g2 htop hq
                rw [htop, hq] at g2
                rw [hG, g2, if_neg (by omega)]; omega
              · have : 2 ^ w ≤ E := by
                  rw [g2, Nat.le_div_iff_mul_le (by omega), Nat.le_div_iff_mul_le (hBp _)]
                  have h6 := Nat.mul_le_mul_right ((2 ^ w) ^ j) htY
                  have h7 : 2 ^ w * top.toNat * (2 ^ w) ^ (k + j - 1) = top.toNat * (2 ^ w) ^ k * (2 ^ w) ^ j := by
                    rw [Nat.mul_assoc top.toNat, ← pow_add]
                    obtain ⟨e, he⟩ : ∃ e, k + j = e + 1 := ⟨k + j - 1, by omega⟩
                    rw [he, Nat.add_sub_cancel]; ring
                  omega
                rw [hG, if_pos (by omega)]; omega
            rw [c6 1 (by omega) hq1 (fun u hu _ => hq2 u hu), if_pos (by omega)]
      have hx1 : val x1.data = X % (Y * (2 ^ w) ^ j) := by
        rw [hd] at c4
        have := Nat.div_add_mod X (Y * (2 ^ w) ^ j)
        rw [Nat.mul_comm] at this
        omega
      obtain ⟨q, x2, h1, h2, h3, h4, h5, h6⟩ := ih x1 c3 c2 (by rw [hx1]; exact Nat.mod_lt _ hYB)
      refine ⟨q ++ [d], x2, hstep _ _ h1, by simp [h2], h3, h4, hval _ _ h2 h5, ?_⟩
      rw [h6, hx1]
      have hsub : ∀ i < j, X % (Y * (2 ^ w) ^ j) % (Y * (2 ^ w) ^ (i + 1)) = X % (Y * (2 ^ w) ^ (i + 1)) := by
        intro i hi
        exact Nat.mod_mod_of_dvd _ (Nat.mul_dvd_mul_left _ (pow_dvd_pow _ hi))
      constructor
      · intro h i hi
        rcases Nat.lt_or_ge i j with hij | hij
        · have := h i hij
          rw [Bad, hsub i hij] at this
          exact this
        · rw [show i = j by omega]; exact hbad
      · intro h i hi
        have := h i (by omega)
        rw [Bad, hsub i hi]
        exact this

/-! ### The whole division -/

theorem digitCount_eq (hw : 0 < w) (d : Digits w) (h : val d ≠ 0) : digitCount w (val d) = sig d := by
  have hs : 0 < sig d := Nat.pos_of_ne_zero fun h' => h ((sig_zero _).1 h')
  have h1 := sig_pos_le d hs
  have h2 := val_lt_sig d
  rw [pow_mul] at h1 h2
  unfold digitCount
  have : Nat.log (2 ^ w) (val d) = sig d - 1 := by
    rw [Nat.log_eq_iff (.inr ⟨Nat.one_lt_two_pow (by omega), h⟩), Nat.sub_add_cancel hs]
    exact ⟨h1, h2⟩
  omega

theorem normShift_eq (hw : 0 < w) (d : Digits w) (h : val d ≠ 0) (k : Nat) (h1 : 2 ^ (w * sig d) ≤ 2 * (val d * 2 ^ k))
    (h2 : val d * 2 ^ k < 2 ^ (w * sig d)) : normShift w (val d) = k := by
  rw [normShift, digitCount_eq hw d h]
  have hk : k < w * sig d := by
    have : 2 ^ k < 2 ^ (w * sig d) := lt_of_le_of_lt (Nat.le_mul_of_pos_left _ (by omega)) h2
    exact (Nat.pow_lt_pow_iff_right (by omega)).1 this
  obtain ⟨e, he⟩ : ∃ e, w * sig d = e + 1 + k := ⟨w * sig d - 1 - k, by omega⟩
  have : Nat.log 2 (val d) = e := by
    rw [Nat.log_eq_iff (.inr ⟨by omega, h⟩)]
    rw [he, pow_add] at h1 h2
    constructor
    · have : 2 ^ e * 2 ^ k ≤ val d * 2 ^ k := by
        rw [pow_succ] at h1
        have : 2 * (2 ^ e * 2 ^ k) ≤ 2 * (val d * 2 ^ k) := by
          calc _ = 2 ^ e * 2 * 2 ^ k := by ring
            _ ≤ _ := h1
        omega
      exact Nat.le_of_mul_le_mul_right this (Nat.two_pow_pos k)
    · exact Nat.lt_of_mul_lt_mul_right h2
  omega

/-- The conditions under which the code divides right: `m` is the number of steps, and no guess overflows. -/
def DivRight (w x y m : Nat) : Prop := x < y * (2 ^ w) ^ (m + 1) ∧ ∀ j, ¬ GuessOverflows w x y j

/-- The number of quotient digits computed below the first. -/
def divSteps (lx ly : Nat) : Nat := if lx ≤ ly then 1 else lx - ly

theorem divMain_spec (hw : 16 ≤ w) (x y : Num w) (hx : 0 < x.data.length) (hxn : x.neg = false) (hyn : y.neg = false)
    (hy : val y.data ≠ 0) :
    ∃ q r : Digits w, divMain x y = .ok (⟨q, false⟩, ⟨r, false⟩) ∧ 0 < q.length ∧ r.length = max (sig r) 1 ∧
      val x.data = val q * val y.data + val r ∧
      (val r < val y.data ↔ DivRight w (val x.data) (val y.data) (divSteps x.data.length y.data.length)) := by
  have hw8 : 8 ≤ w := by omega
  have hpm : ∀ i, 2 ^ (w * i) = (2 ^ w) ^ i := fun i => pow_mul 2 w i
  have hBp : ∀ i, 0 < (2 ^ w) ^ i := fun i => Nat.pow_pos (Nat.two_pow_pos w)
  have hB16 : 2 ^ 16 ≤ 2 ^ w := Nat.pow_le_pow_right (by omega) hw
  have hsy : 0 < sig y.data := Nat.pos_of_ne_zero fun h' => hy ((sig_zero _).1 h')
  have hyl : 0 < y.data.length := by have := sig_le y.data; omega
  have hxa : assign (some (newMp w (x.data.length * w))) x = x := by
    simp only [assign, newMp, List.length_replicate, newSize_mul hw8, padTo]
    rw [show max x.data.length 1 - x.data.length = 0 by omega]; simp
  obtain ⟨s, xn, yn, e1, e2, e3, e4, e5, e6, e7, e8, e9⟩ := normalize_spec hw8 (w + 1) x y 0 hy hx (by
    have := sig_pos_le y.data hsy
    obtain ⟨k, hk⟩ : ∃ k, sig y.data = k + 1 := ⟨sig y.data - 1, by omega⟩
    rw [hk, Nat.add_sub_cancel] at this
    rw [hk, show w * (k + 1) = w * k + w by ring, pow_add, pow_succ 2 w]
    calc _ ≤ val y.data * 2 ^ w := Nat.mul_le_mul_right _ this
      _ ≤ val y.data * (2 ^ w * 2) := Nat.mul_le_mul_left _ (by omega))
  rw [hxn] at e8; rw [hyn] at e9
  have hyn0 : val yn.data ≠ 0 := by
    rw [e3]; have := Nat.mul_pos (Nat.pos_of_ne_zero hy) (Nat.two_pow_pos s); omega
  obtain ⟨k, hk⟩ : ∃ k, sig y.data = k + 1 := ⟨sig y.data - 1, by omega⟩
  obtain ⟨top, t1, t2, t3⟩ := rd_top yn.data (by omega)
  have hY2 := val_lt_sig yn.data
  have hns : normShift w (val y.data) = s := normShift_eq (by omega) y.data hy s (by rw [← e3]; exact e7)
    (by rw [← e3, ← e6]; exact hY2)
  have hdc : digitCount w (val y.data) = k + 1 := by rw [digitCount_eq (by omega) _ hy, hk]
  rw [e6, hk] at t1 t2 hY2
  rw [hk] at e7
  rw [Nat.add_sub_cancel, hpm] at t2
  rw [hpm] at e7 hY2
  set X := val xn.data with hX
  set Y := val yn.data with hY
  have hY0 : 0 < Y := by omega
  set m := divSteps x.data.length y.data.length with hm
  have hm' : (if xn.data.length ≤ yn.data.length then 1 else xn.data.length - yn.data.length) = m := by
    rw [hm, divSteps, e4, e5]
    by_cases h : x.data.length ≤ y.data.length
    · rw [if_pos h, if_pos (by omega)]
    · rw [if_neg h, if_neg (by omega)]; omega
  obtain ⟨b1, b2, b3⟩ := lsh_spec hw8 yn (w * m) (by omega)
  rw [hpm, ← hY, Nat.mul_comm ((2 ^ w) ^ m)] at b2
  -- the specification in terms of the shifted operands
  have hgo : ∀ j, GuessOverflows w (val x.data) (val y.data) j ↔ Bad (2 ^ w) (k + 1) top.toNat X Y j := by
    intro j
    simp only [GuessOverflows, Bad, hdc, hns, Nat.add_sub_cancel]
    rw [t2, e2, e3, show val y.data * 2 ^ s * (2 ^ w) ^ (j + 1) = val y.data * (2 ^ w) ^ (j + 1) * 2 ^ s by ring,
      Nat.mul_mod_mul_right]
  have hlt : val x.data < val y.data * (2 ^ w) ^ (m + 1) ↔ X < Y * (2 ^ w) ^ (m + 1) := by
    rw [e2, e3, show val y.data * 2 ^ s * (2 ^ w) ^ (m + 1) = val y.data * (2 ^ w) ^ (m + 1) * 2 ^ s by ring]
    exact (Nat.mul_lt_mul_right (Nat.two_pow_pos s)).symm
  have hspec : DivRight w (val x.data) (val y.data) m ↔
      X < Y * (2 ^ w) ^ (m + 1) ∧ ∀ j, ¬ Bad (2 ^ w) (k + 1) top.toNat X Y j := by
    rw [DivRight, hlt]; simp only [hgo]
  have hYt : Y < (top.toNat + 1) * (2 ^ w) ^ k := by
    rw [t2, Nat.mul_comm]; exact Nat.lt_mul_div_succ _ (hBp k)
  have ht2 : 2 ^ w ≤ 2 * top.toNat := by
    have hBe : 2 ^ w = 2 * 2 ^ (w - 1) := by rw [← pow_succ']; congr 1; omega
    have : 2 ^ (w - 1) ≤ top.toNat := by
      rw [t2, Nat.le_div_iff_mul_le (hBp k)]
      have : 2 * (2 ^ (w - 1) * (2 ^ w) ^ k) ≤ 2 * Y := by
        calc _ = (2 * 2 ^ (w - 1)) * (2 ^ w) ^ k := by ring
          _ = (2 ^ w) ^ (k + 1) := by rw [← hBe]; ring
          _ ≤ _ := e7
      omega
    omega
  -- a guess does not overflow where the quotient digit is small
  have hsmall : ∀ i j, i ≤ j → X < 256 * (Y * (2 ^ w) ^ i) → ¬ Bad (2 ^ w) (k + 1) top.toNat X Y j := by
    intro i j hij hXi hbad
    have h1 : Y * (2 ^ w) ^ i ≤ Y * (2 ^ w) ^ j :=
      Nat.mul_le_mul_left _ (Nat.pow_le_pow_right (Nat.two_pow_pos w) hij)
    have h2 : 256 * (Y * (2 ^ w) ^ j) ≤ (2 ^ w - 2) * (Y * (2 ^ w) ^ j) := Nat.mul_le_mul_right _ (by omega)
    have hb : top.toNat ≤ X / (2 ^ w) ^ (k + 1 + j) := hbad.trans (Nat.div_le_div_right (Nat.mod_le _ _))
    have h3 := h2.trans (arith_bad (Nat.two_pow_pos w) ht2 hYt hb)
    omega
  obtain ⟨x1, qm, s1, s2, s3, s4, s5, s6⟩ := subtractB_spec hw8 0xFF xn (lsh yn (w * m)) 0 (by omega) e8 (by rw [b1, e9])
  rw [Nat.zero_add] at s1
  rw [b2, ← hX] at s5
  rw [b2] at s6
  have hm0 : 0 < m := by rw [hm, divSteps]; split <;> omega
  -- the part after the loop
  have fin : ∀ (Q : Digits w) (R : Num w), Q.length = m + 1 → 0 < R.data.length → X = val R.data + val Q * Y →
      (val R.data < Y ↔ DivRight w (val x.data) (val y.data) m) →
      ((if qm = 0xFF && ge x1 (lsh yn (w * m)) then
          if lt xn yn then (.ok (List.replicate (m + 1) 0, xn) : Out (Digits w × Num w)) else divLoop yn (k + 1) top (m + 1) xn
        else if lt x1 yn then .ok (List.replicate m 0 ++ [BitVec.ofNat w qm], x1)
        else do
          let r ← divLoop yn (k + 1) top m x1
          .ok (r.1 ++ [BitVec.ofNat w qm], r.2)) = .ok (Q, R)) →
      ∃ q r : Digits w, divMain x y = .ok (⟨q, false⟩, ⟨r, false⟩) ∧ 0 < q.length ∧ r.length = max (sig r) 1 ∧
        val x.data = val q * val y.data + val r ∧
        (val r < val y.data ↔ DivRight w (val x.data) (val y.data) m) := by
    intro Q R hQl hRl hXQ hright heq
    set R' := if 0 < s then rsh R s else R with hR'
    have hRv : val R'.data = val R.data / 2 ^ s := by
      rw [hR']
      split
      · exact (rsh_spec hw8 R s hRl).2.1
      · rw [show s = 0 by omega]; simp
    have hdvd : val R.data = (val x.data - val Q * val y.data) * 2 ^ s ∧ val Q * val y.data ≤ val x.data := by
      rw [e2, e3, ← Nat.mul_assoc] at hXQ
      constructor
      · rw [Nat.sub_mul]; omega
      · exact Nat.le_of_mul_le_mul_right (show val Q * val y.data * 2 ^ s ≤ val x.data * 2 ^ s by omega) (Nat.two_pow_pos s)
    have hr : val R'.data = val x.data - val Q * val y.data := by
      rw [hRv, hdvd.1, Nat.mul_div_cancel _ (Nat.two_pow_pos s)]
    refine ⟨(if sig Q = 0 then (⟨padTo (newSize w ((m + 1) * w)) Q, false⟩ : Num w) else ⟨norm Q, false⟩).data,
      norm R'.data, ?_, ?_, ?_, ?_, ?_⟩
    · simp only [divMain, hxa, assign_none_eq hw8 y hyl]
      rw [e1, Out.bind_ok]
      simp only [e6, hk, Nat.add_sub_cancel, hm', Nat.zero_add]
      rw [Nat.add_sub_cancel] at t1
      rw [t1, Out.bind_ok, s1, Out.bind_ok]
      simp only []
      rw [heq, Out.bind_ok]
      simp only [← hR']
      split <;> rfl
    · split
      · rw [length_padTo]; omega
      · rw [length_norm hw8]; omega
    · rw [length_norm hw8]
      congr 1
      exact (sig_norm hw8 R'.data).symm
    · have : val (if sig Q = 0 then (⟨padTo (newSize w ((m + 1) * w)) Q, false⟩ : Num w) else ⟨norm Q, false⟩).data =
          val Q := by
        split
        · rw [val_padTo]
        · rw [val_norm]
      rw [this, val_norm, hr]; omega
    · rw [val_norm, ← hright, hr, hdvd.1, e3]
      exact (Nat.mul_lt_mul_right (Nat.two_pow_pos s)).symm
  have hgeiff : ge x1 (lsh yn (w * m)) = true ↔ Y * (2 ^ w) ^ m ≤ val x1.data := by
    rw [ge_spec _ _ (by rw [s3, b1, e9]), b2]
  by_cases hA : qm = 0xFF ∧ Y * (2 ^ w) ^ m ≤ val x1.data
  · -- 255 subtractions were not enough
    have hcond : (decide (qm = 0xFF) && ge x1 (lsh yn (w * m))) = true := by
      rw [Bool.and_eq_true, decide_eq_true_eq, hgeiff]; exact hA
    have hXY : ¬ X < Y := by
      have : Y * 1 ≤ Y * (2 ^ w) ^ m := Nat.mul_le_mul_left _ (hBp m)
      rw [hA.1] at s5; omega
    have hltf : ¬ lt xn yn = true := by rw [lt_spec _ _ (by rw [e8, e9])]; exact hXY
    rcases Nat.lt_or_ge X (Y * (2 ^ w) ^ (m + 1)) with hlt' | hge'
    · obtain ⟨q, x2, d1, d2, d3, d4, d5, d6⟩ := divLoop_exact hw yn k top e7 hY2 t2 (by omega) e9 (m + 1) xn (by omega) e8 hlt'
      refine fin q x2 d2 d4 d5 ?_ (by rw [if_pos hcond, if_neg hltf, d1])
      rw [hspec, d6]
      constructor
      · intro h
        refine ⟨hlt', fun j => ?_⟩
        rcases Nat.lt_or_ge j (m + 1) with hj | hj
        · exact h j hj
        · exact hsmall (m + 1) j hj (by omega)
      · exact fun h j _ => h.2 j
    · obtain ⟨q, x2, d1, d2, d3, d4, d5⟩ := divLoop_any hw8 yn (k + 1) top t3 (by omega) e9 (m + 1) xn (by omega) e8
      refine fin q x2 d2 d4 d5 ?_ (by rw [if_pos hcond, if_neg hltf, d1])
      rw [hspec]
      constructor
      · intro h
        exfalso
        have hq := val_lt q
        rw [d2, hpm] at hq
        have : (val q + 1) * Y ≤ (2 ^ w) ^ (m + 1) * Y := Nat.mul_le_mul_right _ hq
        rw [Nat.add_mul, Nat.one_mul, Nat.mul_comm ((2 ^ w) ^ (m + 1)) Y] at this
        rw [← hX, ← hY] at d5
        omega
      · intro h; omega
  · have hcond : ¬ (decide (qm = 0xFF) && ge x1 (lsh yn (w * m))) = true := by
      rw [Bool.and_eq_true, decide_eq_true_eq, hgeiff]; exact hA
    have hx1 : val x1.data < Y * (2 ^ w) ^ m := by
      rcases Nat.lt_or_ge qm 255 with h | h
      · exact s6 h
      · by_contra hge
        exact hA ⟨by omega, by omega⟩
    have hqml : (BitVec.ofNat w qm).toNat = qm := by rw [BitVec.toNat_ofNat, Nat.mod_eq_of_lt (by omega)]
    have hX256 : X < 256 * (Y * (2 ^ w) ^ m) := by
      have : qm * (Y * (2 ^ w) ^ m) ≤ 255 * (Y * (2 ^ w) ^ m) := Nat.mul_le_mul_right _ s2
      omega
    have hXm : X < Y * (2 ^ w) ^ (m + 1) := by
      refine hX256.trans_le ?_
      calc 256 * (Y * (2 ^ w) ^ m) ≤ 2 ^ w * (Y * (2 ^ w) ^ m) := Nat.mul_le_mul_right _ (by omega)
        _ = _ := by ring
    have hmod : ∀ j < m, X % (Y * (2 ^ w) ^ (j + 1)) = val x1.data % (Y * (2 ^ w) ^ (j + 1)) := by
      intro j hj
      obtain ⟨c, hc⟩ := Nat.mul_dvd_mul_left Y (pow_dvd_pow (2 ^ w) (show j + 1 ≤ m from hj))
      rw [s5, hc, ← Nat.mul_assoc, Nat.mul_comm qm, Nat.mul_assoc, Nat.add_mul_mod_self_left]
    by_cases hltY : val x1.data < Y
    · refine fin (List.replicate m 0 ++ [BitVec.ofNat w qm]) x1 (by simp) s4 ?_ ?_ (by
        rw [if_neg hcond, if_pos ((lt_spec _ _ (by rw [s3, e9])).2 hltY)])
      · rw [val_append, val_replicate, List.length_replicate, hpm]
        simp only [val, hqml, Nat.mul_zero, Nat.add_zero, Nat.zero_add]
        rw [s5]; ring
      · rw [hspec]
        refine ⟨fun _ => ⟨hXm, fun j => ?_⟩, fun _ => hltY⟩
        rcases Nat.lt_or_ge j m with hj | hj
        · rw [Bad, hmod j hj, Nat.div_eq_of_lt]
          · omega
          · refine lt_of_le_of_lt (Nat.mod_le _ _) (hltY.trans (hY2.trans_le ?_))
            exact Nat.pow_le_pow_right (Nat.two_pow_pos w) (by omega)
        · exact hsmall m j hj hX256
    · obtain ⟨q, x2, d1, d2, d3, d4, d5, d6⟩ := divLoop_exact hw yn k top e7 hY2 t2 (by omega) e9 m x1 s4 s3 hx1
      refine fin (q ++ [BitVec.ofNat w qm]) x2 (by simp [d2]) d4 ?_ ?_ (by
        rw [if_neg hcond, if_neg (by rw [lt_spec _ _ (by rw [s3, e9])]; exact hltY), d1]; rfl)
      · rw [val_append, d2, hpm]
        simp only [val, hqml, Nat.mul_zero, Nat.add_zero]
        rw [s5, d5, ← hY]; ring
      · rw [hspec, d6]
        constructor
        · intro h
          refine ⟨hXm, fun j => ?_⟩
          rcases Nat.lt_or_ge j m with hj | hj
          · have := h j hj
            rw [Bad, ← hmod j hj] at this
            exact this
          · exact hsmall m j hj hX256
        · intro h j hj
          have := h.2 j
          rw [Bad, hmod j hj] at this
          exact this

end Kryptos.Mp
