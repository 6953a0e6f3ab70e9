import Verif.Props.Elgamal
/-
  Which divisors `kryptos_mp_div` handles (C119): it is right for every dividend exactly when the divisor is a number of one digit
  times a power of two.  An odd modulus with more than one digit is never among them.
-/
namespace Kryptos.Mp
open Spec.Mp

variable {w : Nat}

/-- The shape of a number: its digits and the shift which fills the highest of them. -/
theorem shape_of (hw : 0 < w) (y : Nat) (hy : y ≠ 0) : Shape w y (digitCount w y) (normShift w y) := by
  have hB : 1 < 2 ^ w := Nat.one_lt_two_pow hw.ne'
  have a1 : 2 ^ Nat.log 2 y ≤ y := Nat.pow_log_le_self 2 hy
  have a2 : y < 2 ^ (Nat.log 2 y + 1) := Nat.lt_pow_succ_log_self (by omega) _
  have b1 : (2 ^ w) ^ Nat.log (2 ^ w) y ≤ y := Nat.pow_log_le_self _ hy
  have b2 : y < (2 ^ w) ^ (Nat.log (2 ^ w) y + 1) := Nat.lt_pow_succ_log_self hB _
  rw [← pow_mul] at b1 b2
  have c1 : w * Nat.log (2 ^ w) y < Nat.log 2 y + 1 := (Nat.pow_lt_pow_iff_right (by omega)).1 (lt_of_le_of_lt b1 a2)
  have c2 : Nat.log 2 y < w * (Nat.log (2 ^ w) y + 1) := (Nat.pow_lt_pow_iff_right (by omega)).1 (lt_of_le_of_lt a1 b2)
  have c3 : w * (Nat.log (2 ^ w) y + 1) = w * Nat.log (2 ^ w) y + w := by ring
  refine ⟨hw, Nat.succ_pos _, b2, ?_, ?_, ?_⟩
  · calc 2 ^ (w * digitCount w y - 1) = 2 ^ Nat.log 2 y * 2 ^ normShift w y := by
          rw [← pow_add]; congr 1; simp only [normShift, digitCount]; omega
      _ ≤ _ := Nat.mul_le_mul_right _ a1
  · calc y * 2 ^ normShift w y < 2 ^ (Nat.log 2 y + 1) * 2 ^ normShift w y := Nat.mul_lt_mul_of_pos_right a2 (Nat.two_pow_pos _)
      _ = _ := by rw [← pow_add]; congr 1; simp only [normShift, digitCount]; omega
  · simp only [normShift, digitCount]; omega

/-- A number of one digit, shifted. -/
def OneDigit (w y : Nat) : Prop := ∃ m k, m < 2 ^ w ∧ y = m * 2 ^ k

/-- The lower digits of the shifted divisor are zero exactly when the divisor is a number of one digit, shifted. -/
theorem oneDigit_iff (hw : 0 < w) (y : Nat) (hy : y ≠ 0) :
    (2 ^ w) ^ (digitCount w y - 1) ∣ y * 2 ^ normShift w y ↔ OneDigit w y := by
  have h := shape_of hw y hy
  generalize digitCount w y = n at h
  generalize normShift w y = s at h
  obtain ⟨n, rfl⟩ : ∃ n', n = n' + 1 := ⟨n - 1, by have := h.hn; omega⟩
  have e : w * (n + 1) = w * n + w := by ring
  rw [Nat.add_sub_cancel, ← pow_mul]
  constructor
  · rintro ⟨T, hT⟩
    have hlt : T < 2 ^ w := by
      have := h.hi
      rw [hT, e, pow_add] at this
      exact Nat.lt_of_mul_lt_mul_left this
    rcases Nat.eq_zero_or_pos n with rfl | hn
    · exact ⟨y, 0, by simpa using h.fit, by simp⟩
    · have hs : s ≤ w * n := by
        have := h.hs
        have : w * 1 ≤ w * n := Nat.mul_le_mul_left w hn
        omega
      refine ⟨T, w * n - s, hlt, Nat.eq_of_mul_eq_mul_right (Nat.two_pow_pos s) ?_⟩
      rw [hT, Nat.mul_assoc, ← pow_add, Nat.sub_add_cancel hs, Nat.mul_comm]
  · rintro ⟨m, k, hm, rfl⟩
    rw [Nat.mul_assoc, ← pow_add]
    refine Dvd.dvd.mul_left (Nat.pow_dvd_pow 2 ?_) m
    have h1 := h.lo
    rw [Nat.mul_assoc, ← pow_add] at h1
    have h2 : m * 2 ^ (k + s) < 2 ^ (w + (k + s)) := by
      rw [pow_add 2 w]; exact Nat.mul_lt_mul_of_pos_right hm (Nat.two_pow_pos _)
    have h3 := (Nat.pow_lt_pow_iff_right (show 1 < 2 by omega)).1 (lt_of_le_of_lt h1 h2)
    omega

/-- With `L` the lower digits of the shifted divisor: a dividend which is within `L` of the first power is guessed too high. -/
theorem overflow_of (hw : 0 < w) (x y : Nat) (hy : y ≠ 0) (hlt : x < y * 2 ^ w)
    (h : y * 2 ^ w * 2 ^ normShift w y ≤
      x * 2 ^ normShift w y + y * 2 ^ normShift w y % (2 ^ w) ^ (digitCount w y - 1) * 2 ^ w) : GuessOverflows w x y 0 := by
  have hs := shape_of hw y hy
  obtain ⟨n, hn⟩ : ∃ n', digitCount w y = n' + 1 := ⟨digitCount w y - 1, by have := hs.hn; omega⟩
  simp only [GuessOverflows]
  rw [hn] at h ⊢
  rw [Nat.add_sub_cancel] at h ⊢
  rw [Nat.zero_add, pow_one, Nat.mod_eq_of_lt hlt, Nat.le_div_iff_mul_le (Nat.pow_pos (Nat.two_pow_pos w)), Nat.add_zero, pow_succ]
  have hd := Nat.div_add_mod (y * 2 ^ normShift w y) ((2 ^ w) ^ n)
  generalize y * 2 ^ normShift w y / (2 ^ w) ^ n = T at hd ⊢
  generalize y * 2 ^ normShift w y % (2 ^ w) ^ n = L at hd h
  have : y * 2 ^ w * 2 ^ normShift w y = T * ((2 ^ w) ^ n * 2 ^ w) + L * 2 ^ w := by
    calc _ = y * 2 ^ normShift w y * 2 ^ w := by ring
      _ = _ := by rw [← hd]; ring
  omega

/-- No guess overflows for a number of one digit, shifted. -/
theorem no_overflow_shifted (hw : 0 < w) (x y j : Nat) (hy : y ≠ 0) (h : OneDigit w y) : ¬ GuessOverflows w x y j := by
  obtain ⟨T, hT⟩ := (oneDigit_iff hw y hy).2 h
  have hs := shape_of hw y hy
  obtain ⟨n, hn⟩ : ∃ n', digitCount w y = n' + 1 := ⟨digitCount w y - 1, by have := hs.hn; omega⟩
  simp only [GuessOverflows, Nat.not_le]
  rw [hT, hn, Nat.add_sub_cancel, Nat.mul_div_cancel_left _ (Nat.pow_pos (Nat.two_pow_pos w)),
    Nat.div_lt_iff_lt_mul (Nat.pow_pos (Nat.two_pow_pos w))]
  rw [hn, Nat.add_sub_cancel] at hT
  have hm := Nat.mod_lt x (Nat.mul_pos (Nat.pos_of_ne_zero hy) (Nat.pow_pos (n := j + 1) (Nat.two_pow_pos w)))
  calc _ < y * (2 ^ w) ^ (j + 1) * 2 ^ normShift w y := Nat.mul_lt_mul_of_pos_right hm (Nat.two_pow_pos _)
    _ = y * 2 ^ normShift w y * (2 ^ w) ^ (j + 1) := by ring
    _ = _ := by rw [hT, show n + 1 + j = n + (j + 1) by omega, pow_add]; ring

/-- For every other divisor `y` the dividend `y * 2 ^ w - 1` is guessed too high. -/
theorem overflow_exists (hw : 0 < w) (y : Nat) (hy : y ≠ 0) (h : ¬ OneDigit w y) : GuessOverflows w (y * 2 ^ w - 1) y 0 := by
  have hs := shape_of hw y hy
  rw [← oneDigit_iff hw y hy] at h
  have hp : 0 < y * 2 ^ w := Nat.mul_pos (Nat.pos_of_ne_zero hy) (Nat.two_pow_pos w)
  refine overflow_of hw _ y hy (by omega) ?_
  have hL : 0 < y * 2 ^ normShift w y % (2 ^ w) ^ (digitCount w y - 1) := Nat.pos_of_ne_zero fun h' => h (Nat.dvd_of_mod_eq_zero h')
  generalize y * 2 ^ normShift w y % (2 ^ w) ^ (digitCount w y - 1) = L at hL
  have h1 : 2 ^ normShift w y ≤ 2 ^ w := Nat.pow_le_pow_right (by omega) hs.hs.le
  have h2 : 2 ^ w ≤ L * 2 ^ w := Nat.le_mul_of_pos_left _ hL
  rw [Nat.sub_mul, Nat.one_mul]
  omega

/-- An odd number with more than one digit is not a shifted number of one digit. -/
theorem odd_not_oneDigit (y : Nat) (ho : y % 2 = 1) (hb : 2 ^ w ≤ y) : ¬ OneDigit w y := by
  rintro ⟨m, k, hm, rfl⟩
  rcases k with - | k
  · rw [pow_zero, Nat.mul_one] at hb; omega
  · rw [pow_succ, ← Nat.mul_assoc] at ho; omega

/-- For every odd number `y` with more than one digit the product of `2 ^ w` and `y - 1` is guessed too high. -/
theorem overflow_odd (hw : 0 < w) (y : Nat) (ho : y % 2 = 1) (hb : 2 ^ w ≤ y) : GuessOverflows w (2 ^ w * (y - 1)) y 0 := by
  have hy : y ≠ 0 := by omega
  have hs := shape_of hw y hy
  have h := odd_not_oneDigit y ho hb
  rw [← oneDigit_iff hw y hy] at h
  have hn : 2 ≤ digitCount w y := by
    by_contra hn
    refine h ?_
    rw [show digitCount w y - 1 = 0 by omega, pow_zero]
    exact Nat.one_dvd _
  refine overflow_of hw _ y hy ?_ ?_
  · rw [Nat.mul_comm y]; exact Nat.mul_lt_mul_of_pos_left (by omega) (Nat.two_pow_pos w)
  · have hd : 2 ^ normShift w y ∣ (2 ^ w) ^ (digitCount w y - 1) := by
      rw [← pow_mul]
      refine Nat.pow_dvd_pow 2 (hs.hs.le.trans ?_)
      exact Nat.le_mul_of_pos_right w (by omega)
    have hL := (Nat.dvd_mod_iff hd).2 (Nat.dvd_mul_left (2 ^ normShift w y) y)
    have hpos : 0 < y * 2 ^ normShift w y % (2 ^ w) ^ (digitCount w y - 1) := Nat.pos_of_ne_zero fun h' => h (Nat.dvd_of_mod_eq_zero h')
    have hle := Nat.le_of_dvd hpos hL
    generalize y * 2 ^ normShift w y % (2 ^ w) ^ (digitCount w y - 1) = L at hle
    have h1 := Nat.mul_le_mul_right (2 ^ w) hle
    calc y * 2 ^ w * 2 ^ normShift w y = 2 ^ w * (y - 1) * 2 ^ normShift w y + 2 ^ normShift w y * 2 ^ w := by
          obtain ⟨z, rfl⟩ : ∃ z, y = z + 1 := ⟨y - 1, by omega⟩
          rw [Nat.add_sub_cancel]; ring
      _ ≤ _ := by omega

/-- A number with given digits. -/
theorem exists_is (hw : 0 < w) (v : Nat) : ∃ x : Num w, Is x v := by
  obtain ⟨d, hd, hv⟩ : ∃ d : Digits w, d ≠ [] ∧ val d = v := by
    induction v using Nat.strongRecOn with
    | _ v ih =>
      by_cases h : v < 2 ^ w
      · exact ⟨[BitVec.ofNat w v], by simp, by simp [val, Nat.mod_eq_of_lt h]⟩
      · have hB : 1 < 2 ^ w := Nat.one_lt_two_pow hw.ne'
        obtain ⟨d, -, hv⟩ := ih (v / 2 ^ w) (Nat.div_lt_self (by omega) hB)
        refine ⟨BitVec.ofNat w v :: d, by simp, ?_⟩
        simp only [val, BitVec.toNat_ofNat, hv]
        exact Nat.mod_add_div v _
  exact ⟨⟨d, false⟩, List.length_pos_iff.2 hd, rfl, hv⟩

/-- C119, what the code does: for a divisor with a highest digit that is not zero, quotient and remainder are right for every dividend
exactly when the divisor is a number of one digit, shifted. -/
theorem div_right_iff (hw : 16 ≤ w) (y : Num w) (hyn : y.neg = false) (hy : val y.data ≠ 0) (htop : sig y.data = y.data.length) :
    (∀ x : Num w, x.data ≠ [] → x.neg = false → ∃ q r, div x y = .ok (some (q, r)) ∧ val q.data = val x.data / val y.data ∧
      val r.data = val x.data % val y.data) ↔ ∃ m k, m < 2 ^ w ∧ val y.data = m * 2 ^ k := by
  constructor
  · intro h
    by_contra hno
    obtain ⟨x, hx⟩ := exists_is (w := w) (by omega) (val y.data * 2 ^ w - 1)
    obtain ⟨q, r, d1, -, d3⟩ := h x (List.ne_nil_of_length_pos hx.1) hx.2.1
    obtain ⟨q', r', e1, -, -, -, -, -, e7⟩ := div_exact_iff hw x y (List.ne_nil_of_length_pos hx.1) hx.2.1 hyn hy
    rw [d1] at e1
    simp only [Out.ok.injEq, Option.some.injEq, Prod.mk.injEq] at e1
    obtain ⟨rfl, rfl⟩ := e1
    have := (e7.1 (by rw [d3]; exact Nat.mod_lt _ (Nat.pos_of_ne_zero hy))).2 0
    rw [hx.2.2] at this
    exact this (overflow_exists (by omega) _ hy hno)
  · intro h x hx hxn
    obtain ⟨q, r, d1, -, -, -, -, d2, d3⟩ := div_partial hw x y hx hxn hyn hy htop fun j => no_overflow_shifted (by omega) _ _ j hy h
    exact ⟨q, r, d1, d2, d3⟩

/-- A divisor with several digits for which it holds, and one for which it does not. -/
example : (∃ m k, m < 2 ^ 64 ∧ val (⟨[0, 5], false⟩ : Num 64).data = m * 2 ^ k) ∧
    ¬ ∃ m k, m < 2 ^ 64 ∧ val (⟨[1, 5], false⟩ : Num 64).data = m * 2 ^ k :=
  ⟨⟨5, 64, by decide, by decide⟩, odd_not_oneDigit _ (by decide) (by decide)⟩

/-- C119 refuted for every modulus of the public key methods: for an odd number `n` with more than one digit the product of the
numbers `2 ^ w` and `n - 1`, both below `n`, does not come out reduced. -/
theorem mulMod_odd_wrong (hw : 16 ≤ w) (n : Num w) (hn : n.neg = false) (ho : val n.data % 2 = 1) (hb : 2 ^ w ≤ val n.data) :
    ∃ a b : Num w, Is a (2 ^ w) ∧ Is b (val n.data - 1) ∧ 2 ^ w < val n.data ∧
      ∃ q r, (do let p ← mul a b; div p n) = .ok (some (q, r)) ∧ val n.data ≤ val r.data ∧
        val r.data ≠ 2 ^ w * (val n.data - 1) % val n.data := by
  obtain ⟨a, ha⟩ := exists_is (w := w) (by omega) (2 ^ w)
  obtain ⟨b, hbI⟩ := exists_is (w := w) (by omega) (val n.data - 1)
  have hn0 : val n.data ≠ 0 := by omega
  have he : 2 ^ w % 2 = 0 := by
    obtain ⟨v, rfl⟩ : ∃ v, w = v + 1 := ⟨w - 1, by omega⟩
    rw [pow_succ]; omega
  refine ⟨a, b, ha, hbI, lt_of_le_of_ne hb fun h => by omega, ?_⟩
  obtain ⟨m, h1, h2⟩ := ha.mul (by omega) hbI
  obtain ⟨q, r, d1, -, -, -, -, -, d7⟩ := div_exact_iff hw m n (List.ne_nil_of_length_pos h2.1) h2.2.1 hn hn0
  rw [h1, Out.bind_ok]
  have hle : val n.data ≤ val r.data := by
    by_contra hlt
    refine (d7.1 (by omega)).2 0 ?_
    rw [h2.2.2]
    exact overflow_odd (by omega) _ ho hb
  refine ⟨q, r, d1, hle, fun h => ?_⟩
  have := Nat.mod_lt (2 ^ w * (val n.data - 1)) (Nat.pos_of_ne_zero hn0)
  omega

/-- A modulus to which it applies: the prime `2 ^ 127 - 1`, with digits of 64 bits. -/
example : val (⟨[0xFFFFFFFFFFFFFFFF, 0x7FFFFFFFFFFFFFFF], false⟩ : Num 64).data = 2 ^ 127 - 1 ∧ (2 ^ 127 - 1) % 2 = 1 ∧
    2 ^ 64 ≤ 2 ^ 127 - 1 := by decide

end Kryptos.Mp
