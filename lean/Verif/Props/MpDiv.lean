import Verif.Lemmas.MpDiv
import Verif.Props.Mp
import Mathlib.Data.Nat.ModEq
/-
  Big number division (C38) and modular exponentiation (C41).
-/
namespace Kryptos.Mp
open Spec.Mp

variable {w : Nat}

theorem bits_digit (x : BitVec w) (a k : Nat) :
    ((List.range k).reverse.map x.getLsbD).foldl (fun a b => 2 * a + b.toNat) a = a * 2 ^ k + x.toNat % 2 ^ k := by
  induction k generalizing a with
  | zero => simp [Nat.mod_one]
  | succ k ih =>
    rw [List.range_succ, List.reverse_append, List.reverse_singleton, List.singleton_append, List.map_cons, List.foldl_cons,
      ih, Nat.mod_pow_succ, BitVec.getLsbD, Nat.toNat_testBit]
    ring

/-- The bits visited are the binary expansion of the number. -/
theorem bits_val (d : Digits w) (a : Nat) :
    (bitsMsb d).foldl (fun a b => 2 * a + b.toNat) a = a * 2 ^ (w * d.length) + val d := by
  induction d generalizing a with
  | nil => simp [bitsMsb, val]
  | cons x xs ih =>
    have : bitsMsb (x :: xs) = bitsMsb xs ++ (List.range w).reverse.map x.getLsbD := by
      simp [bitsMsb, List.flatMap_append]
    rw [this, List.foldl_append, ih, bits_digit, Nat.mod_eq_of_lt x.isLt, val, List.length_cons, Nat.mul_add, pow_add]
    ring

theorem val_one (hw : 0 < w) : val (one : Num w).data = 1 := by
  have : 1 < 2 ^ w := Nat.one_lt_two_pow (by omega)
  simp [one, val, Nat.mod_eq_of_lt this]

/-! ### C38 -/

/-- `kryptos_mp_div` gives numbers `q` and `r` with `x = q * y + r`, for operands of every size.  The remainder is less than
the divisor exactly when `DivRight` holds: the dividend does not have too many digits for the allocated size of the divisor
and no guess of a quotient digit overflows. -/
theorem div_exact_iff (hw : 16 ≤ w) (x y : Num w) (hx : x.data ≠ []) (hxn : x.neg = false) (hyn : y.neg = false)
    (hy : val y.data ≠ 0) :
    ∃ q r, div x y = .ok (some (q, r)) ∧ q.neg = false ∧ r.neg = false ∧ q.data ≠ [] ∧ r.data ≠ [] ∧
      val x.data = val q.data * val y.data + val r.data ∧
      (val r.data < val y.data ↔ DivRight w (val x.data) (val y.data) (divSteps x.data.length y.data.length)) := by
  have hw8 : 8 ≤ w := by omega
  have hyz : isZeroD y.data = false := by rw [← Bool.not_eq_true, isZeroD_iff]; exact hy
  have hz : val (zero : Num w).data = 0 := by simp [zero, val]
  -- a dividend below the divisor is divided right
  have hsmall : val x.data < val y.data →
      DivRight w (val x.data) (val y.data) (divSteps x.data.length y.data.length) := by
    intro hlt
    refine ⟨lt_of_lt_of_le hlt (Nat.le_mul_of_pos_right _ (Nat.pow_pos (Nat.two_pow_pos w))), fun j => ?_⟩
    have hs : 0 < sig y.data := Nat.pos_of_ne_zero fun h' => hy ((sig_zero _).1 h')
    simp only [GuessOverflows, Nat.not_le]
    have hlt2 : val x.data % (val y.data * (2 ^ w) ^ (j + 1)) < val y.data := lt_of_le_of_lt (Nat.mod_le _ _) hlt
    set P := val x.data % (val y.data * (2 ^ w) ^ (j + 1))
    -- the shifted divisor has as many digits as the divisor
    have hn := digitCount_eq (by omega : 0 < w) y.data hy
    have h1 := sig_pos_le y.data hs
    have h2 := val_lt_sig y.data
    have hlog1 : 2 ^ Nat.log 2 (val y.data) ≤ val y.data := Nat.pow_log_le_self 2 hy
    have hlog2 : val y.data < 2 ^ (Nat.log 2 (val y.data) + 1) := Nat.lt_pow_succ_log_self (by omega) _
    have hle : Nat.log 2 (val y.data) + 1 ≤ w * sig y.data := by
      have : 2 ^ Nat.log 2 (val y.data) < 2 ^ (w * sig y.data) := lt_of_le_of_lt hlog1 h2
      exact (Nat.pow_lt_pow_iff_right (by omega)).1 this
    have hY : val y.data * 2 ^ normShift w (val y.data) < (2 ^ w) ^ sig y.data := by
      rw [← pow_mul, normShift, hn]
      calc _ < 2 ^ (Nat.log 2 (val y.data) + 1) * 2 ^ (w * sig y.data - (Nat.log 2 (val y.data) + 1)) :=
            Nat.mul_lt_mul_of_pos_right hlog2 (Nat.two_pow_pos _)
        _ = _ := by rw [← pow_add]; congr 1; omega
    rw [hn]
    have hPs : P * 2 ^ normShift w (val y.data) < (2 ^ w) ^ (sig y.data + j) := by
      refine lt_trans (Nat.mul_lt_mul_of_pos_right hlt2 (Nat.two_pow_pos _)) (lt_of_lt_of_le hY ?_)
      exact Nat.pow_le_pow_right (Nat.two_pow_pos w) (by omega)
    rw [Nat.div_eq_of_lt hPs]
    refine Nat.div_pos ?_ (Nat.pow_pos (Nat.two_pow_pos w))
    rw [← pow_mul]
    exact h1.trans (Nat.le_mul_of_pos_right _ (Nat.two_pow_pos _))
  rw [div, hyz]
  simp only [Bool.false_eq_true, if_false]
  by_cases hx0 : val x.data = 0
  · rw [(isZeroD_iff _).2 hx0]
    refine ⟨zero, zero, rfl, rfl, rfl, by simp [zero], by simp [zero], by rw [hz, hx0]; simp, ?_⟩
    exact ⟨fun _ => hsmall (by omega), fun _ => by rw [hz]; omega⟩
  · have hxz : isZeroD x.data = false := by rw [← Bool.not_eq_true, isZeroD_iff]; exact hx0
    rw [hxz]
    simp only [Bool.false_eq_true, if_false]
    by_cases hlt : val x.data < val y.data
    · rw [if_pos ((lt_spec x y (by rw [hxn, hyn])).2 hlt), assign_none_eq hw8 x (List.length_pos_iff.2 hx)]
      exact ⟨zero, x, rfl, rfl, hxn, by simp [zero], hx, by rw [hz]; simp, fun _ => hsmall hlt, fun _ => hlt⟩
    · rw [if_neg (by rw [lt_spec x y (by rw [hxn, hyn])]; exact hlt)]
      obtain ⟨q, r, h1, h2, h3, h4, h5⟩ := divMain_spec hw x y (List.length_pos_iff.2 hx) hxn hyn hy
      rw [h1]
      exact ⟨⟨q, false⟩, ⟨r, false⟩, rfl, rfl, rfl, List.length_pos_iff.1 h2,
        List.length_pos_iff.1 (lt_of_lt_of_le Nat.one_pos (h3 ▸ Nat.le_max_right _ _)), h4, h5⟩

/-- The number of digits of the dividend is no restriction when the highest digit of the divisor is not zero. -/
theorem size_right (x y : Digits w) (hy : sig y = y.length) (hy0 : val y ≠ 0) :
    val x < val y * (2 ^ w) ^ (divSteps x.length y.length + 1) := by
  have hs : 0 < sig y := Nat.pos_of_ne_zero fun h' => hy0 ((sig_zero _).1 h')
  have h1 := sig_pos_le y hs
  rw [pow_mul, hy] at h1
  have h2 := val_lt x
  rw [pow_mul] at h2
  refine lt_of_lt_of_le h2 ?_
  calc (2 ^ w) ^ x.length ≤ (2 ^ w) ^ (y.length - 1 + (divSteps x.length y.length + 1)) := by
        apply Nat.pow_le_pow_right (Nat.two_pow_pos w)
        unfold divSteps
        split <;> omega
    _ = (2 ^ w) ^ (y.length - 1) * (2 ^ w) ^ (divSteps x.length y.length + 1) := by rw [pow_add]
    _ ≤ _ := Nat.mul_le_mul_right _ h1

/-- Quotient and remainder are right when the highest digit of the divisor is not zero and no guess overflows.  Missing for
the full property: the operands excluded by these two hypotheses, on which the code is wrong (`div_exact_iff`,
`div_wrong`, `div_wrong_leading_zero`). -/
theorem div_partial (hw : 16 ≤ w) (x y : Num w) (hx : x.data ≠ []) (hxn : x.neg = false) (hyn : y.neg = false)
    (hy : val y.data ≠ 0) (htop : sig y.data = y.data.length)
    (hgo : ∀ j, ¬ GuessOverflows w (val x.data) (val y.data) j) :
    ∃ q r, div x y = .ok (some (q, r)) ∧ q.neg = false ∧ r.neg = false ∧ q.data ≠ [] ∧ r.data ≠ [] ∧
      val q.data = val x.data / val y.data ∧ val r.data = val x.data % val y.data := by
  obtain ⟨q, r, h1, h2, h3, h4, h5, h6, h7⟩ := div_exact_iff hw x y hx hxn hyn hy
  have hlt := h7.2 ⟨size_right _ _ htop hy, hgo⟩
  refine ⟨q, r, h1, h2, h3, h4, h5, ?_, ?_⟩
  · rw [h6, Nat.mul_comm, Nat.mul_add_div (Nat.pos_of_ne_zero hy), Nat.div_eq_of_lt hlt, Nat.add_zero]
  · rw [h6, Nat.mul_comm, Nat.mul_add_mod, Nat.mod_eq_of_lt hlt]

/-- No guess overflows for a divisor with a single significant digit. -/
theorem no_overflow_single (x y j : Nat) (hy : y ≠ 0) (h1 : y < 2 ^ w) : ¬ GuessOverflows w x y j := by
  have hn : digitCount w y = 1 := by
    rw [digitCount, Nat.log_of_lt h1]
  simp only [GuessOverflows, hn, Nat.not_le, Nat.sub_self, pow_zero, Nat.div_one]
  rw [Nat.div_lt_iff_lt_mul (Nat.pow_pos (Nat.two_pow_pos w))]
  have hm := Nat.mod_lt x (Nat.mul_pos (Nat.pos_of_ne_zero hy) (Nat.pow_pos (n := j + 1) (Nat.two_pow_pos w)))
  calc _ < y * (2 ^ w) ^ (j + 1) * 2 ^ normShift w y := Nat.mul_lt_mul_of_pos_right hm (Nat.two_pow_pos _)
    _ = _ := by rw [Nat.add_comm 1 j]; ring

/-- Division by a number of one digit is always right. -/
theorem div_single_digit (hw : 16 ≤ w) (x y : Num w) (hx : x.data ≠ []) (hxn : x.neg = false) (hyn : y.neg = false)
    (hy : val y.data ≠ 0) (h1 : y.data.length = 1) :
    ∃ q r, div x y = .ok (some (q, r)) ∧ val q.data = val x.data / val y.data ∧ val r.data = val x.data % val y.data := by
  have hlt := val_lt y.data
  rw [h1, Nat.mul_one] at hlt
  have hs : sig y.data = y.data.length := by
    have := sig_le y.data
    have : sig y.data ≠ 0 := fun h' => hy ((sig_zero _).1 h')
    omega
  obtain ⟨q, r, e1, -, -, -, -, e2, e3⟩ := div_partial hw x y hx hxn hyn hy hs
    (fun j => no_overflow_single _ _ j hy hlt)
  exact ⟨q, r, e1, e2, e3⟩

/-- A guess that overflows: the divisor is `2^127 + 1` and the dividend `2^255 + 2^128 - 1`; the remainder is larger than
the divisor.  This refutes the property as stated. -/
def badX : Num 64 := ⟨[0xFFFFFFFFFFFFFFFF, 0xFFFFFFFFFFFFFFFF, 0, 0x8000000000000000], false⟩
def badY : Num 64 := ⟨[1, 0x8000000000000000], false⟩

theorem div_wrong : ∃ q r, div badX badY = .ok (some (q, r)) ∧ val badY.data ≤ val r.data ∧
    val r.data ≠ val badX.data % val badY.data ∧ badY.data.getLast? ≠ some 0 := by
  have h : ((div badX badY) matches .ok (some (_, _))) = true := by decide +kernel
  have h2 : (match div badX badY with
    | .ok (some (_, r)) => decide (val badY.data ≤ val r.data ∧ val r.data ≠ val badX.data % val badY.data)
    | _ => false) = true := by decide +kernel
  split at h
  · rename_i q r e
    rw [e] at h2
    simp only [decide_eq_true_eq] at h2
    exact ⟨q, r, e, h2.1, h2.2, by decide⟩
  · simp at h

/-- The digits above the significant ones make the division stop too early: `(2^192 + 5) / 2^63` gives the quotient 0. -/
theorem div_wrong_leading_zero : ∃ q r, div (⟨[5, 0, 0, 1], false⟩ : Num 64) ⟨[0x8000000000000000, 0, 0, 0], false⟩ =
    .ok (some (q, r)) ∧ val q.data = 0 ∧ val r.data = 2 ^ 192 + 5 := by
  have h : (match div (⟨[5, 0, 0, 1], false⟩ : Num 64) ⟨[0x8000000000000000, 0, 0, 0], false⟩ with
    | .ok (some (q, r)) => decide (val q.data = 0 ∧ val r.data = 2 ^ 192 + 5)
    | _ => false) = true := by decide +kernel
  split at h
  · rename_i q r e
    simp only [decide_eq_true_eq] at h
    exact ⟨q, r, e, h.1, h.2⟩
  · simp at h

/-- Division by zero is refused. -/
theorem div_zero (x y : Num w) (hy : val y.data = 0) : div x y = .ok none := by
  rw [div, (isZeroD_iff _).2 hy]; rfl

example : (match div (⟨[7, 0, 0, 5], false⟩ : Num 64) ⟨[3, 0x9000000000000000], false⟩ with
    | .ok (some (q, r)) => decide (val q.data = (5 * 2 ^ 192 + 7) / (9 * 2 ^ 124 + 3) ∧
        val r.data = (5 * 2 ^ 192 + 7) % (9 * 2 ^ 124 + 3))
    | _ => false) = true := by decide +kernel

/-- `kryptos_mp_mod` of a number that is not negative is the remainder of the division. -/
theorem mod_nonneg_partial (hw : 16 ≤ w) (x y : Num w) (hx : x.data ≠ []) (hxn : x.neg = false) (hyn : y.neg = false)
    (hy : val y.data ≠ 0) (htop : sig y.data = y.data.length)
    (hgo : ∀ j, ¬ GuessOverflows w (val x.data) (val y.data) j) :
    ∃ r, mod x y = .ok (some r) ∧ r.neg = false ∧ val r.data = val x.data % val y.data := by
  obtain ⟨q, r, h1, -, h3, -, -, -, h7⟩ := div_partial hw x y hx hxn hyn hy htop hgo
  refine ⟨r, ?_, h3, h7⟩
  simp [mod, assign_none_eq (by omega) x (List.length_pos_iff.2 hx), hxn, h1]

/-- `kryptos_mp_mod` of a negative number is the residue that is not negative. -/
theorem mod_neg_partial (hw : 16 ≤ w) (x y : Num w) (hx : x.data ≠ []) (hxn : x.neg = true) (hyn : y.neg = false)
    (hy : val y.data ≠ 0) (htop : sig y.data = y.data.length)
    (hgo : ∀ j, ¬ GuessOverflows w (val x.data * (val y.data - 1)) (val y.data) j) :
    ∃ r, mod x y = .ok (some r) ∧ r.neg = false ∧
      (val r.data : Int) = signed x.neg (val x.data) % (val y.data : Int) := by
  have hyl : 0 < y.data.length := by
    have : sig y.data ≠ 0 := fun h' => hy ((sig_zero _).1 h')
    omega
  obtain ⟨t, t1, t2, t3⟩ := sub_le (by omega) y one (by rw [val_one (by omega)]; omega) hyl hyn
  obtain ⟨p, p1, p2, p3⟩ := mul_spec (by omega) (inv x) ⟨t, false⟩
  have hinv : val (inv x).data = val x.data := by simp [inv]
  have hp : p ≠ [] := List.length_pos_iff.1 (lt_of_lt_of_le Nat.one_pos (p3 ▸ Nat.le_max_right _ _))
  rw [hinv] at p2
  simp only [t2, val_one (show 0 < w by omega)] at p2
  obtain ⟨q, r, h1, -, h3, -, -, -, h7⟩ := div_partial hw ⟨p, false⟩ y hp rfl hyn hy htop (by simpa only [p2] using hgo)
  refine ⟨r, ?_, h3, ?_⟩
  · simp [mod, assign_none_eq (by omega) x (List.length_pos_iff.2 hx), assign_none_eq (by omega) y hyl, hxn, t1, p1, h1]
  · rw [h7]
    simp only [p2, hxn, signed]
    obtain ⟨k, hk⟩ : ∃ k, val y.data = k + 1 := ⟨val y.data - 1, by omega⟩
    rw [hk]
    simp only [Nat.add_sub_cancel, if_true]
    push_cast
    rw [show (val x.data : Int) * k = -(val x.data : Int) + (k + 1) * val x.data by ring, Int.add_mul_emod_self_left]

/-- `kryptos_mp_div_2p`: quotient and remainder by a power of two, for every number that is not negative. -/
theorem div2p_exact (hw : 8 ≤ w) (x : Num w) (k : Nat) (hx : x.data ≠ []) (hxn : x.neg = false) :
    ∃ q r, div2p x k = .ok (q, r) ∧ val q.data = val x.data / 2 ^ k ∧ val r.data = val x.data % 2 ^ k ∧
      q.neg = false ∧ r.neg = false ∧ q.data ≠ [] := by
  have hxl := List.length_pos_iff.2 hx
  obtain ⟨q1, q2, q3⟩ := rsh_spec hw x k hxl
  obtain ⟨-, l2, -⟩ := lsh_spec hw (⟨1 :: List.replicate 7 0, false⟩ : Num w) k (by simp)
  obtain ⟨p, p1, p2, p3⟩ := mul_spec hw (lsh (⟨1 :: List.replicate 7 0, false⟩ : Num w) k) (rsh x k)
  have hone : val (1 :: List.replicate 7 0 : Digits w) = 1 := by
    have : 1 < 2 ^ w := Nat.one_lt_two_pow (by omega)
    simp [val, Nat.mod_eq_of_lt this]
  rw [l2, q2] at p2
  simp only [hone, Nat.mul_one] at p2
  obtain ⟨t, t1, t2, t3⟩ := sub_le hw x ⟨p, false⟩ (by simp only [p2]; exact Nat.mul_div_le _ _) hxl hxn
  simp only [p2] at t2
  refine ⟨rsh x k, if sig t = 0 then newMp w (8 * w) else ⟨norm t, false⟩,
    by simp only [div2p, assign_none_eq hw x hxl, p1, t1, Out.bind_ok], q2, ?_, q1, ?_, List.ne_nil_of_length_pos (by rw [q3]; exact hxl)⟩
  · have hm := Nat.mod_add_div (val x.data) (2 ^ k)
    have ht : val t = val x.data % 2 ^ k := by omega
    split
    · rename_i h0
      rw [sig_zero] at h0
      rw [← ht, h0]; exact val_replicate _
    · rw [← ht]; exact val_norm t
  · split <;> rfl

example : (match div2p (⟨[0x123456789ABCDEF0, 5], false⟩ : Num 64) 68 with
    | .ok (q, r) => decide (val q.data = 0 ∧ val r.data = 0x5123456789ABCDEF0)
    | _ => false) = true := by decide +kernel

/-- `kryptos_mp_pow` is exact. -/
theorem pow_exact (hw : 8 ≤ w) (g e : Num w) : ∃ r, pow g e = .ok r ∧ val r.data = val g.data ^ val e.data := by
  have hstep : ∀ (bs : List Bool) (p : Nat) (a : Num w), val a.data = val g.data ^ p →
      ∃ r, bs.foldlM (fun a bit => do
        let a ← mul a a
        if bit then mul a g else .ok a) a = .ok r ∧
        val r.data = val g.data ^ bs.foldl (fun a b => 2 * a + b.toNat) p := by
    intro bs
    induction bs with
    | nil => intro p a h; exact ⟨a, rfl, h⟩
    | cons b bs ih =>
      intro p a h
      obtain ⟨s, s1, s2, -⟩ := mul_spec hw a a
      have hs : val s = val g.data ^ (2 * p) := by rw [s2, h, ← pow_add, Nat.two_mul]
      cases b with
      | false =>
        obtain ⟨r, r1, r2⟩ := ih (2 * p) ⟨s, false⟩ hs
        exact ⟨r, by simpa [List.foldlM_cons, s1] using r1, by simpa using r2⟩
      | true =>
        obtain ⟨t, t1, t2, -⟩ := mul_spec hw ⟨s, false⟩ g
        obtain ⟨r, r1, r2⟩ := ih (2 * p + 1) ⟨t, false⟩ (by rw [t2, pow_succ]; simp only [hs])
        exact ⟨r, by simpa [List.foldlM_cons, s1, t1] using r1, by simpa using r2⟩
  obtain ⟨r, h1, h2⟩ := hstep (bitsMsb e.data) 0 one (by rw [val_one (by omega), pow_zero])
  rw [bits_val, Nat.zero_mul, Nat.zero_add] at h2
  exact ⟨r, h1, h2⟩

/-- The operands of the example above meet the hypothesis of `div_partial`. -/
example (j : Nat) : ¬ GuessOverflows 64 (5 * 2 ^ 192 + 7) (9 * 2 ^ 124 + 3) j := by
  have h1 : Nat.log 2 (9 * 2 ^ 124 + 3) = 127 := Nat.log_eq_of_pow_le_of_lt_pow (by norm_num) (by norm_num)
  have h2 : Nat.log (2 ^ 64) (9 * 2 ^ 124 + 3) = 1 := Nat.log_eq_of_pow_le_of_lt_pow (by norm_num) (by norm_num)
  simp only [GuessOverflows, normShift, digitCount, h1, h2, Nat.not_le]
  rcases j with _ | _ | j
  · norm_num
  · norm_num
  · refine lt_of_le_of_lt (b := 0) (Nat.le_of_eq (Nat.div_eq_of_lt ?_)) (by norm_num)
    refine lt_of_le_of_lt (Nat.mul_le_mul_right _ (Nat.mod_le _ _)) ?_
    refine lt_of_lt_of_le (b := (2 ^ 64) ^ 4) (by norm_num) (Nat.pow_le_pow_right (by norm_num) (by omega))

/-! ### C41 -/

/-- The operands that square-and-multiply meets, for the bits of the exponent from the highest: with `P = b ^ (e / 2^(k+1))
mod n` the square of `P`, and after a one bit the product of `P^2 mod n` with `b`. -/
def MeetsNoOverflow (w b e n : Nat) : Prop :=
  ∀ k j, ¬ GuessOverflows w ((b ^ (e / 2 ^ (k + 1)) % n) * (b ^ (e / 2 ^ (k + 1)) % n)) n j ∧
    ¬ GuessOverflows w ((b ^ (e / 2 ^ (k + 1) * 2) % n) * b) n j


/-- The remainder of the code, for a product. -/
theorem mulmod_spec (hw : 16 ≤ w) (a b n : Num w) (hn : n.neg = false) (hn0 : val n.data ≠ 0) :
    ∃ r, (do let p ← mulO (some a) (some b); modO p (some n)) = .ok (some r) ∧ r.neg = false ∧ r.data ≠ [] ∧
      val r.data ≡ val a.data * val b.data [MOD val n.data] ∧
      (sig n.data = n.data.length → (∀ j, ¬ GuessOverflows w (val a.data * val b.data) (val n.data) j) →
        val r.data = val a.data * val b.data % val n.data) := by
  obtain ⟨p, h1, h2, h3⟩ := mul_spec (by omega) a b
  have hp : p ≠ [] := List.length_pos_iff.1 (lt_of_lt_of_le Nat.one_pos (h3 ▸ Nat.le_max_right _ _))
  obtain ⟨q, r, d1, d2, d3, d4, d5, d6, d7⟩ := div_exact_iff hw ⟨p, false⟩ n hp rfl hn hn0
  simp only [h2] at d6 d7
  refine ⟨r, by simp [mulO, modO, h1, d1], d3, d5, ?_, fun htop hgo => ?_⟩
  · rw [d6, Nat.ModEq, Nat.mul_add_mod_self_right]
  · have hlt := d7.2 ⟨by have := size_right p n.data htop hn0; rwa [h2] at this, hgo⟩
    rw [d6, Nat.mul_add_mod_self_right, Nat.mod_eq_of_lt hlt]

theorem meStep_spec (hw : 16 ≤ w) (m n a : Num w) (bit : Bool) (hn : n.neg = false) (hn0 : val n.data ≠ 0) :
    ∃ r, meStep m n (some a) bit = .ok (some r) ∧ r.neg = false ∧ r.data ≠ [] ∧
      val r.data ≡ val a.data * val a.data * val m.data ^ bit.toNat [MOD val n.data] ∧
      (sig n.data = n.data.length → (∀ j, ¬ GuessOverflows w (val a.data * val a.data) (val n.data) j) →
        (∀ j, ¬ GuessOverflows w (val a.data * val a.data % val n.data * val m.data) (val n.data) j) →
        val r.data = val a.data * val a.data * val m.data ^ bit.toNat % val n.data) := by
  obtain ⟨s, h1, h2, h3, h4, h5⟩ := mulmod_spec hw a a n hn hn0
  cases bit with
  | false =>
    refine ⟨s, ?_, h2, h3, by simpa using h4, fun t g _ => by simpa using h5 t g⟩
    simp only [meStep]
    rw [← bind_assoc, h1]; rfl
  | true =>
    obtain ⟨r, g1, g2, g3, g4, g5⟩ := mulmod_spec hw s m n hn hn0
    refine ⟨r, ?_, g2, g3, ?_, fun t u v => ?_⟩
    · simp only [meStep]
      rw [← bind_assoc, h1]; exact g1
    · simpa using g4.trans (h4.mul_right _)
    · rw [h5 t u] at g5
      rw [g5 t v]; simp


/-- The value the bits of the exponent select, from a prefix on. -/
theorem me_fold (hw : 16 ≤ w) (m n : Num w) (hn : n.neg = false) (hn0 : val n.data ≠ 0) (bs : List Bool) (p : Nat)
    (a : Num w) (had : a.data ≠ []) (han : a.neg = false) (ha : val a.data ≡ val m.data ^ p [MOD val n.data]) :
    ∃ r, bs.foldlM (meStep m n) (some a) = .ok (some r) ∧ r.neg = false ∧ r.data ≠ [] ∧
      val r.data ≡ val m.data ^ bs.foldl (fun a b => 2 * a + b.toNat) p [MOD val n.data] ∧
      (sig n.data = n.data.length → (val a.data = val m.data ^ p % val n.data ∨ val n.data = 1 ∧ bs ≠ []) →
        MeetsNoOverflow w (val m.data) (bs.foldl (fun a b => 2 * a + b.toNat) p) (val n.data) →
        val r.data = val m.data ^ bs.foldl (fun a b => 2 * a + b.toNat) p % val n.data) := by
  induction bs generalizing p a with
  | nil => exact ⟨a, rfl, han, had, ha, fun _ h _ => h.elim id fun h => absurd rfl h.2⟩
  | cons b bs ih =>
    obtain ⟨s, h1, h2, h3, h4, h5⟩ := meStep_spec hw m n a b hn hn0
    have hexp : val m.data ^ p * val m.data ^ p * val m.data ^ b.toNat = val m.data ^ (2 * p + b.toNat) := by
      rw [← pow_add, ← pow_add, Nat.two_mul]
    have hs : val s.data ≡ val m.data ^ (2 * p + b.toNat) [MOD val n.data] := by
      rw [← hexp]; exact h4.trans ((ha.mul ha).mul_right _)
    obtain ⟨r, g1, g2, g3, g4, g5⟩ := ih (2 * p + b.toNat) s h3 h2 hs
    rw [List.foldlM_cons, h1, Out.bind_ok, List.foldl_cons]
    refine ⟨r, g1, g2, g3, g4, fun htop hval hno => g5 htop (Or.inl ?_) hno⟩
    have hdiv : bs.foldl (fun a b => 2 * a + b.toNat) (2 * p + b.toNat) / 2 ^ (bs.length + 1) = p := by
      have hb : ∀ (l : List Bool) (c : Nat), l.foldl (fun a b => 2 * a + b.toNat) c / 2 ^ l.length = c := by
        intro l
        induction l with
        | nil => intro c; simp
        | cons x l ihl =>
          intro c
          rw [List.foldl_cons, List.length_cons, pow_succ, ← Nat.div_div_eq_div_mul, ihl]
          have := x.toNat_lt; omega
      have := hb (b :: bs) p
      rwa [List.foldl_cons, List.length_cons] at this
    rcases hval with hval | ⟨hone, -⟩
    swap
    · have hno1 : ∀ x j, ¬ GuessOverflows w x (val n.data) j := fun x j =>
        no_overflow_single _ _ _ hn0 (hone ▸ Nat.one_lt_two_pow (by omega))
      rw [h5 htop (hno1 _) (hno1 _), hone, Nat.mod_one, Nat.mod_one]
    have hpow : val a.data * val a.data % val n.data = val m.data ^ (p * 2) % val n.data := by
      rw [hval, ← Nat.mul_mod, ← pow_add, Nat.mul_two]
    rw [h5 htop (fun j => ?_) (fun j => ?_), ← hexp]
    · exact ((ha.mul ha).mul_right _)
    · have := (hno bs.length j).1
      rwa [hdiv, ← hval] at this
    · have := (hno bs.length j).2
      rwa [hdiv, ← hpow] at this

/-- `kryptos_mp_me_mod_n` always gives a number congruent to the power. -/
theorem me_congruent (hw : 16 ≤ w) (m e n : Num w) (hn : n.neg = false) (hn0 : val n.data ≠ 0) :
    ∃ r, meModN m e n = .ok (some r) ∧ r.neg = false ∧ val r.data ≡ val m.data ^ val e.data [MOD val n.data] := by
  obtain ⟨r, h1, h2, -, h3, -⟩ := me_fold hw m n hn hn0 (bitsMsb e.data) 0 one (by simp [one]) rfl
    (by rw [val_one (by omega), pow_zero])
  rw [bits_val, Nat.zero_mul, Nat.zero_add] at h3
  exact ⟨r, h1, h2, h3⟩

/-- `kryptos_mp_me_mod_n` gives the power modulo `n` when the highest digit of the modulus is not zero and no guess overflows
in the divisions it makes.  Missing for the full property: the other moduli and bases; on some of them the result is not
reduced (`me_wrong`). -/
theorem me_partial (hw : 16 ≤ w) (m e n : Num w) (he : e.data ≠ []) (hn : n.neg = false) (hn0 : val n.data ≠ 0)
    (htop : sig n.data = n.data.length) (hno : MeetsNoOverflow w (val m.data) (val e.data) (val n.data)) :
    ∃ r, meModN m e n = .ok (some r) ∧ r.neg = false ∧ val r.data = val m.data ^ val e.data % val n.data := by
  obtain ⟨r, h1, h2, -, -, h3⟩ := me_fold hw m n hn hn0 (bitsMsb e.data) 0 one (by simp [one]) rfl
    (by rw [val_one (by omega), pow_zero])
  rw [bits_val, Nat.zero_mul, Nat.zero_add] at h3
  refine ⟨r, h1, h2, h3 htop ?_ hno⟩
  rw [val_one (by omega), pow_zero]
  by_cases hone : val n.data = 1
  · refine Or.inr ⟨hone, ?_⟩
    obtain ⟨x, xs, hx⟩ := List.exists_cons_of_ne_nil he
    apply List.ne_nil_of_length_pos
    simp [bitsMsb, hx]
    omega
  · exact Or.inl (Nat.mod_eq_of_lt (by omega)).symm

/-- For a modulus of one digit the power is always right. -/
theorem me_single_digit (hw : 16 ≤ w) (m e n : Num w) (he : e.data ≠ []) (hn : n.neg = false) (hn0 : val n.data ≠ 0)
    (h1 : n.data.length = 1) :
    ∃ r, meModN m e n = .ok (some r) ∧ r.neg = false ∧ val r.data = val m.data ^ val e.data % val n.data := by
  have hlt := val_lt n.data
  rw [h1, Nat.mul_one] at hlt
  have hs : sig n.data = n.data.length := by
    have := sig_le n.data
    have : sig n.data ≠ 0 := fun h' => hn0 ((sig_zero _).1 h')
    omega
  exact me_partial hw m e n he hn hn0 hs fun k j =>
    ⟨no_overflow_single _ _ _ hn0 hlt, no_overflow_single _ _ _ hn0 hlt⟩

/-- `m ^ 1 mod n` for the operands of `div_wrong`: the result is larger than the modulus. -/
theorem me_wrong : ∃ r, meModN badX (⟨[1], false⟩ : Num 64) badY = .ok (some r) ∧ val badY.data ≤ val r.data ∧
    val r.data ≠ val badX.data ^ 1 % val badY.data := by
  have h : (match meModN badX (⟨[1], false⟩ : Num 64) badY with
    | .ok (some r) => decide (val badY.data ≤ val r.data ∧ val r.data ≠ val badX.data ^ 1 % val badY.data)
    | _ => false) = true := by decide +kernel
  split at h
  · rename_i r e
    simp only [decide_eq_true_eq] at h
    exact ⟨r, e, h.1, h.2⟩
  · simp at h

/-- A zero modulus gives no result. -/
theorem me_zero_modulus (hw : 16 ≤ w) (m e n : Num w) (he : e.data ≠ []) (hn : val n.data = 0) :
    meModN m e n = .ok none := by
  have hmod : ∀ p, modO p (some n) = .ok none := by
    intro p
    cases p with
    | none => rfl
    | some p => simp [modO, div_zero p n hn]
  have hmul : ∀ a b : Option (Num w), ∃ p, mulO a b = .ok p := by
    intro a b
    cases b with
    | none => exact ⟨none, by cases a <;> rfl⟩
    | some b =>
      cases a with
      | none => exact ⟨_, rfl⟩
      | some a =>
        obtain ⟨p, h1, -⟩ := mul_spec (by omega) a b
        exact ⟨_, by simp [mulO, h1]; rfl⟩
  have hstep : ∀ a b, meStep m n a b = .ok none := by
    intro a b
    obtain ⟨p, hp⟩ := hmul a a
    obtain ⟨p', hp'⟩ := hmul none (some m)
    cases b <;> simp [meStep, hp, hmod, hp']
  have hfold : ∀ (bs : List Bool) a, bs ≠ [] → bs.foldlM (meStep m n) a = .ok none := by
    intro bs
    induction bs with
    | nil => intro a h; exact absurd rfl h
    | cons b bs ih =>
      intro a _
      rw [List.foldlM_cons, hstep, Out.bind_ok]
      by_cases hbs : bs = []
      · rw [hbs]; rfl
      · exact ih _ hbs
  apply hfold
  obtain ⟨x, xs, hx⟩ := List.exists_cons_of_ne_nil he
  apply List.ne_nil_of_length_pos
  simp [bitsMsb, hx]
  omega

example : (match meModN (⟨[3], false⟩ : Num 64) ⟨[50], false⟩ ⟨[0xFFFFFFFFFFFFFFC5], false⟩ with
    | .ok (some r) => decide (val r.data = 3 ^ 50 % (2 ^ 64 - 59))
    | _ => false) = true := by decide +kernel

end Kryptos.Mp
