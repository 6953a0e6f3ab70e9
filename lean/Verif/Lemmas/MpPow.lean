import Mathlib.Tactic.Ring
import Mathlib.Tactic.Linarith
import Verif.Props.MpDiv
/-
  A test for the conditions under which powers modulo a number are right, and powers whose last division goes wrong.
-/
namespace Kryptos.Mp
open Spec.Mp

variable {w : Nat}

/-- `y` has `n` digits, and has to be shifted by `s` bits to fill them. -/
structure Shape (w y n s : Nat) : Prop where
  hw : 0 < w
  hn : 0 < n
  fit : y < 2 ^ (w * n)
  lo : 2 ^ (w * n - 1) ≤ y * 2 ^ s
  hi : y * 2 ^ s < 2 ^ (w * n)
  hs : s < w

theorem Shape.pos {y n s : Nat} (h : Shape w y n s) : 0 < y := by
  rcases Nat.eq_zero_or_pos y with h0 | h0
  · have := h.lo
    rw [h0, Nat.zero_mul] at this
    have := Nat.two_pow_pos (w * n - 1)
    omega
  · exact h0

theorem Shape.log {y n s : Nat} (h : Shape w y n s) : Nat.log 2 y + 1 + s = w * n := by
  have hwn : 0 < w * n := Nat.mul_pos h.hw h.hn
  have hs : s < w * n := lt_of_lt_of_le h.hs (Nat.le_mul_of_pos_right w h.hn)
  have : Nat.log 2 y = w * n - 1 - s := by
    rw [Nat.log_eq_iff (.inr ⟨by decide, h.pos.ne'⟩)]
    constructor
    · have := h.lo
      rw [show w * n - 1 = (w * n - 1 - s) + s by omega, pow_add] at this
      exact Nat.le_of_mul_le_mul_right this (Nat.two_pow_pos s)
    · have := h.hi
      rw [show w * n = (w * n - 1 - s + 1) + s by omega, pow_add] at this
      exact Nat.lt_of_mul_lt_mul_right this
  omega

theorem Shape.count {y n s : Nat} (h : Shape w y n s) : digitCount w y = n := by
  have hl := h.log
  have hn := h.hn
  have h1 : 2 ^ Nat.log 2 y ≤ y := Nat.pow_log_le_self 2 h.pos.ne'
  have hw1 : 1 < 2 ^ w := Nat.one_lt_two_pow h.hw.ne'
  have : Nat.log (2 ^ w) y = n - 1 := by
    rw [Nat.log_eq_iff (.inr ⟨hw1, h.pos.ne'⟩), ← pow_mul, ← pow_mul]
    refine ⟨le_trans (Nat.pow_le_pow_right (by decide) ?_) h1, ?_⟩
    · have := h.hs
      obtain ⟨k, rfl⟩ : ∃ k, n = k + 1 := ⟨n - 1, by omega⟩
      rw [Nat.add_sub_cancel]
      rw [Nat.mul_add] at hl
      omega
    · rw [Nat.sub_add_cancel hn]; exact h.fit
  rw [digitCount, this]
  omega

theorem Shape.shift {y n s : Nat} (h : Shape w y n s) : normShift w y = s := by
  rw [normShift, h.count]
  have := h.log
  omega

/-- The test for the quotient digit `j`. -/
def guessB (w n s x y j : Nat) : Bool :=
  decide (y * 2 ^ s / (2 ^ w) ^ (n - 1) ≤ x % (y * (2 ^ w) ^ (j + 1)) * 2 ^ s / (2 ^ w) ^ (n + j))

theorem guessB_iff {x y n s : Nat} (h : Shape w y n s) (j : Nat) : guessB w n s x y j = true ↔ GuessOverflows w x y j := by
  simp only [guessB, decide_eq_true_eq, GuessOverflows, h.count, h.shift]

/-- The test for all quotient digits of `x`, which has less than `J` digits more than `y`. -/
def safeB (w n s y J x : Nat) : Bool :=
  decide (x < y * (2 ^ w) ^ J) && (List.range J).all fun j => !guessB w n s x y j

theorem safeB_spec {x y n s J : Nat} (h : Shape w y n s) (hs : safeB w n s y J x = true) (j : Nat) :
    ¬ GuessOverflows w x y j := by
  simp only [safeB, Bool.and_eq_true, decide_eq_true_eq, List.all_eq_true, List.mem_range, Bool.not_eq_true'] at hs
  obtain ⟨h1, h2⟩ := hs
  by_cases hj : j < J
  · rw [← guessB_iff h, h2 j hj]
    decide
  · have hJ : x < y * (2 ^ w) ^ j :=
      lt_of_lt_of_le h1 (Nat.mul_le_mul_left _ (Nat.pow_le_pow_right (Nat.two_pow_pos w) (by omega)))
    simp only [GuessOverflows, h.count, h.shift, Nat.not_le]
    have e1 : x % (y * (2 ^ w) ^ (j + 1)) * 2 ^ s / (2 ^ w) ^ (n + j) = 0 := by
      apply Nat.div_eq_of_lt
      calc _ ≤ x * 2 ^ s := Nat.mul_le_mul_right _ (Nat.mod_le _ _)
        _ < y * (2 ^ w) ^ j * 2 ^ s := Nat.mul_lt_mul_of_pos_right hJ (Nat.two_pow_pos s)
        _ = y * 2 ^ s * (2 ^ w) ^ j := by ring
        _ ≤ 2 ^ (w * n) * (2 ^ w) ^ j := Nat.mul_le_mul_right _ h.hi.le
        _ = _ := by rw [pow_mul, pow_add]
    rw [e1]
    apply Nat.div_pos _ (Nat.pow_pos (Nat.two_pow_pos w))
    refine le_trans ?_ h.lo
    rw [← pow_mul]
    refine Nat.pow_le_pow_right (by decide) ?_
    have := h.hw
    obtain ⟨k, rfl⟩ : ∃ k, n = k + 1 := ⟨n - 1, by have := h.hn; omega⟩
    rw [Nat.add_sub_cancel, Nat.mul_add]
    omega

/-- The test along square-and-multiply: `P` is the power for the bits from `k` on. -/
def walkB (w l s n J b e : Nat) : Nat → Nat → Bool
  | 0, _ => true
  | k + 1, P => safeB w l s n J (P * P) && safeB w l s n J (P * P % n * b) &&
    walkB w l s n J b e k (P * P * (if e / 2 ^ k % 2 = 1 then b else 1) % n)

theorem walkB_spec {n l s J : Nat} (h : Shape w n l s) (b e : Nat) : ∀ (K P : Nat), P = b ^ (e / 2 ^ K) % n →
    walkB w l s n J b e K P = true → ∀ k < K, ∀ j,
      ¬ GuessOverflows w ((b ^ (e / 2 ^ (k + 1)) % n) * (b ^ (e / 2 ^ (k + 1)) % n)) n j ∧
      ¬ GuessOverflows w ((b ^ (e / 2 ^ (k + 1) * 2) % n) * b) n j
  | 0, _, _, _, k, hk, _ => by omega
  | K + 1, P, hP, hw, k, hk, j => by
    simp only [walkB, Bool.and_eq_true] at hw
    obtain ⟨⟨h1, h2⟩, h3⟩ := hw
    by_cases hkK : k = K
    · subst hkK
      rw [← hP]
      refine ⟨safeB_spec h h1 j, ?_⟩
      have e1 : b ^ (e / 2 ^ (k + 1) * 2) % n = P * P % n := by
        rw [pow_mul, hP, pow_two, ← Nat.mul_mod]
      rw [e1]
      exact safeB_spec h h2 j
    · refine walkB_spec h b e K _ ?_ h3 k (by omega) j
      have e2 : e / 2 ^ K = 2 * (e / 2 ^ (K + 1)) + e / 2 ^ K % 2 := by
        rw [pow_succ, ← Nat.div_div_eq_div_mul]
        omega
      have e3 : (if e / 2 ^ K % 2 = 1 then b else 1) = b ^ (e / 2 ^ K % 2) := by
        rcases Nat.mod_two_eq_zero_or_one (e / 2 ^ K) with h0 | h0 <;> simp [h0]
      have e4 : b ^ (e / 2 ^ K) = b ^ (e / 2 ^ (K + 1)) * b ^ (e / 2 ^ (K + 1)) * b ^ (e / 2 ^ K % 2) := by
        rw [← pow_add, ← pow_add, ← Nat.two_mul, ← e2]
      rw [e3, e4, hP, Nat.mul_mod, ← Nat.mul_mod (b ^ _) (b ^ _), ← Nat.mul_mod]

/-- The test for all the operands met. -/
def meetsB (w l s n J b e K : Nat) : Bool :=
  decide (e < 2 ^ K) && safeB w l s n J (1 % n * (1 % n)) && safeB w l s n J (1 % n * b) && walkB w l s n J b e K (1 % n)

theorem meetsB_spec {n l s J b e K : Nat} (h : Shape w n l s) (hb : meetsB w l s n J b e K = true) : MeetsNoOverflow w b e n := by
  simp only [meetsB, Bool.and_eq_true, decide_eq_true_eq] at hb
  obtain ⟨⟨⟨h0, h1⟩, h2⟩, h3⟩ := hb
  intro k j
  by_cases hk : k < K
  · exact walkB_spec h b e K (1 % n) (by rw [Nat.div_eq_of_lt h0, pow_zero]) h3 k hk j
  · have : e / 2 ^ (k + 1) = 0 := Nat.div_eq_of_lt (lt_of_lt_of_le h0 (Nat.pow_le_pow_right (by decide) (by omega)))
    rw [this, Nat.zero_mul, pow_zero]
    exact ⟨safeB_spec h h1 j, safeB_spec h h2 j⟩

/-- When everything is right up to the last multiplication and the guess overflows in its division, the result is not
reduced. -/
theorem me_last_wrong (hw : 16 ≤ w) (m e n : Num w) (hn : n.neg = false) (hn0 : val n.data ≠ 0) (htop : sig n.data = n.data.length)
    (hodd : val e.data % 2 = 1) (hno : MeetsNoOverflow w (val m.data) (val e.data / 2) (val n.data))
    (hsq : ∀ j, ¬ GuessOverflows w ((val m.data ^ (val e.data / 2) % val n.data) * (val m.data ^ (val e.data / 2) % val n.data))
      (val n.data) j)
    (j : Nat) (hj : GuessOverflows w ((val m.data ^ (val e.data / 2 * 2) % val n.data) * val m.data) (val n.data) j) :
    ∃ r, meModN m e n = .ok (some r) ∧ val n.data ≤ val r.data := by
  have hne : e.data ≠ [] := by
    intro h
    rw [h] at hodd
    simp [val] at hodd
  have hbne : bitsMsb e.data ≠ [] := by
    obtain ⟨x, xs, hx⟩ := List.exists_cons_of_ne_nil hne
    apply List.ne_nil_of_length_pos
    simp [bitsMsb, hx]
    omega
  obtain ⟨bs, b0, hbs⟩ : ∃ bs b0, bitsMsb e.data = bs ++ [b0] := ⟨_, _, (List.dropLast_concat_getLast hbne).symm⟩
  have hv := bits_val e.data 0
  rw [hbs, List.foldl_append, List.foldl_cons, List.foldl_nil, Nat.zero_mul, Nat.zero_add] at hv
  have hb0 : b0 = true := by
    cases b0
    · simp at hv
      omega
    · rfl
  subst hb0
  have hhalf : bs.foldl (fun a b => 2 * a + b.toNat) 0 = val e.data / 2 := by
    simp at hv
    omega
  have hgt : val n.data ≠ 1 := by
    intro h1
    have hlt : val n.data < 2 ^ w := by rw [h1]; exact Nat.one_lt_two_pow (by omega)
    exact no_overflow_single _ _ j hn0 hlt hj
  obtain ⟨a, a1, a2, a3, -, a5⟩ := me_fold hw m n hn hn0 bs 0 one (by simp [one]) rfl (by rw [val_one (by omega), pow_zero])
  rw [hhalf] at a5
  have a6 := a5 htop (.inl (by rw [val_one (by omega), pow_zero, Nat.mod_eq_of_lt (by omega)])) hno
  obtain ⟨s, s1, s2, s3, s4, s5⟩ := mulmod_spec hw a a n hn hn0
  rw [a6] at s5
  have s6 := s5 htop hsq
  rw [← Nat.mul_mod, ← pow_two, ← pow_mul] at s6
  obtain ⟨p, p1, p2, p3⟩ := mul_spec (by omega) s m
  have hp : p ≠ [] := List.length_pos_iff.1 (lt_of_lt_of_le Nat.one_pos (p3 ▸ Nat.le_max_right _ _))
  obtain ⟨q, r, d1, d2, d3, d4, d5, d6, d7⟩ := div_exact_iff hw ⟨p, false⟩ n hp rfl hn hn0
  refine ⟨r, ?_, ?_⟩
  · rw [meModN, hbs, List.foldlM_append, a1, Out.bind_ok, List.foldlM_cons]
    simp only [meStep, if_true]
    rw [← bind_assoc (mulO _ _), s1, Out.bind_ok]
    simp [mulO, modO, p1, d1]
  · by_contra hlt
    have := (d7.1 (by omega)).2 j
    simp only [p2, s6] at this
    exact this hj

end Kryptos.Mp
