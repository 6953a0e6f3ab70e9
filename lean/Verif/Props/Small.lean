import Verif.Model.Small
import Mathlib.Tactic.Ring
import Mathlib.Data.List.Basic
import Mathlib.Data.Nat.ModEq
import Mathlib.Data.Int.GCD

/-
  djb2 and the table of powers of two (C106).
-/
namespace Kryptos.Small

theorem loop_append (a b : Bytes) : ∀ s, djb2Loop (a ++ b) s = djb2Loop b (djb2Loop a s) := by
  induction a with
  | nil => intro s; rfl
  | cons c a ih => intro s; exact ih _

/-- The polynomial with the bytes as coefficients, at 33. -/
def poly : Bytes → Nat
  | [] => 0
  | c :: b => c.toNat * 33 ^ b.length + poly b

theorem step_toNat (s : W64) (c : Byte) : (((s <<< 5) + s) + c.setWidth 64 : W64).toNat = (33 * s.toNat + c.toNat) % 2 ^ 64 := by
  have hc := c.isLt
  rw [BitVec.toNat_add, BitVec.toNat_add, BitVec.toNat_shiftLeft, BitVec.toNat_setWidth, Nat.shiftLeft_eq]
  omega

theorem loop_toNat : ∀ (b : Bytes) (s : W64), (djb2Loop b s).toNat = (s.toNat * 33 ^ b.length + poly b) % 2 ^ 64
  | [], s => by
    simp only [djb2Loop, poly, List.length_nil, Nat.pow_zero, Nat.mul_one, Nat.add_zero]
    exact (Nat.mod_eq_of_lt s.isLt).symm
  | c :: b, s => by
    rw [djb2Loop, loop_toNat b, step_toNat, poly, List.length_cons, Nat.pow_succ, Nat.add_mod, Nat.mul_mod, Nat.mod_mod, ← Nat.mul_mod,
      ← Nat.add_mod]
    congr 1
    ring

theorem djb2_loop (b : Bytes) : djb2 (some b) = djb2Loop b 5381 := by
  cases b <;> rfl

/-- C106: the value for an input of any length is Bernstein's: 5381·33^n plus the sum of the bytes times powers of 33, modulo 2^64. -/
theorem djb2_value (b : Bytes) : (djb2 (some b)).toNat = (5381 * 33 ^ b.length + poly b) % 2 ^ 64 := by
  rw [djb2_loop, loop_toNat]
  rfl

/-- C106: no input and the empty input have one value. -/
theorem djb2_null : djb2 none = djb2 (some []) ∧ djb2 none = 5381 := ⟨rfl, rfl⟩

/-- C106: the value is computed incrementally: equal values of two inputs stay equal when the same bytes follow. -/
theorem djb2_extend (a b t : Bytes) (h : djb2 (some a) = djb2 (some b)) : djb2 (some (a ++ t)) = djb2 (some (b ++ t)) := by
  rw [djb2_loop, djb2_loop] at *
  rw [loop_append, loop_append, h]

/-- C106: no collision among inputs that differ in one byte only. -/
theorem djb2_one_byte (p t : Bytes) (x y : Byte) (h : djb2 (some (p ++ x :: t)) = djb2 (some (p ++ y :: t))) : x = y := by
  have inj : ∀ (t : Bytes) (s s' : W64), djb2Loop t s = djb2Loop t s' → s = s' := by
    intro t
    induction t with
    | nil => intro s s' h; exact h
    | cons c t ih =>
      intro s s' h
      have h1 := congrArg BitVec.toNat (ih _ _ h)
      rw [step_toNat, step_toNat] at h1
      have h2 : 33 * s.toNat ≡ 33 * s'.toNat [MOD 2 ^ 64] := Nat.ModEq.add_right_cancel' _ h1
      have h3 : s.toNat % 2 ^ 64 = s'.toNat % 2 ^ 64 := Nat.ModEq.cancel_left_of_coprime (by decide +kernel) h2
      rw [Nat.mod_eq_of_lt s.isLt, Nat.mod_eq_of_lt s'.isLt] at h3
      exact BitVec.eq_of_toNat_eq h3
  rw [djb2_loop, djb2_loop, loop_append, loop_append] at h
  have h1 := congrArg BitVec.toNat (inj t _ _ h)
  rw [step_toNat, step_toNat] at h1
  have h2 : x.toNat % 2 ^ 64 = y.toNat % 2 ^ 64 := Nat.ModEq.add_left_cancel' _ h1
  have a1 := x.isLt
  have a2 := y.isLt
  rw [Nat.mod_eq_of_lt (by omega), Nat.mod_eq_of_lt (by omega)] at h2
  exact BitVec.eq_of_toNat_eq h2

/-- Violation (of collision resistance): two neighbouring bytes may be changed by 1 and 33 anywhere in any input. -/
theorem djb2_collision (p t : Bytes) (x y : Byte) (hx : x.toNat < 255) (hy : 33 ≤ y.toNat) :
    djb2 (some (p ++ x :: y :: t)) = djb2 (some (p ++ (x + 1) :: (y - 33) :: t)) := by
  have h2 := y.isLt
  rw [djb2_loop, djb2_loop, loop_append, loop_append]
  generalize djb2Loop p 5381 = s
  rw [djb2Loop, djb2Loop, djb2Loop, djb2Loop]
  congr 1
  apply BitVec.eq_of_toNat_eq
  rw [step_toNat, step_toNat, step_toNat, step_toNat]
  have e1 : (x + 1).toNat = x.toNat + 1 := by
    rw [BitVec.toNat_add, show (1 : Byte).toNat = 1 from rfl]; omega
  have e2 : (y - 33).toNat = y.toNat - 33 := by
    rw [BitVec.toNat_sub, show (33 : Byte).toNat = 33 from rfl]; omega
  rw [e1, e2]
  omega

theorem djb2_example : djb2 (some [0x61, 0x62, 0x63]) = 193485963 ∧ djb2 (some [0x48, 0x65, 0x6C, 0x6C, 0x6F]) = 0x000000310D4F2079 ∧
    djb2 (some [0x41, 0x62, 0x63]) = djb2 (some [0x42, 0x41, 0x63]) := by decide +kernel

theorem length_lt : lt.length = 255 := by decide +kernel

theorem lt_get (i : Nat) (h : i < 255) : rd lt i = .ok (if i < 31 then 2 ^ i else nan) := by
  have : ∀ i : Fin 255, rd lt i = .ok (if i.val < 31 then 2 ^ i.val else nan) := by decide +kernel
  exact this ⟨i, h⟩

theorem index (e : Int) (h : -2 ^ 31 ≤ e) (h' : e < 2 ^ 31) :
    (e % 2 ^ 64).toNat % 255 = (if 0 ≤ e then e % 255 else (e + 1) % 255).toNat := by
  rw [show (2 : Int) ^ 64 = 18446744073709551616 from rfl]
  rw [show (2 : Int) ^ 31 = 2147483648 from rfl] at h h'
  by_cases h0 : 0 ≤ e
  · rw [if_pos h0, Int.emod_eq_of_lt h0 (by omega)]
    omega
  · rw [if_neg h0, show e % 18446744073709551616 = e + 18446744073709551616 by omega]
    omega

/-- Violation: beyond the table the powers begin again, also for negative exponents, where the index is that of `e + 1` modulo 255. -/
theorem pw2_wraps (e : Int) (h : -2 ^ 31 ≤ e) (h' : e < 2 ^ 31) :
    pw2 e = .ok (let i := (if 0 ≤ e then e % 255 else (e + 1) % 255).toNat; if i < 31 then 2 ^ i else nan) := by
  rw [pw2, index e h h']
  apply lt_get
  split <;> omega

/-- C106: powers of two that fit an `int` are right and the next are the value standing for infinity.  (Missing: exponents of 255 and
more, for which the statement is false.) -/
theorem pw2_value_partial (e : Nat) (h : e < 255) : pw2 e = .ok (if e < 31 then 2 ^ e else nan) := by
  rw [pw2, index e (by omega) (by omega), if_pos (by omega), show ((e : Int) % 255).toNat = e by omega]
  exact lt_get e h

theorem pw2_examples : pw2 10 = .ok 1024 ∧ pw2 31 = .ok nan ∧ pw2 255 = .ok 1 ∧ pw2 (-1) = .ok 1 := by decide +kernel

end Kryptos.Small
