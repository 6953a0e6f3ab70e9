import Mathlib.Data.Nat.Log
/-
  The numbers that lists of digits stand for, stated without reference to the code.
-/
namespace Kryptos.Spec.Mp

/-- The natural number with the given digits in radix `2 ^ w`, least significant digit first. -/
def val {w : Nat} : List (BitVec w) → Nat
  | [] => 0
  | d :: l => d.toNat + 2 ^ w * val l

/-- A magnitude with a sign. -/
def signed (neg : Bool) (n : Nat) : Int := if neg then -(n : Int) else (n : Int)

/-- The number of digits in radix `2 ^ w` of a number. -/
def digitCount (w y : Nat) : Nat := Nat.log (2 ^ w) y + 1

/-- How far `y` has to be shifted to the left to fill its highest digit. -/
def normShift (w y : Nat) : Nat := w * digitCount w y - (Nat.log 2 y + 1)

/-- In the schoolbook division of `x` by `y` the partial remainder for the quotient digit `j` starts with a digit which is
not smaller than the highest digit of the (shifted) divisor, so that dividing the two highest digits of the partial
remainder by the highest digit of the divisor gives at least `2 ^ w`. -/
def GuessOverflows (w x y j : Nat) : Prop :=
  let n := digitCount w y
  let s := normShift w y
  y * 2 ^ s / (2 ^ w) ^ (n - 1) ≤ x % (y * (2 ^ w) ^ (j + 1)) * 2 ^ s / (2 ^ w) ^ (n + j)

end Kryptos.Spec.Mp
