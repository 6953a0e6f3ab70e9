import Verif.Base
/-
  Hexadecimal numerals, stated without reference to the code.
-/
namespace Kryptos.Spec.Mp

/-- The value of a hexadecimal digit, in upper or lower case. -/
def hexDigit? (c : Byte) : Option Nat :=
  if 48 ≤ c.toNat ∧ c.toNat ≤ 57 then some (c.toNat - 48)
  else if 65 ≤ c.toNat ∧ c.toNat ≤ 70 then some (c.toNat - 55)
  else if 97 ≤ c.toNat ∧ c.toNat ≤ 102 then some (c.toNat - 87)
  else none

/-- The number with the given digits in radix `b`, most significant first. -/
def ofDigitsBE (b : Nat) (ds : List Nat) : Nat := ds.foldl (fun a d => b * a + d) 0

/-- `s` is a hexadecimal numeral of the number `n`. -/
def IsHex (s : Bytes) (n : Nat) : Prop := ∃ ds, s.mapM hexDigit? = some ds ∧ n = ofDigitsBE 16 ds

end Kryptos.Spec.Mp
