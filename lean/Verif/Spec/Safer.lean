import Verif.Words
/-
  SAFER K-64 (Massey, SAFER K-64: A Byte-Oriented Block-Ciphering Algorithm, 1994).
-/
namespace Kryptos.Spec.Safer

/-- The powers of 45 modulo 257, with 256 written as zero. -/
def exp (x : Byte) : Byte := BitVec.ofNat 8 (45 ^ x.toNat % 257)

/-- The logarithm to the base 45: the byte of which this is the power. -/
def log (y : Byte) : Option Byte := ((List.range 256).map (BitVec.ofNat 8)).find? fun x => exp x = y

/-- The key biases, for `i` from 2 and `j` from 1 to 8. -/
def bias (i j : Nat) : Byte := BitVec.ofNat 8 (45 ^ (45 ^ ((9 * i + j) % 257) % 257) % 257)

/-- The subkeys, counted from zero: the key, and its bytes rotated by three places each time, with the biases added. -/
def subkey (k : Eight 8) : Nat → Eight 8
  | 0 => k
  | i + 1 =>
    let n := 3 * (i + 1)
    ⟨k.a.rotateLeft n + bias (i + 2) 1, k.b.rotateLeft n + bias (i + 2) 2, k.c.rotateLeft n + bias (i + 2) 3,
      k.d.rotateLeft n + bias (i + 2) 4, k.e.rotateLeft n + bias (i + 2) 5, k.f.rotateLeft n + bias (i + 2) 6,
      k.g.rotateLeft n + bias (i + 2) 7, k.h.rotateLeft n + bias (i + 2) 8⟩

/-- Bytes 1, 4, 5 and 8 are xored and the others added. -/
def xorAdd (k x : Eight 8) : Eight 8 :=
  ⟨x.a ^^^ k.a, x.b + k.b, x.c + k.c, x.d ^^^ k.d, x.e ^^^ k.e, x.f + k.f, x.g + k.g, x.h ^^^ k.h⟩

/-- Bytes 1, 4, 5 and 8 are added and the others xored. -/
def addXor (k x : Eight 8) : Eight 8 :=
  ⟨x.a + k.a, x.b ^^^ k.b, x.c ^^^ k.c, x.d + k.d, x.e + k.e, x.f ^^^ k.f, x.g ^^^ k.g, x.h + k.h⟩

/-- Powers of the bytes 1, 4, 5 and 8, logarithms of the others. -/
def nonlinear (x : Eight 8) : Option (Eight 8) := do
  return ⟨exp x.a, ← log x.b, ← log x.c, exp x.d, exp x.e, ← log x.f, ← log x.g, exp x.h⟩

/-- The pseudo-Hadamard transform of neighbours. -/
def layer (x : Eight 8) : Eight 8 :=
  ⟨2 * x.a + x.b, x.a + x.b, 2 * x.c + x.d, x.c + x.d, 2 * x.e + x.f, x.e + x.f, 2 * x.g + x.h, x.g + x.h⟩

/-- The bytes in odd places first. -/
def decimate (x : Eight 8) : Eight 8 := ⟨x.a, x.c, x.e, x.g, x.b, x.d, x.f, x.h⟩

/-- Round `r`, counted from zero. -/
def round (k : Eight 8) (r : Nat) (x : Eight 8) : Option (Eight 8) := do
  let x ← nonlinear (xorAdd (subkey k (2 * r)) x)
  return layer (decimate (layer (decimate (layer (addXor (subkey k (2 * r + 1)) x)))))

/-- The first rounds. -/
def rounds (k : Eight 8) : Nat → Eight 8 → Option (Eight 8)
  | 0, x => some x
  | r + 1, x => do round k r (← rounds k r x)

/-- The encryption of a block. -/
def encrypt (r : Nat) (k x : Eight 8) : Option (Eight 8) := do
  return xorAdd (subkey k (2 * r)) (← rounds k r x)

end Kryptos.Spec.Safer
