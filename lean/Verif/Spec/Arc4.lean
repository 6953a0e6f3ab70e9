import Verif.Base
/-
  RC4 as published (R. Rivest, "alleged RC4", 1994; also the Internet draft
  draft-kaukonen-cipher-arcfour-03, section 3), on permutations of the bytes seen as functions.
-/
namespace Kryptos.Spec.Rc4

/-- Exchange of two values. -/
def swap (S : Byte → Byte) (i j : Byte) : Byte → Byte :=
  fun k => if k = i then S j else if k = j then S i else S k

/-- Key scheduling: `n` steps done; the result is `(j, S)`. -/
def ksa (K : Nat → Byte) : Nat → Byte × (Byte → Byte)
  | 0 => (0, fun i => i)
  | n + 1 =>
    let (j, S) := ksa K n
    let i := BitVec.ofNat 8 n
    let j := j + S i + K n
    (j, swap S i j)

/-- State of the generator after `n` output bytes: `(i, j, S)`. -/
def state (K : Nat → Byte) : Nat → Byte × Byte × (Byte → Byte)
  | 0 => (0, 0, (ksa K 256).2)
  | n + 1 =>
    let (i, j, S) := state K n
    let i := i + 1
    let j := j + S i
    (i, j, swap S i j)

/-- The `n`-th output byte. -/
def keystream (K : Nat → Byte) (n : Nat) : Byte :=
  let (i, j, S) := state K (n + 1)
  S (S i + S j)

end Kryptos.Spec.Rc4
