import Verif.Spec.MerkleDamgard
/-
  Salsa20 (D. J. Bernstein, "Salsa20 specification", 2005) and ChaCha20 (RFC 8439, section 2), with the
  state as a 4 by 4 matrix of words.
-/
namespace Kryptos.Spec.Salsa
open MD

abbrev Mat := Fin 4 → Fin 4 → W32

/-- The matrix of sixteen words, row by row. -/
def mat (ws : List W32) : Mat := fun r c => ws.getD (4 * r.val + c.val) 0

/-- The words of a matrix, row by row. -/
def words (M : Mat) : List W32 :=
  [M 0 0, M 0 1, M 0 2, M 0 3, M 1 0, M 1 1, M 1 2, M 1 3, M 2 0, M 2 1, M 2 2, M 2 3, M 3 0, M 3 1, M 3 2, M 3 3]

/-- Salsa20 specification, section 3: `quarterround`. -/
def quarterround (y : Fin 4 → W32) : Fin 4 → W32 :=
  let z1 := y 1 ^^^ (y 0 + y 3).rotateLeft 7
  let z2 := y 2 ^^^ (z1 + y 0).rotateLeft 9
  let z3 := y 3 ^^^ (z2 + z1).rotateLeft 13
  let z0 := y 0 ^^^ (z3 + z2).rotateLeft 18
  fun | 0 => z0 | 1 => z1 | 2 => z2 | 3 => z3

/-- Section 4: each row is modified by `quarterround`, starting from the diagonal element. -/
def rowround (M : Mat) : Mat := fun r c => quarterround (fun k => M r (r + k)) (c - r)

/-- Section 5: the same on columns. -/
def columnround (M : Mat) : Mat := fun r c => quarterround (fun k => M (c + k) c) (r - c)

/-- Section 6. -/
def doubleround (M : Mat) : Mat := rowround (columnround M)

/-- Section 8, the hash function: ten double rounds, addition of the input. -/
def core (double : Mat → Mat) (M : Mat) : Bytes :=
  let R := Nat.repeat double 10 M
  (words fun r c => R r c + M r c).flatMap fun w => le 4 w.toNat

def hash (x : Bytes) : Bytes := core doubleround (mat (leWords 32 4 x))

/-- Section 9: expansion of a 16 or 32 byte key and a 16 byte `n`. -/
def expand (key n : Bytes) : Bytes :=
  if key.length = 32 then
    hash (ascii "expa" ++ key.take 16 ++ ascii "nd 3" ++ n ++ ascii "2-by" ++ key.drop 16 ++ ascii "te k")
  else
    hash (ascii "expa" ++ key ++ ascii "nd 1" ++ n ++ ascii "6-by" ++ key ++ ascii "te k")

/-- Section 10: the `i`-th block of key stream of the nonce `v`. -/
def salsaBlock (key v : Bytes) (i : Nat) : Bytes := expand key (v ++ le 8 i)

/-- RFC 8439, section 2.1. -/
def chachaQuarter (x : Fin 4 → W32) : Fin 4 → W32 :=
  let a := x 0 + x 1
  let d := (x 3 ^^^ a).rotateLeft 16
  let c := x 2 + d
  let b := (x 1 ^^^ c).rotateLeft 12
  let a := a + b
  let d := (d ^^^ a).rotateLeft 8
  let c := c + d
  let b := (b ^^^ c).rotateLeft 7
  fun | 0 => a | 1 => b | 2 => c | 3 => d

/-- Section 2.3: the four quarter rounds on the columns. -/
def chachaColumns (M : Mat) : Mat := fun r c => chachaQuarter (fun k => M k c) r

/-- Section 2.3: the four quarter rounds on the diagonals; the element at row `r` of the `d`-th diagonal is
in column `d + r`. -/
def chachaDiagonals (M : Mat) : Mat := fun r c => chachaQuarter (fun k => M k (c - r + k)) r

/-- Section 2.3: the ChaCha20 block function with a 32 byte key, a 32-bit counter and a 12 byte nonce. -/
def chachaBlock (key nonce : Bytes) (counter : W32) : Bytes :=
  core (fun M => chachaDiagonals (chachaColumns M))
    (mat (leWords 32 4 (ascii "expand 32-byte k" ++ key ++ le 4 counter.toNat ++ nonce)))

/-- Section 2.4: encryption, `block j` being the `j`-th block of key stream; byte `i` of the message meets
byte `i mod 64` of the block `i / 64`. -/
def xorStream (block : Nat → Bytes) (m : Bytes) : Bytes :=
  m.zipIdx.map fun p => p.1 ^^^ (block (p.2 / 64)).getD (p.2 % 64) 0

end Kryptos.Spec.Salsa
