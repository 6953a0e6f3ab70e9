import Verif.Spec.MerkleDamgard
import Mathlib.Data.List.FinRange
/-
  Whirlpool (P. Barreto, V. Rijmen, "The Whirlpool Hashing Function", revised 2003; ISO/IEC 10118-3).
-/
namespace Kryptos.Spec.Whirlpool
open MD

/-- Matrices of 8 rows and 8 columns of bytes. -/
abbrev Mat := Fin 8 → Fin 8 → Byte

/-- The product with x modulo x^8 + x^4 + x^3 + x^2 + 1. -/
def times (b : Byte) : Byte := (b <<< 1) ^^^ (if b.msb then 0x1D#8 else 0)
/-- The product of two polynomials. -/
def mul (b c : Byte) : Byte := (List.range 8).foldr (fun i acc => times acc ^^^ (if c.getLsbD i then b else 0)) 0

/-- The mini-boxes E and R. -/
def E : List Nat := [0x1, 0xB, 0x9, 0xC, 0xD, 0x6, 0xF, 0x3, 0xE, 0x8, 0x7, 0x4, 0xA, 0x2, 0x5, 0x0]
def R : List Nat := [0x7, 0xC, 0xB, 0xD, 0xE, 0x4, 0x9, 0xF, 0x6, 0x3, 0x8, 0xA, 0x2, 0x5, 0x1, 0x0]

/-- The S-box: E on the upper half and its inverse on the lower half, R on their sum, which is added to both, and again E and its
inverse. -/
def sbox (x : Nat) : Byte :=
  let u := E.getD (x / 16 % 16) 0
  let l := E.idxOf (x % 16)
  let r := R.getD (u ^^^ l) 0
  BitVec.ofNat 8 (16 * E.getD (u ^^^ r) 0 + E.idxOf (l ^^^ r))

/-- The layer γ. -/
def gamma (M : Mat) : Mat := fun i j => sbox (M i j).toNat
/-- The layer π: column `j` is shifted downwards by `j` positions. -/
def pi (M : Mat) : Mat := fun i j => M (i - j) j
/-- The first row of the circulant matrix of θ. -/
def cir (j : Fin 8) : Byte := [0x01#8, 0x01#8, 0x04#8, 0x01#8, 0x08#8, 0x05#8, 0x02#8, 0x09#8].getD j.val 0
/-- The layer θ: the product with the circulant matrix. -/
def theta (M : Mat) : Mat := fun i j => (List.finRange 8).foldl (fun s k => s ^^^ mul (M i k) (cir (j - k))) 0
/-- The key addition σ. -/
def sigma (K M : Mat) : Mat := fun i j => M i j ^^^ K i j
/-- The round function. -/
def rho (K M : Mat) : Mat := sigma K (theta (pi (gamma M)))
/-- The constants of round `r`, from 0: the next eight entries of the S-box in the first row. -/
def rc (r : Nat) : Mat := fun i j => if i = 0 then sbox (8 * r + j.val) else 0
/-- The round keys. -/
def key (K : Mat) : Nat → Mat
  | 0 => K
  | r + 1 => rho (rc r) (key K r)
/-- The block cipher W: ten rounds after the addition of the key. -/
def W (K M : Mat) : Mat := (List.range 10).foldl (fun S r => rho (key K (r + 1)) S) (sigma K M)

/-- A block as a matrix, row by row. -/
def mat (blk : Bytes) : Mat := fun i j => blk.getD (8 * i.val + j.val) 0
/-- The compression function (Miyaguchi and Preneel). -/
def compress (H : Mat) (blk : Bytes) : Mat := sigma (mat blk) (sigma H (W H (mat blk)))
/-- The padding: a one bit, zeros, the length in bits as 256 bits, most significant byte first. -/
def padW (m : Bytes) : Bytes := pad 64 32 0x80#8 (be 32) m
/-- The bytes of a matrix. -/
def out (H : Mat) : Bytes := (List.finRange 8).flatMap fun i => (List.finRange 8).map (H i)
/-- The digest. -/
def whirlpool (m : Bytes) : Bytes := out (iterate 64 compress (fun _ _ => 0) (padW m))

end Kryptos.Spec.Whirlpool
