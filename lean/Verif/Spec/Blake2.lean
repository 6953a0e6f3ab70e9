import Verif.Spec.MerkleDamgard
import Mathlib.Data.Nat.Sqrt
/-
  BLAKE2 as published in RFC 7693.  Nothing here refers to the model of the C code.
-/
namespace Kryptos.Spec.Blake2
open Kryptos.Spec.MD (leNat le)

/-- The parameters of section 2.1: bits in a word, rounds, rotation constants. -/
structure Param where
  w : Nat
  rounds : Nat
  R1 : Nat
  R2 : Nat
  R3 : Nat
  R4 : Nat

/-- BLAKE2b. -/
def b : Param := ⟨64, 12, 32, 24, 16, 63⟩
/-- BLAKE2s. -/
def s : Param := ⟨32, 10, 16, 12, 8, 7⟩

/-- Bytes of a word and of a block of sixteen words. -/
def Param.wb (P : Param) : Nat := P.w / 8
/-- Bytes of a block. -/
def Param.bb (P : Param) : Nat := 16 * P.wb

/-- The primes of section 2.6. -/
def prime : Nat → Nat
  | 0 => 2 | 1 => 3 | 2 => 5 | 3 => 7 | 4 => 11 | 5 => 13 | 6 => 17 | _ => 19

/-- Section 2.6: `IV[i] = floor(2**w * frac(sqrt(prime(i+1))))`. -/
def IV (P : Param) (i : Nat) : BitVec P.w := BitVec.ofNat _ (Nat.sqrt (2 ^ (2 * P.w) * prime i))

/-- Section 2.7: the message word permutations. -/
def SIGMA : Nat → Nat → Nat := fun r i =>
  match r with
  | 0 => i
  | 1 => ([14, 10, 4, 8, 9, 15, 13, 6, 1, 12, 0, 2, 11, 7, 5, 3].getD i 0)
  | 2 => ([11, 8, 12, 0, 5, 2, 15, 13, 10, 14, 3, 6, 7, 1, 9, 4].getD i 0)
  | 3 => ([7, 9, 3, 1, 13, 12, 11, 14, 2, 6, 5, 10, 4, 0, 15, 8].getD i 0)
  | 4 => ([9, 0, 5, 7, 2, 4, 10, 15, 14, 1, 11, 12, 6, 8, 3, 13].getD i 0)
  | 5 => ([2, 12, 6, 10, 0, 11, 8, 3, 4, 13, 7, 5, 15, 14, 1, 9].getD i 0)
  | 6 => ([12, 5, 1, 15, 14, 13, 4, 10, 0, 7, 6, 3, 9, 2, 8, 11].getD i 0)
  | 7 => ([13, 11, 7, 14, 12, 1, 3, 9, 5, 0, 15, 4, 8, 6, 2, 10].getD i 0)
  | 8 => ([6, 15, 14, 9, 11, 3, 0, 8, 12, 2, 13, 7, 1, 4, 10, 5].getD i 0)
  | _ => ([10, 2, 8, 4, 7, 6, 1, 5, 15, 11, 9, 14, 3, 12, 13, 0].getD i 0)

/-- A vector of words. -/
abbrev Vec (P : Param) := Nat → BitVec P.w

/-- Assignment to one place. -/
def put {P : Param} (v : Vec P) (i : Nat) (x : BitVec P.w) : Vec P := fun j => if j = i then x else v j

/-- Section 3.1: the mixing function. -/
def G (P : Param) (v : Vec P) (a b c d : Nat) (x y : BitVec P.w) : Vec P :=
  let v := put v a (v a + v b + x)
  let v := put v d ((v d ^^^ v a).rotateRight P.R1)
  let v := put v c (v c + v d)
  let v := put v b ((v b ^^^ v c).rotateRight P.R2)
  let v := put v a (v a + v b + y)
  let v := put v d ((v d ^^^ v a).rotateRight P.R3)
  let v := put v c (v c + v d)
  put v b ((v b ^^^ v c).rotateRight P.R4)

/-- One round of section 3.2. -/
def round (P : Param) (m v : Vec P) (i : Nat) : Vec P :=
  let s := SIGMA (i % 10)
  let v := G P v 0 4 8 12 (m (s 0)) (m (s 1))
  let v := G P v 1 5 9 13 (m (s 2)) (m (s 3))
  let v := G P v 2 6 10 14 (m (s 4)) (m (s 5))
  let v := G P v 3 7 11 15 (m (s 6)) (m (s 7))
  let v := G P v 0 5 10 15 (m (s 8)) (m (s 9))
  let v := G P v 1 6 11 12 (m (s 10)) (m (s 11))
  let v := G P v 2 7 8 13 (m (s 12)) (m (s 13))
  G P v 3 4 9 14 (m (s 14)) (m (s 15))

/-- Section 3.2: the compression function; `t` is the offset counter of `2w` bits. -/
def F (P : Param) (h m : Vec P) (t : Nat) (f : Bool) : Vec P :=
  let v : Vec P := fun i => if i < 8 then h i else IV P (i - 8)
  let v := put v 12 (v 12 ^^^ BitVec.ofNat _ (t % 2 ^ P.w))
  let v := put v 13 (v 13 ^^^ BitVec.ofNat _ (t / 2 ^ P.w))
  let v := if f then put v 14 (v 14 ^^^ BitVec.allOnes _) else v
  let v := (List.range P.rounds).foldl (round P m) v
  fun i => h i ^^^ v i ^^^ v (i + 8)

/-- The words of a block, least significant byte first (section 2.4). -/
def words (P : Param) (d : Bytes) : Vec P := fun i => BitVec.ofNat _ (leNat ((d.drop (P.wb * i)).take P.wb))

/-- Filling up with zeros to a multiple of a block. -/
def fill (P : Param) (x : Bytes) : Bytes := x ++ List.replicate ((P.bb - x.length % P.bb) % P.bb) 0

/-- Section 3.3: the data to be hashed; a key makes the first block, and no key and no message a block of zeros. -/
def data (P : Param) (key msg : Bytes) : Bytes :=
  if key = [] ∧ msg = [] then List.replicate P.bb 0
  else fill P key ++ fill P msg

/-- Section 3.3: the chaining value after the blocks before the `n`-th. -/
def chain (P : Param) (h0 : Vec P) (d : Bytes) : Nat → Vec P
  | 0 => h0
  | n + 1 => F P (chain P h0 d n) (words P (d.drop (n * P.bb))) ((n + 1) * P.bb) false

/-- Section 3.3: the digest of `nn` bytes. -/
def digest (P : Param) (key msg : Bytes) (nn : Nat) : Bytes :=
  let d := data P key msg
  let dd := d.length / P.bb
  let h0 : Vec P := fun i => if i = 0 then IV P 0 ^^^ 0x01010000 ^^^ BitVec.ofNat _ (key.length * 256) ^^^ BitVec.ofNat _ nn else IV P i
  let h := chain P h0 d (dd - 1)
  let t := if key = [] then msg.length else msg.length + P.bb
  let h := F P h (words P (d.drop ((dd - 1) * P.bb))) t true
  ((List.range 8).flatMap fun i => le P.wb (h i).toNat).take nn

end Kryptos.Spec.Blake2
