import Verif.Model.Endian
import Verif.Model.KeyLoad
/-
  Model of src/kryptos_gost.c.  The shifts of the entries of the boxes, done in `int` by the code, are modelled on 32 bits without
  regard to the sign.
-/
namespace Kryptos.Gost
open KeyLoad (ldUserKey)

/-- The pointers `s1` to `s8` (src/kryptos_gost.c:93): the memory each of them points to. -/
structure Boxes where
  (s1 s2 s3 s4 s5 s6 s7 s8 : Bytes)

/-- The boxes of the processor `gost_ds` (src/kryptos_gost.c:22-52, 114-121). -/
def ds : Boxes where
  s8 := [14,  4, 13,  1,  2, 15, 11,  8,  3, 10,  6, 12,  5,  9,  0,  7]
  s7 := [15,  1,  8, 14,  6, 11,  3,  4,  9,  7,  2, 13, 12,  0,  5, 10]
  s6 := [10,  0,  9, 14,  6,  3, 15,  5,  1, 13, 12,  7, 11,  4,  2,  8]
  s5 := [ 7, 13, 14,  3,  0,  6,  9, 10,  1,  2,  8,  5, 11, 12,  4, 15]
  s4 := [ 2, 12,  4,  1,  7, 10, 11,  6,  8,  5,  3, 15, 13,  0, 14,  9]
  s3 := [12,  1, 10, 15,  9,  2,  6,  8,  0, 13,  3,  4, 14,  7,  5, 11]
  s2 := [ 4, 11,  2, 14, 15,  0,  8, 13,  3, 12,  9,  7,  5, 10,  6,  1]
  s1 := [13,  2,  8,  4,  6, 15, 11,  1, 10,  9,  3, 14,  5,  0, 12,  7]

/-- `kryptos_gost_rounds_k_lt` (src/kryptos_gost.c:54-59). -/
def lt : List Nat := [
  0, 1, 2, 3, 4, 5, 6, 7,
  0, 1, 2, 3, 4, 5, 6, 7,
  0, 1, 2, 3, 4, 5, 6, 7,
  7, 6, 5, 4, 3, 2, 1, 0]

/-- `kryptos_gost_lsh` (src/kryptos_gost.c:63). -/
def lsh (b : W32) : W32 := (b <<< 11) ||| (b >>> 21)

/-- An entry of a box, moved to its place. -/
def at' (s : Bytes) (b : W32) (n : Nat) : Out W32 := do
  let x ← rd s ((b >>> n) &&& 0xF#32).toNat
  return x.setWidth 32 <<< n

/-- `kryptos_gost_sub` (src/kryptos_gost.c:67-76). -/
def sub (S : Boxes) (b : W32) : Out W32 := do
  return (← at' S.s8 b 28) ||| (← at' S.s7 b 24) ||| (← at' S.s6 b 20) ||| (← at' S.s5 b 16) |||
    (← at' S.s4 b 12) ||| (← at' S.s3 b 8) ||| (← at' S.s2 b 4) ||| (← at' S.s1 b 0)

/-- `kryptos_gost_round` (src/kryptos_gost.c:85-89) with `kryptos_gost_f` (lines 78-83) and `kryptos_gost_kr` (line 61); the state is
`(L, R)`. -/
def round (S : Boxes) (K : List W32) (r : Nat) (s : W32 × W32) : Out (W32 × W32) := do
  let k ← rd K (← rd lt r)
  let x ← sub S (s.2 + k)
  return (s.2, lsh x ^^^ s.1)

/-- `kryptos_gost_block_encrypt` (src/kryptos_gost.c:284-327); the 32 rounds are written out in the code. -/
def encBlock (S : Boxes) (K : List W32) (block : Bytes) : Out Bytes := do
  let L ← getBe32 block 4
  let R ← getBe32 block 0
  let s ← forLoop (round S K) 32 0 (L, R)
  return putBe32 s.1 ++ putBe32 s.2

/-- `kryptos_gost_block_decrypt` (src/kryptos_gost.c:329-372). -/
def decBlock (S : Boxes) (K : List W32) (block : Bytes) : Out Bytes := do
  let L ← getBe32 block 4
  let R ← getBe32 block 0
  let s ← forLoop (fun j => round S K (32 - 1 - j)) 32 0 (L, R)
  return putBe32 s.1 ++ putBe32 s.2

/-- The block functions with the loader of the key (src/kryptos_gost.c:113-128, 225-240, 245-282). -/
def enc (S : Boxes) (key block : Bytes) : Out Bytes := encBlock S (ldUserKey 4 8 key) block
def dec (S : Boxes) (key block : Bytes) : Out Bytes := decBlock S (ldUserKey 4 8 key) block

end Kryptos.Gost
