import Verif.Model.Endian
import Verif.Model.KeyLoad
import Verif.Words
/-
  Model of src/kryptos_rc2.c.
-/
namespace Kryptos.Rc2
open KeyLoad (ldUserKey)

/-- `kryptos_rc2_PITABLE` (src/kryptos_rc2.c:64-81). -/
def PI : List Byte := [
  0xD9, 0x78, 0xF9, 0xC4, 0x19, 0xDD, 0xB5, 0xED, 0x28, 0xE9, 0xFD, 0x79, 0x4A, 0xA0, 0xD8, 0x9D,
  0xC6, 0x7E, 0x37, 0x83, 0x2B, 0x76, 0x53, 0x8E, 0x62, 0x4C, 0x64, 0x88, 0x44, 0x8B, 0xFB, 0xA2,
  0x17, 0x9A, 0x59, 0xF5, 0x87, 0xB3, 0x4F, 0x13, 0x61, 0x45, 0x6D, 0x8D, 0x09, 0x81, 0x7D, 0x32,
  0xBD, 0x8F, 0x40, 0xEB, 0x86, 0xB7, 0x7B, 0x0B, 0xF0, 0x95, 0x21, 0x22, 0x5C, 0x6B, 0x4E, 0x82,
  0x54, 0xD6, 0x65, 0x93, 0xCE, 0x60, 0xB2, 0x1C, 0x73, 0x56, 0xC0, 0x14, 0xA7, 0x8C, 0xF1, 0xDC,
  0x12, 0x75, 0xCA, 0x1F, 0x3B, 0xBE, 0xE4, 0xD1, 0x42, 0x3D, 0xD4, 0x30, 0xA3, 0x3C, 0xB6, 0x26,
  0x6F, 0xBF, 0x0E, 0xDA, 0x46, 0x69, 0x07, 0x57, 0x27, 0xF2, 0x1D, 0x9B, 0xBC, 0x94, 0x43, 0x03,
  0xF8, 0x11, 0xC7, 0xF6, 0x90, 0xEF, 0x3E, 0xE7, 0x06, 0xC3, 0xD5, 0x2F, 0xC8, 0x66, 0x1E, 0xD7,
  0x08, 0xE8, 0xEA, 0xDE, 0x80, 0x52, 0xEE, 0xF7, 0x84, 0xAA, 0x72, 0xAC, 0x35, 0x4D, 0x6A, 0x2A,
  0x96, 0x1A, 0xD2, 0x71, 0x5A, 0x15, 0x49, 0x74, 0x4B, 0x9F, 0xD0, 0x5E, 0x04, 0x18, 0xA4, 0xEC,
  0xC2, 0xE0, 0x41, 0x6E, 0x0F, 0x51, 0xCB, 0xCC, 0x24, 0x91, 0xAF, 0x50, 0xA1, 0xF4, 0x70, 0x39,
  0x99, 0x7C, 0x3A, 0x85, 0x23, 0xB8, 0xB4, 0x7A, 0xFC, 0x02, 0x36, 0x5B, 0x25, 0x55, 0x97, 0x31,
  0x2D, 0x5D, 0xFA, 0x98, 0xE3, 0x8A, 0x92, 0xAE, 0x05, 0xDF, 0x29, 0x10, 0x67, 0x6C, 0xBA, 0xC9,
  0xD3, 0x00, 0xE6, 0xCF, 0xE1, 0x9E, 0xA8, 0x2C, 0x63, 0x16, 0x01, 0x3F, 0x58, 0xE2, 0x89, 0xA9,
  0x0D, 0x38, 0x34, 0x1B, 0xAB, 0x33, 0xFF, 0xB0, 0xBB, 0x48, 0x0C, 0x5F, 0xB9, 0xB1, 0xCD, 0x2E,
  0xC5, 0xF3, 0xDB, 0x47, 0xE5, 0xA5, 0x9C, 0x77, 0x0A, 0xA6, 0x20, 0x68, 0xFE, 0x7F, 0xC1, 0xAD]

/-- `kryptos_rc2_rol`, `kryptos_rc2_ror` (src/kryptos_rc2.c:21, 42); the number of places is 1, 2, 3 or 5 (line 23). -/
def rol (x : W16) (s : Nat) : W16 := x <<< s ||| x >>> (16 - s)
def ror (x : W16) (s : Nat) : W16 := x >>> s ||| x <<< (16 - s)

/-- The new value of `r[i]` in `kryptos_rc2_mixupr` (src/kryptos_rc2.c:25-28): `a` is `r[i+1]`, `b` is `r[i+2]`, `c` is `r[i+3]`
(indices modulo 4). -/
def mix (x a b c k : W16) (s : Nat) : W16 := rol (x + k + (c &&& b) + (~~~c &&& a)) s

/-- The new value in `kryptos_rc2_rmixupr` (src/kryptos_rc2.c:44-47). -/
def rmix (x a b c k : W16) (s : Nat) : W16 := ror x s - k - (c &&& b) - (~~~c &&& a)

/-- `kryptos_rc2_mixinground` (src/kryptos_rc2.c:32-35) with the subkeys from `j` on. -/
def mixing (K : List W16) (j : Nat) (r : Four 16) : Out (Four 16) := do
  let a := mix r.a r.b r.c r.d (← rd K j) 1
  let b := mix r.b r.c r.d a (← rd K (j + 1)) 2
  let c := mix r.c r.d a b (← rd K (j + 2)) 3
  let d := mix r.d a b c (← rd K (j + 3)) 5
  return ⟨a, b, c, d⟩

/-- `kryptos_rc2_mashr` (src/kryptos_rc2.c:30) and `kryptos_rc2_rmashr` (line 49). -/
def mash (K : List W16) (x c : W16) : Out W16 := do return x + (← rd K (c &&& 63#16).toNat)
def rmash (K : List W16) (x c : W16) : Out W16 := do return x - (← rd K (c &&& 63#16).toNat)

/-- `kryptos_rc2_mashinground` (src/kryptos_rc2.c:37-40). -/
def mashing (K : List W16) (r : Four 16) : Out (Four 16) := do
  let a ← mash K r.a r.d
  let b ← mash K r.b a
  let c ← mash K r.c b
  let d ← mash K r.d c
  return ⟨a, b, c, d⟩

/-- `kryptos_rc2_rmixinground` (src/kryptos_rc2.c:51-54); `j` is the least index it uses. -/
def rmixing (K : List W16) (j : Nat) (r : Four 16) : Out (Four 16) := do
  let d := rmix r.d r.a r.b r.c (← rd K (j + 3)) 5
  let c := rmix r.c d r.a r.b (← rd K (j + 2)) 3
  let b := rmix r.b c d r.a (← rd K (j + 1)) 2
  let a := rmix r.a b c d (← rd K j) 1
  return ⟨a, b, c, d⟩

/-- `kryptos_rc2_rmashinground` (src/kryptos_rc2.c:56-59). -/
def rmashing (K : List W16) (r : Four 16) : Out (Four 16) := do
  let d ← rmash K r.d r.c
  let c ← rmash K r.c r.b
  let b ← rmash K r.b r.a
  let a ← rmash K r.a d
  return ⟨a, b, c, d⟩

/-- The words of a block: read big-endian and reversed by `kryptos_rc2_rev` (src/kryptos_rc2.c:61, 337-347). -/
def rev (v : W16) : W16 := (v &&& 0xFF#16) <<< 8 ||| v >>> 8
def load (block : Bytes) : Out (Four 16) := do
  return ⟨rev (← getBe16 block 0), rev (← getBe16 block 2), rev (← getBe16 block 4), rev (← getBe16 block 6)⟩
def store (r : Four 16) : Bytes := [rev r.a, rev r.b, rev r.c, rev r.d].flatMap putBe16

/-- `kryptos_rc2_block_encrypt` (src/kryptos_rc2.c:333-383). -/
def encBlock (K : List W16) (block : Bytes) : Out Bytes := do
  let r ← load block
  let r ← forLoop (fun i => mixing K (4 * i)) 5 0 r
  let r ← mashing K r
  let r ← forLoop (fun i => mixing K (4 * i)) 6 5 r
  let r ← mashing K r
  let r ← forLoop (fun i => mixing K (4 * i)) 5 11 r
  return store r

/-- `kryptos_rc2_block_decrypt` (src/kryptos_rc2.c:385-435). -/
def decBlock (K : List W16) (block : Bytes) : Out Bytes := do
  let r ← load block
  let r ← forLoop (fun i => rmixing K (4 * (15 - i))) 5 0 r
  let r ← rmashing K r
  let r ← forLoop (fun i => rmixing K (4 * (15 - i))) 6 5 r
  let r ← rmashing K r
  let r ← forLoop (fun i => rmixing K (4 * (15 - i))) 5 11 r
  return store r

/-- An entry of the table. -/
def pitable (n : Nat) : Out Byte := rd PI n

/-- Body of the first loop of the expansion (src/kryptos_rc2.c:314-316); the index `i - T` is not negative. -/
def grow (T i : Nat) (L : Bytes) : Out Bytes := do
  wr L i (← pitable (((← rd L (i - 1)).toNat + (← rd L (i - T)).toNat) % 256))

/-- Body of the second loop (src/kryptos_rc2.c:320-322). -/
def shrink (Tn i : Nat) (L : Bytes) : Out Bytes := do
  wr L i (← pitable ((← rd L (i + 1)) ^^^ (← rd L (i + Tn))).toNat)

/-- `kryptos_rc2_get_byte` (src/kryptos_rc2.c:19). -/
def getByte (x : W16) (b : Nat) : Byte := ((x >>> (8 - 8 * b)) &&& 0xFF#16).setWidth 8

/-- `kryptos_rc2_inflate_key` (src/kryptos_rc2.c:291-331) with the loader of the key (lines 147-289).  `L[128 - Tn]` with `Tn = 129`
is before the array.  The exponent of line 310 is between 1 and 8 for positive `T1`; `kryptos_pw2` is the power of two there
(src/kryptos_pw2.c:16-52). -/
def inflate (T1 : Nat) (key : Bytes) : Out (List W16) := do
  let T := key.length
  let K := ldUserKey 2 64 key
  let L := K.flatMap fun x => [getByte x 0, getByte x 1]
  let Tn := (T1 + 7) / 8
  let TM := 255 % 2 ^ (8 + T1 - 8 * Tn)
  let L ← forLoop (grow T) (128 - T) T L
  if 128 < Tn then .ub
  let L ← wr L (128 - Tn) (← pitable ((← rd L (128 - Tn)).toNat &&& TM))
  let L ← forLoop (fun i => shrink Tn (128 - Tn - 1 - i)) (128 - Tn) 0 L
  (List.range 64).mapM fun j => do
    return (← rd L (2 * j + 1)).setWidth 16 <<< 8 ||| (← rd L (2 * j)).setWidth 16

/-- The block functions with the key expansion. -/
def enc (T1 : Nat) (key block : Bytes) : Out Bytes := do encBlock (← inflate T1 key) block
def dec (T1 : Nat) (key block : Bytes) : Out Bytes := do decBlock (← inflate T1 key) block

/-- The checks of the key and of `T1` (src/kryptos_rc2.c:116-133); the key is not empty (src/kryptos_task_check.c:85-188). -/
def paramsOk (T1 : Int) (key : Bytes) : Bool :=
  decide (key.length ≤ 128) && !(decide (T1 > 1025) || decide (T1 < 1))

end Kryptos.Rc2
