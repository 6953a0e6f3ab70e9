import Verif.Words
import Verif.Model.Endian
import Verif.Model.KeyLoad
/-
  Model of src/kryptos_camellia.c.  A pair of words stands for the arrays of two words.  The arrays of subkeys are larger than what is ever written to
  them; here they hold what is written, in this order, so reading anything else is undefined.
-/
namespace Kryptos.Camellia
open KeyLoad

/-- `kryptos_camellia_s1` (src/kryptos_camellia.c:39-54). -/
def s1 : Bytes := [
   112, 130, 44, 236, 179, 39, 192, 229, 228, 133, 87, 53, 234, 12, 174, 65, 35, 239, 107, 147, 69, 25, 165, 33, 237, 14, 79, 78, 29, 101, 146, 189,
   134, 184, 175, 143, 124, 235, 31, 206, 62, 48, 220, 95, 94, 197, 11, 26, 166, 225, 57, 202, 213, 71, 93, 61, 217, 1, 90, 214, 81, 86, 108, 77,
   139, 13, 154, 102, 251, 204, 176, 45, 116, 18, 43, 32, 240, 177, 132, 153, 223, 76, 203, 194, 52, 126, 118, 5, 109, 183, 169, 49, 209, 23, 4, 215,
   20, 88, 58, 97, 222, 27, 17, 28, 50, 15, 156, 22, 83, 24, 242, 34, 254, 68, 207, 178, 195, 181, 122, 145, 36, 8, 232, 168, 96, 252, 105, 80,
   170, 208, 160, 125, 161, 137, 98, 151, 84, 91, 30, 149, 224, 255, 100, 210, 16, 196, 0, 72, 163, 247, 117, 219, 138, 3, 230, 218, 9, 63, 221, 148,
   135, 92, 131, 2, 205, 74, 144, 51, 115, 103, 246, 243, 157, 127, 191, 226, 82, 155, 216, 38, 200, 55, 198, 59, 129, 150, 111, 75, 19, 190, 99, 46,
   233, 121, 167, 140, 159, 110, 188, 142, 41, 245, 249, 182, 47, 253, 180, 89, 120, 152, 6, 106, 231, 70, 113, 186, 212, 37, 171, 66, 136, 162, 141, 250,
   114, 7, 185, 85, 248, 238, 172, 10, 54, 73, 42, 104, 60, 56, 241, 164, 64, 40, 211, 123, 187, 201, 67, 193, 21, 227, 173, 244, 119, 199, 128, 158]

/-- `kryptos_camellia_s2` (src/kryptos_camellia.c:56-71). -/
def s2 : Bytes := [
   224, 5, 88, 217, 103, 78, 129, 203, 201, 11, 174, 106, 213, 24, 93, 130, 70, 223, 214, 39, 138, 50, 75, 66, 219, 28, 158, 156, 58, 202, 37, 123,
   13, 113, 95, 31, 248, 215, 62, 157, 124, 96, 185, 190, 188, 139, 22, 52, 77, 195, 114, 149, 171, 142, 186, 122, 179, 2, 180, 173, 162, 172, 216, 154,
   23, 26, 53, 204, 247, 153, 97, 90, 232, 36, 86, 64, 225, 99, 9, 51, 191, 152, 151, 133, 104, 252, 236, 10, 218, 111, 83, 98, 163, 46, 8, 175,
   40, 176, 116, 194, 189, 54, 34, 56, 100, 30, 57, 44, 166, 48, 229, 68, 253, 136, 159, 101, 135, 107, 244, 35, 72, 16, 209, 81, 192, 249, 210, 160,
   85, 161, 65, 250, 67, 19, 196, 47, 168, 182, 60, 43, 193, 255, 200, 165, 32, 137, 0, 144, 71, 239, 234, 183, 21, 6, 205, 181, 18, 126, 187, 41,
   15, 184, 7, 4, 155, 148, 33, 102, 230, 206, 237, 231, 59, 254, 127, 197, 164, 55, 177, 76, 145, 110, 141, 118, 3, 45, 222, 150, 38, 125, 198, 92,
   211, 242, 79, 25, 63, 220, 121, 29, 82, 235, 243, 109, 94, 251, 105, 178, 240, 49, 12, 212, 207, 140, 226, 117, 169, 74, 87, 132, 17, 69, 27, 245,
   228, 14, 115, 170, 241, 221, 89, 20, 108, 146, 84, 208, 120, 112, 227, 73, 128, 80, 167, 246, 119, 147, 134, 131, 42, 199, 91, 233, 238, 143, 1, 61]

/-- `kryptos_camellia_s3` (src/kryptos_camellia.c:73-88). -/
def s3 : Bytes := [
   56, 65, 22, 118, 217, 147, 96, 242, 114, 194, 171, 154, 117, 6, 87, 160, 145, 247, 181, 201, 162, 140, 210, 144, 246, 7, 167, 39, 142, 178, 73, 222,
   67, 92, 215, 199, 62, 245, 143, 103, 31, 24, 110, 175, 47, 226, 133, 13, 83, 240, 156, 101, 234, 163, 174, 158, 236, 128, 45, 107, 168, 43, 54, 166,
   197, 134, 77, 51, 253, 102, 88, 150, 58, 9, 149, 16, 120, 216, 66, 204, 239, 38, 229, 97, 26, 63, 59, 130, 182, 219, 212, 152, 232, 139, 2, 235,
   10, 44, 29, 176, 111, 141, 136, 14, 25, 135, 78, 11, 169, 12, 121, 17, 127, 34, 231, 89, 225, 218, 61, 200, 18, 4, 116, 84, 48, 126, 180, 40,
   85, 104, 80, 190, 208, 196, 49, 203, 42, 173, 15, 202, 112, 255, 50, 105, 8, 98, 0, 36, 209, 251, 186, 237, 69, 129, 115, 109, 132, 159, 238, 74,
   195, 46, 193, 1, 230, 37, 72, 153, 185, 179, 123, 249, 206, 191, 223, 113, 41, 205, 108, 19, 100, 155, 99, 157, 192, 75, 183, 165, 137, 95, 177, 23,
   244, 188, 211, 70, 207, 55, 94, 71, 148, 250, 252, 91, 151, 254, 90, 172, 60, 76, 3, 53, 243, 35, 184, 93, 106, 146, 213, 33, 68, 81, 198, 125,
   57, 131, 220, 170, 124, 119, 86, 5, 27, 164, 21, 52, 30, 28, 248, 82, 32, 20, 233, 189, 221, 228, 161, 224, 138, 241, 214, 122, 187, 227, 64, 79]

/-- `kryptos_camellia_s4` (src/kryptos_camellia.c:90-105). -/
def s4 : Bytes := [
   112, 44, 179, 192, 228, 87, 234, 174, 35, 107, 69, 165, 237, 79, 29, 146, 134, 175, 124, 31, 62, 220, 94, 11, 166, 57, 213, 93, 217, 90, 81, 108,
   139, 154, 251, 176, 116, 43, 240, 132, 223, 203, 52, 118, 109, 169, 209, 4, 20, 58, 222, 17, 50, 156, 83, 242, 254, 207, 195, 122, 36, 232, 96, 105,
   170, 160, 161, 98, 84, 30, 224, 100, 16, 0, 163, 117, 138, 230, 9, 221, 135, 131, 205, 144, 115, 246, 157, 191, 82, 216, 200, 198, 129, 111, 19, 99,
   233, 167, 159, 188, 41, 249, 47, 180, 120, 6, 231, 113, 212, 171, 136, 141, 114, 185, 248, 172, 54, 42, 60, 241, 64, 211, 187, 67, 21, 173, 119, 128,
   130, 236, 39, 229, 133, 53, 12, 65, 239, 147, 25, 33, 14, 78, 101, 189, 184, 143, 235, 206, 48, 95, 197, 26, 225, 202, 71, 61, 1, 214, 86, 77,
   13, 102, 204, 45, 18, 32, 177, 153, 76, 194, 126, 5, 183, 49, 23, 215, 88, 97, 27, 28, 15, 22, 24, 34, 68, 178, 181, 145, 8, 168, 252, 80,
   208, 125, 137, 151, 91, 149, 255, 210, 196, 72, 247, 219, 3, 218, 63, 148, 92, 2, 74, 51, 103, 243, 127, 226, 155, 38, 55, 59, 150, 75, 190, 46,
   121, 140, 110, 142, 245, 182, 253, 89, 152, 106, 70, 186, 37, 66, 162, 250, 7, 85, 238, 10, 73, 104, 56, 164, 40, 123, 201, 193, 227, 244, 199, 158]

/-- `kryptos_camellia_rotl` (src/kryptos_camellia.c:18). -/
def rotl (x : W32) (s : Nat) : W32 := x <<< s ||| x >>> (32 - s)

/-- `kryptos_camellia_get_u8_from_u32` assigned to a byte (src/kryptos_camellia.c:33). -/
def getU8 (x : W32) (b : Nat) : Byte := ((x >>> (24 - b <<< 3)) &&& 0xFF).setWidth 8

abbrev Pair := W32 × W32

def xor (x y : Pair) : Pair := (x.1 ^^^ y.1, x.2 ^^^ y.2)

/-- `kryptos_camellia_F` (src/kryptos_camellia.c:665-699). -/
def F (data k : Pair) : Out Pair := do
  let x0 := data.1 ^^^ k.1
  let x1 := data.2 ^^^ k.2
  let t1 ← rd s1 (getU8 x0 0).toNat
  let t2 ← rd s2 (getU8 x0 1).toNat
  let t3 ← rd s3 (getU8 x0 2).toNat
  let t4 ← rd s4 (getU8 x0 3).toNat
  let t5 ← rd s2 (getU8 x1 0).toNat
  let t6 ← rd s3 (getU8 x1 1).toNat
  let t7 ← rd s4 (getU8 x1 2).toNat
  let t8 ← rd s1 (getU8 x1 3).toNat
  let y1 := t1 ^^^ t3 ^^^ t4 ^^^ t6 ^^^ t7 ^^^ t8
  let y2 := t1 ^^^ t2 ^^^ t4 ^^^ t5 ^^^ t7 ^^^ t8
  let y3 := t1 ^^^ t2 ^^^ t3 ^^^ t5 ^^^ t6 ^^^ t8
  let y4 := t2 ^^^ t3 ^^^ t4 ^^^ t5 ^^^ t6 ^^^ t7
  let y5 := t1 ^^^ t2 ^^^ t6 ^^^ t7 ^^^ t8
  let y6 := t2 ^^^ t3 ^^^ t5 ^^^ t7 ^^^ t8
  let y7 := t3 ^^^ t4 ^^^ t5 ^^^ t6 ^^^ t8
  let y8 := t1 ^^^ t4 ^^^ t5 ^^^ t6 ^^^ t7
  let w := fun (a b c d : Byte) => a.setWidth 32 <<< 24 ||| b.setWidth 32 <<< 16 ||| c.setWidth 32 <<< 8 ||| d.setWidth 32
  .ok (w y1 y2 y3 y4, w y5 y6 y7 y8)

/-- `kryptos_camellia_FL` (src/kryptos_camellia.c:1077-1080). -/
def FL (data k : Pair) : Pair :=
  let d1 := data.2 ^^^ rotl (data.1 &&& k.1) 1
  let d0 := data.1 ^^^ (d1 ||| k.2)
  (d0, d1)

/-- `kryptos_camellia_FL_1` (src/kryptos_camellia.c:1082-1085). -/
def FLinv (data k : Pair) : Pair :=
  let d0 := data.1 ^^^ (data.2 ||| k.2)
  let d1 := data.2 ^^^ rotl (d0 &&& k.1) 1
  (d0, d1)

/-- `kryptos_camellia_roll128b` (src/kryptos_camellia.c:208-233). -/
def roll128b (x : Four 32) : Nat → Four 32
  | 0 => x
  | s + 1 =>
    let t0 := rotl x.a 1
    let t1 := rotl x.b 1
    let t2 := rotl x.c 1
    let t3 := rotl x.d 1
    let tt0 := rotl (t0 <<< 31) 1
    let tt1 := rotl (t1 <<< 31) 1
    let tt2 := rotl (t2 <<< 31) 1
    let tt3 := rotl (t3 <<< 31) 1
    roll128b ⟨x.a <<< 1 ||| tt1, x.b <<< 1 ||| tt2, x.c <<< 1 ||| tt3, x.d <<< 1 ||| tt0⟩ s

/-- The two halves of four words. -/
def fst (x : Four 32) : Pair := (x.a, x.b)
def snd (x : Four 32) : Pair := (x.c, x.d)

/-- `struct kryptos_camellia_subkeys` (src/kryptos_camellia.c:113-118). -/
structure Subkeys where
  k : List Pair
  ke : List Pair
  kw : List Pair
  deriving DecidableEq

/-- Two applications of `F` into alternating halves. -/
def double (k1 k2 : Pair) (d : Pair × Pair) : Out (Pair × Pair) := do
  let fout ← F d.1 k1
  let d2 := xor d.2 fout
  let fout ← F d2 k2
  let d1 := xor d.1 fout
  .ok (d1, d2)

/-- The constants of the key schedule (src/kryptos_camellia.c:20-31). -/
def sigma1 : Pair := (0xa09e667f, 0x3bcc908b)
def sigma2 : Pair := (0xb67ae858, 0x4caa73b2)
def sigma3 : Pair := (0xc6ef372f, 0xe94f82be)
def sigma4 : Pair := (0x54ff53a5, 0xf1d36f1c)
def sigma5 : Pair := (0x10e527fa, 0xde682d1d)
def sigma6 : Pair := (0xb05688c2, 0xb3e6c1fd)

/-- `KA`, computed by the same lines of both key schedules (src/kryptos_camellia.c:360-388, 512-540). -/
def keyA (KL KR : Four 32) : Out (Four 32) := do
  let d ← double sigma1 sigma2 (xor (fst KL) (fst KR), xor (snd KL) (snd KR))
  let d ← double sigma3 sigma4 (xor d.1 (fst KL), xor d.2 (snd KL))
  .ok ⟨d.1.1, d.1.2, d.2.1, d.2.2⟩

/-- `KB` (src/kryptos_camellia.c:542-556). -/
def keyB (KA KR : Four 32) : Out (Four 32) := do
  let d ← double sigma5 sigma6 (xor (fst KA) (fst KR), xor (snd KA) (snd KR))
  .ok ⟨d.1.1, d.1.2, d.2.1, d.2.2⟩

/-- The subkeys taken from `KL` and `KA` (src/kryptos_camellia.c:390-475). -/
def subkeys128 (KL KA : Four 32) : Subkeys := {
  kw := [fst KL, snd KL, fst (roll128b KA 111), snd (roll128b KA 111)]
  k := [fst KA, snd KA, fst (roll128b KL 15), snd (roll128b KL 15), fst (roll128b KA 15), snd (roll128b KA 15),
    fst (roll128b KL 45), snd (roll128b KL 45), fst (roll128b KA 45), snd (roll128b KL 60), fst (roll128b KA 60), snd (roll128b KA 60),
    fst (roll128b KL 94), snd (roll128b KL 94), fst (roll128b KA 94), snd (roll128b KA 94), fst (roll128b KL 111), snd (roll128b KL 111)]
  ke := [fst (roll128b KA 30), snd (roll128b KA 30), fst (roll128b KL 77), snd (roll128b KL 77)] }

/-- `kryptos_camellia_keyexp_128` (src/kryptos_camellia.c:349-476). -/
def keyexp128 (key : Bytes) : Out Subkeys := do
  let K := ldUserKey 4 4 key
  let KL : Four 32 := ⟨← rd K 0, ← rd K 1, ← rd K 2, ← rd K 3⟩
  let KR : Four 32 := ⟨0, 0, 0, 0⟩
  let KA ← keyA KL KR
  .ok (subkeys128 KL KA)

/-- `kryptos_camellia_keysize_t` as set by the tasks for the longer keys (src/kryptos_camellia.c:106-111, 173, 195). -/
inductive KeySize | c192 | c256
  deriving DecidableEq

/-- Loading of `KL` and `KR` (src/kryptos_camellia.c:485-510). -/
def halves (size : KeySize) (key : Bytes) : Out (Four 32 × Four 32) :=
  match size with
  | .c192 => do
    let K := ldUserKey 4 6 key
    let KL : Four 32 := ⟨← rd K 0, ← rd K 1, ← rd K 2, ← rd K 3⟩
    let r0 ← rd K 4
    let r1 ← rd K 5
    .ok (KL, ⟨r0, r1, ~~~ r0, ~~~ r1⟩)
  | .c256 => do
    let K := ldUserKey 4 8 key
    let KL : Four 32 := ⟨← rd K 0, ← rd K 1, ← rd K 2, ← rd K 3⟩
    let KR : Four 32 := ⟨← rd K 4, ← rd K 5, ← rd K 6, ← rd K 7⟩
    .ok (KL, KR)

/-- The subkeys taken from `KL`, `KR`, `KA` and `KB` (src/kryptos_camellia.c:558-662). -/
def subkeys256 (KL KR KA KB : Four 32) : Subkeys := {
  kw := [fst KL, snd KL, fst (roll128b KB 111), snd (roll128b KB 111)]
  k := [fst KB, snd KB, fst (roll128b KR 15), snd (roll128b KR 15), fst (roll128b KA 15), snd (roll128b KA 15),
    fst (roll128b KB 30), snd (roll128b KB 30), fst (roll128b KL 45), snd (roll128b KL 45), fst (roll128b KA 45), snd (roll128b KA 45),
    fst (roll128b KR 60), snd (roll128b KR 60), fst (roll128b KB 60), snd (roll128b KB 60), fst (roll128b KL 77), snd (roll128b KL 77),
    fst (roll128b KR 94), snd (roll128b KR 94), fst (roll128b KA 94), snd (roll128b KA 94), fst (roll128b KL 111), snd (roll128b KL 111)]
  ke := [fst (roll128b KR 30), snd (roll128b KR 30), fst (roll128b KL 60), snd (roll128b KL 60), fst (roll128b KA 77), snd (roll128b KA 77)] }

/-- `kryptos_camellia_keyexp_192_256` (src/kryptos_camellia.c:478-663). -/
def keyexp256 (size : KeySize) (key : Bytes) : Out Subkeys := do
  let (KL, KR) ← halves size key
  let KA ← keyA KL KR
  let KB ← keyB KA KR
  .ok (subkeys256 KL KR KA KB)

/-- Six rounds with the subkeys of the given numbers. -/
def six (s : Subkeys) (i1 i2 i3 i4 i5 i6 : Nat) (d : Pair × Pair) : Out (Pair × Pair) := do
  let d ← double (← rd s.k i1) (← rd s.k i2) d
  let d ← double (← rd s.k i3) (← rd s.k i4) d
  double (← rd s.k i5) (← rd s.k i6) d

/-- `kryptos_camellia_FL(D1, ...)` and `kryptos_camellia_FL_1(D2, ...)`. -/
def layer (s : Subkeys) (i j : Nat) (d : Pair × Pair) : Out (Pair × Pair) := do
  .ok (FL d.1 (← rd s.ke i), FLinv d.2 (← rd s.ke j))

/-- The words of a block xored with two subkeys (src/kryptos_camellia.c:705-713 and the like). -/
def load (s : Subkeys) (i j : Nat) (block : Bytes) : Out (Pair × Pair) := do
  let d1 : Pair := (← getBe32 block 0, ← getBe32 block 4)
  let d2 : Pair := (← getBe32 block 8, ← getBe32 block 12)
  .ok (xor d1 (← rd s.kw i), xor d2 (← rd s.kw j))

/-- The last lines of the block functions (src/kryptos_camellia.c:772-780 and the like): `D1` is xored with subkey `i`, `D2` with subkey `j`. -/
def store (s : Subkeys) (i j : Nat) (d : Pair × Pair) : Out Bytes := do
  let d1 := xor d.1 (← rd s.kw i)
  let d2 := xor d.2 (← rd s.kw j)
  .ok (putBe32 d2.1 ++ (putBe32 d2.2 ++ (putBe32 d1.1 ++ putBe32 d1.2)))

/-- `kryptos_camellia_block_encrypt_128` (src/kryptos_camellia.c:701-783). -/
def encBlock128 (s : Subkeys) (block : Bytes) : Out Bytes := do
  let d ← load s 0 1 block
  let d ← six s 0 1 2 3 4 5 d
  let d ← layer s 0 1 d
  let d ← six s 6 7 8 9 10 11 d
  let d ← layer s 2 3 d
  let d ← six s 12 13 14 15 16 17 d
  store s 3 2 d

/-- `kryptos_camellia_block_decrypt_128` (src/kryptos_camellia.c:785-867). -/
def decBlock128 (s : Subkeys) (block : Bytes) : Out Bytes := do
  let d ← load s 2 3 block
  let d ← six s 17 16 15 14 13 12 d
  let d ← layer s 3 2 d
  let d ← six s 11 10 9 8 7 6 d
  let d ← layer s 1 0 d
  let d ← six s 5 4 3 2 1 0 d
  store s 1 0 d

/-- `kryptos_camellia_block_encrypt_192_256` (src/kryptos_camellia.c:869-971). -/
def encBlock256 (s : Subkeys) (block : Bytes) : Out Bytes := do
  let d ← load s 0 1 block
  let d ← six s 0 1 2 3 4 5 d
  let d ← layer s 0 1 d
  let d ← six s 6 7 8 9 10 11 d
  let d ← layer s 2 3 d
  let d ← six s 12 13 14 15 16 17 d
  let d ← layer s 4 5 d
  let d ← six s 18 19 20 21 22 23 d
  store s 3 2 d

/-- `kryptos_camellia_block_decrypt_192_256` (src/kryptos_camellia.c:973-1075). -/
def decBlock256 (s : Subkeys) (block : Bytes) : Out Bytes := do
  let d ← load s 2 3 block
  let d ← six s 23 22 21 20 19 18 d
  let d ← layer s 5 4 d
  let d ← six s 17 16 15 14 13 12 d
  let d ← layer s 3 2 d
  let d ← six s 11 10 9 8 7 6 d
  let d ← layer s 1 0 d
  let d ← six s 5 4 3 2 1 0 d
  store s 1 0 d

/-- The block functions of the task `kryptos_camellia128_cipher` (src/kryptos_camellia.c:145-160). -/
def enc128 (key block : Bytes) : Out Bytes := do encBlock128 (← keyexp128 key) block
def dec128 (key block : Bytes) : Out Bytes := do decBlock128 (← keyexp128 key) block

/-- The block functions of the tasks `kryptos_camellia192_cipher` and `kryptos_camellia256_cipher` (src/kryptos_camellia.c:166-182, 188-204). -/
def enc256 (size : KeySize) (key block : Bytes) : Out Bytes := do encBlock256 (← keyexp256 size key) block
def dec256 (size : KeySize) (key block : Bytes) : Out Bytes := do decBlock256 (← keyexp256 size key) block

end Kryptos.Camellia
