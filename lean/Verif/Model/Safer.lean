import Verif.Words
import Verif.Model.KeyLoad
/-
  Model of src/kryptos_saferk64.c.  The local variables `c0` to `c7` are the fields of a record of eight bytes, the two words of a subkey
  a pair.
-/
namespace Kryptos.Safer
open KeyLoad (ldUserKey)

/-- `kryptos_saferk64_e_lt` (src/kryptos_saferk64.c:40-71). -/
def eLt : List Byte :=
  [0x01, 0x2d, 0xe2, 0x93, 0xbe, 0x45, 0x15, 0xae, 0x78, 0x03, 0x87, 0xa4, 0xb8, 0x38, 0xcf, 0x3f,
   0x08, 0x67, 0x09, 0x94, 0xeb, 0x26, 0xa8, 0x6b, 0xbd, 0x18, 0x34, 0x1b, 0xbb, 0xbf, 0x72, 0xf7,
   0x40, 0x35, 0x48, 0x9c, 0x51, 0x2f, 0x3b, 0x55, 0xe3, 0xc0, 0x9f, 0xd8, 0xd3, 0xf3, 0x8d, 0xb1,
   0xff, 0xa7, 0x3e, 0xdc, 0x86, 0x77, 0xd7, 0xa6, 0x11, 0xfb, 0xf4, 0xba, 0x92, 0x91, 0x64, 0x83,
   0xf1, 0x33, 0xef, 0xda, 0x2c, 0xb5, 0xb2, 0x2b, 0x88, 0xd1, 0x99, 0xcb, 0x8c, 0x84, 0x1d, 0x14,
   0x81, 0x97, 0x71, 0xca, 0x5f, 0xa3, 0x8b, 0x57, 0x3c, 0x82, 0xc4, 0x52, 0x5c, 0x1c, 0xe8, 0xa0,
   0x04, 0xb4, 0x85, 0x4a, 0xf6, 0x13, 0x54, 0xb6, 0xdf, 0x0c, 0x1a, 0x8e, 0xde, 0xe0, 0x39, 0xfc,
   0x20, 0x9b, 0x24, 0x4e, 0xa9, 0x98, 0x9e, 0xab, 0xf2, 0x60, 0xd0, 0x6c, 0xea, 0xfa, 0xc7, 0xd9,
   0x00, 0xd4, 0x1f, 0x6e, 0x43, 0xbc, 0xec, 0x53, 0x89, 0xfe, 0x7a, 0x5d, 0x49, 0xc9, 0x32, 0xc2,
   0xf9, 0x9a, 0xf8, 0x6d, 0x16, 0xdb, 0x59, 0x96, 0x44, 0xe9, 0xcd, 0xe6, 0x46, 0x42, 0x8f, 0x0a,
   0xc1, 0xcc, 0xb9, 0x65, 0xb0, 0xd2, 0xc6, 0xac, 0x1e, 0x41, 0x62, 0x29, 0x2e, 0x0e, 0x74, 0x50,
   0x02, 0x5a, 0xc3, 0x25, 0x7b, 0x8a, 0x2a, 0x5b, 0xf0, 0x06, 0x0d, 0x47, 0x6f, 0x70, 0x9d, 0x7e,
   0x10, 0xce, 0x12, 0x27, 0xd5, 0x4c, 0x4f, 0xd6, 0x79, 0x30, 0x68, 0x36, 0x75, 0x7d, 0xe4, 0xed,
   0x80, 0x6a, 0x90, 0x37, 0xa2, 0x5e, 0x76, 0xaa, 0xc5, 0x7f, 0x3d, 0xaf, 0xa5, 0xe5, 0x19, 0x61,
   0xfd, 0x4d, 0x7c, 0xb7, 0x0b, 0xee, 0xad, 0x4b, 0x22, 0xf5, 0xe7, 0x73, 0x23, 0x21, 0xc8, 0x05,
   0xe1, 0x66, 0xdd, 0xb3, 0x58, 0x69, 0x63, 0x56, 0x0f, 0xa1, 0x31, 0x95, 0x17, 0x07, 0x3a, 0x28]

/-- `kryptos_saferk64_l_lt` (src/kryptos_saferk64.c:76-107). -/
def lLt : List Byte :=
  [0x80, 0x00, 0xb0, 0x09, 0x60, 0xef, 0xb9, 0xfd, 0x10, 0x12, 0x9f, 0xe4, 0x69, 0xba, 0xad, 0xf8,
   0xc0, 0x38, 0xc2, 0x65, 0x4f, 0x06, 0x94, 0xfc, 0x19, 0xde, 0x6a, 0x1b, 0x5d, 0x4e, 0xa8, 0x82,
   0x70, 0xed, 0xe8, 0xec, 0x72, 0xb3, 0x15, 0xc3, 0xff, 0xab, 0xb6, 0x47, 0x44, 0x01, 0xac, 0x25,
   0xc9, 0xfa, 0x8e, 0x41, 0x1a, 0x21, 0xcb, 0xd3, 0x0d, 0x6e, 0xfe, 0x26, 0x58, 0xda, 0x32, 0x0f,
   0x20, 0xa9, 0x9d, 0x84, 0x98, 0x05, 0x9c, 0xbb, 0x22, 0x8c, 0x63, 0xe7, 0xc5, 0xe1, 0x73, 0xc6,
   0xaf, 0x24, 0x5b, 0x87, 0x66, 0x27, 0xf7, 0x57, 0xf4, 0x96, 0xb1, 0xb7, 0x5c, 0x8b, 0xd5, 0x54,
   0x79, 0xdf, 0xaa, 0xf6, 0x3e, 0xa3, 0xf1, 0x11, 0xca, 0xf5, 0xd1, 0x17, 0x7b, 0x93, 0x83, 0xbc,
   0xbd, 0x52, 0x1e, 0xeb, 0xae, 0xcc, 0xd6, 0x35, 0x08, 0xc8, 0x8a, 0xb4, 0xe2, 0xcd, 0xbf, 0xd9,
   0xd0, 0x50, 0x59, 0x3f, 0x4d, 0x62, 0x34, 0x0a, 0x48, 0x88, 0xb5, 0x56, 0x4c, 0x2e, 0x6b, 0x9e,
   0xd2, 0x3d, 0x3c, 0x03, 0x13, 0xfb, 0x97, 0x51, 0x75, 0x4a, 0x91, 0x71, 0x23, 0xbe, 0x76, 0x2a,
   0x5f, 0xf9, 0xd4, 0x55, 0x0b, 0xdc, 0x37, 0x31, 0x16, 0x74, 0xd7, 0x77, 0xa7, 0xe6, 0x07, 0xdb,
   0xa4, 0x2f, 0x46, 0xf3, 0x61, 0x45, 0x67, 0xe3, 0x0c, 0xa2, 0x3b, 0x1c, 0x85, 0x18, 0x04, 0x1d,
   0x29, 0xa0, 0x8f, 0xb2, 0x5a, 0xd8, 0xa6, 0x7e, 0xee, 0x8d, 0x53, 0x4b, 0xa1, 0x9a, 0xc1, 0x0e,
   0x7a, 0x49, 0xa5, 0x2c, 0x81, 0xc4, 0xc7, 0x36, 0x2b, 0x7f, 0x43, 0x95, 0x33, 0xf2, 0x6c, 0x68,
   0x6d, 0xf0, 0x02, 0x28, 0xce, 0xdd, 0x9b, 0xea, 0x5e, 0x99, 0x7c, 0x14, 0x86, 0xcf, 0xe5, 0x42,
   0xb8, 0x40, 0x78, 0x2d, 0x3a, 0xe9, 0x64, 0x1f, 0x92, 0x90, 0x7d, 0x39, 0x6f, 0xe0, 0x89, 0x30]

/-- `kryptos_saferk64_get_u8_from_u32` (src/kryptos_saferk64.c:22). -/
def byteOf (x : W32) (n : Nat) : Byte := ((x >>> (24 - 8 * n)) &&& 0xff#32).setWidth 8

/-- The bytes of the two words of a subkey. -/
def bytesOf (k : W32 × W32) : Eight 8 :=
  ⟨byteOf k.1 0, byteOf k.1 1, byteOf k.1 2, byteOf k.1 3, byteOf k.2 0, byteOf k.2 1, byteOf k.2 2, byteOf k.2 3⟩

/-- Four bytes to a word (src/kryptos_saferk64.c:242-243). -/
def word (a b c d : Byte) : W32 :=
  a.setWidth 32 <<< 24 ||| b.setWidth 32 <<< 16 ||| c.setWidth 32 <<< 8 ||| d.setWidth 32

/-- `kryptos_saferk64_shl(b, 3)` for a byte (src/kryptos_saferk64.c:20). -/
def rol3 (b : Byte) : Byte := b <<< 3 ||| b >>> 5

/-- `e_lt[e_lt[(9 * (i + 2) + k) % 257]]`; the remainder 256 is outside of the table. -/
def cByte (i k : Nat) : Out W32 := do
  return (← rd eLt (← rd eLt ((9 * (i + 2) + k) % 257)).toNat).setWidth 32

/-- Body of the first loop of `kryptos_saferk64_make_key` (src/kryptos_saferk64.c:208-217). -/
def cStep (i : Nat) (c : List (W32 × W32)) : Out (List (W32 × W32)) := do
  let x ← cByte i 1
  let x := x <<< 8 ||| (← cByte i 2)
  let x := x <<< 8 ||| (← cByte i 3)
  let x := x <<< 8 ||| (← cByte i 4)
  let y ← cByte i 5
  let y := y <<< 8 ||| (← cByte i 6)
  let y := y <<< 8 ||| (← cByte i 7)
  let y := y <<< 8 ||| (← cByte i 8)
  wr c i (x, y)

/-- Body of the second loop of `kryptos_saferk64_make_key` (src/kryptos_saferk64.c:223-265), on `K` and `K1`. -/
def kStep (c : List (W32 × W32)) (i : Nat) (s : List (W32 × W32) × (W32 × W32)) : Out (List (W32 × W32) × (W32 × W32)) := do
  let b := bytesOf s.2
  let b : Eight 8 := ⟨rol3 b.a, rol3 b.b, rol3 b.c, rol3 b.d, rol3 b.e, rol3 b.f, rol3 b.g, rol3 b.h⟩
  let K1 := (word b.a b.b b.c b.d, word b.e b.f b.g b.h)
  let e := bytesOf (← rd c (i - 1))
  let K ← wr s.1 i (word (e.a + b.a) (e.b + b.b) (e.c + b.c) (e.d + b.d), word (e.e + b.e) (e.f + b.f) (e.g + b.g) (e.h + b.h))
  return (K, K1)

/-- `kryptos_saferk64_make_key` with the loader (src/kryptos_saferk64.c:174-271).  The arrays `c` and `sks->K` of 1600 pairs are zero here; no
element is read before it is written. -/
def makeKey (rounds : Nat) (key : Bytes) : Out (List (W32 × W32)) := do
  let u := ldUserKey 4 2 key
  let K0 := (← rd u 0, ← rd u 1)
  let K ← wr (List.replicate 1600 (0, 0)) 0 K0
  let c ← forLoop cStep (2 * rounds) 0 (List.replicate 1600 (0, 0))
  let s ← forLoop (kStep c) (2 * rounds) 1 (K, K0)
  return s.1

/-- The first step of a round and the transformation at the end (src/kryptos_saferk64.c:284-291, 340-347). -/
def mixA (k c : Eight 8) : Eight 8 :=
  ⟨c.a ^^^ k.a, c.b + k.b, c.c + k.c, c.d ^^^ k.d, c.e ^^^ k.e, c.f + k.f, c.g + k.g, c.h ^^^ k.h⟩

/-- The second step (src/kryptos_saferk64.c:294-301). -/
def boxes (c : Eight 8) : Out (Eight 8) := do
  return ⟨← rd eLt c.a.toNat, ← rd lLt c.b.toNat, ← rd lLt c.c.toNat, ← rd eLt c.d.toNat,
    ← rd eLt c.e.toNat, ← rd lLt c.f.toNat, ← rd lLt c.g.toNat, ← rd eLt c.h.toNat⟩

/-- The third step (src/kryptos_saferk64.c:304-311). -/
def mixB (k c : Eight 8) : Eight 8 :=
  ⟨c.a + k.a, c.b ^^^ k.b, c.c ^^^ k.c, c.d + k.d, c.e + k.e, c.f ^^^ k.f, c.g ^^^ k.g, c.h + k.h⟩

/-- `kryptos_saferk64_HT2` (src/kryptos_saferk64.c:25-28); the values of type `int` are stored in bytes. -/
def ht2 (a1 a2 : Byte) : Byte × Byte := (2 * a1 + a2, a1 + a2)

/-- The fourth step (src/kryptos_saferk64.c:314-336). -/
def mix (c : Eight 8) : Eight 8 :=
  let (b0, b1) := ht2 c.a c.b
  let (b2, b3) := ht2 c.c c.d
  let (b4, b5) := ht2 c.e c.f
  let (b6, b7) := ht2 c.g c.h
  let (c0, c1) := ht2 b0 b2
  let (c2, c3) := ht2 b4 b6
  let (c4, c5) := ht2 b1 b3
  let (c6, c7) := ht2 b5 b7
  let (b0, b1) := ht2 c0 c2
  let (b2, b3) := ht2 c4 c6
  let (b4, b5) := ht2 c1 c3
  let (b6, b7) := ht2 c5 c7
  ⟨b0, b1, b2, b3, b4, b5, b6, b7⟩

/-- Body of the loop of `kryptos_saferk64_block_encrypt` (src/kryptos_saferk64.c:281-337). -/
def encStep (K : List (W32 × W32)) (r : Nat) (c : Eight 8) : Out (Eight 8) := do
  let c := mixA (bytesOf (← rd K (2 * r))) c
  let c ← boxes c
  return mix (mixB (bytesOf (← rd K (2 * r + 1))) c)

/-- The bytes of a block (src/kryptos_saferk64.c:278-279, 349-350). -/
def load (block : Bytes) : Out (Eight 8) := do
  return ⟨← rd block 0, ← rd block 1, ← rd block 2, ← rd block 3, ← rd block 4, ← rd block 5, ← rd block 6, ← rd block 7⟩

/-- `kryptos_saferk64_block_encrypt` (src/kryptos_saferk64.c:273-362). -/
def encBlock (rounds : Nat) (K : List (W32 × W32)) (block : Bytes) : Out Bytes := do
  let c ← load block
  let c ← forLoop (encStep K) rounds 0 c
  return (mixA (bytesOf (← rd K (2 * rounds))) c).words

/-- `kryptos_saferk64_IHT2` (src/kryptos_saferk64.c:31-34): the remainders of negative values are negative and become bytes modulo 256. -/
def iht2 (a1 a2 : Byte) : Byte × Byte := (a1 - a2, -a1 + 2 * a2)

/-- The first step of a round of decryption (src/kryptos_saferk64.c:385-407). -/
def unMix (c : Eight 8) : Eight 8 :=
  let (b0, b1) := iht2 c.a c.b
  let (b2, b3) := iht2 c.c c.d
  let (b4, b5) := iht2 c.e c.f
  let (b6, b7) := iht2 c.g c.h
  let (c0, c1) := iht2 b0 b4
  let (c2, c3) := iht2 b1 b5
  let (c4, c5) := iht2 b2 b6
  let (c6, c7) := iht2 b3 b7
  let (b0, b1) := iht2 c0 c4
  let (b2, b3) := iht2 c1 c5
  let (b4, b5) := iht2 c2 c6
  let (b6, b7) := iht2 c3 c7
  ⟨b0, b1, b2, b3, b4, b5, b6, b7⟩

/-- The second step (src/kryptos_saferk64.c:410-417). -/
def unMixB (k c : Eight 8) : Eight 8 :=
  ⟨c.a - k.a, c.b ^^^ k.b, c.c ^^^ k.c, c.d - k.d, c.e - k.e, c.f ^^^ k.f, c.g ^^^ k.g, c.h - k.h⟩

/-- The third step (src/kryptos_saferk64.c:420-427). -/
def unBoxes (c : Eight 8) : Out (Eight 8) := do
  return ⟨← rd lLt c.a.toNat, ← rd eLt c.b.toNat, ← rd eLt c.c.toNat, ← rd lLt c.d.toNat,
    ← rd lLt c.e.toNat, ← rd eLt c.f.toNat, ← rd eLt c.g.toNat, ← rd lLt c.h.toNat⟩

/-- The fourth step and the transformation at the start (src/kryptos_saferk64.c:430-437, 373-380). -/
def unMixA (k c : Eight 8) : Eight 8 :=
  ⟨c.a ^^^ k.a, c.b - k.b, c.c - k.c, c.d ^^^ k.d, c.e ^^^ k.e, c.f - k.f, c.g - k.g, c.h ^^^ k.h⟩

/-- Body of the loop of `kryptos_saferk64_block_decrypt` (src/kryptos_saferk64.c:382-438), for the value `r` of its variable. -/
def decStep (K : List (W32 × W32)) (r : Nat) (c : Eight 8) : Out (Eight 8) := do
  let c := unMixB (bytesOf (← rd K (2 * r - 1))) (unMix c)
  let c ← unBoxes c
  return unMixA (bytesOf (← rd K (2 * r - 2))) c

/-- `kryptos_saferk64_block_decrypt` (src/kryptos_saferk64.c:364-453); the loop counts `r` down to 1. -/
def decBlock (rounds : Nat) (K : List (W32 × W32)) (block : Bytes) : Out Bytes := do
  let c ← load block
  let c := unMixA (bytesOf (← rd K (2 * rounds))) c
  let c ← forLoop (fun j => decStep K (rounds - j)) rounds 0 c
  return c.words

/-- The block functions with the key schedule (src/kryptos_saferk64.c:162). -/
def enc (rounds : Nat) (key block : Bytes) : Out Bytes := do encBlock rounds (← makeKey rounds key) block
def dec (rounds : Nat) (key block : Bytes) : Out Bytes := do decBlock rounds (← makeKey rounds key) block

/-- The checks of the number of rounds (src/kryptos_saferk64.c:150-160): the `int` is converted to `size_t`, of 64 bits here. -/
def roundsOk (rounds : BitVec 32) : Bool :=
  let r : W64 := rounds.signExtend 64
  !(decide (r.toNat < 1) || decide (r.toNat > 800))

end Kryptos.Safer
