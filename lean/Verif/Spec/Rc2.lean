import Verif.Spec.MerkleDamgard
/-
  RC2: RFC 2268.
-/
namespace Kryptos.Spec.Rc2
open Spec.MD

/-- `PITABLE` (section 2). -/
def PITABLE : List (BitVec 8) := [
  0xD9, 0x78, 0xF9, 0xC4, 0x19, 0xDD, 0xB5, 0xED, 0x28, 0xE9, 0xFD, 0x79, 0x4A, 0xA0, 0xD8, 0x9D,
  0xC6, 0x7E, 0x37, 0x83, 0x2B, 0x76, 0x53, 0x8E, 0x62, 0x4C, 0x64, 0x88, 0x44, 0x8B, 0xFB, 0xA2,
  0x17, 0x9A, 0x59, 0xF5, 0x87, 0xB3, 0x4F, 0x13, 0x61, 0x45, 0x6D, 0x8D, 0x09, 0x81, 0x7D, 0x32,
  0xBD, 0x8F, 0x40, 0xEB, 0x86, 0xB7, 0x7B, 0x0B, 0xF0, 0x95, 0x21, 0x22, 0x5C, 0x6B, 0x4E, 0x82,
  0x54, 0xD6, 0x65, 0x93, 0xCE, 0x60, 0xB2, 0x1C, 0x73, 0x56, 0xC0, 0x14, 0xA7, 0x8C, 0xF1, 0xDC,
  0x12, 0x75, 0xCA, 0x1F, 0x3B, 0xBE, 0xE4, 0xD1, 0x42, 0x3D, 0xD4, 0x30, 0xA3, 0x3C, 0xB6, 0x26,
  0x6F, 0xBF, 0x0E, 0xDA, 0x46, 0x69, 0x07, 0x57, 0x27, 0xF2, 0x1D, 0x9B, 0xBC, 0x94, 0x43, 0x03,
  0xF8, 0x11, 0xC7, 0xF6, 0x90, 0xEF, 0x3E, 0xE7, 0x06, 0xC3, 0xD5, 0x2F, 0xC8, 0x66, 0x1E, 0xD7,
  0x08, 0xE8, 0xEA, 0xDE, 0x80, 0x52, 0xEE, 0xF7, 0x84, 0xAA, 0x72, 0xAC, 0x35, 0x4D, 0x6A, 0x2A,
  0x96, 0x1A, 0xD2, 0x71, 0x5A, 0x15, 0x49, 0x74, 0x4B, 0x9F, 0xD0, 0x5E, 0x04, 0x18, 0xA4, 0xEC,
  0xC2, 0xE0, 0x41, 0x6E, 0x0F, 0x51, 0xCB, 0xCC, 0x24, 0x91, 0xAF, 0x50, 0xA1, 0xF4, 0x70, 0x39,
  0x99, 0x7C, 0x3A, 0x85, 0x23, 0xB8, 0xB4, 0x7A, 0xFC, 0x02, 0x36, 0x5B, 0x25, 0x55, 0x97, 0x31,
  0x2D, 0x5D, 0xFA, 0x98, 0xE3, 0x8A, 0x92, 0xAE, 0x05, 0xDF, 0x29, 0x10, 0x67, 0x6C, 0xBA, 0xC9,
  0xD3, 0x00, 0xE6, 0xCF, 0xE1, 0x9E, 0xA8, 0x2C, 0x63, 0x16, 0x01, 0x3F, 0x58, 0xE2, 0x89, 0xA9,
  0x0D, 0x38, 0x34, 0x1B, 0xAB, 0x33, 0xFF, 0xB0, 0xBB, 0x48, 0x0C, 0x5F, 0xB9, 0xB1, 0xCD, 0x2E,
  0xC5, 0xF3, 0xDB, 0x47, 0xE5, 0xA5, 0x9C, 0x77, 0x0A, 0xA6, 0x20, 0x68, 0xFE, 0x7F, 0xC1, 0xAD]
def P (x : BitVec 8) : BitVec 8 := PITABLE.getD x.toNat 0

/-- `for i = T, ..., 127 do L[i] = PITABLE[L[i-1] + L[i-T]]`: the next byte after the bytes `L` so far. -/
def next (T : Nat) (L : List (BitVec 8)) : List (BitVec 8) := L ++ [P (L.getD (L.length - 1) 0 + L.getD (L.length - T) 0)]

/-- `for i = 127-T8, ..., 0 do L[i] = PITABLE[L[i+1] xor L[i+T8]]`: the byte before the bytes `L[i+1], ..., L[127]`. -/
def previous (T8 : Nat) (L : List (BitVec 8)) : List (BitVec 8) := P (L.getD 0 0 ^^^ L.getD (T8 - 1) 0) :: L

def times {α : Type} (f : α → α) : Nat → α → α
  | 0, a => a
  | n + 1, a => f (times f n a)

/-- The key expansion (section 2) of a key of 1 to 128 bytes with the effective length of `T1` bits: the 64 words `K[i] = L[2i] + 256 L[2i+1]`. -/
def expand (T1 : Nat) (key : List (BitVec 8)) : List (BitVec 16) :=
  let T := key.length
  let T8 := (T1 + 7) / 8
  let TM := BitVec.ofNat 8 (255 % 2 ^ (8 + T1 - 8 * T8))
  let L := times (next T) (128 - T) key
  let L := P (L.getD (128 - T8) 0 &&& TM) :: L.drop (128 - T8 + 1)
  leWords 16 2 (times (previous T8) (128 - T8) L)

/-- `Mix up R[i]` with the key word `K[j]` (section 3.1); the indices of `R` are modulo 4. -/
def mixUp (K : List (BitVec 16)) (j i : Nat) (R : List (BitVec 16)) : List (BitVec 16) :=
  let r := fun n => R.getD ((i + 4 - n) % 4) 0
  R.set i ((r 0 + K.getD j 0 + (r 1 &&& r 2) + (~~~ r 1 &&& r 3)).rotateLeft ([1, 2, 3, 5].getD i 0))

/-- The mixing round (section 3.2) of which the first key word is `K[j]`. -/
def mixing (K : List (BitVec 16)) (R : List (BitVec 16)) (j : Nat) : List (BitVec 16) :=
  [0, 1, 2, 3].foldl (fun R i => mixUp K (j + i) i R) R

/-- `Mash R[i]`: `R[i] = R[i] + K[R[i-1] & 63]`, and the mashing round (sections 3.3, 3.4). -/
def mash (K : List (BitVec 16)) (R : List (BitVec 16)) (i : Nat) : List (BitVec 16) :=
  R.set i (R.getD i 0 + K.getD ((R.getD ((i + 3) % 4) 0).toNat % 64) 0)
def mashing (K : List (BitVec 16)) (R : List (BitVec 16)) : List (BitVec 16) := [0, 1, 2, 3].foldl (mash K) R

/-- Section 3.5: five mixing rounds, one mashing round, six mixing rounds, one mashing round, five mixing rounds. -/
def words (K : List (BitVec 16)) (R : List (BitVec 16)) : List (BitVec 16) :=
  let R := [0, 4, 8, 12, 16].foldl (mixing K) R
  let R := mashing K R
  let R := [20, 24, 28, 32, 36, 40].foldl (mixing K) R
  let R := mashing K R
  [44, 48, 52, 56, 60].foldl (mixing K) R

/-- The encryption of a block of 8 bytes; words are stored least significant byte first (section 1). -/
def encrypt (T1 : Nat) (key block : List (BitVec 8)) : List (BitVec 8) :=
  (words (expand T1 key) (leWords 16 2 block)).flatMap fun x => le 2 x.toNat

end Kryptos.Spec.Rc2
