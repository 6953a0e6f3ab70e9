import Verif.Words
/-
  Twofish, after "Twofish: A 128-Bit Block Cipher" (Schneier, Kelsey, Whiting, Wagner, Hall and Ferguson, 1998), section 4.
-/
namespace Kryptos.Spec.Twofish

/-! ## Building blocks -/

/-- The product with x in GF(2)[x] modulo x^8 + v(x). -/
def times (v b : Byte) : Byte := (b <<< 1) ^^^ (if b.msb then v else 0)
/-- The product of two polynomials modulo x^8 + v(x). -/
def mul (v b c : Byte) : Byte := (List.range 8).foldr (fun i acc => times v acc ^^^ (if c.getLsbD i then b else 0)) 0

/-- The polynomials of the two fields without their leading terms: x^6 + x^5 + x^3 + 1 and x^6 + x^3 + x^2 + 1. -/
def vMds : Byte := 0x69
def vRs : Byte := 0x4D

/-- The product of a matrix and a vector. -/
def matrix (v : Byte) (m : List Bytes) (y : Bytes) : Bytes := m.map fun row => (List.zipWith (mul v) y row).foldl (· ^^^ ·) 0

def MDS : List Bytes :=
  [[0x01, 0xEF, 0x5B, 0x5B], [0x5B, 0xEF, 0xEF, 0x01], [0xEF, 0x5B, 0x01, 0xEF], [0xEF, 0x01, 0xEF, 0x5B]]
def RS : List Bytes :=
  [[0x01, 0xA4, 0x55, 0x87, 0x5A, 0x58, 0xDB, 0x9E], [0xA4, 0x56, 0x82, 0xF3, 0x1E, 0xC6, 0x68, 0xE5],
   [0x02, 0xA1, 0xFC, 0xC1, 0x47, 0xAE, 0x3D, 0x19], [0xA4, 0x55, 0x87, 0x5A, 0x58, 0xDB, 0x9E, 0x03]]

/-- The permutations q0 and q1 of bytes, made of four permutations of nibbles each. -/
def ror4 (x : Nat) : Nat := x / 2 + x % 2 * 8
def q (t : List (List Nat)) (x : Nat) : Nat :=
  let a0 := x / 16
  let b0 := x % 16
  let a1 := a0 ^^^ b0
  let b1 := a0 ^^^ ror4 b0 ^^^ (8 * a0 % 16)
  let a2 := (t.getD 0 []).getD a1 0
  let b2 := (t.getD 1 []).getD b1 0
  let a3 := a2 ^^^ b2
  let b3 := a2 ^^^ ror4 b2 ^^^ (8 * a2 % 16)
  let a4 := (t.getD 2 []).getD a3 0
  let b4 := (t.getD 3 []).getD b3 0
  16 * b4 + a4

def t0 : List (List Nat) :=
  [[0x8, 0x1, 0x7, 0xD, 0x6, 0xF, 0x3, 0x2, 0x0, 0xB, 0x5, 0x9, 0xE, 0xC, 0xA, 0x4],
   [0xE, 0xC, 0xB, 0x8, 0x1, 0x2, 0x3, 0x5, 0xF, 0x4, 0xA, 0x6, 0x7, 0x0, 0x9, 0xD],
   [0xB, 0xA, 0x5, 0xE, 0x6, 0xD, 0x9, 0x0, 0xC, 0x8, 0xF, 0x3, 0x2, 0x4, 0x7, 0x1],
   [0xD, 0x7, 0xF, 0x4, 0x1, 0x2, 0x6, 0xE, 0x9, 0xB, 0x3, 0x0, 0x8, 0x5, 0xC, 0xA]]
def t1 : List (List Nat) :=
  [[0x2, 0x8, 0xB, 0xD, 0xF, 0x7, 0x6, 0xE, 0x3, 0x1, 0x9, 0x4, 0x0, 0xA, 0xC, 0x5],
   [0x1, 0xE, 0x2, 0xB, 0x4, 0xC, 0x3, 0x7, 0x6, 0xD, 0xA, 0x5, 0xF, 0x9, 0x0, 0x8],
   [0x4, 0xC, 0x7, 0x5, 0x1, 0x6, 0x9, 0xA, 0x0, 0xE, 0xD, 0x8, 0x2, 0xB, 0x3, 0xF],
   [0xB, 0x9, 0x5, 0x1, 0xC, 0x3, 0xD, 0xE, 0x6, 0x4, 0x7, 0xF, 0x2, 0x0, 0x8, 0xA]]

def q0 (x : Byte) : Byte := BitVec.ofNat 8 (q t0 x.toNat)
def q1 (x : Byte) : Byte := BitVec.ofNat 8 (q t1 x.toNat)

/-- Words and their bytes, the lowest first. -/
def byte (x : W32) (j : Nat) : Byte := BitVec.ofNat 8 (x.toNat / 256 ^ j)
def bytes (x : W32) : Four 8 := ⟨byte x 0, byte x 1, byte x 2, byte x 3⟩
def word (y : Four 8) : W32 := BitVec.ofNat 32 (y.a.toNat + 256 * y.b.toNat + 65536 * y.c.toNat + 16777216 * y.d.toNat)
def quad (l : Bytes) : Four 8 := ⟨l.getD 0 0, l.getD 1 0, l.getD 2 0, l.getD 3 0⟩

/-! ## The function h -/

/-- Four permutations followed by the exclusive or with the bytes of a word. -/
def stage (p0 p1 p2 p3 : Byte → Byte) (y l : Four 8) : Four 8 := ⟨p0 y.a ^^^ l.a, p1 y.b ^^^ l.b, p2 y.c ^^^ l.c, p3 y.d ^^^ l.d⟩

/-- The function h of a word and a list of k words, given by their bytes. -/
def h (X : W32) (L : List (Four 8)) : W32 :=
  let l := fun j => L.getD j ⟨0, 0, 0, 0⟩
  let y := bytes X
  let y := if L.length = 4 then stage q1 q0 q0 q1 y (l 3) else y
  let y := if 3 ≤ L.length then stage q1 q1 q0 q0 y (l 2) else y
  let y := stage q0 q1 q0 q1 y (l 1)
  let y := stage q0 q0 q1 q1 y (l 0)
  let y := stage q1 q0 q1 q0 y ⟨0, 0, 0, 0⟩
  word (quad (matrix vMds MDS y.words))

/-! ## The key schedule, for a key of 8 k bytes -/

/-- The words of the key. -/
def M (key : Bytes) (i : Nat) : Four 8 := quad (key.drop (4 * i))
def Me (k : Nat) (key : Bytes) : List (Four 8) := (List.range k).map fun i => M key (2 * i)
def Mo (k : Nat) (key : Bytes) : List (Four 8) := (List.range k).map fun i => M key (2 * i + 1)
/-- The words that make the S-boxes, in reverse order. -/
def S (k : Nat) (key : Bytes) : List (Four 8) := (List.range k).reverse.map fun i => quad (matrix vRs RS ((key.drop (8 * i)).take 8))

def A (k : Nat) (key : Bytes) (i : Nat) : W32 := h (BitVec.ofNat 32 (2 * i * 0x01010101)) (Me k key)
def B (k : Nat) (key : Bytes) (i : Nat) : W32 := (h (BitVec.ofNat 32 ((2 * i + 1) * 0x01010101)) (Mo k key)).rotateLeft 8

/-- The subkeys. -/
def K (k : Nat) (key : Bytes) (n : Nat) : W32 :=
  if n % 2 = 0 then A k key (n / 2) + B k key (n / 2) else (A k key (n / 2) + 2 * B k key (n / 2)).rotateLeft 9

/-! ## The cipher -/

def g (k : Nat) (key : Bytes) (X : W32) : W32 := h X (S k key)

/-- The two values of the function F in round `r`. -/
def F0 (k : Nat) (key : Bytes) (r : Nat) (R0 R1 : W32) : W32 := g k key R0 + g k key (R1.rotateLeft 8) + K k key (2 * r + 8)
def F1 (k : Nat) (key : Bytes) (r : Nat) (R0 R1 : W32) : W32 := g k key R0 + 2 * g k key (R1.rotateLeft 8) + K k key (2 * r + 9)

def round (k : Nat) (key : Bytes) (R : Four 32) (r : Nat) : Four 32 :=
  ⟨(R.c ^^^ F0 k key r R.a R.b).rotateRight 1, R.d.rotateLeft 1 ^^^ F1 k key r R.a R.b, R.a, R.b⟩

def encrypt (k : Nat) (key : Bytes) (P : Four 32) : Four 32 :=
  let R := (List.range 16).foldl (round k key) ⟨P.a ^^^ K k key 0, P.b ^^^ K k key 1, P.c ^^^ K k key 2, P.d ^^^ K k key 3⟩
  ⟨R.c ^^^ K k key 4, R.d ^^^ K k key 5, R.a ^^^ K k key 6, R.b ^^^ K k key 7⟩

end Kryptos.Spec.Twofish
