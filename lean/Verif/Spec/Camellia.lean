import Verif.Spec.MerkleDamgard
/-
  Camellia after RFC 3713, section 2; the S-box in the algebraic form of the specification of the algorithm (Aoki, Ichikawa, Kanda, Matsui, Moriai,
  Nakajima and Tokita, "Specification of Camellia - a 128-bit Block Cipher", section 4.5).
-/
namespace Kryptos.Spec.Camellia
open MD (beNat)

/-! ## The S-boxes -/

/-- The product in GF(2^8) modulo x^8 + x^6 + x^5 + x^3 + 1; the residue of x is `β`. -/
def times (b : Nat) : Nat := if 128 ≤ b then (2 * b) ^^^ 0x169 else 2 * b
def mul (b c : Nat) : Nat := (List.range 8).foldr (fun i a => times a ^^^ (if c.testBit i then b else 0)) 0
def power (b : Nat) : Nat → Nat
  | 0 => 1
  | n + 1 => mul b (power b n)

/-- `α = β^238 = β^6 + β^5 + β^3 + β^2`, an element of GF(2^4). -/
def alpha : Nat := 0x6C

/-- The element (a8 + a7 α + a6 α^2 + a5 α^3) + (a4 + a3 α + a2 α^2 + a1 α^3) β for the byte a1 ... a8, a1 being its highest bit. -/
def basis : List Nat := [1, alpha, power alpha 2, power alpha 3, 2, mul alpha 2, mul (power alpha 2) 2, mul (power alpha 3) 2]
def element (a : Nat) : Nat := basis.zipIdx.foldl (fun s p => if a.testBit p.2 then s ^^^ p.1 else s) 0

/-- The inverse of an element, its power 2 + 4 + ... + 128 = 254; zero for zero. -/
def inverse (x : Nat) : Nat := ((List.range 7).foldl (fun p _ => let y := mul p.1 p.1; (y, mul p.2 y)) (x, 1)).2

/-- The byte whose element is the inverse of the element of `a`. -/
def g (a : Nat) : Nat := ((List.range 256).map element).idxOf (inverse (element a))

/-- Sums of bits: entry `i` of the list says which bits of `a` make up bit `i + 1` of the result, both counted from the highest. -/
def linear (rows : List (List Nat)) (a : Nat) : Nat :=
  rows.foldl (fun s row => 2 * s + (row.map fun j => a / 2 ^ (8 - j) % 2).foldl (· + ·) 0 % 2) 0
def f : Nat → Nat := linear [[6, 2], [7, 1], [8, 5, 3], [8, 3], [7, 4], [5, 2], [8, 1], [6, 4]]
def h : Nat → Nat := linear [[5, 6, 2], [6, 2], [7, 4], [8, 2], [7, 3], [8, 1], [5, 1], [6, 3]]

def s1 (x : Byte) : Byte := BitVec.ofNat 8 (h (g (f (0xC5 ^^^ x.toNat))) ^^^ 0x6E)
def s2 (x : Byte) : Byte := (s1 x).rotateLeft 1
def s3 (x : Byte) : Byte := (s1 x).rotateLeft 7
def s4 (x : Byte) : Byte := s1 (x.rotateLeft 1)

/-! ## The functions F, FL and FLINV -/

/-- Byte `i` of a word, counted from the highest. -/
def byte (x : W64) (i : Nat) : Byte := x.extractLsb' (56 - 8 * i) 8

def F (x ke : W64) : W64 :=
  let x := x ^^^ ke
  let t1 := s1 (byte x 0)
  let t2 := s2 (byte x 1)
  let t3 := s3 (byte x 2)
  let t4 := s4 (byte x 3)
  let t5 := s2 (byte x 4)
  let t6 := s3 (byte x 5)
  let t7 := s4 (byte x 6)
  let t8 := s1 (byte x 7)
  (t1 ^^^ t3 ^^^ t4 ^^^ t6 ^^^ t7 ^^^ t8) ++ (t1 ^^^ t2 ^^^ t4 ^^^ t5 ^^^ t7 ^^^ t8) ++ (t1 ^^^ t2 ^^^ t3 ^^^ t5 ^^^ t6 ^^^ t8) ++
    (t2 ^^^ t3 ^^^ t4 ^^^ t5 ^^^ t6 ^^^ t7) ++ (t1 ^^^ t2 ^^^ t6 ^^^ t7 ^^^ t8) ++ (t2 ^^^ t3 ^^^ t5 ^^^ t7 ^^^ t8) ++
    (t3 ^^^ t4 ^^^ t5 ^^^ t6 ^^^ t8) ++ (t1 ^^^ t4 ^^^ t5 ^^^ t6 ^^^ t7)

/-- The halves of a word. -/
def hi32 (x : W64) : W32 := x.extractLsb' 32 32
def lo32 (x : W64) : W32 := x.extractLsb' 0 32

def FL (x ke : W64) : W64 :=
  let x1 := hi32 x
  let x2 := lo32 x
  let x2 := x2 ^^^ (x1 &&& hi32 ke).rotateLeft 1
  let x1 := x1 ^^^ (x2 ||| lo32 ke)
  x1 ++ x2

def FLINV (y ke : W64) : W64 :=
  let y1 := hi32 y
  let y2 := lo32 y
  let y1 := y1 ^^^ (y2 ||| lo32 ke)
  let y2 := y2 ^^^ (y1 &&& hi32 ke).rotateLeft 1
  y1 ++ y2

/-! ## The key schedule -/

def sigma1 : W64 := 0xA09E667F3BCC908B
def sigma2 : W64 := 0xB67AE8584CAA73B2
def sigma3 : W64 := 0xC6EF372FE94F82BE
def sigma4 : W64 := 0x54FF53A5F1D36F1C
def sigma5 : W64 := 0x10E527FADE682D1D
def sigma6 : W64 := 0xB05688C2B3E6C1FD

def hi (x : BitVec 128) : W64 := x.extractLsb' 64 64
def lo (x : BitVec 128) : W64 := x.extractLsb' 0 64

/-- Two steps of a Feistel network. -/
def double (k1 k2 : W64) (d : W64 × W64) : W64 × W64 :=
  let d2 := d.2 ^^^ F d.1 k1
  let d1 := d.1 ^^^ F d2 k2
  (d1, d2)

def KA (KL KR : BitVec 128) : BitVec 128 :=
  let d := double sigma1 sigma2 (hi (KL ^^^ KR), lo (KL ^^^ KR))
  let d := double sigma3 sigma4 (d.1 ^^^ hi KL, d.2 ^^^ lo KL)
  d.1 ++ d.2

def KB (KL KR : BitVec 128) : BitVec 128 :=
  let d := double sigma5 sigma6 (hi (KA KL KR ^^^ KR), lo (KA KL KR ^^^ KR))
  d.1 ++ d.2

/-- kw1 ... kw4, k1 ... k18 or k24, ke1 ... ke4 or ke6. -/
structure Subkeys where
  kw1 : W64
  kw2 : W64
  kw3 : W64
  kw4 : W64
  k : List W64
  ke : List W64

/-- Both halves of a rotated key. -/
def both (x : BitVec 128) (s : Nat) : List W64 := [hi (x.rotateLeft s), lo (x.rotateLeft s)]

/-- Section 2.2 for keys of 128 bits. -/
def schedule128 (KL : BitVec 128) : Subkeys where
  kw1 := hi KL
  kw2 := lo KL
  kw3 := hi ((KA KL 0).rotateLeft 111)
  kw4 := lo ((KA KL 0).rotateLeft 111)
  k := both (KA KL 0) 0 ++ both KL 15 ++ both (KA KL 0) 15 ++ both KL 45 ++ [hi ((KA KL 0).rotateLeft 45), lo (KL.rotateLeft 60)] ++
    both (KA KL 0) 60 ++ both KL 94 ++ both (KA KL 0) 94 ++ both KL 111
  ke := both (KA KL 0) 30 ++ both KL 77

/-- Section 2.2 for keys of 192 and 256 bits. -/
def schedule256 (KL KR : BitVec 128) : Subkeys where
  kw1 := hi KL
  kw2 := lo KL
  kw3 := hi ((KB KL KR).rotateLeft 111)
  kw4 := lo ((KB KL KR).rotateLeft 111)
  k := both (KB KL KR) 0 ++ both KR 15 ++ both (KA KL KR) 15 ++ both (KB KL KR) 30 ++ both KL 45 ++ both (KA KL KR) 45 ++
    both KR 60 ++ both (KB KL KR) 60 ++ both KL 77 ++ both KR 94 ++ both (KA KL KR) 94 ++ both KL 111
  ke := both KR 30 ++ both KL 60 ++ both (KA KL KR) 77

/-- The number of some bytes, first byte highest. -/
def word (n : Nat) (b : Bytes) : BitVec n := BitVec.ofNat n (beNat b)

/-- The subkeys of a key of 16, 24 or 32 bytes. -/
def subkeys (key : Bytes) : Subkeys :=
  let KL := word 128 (key.take 16)
  if key.length = 16 then schedule128 KL
  else if key.length = 24 then
    let r := word 64 (key.drop 16)
    schedule256 KL (r ++ ~~~ r)
  else schedule256 KL (word 128 (key.drop 16))

/-! ## Blocks -/

/-- Six rounds, then FL and FLINV and the next six rounds as long as there are subkeys for them. -/
def rounds : List W64 → List W64 → W64 × W64 → W64 × W64
  | k1 :: k2 :: k3 :: k4 :: k5 :: k6 :: k, ke, d =>
    let d := double k5 k6 (double k3 k4 (double k1 k2 d))
    match ke with
    | ke1 :: ke2 :: ke => rounds k ke (FL d.1 ke1, FLINV d.2 ke2)
    | _ => d
  | _, _, d => d

/-- Section 2.3.  -/
def crypt (s : Subkeys) (m : BitVec 128) : BitVec 128 :=
  let d := rounds s.k s.ke (hi m ^^^ s.kw1, lo m ^^^ s.kw2)
  (d.2 ^^^ s.kw3) ++ (d.1 ^^^ s.kw4)

/-- Section 2.3.3: decryption reverses the order of the subkeys. -/
def reverse (s : Subkeys) : Subkeys := ⟨s.kw3, s.kw4, s.kw1, s.kw2, s.k.reverse, s.ke.reverse⟩

def encrypt (key : Bytes) (block : Bytes) : Bytes := MD.be 16 (crypt (subkeys key) (word 128 block)).toNat
def decrypt (key : Bytes) (block : Bytes) : Bytes := MD.be 16 (crypt (reverse (subkeys key)) (word 128 block)).toNat

end Kryptos.Spec.Camellia
