import Verif.Spec.MerkleDamgard
import Verif.Words
/-
  The Secure Hash Standard (FIPS 180-4), transcribed from the standard.  Nothing here refers to
  the model of the C code.  The constants are defined by the arithmetic description of the
  standard (sections 4.2.2, 4.2.3, 5.3), not by copying tables.
-/
namespace Kryptos.Spec.Sha
open MD

/-! ### Functions (section 4.1) -/

def Ch {w : Nat} (x y z : BitVec w) : BitVec w := (x &&& y) ^^^ (~~~x &&& z)
def Parity {w : Nat} (x y z : BitVec w) : BitVec w := x ^^^ y ^^^ z
def Maj {w : Nat} (x y z : BitVec w) : BitVec w := (x &&& y) ^^^ (x &&& z) ^^^ (y &&& z)

/-! ### Constants -/

/-- The prime numbers below `n`, in order. -/
def primesBelow (n : Nat) : List Nat :=
  (List.range n).filter fun p => 2 ≤ p ∧ ∀ d ∈ List.range p, 2 ≤ d → p % d ≠ 0

/-- Bitwise search for the largest `r` with `r ^ k ≤ n`: bits `b - 1, ..., 0` are tried in turn. -/
def rootAux (k n : Nat) : Nat → Nat → Nat
  | 0, r => r
  | b + 1, r => rootAux k n b (if (r + 2 ^ b) ^ k ≤ n then r + 2 ^ b else r)

/-- First `w` bits of the fractional part of the `k`-th root of `p`.  The root scaled by `2 ^ w`
has less than `w + 8` bits for the `p` below 2^16 (and `k ≥ 2`) used here. -/
def rootFrac (k w p : Nat) : BitVec w := BitVec.ofNat w (rootAux k (p * 2 ^ (k * w)) (w + 8) 0)

/-- Section 4.2.2: the first 32 bits of the fractional parts of the cube roots of the first
sixty-four primes. -/
def K256 : List (BitVec 32) := ((primesBelow 410).take 64).map (rootFrac 3 32)

/-- Section 4.2.3: the first 64 bits of the fractional parts of the cube roots of the first eighty
primes. -/
def K512 : List (BitVec 64) := ((primesBelow 410).take 80).map (rootFrac 3 64)

/-! ### States -/

def add5 {w : Nat} (s t : Five w) : Five w := ⟨s.a + t.a, s.b + t.b, s.c + t.c, s.d + t.d, s.e + t.e⟩
def add8 {w : Nat} (s t : Eight w) : Eight w :=
  ⟨s.a + t.a, s.b + t.b, s.c + t.c, s.d + t.d, s.e + t.e, s.f + t.f, s.g + t.g, s.h + t.h⟩

/-- Section 5.3.1. -/
def sha1Init : Five 32 := ⟨0x67452301#32, 0xefcdab89#32, 0x98badcfe#32, 0x10325476#32, 0xc3d2e1f0#32⟩

/-- Section 5.3.3: first 32 bits of the fractional parts of the square roots of the first eight
primes.  (Written as a relation because the eight words are given by a list.) -/
def IsSha256Init (s : Eight 32) : Prop := s.words = ((primesBelow 20).map (rootFrac 2 32))
/-- Section 5.3.2: the second 32 bits of the fractional parts of the square roots of the ninth
through sixteenth primes. -/
def IsSha224Init (s : Eight 32) : Prop :=
  s.words = (((primesBelow 54).drop 8).map fun p => (rootFrac 2 64 p).setWidth 32)
/-- Section 5.3.5: first 64 bits of the fractional parts of the square roots of the first eight
primes. -/
def IsSha512Init (s : Eight 64) : Prop := s.words = ((primesBelow 20).map (rootFrac 2 64))
/-- Section 5.3.4: first 64 bits of the fractional parts of the square roots of the ninth through
sixteenth primes. -/
def IsSha384Init (s : Eight 64) : Prop := s.words = (((primesBelow 54).drop 8).map (rootFrac 2 64))

/-! ### SHA-1 (section 6.1.2) -/

/-- Word `i` of a block, big-endian (section 3.1). -/
def wordAt (w wb : Nat) (block : Bytes) (i : Nat) : BitVec w :=
  BitVec.ofNat w (beNat ((block.drop (i * wb)).take wb))

/-- Message schedule, step 1. -/
def sha1W (block : Bytes) (t : Nat) : BitVec 32 :=
  if t < 16 then wordAt 32 4 block t
  else (sha1W block (t - 3) ^^^ sha1W block (t - 8) ^^^ sha1W block (t - 14) ^^^
    sha1W block (t - 16)).rotateLeft 1
termination_by t

def sha1f (t : Nat) (x y z : BitVec 32) : BitVec 32 :=
  if t ≤ 19 then Ch x y z else if t ≤ 39 then Parity x y z
  else if t ≤ 59 then Maj x y z else Parity x y z

def sha1K (t : Nat) : BitVec 32 :=
  if t ≤ 19 then 0x5a827999#32 else if t ≤ 39 then 0x6ed9eba1#32
  else if t ≤ 59 then 0x8f1bbcdc#32 else 0xca62c1d6#32

/-- Step 3. -/
def sha1Round (block : Bytes) (s : Five 32) (t : Nat) : Five 32 :=
  let T := s.a.rotateLeft 5 + sha1f t s.b s.c s.d + s.e + sha1K t + sha1W block t
  ⟨T, s.a, s.b.rotateLeft 30, s.c, s.d⟩

def sha1Compress (H : Five 32) (block : Bytes) : Five 32 :=
  add5 ((List.range 80).foldl (sha1Round block) H) H

/-- The hash value of the message (sections 5.1.1, 6.1). -/
def sha1 (m : Bytes) : Bytes :=
  (iterate 64 sha1Compress sha1Init (pad 64 8 0x80#8 (be 8) m)).words.flatMap fun x => be 4 x.toNat

/-! ### SHA-2 (sections 6.2 to 6.5) -/

/-- The constants that distinguish the 32 and the 64 bit variants. -/
structure Sha2 (w : Nat) where
  wb : Nat
  S0 : BitVec w → BitVec w
  S1 : BitVec w → BitVec w
  s0 : BitVec w → BitVec w
  s1 : BitVec w → BitVec w
  K : List (BitVec w)

/-- Section 4.1.2. -/
def p256 : Sha2 32 where
  wb := 4
  S0 x := x.rotateRight 2 ^^^ x.rotateRight 13 ^^^ x.rotateRight 22
  S1 x := x.rotateRight 6 ^^^ x.rotateRight 11 ^^^ x.rotateRight 25
  s0 x := x.rotateRight 7 ^^^ x.rotateRight 18 ^^^ (x >>> 3)
  s1 x := x.rotateRight 17 ^^^ x.rotateRight 19 ^^^ (x >>> 10)
  K := K256

/-- Section 4.1.3. -/
def p512 : Sha2 64 where
  wb := 8
  S0 x := x.rotateRight 28 ^^^ x.rotateRight 34 ^^^ x.rotateRight 39
  S1 x := x.rotateRight 14 ^^^ x.rotateRight 18 ^^^ x.rotateRight 41
  s0 x := x.rotateRight 1 ^^^ x.rotateRight 8 ^^^ (x >>> 7)
  s1 x := x.rotateRight 19 ^^^ x.rotateRight 61 ^^^ (x >>> 6)
  K := K512

variable {w : Nat}

def Sha2.W (p : Sha2 w) (block : Bytes) (t : Nat) : BitVec w :=
  if t < 16 then wordAt w p.wb block t
  else p.s1 (p.W block (t - 2)) + p.W block (t - 7) + p.s0 (p.W block (t - 15)) + p.W block (t - 16)
termination_by t

def Sha2.round (p : Sha2 w) (block : Bytes) (s : Eight w) (k : BitVec w) (t : Nat) : Eight w :=
  let T1 := s.h + p.S1 s.e + Ch s.e s.f s.g + k + p.W block t
  let T2 := p.S0 s.a + Maj s.a s.b s.c
  ⟨T1 + T2, s.a, s.b, s.c, s.d + T1, s.e, s.f, s.g⟩

def Sha2.compress (p : Sha2 w) (H : Eight w) (block : Bytes) : Eight w :=
  add8 (p.K.zipIdx.foldl (fun s kt => p.round block s kt.1 kt.2) H) H

/-- The words of the final hash value of the padded message. -/
def Sha2.final (p : Sha2 w) (H0 : Eight w) (padded : Bytes) : Bytes :=
  (iterate (16 * p.wb) p.compress H0 padded).words.flatMap fun x => be p.wb x.toNat

/-- Sections 5.1.1 and 5.1.2: the length field has 64 bits for SHA-224/256 and 128 bits for
SHA-384/512, i.e. two words. -/
def Sha2.digest (p : Sha2 w) (H0 : Eight w) (m : Bytes) : Bytes :=
  p.final H0 (pad (16 * p.wb) (2 * p.wb) 0x80#8 (be (2 * p.wb)) m)

/-- `d` is the digest of `m`. -/
def Sha256 (m d : Bytes) : Prop := ∃ H0, IsSha256Init H0 ∧ d = p256.digest H0 m
def Sha224 (m d : Bytes) : Prop := ∃ H0, IsSha224Init H0 ∧ d = (p256.digest H0 m).take 28
def Sha512 (m d : Bytes) : Prop := ∃ H0, IsSha512Init H0 ∧ d = p512.digest H0 m
def Sha384 (m d : Bytes) : Prop := ∃ H0, IsSha384Init H0 ∧ d = (p512.digest H0 m).take 48

end Kryptos.Spec.Sha
