import Verif.Words
/-
  The block cipher IDEA (Lai, On the Design and Security of Block Ciphers, 1992): words of 16 bits, multiplication modulo 2^16 + 1 in which
  zero stands for 2^16.
-/
namespace Kryptos.Spec.Idea

/-- The number a word stands for in products. -/
def num (x : W16) : Nat := if x = 0 then 2 ^ 16 else x.toNat

/-- The product. -/
def prod (x y : W16) : W16 := BitVec.ofNat 16 (num x * num y % (2 ^ 16 + 1))

/-- The eight words of a key, the first from its highest bits. -/
def words (k : BitVec 128) : List W16 := (List.range 8).map fun i => k.extractLsb' (112 - 16 * i) 16

/-- The key schedule: words are taken eight at a time, between which the key is rotated by 25; there are 52. -/
def subkeys : Nat → BitVec 128 → List W16
  | 0, k => (words k).take 4
  | n + 1, k => words k ++ subkeys n (k.rotateLeft 25)

/-- A round with its six words: the steps are numbered as in the publication. -/
def round (z1 z2 z3 z4 z5 z6 : W16) (x : Four 16) : Four 16 :=
  let s1 := prod x.a z1
  let s2 := x.b + z2
  let s3 := x.c + z3
  let s4 := prod x.d z4
  let s5 := s1 ^^^ s3
  let s6 := s2 ^^^ s4
  let s7 := prod s5 z5
  let s8 := s6 + s7
  let s9 := prod s8 z6
  let s10 := s7 + s9
  ⟨s1 ^^^ s9, s3 ^^^ s9, s2 ^^^ s10, s4 ^^^ s10⟩

/-- The rounds and the transformation at the end, with a list of words. -/
def run : List W16 → Four 16 → Four 16
  | z1 :: z2 :: z3 :: z4 :: z5 :: z6 :: z, x => run z (round z1 z2 z3 z4 z5 z6 x)
  | [z1, z2, z3, z4], x => ⟨prod x.a z1, x.c + z2, x.b + z3, prod x.d z4⟩
  | _, x => x

/-- The encryption of a block of four words. -/
def encrypt (key : BitVec 128) (x : Four 16) : Four 16 := run (subkeys 6 key) x

end Kryptos.Spec.Idea
