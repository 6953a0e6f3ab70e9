import Verif.Words
import Verif.Spec.MerkleDamgard
/-
  Serpent, in the form on words of which the bits are handled in parallel (Anderson, Biham and Knudsen, "Serpent: A Proposal for the Advanced
  Encryption Standard").
-/
namespace Kryptos.Spec.Serpent
open MD (leNat)

/-- The eight S-boxes. -/
def sboxes : List (List Nat) :=
  [[3, 8, 15, 1, 10, 6, 5, 11, 14, 13, 4, 2, 7, 0, 9, 12],
   [15, 12, 2, 7, 9, 0, 5, 10, 1, 11, 14, 8, 6, 13, 3, 4],
   [8, 6, 7, 9, 3, 12, 10, 15, 13, 1, 14, 4, 0, 11, 5, 2],
   [0, 15, 11, 8, 12, 9, 6, 3, 13, 1, 2, 4, 10, 7, 5, 14],
   [1, 15, 8, 3, 12, 0, 11, 6, 2, 5, 4, 10, 9, 14, 7, 13],
   [15, 5, 2, 11, 4, 10, 9, 12, 0, 3, 14, 8, 13, 6, 7, 1],
   [7, 2, 12, 5, 8, 4, 6, 11, 14, 9, 1, 15, 13, 3, 10, 0],
   [1, 13, 15, 0, 14, 8, 2, 11, 7, 4, 12, 10, 9, 3, 5, 6]]

/-- An entry of a table at four bits, the lowest first, and the bit `j` of it. -/
def bit (t : List Nat) (j : Nat) (a b c d : Bool) : Bool := (t.getD (a.toNat + 2 * b.toNat + 4 * c.toNat + 8 * d.toNat) 0).testBit j

/-- The word of the bits `f 0`, ..., `f 31`. -/
def word (f : Nat → Bool) : W32 := (BitVec.ofBoolListLE ((List.range 32).map f)).setWidth 32

/-- A table applied to the 32 quadruples of bits of four words. -/
def slice (t : List Nat) (x : Four 32) : Four 32 :=
  let y j := word fun i => bit t j (x.a.getLsbD i) (x.b.getLsbD i) (x.c.getLsbD i) (x.d.getLsbD i)
  ⟨y 0, y 1, y 2, y 3⟩

/-- S-box `i mod 8`, and its inverse. -/
def S (i : Nat) : Four 32 → Four 32 := slice (sboxes.getD (i % 8) [])
def Sinv (i : Nat) : Four 32 → Four 32 := slice ((List.range 16).map fun y => (sboxes.getD (i % 8) []).idxOf y)

/-- The linear transformation, and its inverse. -/
def L (x : Four 32) : Four 32 :=
  let x0 := x.a.rotateLeft 13
  let x2 := x.c.rotateLeft 3
  let x1 := x.b ^^^ x0 ^^^ x2
  let x3 := x.d ^^^ x2 ^^^ x0 <<< 3
  let x1 := x1.rotateLeft 1
  let x3 := x3.rotateLeft 7
  let x0 := x0 ^^^ x1 ^^^ x3
  let x2 := x2 ^^^ x3 ^^^ x1 <<< 7
  let x0 := x0.rotateLeft 5
  let x2 := x2.rotateLeft 22
  ⟨x0, x1, x2, x3⟩
def Linv (x : Four 32) : Four 32 :=
  let x2 := x.c.rotateRight 22
  let x0 := x.a.rotateRight 5
  let x2 := x2 ^^^ x.d ^^^ x.b <<< 7
  let x0 := x0 ^^^ x.d ^^^ x.b
  let x3 := x.d.rotateRight 7
  let x1 := x.b.rotateRight 1
  let x3 := x3 ^^^ x0 <<< 3 ^^^ x2
  let x1 := x1 ^^^ x0 ^^^ x2
  let x2 := x2.rotateRight 3
  let x0 := x0.rotateRight 13
  ⟨x0, x1, x2, x3⟩

def mix (x y : Four 32) : Four 32 := ⟨x.a ^^^ y.a, x.b ^^^ y.b, x.c ^^^ y.c, x.d ^^^ y.d⟩

/-- Thirty-one rounds with the subkeys 0 to 30, and a last one with 31 and 32 in which a subkey is added instead of the linear transformation. -/
def encrypt (K : Nat → Four 32) (x : Four 32) : Four 32 :=
  let x := (List.range 31).foldl (fun x i => L (S i (mix x (K i)))) x
  mix (S 31 (mix x (K 31))) (K 32)
def decrypt (K : Nat → Four 32) (x : Four 32) : Four 32 :=
  let x := mix (Sinv 31 (mix x (K 32))) (K 31)
  (List.range 31).reverse.foldl (fun x i => mix (Sinv i (Linv x)) (K i)) x

/-- A key of up to 256 bits, as a number whose lowest byte is the first: shorter keys get a bit 1 on top. -/
def keyNat (key : Bytes) : Nat := leNat key + if key.length < 32 then 256 ^ key.length else 0

/-- The words w₋₈, w₋₇, ...: `prekeys key n` has 8 + `n` of them. -/
def prekeys (key : Bytes) : Nat → List W32
  | 0 => (List.range 8).map fun i => BitVec.ofNat 32 (keyNat key / 2 ^ (32 * i))
  | n + 1 =>
    let w := prekeys key n
    w ++ [(w.getD n 0 ^^^ w.getD (n + 3) 0 ^^^ w.getD (n + 5) 0 ^^^ w.getD (n + 7) 0 ^^^ 0x9E3779B9 ^^^ BitVec.ofNat 32 n).rotateLeft 11]

/-- Subkey `i`: S-box 3 - `i` on four of the words from w₀ on. -/
def subkey (key : Bytes) (i : Nat) : Four 32 :=
  let w := (prekeys key 132).drop 8
  S (35 - i) ⟨w.getD (4 * i) 0, w.getD (4 * i + 1) 0, w.getD (4 * i + 2) 0, w.getD (4 * i + 3) 0⟩

end Kryptos.Spec.Serpent
