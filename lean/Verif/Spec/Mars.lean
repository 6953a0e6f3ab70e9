import Verif.Words
import Verif.Spec.Sha
/-
  MARS, after "MARS - a candidate cipher for AES" (IBM, revised 1999), with the revised ("tweaked") key expansion.  The S-box of 512 words is
  the argument `sb`; the published one is `sbox`.
-/
namespace Kryptos.Spec.Mars
open MD (leWords le)

/-- Byte `j` of a word, counted from the least significant one. -/
def byte (x : W32) (j : Nat) : Nat := x.toNat / 256 ^ j % 256

/-! ## The S-box -/

/-- The words of the S-box before the correction: hash values of four words, two of them digits of e and pi. -/
def raw : List W32 :=
  ((List.range 103).flatMap fun i => leWords 32 4 (Sha.sha1 (le 4 (5 * i) ++ (le 4 0xB7E15162 ++ (le 4 0x243F6A88 ++ le 4 0x02917D59))))).take 512

/-- The number of bytes in which two words agree. -/
def agree (x y : W32) : Nat := ((List.range 4).filter fun j => decide (byte x j = byte y j)).length

/-- A word that agrees in two or more bytes with a later one of the same half is multiplied by three. -/
def corrected : List W32 → List W32
  | [] => []
  | x :: l => (if l.any fun y => decide (2 ≤ agree x y) then 3 * x else x) :: corrected l

def sbox : List W32 := corrected (raw.take 256) ++ corrected (raw.drop 256)

/-! ## The cipher -/

variable (sb : List W32)

/-- The S-box, and its halves S0 and S1. -/
def S (i : Nat) : W32 := sb.getD i 0
def S0 (i : Nat) : W32 := S sb i
def S1 (i : Nat) : W32 := S sb (256 + i)

/-- The three numbers the E-function works with: the sum, and the product rotated once and twice by 5. -/
def eSum (x k : W32) : W32 := x + k
def eR1 (x k' : W32) : W32 := (x.rotateLeft 13 * k').rotateLeft 5
def eR2 (x k' : W32) : W32 := (eR1 x k').rotateLeft 5

/-- The E-function: the words L, M and R. -/
def E (x k k' : W32) : Three 32 :=
  ⟨(S sb ((eSum x k).toNat % 512) ^^^ eR1 x k' ^^^ eR2 x k').rotateLeft ((eR2 x k').toNat % 32),
   (eSum x k).rotateLeft ((eR1 x k').toNat % 32), eR2 x k'⟩

/-- The words are renumbered between rounds. -/
def next (D : Four 32) : Four 32 := ⟨D.b, D.c, D.d, D.a⟩
def prev (D : Four 32) : Four 32 := ⟨D.d, D.a, D.b, D.c⟩

/-- Phase 1: forward mixing, round `i`. -/
def forward (D : Four 32) (i : Nat) : Four 32 :=
  let b := (D.b ^^^ S0 sb (byte D.a 0)) + S1 sb (byte D.a 1)
  let c := D.c + S0 sb (byte D.a 2)
  let d := D.d ^^^ S1 sb (byte D.a 3)
  let a := D.a.rotateRight 24
  next ⟨if i % 4 = 0 then a + d else if i % 4 = 1 then a + b else a, b, c, d⟩

/-- Phase 2: the keyed transformation, round `i` (forward mode in the first eight, backwards mode in the last eight). -/
def core (K : List W32) (D : Four 32) (i : Nat) : Four 32 :=
  let e := E sb D.a (K.getD (2 * i + 4) 0) (K.getD (2 * i + 5) 0)
  let a := D.a.rotateLeft 13
  let c := D.c + e.b
  next (if i < 8 then ⟨a, D.b + e.a, c, D.d ^^^ e.c⟩ else ⟨a, D.b ^^^ e.c, c, D.d + e.a⟩)

/-- Phase 3: backwards mixing, round `i`. -/
def backward (D : Four 32) (i : Nat) : Four 32 :=
  let a := if i % 4 = 2 then D.a - D.d else if i % 4 = 3 then D.a - D.b else D.a
  let b := D.b ^^^ S1 sb (byte a 0)
  let c := D.c - S0 sb (byte a 3)
  let d := (D.d - S1 sb (byte a 2)) ^^^ S0 sb (byte a 1)
  next ⟨a.rotateLeft 24, b, c, d⟩

def addKey (K : List W32) (n : Nat) (D : Four 32) : Four 32 :=
  ⟨D.a + K.getD n 0, D.b + K.getD (n + 1) 0, D.c + K.getD (n + 2) 0, D.d + K.getD (n + 3) 0⟩
def subKey (K : List W32) (n : Nat) (D : Four 32) : Four 32 :=
  ⟨D.a - K.getD n 0, D.b - K.getD (n + 1) 0, D.c - K.getD (n + 2) 0, D.d - K.getD (n + 3) 0⟩

/-- Encryption of four words with the forty subkeys. -/
def encrypt (K : List W32) (D : Four 32) : Four 32 :=
  let D := (List.range 8).foldl (forward sb) (addKey K 0 D)
  let D := (List.range 16).foldl (core sb K) D
  subKey K 36 ((List.range 8).foldl (backward sb) D)

/-- The rotations of the keyed transformation that depend on data, of round `i` in the state `D`. -/
def rotations (K : List W32) (D : Four 32) (i : Nat) : List Nat :=
  [(eR1 D.a (K.getD (2 * i + 5) 0)).toNat % 32, (eR2 D.a (K.getD (2 * i + 5) 0)).toNat % 32]

/-! ## Key expansion -/

/-- The step of the linear transformation for word `i` in iteration `j`. -/
def linear (j : Nat) (T : List W32) (i : Nat) : List W32 :=
  T.set i (T.getD i 0 ^^^ (T.getD ((i + 8) % 15) 0 ^^^ T.getD ((i + 13) % 15) 0).rotateLeft 3 ^^^ BitVec.ofNat 32 (4 * i + j))

/-- The step of a stirring round for word `i`. -/
def stir (T : List W32) (i : Nat) : List W32 :=
  T.set i ((T.getD i 0 + S sb ((T.getD ((i + 14) % 15) 0).toNat % 512)).rotateLeft 9)

/-- Iteration `j`: the linear transformation, and four stirring rounds. -/
def iteration (T : List W32) (j : Nat) : List W32 :=
  (List.range 4).foldl (fun T _ => (List.range 15).foldl (stir sb) T) ((List.range 15).foldl (linear j) T)

/-- The array before iteration 0, 1, ..., 4. -/
def arrays (T : List W32) (j : Nat) : List W32 := (List.range j).foldl (iteration sb) T

/-- The forty subkeys before the correction of those that are used for multiplication. -/
def expanded (T : List W32) : List W32 :=
  (List.range 4).flatMap fun j => (List.range 10).map fun i => (arrays sb T (j + 1)).getD (4 * i % 15) 0

/-- Bit `l` of the mask of a word: `2 ≤ l ≤ 30`, the bit is equal to its two neighbours, and it belongs to ten consecutive equal bits. -/
def InMask (w : W32) (l : Nat) : Prop :=
  2 ≤ l ∧ l ≤ 30 ∧ w.getLsbD (l - 1) = w.getLsbD l ∧ w.getLsbD (l + 1) = w.getLsbD l ∧
  ∃ s, s ≤ l ∧ l ≤ s + 9 ∧ s + 9 ≤ 31 ∧ ∀ t, t ≤ 9 → w.getLsbD (s + t) = w.getLsbD l

/-- `k` is the corrected subkey for the subkey `k` and its predecessor `k'`. -/
def Corrected (k k' r : W32) : Prop :=
  ∃ M : W32, (∀ l, l < 32 → (M.getLsbD l = true ↔ InMask (k ||| 3) l)) ∧
    r = (k ||| 3) ^^^ ((S sb (265 + k.toNat % 4)).rotateLeft (k'.toNat % 32) &&& M)

/-- `K` is the list of subkeys for the key `key`, whose length is a multiple of four bytes. -/
def IsSchedule (key : Bytes) (K : List W32) : Prop :=
  let n := key.length / 4
  let K' := expanded sb (leWords 32 4 key ++ BitVec.ofNat 32 n :: List.replicate (14 - n) 0)
  K.length = 40 ∧ ∀ i, i < 40 →
    if 5 ≤ i ∧ i ≤ 35 ∧ i % 2 = 1 then Corrected sb (K'.getD i 0) (K'.getD (i - 1) 0) (K.getD i 0) else K.getD i 0 = K'.getD i 0

end Kryptos.Spec.Mars
