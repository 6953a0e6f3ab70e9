import Verif.Base
/-
  FIPS PUB 202 (KECCAK-p[1600, 24], the sponge construction, SHA-3) and, without the suffix 01, the KECCAK submission to the contest.
  Everything is in bits, as in the standard.
-/
namespace Kryptos.Spec.Keccak

/-- State arrays `A[x, y, z]` (3.1). -/
abbrev Arr := Fin 5 → Fin 5 → Fin 64 → Bool

/-- θ (3.2.1): the sum of the bits of a column. -/
def C (A : Arr) (x : Fin 5) (z : Fin 64) : Bool := A x 0 z ^^ A x 1 z ^^ A x 2 z ^^ A x 3 z ^^ A x 4 z
def theta (A : Arr) : Arr := fun x y z => A x y z ^^ (C A (x - 1) z ^^ C A (x + 1) (z - 1))

/-- The pairs (x, y) that ρ goes through (3.2.2, steps 2 and 3b). -/
def pos : Nat → Fin 5 × Fin 5
  | 0 => (1, 0)
  | t + 1 => ((pos t).2, 2 * (pos t).1 + 3 * (pos t).2)
/-- ρ (3.2.2): lane `pos t` is shifted by (t + 1)(t + 2)/2; the lane (0, 0) is not. -/
def rho (A : Arr) : Arr := fun x y z =>
  match (List.range 24).find? fun t => pos t = (x, y) with
  | some t => A x y (z - Fin.ofNat 64 ((t + 1) * (t + 2) / 2))
  | none => A x y z

/-- π (3.2.3). -/
def pi (A : Arr) : Arr := fun x y z => A (x + 3 * y) x z

/-- χ (3.2.4). -/
def chi (A : Arr) : Arr := fun x y z => A x y z ^^ ((A (x + 1) y z ^^ true) && A (x + 2) y z)

/-- One step of the feedback register of `rc` (3.2.5, step 3). -/
def lfsr (R : List Bool) : List Bool :=
  let R := false :: R
  let b := R.getD 8 false
  (R.mapIdx fun i x => if i = 0 ∨ i = 4 ∨ i = 5 ∨ i = 6 then x ^^ b else x).take 8
/-- `rc(t)` (3.2.5, algorithm 5). -/
def rc (t : Nat) : Bool :=
  ((List.range (t % 255)).foldl (fun R _ => lfsr R) [true, false, false, false, false, false, false, false]).getD 0 false
/-- The round constant: bit 2^j - 1 is `rc(j + 7 ir)` for j from 0 to 6, others are zero. -/
def RC (ir : Nat) (z : Fin 64) : Bool :=
  match (List.range 7).find? fun j => 2 ^ j - 1 = z.val with
  | some j => rc (j + 7 * ir)
  | none => false
/-- ι (3.2.5). -/
def iota (ir : Nat) (A : Arr) : Arr := fun x y z => if x = 0 ∧ y = 0 then A x y z ^^ RC ir z else A x y z

/-- KECCAK-f[1600] (3.3, 3.4). -/
def f (A : Arr) : Arr := (List.range 24).foldl (fun A ir => iota ir (chi (pi (rho (theta A))))) A

/-- pad10*1 (5.1): the padding of a string of `m` bits to a multiple of `r`. -/
def pad101 (r m : Nat) : List Bool := true :: (List.replicate ((r - (m + 2) % r) % r) false ++ [true])

/-- The sum of the state and a block of `r` bits followed by zeros; bit `64 (5 y + x) + z` of the string is `A[x, y, z]` (3.1.2). -/
def add (P : List Bool) (A : Arr) : Arr := fun x y z => A x y z ^^ P.getD (64 * (5 * y.val + x.val) + z.val) false

/-- The blocks of `r` bits of a string. -/
def blocks (r : Nat) (P : List Bool) : List (List Bool) := (List.range (P.length / r)).map fun i => (P.drop (i * r)).take r

/-- The first `d` bits of a state. -/
def trunc (d : Nat) (A : Arr) : List Bool :=
  (List.range d).map fun k => A (Fin.ofNat 5 (k / 64)) (Fin.ofNat 5 (k / 64 / 5)) (Fin.ofNat 64 k)

/-- SPONGE[KECCAK-f[1600], pad10*1, r](N, d) (4), for d ≤ r. -/
def sponge (r : Nat) (N : List Bool) (d : Nat) : List Bool :=
  trunc d ((blocks r (N ++ pad101 r N.length)).foldl (fun A P => f (add P A)) fun _ _ _ => false)

/-- KECCAK[c](N, d) (5.2). -/
def keccak (c : Nat) (N : List Bool) (d : Nat) : List Bool := sponge (1600 - c) N d

/-- Bytes as bits, least significant first (B.1). -/
def bits (b : Bytes) : List Bool := b.flatMap fun x => (List.range 8).map x.getLsbD

/-- SHA3-d (6.1). -/
def sha3 (d : Nat) (M : Bytes) : List Bool := keccak (2 * d) (bits M ++ [false, true]) d
/-- KECCAK-d as submitted. -/
def keccakSub (d : Nat) (M : Bytes) : List Bool := keccak (2 * d) (bits M) d

end Kryptos.Spec.Keccak
