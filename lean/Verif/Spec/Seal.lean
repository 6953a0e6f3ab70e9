import Verif.Spec.Sha
/-
  SEAL 2.0 and 3.0: P. Rogaway, D. Coppersmith, "A Software-Optimized Encryption Algorithm", Journal of Cryptology 11 (1998), section 3.
-/
namespace Kryptos.Spec.Seal
open Spec.Sha

/-- `G_a(i)`: the compression function of SHA-1 applied to the 160 bits of `a` and the block of which the first word is `i` and the rest zero. -/
def G (a : Five 32) (i : Nat) : Five 32 := sha1Compress a (MD.be 4 i ++ List.replicate 60 0)

/-- `Γ_a(i)`: word `i mod 5` of `G_a(⌊i/5⌋)`. -/
def gamma (a : Five 32) (i : Nat) : BitVec 32 :=
  let g := G a (i / 5)
  match i % 5 with
  | 0 => g.a
  | 1 => g.b
  | 2 => g.c
  | 3 => g.d
  | _ => g.e

/-- The tables: `T[i] = Γ_a(i)`, `S[j] = Γ_a(0x1000 + j)`, `R[k] = Γ_a(0x2000 + k)`. -/
def T (a : Five 32) (i : Nat) : BitVec 32 := gamma a i
def S (a : Five 32) (j : Nat) : BitVec 32 := gamma a (0x1000 + j)
def R (a : Five 32) (k : Nat) : BitVec 32 := gamma a (0x2000 + k)

/-- The registers. -/
structure Regs where
  A : BitVec 32
  B : BitVec 32
  C : BitVec 32
  D : BitVec 32

/-- Nine bits of a register as an index: `(x & 0x7fc) / 4`. -/
def ix (x : BitVec 32) : Nat := x.toNat / 4 % 512

/-- One run of the loop of `Initialize`. -/
def stir (a : Five 32) (r : Regs) : Regs :=
  let B := r.B + T a (ix r.A)
  let A := r.A.rotateRight 9
  let C := r.C + T a (ix B)
  let B := B.rotateRight 9
  let D := r.D + T a (ix C)
  let C := C.rotateRight 9
  let A := A + T a (ix D)
  let D := D.rotateRight 9
  ⟨A, B, C, D⟩

/-- `Initialize(n, l, ...)`: the registers before the last four steps, from which `n1`, ..., `n4` are taken. -/
def init2 (a : Five 32) (n : BitVec 32) (l : Nat) : Regs :=
  stir a (stir a ⟨n ^^^ R a (4 * l), n.rotateRight 8 ^^^ R a (4 * l + 1), n.rotateRight 16 ^^^ R a (4 * l + 2), n.rotateRight 24 ^^^ R a (4 * l + 3)⟩)

/-- The eight lines of an iteration. -/
def lines (a : Five 32) (r : Regs) : Regs :=
  let m (x : BitVec 32) : BitVec 32 := x &&& 0x7fc#32
  let P := m r.A
  let B := r.B + T a (ix P); let A := r.A.rotateRight 9; let B := B ^^^ A
  let Q := m B
  let C := r.C ^^^ T a (ix Q); let B := B.rotateRight 9; let C := C + B
  let P := m (P + C)
  let D := r.D + T a (ix P); let C := C.rotateRight 9; let D := D ^^^ C
  let Q := m (Q + D)
  let A := A ^^^ T a (ix Q); let D := D.rotateRight 9; let A := A + D
  let P := m (P + A)
  let B := B ^^^ T a (ix P); let A := A.rotateRight 9
  let Q := m (Q + B)
  let C := C + T a (ix Q); let B := B.rotateRight 9
  let P := m (P + C)
  let D := D ^^^ T a (ix P); let C := C.rotateRight 9
  let Q := m (Q + D)
  let A := A + T a (ix Q); let D := D.rotateRight 9
  ⟨A, B, C, D⟩

/-- The words given by iteration `i` (from 1). -/
def emit (a : Five 32) (i : Nat) (r : Regs) : List (BitVec 32) :=
  [r.B + S a (4 * i - 4), r.C ^^^ S a (4 * i - 3), r.D + S a (4 * i - 2), r.A ^^^ S a (4 * i - 1)]

/-- The end of an iteration, which is where the versions differ: `three` is SEAL 3.0. -/
def feed (three : Bool) (x : Regs) (i : Nat) (r : Regs) : Regs :=
  let (u, v) := if i % 2 = 1 then (x.D, x.B) else (x.A, x.C)
  if three then ⟨r.A + u, r.B + v, r.C ^^^ u, r.D ^^^ v⟩ else ⟨r.A + u, r.B, r.C + v, r.D⟩

/-- The registers before iteration `i + 1`. -/
def before (three : Bool) (a : Five 32) (n : BitVec 32) (l : Nat) : Nat → Regs
  | 0 => stir a (init2 a n l)
  | i + 1 => feed three (init2 a n l) (i + 1) (lines a (before three a n l i))

/-- The first `k` words for `n`: 256 words for each `l`, four for each of 64 iterations. -/
def stream (three : Bool) (a : Five 32) (n : BitVec 32) (k : Nat) : List (BitVec 32) :=
  ((List.range ((k + 255) / 256)).flatMap fun l => (List.range 64).flatMap fun i => emit a (i + 1) (lines a (before three a n l i))).take k

/-- A text under SEAL for a position `n`, a piece of `k` words for each of `n`, `n + 1`, …: every word gives its bytes from the most significant. -/
def encrypt (three : Bool) (a : Five 32) (n : BitVec 32) (k : Nat) (text : List (BitVec 8)) : List (BitVec 8) :=
  List.zipWith (· ^^^ ·) text ((List.range ((text.length + (4 * k - 1)) / (4 * k))).flatMap fun j =>
    (stream three a (n + BitVec.ofNat 32 j) k).flatMap fun w => MD.be 4 w.toNat)

end Kryptos.Spec.Seal
