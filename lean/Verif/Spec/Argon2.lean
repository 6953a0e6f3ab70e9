import Verif.Spec.Blake2
/-
  Argon2 as published in RFC 9106 (version 0x13).  Nothing here refers to the model of the C code.
-/
namespace Kryptos.Spec.Argon2
open Kryptos.Spec.MD (leNat le)

/-- `H^T` of section 3.1: BLAKE2b without a key. -/
def H (T : Nat) (x : Bytes) : Bytes := Blake2.digest Blake2.b [] x T

/-- Section 3.3: `V_1`, `V_2`, … -/
def V (T : Nat) (A : Bytes) : Nat → Bytes
  | 0 => H 64 (le 4 T ++ A)
  | i + 1 => H 64 (V T A i)

/-- Section 3.3: the variable-length hash function `H'^T`. -/
def H' (T : Nat) (A : Bytes) : Bytes :=
  if T ≤ 64 then H T (le 4 T ++ A)
  else
    let r := (T + 31) / 32 - 2
    ((List.range r).flatMap fun i => (V T A i).take 32) ++ H (T - 32 * r) (V T A (r - 1))

/-- A block: 128 words of 64 bits. -/
abbrev Block := Nat → BitVec 64

/-- Assignment to one place. -/
def put (v : Block) (i : Nat) (x : BitVec 64) : Block := fun j => if j = i then x else v j

/-- Section 3.6: `a + b + 2 * trunc(a) * trunc(b)`. -/
def mul (a b : BitVec 64) : BitVec 64 := BitVec.ofNat 64 (a.toNat + b.toNat + 2 * (a.toNat % 2 ^ 32) * (b.toNat % 2 ^ 32))

/-- Section 3.6: `GB`. -/
def GB (v : Block) (a b c d : Nat) : Block :=
  let v := put v a (mul (v a) (v b))
  let v := put v d ((v d ^^^ v a).rotateRight 32)
  let v := put v c (mul (v c) (v d))
  let v := put v b ((v b ^^^ v c).rotateRight 24)
  let v := put v a (mul (v a) (v b))
  let v := put v d ((v d ^^^ v a).rotateRight 16)
  let v := put v c (mul (v c) (v d))
  put v b ((v b ^^^ v c).rotateRight 63)

/-- Section 3.6: the permutation `P` of eight registers `S_i = (v_(2i+1) || v_2i)`. -/
def P (v : Block) : Block :=
  let v := GB v 0 4 8 12
  let v := GB v 1 5 9 13
  let v := GB v 2 6 10 14
  let v := GB v 3 7 11 15
  let v := GB v 0 5 10 15
  let v := GB v 1 6 11 12
  let v := GB v 2 7 8 13
  GB v 3 4 9 14

/-- Section 3.5: `P` on the rows of the matrix of 8 x 8 registers, row `k / 16` having the words `16 * (k / 16)`, …, `16 * (k / 16) + 15`. -/
def rows (R : Block) : Block := fun k => P (fun i => R (16 * (k / 16) + i)) (k % 16)

/-- Section 3.5: `P` on the columns; register `i / 2` of column `c` has the words `16 * (i / 2) + 2 * c` and the one behind it. -/
def columns (Q : Block) : Block := fun k => P (fun i => Q (16 * (i / 2) + 2 * (k % 16 / 2) + i % 2)) (2 * (k / 16) + k % 2)

/-- Section 3.5: the compression function. -/
def G (X Y : Block) : Block :=
  let R : Block := fun k => X k ^^^ Y k
  let Z := columns (rows R)
  fun k => Z k ^^^ R k

/-- The words of 1024 bytes. -/
def ofBytes (d : Bytes) : Block := fun k => BitVec.ofNat 64 (leNat ((d.drop (8 * k)).take 8))

/-- The bytes of a block. -/
def toBytes (b : Block) : Bytes := (List.range 128).flatMap fun k => le 8 (b k).toNat

/-- The parameters of section 3.1: parallelism, tag length, memory, passes and type (0, 1, 2 for d, i, id), and the byte strings. -/
structure Params where
  p : Nat
  T : Nat
  m : Nat
  t : Nat
  y : Nat
  password : Bytes
  salt : Bytes
  secret : Bytes
  ad : Bytes

/-- Columns of a segment. -/
def Params.seg (c : Params) : Nat := c.m / (4 * c.p)
/-- Columns of a lane. -/
def Params.q (c : Params) : Nat := 4 * c.seg
/-- Blocks of the memory. -/
def Params.m' (c : Params) : Nat := 4 * c.p * (c.m / (4 * c.p))

/-- Section 3.2, step 1. -/
def H0 (c : Params) : Bytes :=
  H 64 (le 4 c.p ++ le 4 c.T ++ le 4 c.m ++ le 4 c.t ++ le 4 0x13 ++ le 4 c.y ++ le 4 c.password.length ++ c.password ++ le 4 c.salt.length ++ c.salt ++
    le 4 c.secret.length ++ c.secret ++ le 4 c.ad.length ++ c.ad)

/-- The memory: lane and column. -/
abbrev Memory := Nat → Nat → Block

/-- Section 3.2, steps 3 and 4. -/
def start (c : Params) : Memory := fun i j => if j < 2 then ofBytes (H' 1024 (H0 c ++ le 4 j ++ le 4 i)) else fun _ => 0

/-- Two places where a program may go another way than RFC 9106: the column whose first word gives `J_1` and `J_2` (of the column `j` of `q`), and the number
of columns at the beginning of the memory for which no address of section 3.4.1.2 is used up. -/
structure Way where
  before : Nat → Nat → Nat
  skip : Nat

/-- RFC 9106: the preceding column; addresses are those at the same index. -/
def rfc : Way := ⟨fun q j => (j + q - 1) % q, 0⟩

/-- Section 3.4: whether the segment `sl` of pass `r` has addresses that do not depend on the data. -/
def independent (c : Params) (r sl : Nat) : Bool := c.y = 1 ∨ (c.y = 2 ∧ r = 0 ∧ sl < 2)

/-- Section 3.4.1.2: the block `Z || LE64(n) || ZERO(968)`. -/
def input (c : Params) (r l sl n : Nat) : Block := fun k =>
  BitVec.ofNat 64 (match k with | 0 => r | 1 => l | 2 => sl | 3 => c.m' | 4 => c.t | 5 => c.y | 6 => n | _ => 0)

/-- Section 3.4.1.2: the address with index `i` in a segment. -/
def address (c : Params) (r l sl i : Nat) : BitVec 64 := G (fun _ => 0) (G (fun _ => 0) (input c r l sl (i / 128 + 1))) (i % 128)

/-- Sections 3.4.1.1 and 3.4.1.2: `J_1` in the low and `J_2` in the high half. -/
def J (w : Way) (c : Params) (M : Memory) (r sl l i : Nat) : BitVec 64 :=
  if independent c r sl then address c r l sl (if r = 0 ∧ sl = 0 then i - w.skip else i) else M l (w.before c.q (sl * c.seg + i)) 0

/-- Section 3.4.2: the lane. -/
def lane (c : Params) (r sl l : Nat) (J : BitVec 64) : Nat := if r = 0 ∧ sl = 0 then l else J.toNat / 2 ^ 32 % c.p

/-- Section 3.4.2: the columns of the segments that are finished (the last three; before the end of the first pass, all), the oldest first. -/
def finished (c : Params) (r sl : Nat) : List Nat :=
  if r = 0 then List.range (sl * c.seg) else (List.range (3 * c.seg)).map fun k => ((sl + 1) * c.seg + k) % c.q

/-- Section 3.4.2: the set `W`.  In the same lane the columns of the current segment are added and the column just before is excluded; in another lane the last
one is excluded for the first block of a segment. -/
def W (c : Params) (r sl i : Nat) (same : Bool) : List Nat :=
  if same then (finished c r sl ++ (List.range i).map fun k => sl * c.seg + k).dropLast
  else if i = 0 then (finished c r sl).dropLast else finished c r sl

/-- Section 3.4.2: the column: `|W| - 1 - y`-th of `W`. -/
def column (W : List Nat) (J : BitVec 64) : Nat :=
  let J1 := J.toNat % 2 ^ 32
  let x := J1 * J1 / 2 ^ 32
  let y := W.length * x / 2 ^ 32
  W.getD (W.length - 1 - y) 0

/-- Section 3.2, steps 5 and 6: one block. -/
def step (w : Way) (c : Params) (r sl l : Nat) (M : Memory) (i : Nat) : Memory :=
  let j := sl * c.seg + i
  if r = 0 ∧ j < 2 then M
  else
    let J := J w c M r sl l i
    let l' := lane c r sl l J
    let j' := column (W c r sl i (l' = l)) J
    let new := G (M l ((j + c.q - 1) % c.q)) (M l' j')
    let new : Block := if r = 0 then new else fun k => new k ^^^ M l j k
    fun a b => if a = l ∧ b = j then new else M a b

/-- A segment of a lane. -/
def segment (w : Way) (c : Params) (r sl : Nat) (M : Memory) (l : Nat) : Memory := (List.range c.seg).foldl (step w c r sl l) M

/-- A segment of all lanes. -/
def slice (w : Way) (c : Params) (r : Nat) (M : Memory) (sl : Nat) : Memory := (List.range c.p).foldl (segment w c r sl) M

/-- A pass. -/
def pass (w : Way) (c : Params) (M : Memory) (r : Nat) : Memory := (List.range 4).foldl (slice w c r) M

/-- The memory after all passes. -/
def memory (w : Way) (c : Params) : Memory := (List.range c.t).foldl (pass w c) (start c)

/-- Section 3.2, step 7: the last blocks of all lanes added. -/
def final (w : Way) (c : Params) : Block := fun k => ((List.range c.p).map fun i => memory w c i (c.q - 1) k).foldl (· ^^^ ·) 0

/-- Section 3.2, step 8: the tag. -/
def tag (w : Way) (c : Params) : Bytes := H' c.T (toBytes (final w c))

end Kryptos.Spec.Argon2
