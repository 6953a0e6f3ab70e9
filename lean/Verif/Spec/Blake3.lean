import Verif.Spec.MerkleDamgard
import Mathlib.Data.Nat.Sqrt
/-
  BLAKE3 as published by its authors (O'Connor, Aumasson, Neves, Wilcox-O'Hearn: "BLAKE3, one function, fast everywhere", section 2).
  Nothing here refers to the model of the C code.
-/
namespace Kryptos.Spec.Blake3
open Kryptos.Spec.MD (leNat le)

/-- A vector of words. -/
abbrev Vec := Nat → W32

/-- Assignment to one place. -/
def put (v : Vec) (i : Nat) (x : W32) : Vec := fun j => if j = i then x else v j

/-- The first primes. -/
def prime : Nat → Nat
  | 0 => 2 | 1 => 3 | 2 => 5 | 3 => 7 | 4 => 11 | 5 => 13 | 6 => 17 | _ => 19

/-- Table 1, those of BLAKE2s: the first 32 bits of the fractional parts of the square roots of the first primes. -/
def IV (i : Nat) : W32 := BitVec.ofNat _ (Nat.sqrt (2 ^ 64 * prime i))

/-- Table 3: the flags. -/
def CHUNK_START : W32 := 1#32 <<< 0
def CHUNK_END : W32 := 1#32 <<< 1
def PARENT : W32 := 1#32 <<< 2
def ROOT : W32 := 1#32 <<< 3
def KEYED_HASH : W32 := 1#32 <<< 4
def DERIVE_KEY_CONTEXT : W32 := 1#32 <<< 5
def DERIVE_KEY_MATERIAL : W32 := 1#32 <<< 6

/-- Section 2.2: the function G on the words `a b c d` of the state. -/
def G (v : Vec) (a b c d : Nat) (x y : W32) : Vec :=
  let v := put v a (v a + v b + x)
  let v := put v d ((v d ^^^ v a).rotateRight 16)
  let v := put v c (v c + v d)
  let v := put v b ((v b ^^^ v c).rotateRight 12)
  let v := put v a (v a + v b + y)
  let v := put v d ((v d ^^^ v a).rotateRight 8)
  let v := put v c (v c + v d)
  put v b ((v b ^^^ v c).rotateRight 7)

/-- Section 2.2: a round, columns and then diagonals. -/
def round (v m : Vec) : Vec :=
  let v := G v 0 4 8 12 (m 0) (m 1)
  let v := G v 1 5 9 13 (m 2) (m 3)
  let v := G v 2 6 10 14 (m 4) (m 5)
  let v := G v 3 7 11 15 (m 6) (m 7)
  let v := G v 0 5 10 15 (m 8) (m 9)
  let v := G v 1 6 11 12 (m 10) (m 11)
  let v := G v 2 7 8 13 (m 12) (m 13)
  G v 3 4 9 14 (m 14) (m 15)

/-- Table 2: the permutation of the message words. -/
def sigma : Nat → Nat
  | 0 => 2 | 1 => 6 | 2 => 3 | 3 => 10 | 4 => 7 | 5 => 0 | 6 => 4 | 7 => 13
  | 8 => 1 | 9 => 11 | 10 => 12 | 11 => 5 | 12 => 9 | 13 => 14 | 14 => 15 | _ => 8

/-- `n` rounds, the message words being permuted between them. -/
def rounds : Nat → Vec → Vec → Vec
  | 0, v, _ => v
  | n + 1, v, m => rounds n (round v m) (fun i => m (sigma i))

/-- Section 2.2: the inputs of a compression: chaining value, message block, counter, length of the block, flags. -/
structure Node where
  h : Vec
  m : Vec
  t : W64
  b : W32
  d : W32

/-- Section 2.2: the compression function, giving sixteen words. -/
def compress (n : Node) : Vec :=
  let v : Vec := fun i => if i < 8 then n.h i else
    match i with
    | 12 => n.t.setWidth 32
    | 13 => (n.t >>> 32).setWidth 32
    | 14 => n.b
    | 15 => n.d
    | _ => IV (i - 8)
  let v := rounds 7 v n.m
  fun i => if i < 8 then v i ^^^ v (i + 8) else v i ^^^ n.h (i - 8)

/-- The words of a block, least significant byte first, filled up with zeros. -/
def words (d : Bytes) : Vec := fun i => BitVec.ofNat _ (leNat ((d.drop (4 * i)).take 4))

/-- Section 2.4: the last compression of the chunk with number `t` of which `d` is left, `h` being the chaining value so far. -/
def chunkFrom (flags : W32) (t : W64) (h : Vec) (start : W32) (d : Bytes) : Node :=
  if d.length ≤ 64 then ⟨h, words d, t, BitVec.ofNat _ d.length, flags ||| start ||| CHUNK_END⟩
  else chunkFrom flags t (compress ⟨h, words (d.take 64), t, 64, flags ||| start⟩) 0 (d.drop 64)
termination_by d.length
decreasing_by rw [List.length_drop]; omega

/-- Section 2.4: the last compression of a chunk; the chaining value of the chunk is the first half of its result. -/
def chunk (k : Vec) (flags : W32) (t : W64) (d : Bytes) : Node := chunkFrom flags t k CHUNK_START d

/-- Section 2.5: a parent of two chaining values. -/
def parent (k : Vec) (flags : W32) (l r : Vec) : Node := ⟨k, fun i => if i < 8 then l i else r (i - 8), 0, 64, flags ||| PARENT⟩

/-- Section 2.1: the tree over some bytes, the first chunk of which has the number `t`.  "The left subtree is full: it is a complete binary tree
with a power of two chunks, and as large as possible so that there is at least one byte in the right subtree". -/
def tree (k : Vec) (flags : W32) (t : Nat) (d : Bytes) : Node :=
  if 1024 < d.length then
    let p := 2 ^ Nat.log2 ((d.length - 1) / 1024)
    parent k flags (compress (tree k flags t (d.take (p * 1024)))) (compress (tree k flags (t + p) (d.drop (p * 1024))))
  else chunk k flags (BitVec.ofNat _ t) d
termination_by d.length
decreasing_by
  · rw [List.length_take]
    have : 2 ^ Nat.log2 ((d.length - 1) / 1024) ≤ (d.length - 1) / 1024 := Nat.log2_self_le (by omega)
    omega
  · rw [List.length_drop]
    have : 0 < 2 ^ Nat.log2 ((d.length - 1) / 1024) := Nat.two_pow_pos _
    omega

/-- Section 2.6: the `j`-th 64 bytes of the output, from repeated root compressions. -/
def outBlock (n : Node) (j : Nat) : Bytes :=
  (List.range 16).flatMap fun i => le 4 (compress { n with t := BitVec.ofNat _ j, d := n.d ||| ROOT } i).toNat

/-- Section 2.6: an output of `l` bytes. -/
def output (n : Node) (l : Nat) : Bytes := ((List.range ((l + 63) / 64)).flatMap (outBlock n)).take l

/-- Section 2.3: the mode `hash`. -/
def hash (msg : Bytes) (l : Nat) : Bytes := output (tree IV 0 0 msg) l

/-- Section 2.3: the mode `keyed_hash`. -/
def keyedHash (key msg : Bytes) (l : Nat) : Bytes := output (tree (words key) KEYED_HASH 0 msg) l

/-- Section 2.3: the mode `derive_key`. -/
def deriveKey (context material : Bytes) (l : Nat) : Bytes :=
  let k := words (output (tree IV DERIVE_KEY_CONTEXT 0 context) 32)
  output (tree k DERIVE_KEY_MATERIAL 0 material) l

end Kryptos.Spec.Blake3
