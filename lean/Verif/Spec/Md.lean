import Verif.Words
import Verif.Spec.MerkleDamgard
import Mathlib.Analysis.SpecialFunctions.Trigonometric.Basic
/-
  MD4 (RFC 1320), MD5 (RFC 1321), RIPEMD-128 and RIPEMD-160 (Dobbertin, Bosselaers, Preneel, "RIPEMD-160: A strengthened version of
  RIPEMD", 1996).  A step works on the chaining variables in their order of use and rotates them, where the documents permute the
  names; the names are in their original places again after 4 (5) steps.
-/
namespace Kryptos.Spec.Md
open MD

/-- The `i`-th word of a block, least significant byte first (RFC 1320 section 2). -/
def word (blk : Bytes) (i : Nat) : W32 := BitVec.ofNat 32 (leNat ((blk.drop (4 * i)).take 4))

/-- `n` steps; `L i a b c d` is the new value computed in step `i`. -/
def steps4 (L : Nat → W32 → W32 → W32 → W32 → W32) (n : Nat) (st : Four 32) : Four 32 :=
  (List.range n).foldl (fun s i => ⟨s.d, L i s.a s.b s.c s.d, s.b, s.c⟩) st

/-- The initial values (RFC 1320 section 3.3): the bytes 01 23 45 67 89 ab cd ef fe dc ba 98 76 54 32 10. -/
def init4 : Four 32 :=
  let bytes : Bytes := [0x01#8, 0x23#8, 0x45#8, 0x67#8, 0x89#8, 0xab#8, 0xcd#8, 0xef#8,
    0xfe#8, 0xdc#8, 0xba#8, 0x98#8, 0x76#8, 0x54#8, 0x32#8, 0x10#8]
  ⟨word bytes 0, word bytes 1, word bytes 2, word bytes 3⟩

/-- The padded message: a one bit, zeros, the length in bits as 64 bits, least significant byte first (RFC 1320, 3.1 and 3.2). -/
def padMd (m : Bytes) : Bytes := pad 64 8 0x80#8 (le 8) m

/-- The digest: the words, least significant byte first (RFC 1320, 3.5). -/
def output (ws : List W32) : Bytes := ws.flatMap fun x => le 4 x.toNat

/-- If X then Y else Z, by bits. -/
def sel (x y z : W32) : W32 := (x &&& y) ||| (~~~x &&& z)

/-- The integer `r` is the integer part of `2 ^ 30` times the `k`-th root of `n`. -/
def IsRoot (k n r : Nat) : Prop := r ^ k ≤ n * 2 ^ (30 * k) ∧ n * 2 ^ (30 * k) < (r + 1) ^ k

/-! ### MD4 -/

/-- The functions F, G, H (RFC 1320, 3.4). -/
def md4F (r : Nat) (x y z : W32) : W32 :=
  if r = 0 then sel x y z else if r = 1 then (x &&& y) ||| (x &&& z) ||| (y &&& z) else x ^^^ y ^^^ z

/-- The word used in step `i` of round `r`. -/
def md4Idx (r i : Nat) : Option Nat :=
  if r = 0 then some i
  else if r = 1 then [0, 4, 8, 12, 1, 5, 9, 13, 2, 6, 10, 14, 3, 7, 11, 15][i]?
  else [0, 8, 4, 12, 2, 10, 6, 14, 1, 9, 5, 13, 3, 11, 7, 15][i]?

/-- The rotations. -/
def md4Shift (r i : Nat) : Option Nat := do
  let l ← [[3, 7, 11, 19], [3, 5, 9, 13], [3, 9, 11, 15]][r]?
  l[i % 4]?

/-- One step on values: `K` holds the constants of the rounds. -/
def md4Line (K : Nat → Nat) (blk : Bytes) (j : Nat) (a b c d : W32) : W32 :=
  (a + md4F (j / 16) b c d + word blk ((md4Idx (j / 16) (j % 16)).getD 0) + BitVec.ofNat 32 (K (j / 16))).rotateLeft
    ((md4Shift (j / 16) (j % 16)).getD 0)

/-- The compression function. -/
def md4Compress (K : Nat → Nat) (st : Four 32) (blk : Bytes) : Four 32 :=
  let s := steps4 (md4Line K blk) 48 st
  ⟨st.a + s.a, st.b + s.b, st.c + s.c, st.d + s.d⟩

/-- The constants: none in the first round, the square roots of 2 and 3 in the others. -/
def IsMd4K (K : Nat → Nat) : Prop := K 0 = 0 ∧ IsRoot 2 2 (K 1) ∧ IsRoot 2 3 (K 2)

/-- `d` is the MD4 digest of `m`. -/
def Md4 (m d : Bytes) : Prop :=
  ∃ K, IsMd4K K ∧ d = output (iterate 64 (md4Compress K) init4 (padMd m)).words

/-! ### MD5 -/

/-- The functions F, G, H, I (RFC 1321, 3.4). -/
def md5F (r : Nat) (x y z : W32) : W32 :=
  if r = 0 then sel x y z else if r = 1 then (x &&& z) ||| (y &&& ~~~z)
  else if r = 2 then x ^^^ y ^^^ z else y ^^^ (x ||| ~~~z)

/-- The table T: the integer part of 4294967296 times abs(sin(i)), `i` in radians, from 1. -/
noncomputable def md5T (i : Nat) : W32 := BitVec.ofNat 32 ⌊4294967296 * |Real.sin (i + 1)|⌋₊

/-- The word used in step `j` of round `r`: every first, fifth, third or seventh word, from 0, 1, 5 and 0. -/
def md5Idx (r j : Nat) : Nat :=
  if r = 0 then j else if r = 1 then (1 + 5 * j) % 16 else if r = 2 then (5 + 3 * j) % 16 else 7 * j % 16

/-- The rotations. -/
def md5Shift (r i : Nat) : Option Nat := do
  let l ← [[7, 12, 17, 22], [5, 9, 14, 20], [4, 11, 16, 23], [6, 10, 15, 21]][r]?
  l[i % 4]?

/-- One step on values. -/
noncomputable def md5Line (blk : Bytes) (j : Nat) (a b c d : W32) : W32 :=
  b + (a + md5F (j / 16) b c d + word blk (md5Idx (j / 16) (j % 16)) + md5T j).rotateLeft ((md5Shift (j / 16) (j % 16)).getD 0)

/-- The compression function. -/
noncomputable def md5Compress (st : Four 32) (blk : Bytes) : Four 32 :=
  let s := steps4 (md5Line blk) 64 st
  ⟨st.a + s.a, st.b + s.b, st.c + s.c, st.d + s.d⟩

/-- The MD5 digest of `m`. -/
noncomputable def md5 (m : Bytes) : Bytes := output (iterate 64 md5Compress init4 (padMd m)).words

/-! ### RIPEMD -/

/-- The functions of the rounds 1 to 5 (here from 0). -/
def ripF (j : Nat) (x y z : W32) : W32 :=
  if j = 0 then x ^^^ y ^^^ z else if j = 1 then sel x y z else if j = 2 then (x ||| ~~~y) ^^^ z
  else if j = 3 then (x &&& z) ||| (y &&& ~~~z) else x ^^^ (y ||| ~~~z)

/-- The permutation ρ of the words. -/
def rho (i : Nat) : Nat := ([7, 4, 13, 1, 10, 6, 15, 3, 12, 0, 9, 5, 2, 14, 11, 8][i]?).getD 0

/-- The permutation π. -/
def pi (i : Nat) : Nat := (9 * i + 5) % 16

/-- The word used in step `i` of round `r`: `ρ^r` in the left line, `ρ^r ∘ π` in the right one. -/
def ripIdx (right : Bool) (r i : Nat) : Nat := rho^[r] (if right then pi i else i)

/-- The rotations, by round and index of the word. -/
def ripShift (r k : Nat) : Nat := (([
    [11, 14, 15, 12, 5, 8, 7, 9, 11, 13, 14, 15, 6, 7, 9, 8],
    [12, 13, 11, 15, 6, 9, 9, 7, 12, 15, 11, 13, 7, 8, 7, 7],
    [13, 15, 14, 11, 7, 7, 6, 8, 13, 14, 13, 12, 5, 5, 6, 9],
    [14, 11, 12, 14, 8, 6, 5, 5, 15, 12, 15, 14, 9, 9, 8, 6],
    [15, 12, 13, 13, 9, 5, 8, 6, 14, 11, 12, 11, 8, 6, 5, 5]][r]?).bind (·[k]?)).getD 0

/-- The constants of a version with `n` rounds: on the left 0 and the square roots of 2, 3, 5, 7; on the right the cube roots of
2, 3, 5, 7, in the last round 0. -/
def IsRipK (n : Nat) (K : Bool → Nat → Nat) : Prop :=
  K false 0 = 0 ∧ K true (n - 1) = 0 ∧
  ∀ i p, [2, 3, 5, 7][i]? = some p → i < n - 1 → IsRoot 2 p (K false (i + 1)) ∧ IsRoot 3 p (K true i)

/-- The sum that is rotated in step `j` of a version with `n` rounds. -/
def ripSum (n : Nat) (K : Bool → Nat → Nat) (right : Bool) (blk : Bytes) (j : Nat) (a b c d : W32) : W32 :=
  a + ripF (if right then n - 1 - j / 16 else j / 16) b c d + word blk (ripIdx right (j / 16) (j % 16)) +
    BitVec.ofNat 32 (K right (j / 16))

/-- One step of RIPEMD-128. -/
def rip128Line (K : Bool → Nat → Nat) (right : Bool) (blk : Bytes) (j : Nat) (a b c d : W32) : W32 :=
  (ripSum 4 K right blk j a b c d).rotateLeft (ripShift (j / 16) (ripIdx right (j / 16) (j % 16)))

/-- The compression function of RIPEMD-128. -/
def rip128Compress (K : Bool → Nat → Nat) (st : Four 32) (blk : Bytes) : Four 32 :=
  let l := steps4 (rip128Line K false blk) 64 st
  let r := steps4 (rip128Line K true blk) 64 st
  ⟨st.b + l.c + r.d, st.c + l.d + r.a, st.d + l.a + r.b, st.a + l.b + r.c⟩

/-- `d` is the RIPEMD-128 digest of `m`. -/
def Ripemd128 (m d : Bytes) : Prop :=
  ∃ K, IsRipK 4 K ∧ d = output (iterate 64 (rip128Compress K) init4 (padMd m)).words

/-- `n` steps on five variables; the third one is rotated by ten. -/
def steps5 (L : Nat → W32 → W32 → W32 → W32 → W32 → W32) (n : Nat) (st : Five 32) : Five 32 :=
  (List.range n).foldl (fun s i => ⟨s.e, L i s.a s.b s.c s.d s.e, s.b, s.c.rotateLeft 10, s.d⟩) st

/-- One step of RIPEMD-160. -/
def rip160Line (K : Bool → Nat → Nat) (right : Bool) (blk : Bytes) (j : Nat) (a b c d e : W32) : W32 :=
  (ripSum 5 K right blk j a b c d).rotateLeft (ripShift (j / 16) (ripIdx right (j / 16) (j % 16))) + e

/-- The compression function of RIPEMD-160. -/
def rip160Compress (K : Bool → Nat → Nat) (st : Five 32) (blk : Bytes) : Five 32 :=
  let l := steps5 (rip160Line K false blk) 80 st
  let r := steps5 (rip160Line K true blk) 80 st
  ⟨st.b + l.c + r.d, st.c + l.d + r.e, st.d + l.e + r.a, st.e + l.a + r.b, st.a + l.b + r.c⟩

/-- The initial values of RIPEMD-160. -/
def init5 : Five 32 := ⟨init4.a, init4.b, init4.c, init4.d, 0xC3D2E1F0#32⟩

/-- `d` is the RIPEMD-160 digest of `m`. -/
def Ripemd160 (m d : Bytes) : Prop :=
  ∃ K, IsRipK 5 K ∧ d = output (iterate 64 (rip160Compress K) init5 (padMd m)).words

end Kryptos.Spec.Md
