import Verif.Model.HashTask
/-
  What src/kryptos_md4.c, src/kryptos_md5.c and src/kryptos_ripemd128_160.c have in common: the reversal of the bytes of a word, the
  treatment of the padded block, and sequences of steps on registers.
-/
namespace Kryptos.Md
open Hash

/-- `kryptos_md4_u32_rev` (src/kryptos_md4.c:40), `kryptos_md5_u32_rev` (src/kryptos_md5.c:29), `kryptos_ripemd_u32_rev`
(src/kryptos_ripemd128_160.c:27). -/
def rev (x : W32) : W32 := x >>> 24 ||| (x &&& 0x00FF0000#32) >>> 8 ||| (x &&& 0x0000FF00#32) <<< 8 ||| x <<< 24

/-- `kryptos_md4_rotl` (src/kryptos_md4.c:36), `kryptos_md5_ROTL` (src/kryptos_md5.c:27), `kryptos_ripemd_rol`
(src/kryptos_ripemd128_160.c:41). -/
def rotl (x : W32) (s : Nat) : W32 := x <<< s ||| x >>> (32 - s)

/-- What is done with a padded block (src/kryptos_md4.c:149-155, src/kryptos_md5.c:134-138, src/kryptos_ripemd128_160.c:217-221 and
407-411): the two words of the length are swapped and reversed. -/
def fix (block : List W32) : Out (List W32) := do
  let a ← rd block 14
  let b ← rd block 15
  let block ← wr block 14 (rev b)
  wr block 15 (rev a)

/-- The sixteen assignments that reverse the words of the block (src/kryptos_md4.c:163-178, src/kryptos_md5.c:146-161,
src/kryptos_ripemd128_160.c:229-244 and 420-435). -/
def revBlock (block : List W32) : Out (List W32) := if block.length ≠ 16 then .ub else .ok (block.map rev)

/-- The four ways in which the registers are handed to the step macros: `(AA, BB, CC, DD)`, `(DD, AA, BB, CC)`, `(CC, DD, AA, BB)` and
`(BB, CC, DD, AA)`, named after the first one, which is assigned. -/
inductive Row where
  | A | D | C | B
  deriving DecidableEq

/-- A call of a step macro: the registers, the function, the index of the word, the constant and the rotation. -/
structure Step (φ : Type) where
  r : Row
  f : φ
  k : Nat
  t : W32
  s : Nat
  deriving DecidableEq

/-- One step; `line f a b c d x t s` is the value assigned. -/
def step {φ : Type} (line : φ → W32 → W32 → W32 → W32 → W32 → W32 → Nat → W32) (X : List W32) (st : Four 32) (p : Step φ) : Out (Four 32) := do
  let x ← rd X p.k
  return (match p.r with
    | .A => { st with a := line p.f st.a st.b st.c st.d x p.t p.s }
    | .D => { st with d := line p.f st.d st.a st.b st.c x p.t p.s }
    | .C => { st with c := line p.f st.c st.d st.a st.b x p.t p.s }
    | .B => { st with b := line p.f st.b st.c st.d st.a x p.t p.s })

/-- The index tables (src/kryptos_md4.c:60-77, src/kryptos_md5.c:51-68, src/kryptos_ripemd128_160.c:76-93), which are equal. -/
def tab : List Nat := [
  0, 0, 0, 0, 1, 1, 1, 1, 2, 2, 2, 2, 3, 3, 3, 3, 4, 4, 4, 4, 5, 5, 5, 5, 6, 6, 6, 6, 7, 7, 7, 7,
  8, 8, 8, 8, 9, 9, 9, 9, 10, 10, 10, 10, 11, 11, 11, 11, 12, 12, 12, 12, 13, 13, 13, 13, 14, 14, 14, 14, 15, 15, 15, 15]

/-- The raw and the hexadecimal output of a list of state words (src/kryptos_md4.c:102-129, src/kryptos_md5.c:89-116,
src/kryptos_ripemd128_160.c:125-152 and 165-194). -/
def raw (ws : List W32) : Bytes := ws.flatMap fun x => cpyBe 4 (rev x)
def hex (ws : List W32) : Bytes := ws.flatMap fun x => toHex 4 (rev x)

end Kryptos.Md
