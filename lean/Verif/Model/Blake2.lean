import Verif.Model.Endian
import Verif.Model.HashTask
/-
  Model of src/kryptos_blake2.c: BLAKE2s and BLAKE2b, keyed or not, with digests of any size.

  The functions for the two word sizes are the same text with other constants; here they are one definition over `Var`.
  The rounds of `kryptos_blake2b_F` and `kryptos_blake2s_F` are written out in the code (96 and 80 uses of the macro `kryptos_blake2_G`,
  lines 120-215 and 248-327); they follow the pattern of `roundOf` below.  Failures of allocation are not modelled.
-/
namespace Kryptos.Blake2
open Kryptos.Hash

/-- `kryptos_blake2_SIGMA_state` (src/kryptos_blake2.c:17-28). -/
def sigma : List (List Nat) :=
  [[0, 1, 2, 3, 4, 5, 6, 7, 8, 9, 10, 11, 12, 13, 14, 15],
   [14, 10, 4, 8, 9, 15, 13, 6, 1, 12, 0, 2, 11, 7, 5, 3],
   [11, 8, 12, 0, 5, 2, 15, 13, 10, 14, 3, 6, 7, 1, 9, 4],
   [7, 9, 3, 1, 13, 12, 11, 14, 2, 6, 5, 10, 4, 0, 15, 8],
   [9, 0, 5, 7, 2, 4, 10, 15, 14, 1, 11, 12, 6, 8, 3, 13],
   [2, 12, 6, 10, 0, 11, 8, 3, 4, 13, 7, 5, 15, 14, 1, 9],
   [12, 5, 1, 15, 14, 13, 4, 10, 0, 7, 6, 3, 9, 2, 8, 11],
   [13, 11, 7, 14, 12, 1, 3, 9, 5, 0, 15, 4, 8, 6, 2, 10],
   [6, 15, 14, 9, 11, 3, 0, 8, 12, 2, 13, 7, 1, 4, 10, 5],
   [10, 2, 8, 4, 7, 6, 1, 5, 15, 11, 9, 14, 3, 12, 13, 0]]

/-- What the two variants differ in. -/
structure Var (w : Nat) where
  /-- Bytes of a block (src/kryptos_blake2.c:65-67). -/
  bb : Nat
  /-- Bytes of a word: `sizeof(m)`. -/
  wb : Nat
  /-- `kryptos_blake2b_R`, `kryptos_blake2s_R` (src/kryptos_blake2.c:30-31). -/
  r : List Nat
  /-- `kryptos_blake2b_IV`, `kryptos_blake2s_IV` (src/kryptos_blake2.c:33-41). -/
  iv : List (BitVec w)
  /-- The first argument of `kryptos_blake2_SIGMA` in the successive rounds. -/
  rows : List Nat
  /-- `gf`: `kryptos_get_u64_as_little_endian`, `kryptos_get_u32_as_little_endian`. -/
  get : Bytes → Nat → Out (BitVec w)
  /-- `rev`: `kryptos_u64_rev`, `kryptos_u32_rev`. -/
  rev : BitVec w → BitVec w

/-- BLAKE2b (src/kryptos_blake2.c:30, 33-36, 67, 120-215). -/
def b : Var 64 where
  bb := 128
  wb := 8
  r := [32, 24, 16, 63]
  iv := [0x6A09E667F3BCC908#64, 0xBB67AE8584CAA73B#64, 0x3C6EF372FE94F82B#64, 0xA54FF53A5F1D36F1#64,
    0x510E527FADE682D1#64, 0x9B05688C2B3E6C1F#64, 0x1F83D9ABFB41BD6B#64, 0x5BE0CD19137E2179#64]
  rows := [0, 1, 2, 3, 4, 5, 6, 7, 8, 9, 0, 1]
  get := getLe64
  rev := rev64

/-- BLAKE2s (src/kryptos_blake2.c:31, 38-41, 65, 248-327). -/
def s : Var 32 where
  bb := 64
  wb := 4
  r := [16, 12, 8, 7]
  iv := [0x6A09E667#32, 0xBB67AE85#32, 0x3C6EF372#32, 0xA54FF53A#32, 0x510E527F#32, 0x9B05688C#32, 0x1F83D9AB#32, 0x5BE0CD19#32]
  rows := [0, 1, 2, 3, 4, 5, 6, 7, 8, 9]
  get := getLe32
  rev := rev32

variable {w : Nat}

/-- `kryptos_blake2_ROT` (src/kryptos_blake2.c:79); `sizeof(x) << 3` is `w`.  A shift by `w` or more would be undefined. -/
def rot (x : BitVec w) (y : Nat) : Out (BitVec w) :=
  if 0 < y ∧ y < w then .ok ((x >>> y) ||| (x <<< (w - y))) else .ub

/-- `kryptos_blake2_G` (src/kryptos_blake2.c:81-94). -/
def G (R : List Nat) (v : List (BitVec w)) (a b c d : Nat) (x y : BitVec w) : Out (List (BitVec w)) := do
  let v ← wr v a ((← rd v a) + ((← rd v b) + x))
  let v ← wr v d ((← rd v d) ^^^ (← rd v a))
  let v ← wr v d (← rot (← rd v d) (← rd R 0))
  let v ← wr v c ((← rd v c) + (← rd v d))
  let v ← wr v b ((← rd v b) ^^^ (← rd v c))
  let v ← wr v b (← rot (← rd v b) (← rd R 1))
  let v ← wr v a ((← rd v a) + ((← rd v b) + y))
  let v ← wr v d ((← rd v d) ^^^ (← rd v a))
  let v ← wr v d (← rot (← rd v d) (← rd R 2))
  let v ← wr v c ((← rd v c) + (← rd v d))
  let v ← wr v b ((← rd v b) ^^^ (← rd v c))
  wr v b (← rot (← rd v b) (← rd R 3))

/-- One use of the macro: `kryptos_blake2_G(c->v, a, b, c, d, c->m[kryptos_blake2_SIGMA(r, k)], c->m[kryptos_blake2_SIGMA(r, k + 1)], var)`
(for instance src/kryptos_blake2.c:120). -/
def Gs (R : List Nat) (m : List (BitVec w)) (row : List Nat) (v : List (BitVec w)) (a b c d k : Nat) : Out (List (BitVec w)) := do
  let x ← rd m (← rd row k)
  let y ← rd m (← rd row (k + 1))
  G R v a b c d x y

/-- The eight uses of the macro making one round (for instance src/kryptos_blake2.c:120-127). -/
def roundOf (R : List Nat) (m v : List (BitVec w)) (r : Nat) : Out (List (BitVec w)) := do
  let row ← rd sigma r
  let v ← Gs R m row v 0 4 8 12 0
  let v ← Gs R m row v 1 5 9 13 2
  let v ← Gs R m row v 2 6 10 14 4
  let v ← Gs R m row v 3 7 11 15 6
  let v ← Gs R m row v 0 5 10 15 8
  let v ← Gs R m row v 1 6 11 12 10
  let v ← Gs R m row v 2 7 8 13 12
  Gs R m row v 3 4 9 14 14

/-- `kryptos_blake2b_F` (src/kryptos_blake2.c:98-224) and `kryptos_blake2s_F` (226-336): the new `h`. -/
def F (V : Var w) (h m : List (BitVec w)) (t0 t1 : BitVec w) (f : Bool) : Out (List (BitVec w)) := do
  let v ← (List.range 8).mapM fun i => rd h i
  let u ← (List.range 8).mapM fun i => rd V.iv i
  let v := v ++ u
  let v ← wr v 12 ((← rd v 12) ^^^ t0)
  let v ← wr v 13 ((← rd v 13) ^^^ t1)
  let v ← if f then do wr v 14 (~~~(← rd v 14)) else pure v
  let v ← V.rows.foldlM (roundOf V.r m) v
  (List.range 8).mapM fun i => do return (← rd h i) ^^^ ((← rd v i) ^^^ (← rd v (i + 8)))

/-- `kryptos_blake2_init` (src/kryptos_blake2.c:338-350): the chaining value. -/
def init (V : Var w) (kk nn : Nat) : Out (List (BitVec w)) := do
  let h ← (List.range 8).mapM fun i => rd V.iv i
  wr h 0 ((← rd h 0) ^^^ BitVec.ofNat w (0x01010000 ^^^ (kk <<< 8) ^^^ nn))

/-- `kryptos_blake2_get_next_m_chunk` (src/kryptos_blake2.c:352-368): the word and the bytes left between `h` and `t`. -/
def nextChunk (V : Var w) (rest : Bytes) : Out (BitVec w × Bytes) :=
  if rest.length ≠ 0 then
    if rest.length ≥ V.wb then do
      let m ← V.get rest 0
      return (m, rest.drop V.wb)
    else return (V.rev (rest.foldl (fun m b => (m <<< 8) ||| b.setWidth w) 0), [])
  else return (0, [])

/-- The sixteen uses of the former (for instance src/kryptos_blake2.c:694-709). -/
def nextBlock (V : Var w) : Nat → Bytes → Out (List (BitVec w) × Bytes)
  | 0, rest => return ([], rest)
  | n + 1, rest => do
    let (x, rest) ← nextChunk V rest
    let (m, rest) ← nextBlock V n rest
    return (x :: m, rest)

/-- State of the loop: chaining value, message words, counter, bytes left. -/
structure St (w : Nat) where
  h : List (BitVec w)
  m : List (BitVec w)
  t0 : BitVec w
  t1 : BitVec w
  rest : Bytes

/-- Body of the loop (src/kryptos_blake2.c:712-739 and 842-869). -/
def body (V : Var w) (st : St w) : Out (St w) := do
  let h ← F V st.h st.m st.t0 st.t1 false
  let t0 := st.t0 + BitVec.ofNat w V.bb
  let t1 := if t0 < BitVec.ofNat w V.bb then st.t1 + 1 else st.t1
  let (m, rest) ← nextBlock V 16 st.rest
  return ⟨h, m, t0, t1, rest⟩

/-- `for (i = 0; i < dd - 1; i++)`. -/
def loop (V : Var w) : Nat → St w → Out (St w)
  | 0, st => return st
  | n + 1, st => do loop V n (← body V st)

/-- `memcpy(buf + off, src, size)` where `src` has `size` bytes. -/
def copyTo (buf : Bytes) (off : Nat) (src : Bytes) : Out Bytes :=
  if off + src.length ≤ buf.length then .ok (buf.take off ++ src ++ buf.drop (off + src.length)) else .ub

/-- Filling the buffer (src/kryptos_blake2.c:684-689 and 814-819). -/
def copyData (V : Var w) (buf key input : Bytes) : Out Bytes :=
  if key.length > 0 then do
    let buf ← copyTo buf 0 key
    copyTo buf V.bb input
  else copyTo buf 0 input

/-- `if (dd > 1) for ...` (src/kryptos_blake2.c:711-739 and 841-869). -/
def blocks (V : Var w) (dd : Nat) (st : St w) : Out (St w) := if dd > 1 then loop V (dd - 1) st else return st

/-- The loop writing the digest (src/kryptos_blake2.c:760-766 and 890-896): words are written until `nn` bytes are there.
`kryptos_cpy_u64_as_big_endian(temp, 8, rev(h[i]))` gives the bytes of `rev(h[i])`. -/
def output (V : Var w) (nn : Nat) : List (BitVec w) → Bytes → Bytes
  | [], out => out
  | x :: h, out => if out.length < nn then output V nn h (out ++ (cpyBe V.wb (V.rev x)).take (nn - out.length)) else out

/-- `kryptos_blake2s` (src/kryptos_blake2.c:650-778) and `kryptos_blake2b` (780-908): the bytes `data->h`. -/
def blake2 (V : Var w) (key input : Bytes) (nn : Nat) : Out Bytes := do
  let kk := key.length
  let ll := input.length
  let h ← init V kk nn
  let dd := (if kk > 0 then V.bb else 0) + ll
  let dd := if dd = 0 then 1 else dd
  let dd := (dd + V.bb - 1) / V.bb * V.bb          -- while (dd % bb) dd++;
  let buf := List.replicate dd (0 : Byte)
  let dd := dd / V.bb
  let buf ← copyData V buf key input
  let (m, rest) ← nextBlock V 16 buf
  let st : St w := ⟨h, m, BitVec.ofNat w V.bb, 0, rest⟩
  let st ← blocks V dd st
  let t0 := if kk = 0 then BitVec.ofNat w ll else BitVec.ofNat w (ll + V.bb)
  let h ← F V st.h st.m t0 0 true
  return output V nn h []

/-- The table of `kryptos_u8_ptr_to_hex` (src/kryptos_hex.c:17-19): `0` to `9`, `A` to `F`. -/
def nibbleLt : Bytes := [48, 49, 50, 51, 52, 53, 54, 55, 56, 57, 65, 66, 67, 68, 69, 70]

/-- `kryptos_u8_ptr_to_hex` (src/kryptos_hex.c:16-41), for at least one byte. -/
def ptrToHex (z : Bytes) : Out Bytes := do
  let l ← z.mapM fun (x : Byte) => do
    let a ← rd nibbleLt (x >>> 4).toNat
    let b ← rd nibbleLt (x &&& 0xF#8).toNat
    return [a, b]
  return l.flatten

/-- The uses of `kryptos_u64_to_hex` (for instance src/kryptos_blake2.c:416-447). -/
def hexWords (z : Bytes) (n : Nat) : Out Bytes := do
  let ws ← (List.range n).mapM fun i => do
    let x ← getBe64 z (8 * i)
    return toHex 8 x
  return ws.flatten

/-- What a hash processor leaves in a task: the result and, when it succeeded, the output. -/
structure Res where
  result : TaskResult
  out : Bytes
  deriving DecidableEq, Repr

/-- `kryptos_blake2s256_hash` (src/kryptos_blake2.c:378-450) and `kryptos_blake2b512_hash` (500-604), with the processor of
src/kryptos_types.h:821-848: `inp` is `none` for a NULL pointer; a key is a valid pointer with its size.  The hexadecimal output
goes word by word through `kryptos_u64_to_hex`. -/
def fixed (V : Var w) (maxSize : Nat) (key : Bytes) (inp : Option Bytes) (hex : Bool) : Out Res :=
  match inp with
  | none => return ⟨.invalidParams, []⟩
  | some input =>
    if key.length > maxSize then return ⟨.keyError, []⟩
    else do
      let z ← blake2 V key input maxSize
      if z.length ≠ maxSize then return ⟨.processError, []⟩
      else if hex then do
        let hx ← hexWords z (maxSize / 8)
        return ⟨.success, hx⟩
      else return ⟨.success, z⟩

/-- `kryptos_blake2sN_hash` (src/kryptos_blake2.c:454-494) and `kryptos_blake2bN_hash` (608-648): the size of the digest comes in
the field `out_size`. -/
def anySize (V : Var w) (maxSize : Nat) (key : Bytes) (inp : Option Bytes) (outSize : Nat) (hex : Bool) : Out Res :=
  match inp with
  | none => return ⟨.invalidParams, []⟩
  | some input =>
    if key.length > maxSize then return ⟨.keyError, []⟩
    else if outSize = 0 ∨ outSize > maxSize then return ⟨.processError, []⟩
    else do
      let z ← blake2 V key input outSize
      if z.length ≠ outSize then return ⟨.processError, []⟩
      else if hex then do
        let hx ← ptrToHex z
        return ⟨.success, hx⟩
      else return ⟨.success, z⟩

/-- `kryptos_blake2s256_hash`. -/
def blake2s256 := fixed s 32
/-- `kryptos_blake2b512_hash`. -/
def blake2b512 := fixed b 64
/-- `kryptos_blake2sN_hash`. -/
def blake2sN := anySize s 32
/-- `kryptos_blake2bN_hash`. -/
def blake2bN := anySize b 64

/-- `kryptos_blake2b512_hash_input_size` (src/kryptos_blake2.c:498). -/
def blake2b512InputSize : Nat := 128
/-- `kryptos_blake2bN_hash_input_size` (src/kryptos_blake2.c:606). -/
def blake2bNInputSize : Nat := 64

end Kryptos.Blake2
