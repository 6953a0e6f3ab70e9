import Verif.Base
/-
  Model of src/kryptos_hash_common.c and of the hash macros of src/kryptos_types.h:
  loading of a byte buffer into words, padding, the message processing loop, and the incremental
  interface.  `w` is the word size in bits (32 or 64); the C code has one copy of each function for
  each size, with identical text up to the constants noted below.
-/
namespace Kryptos.Hash

/-- The loop of `kryptos_hash_ld_u8buf_as_u32_blocks` (src/kryptos_hash_common.c:48-51; u64 copy:
84-87).  `tab` is `block_index_decision_table`. -/
def ldLoop {w : Nat} (tab : List Nat) : Bytes → Nat → List (BitVec w) → Out (List (BitVec w))
  | [], _, input => .ok input
  | x :: xs, b, input => do
    let i ← rd tab b
    let v ← rd input i
    ldLoop tab xs (b + 1) (input.set i ((v <<< 8) ||| x.setWidth w))

/-- `kryptos_hash_ld_u8buf_as_u32_blocks` (src/kryptos_hash_common.c:37-52) with `wb = 4`, and
`kryptos_hash_ld_u8buf_as_u64_blocks` (73-88) with `wb = 8`: a buffer too large for the block
leaves the block unchanged. -/
def ld {w : Nat} (wb nr : Nat) (tab : List Nat) (buf : Bytes) (input : List (BitVec w)) :
    Out (List (BitVec w)) :=
  if buf.length > nr * wb then .ok input
  else ldLoop tab buf 0 (List.replicate nr 0)

/-- Lines 24-25 of `kryptos_hash_apply_pad_on_u32_block` (src/kryptos_hash_common.c): the length
in the last two words. -/
def putLen32 (input : List W32) (total : W64) : Out (List W32) := do
  if input.length < 2 then .ub
  else do
    let input ← wr input (input.length - 2) ((total >>> 32).setWidth 32)
    wr input (input.length - 1) ((total &&& 0x00000000FFFFFFFF#64).setWidth 32)

/-- Line 64 of `kryptos_hash_apply_pad_on_u64_block`: the length in the last word. -/
def putLen64 (input : List W64) (total : W64) : Out (List W64) := do
  if input.length < 1 then .ub
  else wr input (input.length - 1) total

/-- What distinguishes the instantiations of `KRYPTOS_IMPL_HASH_MESSAGE_PROCESSOR`
(src/kryptos_types.h:888-921): the word size in bytes, the number of words, the index table, the
offset from which the length does not fit any more, the padding token, the code that stores the
length, an adjustment of the padded block made by the little-endian algorithms, and the initial
state and compression. -/
structure Alg (w : Nat) (σ : Type) where
  wb : Nat
  nr : Nat
  tab : List Nat
  lenOff : Nat
  tok : Byte
  putLen : List (BitVec w) → W64 → Out (List (BitVec w))
  fix : List (BitVec w) → Out (List (BitVec w))
  init : σ
  compress : σ → List (BitVec w) → Out σ

variable {w : Nat} {σ : Type}

/-- Bytes per block (`buffer_size`). -/
def Alg.bs (A : Alg w σ) : Nat := A.nr * A.wb

/-- `kryptos_hash_apply_pad_on_u32_block` (src/kryptos_hash_common.c:16-35) and its u64 copy
(54-71); `p2` is `paddin2times`. -/
def applyPad (A : Alg w σ) (input : List (BitVec w)) (cur : Nat) (total : W64) (p2 : Bool) :
    Out (List (BitVec w) × Bool) := do
  let b ← rd A.tab cur
  let input ← (if p2 then Out.ok input else do
    let v ← rd input b
    wr input b (((v <<< 8) ||| A.tok.setWidth w) <<< (8 * (A.wb - 1) - (cur % A.wb) * 8)))
  if cur < A.lenOff ∨ p2 then do
    let input ← A.putLen input total
    return (input, false)
  else return (input, true)

/-- One pass through `kryptos_xxx_do_block` (for instance src/kryptos_sha1.c:142-206): padding of
a block that is not full, then the compression. -/
def pass (A : Alg w σ) (total : W64) (st : σ) (input : List (BitVec w)) (cur : Nat) (p2 : Bool) :
    Out (σ × Bool) := do
  let (input, p2) ← (if cur < A.bs then do
      let (i, p) ← applyPad A input cur total p2
      let i ← (if p then Out.ok i else A.fix i)
      return (i, p)
    else Out.ok (input, p2))
  let st ← A.compress st input
  return (st, p2)

/-- `kryptos_xxx_do_block`, with its recursive call for the second padding block (for instance
src/kryptos_sha1.c:208-212).  In that second call `paddin2times` is set, so it is cleared and there
is no third call; the model has the call unfolded once. -/
def doBlock (A : Alg w σ) (total : W64) (st : σ) (input : List (BitVec w)) (cur : Nat) : Out σ := do
  let (st, p2) ← pass A total st input cur false
  if p2 then do
    let zero ← ld A.wb A.nr A.tab [] input
    let (st, _) ← pass A total st zero cur true
    return st
  else return st

/-- The loop of the message processor (src/kryptos_types.h:899-913): `buf` is the used part of
`buffer` (so `curr_len = buf.length`), the first list is the rest of the message. -/
def procLoop (A : Alg w σ) (total : W64) : Bytes → Bytes → List (BitVec w) → σ → Out σ
  | [], buf, input, st => do
    let input ← ld A.wb A.nr A.tab buf input
    doBlock A total st input buf.length
  | x :: xs, buf, input, st =>
    if buf.length < A.bs then procLoop A total xs (buf ++ [x]) input st
    else do
      let input ← ld A.wb A.nr A.tab buf input
      let st ← doBlock A total st input buf.length
      procLoop A total xs [x] input st

/-- `kryptos_xxx_process_message` (src/kryptos_types.h:892-921) together with the set up
`total_len = in_size << 3` of the callers (for instance src/kryptos_sha1.c:100-103).  `stale` is
the indeterminate initial content of `input.block`. -/
def processMessage (A : Alg w σ) (m : Bytes) (stale : List (BitVec w)) : Out σ :=
  let total : W64 := BitVec.ofNat 64 m.length <<< 3
  let l := (total >>> 3).toNat
  if l > 0 then procLoop A total (m.take l) [] stale A.init
  else do
    let input ← ld A.wb A.nr A.tab [] stale
    doBlock A total A.init input 0

/-- The loops `for (t = 16; t < R; t++) W[t] = g(W, t)` that expand a message block (for instance
src/kryptos_sha1.c:180-182); `W` is the part of the array filled so far, so reads of entries not
yet assigned are undefined. -/
def expand {w : Nat} (g : List (BitVec w) → Nat → Out (BitVec w)) : Nat → List (BitVec w) →
    Out (List (BitVec w))
  | 0, W => .ok W
  | n + 1, W => do
    let x ← g W W.length
    expand g n (W ++ [x])

/-- `kryptos_cpy_u32_as_big_endian` (src/kryptos_endianness_utils.c:45-60) and the u64 copy
(98-117): the bytes written.  The destination sizes passed by the hash functions are sufficient
(they are the remaining sizes of the just allocated output). -/
def cpyBe {w : Nat} (wb : Nat) (v : BitVec w) : Bytes :=
  (List.range wb).map fun i => (v >>> (8 * (wb - 1 - i))).setWidth 8

/-- `kryptos_cpy_u32_as_little_endian` (src/kryptos_endianness_utils.c:62-64). -/
def cpyLe {w : Nat} (wb : Nat) (v : BitVec w) : Bytes := (cpyBe wb v).reverse

/-- `kryptos_hex_nibble2ascii` (src/kryptos_hex.c:14). -/
def nibble2ascii (n : Byte) : Byte := if n.toNat ≤ 9 then 48 + n else 55 + n

/-- `kryptos_u32_to_hex` (src/kryptos_hex.c:42-56) and `kryptos_u64_to_hex` (58-80), without the
terminating NUL, which lies outside the reported output size. -/
def toHex {w : Nat} (wb : Nat) (v : BitVec w) : Bytes :=
  (List.range (2 * wb)).map fun i =>
    nibble2ascii ((v >>> (4 * (2 * wb - 1 - i)) &&& 0xF#w).setWidth 8)

end Kryptos.Hash
