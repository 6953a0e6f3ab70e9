import Verif.Base
/-
  Model of src/kryptos_base16.c.
-/
namespace Kryptos.Base16

/-- `kryptos_base16_state` (src/kryptos_base16.c:11-16). -/
def state : List Byte := ascii "0123456789ABCDEF"

/-- Loop of `kryptos_base16_encode_buffer` (src/kryptos_base16.c:70-75).
`avail` is `op_end - op`; the loop writes `op[0]` and `op[1]`. -/
def encLoop : Bytes → Nat → Out Bytes
  | [], _ => .ok []
  | _ :: _, 0 => .ok []
  | _ :: _, 1 => .ub
  | b :: bs, n + 2 => do
    let hi ← rd state (b >>> 4).toNat
    let lo ← rd state (b &&& 0xF#8).toNat
    let rest ← encLoop bs n
    return hi :: lo :: rest

/-- `kryptos_base16_encode_buffer` (src/kryptos_base16.c:39-83).  `none` is the
NULL return.  A result with fewer initialised bytes than `*out_size` is `ub`. -/
def encodeBuffer (buffer : Bytes) : Out (Option Bytes) :=
  if buffer.length = 0 then .ok none
  else do
    let outSize := buffer.length <<< 1
    let o ← encLoop buffer outSize
    if o.length = outSize then .ok (some o) else .ub

/-- The macro `kryptos_base16_state_1` followed by the conversion to
`kryptos_u8_t` (src/kryptos_base16.c:115-117): `b - 48` for digits, otherwise
`b - 55`, arithmetic modulo 256. -/
def state1 (b : Byte) : Byte :=
  if 48#8 ≤ b ∧ b ≤ 57#8 then b - 48#8 else b - 55#8

/-- Loop of `kryptos_base16_decode_buffer` (src/kryptos_base16.c:119-124); reads
`bp[0]` and `bp[1]` while `op != op_end`. -/
def decLoop : Bytes → Nat → Out Bytes
  | [], _ => .ok []
  | _ :: _, 0 => .ok []
  | [_], _ + 1 => .ub
  | a :: b :: bs, n + 1 => do
    let rest ← decLoop bs n
    return ((state1 a <<< 4) ||| state1 b) :: rest

/-- `kryptos_base16_decode_buffer` (src/kryptos_base16.c:85-134). -/
def decodeBuffer (buffer : Bytes) : Out (Option Bytes) :=
  if buffer.length = 0 then .ok none
  else do
    let outSize := buffer.length >>> 1
    let o ← decLoop buffer outSize
    if o.length = outSize then .ok (some o) else .ub

end Kryptos.Base16
