import Verif.Base
/-
  Model of src/kryptos_base64.c.
-/
namespace Kryptos.Base64

/-- `kryptos_base64_state` (src/kryptos_base64.c:14-21). -/
def state : List Byte :=
  ascii "ABCDEFGHIJKLMNOPQRSTUVWXYZabcdefghijklmnopqrstuvwxyz0123456789+/"

/-- `kryptos_base64_state_1` (src/kryptos_base64.c:23-52). -/
def state1 : List Byte :=
  List.replicate 43 255#8 ++ [62#8] ++ List.replicate 3 255#8 ++ [63#8] ++
  [52#8, 53#8, 54#8, 55#8, 56#8, 57#8, 58#8, 59#8, 60#8, 61#8] ++
  [255#8, 255#8, 255#8, 0#8, 255#8, 255#8, 255#8] ++
  [0#8, 1#8, 2#8, 3#8, 4#8, 5#8, 6#8, 7#8, 8#8, 9#8,
   10#8, 11#8, 12#8, 13#8, 14#8, 15#8, 16#8, 17#8, 18#8, 19#8,
   20#8, 21#8, 22#8, 23#8, 24#8, 25#8] ++
  [0#8, 0#8, 0#8, 0#8, 0#8, 0#8] ++
  [26#8, 27#8, 28#8, 29#8, 30#8, 31#8, 32#8, 33#8, 34#8, 35#8,
   36#8, 37#8, 38#8, 39#8, 40#8, 41#8, 42#8, 43#8, 44#8, 45#8,
   46#8, 47#8, 48#8, 49#8, 50#8, 51#8] ++
  List.replicate 132 255#8

/-- Inner loop filling `block` (src/kryptos_base64.c:109-113): big-endian
accumulation of at most three bytes into a 32-bit word. -/
def accBlock (g : Bytes) : W32 := g.foldl (fun blk b => (blk <<< 8) ||| b.setWidth 32) 0#32

/-- Outer loop of `kryptos_base64_encode_buffer` (src/kryptos_base64.c:104-125).
`avail` is the remaining room of the output; each round stores four characters
and advances by `4 - pad_size`.  Returns the kept characters and the last `pad_size`. -/
def encGroups (bs : Bytes) (avail : Nat) : Out (Bytes × Nat) :=
  if _h : bs = [] then .ok ([], 0)
  else
    let g := bs.take 3
    let pad := 3 - g.length
    let block := accBlock g <<< (pad <<< 3)
    if avail < 4 then .ub
    else do
      let c0 ← rd state ((block &&& 0x00FC0000#32) >>> 18).toNat
      let c1 ← rd state ((block &&& 0x0003F000#32) >>> 12).toNat
      let c2 ← rd state ((block &&& 0x00000FC0#32) >>> 6).toNat
      let c3 ← rd state (block &&& 0x0000003F#32).toNat
      let (rest, p) ← encGroups (bs.drop 3) (avail - (4 - pad))
      return ([c0, c1, c2, c3].take (4 - pad) ++ rest, if bs.drop 3 = [] then pad else p)
termination_by bs.length
decreasing_by
  rcases bs with _ | ⟨x, xs⟩
  · exact absurd rfl _h
  · simp; omega

/-- `while ((*out_size % 4) != 0) *out_size += 1` (src/kryptos_base64.c:93-95). -/
def roundUp4 (n : Nat) : Nat := if n % 4 = 0 then n else n + (4 - n % 4)

/-- `kryptos_base64_encode_buffer` (src/kryptos_base64.c:72-140); the `'='`
loop of lines 127-131 stores `pad_size` further characters. -/
def encodeBuffer (buffer : Bytes) : Out (Option Bytes) :=
  if buffer.length = 0 then .ok none
  else do
    let outSize := roundUp4 ((buffer.length * 8) / 6)
    let (cs, pad) ← encGroups buffer outSize
    let o := cs ++ List.replicate pad 0x3D#8
    if o.length = outSize then .ok (some o) else .ub

/-- `kryptos_base64_get_encoded_byte` (src/kryptos_base64.c:54). -/
def encodedByte (b : Byte) : Byte := if b ≠ 0x3D#8 then b else 0#8

/-- Lookup `kryptos_base64_state_1[kryptos_base64_get_encoded_byte(b)]` widened to u32. -/
def look (b : Byte) : Out W32 := do
  let v ← rd state1 (encodedByte b).toNat
  return v.setWidth 32

/-- `while (*bp == '=')` scanning backwards from the end (src/kryptos_base64.c:161-164).
The argument is the reversed text; running off its start is an out-of-bounds read. -/
def countPad : Bytes → Out Nat
  | [] => .ub
  | c :: cs => if c = 0x3D#8 then do let n ← countPad cs; return n + 1 else .ok 0

/-- Main loop of `kryptos_base64_decode_buffer` (src/kryptos_base64.c:178-203).
`avail` is `out_end - out_p`.  Reading `bp[1..3]` past the end is `ub`.  After a
round that fills the output the loop condition stops the loop. -/
def decLoop : Bytes → Nat → Out Bytes
  | _, 0 => .ok []
  | [], _ + 1 => .ok []
  | a :: b :: c :: d :: rest, n + 1 => do
    let va ← look a
    let vb ← look b
    let vc ← look c
    let vd ← look d
    let block : W32 := va <<< 18 ||| vb <<< 12 ||| vc <<< 6 ||| vd
    let o0 : Byte := (((block &&& 0x00FF0000#32) >>> 16) &&& 0xFF#32).setWidth 8
    let o1 : Byte := (((block &&& 0x0000FF00#32) >>> 8) &&& 0xFF#32).setWidth 8
    let o2 : Byte := (block &&& 0x000000FF#32).setWidth 8
    match n with
    | 0 => return [o0]
    | 1 => return [o0, o1]
    | m + 2 => do
      let r ← decLoop rest m
      return o0 :: o1 :: o2 :: r
  | _ :: _, _ + 1 => .ub

/-- `kryptos_base64_decode_buffer` (src/kryptos_base64.c:142-213).  The output
segment is zero filled (`memset`, line 174), so bytes the loop does not reach are 0.
`pad_size` larger than the computed size wraps `*out_size` (`size_t`): `ub`. -/
def decodeBuffer (buffer : Bytes) : Out (Option Bytes) :=
  if buffer.length = 0 then .ok none
  else do
    let pad ← countPad buffer.reverse
    let full := (buffer.length * 6) / 8
    if full < pad then .ub
    else do
      let outSize := full - pad
      let o ← decLoop buffer outSize
      return some (o ++ List.replicate (outSize - o.length) 0#8)

end Kryptos.Base64
