import Verif.Base
/-
  Model of src/kryptos_base32.c.
-/
namespace Kryptos.Base32

/-- `kryptos_base32_state` (src/kryptos_base32.c:11-15). -/
def state : List Byte := ascii "ABCDEFGHIJKLMNOPQRSTUVWXYZ234567"

/-- `kryptos_base32_state_1` (src/kryptos_base32.c:17-50); 255 entries (index 255 is
outside of the table). -/
def state1 : List Byte :=
  [0#8] ++ List.replicate 49 255#8 ++
  [26#8, 27#8, 28#8, 29#8, 30#8, 31#8] ++ List.replicate 9 255#8 ++
  [0#8, 1#8, 2#8, 3#8, 4#8, 5#8, 6#8, 7#8, 8#8, 9#8, 10#8, 11#8, 12#8, 13#8, 14#8,
   15#8, 16#8, 17#8, 18#8, 19#8, 20#8, 21#8, 22#8, 23#8, 24#8, 25#8] ++
  List.replicate 164 255#8

/-- Inner loop filling `block` (src/kryptos_base32.c:117-121). -/
def accBlock (g : Bytes) : W64 := g.foldl (fun blk b => (blk <<< 8) ||| b.setWidth 64) 0#64

/-- Main loop of `kryptos_base32_encode_buffer` (src/kryptos_base32.c:116-141).
`avail` is `op_end - op`.  Returns the stored characters and the last `pad_size`. -/
def encGroups (bs : Bytes) (avail : Nat) : Out (Bytes × Nat) :=
  if _h : bs = [] then .ok ([], 0)
  else if avail = 0 then .ok ([], 0)
  else
    let g := bs.take 5
    let pad := 5 - g.length
    let block := accBlock g <<< (pad <<< 3)
    if avail < 8 then .ub
    else do
      let c0 ← rd state ((block &&& 0x000000F800000000#64) >>> 35).toNat
      let c1 ← rd state ((block &&& 0x00000007C0000000#64) >>> 30).toNat
      let c2 ← rd state ((block &&& 0x000000003E000000#64) >>> 25).toNat
      let c3 ← rd state ((block &&& 0x0000000001F00000#64) >>> 20).toNat
      let c4 ← rd state ((block &&& 0x00000000000F8000#64) >>> 15).toNat
      let c5 ← rd state ((block &&& 0x0000000000007C00#64) >>> 10).toNat
      let c6 ← rd state ((block &&& 0x00000000000003E0#64) >>> 5).toNat
      let c7 ← rd state (block &&& 0x000000000000001F#64).toNat
      let (rest, p) ← encGroups (bs.drop 5) (avail - 8)
      return ([c0, c1, c2, c3, c4, c5, c6, c7] ++ rest, if bs.drop 5 = [] then pad else p)
termination_by bs.length
decreasing_by
  rcases bs with _ | ⟨x, xs⟩
  · exact absurd rfl _h
  · simp; omega

/-- `switch (pad_size)`: how far `op` steps back (src/kryptos_base32.c:142-162). -/
def stepBack (pad : Nat) : Nat :=
  match pad with
  | 4 => 6
  | 3 => 4
  | 2 => 3
  | 1 => 1
  | _ => 0

/-- `kryptos_base32_encode_buffer` (src/kryptos_base32.c:73-177).  The final loop
overwrites the characters from `op` to `op_end` by `'='`. -/
def encodeBuffer (buffer : Bytes) : Out (Option Bytes) :=
  if buffer.length = 0 then .ok none
  else do
    let outSize := ((buffer.length + 4) / 5) <<< 3
    let (cs, pad) ← encGroups buffer outSize
    if cs.length ≠ outSize then .ub
    else
      let k := stepBack pad
      return some (cs.take (outSize - k) ++ List.replicate k 0x3D#8)

/-- `kryptos_base32_get_encoded_byte` (src/kryptos_base32.c:52). -/
def encodedByte (b : Byte) : Byte := if b ≠ 0x3D#8 then b else 0#8

/-- Inner loop of the decoder (src/kryptos_base32.c:217-225): consumes up to
`k` characters; after each one looks at the following character and counts it
when it is `'='`.  State: `block`, `pad_size`; returns also the unread text. -/
def decInner : Nat → Bytes → W64 → Nat → Out (W64 × Nat × Bytes)
  | 0, bp, block, pad => .ok (block, pad, bp)
  | _ + 1, [], block, pad => .ok (block, pad, [])
  | k + 1, c :: cs, block, pad => do
    let v ← rd state1 (encodedByte c).toNat
    let block' := (block <<< 5) ||| v.setWidth 64
    let pad' := match cs with
      | [] => pad
      | d :: _ => pad + (if d = 0x3D#8 then 1 else 0)
    decInner k cs block' pad'

/-- Bytes stored for one group (src/kryptos_base32.c:227-266). -/
def groupBytes (block : W64) (pad : Nat) : Bytes :=
  let b0 : Byte := ((block >>> 32) &&& 0xFF#64).setWidth 8
  let b1 : Byte := ((block >>> 24) &&& 0xFF#64).setWidth 8
  let b2 : Byte := ((block >>> 16) &&& 0xFF#64).setWidth 8
  let b3 : Byte := ((block >>> 8) &&& 0xFF#64).setWidth 8
  let b4 : Byte := (block &&& 0xFF#64).setWidth 8
  match pad with
  | 0 => [b0, b1, b2, b3, b4]
  | 6 => [b0]
  | 4 => [b0, b1]
  | 3 => [b0, b1, b2]
  | 1 => [b0, b1, b2, b3]
  | _ => []

/-- What `decInner` leaves unread is a suffix. -/
theorem decInner_length : ∀ (k : Nat) (bp : Bytes) (block : W64) (pad : Nat) (r : W64 × Nat × Bytes),
    decInner k bp block pad = .ok r → r.2.2.length = bp.length - k := by
  intro k
  induction k with
  | zero => intro bp block pad r h; simp [decInner] at h; subst h; simp
  | succ k ih =>
    intro bp block pad r h
    cases bp with
    | nil => simp [decInner] at h; subst h; simp
    | cons c cs =>
      simp only [decInner] at h
      cases hv : rd state1 (encodedByte c).toNat with
      | ub => simp [hv] at h
      | ok v =>
        simp only [hv, Out.bind_ok] at h
        have := ih _ _ _ _ h
        simp [this]

/-- Main loop of `kryptos_base32_decode_buffer` (src/kryptos_base32.c:216-268).
`cap` is the number of bytes really available in the segment, `room` is
`op_end - op` as a signed quantity (the loop guard is `op != op_end`). -/
def decLoop (bp : Bytes) (block : W64) (pad : Nat) (cap : Nat) (room : Int) : Out Bytes :=
  if _h : bp = [] then .ok []
  else if room = 0 then .ok []
  else
    match _hr : decInner 8 bp block pad with
    | .ub => .ub
    | .ok (block', pad', bp') =>
      let g := groupBytes block' pad'
      if cap < g.length then .ub
      else do
        let rest ← decLoop bp' block' pad' (cap - g.length) (room - g.length)
        return g ++ rest
termination_by bp.length
decreasing_by
  have := decInner_length _ _ _ _ _ _hr
  rcases bp with _ | ⟨x, xs⟩
  · exact absurd rfl _h
  · simp at this ⊢; omega

/-- `kryptos_base32_decode_buffer` (src/kryptos_base32.c:180-280), parametrised by the
number of spare bytes `slack` the allocator puts behind a segment (the C standard
guarantees `slack = 0`).  `buffer_size - 4` wraps for sizes below 4: `ub`. -/
def decodeBufferSlack (slack : Nat) (buffer : Bytes) : Out (Option Bytes) :=
  if buffer.length = 0 then .ok none
  else if buffer.length < 4 then .ub
  else do
    let outSize := (((buffer.length - 4) * 5) >>> 3) + 2
    let o ← decLoop buffer 0#64 0 (outSize + slack) outSize
    return some o

/-- The decoder with a standard-conforming allocator. -/
def decodeBuffer (buffer : Bytes) : Out (Option Bytes) := decodeBufferSlack 0 buffer

end Kryptos.Base32
