import Verif.Model.Padding
/-
  Model of the generic block processing macros (src/kryptos.h:250-545), the IV helpers
  (src/kryptos_iv_utils.c), the block parser (src/kryptos_block_parser.c) and the generic block
  cipher task code (src/kryptos_types.h:364-388, 565-648).
-/
namespace Kryptos.Block

/-- A block cipher under a fixed key: the two functions `cipher_block_encrypt` and
`cipher_block_decrypt` given to `KRYPTOS_IMPL_BLOCK_CIPHER_PROCESSOR`
(src/kryptos_types.h:565-580), each rewriting a buffer of `bs` bytes in place. -/
structure Cipher where
  bs : Nat
  bs_pos : 0 < bs
  enc : Bytes → Bytes
  dec : Bytes → Bytes

/-- `kryptos_block_parser` (src/kryptos_block_parser.c:10-36).  `out` is the previous content of
the block buffer, of which the tail survives when fewer than `bs` bytes are left.  Result: the
block buffer and the rest of the input. -/
def blockParser (out : Bytes) (bs : Nat) (inp : Bytes) : Option (Bytes × Bytes) :=
  if inp = [] then none
  else some (inp.take bs ++ out.drop (min bs inp.length), inp.drop bs)

/-- `kryptos_apply_iv` (src/kryptos_iv_utils.c:10-26) on buffers of equal size. -/
def applyIv (block iv : Bytes) : Bytes := List.zipWith (· ^^^ ·) block iv

/-- The 32-bit counter in the last four bytes of a block, big-endian
(src/kryptos_iv_utils.c:45-48, src/kryptos.h:383-386). -/
def ivCounter (iv : Bytes) : Out W32 := do
  let n := iv.length
  if n < 4 then .ub else do
    let b0 ← rd iv (n - 4)
    let b1 ← rd iv (n - 3)
    let b2 ← rd iv (n - 2)
    let b3 ← rd iv (n - 1)
    return (b0.setWidth 32 <<< 24) ||| (b1.setWidth 32 <<< 16) ||| (b2.setWidth 32 <<< 8) |||
      b3.setWidth 32

/-- Storing a counter in the last four bytes (src/kryptos_iv_utils.c:52-55,
src/kryptos_types.h:382-385). -/
def putCounter (iv : Bytes) (c : W32) : Out Bytes :=
  if iv.length < 4 then .ub
  else .ok (iv.take (iv.length - 4) ++
    [ ((c >>> 24) &&& 0xFF#32).setWidth 8,
      (((c &&& 0xFF0000#32) >>> 16) &&& 0xFF#32).setWidth 8,
      (((c &&& 0xFF00#32) >>> 8) &&& 0xFF#32).setWidth 8,
      (c &&& 0xFF#32).setWidth 8 ])

/-- `kryptos_iv_inc_u32` (src/kryptos_iv_utils.c:44-56). -/
def ivInc (iv : Bytes) : Out Bytes := do
  let c ← ivCounter iv
  putCounter iv (c + 1#32)

section loops
variable (f : Bytes → Bytes) (bs : Nat)

theorem drop_lt {bs : Nat} (hbs : 0 < bs) {inp : Bytes} (h : inp ≠ []) :
    (inp.drop bs).length < inp.length := by
  have := List.length_pos_iff.mpr h
  simp; omega

/-- Loop of the ECB macro (src/kryptos.h:532-538).  `cap` is the room left behind `out_p`. -/
def ecbLoop (hbs : 0 < bs) (outb inp : Bytes) (cap : Nat) : Out Bytes :=
  match _h : blockParser outb bs inp with
  | none => .ok []
  | some (blk, rest) =>
    let o := f blk
    if cap < bs then .ub else do
      let more ← ecbLoop hbs o rest (cap - bs)
      return o ++ more
termination_by inp.length
decreasing_by
  unfold blockParser at _h
  split at _h
  · cases _h
  · cases _h; exact drop_lt hbs ‹_›

/-- Loop of the CBC macro (src/kryptos.h:488-503).  Reading or xoring `bs` bytes of an input that
holds fewer is out of bounds. -/
def cbcLoop (hbs : 0 < bs) (action : Action) (iv outb inp : Bytes) (cap : Nat) : Out Bytes :=
  match _h : blockParser outb bs inp with
  | none => .ok []
  | some (blk, rest) =>
    let o := f blk
    let o := if action = .decrypt then applyIv o iv else o
    if cap < bs then .ub
    else if action = .encrypt ∧ rest ≠ [] then
      if rest.length < bs then .ub else do
        let more ← cbcLoop hbs action o o (applyIv (rest.take bs) o ++ rest.drop bs) (cap - bs)
        return o ++ more
    else do
      let more ← cbcLoop hbs action (inp.take bs) o rest (cap - bs)
      return o ++ more
termination_by inp.length
decreasing_by
  all_goals
    unfold blockParser at _h
    split at _h
    · cases _h
    · cases _h
      have := drop_lt hbs ‹inp ≠ []›
      simp [applyIv] at *
      omega

/-- Loop of the OFB macro (src/kryptos.h:433-444), entered with `out_block = iv`. -/
def ofbLoop (hbs : 0 < bs) (outb inp : Bytes) (cap : Nat) : Out Bytes :=
  let ks := f outb
  match _h : blockParser ks bs inp with
  | none => .ok []
  | some (blk, rest) =>
    let o := applyIv blk ks
    if cap < bs then .ub else do
      let more ← ofbLoop hbs ks rest (cap - bs)
      return o ++ more
termination_by inp.length
decreasing_by
  unfold blockParser at _h
  split at _h
  · cases _h
  · cases _h; exact drop_lt hbs ‹_›

/-- Loop of the CTR macro (src/kryptos.h:367-381), entered with `out_block = buf0 = iv`.  Returns
the output and the final `buf0`. -/
def ctrLoop (hbs : 0 < bs) (buf0 inp : Bytes) (cap : Nat) : Out (Bytes × Bytes) :=
  let ks := f buf0
  match _h : blockParser ks bs inp with
  | none => .ok ([], buf0)
  | some (blk, rest) =>
    let o := applyIv blk ks
    if cap < bs then .ub else do
      let buf0' ← ivInc buf0
      let (more, last) ← ctrLoop hbs buf0' rest (cap - bs)
      return (o ++ more, last)
termination_by inp.length
decreasing_by
  unfold blockParser at _h
  split at _h
  · cases _h
  · cases _h; exact drop_lt hbs ‹_›

end loops

/-- What a run of `kryptos_meta_block_processing` leaves behind: the output segment (`none`:
allocation failed), the reported size, the content of the IV buffer and of `*ctr`. -/
structure Processed where
  out : Option Bytes
  size : Nat
  iv : Option Bytes
  ctr : Option W32
  deriving Repr, DecidableEq

/-- Removing the padding (src/kryptos.h:392-394, 445-447, 504-506, 539-541): the reported size is
the segment size minus the last byte, as `size_t`, and the last byte is cleared.  For an empty
segment the byte before it is accessed. -/
def unpad (o : Bytes) : Out (Bytes × Nat) := do
  if o.length = 0 then .ub else do
    let last ← rd o (o.length - 1)
    return (o.set (o.length - 1) 0#8, (o.length + (2 ^ 64 - last.toNat)) % 2 ^ 64)

/-- Is the padding branch taken (src/kryptos.h:337, 408, 461, 519). -/
def encrypting (a : Action) : Bool := a = .encrypt ∨ a = .encryptWithoutRandomPad

/-- The block function picked by the processor (src/kryptos_types.h:591-599). -/
def pick (C : Cipher) (action : Action) (mode : Mode) : Bytes → Bytes :=
  if action = .encrypt ∨ mode = .ofb ∨ mode = .ctr ∨ mode = .gcm then C.enc else C.dec

/-- `kryptos_meta_block_processing_ecb` (src/kryptos.h:513-545).  `stale` is the initial content
of the freshly allocated block buffer. -/
def processEcb (C : Cipher) (f : Bytes → Bytes) (action : Action) (inp stale : Bytes)
    (rnd : Nat → Byte) (iv : Option Bytes) (ctr : Option W32) : Out Processed := do
  if encrypting action then
    match Padding.ansiX923 inp C.bs (action = .encrypt) rnd with
    | none => .ub
    | some p => do
      let o ← ecbLoop f C.bs C.bs_pos stale p p.length
      return { out := some o, size := o.length, iv, ctr }
  else do
    let o ← ecbLoop f C.bs C.bs_pos stale inp inp.length
    let (o, size) ← unpad o
    return { out := some o, size, iv, ctr }

/-- Common frame of the three IV modes (src/kryptos.h:337-360/392-398, 408-431/445-451,
461-484/504-510).  `loop iv data cap` is the mode specific part.  On decryption of fewer bytes
than a block the size `in_size - block` wraps, the allocation fails and the task ends without
output.  At the end the IV buffer is cleared. -/
def processIv (C : Cipher) (action : Action) (inp : Bytes) (rnd : Nat → Byte) (iv : Bytes)
    (ctr : Option W32) (loop : Bytes → Bytes → Nat → Out (Bytes × Option W32)) :
    Out Processed := do
  if iv.length ≠ C.bs then .ub
  else if encrypting action then
    match Padding.ansiX923 inp C.bs (action = .encrypt) rnd with
    | none => .ub
    | some p => do
      let (o, c) ← loop iv p p.length
      return { out := some (iv ++ o), size := C.bs + o.length,
               iv := some (List.replicate C.bs 0#8), ctr := c }
  else if inp.length < C.bs then
    return { out := none, size := 0, iv := some iv, ctr }
  else do
    let (o, c) ← loop (inp.take C.bs) (inp.drop C.bs) (inp.length - C.bs)
    let (o, size) ← unpad o
    return { out := some o, size, iv := some (List.replicate C.bs 0#8), ctr := c }

/-- CBC body (src/kryptos.h:485-503). -/
def cbcBody (C : Cipher) (f : Bytes → Bytes) (action : Action) (ctr : Option W32) (stale : Bytes)
    (iv p : Bytes) (cap : Nat) : Out (Bytes × Option W32) := do
  let first ← (if action = .encrypt then
      (if p.length < C.bs then Out.ub else Out.ok (applyIv (p.take C.bs) iv ++ p.drop C.bs))
    else Out.ok p)
  let o ← cbcLoop f C.bs C.bs_pos action iv stale first cap
  return (o, ctr)

/-- OFB body (src/kryptos.h:432-444). -/
def ofbBody (C : Cipher) (f : Bytes → Bytes) (ctr : Option W32) (iv p : Bytes) (cap : Nat) :
    Out (Bytes × Option W32) := do
  let o ← ofbLoop f C.bs C.bs_pos iv p cap
  return (o, ctr)

/-- CTR body (src/kryptos.h:361-391): `*ctr` (if any) receives the final counter. -/
def ctrBody (C : Cipher) (f : Bytes → Bytes) (ctr : Option W32) (iv p : Bytes) (cap : Nat) :
    Out (Bytes × Option W32) := do
  let (o, last) ← ctrLoop f C.bs C.bs_pos iv p cap
  match ctr with
  | none => return (o, none)
  | some _ => do
    let c ← ivCounter last
    return (o, some c)

/-- `kryptos_meta_block_processing` (src/kryptos.h:261-301) as called by the block cipher
processor (src/kryptos_types.h:591-599, 613-629). -/
def process (C : Cipher) (mode : Mode) (action : Action) (inp stale : Bytes) (rnd : Nat → Byte)
    (iv : Option Bytes) (ctr : Option W32) : Out Processed :=
  let f := pick C action mode
  match mode with
  | .ecb => processEcb C f action inp stale rnd iv ctr
  | .cbc => match iv with
    | none => .ub
    | some v => processIv C action inp rnd v ctr (cbcBody C f action ctr stale)
  | .ofb => match iv with
    | none => .ub
    | some v => processIv C action inp rnd v ctr (ofbBody C f ctr)
  | .ctr | .gcm => match iv with
    | none => .ub
    | some v => processIv C action inp rnd v ctr (ctrBody C f ctr)
  | .nr => .ok { out := none, size := 0, iv, ctr }

end Kryptos.Block
