import Verif.Model.Base64
import Verif.Model.Mp
/-
  Model of src/kryptos_pem.c.

  A header (a C string) is the list of its characters before the terminating NUL.  A PEM buffer is the list of its
  `pem_buf_size` bytes; the extra NUL which `kryptos_pem_put_data` stores behind them is not part of the list.  `char` is
  signed (x86-64).  Memory is never exhausted.
-/
namespace Kryptos.Pem

/-- `KRYPTOS_PEM_BEGIN_PFX` (src/kryptos_pem.c:16). -/
def beginPfx : Bytes := ascii "-----BEGIN "
/-- `KRYPTOS_PEM_END_PFX` (src/kryptos_pem.c:20). -/
def endPfx : Bytes := ascii "-----END "
/-- `KRYPTOS_PEM_BEGIN_SFX` and `KRYPTOS_PEM_END_SFX` (src/kryptos_pem.c:18, 22). -/
def sfx : Bytes := ascii "-----\n"

/-- `kryptos_pem_header` (src/kryptos_pem.c:234-289). -/
def pemHeader (pfx header : Bytes) : Bytes := pfx ++ header ++ sfx

/-- `*hp == *bp` of a `const char` and a `const kryptos_u8_t` (src/kryptos_pem.c:300): both are promoted to `int`, a
character from 0x80 on is negative. -/
def charEq (c b : Byte) : Bool := c.toInt == (b.toNat : Int)

/-- The loop of `kryptos_find_header` (src/kryptos_pem.c:299-309): `st` is `hp - header`, `pos` is `bp - buf`. -/
def findLoop (header : Bytes) : Nat → Nat → Bytes → Out (Option Nat)
  | _, _, [] => .ok none
  | st, pos, b :: bs => do
    let c ← rd header st
    if charEq c b then
      if st + 1 = header.length then return some (pos + 1) else findLoop header (st + 1) (pos + 1) bs
    else findLoop header 0 (pos + 1) bs

/-- `kryptos_find_header` (src/kryptos_pem.c:291-312); the result is the offset of the byte behind the header. -/
def findHeader (header buf : Bytes) : Out (Option Nat) := findLoop header 0 0 buf

/-- `kryptos_pem_put_data` (src/kryptos_pem.c:34-135).  `pem` is `*pem_buf`; `sized` tells whether `pem_buf_size` is given
(if not, the size is found by `kryptos_pem_strlen`, src/kryptos_pem.c:49, 353-367).  Returns the result and the new
`*pem_buf`. -/
def putData (sized : Bool) (pem : Option Bytes) (header data : Option Bytes) : Out (TaskResult × Option Bytes) :=
  match header, data with
  | some h, some d =>
    if d.length = 0 then .ok (.processError, pem)
    else do
      let old := match pem with
        | none => []
        | some b => if sized then b else b.takeWhile (· != 0)
      let found ← match pem with
        | none => .ok none
        | some _ => findHeader (pemHeader beginPfx h) old
      match found with
      | some _ => return (.invalidParams, pem)
      | none =>
        match ← Base64.encodeBuffer d with
        | none => return (.processError, pem)
        | some text =>
          return (.success, some (old ++ pemHeader beginPfx h ++ text ++ [0x0A#8] ++ pemHeader endPfx h))
  | _, _ => .ok (.processError, pem)

/-- `kryptos_pem_get_data` (src/kryptos_pem.c:137-186).  The test of line 157 repeats the one of line 151, so a missing end
marker leads to a subtraction with `NULL`; an end marker less than a byte behind the start of the buffer to a pointer
before it; an end marker before the data to a wrapped `in_size`: all three are `ub`.  An `in_size` of zero is refused by
the decoder (src/kryptos_types.h:784-788). -/
def getData (header buf : Option Bytes) : Out (Option Bytes) :=
  match header, buf with
  | some h, some b =>
    if b.length = 0 then .ok none
    else do
      match ← findHeader (pemHeader beginPfx h) b with
      | none => return none
      | some dataBegin =>
        match ← findHeader (pemHeader endPfx h) b with
        | none => .ub
        | some e =>
          let size := (pemHeader endPfx h).length + 1
          if e < size then .ub
          else if e - size < dataBegin then .ub
          else
            let text := (b.drop dataBegin).take (e - size - dataBegin)
            if text.length = 0 then return none else Base64.decodeBuffer text
  | _, _ => .ok none

/-- The digits stored by `memcpy` of little-endian bytes: `n` digits of `w` bits. -/
def digitsOfBytes (w : Nat) : Nat → Bytes → Mp.Digits w
  | 0, _ => []
  | n + 1, bs =>
    BitVec.ofNat w ((bs.take (w / 8)).foldr (fun b v => b.toNat + 256 * v) 0) :: digitsOfBytes w n (bs.drop (w / 8))

/-- `kryptos_pem_get_mp_data` (src/kryptos_pem.c:188-231).  `none` is `kKryptosProcessError`, otherwise `*number`. -/
def getMpData (w : Nat) (header buf : Option Bytes) : Out (Option (Mp.Num w)) := do
  match ← getData header buf with
  | none => return none
  | some d =>
    let size := if d.length < w / 8 then w / 8 else d.length
    return some ⟨digitsOfBytes w ((size + w / 8 - 1) / (w / 8)) d, false⟩

end Kryptos.Pem
