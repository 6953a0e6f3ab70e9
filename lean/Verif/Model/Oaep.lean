import Verif.Model.Hmac
import Verif.Model.Endian
/-
  Model of the encodings of src/kryptos_padding.c: MGF1, OAEP and PSS.

  Allocation is assumed to succeed (also for size zero), except where a size has wrapped.  The hash and its size are parameters
  (function pointers in the code, SHA-1 when they are `NULL`); the random blocks are parameters too (`none`: the source failed).
  Sizes are natural numbers reduced modulo `2 ^ 64` where the code computes with `size_t` and may wrap.
-/
namespace Kryptos.Oaep
open Hash Hmac

/-- The loop of `kryptos_padding_mgf` (src/kryptos_padding.c:99-120).  It runs at most `len` times as every hash has a byte. -/
def mgfLoop (hash : HashFn) (seed : Bytes) (len : Nat) : Nat → W32 → Bytes → Out (Option Bytes)
  | 0, _, out => .ok (some out)
  | f + 1, counter, out =>
    if out.length < len then do
      match ← runHash hash (seed ++ putBe32 counter) with
      | none => return none
      | some d => mgfLoop hash seed len f (counter + 1) (out ++ d.take (len - out.length))
    else .ok (some out)

/-- `kryptos_padding_mgf` (src/kryptos_padding.c:57-137), `kryptos_oaep_i2osp` (src/kryptos_padding.c:139-148). -/
def mgf (hash : HashFn) (seed : Bytes) (len : Nat) : Out (Option Bytes) := mgfLoop hash seed len len 0 []

/-- The exclusive or of two buffers (src/kryptos_padding.c:266-268, 280-282, 409-411, 425-427). -/
def xorB (a b : Bytes) : Bytes := List.zipWith (· ^^^ ·) a b

/-- The label used (src/kryptos_padding.c:187-194, 390-397). -/
def labelOf : Option Bytes → Bytes
  | none => []
  | some l => l

/-- `k - n - 2 * h - 2` as a `size_t` (src/kryptos_padding.c:198, 466). -/
def psSize (k n h : Nat) : BitVec 64 := BitVec.ofNat 64 k - BitVec.ofNat 64 n - 2 * BitVec.ofNat 64 h - 2

/-- `kryptos_apply_oaep_padding` (src/kryptos_padding.c:160-346).  The hash has to have the size told by the other function; the
code would leave bytes uninitialised or write too many otherwise. -/
def apply (hash : HashFn) (h : Nat) (seed : Option Bytes) (buffer : Bytes) (k : Nat) (label : Option Bytes) :
    Out (Option Bytes) :=
  if buffer.length = 0 ∨ k < buffer.length then .ok none
  else if k < h then .ok none
  else
    let ps := psSize k buffer.length h
    if ps.toInt < 0 then .ok none
    else do
      match ← runHash hash (labelOf label) with
      | none => return none
      | some lh =>
        if lh.length ≠ h then .ub
        else
          let db := lh ++ List.replicate ps.toNat 0#8 ++ [1#8] ++ buffer
          match seed with
          | none => return none
          | some seed => do
            match ← mgf hash seed (k - h - 1) with
            | none => return none
            | some dbmask =>
              let db := xorB db dbmask
              match ← mgf hash db h with
              | none => return none
              | some seedmask => return some ([0#8] ++ xorB seed seedmask ++ db)

/-- What follows the zeros, and their number (src/kryptos_padding.c:452-457). -/
def skipZeros : Bytes → Nat × Bytes
  | [] => (0, [])
  | b :: l => if b = 0#8 then ((skipZeros l).1 + 1, (skipZeros l).2) else (0, b :: l)

/-- The checks on the unmasked block (src/kryptos_padding.c:429-486): `dest` is what follows the seed.  The byte after the zeros is
read even when there is none. -/
def checkDb (hash : HashFn) (h k : Nat) (dest : Bytes) (label : Option Bytes) : Out (Option Bytes) := do
  match ← runHash hash (labelOf label) with
  | none => return none
  | some lh =>
    if lh.length ≠ h then return none
    else if dest.length < h then .ub
    else if dest.take h ≠ lh then return none
    else
      let (psSz, rest) := skipZeros (dest.drop h)
      match rest with
      | [] => .ub
      | b :: m =>
        if b ≠ 1#8 then return none
        else if psSz ≠ (psSize k m.length h).toNat then return none
        else return some m

/-- `kryptos_drop_oaep_padding` (src/kryptos_padding.c:348-511).  The mask is computed from `k - h - 1` bytes whatever the size of
the buffer.  When that wraps, the allocation fails unless four more bytes make it small. -/
def drop (hash : HashFn) (h : Nat) (buffer : Bytes) (k : Nat) (label : Option Bytes) : Out (Option Bytes) :=
  match buffer with
  | [] => .ok none
  | b :: body =>
    if b ≠ 0#8 then .ok none
    else if k < h + 1 then (if h + 1 - k ≤ 4 then .ub else .ok none)
    else if body.length + 1 < k then .ub
    else do
      match ← mgf hash ((body.drop h).take (k - h - 1)) h with
      | none => return none
      | some seedmask =>
        let seed := xorB seedmask (body.take h)
        match ← mgf hash seed (body.length - h) with
        | none => return none
        | some dbmask => checkDb hash h k (xorB (body.drop h) dbmask) label

/-- `kryptos_pss_encode` (src/kryptos_padding.c:513-749).  The size of the encoding is that of the message; `k` is not used.
The salt is copied even when the source failed. -/
def pssEncode (hash : HashFn) (h : Nat) (salt : Option Bytes) (buffer : Bytes) (saltSize : Nat) : Out (Option Bytes) :=
  if buffer.length < (h + saltSize + 2) % 2 ^ 64 then .ok none
  else do
    match ← runHash hash buffer with
    | none => return none
    | some mHash =>
      if mHash.length ≠ h then return none
      else if (8 + h + saltSize) % 2 ^ 64 < 8 + h then .ub
      else
        match (if saltSize = 0 then some [] else salt) with
        | none => .ub
        | some salt => do
          match ← runHash hash (List.replicate 8 0#8 ++ mHash ++ salt) with
          | none => return none
          | some hh =>
            if hh.length ≠ h then return none
            else
              let ps := buffer.length - saltSize - h - 2
              let db := List.replicate ps 0#8 ++ [1#8] ++ salt
              match ← mgf hash hh (buffer.length - h - 1) with
              | none => return none
              | some mask =>
                let masked := xorB mask db
                let masked := if 0 < ps then [0#8] ++ masked.drop 1 else masked
                return some (masked ++ hh ++ [0xBC#8])

/-- `kryptos_pss_verify` (src/kryptos_padding.c:751-990).  A salt size which makes the sum wrap is taken as undefined. -/
def pssVerify (hash : HashFn) (h : Nat) (m em : Bytes) (k saltSize : Nat) : Out Bool :=
  if m.length = 0 ∨ em.length = 0 ∨ k = 0 then .ok false
  else if 2 ^ 64 ≤ h + saltSize + 2 then .ub
  else if em.length < h + saltSize + 2 then .ok false
  else if em.drop (em.length - 1) ≠ [0xBC#8] then .ok false
  else do
    match ← runHash hash m with
    | none => return false
    | some mHash =>
      if mHash.length ≠ h then return false
      else
        let masked := em.take (em.length - h - 1)
        let hh := (em.drop (em.length - h - 1)).take h
        let ps := em.length - saltSize - h - 2
        if 0 < ps ∧ masked.take 1 ≠ [0#8] then return false
        else do
          match ← mgf hash hh (em.length - h - 1) with
          | none => return false
          | some db =>
            let db := xorB db masked
            let db := if 0 < ps then [0#8] ++ db.drop 1 else db
            if (db.drop ps).take 1 ≠ [1#8] then return false
            else if (db.take ps).any (· != 0#8) then return false
            else
              let salt := db.drop (db.length - saltSize)
              match ← runHash hash (List.replicate 8 0#8 ++ mHash ++ salt) with
              | none => return false
              | some hp =>
                if hp.length ≠ h then return false else return (hh == hp)

end Kryptos.Oaep
