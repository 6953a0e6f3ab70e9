import Verif.Model.Endian
import Verif.Model.KeyLoad
import Verif.Words
/-
  Model of src/kryptos_noekeon.c.
-/
namespace Kryptos.Noekeon
open KeyLoad (ldUserKey)

/-- `kryptos_noekeon_lsh` (src/kryptos_noekeon.c:58). -/
def lsh (v : W32) (l : Nat) : W32 := (v <<< l) ||| (v >>> (32 - l))

/-- `kryptos_noekeon_Gamma` (src/kryptos_noekeon.c:32-41). -/
def Gamma (s : Four 32) : Four 32 :=
  let a1 := s.b ^^^ ~~~(s.d ||| s.c)
  let a0 := s.a ^^^ (s.c &&& a1)
  let a3 := a0
  let a0 := s.d
  let a2 := s.c ^^^ (a0 ^^^ a1 ^^^ a3)
  let a1 := a1 ^^^ ~~~(a3 ||| a2)
  let a0 := a0 ^^^ (a2 &&& a1)
  ⟨a0, a1, a2, a3⟩

/-- Lines 45 and 53 of src/kryptos_noekeon.c. -/
def phi (t : W32) : W32 := t ^^^ (lsh t 24 ^^^ lsh t 8)

/-- `kryptos_noekeon_Theta` (src/kryptos_noekeon.c:43-56). -/
def Theta (k s : Four 32) : Four 32 :=
  let t := phi (s.a ^^^ s.c)
  let a1 := s.b ^^^ t
  let a3 := s.d ^^^ t
  let a0 := s.a ^^^ k.a
  let a1 := a1 ^^^ k.b
  let a2 := s.c ^^^ k.c
  let a3 := a3 ^^^ k.d
  let t := phi (a1 ^^^ a3)
  ⟨a0 ^^^ t, a1, a2 ^^^ t, a3⟩

/-- `kryptos_noekeon_Pi1`, `kryptos_noekeon_Pi2` (src/kryptos_noekeon.c:62-72). -/
def Pi1 (s : Four 32) : Four 32 := ⟨s.a, lsh s.b 1, lsh s.c 5, lsh s.d 2⟩
def Pi2 (s : Four 32) : Four 32 := ⟨s.a, lsh s.b 31, lsh s.c 27, lsh s.d 30⟩

/-- `kryptos_noekeon_RC` (src/kryptos_noekeon.c:74-79). -/
def RC : List W32 := [
  0x80#32, 0x1B#32, 0x36#32, 0x6C#32, 0xD8#32, 0xAB#32, 0x4D#32, 0x9A#32,
  0x2F#32, 0x5E#32, 0xBC#32, 0x63#32, 0xC6#32, 0x97#32, 0x35#32, 0x6A#32, 0xD4#32]

/-- `(s)[0] ^= c` (src/kryptos_noekeon.c:21, 23, 216, 258). -/
def addC (c : W32) (s : Four 32) : Four 32 := ⟨s.a ^^^ c, s.b, s.c, s.d⟩

/-- `kryptos_noekeon_Round` (src/kryptos_noekeon.c:20-27). -/
def Round (k s : Four 32) (c1 c2 : W32) : Four 32 := Pi2 (Gamma (Pi1 (addC c2 (Theta k (addC c1 s)))))

/-- The words of a block (src/kryptos_noekeon.c:194-197, 234-237). -/
def load (block : Bytes) : Out (Four 32) := do
  let a ← getBe32 block 0
  let b ← getBe32 block 4
  let c ← getBe32 block 8
  let d ← getBe32 block 12
  return ⟨a, b, c, d⟩

/-- The output (src/kryptos_noekeon.c:220-223, 260-263). -/
def store (s : Four 32) : Bytes := [s.a, s.b, s.c, s.d].flatMap putBe32

/-- `kryptos_noekeon_block_encrypt` (src/kryptos_noekeon.c:191-226); the sixteen rounds are written out in the code. -/
def encBlock (k : Four 32) (block : Bytes) : Out Bytes := do
  let s ← forLoop (fun i s => do return Round k s (← rd RC i) 0) 16 0 (← load block)
  return store (Theta k (addC (← rd RC 16) s))

/-- `kryptos_noekeon_block_decrypt` (src/kryptos_noekeon.c:228-266); `k` is the key computed in lines 105-108. -/
def decBlock (k : Four 32) (block : Bytes) : Out Bytes := do
  let s ← forLoop (fun j s => do return Round k s 0 (← rd RC (16 - j))) 16 0 (← load block)
  return store (addC (← rd RC 0) (Theta k s))

/-- The indirect mode of `kryptos_noekeon_key_sched` (src/kryptos_noekeon.c:146-167): the key is copied into a buffer of 16 zeros
and encrypted.  A longer key writes beyond the buffer. -/
def keyIndirect (key : Bytes) : Out (Four 32) := do
  if key.length > 16 then .ub else
  let block ← encBlock ⟨0, 0, 0, 0⟩ (key ++ List.replicate (16 - key.length) 0)
  load block

/-- The direct mode (src/kryptos_noekeon.c:168-188). -/
def keyDirect (key : Bytes) : Out (Four 32) := do
  let w := ldUserKey 4 4 key
  return ⟨← rd w 0, ← rd w 1, ← rd w 2, ← rd w 3⟩

/-- The inverse key (src/kryptos_noekeon.c:105-108, 128-131). -/
def invKey (k : Four 32) : Four 32 := Theta ⟨0, 0, 0, 0⟩ k

/-- The block functions with the key schedules (src/kryptos_noekeon.c:96-113, 119-136). -/
def enc (key block : Bytes) : Out Bytes := do encBlock (← keyIndirect key) block
def dec (key block : Bytes) : Out Bytes := do decBlock (invKey (← keyIndirect key)) block
def encD (key block : Bytes) : Out Bytes := do encBlock (← keyDirect key) block
def decD (key block : Bytes) : Out Bytes := do decBlock (invKey (← keyDirect key)) block

end Kryptos.Noekeon
