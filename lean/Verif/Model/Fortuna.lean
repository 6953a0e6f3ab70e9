import Verif.Model.HashTask
import Verif.Model.BlockModes
import Verif.Model.Aes
import Verif.Lemmas.BlockCipher
/-
  Model of src/kryptos_fortuna.c.

  Memory is never exhausted; the context passed in is not `NULL` (`kryptos_fortuna_generate_blocks` dereferences it before
  it looks whether it is).  `stale` and `staleW` are the contents of memory not yet written.
-/
namespace Kryptos.Fortuna
open Block

/-- `struct kryptos_fortuna_ctx` (src/kryptos_fortuna.h:17-24).  `K_size` is the length of `K`, always 32.  `used` is not
in the C code: it records the counters enciphered since the last re-seed, for the statement of C57. -/
structure Ctx where
  K : Bytes
  C : W32
  callNr : Nat
  seed : Bytes
  seedSize : Nat
  used : List W32
  deriving DecidableEq

/-- `kryptos_fortuna_init` (src/kryptos_fortuna.c:23-43). -/
def init : Ctx := ⟨List.replicate 32 0, 0, 0, List.replicate 32 0, 0, []⟩

/-- `kryptos_fortuna_reseed` (src/kryptos_fortuna.c:56-106).  The hashed buffer is the key followed by the seed.  The
input of the second hash is the same buffer after its first 16 bytes were replaced by those of the new key and the part
behind the key by `seed_size` bytes of the digest. -/
def reseed (staleW : List W32) (s : Ctx) (seed : Bytes) : Out Ctx := do
  let inp := s.K ++ seed
  let out ← Sha256.hash staleW inp false
  if out.length < s.K.length then .ub
  else if out.length < seed.length then .ub
  else do
    let K := out.take s.K.length
    let inp2 := K.take (s.K.length / 2) ++ (s.K.drop (s.K.length / 2)) ++ out.take seed.length
    let out2 ← Sha256.hash staleW inp2 false
    if 32 < out2.length then .ub
    else return { s with K := K, C := s.C + 1, seed := out2 ++ s.seed.drop out2.length, seedSize := out2.length, used := [] }

/-- The input of the block cipher (src/kryptos_fortuna.c:223-226). -/
def counterBytes (c : W32) : Bytes :=
  [(c &&& 0xFF#32).setWidth 8, (((c &&& 0xFF00#32) >>> 8) &&& 0xFF#32).setWidth 8,
   (((c &&& 0xFF0000#32) >>> 16) &&& 0xFF#32).setWidth 8, (c >>> 24).setWidth 8]

/-- AES-128 as a cipher of the generic modes; its block functions are defined for every block (`Aes.aes128_invertible`). -/
def aes (key : Bytes) : Cipher := ofOut 16 (by decide) (Aes.enc128 key) (Aes.dec128 key)

/-- One round of the loop of `kryptos_fortuna_generate_blocks` (src/kryptos_fortuna.c:218-242): the task is run with the
action `kKryptosEncryptWithoutRandomPad` in ECB mode. -/
def oneBlock (stale : Bytes) (s : Ctx) : Out (Bytes × Ctx) := do
  let p ← process (aes s.K) .ecb .encryptWithoutRandomPad (counterBytes s.C) stale (fun _ => 0) none none
  match p.out with
  | none => .ub
  | some o => return (o.take p.size, { s with C := s.C + 1, used := s.used ++ [s.C] })

/-- The loop (src/kryptos_fortuna.c:218-242). -/
def blockLoop (stale : Bytes) : Nat → Ctx → Out (Bytes × Ctx)
  | 0, s => .ok ([], s)
  | k + 1, s => do
    let (o, s) ← oneBlock stale s
    let (r, s) ← blockLoop stale k s
    return (o ++ r, s)

/-- The generator is seeded by the system when its counter is zero (src/kryptos_fortuna.c:188-204); `none` is the jump to the
epilogue when the system fails. -/
def firstSeed (staleW : List W32) (sys : Option Bytes) (s : Ctx) : Out (Option Ctx) :=
  if s.C = 0 then
    match sys with
    | none => .ok none
    | some seed => do
      let s ← reseed staleW s seed
      return some s
  else .ok (some s)

/-- After 64 calls the generator re-seeds itself (src/kryptos_fortuna.c:206-211). -/
def autoReseed (staleW : List W32) (s : Ctx) : Out Ctx :=
  if s.callNr > 0x40 then
    if s.seed.length < s.seedSize then .ub
    else do
      let s ← reseed staleW s (s.seed.take s.seedSize)
      return { s with callNr := 0 }
  else .ok s

/-- `kryptos_fortuna_generate_blocks` (src/kryptos_fortuna.c:167-254).  `sys` is the result of
`kryptos_sys_get_random_block(32)`; when it fails the zeroed segment is returned. -/
def generateBlocks (stale : Bytes) (staleW : List W32) (sys : Option Bytes) (s : Ctx) (k : Nat) : Out (Bytes × Ctx) := do
  let s := { s with callNr := s.callNr + 1 }
  let size := if 0 < k then 16 * k else 16
  match ← firstSeed staleW sys s with
  | none => return (List.replicate size 0, s)
  | some s => do
    let s ← autoReseed staleW s
    let (r, s) ← blockLoop stale k s
    if size < r.length then .ub
    else return (r ++ List.replicate (size - r.length) 0, s)

/-- `kryptos_fortuna_get_random_block` (src/kryptos_fortuna.c:108-153). -/
def getRandomBlock (stale : Bytes) (staleW : List W32) (sys1 sys2 : Option Bytes) (s : Ctx) (n : Nat) :
    Out (Option Bytes × Ctx) :=
  if n = 0 ∨ 0x100000 ≤ n then .ok (none, s)
  else do
    let (t, s) ← generateBlocks stale staleW sys1 s (n * 16)
    if t.length < n then .ub
    else do
      let r := t.take n
      let (t, s) ← generateBlocks stale staleW sys2 s 2
      if t.length < s.K.length then .ub
      else return (some r, { s with K := t.take s.K.length })

/-- `kryptos_fortuna_get_random_byte` (src/kryptos_fortuna.c:155-165). -/
def getRandomByte (stale : Bytes) (staleW : List W32) (sys1 sys2 : Option Bytes) (s : Ctx) : Out (Byte × Ctx) := do
  let (b, s) ← getRandomBlock stale staleW sys1 sys2 s 16
  match b with
  | none => return (0, s)
  | some b => do
    let x ← rd b 0
    return (x, s)

end Kryptos.Fortuna
