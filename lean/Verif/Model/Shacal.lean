import Verif.Model.Endian
import Verif.Model.KeyLoad
import Verif.Model.HashCommon
import Verif.Words
/-
  Model of src/kryptos_shacal1.c and src/kryptos_shacal2.c.
-/
namespace Kryptos.Shacal1
open KeyLoad (ldUserKey)
open Hash (expand)

/-- `kryptos_shacal1_Sn` (src/kryptos_shacal1.c:20). -/
def Sn (x : W32) (n : Nat) : W32 := x <<< n ||| x >>> (32 - n)

/-- `kryptos_shacal1_F` (src/kryptos_shacal1.c:22-30); `t` is always below 80. -/
def F (t : Nat) (B C D : W32) : W32 :=
  if t ≤ 19 then (B &&& C) ||| (~~~B &&& D)
  else if (20 ≤ t ∧ t ≤ 39) ∨ (60 ≤ t ∧ t ≤ 79) then B ^^^ C ^^^ D
  else (B &&& C) ||| (B &&& D) ||| (C &&& D)

/-- `kryptos_shacal1_K` (src/kryptos_shacal1.c:32-42). -/
def K (t : Nat) : W32 :=
  if t ≤ 19 then 0x5A827999#32 else if t ≤ 39 then 0x6ED9EBA1#32
  else if t ≤ 59 then 0x8F1BBCDC#32 else 0xCA62C1D6#32

/-- Body of the loop of the key schedule (src/kryptos_shacal1.c:157). -/
def sched (W : List W32) (t : Nat) : Out W32 := do
  let a ← rd W (t - 3)
  let b ← rd W (t - 8)
  let c ← rd W (t - 14)
  let d ← rd W (t - 16)
  return Sn (a ^^^ b ^^^ c ^^^ d) 1

/-- `kryptos_shacal1_key_sched` (src/kryptos_shacal1.c:151-159) with its loader (lines 77-149). -/
def keySched (key : Bytes) : Out (List W32) := expand sched 64 (ldUserKey 4 16 key)

/-- The words of a block (src/kryptos_shacal1.c:170-174, 205-209). -/
def load (block : Bytes) : Out (Five 32) := do
  let A ← getBe32 block 0
  let B ← getBe32 block 4
  let C ← getBe32 block 8
  let D ← getBe32 block 12
  let E ← getBe32 block 16
  return ⟨A, B, C, D, E⟩

/-- The output (src/kryptos_shacal1.c:187-191, 234-238).  The sizes passed are at least four, their order is of no consequence. -/
def store (s : Five 32) : Bytes := [s.a, s.b, s.c, s.d, s.e].flatMap putBe32

/-- Body of the loop of `kryptos_shacal1_block_encrypt` (src/kryptos_shacal1.c:177-184). -/
def encStep (W : List W32) (t : Nat) (s : Five 32) : Out (Five 32) := do
  let x ← rd W t
  return ⟨Sn s.a 5 + F t s.b s.c s.d + s.e + x + K t, s.a, Sn s.b 30, s.c, s.d⟩

/-- `kryptos_shacal1_block_encrypt` (src/kryptos_shacal1.c:161-198). -/
def encBlock (W : List W32) (block : Bytes) : Out Bytes := do
  let s ← forLoop (encStep W) 80 0 (← load block)
  return store s

/-- Body of the loop of `kryptos_shacal1_block_decrypt` (src/kryptos_shacal1.c:224-231). -/
def decStep (W : List W32) (t : Nat) (s : Five 32) : Out (Five 32) := do
  let x ← rd W t
  return ⟨s.b, Sn s.c 2, s.d, s.e, s.a - Sn s.b 5 - F t (Sn s.c 2) s.d s.e - x - K t⟩

/-- `kryptos_shacal1_block_decrypt` (src/kryptos_shacal1.c:200-245). -/
def decBlock (W : List W32) (block : Bytes) : Out Bytes := do
  let s ← forLoop (fun j => decStep W (80 - 1 - j)) 80 0 (← load block)
  return store s

/-- The block functions with the key schedule (src/kryptos_shacal1.c:60-73). -/
def enc (key block : Bytes) : Out Bytes := do encBlock (← keySched key) block
def dec (key block : Bytes) : Out Bytes := do decBlock (← keySched key) block

end Kryptos.Shacal1

namespace Kryptos.Shacal2
open KeyLoad (ldUserKey)
open Hash (expand)

/-- `kryptos_shacal2_CH` (src/kryptos_shacal2.c:17). -/
def CH (x y z : W32) : W32 := (x &&& y) ^^^ (~~~x &&& z)
/-- `kryptos_shacal2_MAJ` (src/kryptos_shacal2.c:19). -/
def MAJ (x y z : W32) : W32 := (x &&& y) ^^^ (x &&& z) ^^^ (y &&& z)
/-- `kryptos_shacal2_ROTR` (src/kryptos_shacal2.c:21). -/
def ROTR (x : W32) (l : Nat) : W32 := x >>> l ||| x <<< (32 - l)
/-- `BSIG0`, `BSIG1`, `SSIG0`, `SSIG1` (src/kryptos_shacal2.c:23-37). -/
def BSIG0 (x : W32) : W32 := ROTR x 2 ^^^ ROTR x 13 ^^^ ROTR x 22
def BSIG1 (x : W32) : W32 := ROTR x 6 ^^^ ROTR x 11 ^^^ ROTR x 25
def SSIG0 (x : W32) : W32 := ROTR x 7 ^^^ ROTR x 18 ^^^ (x >>> 3)
def SSIG1 (x : W32) : W32 := ROTR x 17 ^^^ ROTR x 19 ^^^ (x >>> 10)

/-- `kryptos_shacal2_K` (src/kryptos_shacal2.c:39-56). -/
def K : List W32 := [
  0x428a2f98#32, 0x71374491#32, 0xb5c0fbcf#32, 0xe9b5dba5#32,
  0x3956c25b#32, 0x59f111f1#32, 0x923f82a4#32, 0xab1c5ed5#32,
  0xd807aa98#32, 0x12835b01#32, 0x243185be#32, 0x550c7dc3#32,
  0x72be5d74#32, 0x80deb1fe#32, 0x9bdc06a7#32, 0xc19bf174#32,
  0xe49b69c1#32, 0xefbe4786#32, 0x0fc19dc6#32, 0x240ca1cc#32,
  0x2de92c6f#32, 0x4a7484aa#32, 0x5cb0a9dc#32, 0x76f988da#32,
  0x983e5152#32, 0xa831c66d#32, 0xb00327c8#32, 0xbf597fc7#32,
  0xc6e00bf3#32, 0xd5a79147#32, 0x06ca6351#32, 0x14292967#32,
  0x27b70a85#32, 0x2e1b2138#32, 0x4d2c6dfc#32, 0x53380d13#32,
  0x650a7354#32, 0x766a0abb#32, 0x81c2c92e#32, 0x92722c85#32,
  0xa2bfe8a1#32, 0xa81a664b#32, 0xc24b8b70#32, 0xc76c51a3#32,
  0xd192e819#32, 0xd6990624#32, 0xf40e3585#32, 0x106aa070#32,
  0x19a4c116#32, 0x1e376c08#32, 0x2748774c#32, 0x34b0bcb5#32,
  0x391c0cb3#32, 0x4ed8aa4a#32, 0x5b9cca4f#32, 0x682e6ff3#32,
  0x748f82ee#32, 0x78a5636f#32, 0x84c87814#32, 0x8cc70208#32,
  0x90befffa#32, 0xa4506ceb#32, 0xbef9a3f7#32, 0xc67178f2#32]

/-- Body of the loop of the key schedule (src/kryptos_shacal2.c:169-170). -/
def sched (W : List W32) (t : Nat) : Out W32 := do
  let a ← rd W (t - 2)
  let b ← rd W (t - 7)
  let c ← rd W (t - 15)
  let d ← rd W (t - 16)
  return SSIG1 a + b + SSIG0 c + d

/-- `kryptos_shacal2_key_sched` (src/kryptos_shacal2.c:163-172) with its loader (lines 91-161). -/
def keySched (key : Bytes) : Out (List W32) := expand sched 48 (ldUserKey 4 16 key)

/-- The words of a block (src/kryptos_shacal2.c:178-185, 216-223). -/
def load (block : Bytes) : Out (Eight 32) := do
  let a ← getBe32 block 0
  let b ← getBe32 block 4
  let c ← getBe32 block 8
  let d ← getBe32 block 12
  let e ← getBe32 block 16
  let f ← getBe32 block 20
  let g ← getBe32 block 24
  let h ← getBe32 block 28
  return ⟨a, b, c, d, e, f, g, h⟩

/-- The output (src/kryptos_shacal2.c:200-207, 241-248). -/
def store (s : Eight 32) : Bytes := [s.a, s.b, s.c, s.d, s.e, s.f, s.g, s.h].flatMap putBe32

/-- Body of the loop of `kryptos_shacal2_block_encrypt` (src/kryptos_shacal2.c:188-197). -/
def encStep (W : List W32) (t : Nat) (s : Eight 32) : Out (Eight 32) := do
  let k ← rd K t
  let x ← rd W t
  let T1 := s.h + BSIG1 s.e + CH s.e s.f s.g + k + x
  let T2 := BSIG0 s.a + MAJ s.a s.b s.c
  return ⟨T1 + T2, s.a, s.b, s.c, s.d + T1, s.e, s.f, s.g⟩

/-- `kryptos_shacal2_block_encrypt` (src/kryptos_shacal2.c:174-210). -/
def encBlock (W : List W32) (block : Bytes) : Out Bytes := do
  let s ← forLoop (encStep W) 64 0 (← load block)
  return store s

/-- Body of the loop of `kryptos_shacal2_block_decrypt` (src/kryptos_shacal2.c:227-238). -/
def decStep (W : List W32) (t : Nat) (s : Eight 32) : Out (Eight 32) := do
  let k ← rd K t
  let x ← rd W t
  let T1 := s.a - (BSIG0 s.b + MAJ s.b s.c s.d)
  return ⟨s.b, s.c, s.d, s.e - T1, s.f, s.g, s.h, T1 - (BSIG1 s.f + CH s.f s.g s.h + k + x)⟩

/-- `kryptos_shacal2_block_decrypt` (src/kryptos_shacal2.c:212-251). -/
def decBlock (W : List W32) (block : Bytes) : Out Bytes := do
  let s ← forLoop (fun j => decStep W (64 - 1 - j)) 64 0 (← load block)
  return store s

/-- The block functions with the key schedule (src/kryptos_shacal2.c:74-87). -/
def enc (key block : Bytes) : Out Bytes := do encBlock (← keySched key) block
def dec (key block : Bytes) : Out Bytes := do decBlock (← keySched key) block

end Kryptos.Shacal2
