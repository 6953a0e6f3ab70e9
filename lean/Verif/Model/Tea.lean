import Verif.Model.Endian
/-
  Model of src/kryptos_tea.c and src/kryptos_xtea.c.
-/
namespace Kryptos.Tea

/-- `KRYPTOS_TEA_DELTA` (src/kryptos_tea.c:15), `KRYPTOS_XTEA_DELTA` (src/kryptos_xtea.c:21). -/
def delta : W32 := 0x9E3779B9#32

/-- The key words `k[0..3]` (src/kryptos_tea.c:68-71, 96-99; src/kryptos_xtea.c:77-80, 108-111). -/
def keyWords (key : Bytes) : Out (List W32) := do
  let k0 ← getBe32 key 0
  let k1 ← getBe32 key 4
  let k2 ← getBe32 key 8
  let k3 ← getBe32 key 12
  return [k0, k1, k2, k3]

/-- Body of the loop of `kryptos_tea_block_encryption` (src/kryptos_tea.c:76-80) on `(sum, y, z)`. -/
def encStep (k : List W32) (s : W32 × W32 × W32) : Out (W32 × W32 × W32) := do
  let (sum, y, z) := s
  let sum := sum + delta
  let y := y + (((z <<< 4) + (← rd k 0)) ^^^ (z + sum) ^^^ ((z >>> 5) + (← rd k 1)))
  let z := z + (((y <<< 4) + (← rd k 2)) ^^^ (y + sum) ^^^ ((y >>> 5) + (← rd k 3)))
  return (sum, y, z)

/-- Body of the loop of `kryptos_tea_block_decryption` (src/kryptos_tea.c:104-108). -/
def decStep (k : List W32) (s : W32 × W32 × W32) : Out (W32 × W32 × W32) := do
  let (sum, y, z) := s
  let z := z - (((y <<< 4) + (← rd k 2)) ^^^ (y + sum) ^^^ ((y >>> 5) + (← rd k 3)))
  let y := y - (((z <<< 4) + (← rd k 0)) ^^^ (z + sum) ^^^ ((z >>> 5) + (← rd k 1)))
  return (sum - delta, y, z)

/-- `kryptos_tea_block_encryption` (src/kryptos_tea.c:63-89). -/
def encBlock (key block : Bytes) : Out Bytes := do
  let k ← keyWords key
  let y ← getBe32 block 0
  let z ← getBe32 block 4
  let (_, y, z) ← forLoop (fun _ => encStep k) 32 0 (0, y, z)
  return putBe32 y ++ putBe32 z

/-- `kryptos_tea_block_decryption` (src/kryptos_tea.c:91-117). -/
def decBlock (key block : Bytes) : Out Bytes := do
  let k ← keyWords key
  let y ← getBe32 block 0
  let z ← getBe32 block 4
  let (_, y, z) ← forLoop (fun _ => decStep k) 32 0 (delta <<< 5, y, z)
  return putBe32 y ++ putBe32 z

/-- The key check of the processor (src/kryptos_tea.c:45-49). -/
def keyCheck (key : Bytes) : TaskResult := if key.length ≠ 16 then .keyError else .success

end Kryptos.Tea

namespace Kryptos.Xtea
open Tea (delta keyWords)

/-- Body of the loop of `kryptos_xtea_block_encrypt` (src/kryptos_xtea.c:82-86) on `(sum, v0, v1)`. -/
def encStep (k : List W32) (s : W32 × W32 × W32) : Out (W32 × W32 × W32) := do
  let (sum, v0, v1) := s
  let v0 := v0 + ((((v1 <<< 4) ^^^ (v1 >>> 5)) + v1) ^^^ (sum + (← rd k (sum &&& 3#32).toNat)))
  let sum := sum + delta
  let v1 := v1 + ((((v0 <<< 4) ^^^ (v0 >>> 5)) + v0) ^^^ (sum + (← rd k ((sum >>> 11) &&& 3#32).toNat)))
  return (sum, v0, v1)

/-- Body of the loop of `kryptos_xtea_block_decrypt` (src/kryptos_xtea.c:113-117). -/
def decStep (k : List W32) (s : W32 × W32 × W32) : Out (W32 × W32 × W32) := do
  let (sum, v0, v1) := s
  let v1 := v1 - ((((v0 <<< 4) ^^^ (v0 >>> 5)) + v0) ^^^ (sum + (← rd k ((sum >>> 11) &&& 3#32).toNat)))
  let sum := sum - delta
  let v0 := v0 - ((((v1 <<< 4) ^^^ (v1 >>> 5)) + v1) ^^^ (sum + (← rd k (sum &&& 3#32).toNat)))
  return (sum, v0, v1)

/-- `kryptos_xtea_block_encrypt` (src/kryptos_xtea.c:70-96) with `rounds` iterations. -/
def encBlock (rounds : Nat) (key block : Bytes) : Out Bytes := do
  let v0 ← getBe32 block 0
  let v1 ← getBe32 block 4
  let k ← keyWords key
  let (_, v0, v1) ← forLoop (fun _ => encStep k) rounds 0 (0, v0, v1)
  return putBe32 v0 ++ putBe32 v1

/-- `kryptos_xtea_block_decrypt` (src/kryptos_xtea.c:98-127); the initial sum is the 32-bit product of
the constant and the number of rounds. -/
def decBlock (rounds : Nat) (key block : Bytes) : Out Bytes := do
  let v0 ← getBe32 block 0
  let v1 ← getBe32 block 4
  let k ← keyWords key
  let (_, v0, v1) ← forLoop (fun _ => decStep k) rounds 0 (delta * BitVec.ofNat 32 rounds, v0, v1)
  return putBe32 v0 ++ putBe32 v1

/-- The key and parameter checks of the processor (src/kryptos_xtea.c:46-63); `none` is a missing
argument. -/
def keyCheck (key : Bytes) (rounds : Option Int) : TaskResult :=
  if key.length ≠ 16 then .keyError
  else match rounds with
    | none => .invalidParams
    | some r => if r ≤ 0 then .invalidParams else .success

end Kryptos.Xtea
