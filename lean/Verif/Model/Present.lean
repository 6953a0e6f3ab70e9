import Verif.Model.Endian
/-
  Model of src/kryptos_present.c.
-/
namespace Kryptos.Present

/-- `kryptos_present_S` (src/kryptos_present.c:26-28). -/
def S : List Byte := [
  0xC, 0x5, 0x6, 0xB, 0x9, 0x0, 0xA, 0xD, 0x3, 0xE, 0xF, 0x8, 0x4, 0x7, 0x1, 0x2]

/-- `kryptos_present_S_1` (src/kryptos_present.c:30-32). -/
def S_1 : List Byte := [
  0x5, 0xE, 0xF, 0x8, 0xC, 0x1, 0x2, 0xD, 0xB, 0x4, 0x6, 0x3, 0x0, 0x7, 0x9, 0xA]

/-- `kryptos_present_P` (src/kryptos_present.c:34-39). -/
def P : List Nat := [
  0, 16, 32, 48, 1, 17, 33, 49, 2, 18, 34, 50, 3, 19, 35, 51,
  4, 20, 36, 52, 5, 21, 37, 53, 6, 22, 38, 54, 7, 23, 39, 55,
  8, 24, 40, 56, 9, 25, 41, 57, 10, 26, 42, 58, 11, 27, 43, 59,
  12, 28, 44, 60, 13, 29, 45, 61, 14, 30, 46, 62, 15, 31, 47, 63]

/-- One line of `kryptos_present_sBoxLayer`: the group of four bits at position `4*i`.  (The code does not mask the first group, whose
shift leaves four bits.) -/
def sBoxStep (T : List Byte) (s : W64) (i : Nat) (v : W64) : Out W64 := do
  return v ||| ((← rd T ((s >>> (4 * i)) &&& 0xF#64).toNat).setWidth 64 <<< (4 * i))

/-- `kryptos_present_sBoxLayer` (src/kryptos_present.c:59-75) and, with the other table, `kryptos_present_sBoxLayer_1` (lines
79-95). -/
def sBoxLayer (T : List Byte) (s : W64) : Out W64 := forLoop (sBoxStep T s) 16 0 0

/-- `kryptos_present_pi` (src/kryptos_present.c:77). -/
def pi (s : W64) (i : Nat) (v : W64) : Out W64 := do
  return v ||| (((s &&& (1#64 <<< i)) >>> i) <<< (← rd P i))

/-- `kryptos_present_pi_1` (src/kryptos_present.c:100-101). -/
def pi_1 (s : W64) (i : Nat) (v : W64) : Out W64 := do
  let p ← rd P i
  return v ||| (((s &&& (1#64 <<< p)) >>> p) <<< i)

/-- `kryptos_present_pLayer`, `kryptos_present_pLayer_1` (src/kryptos_present.c:103-122, 124-159); written out in the code. -/
def pLayer (s : W64) : Out W64 := forLoop (pi s) 64 0 0
def pLayer_1 (s : W64) : Out W64 := forLoop (pi_1 s) 64 0 0

/-- `kryptos_present_round` (src/kryptos_present.c:161-165). -/
def round (K : List W64) (i : Nat) (s : W64) : Out W64 := do
  pLayer (← sBoxLayer S (s ^^^ (← rd K i)))

/-- `kryptos_present_round_1` (src/kryptos_present.c:167-171). -/
def round_1 (K : List W64) (i : Nat) (s : W64) : Out W64 := do
  return (← sBoxLayer S_1 (← pLayer_1 s)) ^^^ (← rd K i)

/-- One step of `kryptos_present_rotl_u80` and `kryptos_present_rotl_u128` (src/kryptos_present.c:228-250); `n` is the width of the
lower part. -/
def rotl1 {n : Nat} (k : W64 × BitVec n) : W64 × BitVec n :=
  let hh : Byte := (k.1 >>> 63).setWidth 8
  let lh : Byte := (k.2 >>> (n - 1)).setWidth 8
  ((k.1 <<< 1) ||| lh.setWidth 64, (k.2 <<< 1) ||| hh.setWidth n)

def rotl {n : Nat} (k : W64 × BitVec n) : Nat → W64 × BitVec n
  | 0 => k
  | m + 1 => rotl1 (rotl k m)

/-- One of the two lines of `kryptos_present_ksched_ii` (src/kryptos_present.c:308, 310): the group of four bits at position `p` goes
through the table. -/
def sub4 (h : W64) (p : Nat) (mask : W64) : Out W64 := do
  return ((← rd S ((h >>> p) &&& 0xF#64).toNat).setWidth 64 <<< p) ||| (h &&& mask)

/-- `kryptos_present_mk_sk` for 80 bits (src/kryptos_present.c:366-371, 303-312, 342-360), without the copy of the subkey.  The work
register is `u`. -/
def step80 (r : Nat) (k : W64 × W16) : Out (W64 × W16) := do
  let k := rotl k 61
  let h ← sub4 k.1 60 0x0FFFFFFFFFFFFFFF#64
  let l := k.2
  let u : W64 := ((h &&& 0xF#64) <<< 1) ||| (l >>> 15).setWidth 64
  let u := u ^^^ BitVec.ofNat 64 r
  return ((h &&& 0xFFFFFFFFFFFFFFF0#64) ||| (u >>> 1), (l &&& 0x7FFF#16) ||| ((u &&& 1#64) <<< 15).setWidth 16)

/-- The same for 128 bits. -/
def step128 (r : Nat) (k : W64 × W64) : Out (W64 × W64) := do
  let k := rotl k 61
  let h ← sub4 k.1 60 0x0FFFFFFFFFFFFFFF#64
  let h ← sub4 h 56 0xF0FFFFFFFFFFFFFF#64
  let l := k.2
  let u : W64 := ((h &&& 7#64) <<< 2) ||| (l >>> 62)
  let u := u ^^^ BitVec.ofNat 64 r
  return ((h &&& 0xFFFFFFFFFFFFFFF8#64) ||| (u >>> 2), (l &&& 0x3FFFFFFFFFFFFFFF#64) ||| ((u &&& 3#64) <<< 62))

/-- The buffer of the key (src/kryptos_present.c:255-260): 128 bytes, filled by `memcpy` without a check of the size. -/
def keyBuf (key : Bytes) : Out Bytes :=
  if 128 < key.length then .ub else .ok (key ++ List.replicate (128 - key.length) 0)

/-- State of the schedule: the register and the subkeys written so far. -/
def stepK {n : Nat} (f : Nat → W64 × BitVec n → Out (W64 × BitVec n)) (r : Nat) (s : (W64 × BitVec n) × List W64) :
    Out ((W64 × BitVec n) × List W64) := do
  let k ← f r s.1
  return (k, ← wr s.2 r k.1)

/-- `kryptos_present_key_sched` for 80 and 128 bits (src/kryptos_present.c:252-423). -/
def sched80 (key : Bytes) : Out (List W64) := do
  let b ← keyBuf key
  let h ← getBe64 b 0
  let l ← getBe16 b 8
  let s ← forLoop (stepK step80) 31 1 ((h, l), ← wr (List.replicate 32 0) 0 h)
  return s.2

def sched128 (key : Bytes) : Out (List W64) := do
  let b ← keyBuf key
  let h ← getBe64 b 0
  let l ← getBe64 b 8
  let s ← forLoop (stepK step128) 31 1 ((h, l), ← wr (List.replicate 32 0) 0 h)
  return s.2

/-- `kryptos_present_block_encrypt` (src/kryptos_present.c:425-478). -/
def encBlock (K : List W64) (block : Bytes) : Out Bytes := do
  let s ← forLoop (round K) 31 0 (← getBe64 block 0)
  return putBe64 (s ^^^ (← rd K 31))

/-- `kryptos_present_block_decrypt` (src/kryptos_present.c:480-534). -/
def decBlock (K : List W64) (block : Bytes) : Out Bytes := do
  let s ← getBe64 block 0
  let s ← forLoop (fun j => round_1 K (31 - 1 - j)) 31 0 (s ^^^ (← rd K 31))
  return putBe64 s

/-- The block functions with the key schedule (src/kryptos_present.c:192-205, 211-224). -/
def enc80 (key block : Bytes) : Out Bytes := do encBlock (← sched80 key) block
def dec80 (key block : Bytes) : Out Bytes := do decBlock (← sched80 key) block
def enc128 (key block : Bytes) : Out Bytes := do encBlock (← sched128 key) block
def dec128 (key block : Bytes) : Out Bytes := do decBlock (← sched128 key) block

end Kryptos.Present
