import Verif.Model.Endian
import Verif.Model.KeyLoad
import Verif.Model.Rot
/-
  Model of src/kryptos_rc5.c and src/kryptos_rc6.c.

  The argument `strict` of the functions tells what a rotation by 0 places means, see Model/Rot.lean.  The array of subkeys is the
  list of its initialised elements: reading or writing another one is the outcome `ub`.
-/
namespace Kryptos.Rc5
open KeyLoad (ldUserKey)

/-- `kryptos_rc5_PW`, `kryptos_rc5_QW` (src/kryptos_rc5.c:26, 28; src/kryptos_rc6.c:26, 28). -/
def pw : W32 := 0xB7E15163#32
def qw : W32 := 0x9E3779B9#32

/-- `kryptos_rc5_rev32` (src/kryptos_rc5.c:36-39; src/kryptos_rc6.c:38-41). -/
def rev (w : W32) : W32 := (w <<< 24) ||| ((w &&& 0xFF00#32) <<< 8) ||| ((w &&& 0xFF0000#32) >>> 8) ||| (w >>> 24)

/-- The first subkeys, of which there are `t` (src/kryptos_rc5.c:202-206; src/kryptos_rc6.c:284-288). -/
def initK (t : Nat) : List W32 := (List.range t).map fun i => pw + BitVec.ofNat 32 i * qw

/-- State of the mixing loop: `K`, `L`, `A`, `B`, `i`, `j`. -/
structure Mix where
  K : List W32
  L : List W32
  A : W32
  B : W32
  i : Nat
  j : Nat

/-- Body of the mixing loop (src/kryptos_rc5.c:215-220; src/kryptos_rc6.c:296-301), `t` and `c` are the moduli of the indices. -/
def mixStep (strict : Bool) (t c : Nat) (s : Mix) : Out Mix := do
  let A ← rotlV strict ((← rd s.K s.i) + (s.A + s.B)) 3
  let K ← wr s.K s.i A
  let B ← rotlV strict ((← rd s.L s.j) + (A + s.B)) ((A + s.B).toNat % 32)
  let L ← wr s.L s.j B
  return ⟨K, L, A, B, (s.i + 1) % t, (s.j + 1) % c⟩

/-- `c` words of the loaded key with reversed bytes (src/kryptos_rc5.c:198-200; src/kryptos_rc6.c:278-280). -/
def revs (c : Nat) (l : List W32) : List W32 := (l.take c).map rev ++ l.drop c

/-- `kryptos_rc5_ksched` (src/kryptos_rc5.c:180-225).  The loader (src/kryptos_rc5.c:106-178) fills at most 16 of the 800 words, the key
having at most 64 bytes.  With an empty key, which no task has, the loop divides by 0. -/
def ksched (strict : Bool) (rounds : Nat) (key : Bytes) : Out (List W32) := do
  let t := 2 * rounds + 2
  let c := (key.length + 3) / 4
  if c = 0 then .ub else
  let t' := if t < c then c else t
  let s ← forLoop (fun _ => mixStep strict t' c) (3 * t') 0 ⟨initK t, revs c (ldUserKey 4 16 key), 0, 0, 0, 0⟩
  return s.K

/-- Body of the loop of `kryptos_rc5_block_encrypt` (src/kryptos_rc5.c:244-247). -/
def encStep (strict : Bool) (K : List W32) (r : Nat) (s : W32 × W32) : Out (W32 × W32) := do
  let A := (← rotlV strict (s.1 ^^^ s.2) (s.2.toNat % 32)) + (← rd K (2 * r))
  let B := (← rotlV strict (s.2 ^^^ A) (A.toNat % 32)) + (← rd K (2 * r + 1))
  return (A, B)

/-- `kryptos_rc5_block_encrypt` (src/kryptos_rc5.c:227-261). -/
def encBlock (strict : Bool) (rounds : Nat) (K : List W32) (block : Bytes) : Out Bytes := do
  let A ← getLe32 block 0
  let B ← getLe32 block 4
  let s ← forLoop (encStep strict K) rounds 1 (A + (← rd K 0), B + (← rd K 1))
  return putLe32 s.1 ++ putLe32 s.2

/-- Body of the loop of `kryptos_rc5_block_decrypt` (src/kryptos_rc5.c:278-281). -/
def decStep (strict : Bool) (K : List W32) (r : Nat) (s : W32 × W32) : Out (W32 × W32) := do
  let B := (← rotrV strict (s.2 - (← rd K (2 * r + 1))) (s.1.toNat % 32)) ^^^ s.1
  let A := (← rotrV strict (s.1 - (← rd K (2 * r))) (B.toNat % 32)) ^^^ B
  return (A, B)

/-- `kryptos_rc5_block_decrypt` (src/kryptos_rc5.c:263-296). -/
def decBlock (strict : Bool) (rounds : Nat) (K : List W32) (block : Bytes) : Out Bytes := do
  let A ← getLe32 block 0
  let B ← getLe32 block 4
  let s ← forLoop (fun j => decStep strict K (rounds - j)) rounds 0 (A, B)
  return putLe32 (s.1 - (← rd K 0)) ++ putLe32 (s.2 - (← rd K 1))

/-- The block functions with the key schedule (src/kryptos_rc5.c:94-101). -/
def enc (strict : Bool) (rounds : Nat) (key block : Bytes) : Out Bytes := do encBlock strict rounds (← ksched strict rounds key) block
def dec (strict : Bool) (rounds : Nat) (key block : Bytes) : Out Bytes := do decBlock strict rounds (← ksched strict rounds key) block

/-- The checks of the number of rounds (src/kryptos_rc5.c:82-92; src/kryptos_rc6.c:92-101 and the same lines for the other sizes): the
`int` argument is converted to `size_t`, of 64 bits here. -/
def roundsOk (rounds : BitVec 32) : Bool :=
  let r : W64 := rounds.signExtend 64
  !(decide (r.toNat < 1) || decide (((r + 2) <<< 1).toNat > 800))

/-- The checks of the processor (src/kryptos_rc5.c:72-92); `none` is a missing argument. -/
def check (key : Bytes) (rounds : Option (BitVec 32)) : TaskResult :=
  if key.length > 64 then .keyError else
  match rounds with
  | none => .invalidParams
  | some r => if roundsOk r then .success else .invalidParams

end Kryptos.Rc5

namespace Kryptos.Rc6
open KeyLoad (ldUserKey)
open Rc5 (Mix mixStep initK revs roundsOk)

/-- `kryptos_rc6_ksched` (src/kryptos_rc6.c:261-306), `ksize` is 16, 24 or 32.  The key is copied into a buffer of 32 zeros, a longer key
writes beyond it.  The loader (src/kryptos_rc6.c:222-259) fills at most 8 of the 800 words. -/
def ksched (strict : Bool) (ksize rounds : Nat) (key : Bytes) : Out (List W32) := do
  if key.length > 32 then .ub else
  let cp := key ++ List.replicate (32 - key.length) 0
  let c := ksize / 4
  let t := 2 * rounds + 4
  let s ← forLoop (fun _ => mixStep strict t c) (3 * t) 0 ⟨initK t, revs c (ldUserKey 4 8 (cp.take ksize)), 0, 0, 0, 0⟩
  return s.K

abbrev St := W32 × W32 × W32 × W32

/-- Body of the loop of `kryptos_rc6_block_encrypt` (src/kryptos_rc6.c:335-345). -/
def encStep (strict : Bool) (K : List W32) (r : Nat) (s : St) : Out St := do
  let (A, B, C, D) := s
  let t ← rotlV strict (B * ((B <<< 1) + 1)) 5
  let u ← rotlV strict (D * ((D <<< 1) + 1)) 5
  let A := (← rotlV strict (A ^^^ t) (u.toNat % 32)) + (← rd K (2 * r))
  let C := (← rotlV strict (C ^^^ u) (t.toNat % 32)) + (← rd K (2 * r + 1))
  return (B, C, D, A)

/-- `kryptos_rc6_block_encrypt` (src/kryptos_rc6.c:308-373). -/
def encBlock (strict : Bool) (rounds : Nat) (K : List W32) (block : Bytes) : Out Bytes := do
  let A ← getLe32 block 0
  let B ← getLe32 block 4
  let C ← getLe32 block 8
  let D ← getLe32 block 12
  let s ← forLoop (encStep strict K) rounds 1 (A, B + (← rd K 0), C, D + (← rd K 1))
  let (A, B, C, D) := s
  let A := A + (← rd K (2 * rounds + 2))
  let C := C + (← rd K (2 * rounds + 3))
  return putLe32 A ++ (putLe32 B ++ (putLe32 C ++ putLe32 D))

/-- Body of the loop of `kryptos_rc6_block_decrypt` (src/kryptos_rc6.c:402-414). -/
def decStep (strict : Bool) (K : List W32) (r : Nat) (s : St) : Out St := do
  let (B, C, D, A) := s
  let u ← rotlV strict (D * ((D <<< 1) + 1)) 5
  let t ← rotlV strict (B * ((B <<< 1) + 1)) 5
  let C := (← rotrV strict (C - (← rd K (2 * r + 1))) (t.toNat % 32)) ^^^ u
  let A := (← rotrV strict (A - (← rd K (2 * r))) (u.toNat % 32)) ^^^ t
  return (A, B, C, D)

/-- `kryptos_rc6_block_decrypt` (src/kryptos_rc6.c:375-442). -/
def decBlock (strict : Bool) (rounds : Nat) (K : List W32) (block : Bytes) : Out Bytes := do
  let A ← getLe32 block 0
  let B ← getLe32 block 4
  let C ← getLe32 block 8
  let D ← getLe32 block 12
  let C := C - (← rd K (2 * rounds + 3))
  let A := A - (← rd K (2 * rounds + 2))
  let s ← forLoop (fun j => decStep strict K (rounds - j)) rounds 0 (A, B, C, D)
  let (A, B, C, D) := s
  let D := D - (← rd K 1)
  let B := B - (← rd K 0)
  return putLe32 A ++ (putLe32 B ++ (putLe32 C ++ putLe32 D))

/-- The block functions with the key schedule (src/kryptos_rc6.c:102-110 and the same lines for the other sizes). -/
def enc (strict : Bool) (ksize rounds : Nat) (key block : Bytes) : Out Bytes := do
  encBlock strict rounds (← ksched strict ksize rounds key) block
def dec (strict : Bool) (ksize rounds : Nat) (key block : Bytes) : Out Bytes := do
  decBlock strict rounds (← ksched strict ksize rounds key) block

/-- The checks of the processor (src/kryptos_rc6.c:82-101). -/
def check (ksize : Nat) (key : Bytes) (rounds : Option (BitVec 32)) : TaskResult :=
  if key.length > ksize then .keyError else
  match rounds with
  | none => .invalidParams
  | some r => if roundsOk r then .success else .invalidParams

end Kryptos.Rc6
