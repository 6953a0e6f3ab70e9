import Verif.Model.Endian
import Verif.Model.KeyLoad
/-
  Model of src/kryptos_feal.c.
-/
namespace Kryptos.Feal
open KeyLoad (ldUserKey)

/-- `kryptos_feal_get_byte_from_u32`, `kryptos_feal_get_byte_from_u16` (src/kryptos_feal.c:22-24). -/
def byte32 (w : W32) (n : Nat) : Byte := ((w >>> (24 - 8 * n)) &&& 0xFF#32).setWidth 8
def byte16 (w : W16) (n : Nat) : Byte := ((w >>> (8 - 8 * n)) &&& 0xFF#16).setWidth 8

/-- `kryptos_feal_Sd` (src/kryptos_feal.c:94-97) with `kryptos_feal_rotl2` (line 20). -/
def Sd (T U : Byte) (d : Nat) : Byte :=
  let T := T + U + BitVec.ofNat 8 d
  T <<< 2 ||| T >>> 6

/-- The word of four bytes (src/kryptos_feal.c:113, 257). -/
def word (a b c d : Byte) : W32 :=
  a.setWidth 32 <<< 24 ||| b.setWidth 32 <<< 16 ||| c.setWidth 32 <<< 8 ||| d.setWidth 32

/-- `kryptos_feal_fK` (src/kryptos_feal.c:99-114). -/
def fK (V W : W32) : W32 :=
  let t1 := byte32 V 0 ^^^ byte32 V 1
  let t2 := byte32 V 2 ^^^ byte32 V 3
  let U1 := Sd t1 (t2 ^^^ byte32 W 0) 1
  let U2 := Sd t2 (U1 ^^^ byte32 W 1) 0
  let U0 := Sd (byte32 V 0) (U1 ^^^ byte32 W 2) 0
  let U3 := Sd (byte32 V 3) (U2 ^^^ byte32 W 3) 1
  word U0 U1 U2 U3

/-- `kryptos_feal_f` (src/kryptos_feal.c:243-258). -/
def f (V : W32) (W : W16) : W32 :=
  let t1 := (byte32 V 0 ^^^ byte32 V 1) ^^^ byte16 W 0
  let t2 := (byte32 V 2 ^^^ byte32 V 3) ^^^ byte16 W 1
  let U1 := Sd t1 t2 1
  let U2 := Sd t2 U1 0
  let U0 := Sd (byte32 V 0) U1 0
  let U3 := Sd (byte32 V 3) U2 1
  word U0 U1 U2 U3

/-- State of the loop of `kryptos_feal_expand_key`: the array of subkeys and the last elements of `A`, `B`, `D` (of which the loop
uses no other). -/
structure Ex where
  K : List W16
  A : W32
  B : W32
  D : W32

/-- Body of the loop of `kryptos_feal_expand_key` (src/kryptos_feal.c:154-161); the loop stops before the arrays `A`, `B`, `D` of 801
elements end, `r` being at most 400. -/
def exStep (r : Nat) (s : Ex) : Out Ex := do
  let B := fK s.A (s.B ^^^ s.D)
  let K ← wr s.K ((r - 1) * 2) ((byte32 B 0).setWidth 16 <<< 8 ||| (byte32 B 1).setWidth 16)
  let K ← wr K ((r - 1) * 2 + 1) ((byte32 B 2).setWidth 16 <<< 8 ||| (byte32 B 3).setWidth 16)
  return ⟨K, s.B, B, s.A⟩

/-- `kryptos_feal_expand_key` (src/kryptos_feal.c:134-169), with the loader (lines 116-132) and the array of 801 zeros. -/
def expandKey (rounds : Nat) (key : Bytes) : Out (List W16) := do
  let u := ldUserKey 4 2 key
  let nr := (rounds + 8) / 2 + (rounds + 8) % 2
  let s ← forLoop exStep nr 1 ⟨List.replicate 801 0, ← rd u 0, ← rd u 1, 0⟩
  return s.K

/-- Two subkeys as a word (for instance src/kryptos_feal.c:182-183). -/
def pair (K : List W16) (i : Nat) : Out W32 := do
  return (← rd K i).setWidth 32 <<< 16 ||| (← rd K (i + 1)).setWidth 32

/-- Body of the loop of `kryptos_feal_block_encrypt` (src/kryptos_feal.c:191-192).  Only the last elements of `L` and `R`, of 801
elements, are used; `r` is at most 792. -/
def encStep (K : List W16) (r : Nat) (s : W32 × W32) : Out (W32 × W32) := do
  return (s.2, s.1 ^^^ f s.2 (← rd K (r - 1)))

/-- `kryptos_feal_block_encrypt` (src/kryptos_feal.c:171-205). -/
def encBlock (rounds : Nat) (K : List W16) (block : Bytes) : Out Bytes := do
  let L ← getBe32 block 0
  let R ← getBe32 block 4
  let L := L ^^^ (← pair K rounds)
  let R := R ^^^ (← pair K (rounds + 2))
  let R := R ^^^ L
  let s ← forLoop (encStep K) rounds 1 (L, R)
  let L := s.1 ^^^ s.2
  let R := s.2 ^^^ (← pair K (rounds + 4))
  let L := L ^^^ (← pair K (rounds + 6))
  return putBe32 R ++ putBe32 L

/-- Body of the loop of `kryptos_feal_block_decrypt` (src/kryptos_feal.c:224-225). -/
def decStep (K : List W16) (r : Nat) (s : W32 × W32) : Out (W32 × W32) := do
  return (s.2 ^^^ f s.1 (← rd K (r - 1)), s.1)

/-- `kryptos_feal_block_decrypt` (src/kryptos_feal.c:207-241). -/
def decBlock (rounds : Nat) (K : List W16) (block : Bytes) : Out Bytes := do
  let L ← getBe32 block 4
  let R ← getBe32 block 0
  let L := L ^^^ (← pair K (rounds + 6))
  let R := R ^^^ (← pair K (rounds + 4))
  let L := L ^^^ R
  let s ← forLoop (fun j => decStep K (rounds - j)) rounds 0 (L, R)
  let R := s.2 ^^^ s.1
  let L := s.1 ^^^ (← pair K rounds)
  let R := R ^^^ (← pair K (rounds + 2))
  return putBe32 L ++ putBe32 R

/-- The block functions with the key schedule (src/kryptos_feal.c:82-89). -/
def enc (rounds : Nat) (key block : Bytes) : Out Bytes := do encBlock rounds (← expandKey rounds key) block
def dec (rounds : Nat) (key block : Bytes) : Out Bytes := do decBlock rounds (← expandKey rounds key) block

/-- The checks of the number of rounds (src/kryptos_feal.c:68-80): the `int` is converted to `size_t`, of 64 bits here. -/
def roundsOk (rounds : BitVec 32) : Bool :=
  let r : W64 := rounds.signExtend 64
  !(decide (r.toNat ≥ 801 - 8) || decide (r.toNat < 1))

end Kryptos.Feal
