import Mathlib.Algebra.Polynomial.Basic
import Mathlib.Data.ZMod.Defs
import Verif.Base
/-
  GHASH and GCM as in NIST SP 800-38D, on 128-bit blocks whose leftmost bit is bit 0.
-/
namespace Kryptos.Spec.Gcm

/-- The block R = 11100001 ‖ 0^120 (SP 800-38D, 6.3). -/
def R : BitVec 128 := 0xE1000000000000000000000000000000#128

/-- One step of Algorithm 1 (SP 800-38D, 6.3), for bit `i` of `X`. -/
def mulStep (X : BitVec 128) (s : BitVec 128 × BitVec 128) (i : Nat) : BitVec 128 × BitVec 128 :=
  (if X.getMsbD i then s.1 ^^^ s.2 else s.1,
   if s.2.getLsbD 0 then (s.2 >>> 1) ^^^ R else s.2 >>> 1)

/-- Multiplication of blocks, Algorithm 1 (SP 800-38D, 6.3). -/
def mul (X Y : BitVec 128) : BitVec 128 := ((List.range 128).foldl (mulStep X) (0, Y)).1

/-- The polynomial over GF(2) represented by a block: bit `i` from the left is the coefficient
of `x^i`. -/
noncomputable def poly (b : BitVec 128) : Polynomial (ZMod 2) :=
  ∑ i ∈ Finset.range 128, if b.getMsbD i then Polynomial.X ^ i else 0

/-- The GCM field polynomial. -/
noncomputable def modulus : Polynomial (ZMod 2) :=
  Polynomial.X ^ 128 + Polynomial.X ^ 7 + Polynomial.X ^ 2 + Polynomial.X + 1

/-- GHASH_H, Algorithm 2 (SP 800-38D, 6.4). -/
def ghash (H : BitVec 128) (xs : List (BitVec 128)) : BitVec 128 :=
  xs.foldl (fun y x => mul (y ^^^ x) H) 0

/-- Value of a 16-byte string as a block, most significant byte first. -/
def block (s : Bytes) : BitVec 128 := s.foldl (fun acc b => (acc <<< 8) ||| b.setWidth 128) 0#128

/-- The 16 bytes of a block. -/
def bytes (b : BitVec 128) : Bytes :=
  (List.range 16).map fun i => (b >>> (8 * (15 - i))).setWidth 8

/-- Cut a string into 16-byte blocks, the last one completed with zero bytes. -/
def blocks (s : Bytes) : List (BitVec 128) :=
  if _h : s = [] then []
  else block (s.take 16 ++ List.replicate (16 - s.length) 0#8) :: blocks (s.drop 16)
termination_by s.length
decreasing_by
  have := List.length_pos_iff.mpr _h
  simp; omega

/-- The length block [len(A)]_64 ‖ [len(C)]_64 (bit lengths). -/
def lengths (a c : Bytes) : BitVec 128 :=
  ((BitVec.ofNat 64 (8 * a.length)).setWidth 128 <<< 64) |||
    (BitVec.ofNat 64 (8 * c.length)).setWidth 128

/-- GHASH_H(A ‖ 0^v ‖ C ‖ 0^u ‖ [len(A)]_64 ‖ [len(C)]_64), step 5 of Algorithm 4. -/
def S (H : BitVec 128) (a c : Bytes) : BitVec 128 :=
  ghash H (blocks a ++ blocks c ++ [lengths a c])

/-- The GCM tag for a 128-bit IV (SP 800-38D, Algorithm 4, steps 2, 5 and 6): with
`H = E(0^128)` and `J0 = GHASH_H(IV ‖ 0^64 ‖ [len(IV)]_64)`, the tag is `S xor E(J0)`. -/
def tag (E : Bytes → Bytes) (iv a c : Bytes) : Bytes :=
  let H := block (E (List.replicate 16 0#8))
  List.zipWith (· ^^^ ·) (bytes (S H a c)) (E (bytes (S H [] iv)))

end Kryptos.Spec.Gcm
