import Verif.Spec.MerkleDamgard
/-
  Poly1305 after RFC 8439, section 2.5, on natural numbers.
-/
namespace Kryptos.Spec.Poly1305
open MD (leNat)

/-- The prime of section 2.5. -/
def p : Nat := 2 ^ 130 - 5

/-- `clamp(r)`: `r &= 0x0ffffffc0ffffffc0ffffffc0fffffff`. -/
def clamp (r : Nat) : Nat := r &&& 0x0ffffffc0ffffffc0ffffffc0fffffff

/-- `r = le_bytes_to_num(key[0..15])`, clamped. -/
def r (key : Bytes) : Nat := clamp (leNat (key.take 16))

/-- `s = le_bytes_to_num(key[16..31])`. -/
def s (key : Bytes) : Nat := leNat (key.drop 16)

/-- Block `i` of the message, 16 bytes or less. -/
def block (msg : Bytes) (i : Nat) : Bytes := (msg.drop (16 * i)).take 16

/-- `(a + n) * r` for block `i`, where a one is put behind the bytes of the block. -/
def product (r a : Nat) (msg : Bytes) (i : Nat) : Nat := (a + leNat (block msg i ++ [1])) * r

/-- The accumulator after `i` blocks. -/
def acc (r : Nat) (msg : Bytes) : Nat → Nat
  | 0 => 0
  | i + 1 => product r (acc r msg i) msg i % p

/-- The number of blocks. -/
def count (msg : Bytes) : Nat := (msg.length + 15) / 16

/-- `poly1305_mac(msg, key)`: the sixteen low bytes of `a + s`. -/
def mac (key msg : Bytes) : Bytes :=
  (List.range 16).map fun i => BitVec.ofNat 8 ((acc (r key) msg (count msg) + s key) / 256 ^ i)

end Kryptos.Spec.Poly1305
