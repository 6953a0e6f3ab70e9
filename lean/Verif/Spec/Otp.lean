import Verif.Spec.Kdf
import Verif.Spec.MerkleDamgard
/-
  HOTP (RFC 4226) and TOTP (RFC 6238), transcribed from the documents for an arbitrary hash function.
-/
namespace Kryptos.Spec

/-- RFC 4226, section 5.3, dynamic truncation: the low-order four bits of the last byte are an offset;
the four bytes there, as a big-endian number, with the most significant bit masked. -/
def dynTrunc (s : Bytes) : Option Nat :=
  s.getLast?.map fun l => MD.beNat ((s.drop (l.toNat % 16)).take 4) % 2 ^ 31

/-- RFC 4226, section 5.3: `HOTP(K, C)` with `digits` digits; the counter is an 8-byte string, most
significant byte first (section 5.1). -/
def hotp (F : Bytes → Bytes) (B : Nat) (K : Bytes) (C digits : Nat) : Option Nat :=
  (dynTrunc (hmac F B K (MD.be 8 C))).map (· % 10 ^ digits)

/-- RFC 6238, section 4.2: the number of time steps between `T0` and the current time. -/
def timeStep (now T0 X : Nat) : Nat := (now - T0) / X

end Kryptos.Spec
