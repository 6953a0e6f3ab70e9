import Verif.Base
/-
  TEA (D. Wheeler, R. Needham, "TEA, a tiny encryption algorithm", 1994) and XTEA (R. Needham,
  D. Wheeler, "Tea extensions", 1997), in terms of the round number instead of a running sum.
-/
namespace Kryptos.Spec

/-- The constant `⌊2^31 (√5 - 1)⌋`. -/
def teaDelta : Nat := 2654435769

/-- `(y, z)` after `n` cycles of TEA with the 128-bit key `(k0, k1, k2, k3)`. -/
def tea (k0 k1 k2 k3 : W32) (y z : W32) : Nat → W32 × W32
  | 0 => (y, z)
  | n + 1 =>
    let (y, z) := tea k0 k1 k2 k3 y z n
    let s := BitVec.ofNat 32 ((n + 1) * teaDelta)
    let y := y + ((z <<< 4 + k0) ^^^ (z + s) ^^^ (z >>> 5 + k1))
    (y, z + ((y <<< 4 + k2) ^^^ (y + s) ^^^ (y >>> 5 + k3)))

/-- The key word selected by two bits. -/
def xteaKey (k0 k1 k2 k3 : W32) (n : Nat) : W32 :=
  if n % 4 = 0 then k0 else if n % 4 = 1 then k1 else if n % 4 = 2 then k2 else k3

/-- `(y, z)` after `n` cycles of XTEA. -/
def xtea (k0 k1 k2 k3 : W32) (y z : W32) : Nat → W32 × W32
  | 0 => (y, z)
  | n + 1 =>
    let (y, z) := xtea k0 k1 k2 k3 y z n
    let s := BitVec.ofNat 32 (n * teaDelta)
    let s' := BitVec.ofNat 32 ((n + 1) * teaDelta)
    let y := y + (((z <<< 4 ^^^ z >>> 5) + z) ^^^ (s + xteaKey k0 k1 k2 k3 s.toNat))
    (y, z + (((y <<< 4 ^^^ y >>> 5) + y) ^^^ (s' + xteaKey k0 k1 k2 k3 (s'.toNat / 2 ^ 11))))

end Kryptos.Spec
