import Verif.Spec.MerkleDamgard
import Verif.Words
/-
  NOEKEON: J. Daemen, M. Peeters, G. Van Assche, V. Rijmen, "Nessie Proposal: NOEKEON" (2000), section 2.
-/
namespace Kryptos.Spec.Noekeon
open Spec.MD

/-- The round constants: `RC[0] = 0x80`; the next one is the product by `x` modulo `x^8 + x^4 + x^3 + x + 1`. -/
def RC : Nat → BitVec 32
  | 0 => 0x80
  | i + 1 => if RC i &&& 0x80#32 = 0 then RC i <<< 1 else (RC i <<< 1) ^^^ 0x11B#32

/-- The linear map within `Theta`: `temp ^= (temp >>> 8) ^ (temp <<< 8)`, rotations. -/
def mu (t : BitVec 32) : BitVec 32 := t ^^^ t.rotateRight 8 ^^^ t.rotateLeft 8

def xor (k a : Four 32) : Four 32 := ⟨a.a ^^^ k.a, a.b ^^^ k.b, a.c ^^^ k.c, a.d ^^^ k.d⟩

/-- `Theta`: the even columns are added to the odd ones, the key, and the odd columns to the even ones. -/
def Theta (k a : Four 32) : Four 32 :=
  let even (a : Four 32) : Four 32 := ⟨a.a, a.b ^^^ mu (a.a ^^^ a.c), a.c, a.d ^^^ mu (a.a ^^^ a.c)⟩
  let odd (a : Four 32) : Four 32 := ⟨a.a ^^^ mu (a.b ^^^ a.d), a.b, a.c ^^^ mu (a.b ^^^ a.d), a.d⟩
  odd (xor k (even a))

/-- `Gamma`: the nonlinear step, the interchange of `a[0]` and `a[3]` with a linear step, the nonlinear step. -/
def Gamma (a : Four 32) : Four 32 :=
  let nl (a : Four 32) : Four 32 :=
    let a1 := a.b ^^^ (~~~ a.d &&& ~~~ a.c)
    ⟨a.a ^^^ (a.c &&& a1), a1, a.c, a.d⟩
  let swap (a : Four 32) : Four 32 := ⟨a.d, a.b, a.c ^^^ (a.d ^^^ a.b ^^^ a.a), a.a⟩
  nl (swap (nl a))

def Pi1 (a : Four 32) : Four 32 := ⟨a.a, a.b.rotateLeft 1, a.c.rotateLeft 5, a.d.rotateLeft 2⟩
def Pi2 (a : Four 32) : Four 32 := ⟨a.a, a.b.rotateRight 1, a.c.rotateRight 5, a.d.rotateRight 2⟩

/-- `Round(Key, a, Constant1, Constant2)`. -/
def Round (k : Four 32) (c1 c2 : BitVec 32) (a : Four 32) : Four 32 :=
  Pi2 (Gamma (Pi1 (xor ⟨c2, 0, 0, 0⟩ (Theta k (xor ⟨c1, 0, 0, 0⟩ a)))))

/-- `NoekeonEncrypt` with the 16 rounds. -/
def encryptState (k a : Four 32) : Four 32 :=
  Theta k (xor ⟨RC 16, 0, 0, 0⟩ ((List.range 16).foldl (fun a i => Round k (RC i) 0 a) a))

/-- `NoekeonDecrypt`: the key is changed by `Theta` with the null key; the constants are used in the reverse order. -/
def decryptState (k a : Four 32) : Four 32 :=
  let k := Theta ⟨0, 0, 0, 0⟩ k
  xor ⟨RC 0, 0, 0, 0⟩ (Theta k ((List.range 16).foldl (fun a i => Round k 0 (RC (16 - i)) a) a))

/-- Bytes and words. -/
def ofBytes (b : List (BitVec 8)) : Four 32 :=
  let w := fun i => (beWords 32 4 b).getD i 0
  ⟨w 0, w 1, w 2, w 3⟩
def toBytes (a : Four 32) : List (BitVec 8) := [a.a, a.b, a.c, a.d].flatMap fun x => be 4 x.toNat

/-- The working key is the cipher key in the direct mode and its encryption with the null key in the indirect mode. -/
def direct (key : List (BitVec 8)) : Four 32 := ofBytes key
def indirect (key : List (BitVec 8)) : Four 32 := encryptState ⟨0, 0, 0, 0⟩ (ofBytes key)

def encrypt (k : Four 32) (block : List (BitVec 8)) : List (BitVec 8) := toBytes (encryptState k (ofBytes block))
def decrypt (k : Four 32) (block : List (BitVec 8)) : List (BitVec 8) := toBytes (decryptState k (ofBytes block))

end Kryptos.Spec.Noekeon
