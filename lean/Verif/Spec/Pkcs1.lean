import Verif.Base
import Verif.Spec.MerkleDamgard
/-
  The encodings of PKCS #1 (RFC 8017) over a hash function with `h` bytes: MGF1 (appendix B.2.1), EME-OAEP (section 7.1.1) and
  EMSA-PSS (section 9.1.1), the latter with a whole byte cleared at the left when there is one to spare.
-/
namespace Kryptos.Spec.Pkcs1
open Kryptos

def xor (a b : Bytes) : Bytes := List.zipWith (· ^^^ ·) a b

/-- MGF1: the hashes of the seed followed by a counter of four bytes, cut to the length. -/
def mgf1 (H : Bytes → Bytes) (h : Nat) (seed : Bytes) (len : Nat) : Bytes :=
  ((List.range ((len + h - 1) / h)).flatMap fun c => H (seed ++ Spec.MD.be 4 c)).take len

/-- `DB = lHash || PS || 0x01 || M`. -/
def oaepDb (H : Bytes → Bytes) (h k : Nat) (label m : Bytes) : Bytes :=
  H label ++ List.replicate (k - m.length - 2 * h - 2) 0#8 ++ [1#8] ++ m

/-- `EM = 0x00 || maskedSeed || maskedDB`. -/
def mask (H : Bytes → Bytes) (h k : Nat) (seed db : Bytes) : Bytes :=
  let maskedDb := xor db (mgf1 H h seed (k - h - 1))
  [0#8] ++ xor seed (mgf1 H h maskedDb h) ++ maskedDb

def oaep (H : Bytes → Bytes) (h k : Nat) (label seed m : Bytes) : Bytes := mask H h k seed (oaepDb H h k label m)

/-- `EM = maskedDB || H || 0xbc`. -/
def pss (H : Bytes → Bytes) (h : Nat) (m salt : Bytes) (emLen : Nat) : Bytes :=
  let hh := H (List.replicate 8 0#8 ++ H m ++ salt)
  let ps := emLen - salt.length - h - 2
  let masked := xor (List.replicate ps 0#8 ++ [1#8] ++ salt) (mgf1 H h hh (emLen - h - 1))
  (if ps = 0 then masked else [0#8] ++ masked.drop 1) ++ hh ++ [0xBC#8]

end Kryptos.Spec.Pkcs1
