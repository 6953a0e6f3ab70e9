import Verif.Spec.MerkleDamgard
/-
  SipHash-c-d (J.-P. Aumasson, D. J. Bernstein, "SipHash: a fast short-input PRF", 2012, section 2).
-/
namespace Kryptos.Spec.Sip
open MD

abbrev State := W64 × W64 × W64 × W64

/-- Figure 2.1: the two halves of a round. -/
def sipRound (s : State) : State :=
  let (v0, v1, v2, v3) := s
  let v0 := v0 + v1
  let v1 := v1.rotateLeft 13
  let v1 := v1 ^^^ v0
  let v0 := v0.rotateLeft 32
  let v2 := v2 + v3
  let v3 := v3.rotateLeft 16
  let v3 := v3 ^^^ v2
  let v0 := v0 + v3
  let v3 := v3.rotateLeft 21
  let v3 := v3 ^^^ v0
  let v2 := v2 + v1
  let v1 := v1.rotateLeft 17
  let v1 := v1 ^^^ v2
  let v2 := v2.rotateLeft 32
  (v0, v1, v2, v3)

/-- The words `m_0, ..., m_(w-1)`: the message, null bytes, and a last byte encoding the length modulo 256,
so that the whole is a multiple of 8 bytes. -/
def parse (m : Bytes) : List W64 :=
  leWords 64 8 (m ++ List.replicate (7 - m.length % 8) 0#8 ++ [BitVec.ofNat 8 m.length])

def compress (c : Nat) (s : State) (m : W64) : State :=
  let (v0, v1, v2, v3) := s
  let (v0, v1, v2, v3) := Nat.repeat sipRound c (v0, v1, v2, v3 ^^^ m)
  (v0 ^^^ m, v1, v2, v3)

/-- SipHash-c-d with a key of 16 bytes. -/
def sipHash (c d : Nat) (key m : Bytes) : W64 :=
  let k0 := BitVec.ofNat 64 (leNat (key.take 8))
  let k1 := BitVec.ofNat 64 (leNat (key.drop 8))
  let s : State := (k0 ^^^ 0x736f6d6570736575#64, k1 ^^^ 0x646f72616e646f6d#64, k0 ^^^ 0x6c7967656e657261#64,
    k1 ^^^ 0x7465646279746573#64)
  let (v0, v1, v2, v3) := (parse m).foldl (compress c) s
  let (v0, v1, v2, v3) := Nat.repeat sipRound d (v0, v1, v2 ^^^ 0xff#64, v3)
  v0 ^^^ v1 ^^^ v2 ^^^ v3

/-- The key of 16 bytes made of a key of any size: byte `i` is the exclusive or of the bytes of the given key
whose position is `i` modulo 16. -/
def foldKey (key : Bytes) : Bytes :=
  (List.range 16).map fun i => ((key.zipIdx.filter fun p => p.2 % 16 = i).map (·.1)).foldl (· ^^^ ·) 0#8

end Kryptos.Spec.Sip
