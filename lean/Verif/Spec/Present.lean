import Verif.Base
/-
  PRESENT as published (Bogdanov et al., CHES 2007): a state of 64 bits, a key register of 80 or 128 bits, the substitution of
  groups of four bits and the permutation of bits `i ↦ 16 i mod 63`.
-/
namespace Kryptos.Spec.Present

/-- The S-box of the publication. -/
def sbox (x : BitVec 4) : BitVec 4 :=
  match x.toNat with
  | 0 => 0xC | 1 => 0x5 | 2 => 0x6 | 3 => 0xB | 4 => 0x9 | 5 => 0x0 | 6 => 0xA | 7 => 0xD
  | 8 => 0x3 | 9 => 0xE | 10 => 0xF | 11 => 0x8 | 12 => 0x4 | 13 => 0x7 | 14 => 0x1 | _ => 0x2

/-- Where bit `i` goes. -/
def perm (i : Nat) : Nat := if i = 63 then 63 else 16 * i % 63

/-- The layers: every group of four bits goes through the S-box; bit `i` goes to bit `perm i`. -/
def sBoxLayer (s : W64) : W64 :=
  (List.range' 0 16).foldl (fun v i => v ||| (sbox (s.extractLsb' (4 * i) 4)).setWidth 64 <<< (4 * i)) 0
def pLayer (s : W64) : W64 :=
  (List.range' 0 64).foldl (fun v i => v ||| (s.extractLsb' i 1).setWidth 64 <<< perm i) 0

/-- The update of the register of 80 bits for round `r`: rotate by 61, replace bits 79 to 76, add the counter to bits 19 to 15. -/
def update80 (r : Nat) (R : BitVec 80) : BitVec 80 :=
  let R := R.rotateLeft 61
  let R : BitVec 80 := (sbox (R.extractLsb' 76 4)) ++ (R.extractLsb' 0 76)
  R ^^^ (BitVec.ofNat 80 r <<< 15)

/-- The update of the register of 128 bits: rotate by 61, replace bits 127 to 124 and 123 to 120, add the counter to bits 66 to 62. -/
def update128 (r : Nat) (R : BitVec 128) : BitVec 128 :=
  let R := R.rotateLeft 61
  let R : BitVec 128 := (sbox (R.extractLsb' 124 4)) ++ (sbox (R.extractLsb' 120 4)) ++ (R.extractLsb' 0 120)
  R ^^^ (BitVec.ofNat 128 r <<< 62)

/-- The register after `n` updates, and the round key of round `n + 1`: the leftmost 64 bits. -/
def reg80 (R : BitVec 80) : Nat → BitVec 80
  | 0 => R
  | n + 1 => update80 (n + 1) (reg80 R n)
def reg128 (R : BitVec 128) : Nat → BitVec 128
  | 0 => R
  | n + 1 => update128 (n + 1) (reg128 R n)

/-- 31 rounds and the last round key. -/
def encrypt (K : Nat → W64) (s : W64) : W64 :=
  (List.range' 0 31).foldl (fun s i => pLayer (sBoxLayer (s ^^^ K i))) s ^^^ K 31

def encrypt80 (key : BitVec 80) (s : W64) : W64 := encrypt (fun i => (reg80 key i).extractLsb' 16 64) s
def encrypt128 (key : BitVec 128) (s : W64) : W64 := encrypt (fun i => (reg128 key i).extractLsb' 64 64) s

end Kryptos.Spec.Present
