import Verif.Spec.MerkleDamgard
/-
  RC5-32 (Rivest, "The RC5 encryption algorithm") and RC6-32 (Rivest, Robshaw, Sidney, Yin, "The RC6 block cipher"), on words.
-/
namespace Kryptos.Spec.Rc

/-- `P_32 = Odd((e - 2) 2^32)` and `Q_32 = Odd((phi - 1) 2^32)`. -/
def P : W32 := 0xB7E15163#32
def Q : W32 := 0x9E3779B9#32

/-- State of the mixing: the two arrays, the two accumulators and the two indices. -/
structure Mix where
  S : Nat → W32
  L : Nat → W32
  A : W32
  B : W32
  i : Nat
  j : Nat

/-- One step of the mixing of `t` subkeys with `c` key words. -/
def mix (t c : Nat) (s : Mix) : Mix :=
  let A := (s.S s.i + s.A + s.B).rotateLeft 3
  let B := (s.L s.j + A + s.B).rotateLeft ((A + s.B).toNat % 32)
  ⟨fun k => if k = s.i then A else s.S k, fun k => if k = s.j then B else s.L k, A, B, (s.i + 1) % t, (s.j + 1) % c⟩

/-- The key expansion: `t` subkeys from `c` key words. -/
def expand (t c : Nat) (L : Nat → W32) : Nat → W32 :=
  (Nat.repeat (mix t c) (3 * max t c) ⟨fun k => P + BitVec.ofNat 32 k * Q, L, 0, 0, 0, 0⟩).S

/-- The key words: the bytes of the key in little endian order. -/
def keyWord (key : Bytes) (i : Nat) : W32 := ((MD.leWords 32 4 key)[i]?).getD 0

/-- RC5 encryption of two words with `r` rounds. -/
def rc5 (r : Nat) (S : Nat → W32) (a b : W32) : W32 × W32 :=
  (List.range' 1 r).foldl (fun (s : W32 × W32) i =>
    let A := (s.1 ^^^ s.2).rotateLeft (s.2.toNat % 32) + S (2 * i)
    let B := (s.2 ^^^ A).rotateLeft (A.toNat % 32) + S (2 * i + 1)
    (A, B)) (a + S 0, b + S 1)

/-- RC6 encryption of four words with `r` rounds. -/
def rc6 (r : Nat) (S : Nat → W32) (s : W32 × W32 × W32 × W32) : W32 × W32 × W32 × W32 :=
  let f (x : W32) : W32 := (x * (2 * x + 1)).rotateLeft 5
  let (A, B, C, D) := (List.range' 1 r).foldl (fun (s : W32 × W32 × W32 × W32) i =>
    let (A, B, C, D) := s
    let t := f B
    let u := f D
    (B, (C ^^^ u).rotateLeft (t.toNat % 32) + S (2 * i + 1), D, (A ^^^ t).rotateLeft (u.toNat % 32) + S (2 * i)))
    (s.1, s.2.1 + S 0, s.2.2.1, s.2.2.2 + S 1)
  (A + S (2 * r + 2), B, C + S (2 * r + 3), D)

end Kryptos.Spec.Rc
