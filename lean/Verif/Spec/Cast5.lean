import Verif.Words
/-
  CAST-128 (RFC 2144).  The eight boxes, which have no short description, are a parameter: `S b i` is entry `i` of the box number `b`.
-/
namespace Kryptos.Spec.Cast5

abbrev Boxes := Nat → Nat → W32

/-- Four bytes from position `i` on, and the byte at position `i`, of the sixteen bytes of four words. -/
def word (x : List W32) (i : Nat) : W32 := x.getD (i / 4) 0
def byte (x : List W32) (i : Nat) : Nat := (x.getD (i / 4) 0).toNat / 256 ^ (3 - i % 4) % 256

/-- z0 .. zF from x0 .. xF. -/
def z (S : Boxes) (x : List W32) : List W32 :=
  let z := [word x 0x0 ^^^ S 5 (byte x 0xD) ^^^ S 6 (byte x 0xF) ^^^ S 7 (byte x 0xC) ^^^ S 8 (byte x 0xE) ^^^ S 7 (byte x 0x8)]
  let z := z ++ [word x 0x8 ^^^ S 5 (byte z 0x0) ^^^ S 6 (byte z 0x2) ^^^ S 7 (byte z 0x1) ^^^ S 8 (byte z 0x3) ^^^ S 8 (byte x 0xA)]
  let z := z ++ [word x 0xC ^^^ S 5 (byte z 0x7) ^^^ S 6 (byte z 0x6) ^^^ S 7 (byte z 0x5) ^^^ S 8 (byte z 0x4) ^^^ S 5 (byte x 0x9)]
  z ++ [word x 0x4 ^^^ S 5 (byte z 0xA) ^^^ S 6 (byte z 0x9) ^^^ S 7 (byte z 0xB) ^^^ S 8 (byte z 0x8) ^^^ S 6 (byte x 0xB)]

/-- x0 .. xF from z0 .. zF. -/
def x (S : Boxes) (z : List W32) : List W32 :=
  let x := [word z 0x8 ^^^ S 5 (byte z 0x5) ^^^ S 6 (byte z 0x7) ^^^ S 7 (byte z 0x4) ^^^ S 8 (byte z 0x6) ^^^ S 7 (byte z 0x0)]
  let x := x ++ [word z 0x0 ^^^ S 5 (byte x 0x0) ^^^ S 6 (byte x 0x2) ^^^ S 7 (byte x 0x1) ^^^ S 8 (byte x 0x3) ^^^ S 8 (byte z 0x2)]
  let x := x ++ [word z 0x4 ^^^ S 5 (byte x 0x7) ^^^ S 6 (byte x 0x6) ^^^ S 7 (byte x 0x5) ^^^ S 8 (byte x 0x4) ^^^ S 5 (byte z 0x1)]
  x ++ [word z 0xC ^^^ S 5 (byte x 0xA) ^^^ S 6 (byte x 0x9) ^^^ S 7 (byte x 0xB) ^^^ S 8 (byte x 0x8) ^^^ S 6 (byte z 0x3)]

/-- K1 to K4 (and K17 to K20). -/
def k1 (S : Boxes) (z : List W32) : List W32 :=
  [S 5 (byte z 0x8) ^^^ S 6 (byte z 0x9) ^^^ S 7 (byte z 0x7) ^^^ S 8 (byte z 0x6) ^^^ S 5 (byte z 0x2),
   S 5 (byte z 0xA) ^^^ S 6 (byte z 0xB) ^^^ S 7 (byte z 0x5) ^^^ S 8 (byte z 0x4) ^^^ S 6 (byte z 0x6),
   S 5 (byte z 0xC) ^^^ S 6 (byte z 0xD) ^^^ S 7 (byte z 0x3) ^^^ S 8 (byte z 0x2) ^^^ S 7 (byte z 0x9),
   S 5 (byte z 0xE) ^^^ S 6 (byte z 0xF) ^^^ S 7 (byte z 0x1) ^^^ S 8 (byte z 0x0) ^^^ S 8 (byte z 0xC)]

/-- K5 to K8. -/
def k5 (S : Boxes) (x : List W32) : List W32 :=
  [S 5 (byte x 0x3) ^^^ S 6 (byte x 0x2) ^^^ S 7 (byte x 0xC) ^^^ S 8 (byte x 0xD) ^^^ S 5 (byte x 0x8),
   S 5 (byte x 0x1) ^^^ S 6 (byte x 0x0) ^^^ S 7 (byte x 0xE) ^^^ S 8 (byte x 0xF) ^^^ S 6 (byte x 0xD),
   S 5 (byte x 0x7) ^^^ S 6 (byte x 0x6) ^^^ S 7 (byte x 0x8) ^^^ S 8 (byte x 0x9) ^^^ S 7 (byte x 0x3),
   S 5 (byte x 0x5) ^^^ S 6 (byte x 0x4) ^^^ S 7 (byte x 0xA) ^^^ S 8 (byte x 0xB) ^^^ S 8 (byte x 0x7)]

/-- K9 to K12. -/
def k9 (S : Boxes) (z : List W32) : List W32 :=
  [S 5 (byte z 0x3) ^^^ S 6 (byte z 0x2) ^^^ S 7 (byte z 0xC) ^^^ S 8 (byte z 0xD) ^^^ S 5 (byte z 0x9),
   S 5 (byte z 0x1) ^^^ S 6 (byte z 0x0) ^^^ S 7 (byte z 0xE) ^^^ S 8 (byte z 0xF) ^^^ S 6 (byte z 0xC),
   S 5 (byte z 0x7) ^^^ S 6 (byte z 0x6) ^^^ S 7 (byte z 0x8) ^^^ S 8 (byte z 0x9) ^^^ S 7 (byte z 0x2),
   S 5 (byte z 0x5) ^^^ S 6 (byte z 0x4) ^^^ S 7 (byte z 0xA) ^^^ S 8 (byte z 0xB) ^^^ S 8 (byte z 0x6)]

/-- K13 to K16. -/
def k13 (S : Boxes) (x : List W32) : List W32 :=
  [S 5 (byte x 0x8) ^^^ S 6 (byte x 0x9) ^^^ S 7 (byte x 0x7) ^^^ S 8 (byte x 0x6) ^^^ S 5 (byte x 0x3),
   S 5 (byte x 0xA) ^^^ S 6 (byte x 0xB) ^^^ S 7 (byte x 0x5) ^^^ S 8 (byte x 0x4) ^^^ S 6 (byte x 0x7),
   S 5 (byte x 0xC) ^^^ S 6 (byte x 0xD) ^^^ S 7 (byte x 0x3) ^^^ S 8 (byte x 0x2) ^^^ S 7 (byte x 0x8),
   S 5 (byte x 0xE) ^^^ S 6 (byte x 0xF) ^^^ S 7 (byte x 0x1) ^^^ S 8 (byte x 0x0) ^^^ S 8 (byte x 0xD)]

/-- The next x0 .. xF after sixteen keys, and these keys. -/
def x' (S : Boxes) (w : List W32) : List W32 := x S (z S (x S (z S w)))
def keys (S : Boxes) (w : List W32) : List W32 := k1 S (z S w) ++ k5 S (x S (z S w)) ++ k9 S (z S (x S (z S w))) ++ k13 S (x' S w)

/-- The masking keys, and the rotation keys, which have five bits. -/
def masks (S : Boxes) (w : List W32) : List W32 := keys S w
def rotations (S : Boxes) (w : List W32) : List Nat := (keys S (x' S w)).map fun k => k.toNat % 32

def Ia (I : W32) : Nat := I.toNat / 2 ^ 24
def Ib (I : W32) : Nat := I.toNat / 2 ^ 16 % 256
def Ic (I : W32) : Nat := I.toNat / 2 ^ 8 % 256
def Id (I : W32) : Nat := I.toNat % 256

/-- The round function of round `i` (from 1 on), of which there are three types. -/
def f (S : Boxes) (i : Nat) (D km : W32) (kr : Nat) : W32 :=
  if i % 3 = 1 then
    let I := (km + D).rotateLeft kr
    ((S 1 (Ia I) ^^^ S 2 (Ib I)) - S 3 (Ic I)) + S 4 (Id I)
  else if i % 3 = 2 then
    let I := (km ^^^ D).rotateLeft kr
    ((S 1 (Ia I) - S 2 (Ib I)) + S 3 (Ic I)) ^^^ S 4 (Id I)
  else
    let I := (km - D).rotateLeft kr
    ((S 1 (Ia I) + S 2 (Ib I)) ^^^ S 3 (Ic I)) - S 4 (Id I)

/-- Rounds with the keys `Km i` and `Kr i`, counted from 1 on, and the exchange of the halves at the end. -/
def rounds (S : Boxes) (Km : Nat → W32) (Kr : Nat → Nat) (order : List Nat) (b : W32 × W32) : W32 × W32 :=
  let c := order.foldl (fun b i => (b.2, b.1 ^^^ f S i b.2 (Km i) (Kr i))) b
  (c.2, c.1)

/-- Twelve rounds for keys up to 80 bits, sixteen for longer ones. -/
def number (bytes : Nat) : Nat := if bytes ≤ 10 then 12 else 16

/-- The words of a key, filled up with zeros. -/
def keyWords (key : Bytes) : List W32 :=
  (List.range 4).map fun i => BitVec.ofNat 32 ((List.range 4).foldl (fun w j => 256 * w + (key.getD (4 * i + j) 0).toNat) 0)

def encrypt (S : Boxes) (key : Bytes) : W32 × W32 → W32 × W32 :=
  rounds S (fun i => (masks S (keyWords key)).getD (i - 1) 0) (fun i => (rotations S (keyWords key)).getD (i - 1) 0)
    (List.range' 1 (number key.length))
def decrypt (S : Boxes) (key : Bytes) : W32 × W32 → W32 × W32 :=
  rounds S (fun i => (masks S (keyWords key)).getD (i - 1) 0) (fun i => (rotations S (keyWords key)).getD (i - 1) 0)
    (List.range' 1 (number key.length)).reverse

end Kryptos.Spec.Cast5
