import Verif.Words
/-
  FEAL-N with a key of 64 bits: S. Miyaguchi, "The FEAL Cipher Family", CRYPTO 1990, section 2.  Blocks are rows of bytes.
-/
namespace Kryptos.Spec.Feal

/-- `S_d(x, y) = Rot2((x + y + d) mod 256)`: the rotation by two bits to the left. -/
def S (d : Nat) (x y : BitVec 8) : BitVec 8 := (x + y + BitVec.ofNat 8 d).rotateLeft 2

/-- The bytes of a row. -/
def row (a : Four 8) : List (BitVec 8) := [a.a, a.b, a.c, a.d]

def xor (a b : Four 8) : Four 8 := ⟨a.a ^^^ b.a, a.b ^^^ b.b, a.c ^^^ b.c, a.d ^^^ b.d⟩

/-- The function `f` of a half and a subkey of two bytes. -/
def f (α : Four 8) (β : BitVec 8 × BitVec 8) : Four 8 :=
  let f1 := α.b ^^^ β.1 ^^^ α.a
  let f2 := α.c ^^^ β.2 ^^^ α.d
  let f1 := S 1 f1 f2
  let f2 := S 0 f2 f1
  ⟨S 0 α.a f1, f1, f2, S 1 α.d f2⟩

/-- The function `f_K` of the key schedule. -/
def fK (α β : Four 8) : Four 8 :=
  let f1 := α.b ^^^ α.a
  let f2 := α.c ^^^ α.d
  let f1 := S 1 f1 (f2 ^^^ β.a)
  let f2 := S 0 f2 (f1 ^^^ β.b)
  ⟨S 0 α.a (f1 ^^^ β.c), f1, f2, S 1 α.d (f2 ^^^ β.d)⟩

/-- The key schedule for the key `(K_L, K_R)`: `(A_r, B_r, D_r)` with `A_0 = K_L`, `B_0 = K_R`, `D_0 = 0`. -/
def schedule (KL KR : Four 8) : Nat → Four 8 × Four 8 × Four 8
  | 0 => (KL, KR, ⟨0, 0, 0, 0⟩)
  | r + 1 =>
    let (A, B, D) := schedule KL KR r
    (B, fK A (xor B D), A)

/-- The subkeys: `K_(2(r-1))` and `K_(2(r-1)+1)` are the left and the right half of `B_r`. -/
def subkey (KL KR : Four 8) (i : Nat) : BitVec 8 × BitVec 8 :=
  let B := (schedule KL KR (i / 2 + 1)).2.1
  if i % 2 = 0 then (B.a, B.b) else (B.c, B.d)

/-- Two consecutive subkeys. -/
def four (KL KR : Four 8) (i : Nat) : Four 8 :=
  let x := subkey KL KR i
  let y := subkey KL KR (i + 1)
  ⟨x.1, x.2, y.1, y.2⟩

/-- The rounds: `L_r = R_(r-1)`, `R_r = L_(r-1) xor f(R_(r-1), K_(r-1))`. -/
def rounds (KL KR : Four 8) (L0 R0 : Four 8) : Nat → Four 8 × Four 8
  | 0 => (L0, R0)
  | r + 1 =>
    let (L, R) := rounds KL KR L0 R0 r
    (R, xor L (f R (subkey KL KR r)))

/-- The encryption of `(L, R)` with `N` rounds. -/
def encrypt (N : Nat) (KL KR L R : Four 8) : Four 8 × Four 8 :=
  let L := xor L (four KL KR N)
  let R := xor R (four KL KR (N + 2))
  let R := xor R L
  let (L, R) := rounds KL KR L R N
  let (R, L) := (R, xor L R)
  (xor R (four KL KR (N + 4)), xor L (four KL KR (N + 6)))

end Kryptos.Spec.Feal
