import Verif.Base
/-
  The Advanced Encryption Standard (FIPS 197), written from the standard: states are functions of row and column, words are
  functions of the place of a byte.
-/
namespace Kryptos.Spec.Aes

/-- Multiplication by x modulo x^8 + x^4 + x^3 + x + 1 (FIPS 197, 4.2.1). -/
def xtime (b : Byte) : Byte := (b <<< 1) ^^^ (if b.getLsbD 7 then 0x1b#8 else 0#8)

/-- Multiplication of two polynomials (FIPS 197, 4.2): `c₀ b + x (c₁ b + x (c₂ b + …))`. -/
def mul (b c : Byte) : Byte := (List.range 8).foldr (fun i acc => xtime acc ^^^ (if c.getLsbD i then b else 0)) 0

/-- The multiplicative inverse as the power 254 = 2 + 4 + … + 128; zero for zero. -/
def inv (b : Byte) : Byte :=
  let b2 := mul b b
  let b4 := mul b2 b2
  let b8 := mul b4 b4
  let b16 := mul b8 b8
  let b32 := mul b16 b16
  let b64 := mul b32 b32
  let b128 := mul b64 b64
  mul b2 (mul b4 (mul b8 (mul b16 (mul b32 (mul b64 b128)))))

/-- The affine transformation and the S-box (FIPS 197, 5.1.1). -/
def sbox (b : Byte) : Byte :=
  let c := inv b
  c ^^^ c.rotateLeft 1 ^^^ c.rotateLeft 2 ^^^ c.rotateLeft 3 ^^^ c.rotateLeft 4 ^^^ 0x63#8

abbrev Word := Fin 4 → Byte
/-- Row and column. -/
abbrev State := Fin 4 → Fin 4 → Byte

def subBytes (s : State) : State := fun r c => sbox (s r c)

/-- FIPS 197, 5.1.2. -/
def shiftRows (s : State) : State := fun r c => s r (c + r)

/-- FIPS 197, 5.1.3. -/
def mixColumns (s : State) : State := fun r c =>
  mul (s r c) 2#8 ^^^ mul (s (r + 1) c) 3#8 ^^^ s (r + 2) c ^^^ s (r + 3) c

/-- FIPS 197, 5.2. -/
def rcon (i : Nat) : Word := fun r => if r = 0 then Nat.repeat xtime (i - 1) 1#8 else 0#8
def rotWord (a : Word) : Word := fun r => a (r + 1)
def subWord (a : Word) : Word := fun r => sbox (a r)

/-- The expanded key (FIPS 197, 5.2) from the `nk` words of the key; `nk` is 4, 6 or 8. -/
def expand (nk : Nat) (k : Fin nk → Word) (i : Nat) : Word :=
  if h : i < nk then k ⟨i, h⟩
  else if _h0 : nk = 0 then fun _ => 0
  else if i % nk = 0 then fun r => expand nk k (i - nk) r ^^^ (subWord (rotWord (expand nk k (i - 1))) r ^^^ rcon (i / nk) r)
  else if 6 < nk ∧ i % nk = 4 then fun r => expand nk k (i - nk) r ^^^ subWord (expand nk k (i - 1)) r
  else fun r => expand nk k (i - nk) r ^^^ expand nk k (i - 1) r
termination_by i
decreasing_by all_goals omega

/-- The words of a key of `4 nk` bytes and their expansion. -/
def w (nk : Nat) (key : Fin (4 * nk) → Byte) : Nat → Word := expand nk fun i r => key ⟨4 * i + r, by omega⟩

/-- FIPS 197, 5.1.4. -/
def addRoundKey (nk : Nat) (key : Fin (4 * nk) → Byte) (rnd : Nat) (s : State) : State := fun r c =>
  s r c ^^^ w nk key (4 * rnd + c) r

/-- The cipher (FIPS 197, 5.1) with `nr` rounds. -/
def cipher (nk nr : Nat) (key : Fin (4 * nk) → Byte) (inp : Fin 16 → Byte) : Fin 16 → Byte :=
  let s : State := addRoundKey nk key 0 fun r c => inp ⟨r + 4 * c, by omega⟩
  let s := (List.range' 1 (nr - 1)).foldl (fun s rnd => addRoundKey nk key rnd (mixColumns (shiftRows (subBytes s)))) s
  let s := addRoundKey nk key nr (shiftRows (subBytes s))
  fun i => s ⟨i % 4, by omega⟩ ⟨i / 4, by omega⟩

end Kryptos.Spec.Aes
