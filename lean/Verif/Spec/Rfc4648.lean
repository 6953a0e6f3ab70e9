import Verif.Base
/-
  Independent specification of the RFC 4648 encodings: the message is read as a
  bit string (most significant bit of each byte first), cut into groups of `k`
  bits (the last one completed with zero bits), each group selects a character
  of the alphabet, and '=' fills the text up to a multiple of `quantum` characters.
-/
namespace Kryptos.Spec

/-- Bits of a byte, most significant first. -/
def byteBits (b : Byte) : List Bool :=
  [b.getLsbD 7, b.getLsbD 6, b.getLsbD 5, b.getLsbD 4, b.getLsbD 3, b.getLsbD 2, b.getLsbD 1, b.getLsbD 0]

/-- The message as a bit string. -/
def bits (m : Bytes) : List Bool := m.flatMap byteBits

/-- Value of a big-endian bit string. -/
def bitsVal (l : List Bool) : Nat := l.foldl (fun n b => 2 * n + b.toNat) 0

/-- Cut into groups of `k` bits, completing the last one with zero bits. -/
def bitGroups (k : Nat) (l : List Bool) : List (List Bool) :=
  if _h : l = [] ∨ k = 0 then []
  else (l.take k ++ List.replicate (k - (l.take k).length) false) :: bitGroups k (l.drop k)
termination_by l.length
decreasing_by
  rcases l with _ | ⟨x, xs⟩
  · simp at _h
  · simp at _h ⊢; omega

/-- The k-bit alphabet characters of a message (no fill). `none` would be a
missing alphabet character. -/
def rfcChars (k : Nat) (alphabet : List Byte) (m : Bytes) : List (Option Byte) :=
  (bitGroups k (bits m)).map fun g => alphabet[bitsVal g]?

/-- RFC 4648 encoding with fill characters. -/
def rfc4648 (k : Nat) (alphabet : List Byte) (quantum : Nat) (m : Bytes) : List (Option Byte) :=
  let cs := rfcChars k alphabet m
  cs ++ List.replicate ((quantum - cs.length % quantum) % quantum) (some 0x3D#8)

/-- RFC 4648 table 1. -/
def base64Alphabet : List Byte := ascii "ABCDEFGHIJKLMNOPQRSTUVWXYZabcdefghijklmnopqrstuvwxyz0123456789+/"
/-- RFC 4648 table 3. -/
def base32Alphabet : List Byte := ascii "ABCDEFGHIJKLMNOPQRSTUVWXYZ234567"
/-- RFC 4648 table 5. -/
def base16Alphabet : List Byte := ascii "0123456789ABCDEF"

end Kryptos.Spec
