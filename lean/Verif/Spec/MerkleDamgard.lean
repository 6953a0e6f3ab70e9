import Verif.Base
/-
  Merkle-Damgard hashing as the standards describe it (FIPS 180-4 sections 5.1, 5.2 and 6;
  RFC 1320/1321 section 3): padding of the message, parsing into blocks of words, iteration of the
  compression function.  Nothing here refers to the model of the C code.
-/
namespace Kryptos.Spec.MD

/-- Number represented by bytes, most significant first. -/
def beNat (bs : Bytes) : Nat := bs.foldl (fun n b => 256 * n + b.toNat) 0

/-- Number represented by bytes, least significant first. -/
def leNat (bs : Bytes) : Nat := beNat bs.reverse

/-- The `n` byte big-endian representation of `v`. -/
def be (n v : Nat) : Bytes := (List.range n).reverse.map fun i => BitVec.ofNat 8 (v / 256 ^ i)

/-- The `n` byte little-endian representation of `v`. -/
def le (n v : Nat) : Bytes := (List.range n).map fun i => BitVec.ofNat 8 (v / 256 ^ i)

/-- Consecutive groups of `n` elements (a trailing incomplete group is dropped; it is only applied
to lists whose length is a multiple of `n`). -/
def chunks {α : Type} (n : Nat) (l : List α) : List (List α) :=
  (List.range (l.length / n)).map fun i => (l.drop (i * n)).take n

/-- Padding: a marker byte, the least number of zero bytes, and the encoded length fill up the last
block of `B` bytes.  `L` is the number of bytes of the length field. -/
def pad (B L : Nat) (tok : Byte) (len : Nat → Bytes) (m : Bytes) : Bytes :=
  m ++ tok :: (List.replicate ((B - (m.length + 1 + L) % B) % B) 0#8 ++ len (8 * m.length))

/-- The words of a block, big-endian. -/
def beWords (w wb : Nat) (block : Bytes) : List (BitVec w) :=
  (chunks wb block).map fun bs => BitVec.ofNat w (beNat bs)

/-- The words of a block, little-endian. -/
def leWords (w wb : Nat) (block : Bytes) : List (BitVec w) :=
  (chunks wb block).map fun bs => BitVec.ofNat w (leNat bs)

/-- Iteration of the compression function over the blocks of the padded message. -/
def iterate {σ : Type} (B : Nat) (f : σ → Bytes → σ) (init : σ) (padded : Bytes) : σ :=
  (chunks B padded).foldl f init

end Kryptos.Spec.MD
