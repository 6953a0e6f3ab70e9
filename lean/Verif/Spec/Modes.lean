import Verif.Base
/-
  Specification of ANSI X9.23 padding and of the modes of operation of NIST SP 800-38A, on lists
  of blocks.  Nothing here refers to the model of the C code.
-/
namespace Kryptos.Spec

/-- Bytewise exclusive or of two blocks. -/
def xorBlock (a b : Bytes) : Bytes := List.zipWith (· ^^^ ·) a b

/-- `p` is `m` padded by ANSI X9.23 for block size `bs`: `k` bytes are appended, `1 ≤ k ≤ bs`, the
result has a multiple of `bs` bytes and its last byte is `k`; the other bytes are arbitrary. -/
def X923 (bs : Nat) (m p : Bytes) : Prop :=
  ∃ k filler, 1 ≤ k ∧ k ≤ bs ∧ List.length filler = k - 1 ∧
    p = m ++ filler ++ [BitVec.ofNat 8 k] ∧ p.length % bs = 0

/-- ECB (SP 800-38A, 6.1). -/
def ecb (E : Bytes → Bytes) (ps : List Bytes) : List Bytes := ps.map E

/-- CBC encryption (SP 800-38A, 6.2). -/
def cbc (E : Bytes → Bytes) : Bytes → List Bytes → List Bytes
  | _, [] => []
  | iv, p :: ps =>
    let c := E (xorBlock p iv)
    c :: cbc E c ps

/-- OFB (SP 800-38A, 6.4). -/
def ofb (E : Bytes → Bytes) : Bytes → List Bytes → List Bytes
  | _, [] => []
  | iv, p :: ps =>
    let o := E iv
    xorBlock p o :: ofb E o ps

/-- Big-endian encoding of a 32-bit number. -/
def be32 (c : W32) : Bytes :=
  [c.extractLsb' 24 8, c.extractLsb' 16 8, c.extractLsb' 8 8, c.extractLsb' 0 8]

/-- CTR (SP 800-38A, 6.5) with counter blocks `nonce ‖ c, nonce ‖ c+1, ...` (mod 2^32). -/
def ctr (E : Bytes → Bytes) (nonce : Bytes) : W32 → List Bytes → List Bytes
  | _, [] => []
  | c, p :: ps => xorBlock p (E (nonce ++ be32 c)) :: ctr E nonce (c + 1#32) ps

end Kryptos.Spec
