import Verif.Base
/-
  HMAC (RFC 2104), HKDF (RFC 5869) and PBKDF2 (RFC 8018, section 5.2), transcribed from the
  documents for an arbitrary hash function.  Nothing here refers to the model of the C code.
-/
namespace Kryptos.Spec

/-- RFC 2104, section 2: `F` is the hash function, `B` its block length. -/
def hmac (F : Bytes → Bytes) (B : Nat) (K text : Bytes) : Bytes :=
  let K' := if K.length > B then F K else K
  let K0 := K' ++ List.replicate (B - K'.length) 0#8
  let ipad := List.replicate B 0x36#8
  let opad := List.replicate B 0x5C#8
  F (List.zipWith (· ^^^ ·) K0 opad ++ F (List.zipWith (· ^^^ ·) K0 ipad ++ text))

/-- RFC 5869, section 2.3: `T(0)` is empty, `T(n) = HMAC(PRK, T(n-1) | info | n)`. -/
def hkdfT (F : Bytes → Bytes) (B : Nat) (prk info : Bytes) : Nat → Bytes
  | 0 => []
  | n + 1 => hmac F B prk (hkdfT F B prk info n ++ info ++ [BitVec.ofNat 8 (n + 1)])

/-- RFC 5869, section 2.2: an absent salt is a string of `HashLen` zeros. -/
def hkdfSalt (hashLen : Nat) : Option Bytes → Bytes
  | none => List.replicate hashLen 0#8
  | some s => s

/-- RFC 5869: extract (section 2.2, an absent salt is `HashLen` zeros), then the first `L` octets of
`T(1) | T(2) | ... | T(N)` with `N = ceil(L / HashLen)`. -/
def hkdf (F : Bytes → Bytes) (B hashLen : Nat) (salt : Option Bytes) (ikm info : Bytes) (L : Nat) :
    Bytes :=
  let prk := hmac F B (hkdfSalt hashLen salt) ikm
  (((List.range ((L + hashLen - 1) / hashLen)).map fun n => hkdfT F B prk info (n + 1)).flatten).take L

/-- RFC 8018, section 5.2: `U_1 = PRF(P, S || INT(i))`, `U_j = PRF(P, U_{j-1})`; `U PRF P x j` is
`U_{j+1}`, with `x = S || INT(i)`. -/
def pbkdf2U (prf : Bytes → Bytes → Bytes) (P x : Bytes) : Nat → Bytes
  | 0 => prf P x
  | j + 1 => prf P (pbkdf2U prf P x j)

/-- The four-octet encoding of `i`, most significant octet first. -/
def int4 (i : Nat) : Bytes :=
  [BitVec.ofNat 8 (i / 2 ^ 24), BitVec.ofNat 8 (i / 2 ^ 16), BitVec.ofNat 8 (i / 2 ^ 8), BitVec.ofNat 8 i]

/-- `F(P, S, c, i) = U_1 xor U_2 xor ... xor U_c`: octet `k` is the xor of the octets `k`. -/
def pbkdf2F (prf : Bytes → Bytes → Bytes) (P S : Bytes) (c i : Nat) : Bytes :=
  ((List.range c).tail.map fun j => pbkdf2U prf P (S ++ int4 i) j).foldl (List.zipWith (· ^^^ ·))
    (pbkdf2U prf P (S ++ int4 i) 0)

/-- `DK = (T_1 || T_2 || ... || T_l)<0..dkLen-1>` with `l = ceil(dkLen / hLen)`. -/
def pbkdf2 (prf : Bytes → Bytes → Bytes) (hLen : Nat) (P S : Bytes) (c dkLen : Nat) : Bytes :=
  (((List.range ((dkLen + hLen - 1) / hLen)).map fun i => pbkdf2F prf P S c (i + 1)).flatten).take dkLen

end Kryptos.Spec
