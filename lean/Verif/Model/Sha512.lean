import Verif.Model.HashCommon
import Verif.Words
/-
  Model of src/kryptos_sha384_512.c.
-/
namespace Kryptos.Sha512
open Hash

/-- `kryptos_sha384_512_CH` (src/kryptos_sha384_512.c:17). -/
def CH (x y z : W64) : W64 := (x &&& y) ^^^ (~~~x &&& z)
/-- `kryptos_sha384_512_MAJ` (src/kryptos_sha384_512.c:19). -/
def MAJ (x y z : W64) : W64 := (x &&& y) ^^^ (x &&& z) ^^^ (y &&& z)
/-- `kryptos_sha384_512_ROTR` (src/kryptos_sha384_512.c:21). -/
def ROTR (x : W64) (l : Nat) : W64 := x >>> l ||| x <<< (64 - l)
/-- `BSIG0`, `BSIG1`, `SSIG0`, `SSIG1` (src/kryptos_sha384_512.c:23-37). -/
def BSIG0 (x : W64) : W64 := ROTR x 28 ^^^ ROTR x 34 ^^^ ROTR x 39
def BSIG1 (x : W64) : W64 := ROTR x 14 ^^^ ROTR x 18 ^^^ ROTR x 41
def SSIG0 (x : W64) : W64 := ROTR x 1 ^^^ ROTR x 8 ^^^ (x >>> 7)
def SSIG1 (x : W64) : W64 := ROTR x 19 ^^^ ROTR x 61 ^^^ (x >>> 6)

/-- `kryptos_sha384_512_K` (src/kryptos_sha384_512.c:47-68). -/
def K : List W64 := [
  0x428A2F98D728AE22#64, 0x7137449123EF65CD#64, 0xB5C0FBCFEC4D3B2F#64,
  0xE9B5DBA58189DBBC#64, 0x3956C25BF348B538#64, 0x59F111F1B605D019#64,
  0x923F82A4AF194F9B#64, 0xAB1C5ED5DA6D8118#64, 0xD807AA98A3030242#64,
  0x12835B0145706FBE#64, 0x243185BE4EE4B28C#64, 0x550C7DC3D5FFB4E2#64,
  0x72BE5D74F27B896F#64, 0x80DEB1FE3B1696B1#64, 0x9BDC06A725C71235#64,
  0xC19BF174CF692694#64, 0xE49B69C19EF14AD2#64, 0xEFBE4786384F25E3#64,
  0x0FC19DC68B8CD5B5#64, 0x240CA1CC77AC9C65#64, 0x2DE92C6F592B0275#64,
  0x4A7484AA6EA6E483#64, 0x5CB0A9DCBD41FBD4#64, 0x76F988DA831153B5#64,
  0x983E5152EE66DFAB#64, 0xA831C66D2DB43210#64, 0xB00327C898FB213F#64,
  0xBF597FC7BEEF0EE4#64, 0xC6E00BF33DA88FC2#64, 0xD5A79147930AA725#64,
  0x06CA6351E003826F#64, 0x142929670A0E6E70#64, 0x27B70A8546D22FFC#64,
  0x2E1B21385C26C926#64, 0x4D2C6DFC5AC42AED#64, 0x53380D139D95B3DF#64,
  0x650A73548BAF63DE#64, 0x766A0ABB3C77B2A8#64, 0x81C2C92E47EDAEE6#64,
  0x92722C851482353B#64, 0xA2BFE8A14CF10364#64, 0xA81A664BBC423001#64,
  0xC24B8B70D0F89791#64, 0xC76C51A30654BE30#64, 0xD192E819D6EF5218#64,
  0xD69906245565A910#64, 0xF40E35855771202A#64, 0x106AA07032BBD1B8#64,
  0x19A4C116B8D2D0C8#64, 0x1E376C085141AB53#64, 0x2748774CDF8EEB99#64,
  0x34B0BCB5E19B48A8#64, 0x391C0CB3C5C95A63#64, 0x4ED8AA4AE3418ACB#64,
  0x5B9CCA4F7763E373#64, 0x682E6FF3D6B2B8A3#64, 0x748F82EE5DEFB2FC#64,
  0x78A5636F43172F60#64, 0x84C87814A1F0AB72#64, 0x8CC702081A6439EC#64,
  0x90BEFFFA23631E28#64, 0xA4506CEBDE82BDE9#64, 0xBEF9A3F7B2C67915#64,
  0xC67178F2E372532B#64, 0xCA273ECEEA26619C#64, 0xD186B8C721C0C207#64,
  0xEADA7DD6CDE0EB1E#64, 0xF57D4F7FEE6ED178#64, 0x06F067AA72176FBA#64,
  0x0A637DC5A2C898A6#64, 0x113F9804BEF90DAE#64, 0x1B710B35131C471B#64,
  0x28DB77F523047D84#64, 0x32CAAB7B40C72493#64, 0x3C9EBE0A15C9BEBC#64,
  0x431D67C49C100D4C#64, 0x4CC5D4BECB3E42B6#64, 0x597F299CFC657E2A#64,
  0x5FCB6FAB3AD6FAEC#64, 0x6C44198C4A475817#64]

/-- `kryptos_sha384_512_block_index_decision_table` (src/kryptos_sha384_512.c:101-118). -/
def tab : List Nat := [
  0, 0, 0, 0, 0, 0, 0, 0,
  1, 1, 1, 1, 1, 1, 1, 1,
  2, 2, 2, 2, 2, 2, 2, 2,
  3, 3, 3, 3, 3, 3, 3, 3,
  4, 4, 4, 4, 4, 4, 4, 4,
  5, 5, 5, 5, 5, 5, 5, 5,
  6, 6, 6, 6, 6, 6, 6, 6,
  7, 7, 7, 7, 7, 7, 7, 7,
  8, 8, 8, 8, 8, 8, 8, 8,
  9, 9, 9, 9, 9, 9, 9, 9,
  10, 10, 10, 10, 10, 10, 10, 10,
  11, 11, 11, 11, 11, 11, 11, 11,
  12, 12, 12, 12, 12, 12, 12, 12,
  13, 13, 13, 13, 13, 13, 13, 13,
  14, 14, 14, 14, 14, 14, 14, 14,
  15, 15, 15, 15, 15, 15, 15, 15]

/-- `kryptos_sha384_init` (src/kryptos_sha384_512.c:221-231). -/
def init384 : Eight 64 :=
  ⟨0xCBBB9D5DC1059ED8#64, 0x629A292A367CD507#64, 0x9159015A3070DD17#64, 0x152FECD8F70E5939#64,
    0x67332667FFC00B31#64, 0x8EB44A8768581511#64, 0xDB0C2E0D64F98FA7#64, 0x47B5481DBEFA4FA4#64⟩

/-- `kryptos_sha512_init` (src/kryptos_sha384_512.c:233-243). -/
def init512 : Eight 64 :=
  ⟨0x6A09E667F3BCC908#64, 0xBB67AE8584CAA73B#64, 0x3C6EF372FE94F82B#64, 0xA54FF53A5F1D36F1#64,
    0x510E527FADE682D1#64, 0x9B05688C2B3E6C1F#64, 0x1F83D9ABFB41BD6B#64, 0x5BE0CD19137E2179#64⟩

/-- The schedule (src/kryptos_sha384_512.c:274-277). -/
def sched (W : List W64) (t : Nat) : Out W64 := do
  let a ← rd W (t - 2)
  let b ← rd W (t - 7)
  let c ← rd W (t - 15)
  let d ← rd W (t - 16)
  return SSIG1 a + b + SSIG0 c + d

/-- One round (src/kryptos_sha384_512.c:288-299). -/
def step (W : List W64) (t : Nat) (s : Eight 64) : Out (Eight 64) := do
  let k ← rd K t
  let x ← rd W t
  let T1 := s.h + BSIG1 s.e + CH s.e s.f s.g + k + x
  let T2 := BSIG0 s.a + MAJ s.a s.b s.c
  return ⟨T1 + T2, s.a, s.b, s.c, s.d + T1, s.e, s.f, s.g⟩

/-- Compression part of `kryptos_sha384_512_do_block` (src/kryptos_sha384_512.c:257-308). -/
def compress (st : Eight 64) (block : List W64) : Out (Eight 64) :=
  if block.length ≠ 16 then .ub
  else do
    let W ← expand sched 64 block
    let s ← forLoop (step W) 80 0 st
    return ⟨st.a + s.a, st.b + s.b, st.c + s.c, st.d + s.d, st.e + s.e, st.f + s.f, st.g + s.g,
      st.h + s.h⟩

/-- The instantiation of the message processor (src/kryptos_sha384_512.c:122-130). -/
def alg (init : Eight 64) : Alg 64 (Eight 64) where
  wb := 8
  nr := 16
  tab := tab
  lenOff := 120
  tok := 0x80#8
  putLen := putLen64
  fix := .ok
  init := init
  compress := compress

/-- The raw and the hexadecimal output statements (src/kryptos_sha384_512.c:133-219): 384 bits take the first
6 words of the state. -/
def raw384 (s : Eight 64) : Bytes := (s.words.take 6).flatMap (cpyBe 8)
def hex384 (s : Eight 64) : Bytes := (s.words.take 6).flatMap (toHex 8)
def raw512 (s : Eight 64) : Bytes := s.words.flatMap (cpyBe 8)
def hex512 (s : Eight 64) : Bytes := s.words.flatMap (toHex 8)

end Kryptos.Sha512
