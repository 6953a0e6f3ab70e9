import Verif.Model.HashCommon
import Verif.Words
/-
  Model of src/kryptos_sha224_256.c.
-/
namespace Kryptos.Sha256
open Hash

/-- `kryptos_sha224_256_CH` (src/kryptos_sha224_256.c:17). -/
def CH (x y z : W32) : W32 := (x &&& y) ^^^ (~~~x &&& z)
/-- `kryptos_sha224_256_MAJ` (src/kryptos_sha224_256.c:19). -/
def MAJ (x y z : W32) : W32 := (x &&& y) ^^^ (x &&& z) ^^^ (y &&& z)
/-- `kryptos_sha224_256_ROTR` (src/kryptos_sha224_256.c:21). -/
def ROTR (x : W32) (l : Nat) : W32 := x >>> l ||| x <<< (32 - l)
/-- `BSIG0`, `BSIG1`, `SSIG0`, `SSIG1` (src/kryptos_sha224_256.c:23-37). -/
def BSIG0 (x : W32) : W32 := ROTR x 2 ^^^ ROTR x 13 ^^^ ROTR x 22
def BSIG1 (x : W32) : W32 := ROTR x 6 ^^^ ROTR x 11 ^^^ ROTR x 25
def SSIG0 (x : W32) : W32 := ROTR x 7 ^^^ ROTR x 18 ^^^ (x >>> 3)
def SSIG1 (x : W32) : W32 := ROTR x 17 ^^^ ROTR x 19 ^^^ (x >>> 10)

/-- `kryptos_sha224_256_K` (src/kryptos_sha224_256.c:47-64). -/
def K : List W32 := [
  0x428A2F98#32, 0x71374491#32, 0xB5C0FBCF#32, 0xE9B5DBA5#32,
  0x3956C25B#32, 0x59F111F1#32, 0x923F82A4#32, 0xAB1C5ED5#32,
  0xD807AA98#32, 0x12835B01#32, 0x243185BE#32, 0x550C7DC3#32,
  0x72BE5D74#32, 0x80DEB1FE#32, 0x9BDC06A7#32, 0xC19BF174#32,
  0xE49B69C1#32, 0xEFBE4786#32, 0x0FC19DC6#32, 0x240CA1CC#32,
  0x2DE92C6F#32, 0x4A7484AA#32, 0x5CB0A9DC#32, 0x76F988DA#32,
  0x983E5152#32, 0xA831C66D#32, 0xB00327C8#32, 0xBF597FC7#32,
  0xC6E00BF3#32, 0xD5A79147#32, 0x06CA6351#32, 0x14292967#32,
  0x27B70A85#32, 0x2E1B2138#32, 0x4D2C6DFC#32, 0x53380D13#32,
  0x650A7354#32, 0x766A0ABB#32, 0x81C2C92E#32, 0x92722C85#32,
  0xA2BFE8A1#32, 0xA81A664B#32, 0xC24B8B70#32, 0xC76C51A3#32,
  0xD192E819#32, 0xD6990624#32, 0xF40E3585#32, 0x106AA070#32,
  0x19A4C116#32, 0x1E376C08#32, 0x2748774C#32, 0x34B0BCB5#32,
  0x391C0CB3#32, 0x4ED8AA4A#32, 0x5B9CCA4F#32, 0x682E6FF3#32,
  0x748F82EE#32, 0x78A5636F#32, 0x84C87814#32, 0x8CC70208#32,
  0x90BEFFFA#32, 0xA4506CEB#32, 0xBEF9A3F7#32, 0xC67178F2#32]

/-- `kryptos_sha224_256_block_index_decision_table` (src/kryptos_sha224_256.c:104-121). -/
def tab : List Nat := [
  0, 0, 0, 0,
  1, 1, 1, 1,
  2, 2, 2, 2,
  3, 3, 3, 3,
  4, 4, 4, 4,
  5, 5, 5, 5,
  6, 6, 6, 6,
  7, 7, 7, 7,
  8, 8, 8, 8,
  9, 9, 9, 9,
  10, 10, 10, 10,
  11, 11, 11, 11,
  12, 12, 12, 12,
  13, 13, 13, 13,
  14, 14, 14, 14,
  15, 15, 15, 15]

/-- `kryptos_sha224_init` (src/kryptos_sha224_256.c:226-236). -/
def init224 : Eight 32 :=
  ⟨0xC1059ED8#32, 0x367CD507#32, 0x3070DD17#32, 0xF70E5939#32,
    0xFFC00B31#32, 0x68581511#32, 0x64F98FA7#32, 0xBEFA4FA4#32⟩

/-- `kryptos_sha256_init` (src/kryptos_sha224_256.c:238-248). -/
def init256 : Eight 32 :=
  ⟨0x6A09E667#32, 0xBB67AE85#32, 0x3C6EF372#32, 0xA54FF53A#32,
    0x510E527F#32, 0x9B05688C#32, 0x1F83D9AB#32, 0x5BE0CD19#32⟩

/-- The schedule (src/kryptos_sha224_256.c:278-281). -/
def sched (W : List W32) (t : Nat) : Out W32 := do
  let a ← rd W (t - 2)
  let b ← rd W (t - 7)
  let c ← rd W (t - 15)
  let d ← rd W (t - 16)
  return SSIG1 a + b + SSIG0 c + d

/-- One round (src/kryptos_sha224_256.c:292-303). -/
def step (W : List W32) (t : Nat) (s : Eight 32) : Out (Eight 32) := do
  let k ← rd K t
  let x ← rd W t
  let T1 := s.h + BSIG1 s.e + CH s.e s.f s.g + k + x
  let T2 := BSIG0 s.a + MAJ s.a s.b s.c
  return ⟨T1 + T2, s.a, s.b, s.c, s.d + T1, s.e, s.f, s.g⟩

/-- Compression part of `kryptos_sha224_256_do_block` (src/kryptos_sha224_256.c:261-312). -/
def compress (st : Eight 32) (block : List W32) : Out (Eight 32) :=
  if block.length ≠ 16 then .ub
  else do
    let W ← expand sched 48 block
    let s ← forLoop (step W) 64 0 st
    return ⟨st.a + s.a, st.b + s.b, st.c + s.c, st.d + s.d, st.e + s.e, st.f + s.f, st.g + s.g,
      st.h + s.h⟩

/-- The instantiation of the message processor (src/kryptos_sha224_256.c:123-131). -/
def alg (init : Eight 32) : Alg 32 (Eight 32) where
  wb := 4
  nr := 16
  tab := tab
  lenOff := 56
  tok := 0x80#8
  putLen := putLen32
  fix := .ok
  init := init
  compress := compress

/-- The raw and the hexadecimal output statements (src/kryptos_sha224_256.c:136-224): 224 bits take the first
7 words of the state. -/
def raw224 (s : Eight 32) : Bytes := (s.words.take 7).flatMap (cpyBe 4)
def hex224 (s : Eight 32) : Bytes := (s.words.take 7).flatMap (toHex 4)
def raw256 (s : Eight 32) : Bytes := s.words.flatMap (cpyBe 4)
def hex256 (s : Eight 32) : Bytes := s.words.flatMap (toHex 4)

end Kryptos.Sha256
