import Verif.Model.HashCommon
import Verif.Words
/-
  Model of src/kryptos_sha1.c.
-/
namespace Kryptos.Sha1
open Hash

/-- `kryptos_sha1_Sn` (src/kryptos_sha1.c:17). -/
def Sn (x : W32) (n : Nat) : W32 := x <<< n ||| x >>> (32 - n)

/-- `kryptos_sha1_F` (src/kryptos_sha1.c:19-27). -/
def F (t : Nat) (B C D : W32) : W32 :=
  if t ≤ 19 then (B &&& C) ||| (~~~B &&& D)
  else if (20 ≤ t ∧ t ≤ 39) ∨ (60 ≤ t ∧ t ≤ 79) then B ^^^ C ^^^ D
  else (B &&& C) ||| (B &&& D) ||| (C &&& D)

/-- `kryptos_sha1_K` (src/kryptos_sha1.c:29-39). -/
def K (t : Nat) : W32 :=
  if t ≤ 19 then 0x5A827999#32 else if t ≤ 39 then 0x6ED9EBA1#32
  else if t ≤ 59 then 0x8F1BBCDC#32 else 0xCA62C1D6#32

/-- `kryptos_sha1_block_index_decision_table` (src/kryptos_sha1.c:60-77). -/
def tab : List Nat := [
  0, 0, 0, 0,
  1, 1, 1, 1,
  2, 2, 2, 2,
  3, 3, 3, 3,
  4, 4, 4, 4,
  5, 5, 5, 5,
  6, 6, 6, 6,
  7, 7, 7, 7,
  8, 8, 8, 8,
  9, 9, 9, 9,
  10, 10, 10, 10,
  11, 11, 11, 11,
  12, 12, 12, 12,
  13, 13, 13, 13,
  14, 14, 14, 14,
  15, 15, 15, 15]

/-- `kryptos_sha1_init` (src/kryptos_sha1.c:133-140). -/
def init : Five 32 := ⟨0x67452301#32, 0xEFCDAB89#32, 0x98BADCFE#32, 0x10325476#32, 0xC3D2E1F0#32⟩

/-- Lines 180-182 of src/kryptos_sha1.c. -/
def sched (W : List W32) (t : Nat) : Out W32 := do
  let a ← rd W (t - 3)
  let b ← rd W (t - 8)
  let c ← rd W (t - 14)
  let d ← rd W (t - 16)
  return Sn (a ^^^ b ^^^ c ^^^ d) 1

/-- Lines 190-199 of src/kryptos_sha1.c. -/
def step (W : List W32) (t : Nat) (s : Five 32) : Out (Five 32) := do
  let x ← rd W t
  return ⟨Sn s.a 5 + F t s.b s.c s.d + s.e + x + K t, s.a, Sn s.b 30, s.c, s.d⟩

/-- Compression part of `kryptos_sha1_do_block` (src/kryptos_sha1.c:163-205). -/
def compress (st : Five 32) (block : List W32) : Out (Five 32) :=
  if block.length ≠ 16 then .ub
  else do
    let W ← expand sched 64 block
    let s ← forLoop (step W) 80 0 st
    return ⟨st.a + s.a, st.b + s.b, st.c + s.c, st.d + s.d, st.e + s.e⟩

/-- The instantiation of the message processor (src/kryptos_sha1.c:84-91). -/
def alg : Alg 32 (Five 32) where
  wb := 4
  nr := 16
  tab := tab
  lenOff := 56
  tok := 0x80#8
  putLen := putLen32
  fix := .ok
  init := init
  compress := compress

/-- The raw and the hexadecimal output statements (src/kryptos_sha1.c:105-131). -/
def raw (s : Five 32) : Bytes := s.words.flatMap (cpyBe 4)
def hex (s : Five 32) : Bytes := s.words.flatMap (toHex 4)

end Kryptos.Sha1
