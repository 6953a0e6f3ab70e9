import Verif.Model.BlockModes
/-
  Model of src/kryptos_gcm_utils.c and of the functions `kryptos_<cipher>_e` generated by
  src/kryptos_types.h:462-561.
-/
namespace Kryptos.Gcm
open Kryptos.Block

/-- Four 32-bit words (`kryptos_u32_t x[4]`, `struct gcm_ghash_block_ctx`,
src/kryptos_gcm_utils.c:16-18). -/
structure W4 where
  w0 : W32
  w1 : W32
  w2 : W32
  w3 : W32
  deriving Repr, DecidableEq

/-- `^=` on the four words. -/
def W4.xor (a b : W4) : W4 := ⟨a.w0 ^^^ b.w0, a.w1 ^^^ b.w1, a.w2 ^^^ b.w2, a.w3 ^^^ b.w3⟩

/-- `kryptos_gcm_lsh128` (src/kryptos_gcm_utils.c:111-116). -/
def lsh128 (b : W4) : W4 :=
  ⟨(b.w0 <<< 1) ||| (b.w1 >>> 31), (b.w1 <<< 1) ||| (b.w2 >>> 31),
   (b.w2 <<< 1) ||| (b.w3 >>> 31), b.w3 <<< 1⟩

/-- `kryptos_gcm_rsh128` (src/kryptos_gcm_utils.c:118-123). -/
def rsh128 (b : W4) : W4 :=
  ⟨b.w0 >>> 1, (b.w0 <<< 31) ||| (b.w1 >>> 1), (b.w1 <<< 31) ||| (b.w2 >>> 1),
   (b.w2 <<< 31) ||| (b.w3 >>> 1)⟩

/-- The loop of `kryptos_gcm_gf_mul` (src/kryptos_gcm_utils.c:125-141). -/
def gfMulLoop : Nat → W4 → W4 → W4 → W4
  | 0, _, _, zz => zz
  | n + 1, v, t, zz =>
    let zz' := if t.w0 >>> 31 ≠ 0#32 then zz.xor v else zz
    let v' := if v.w3 &&& 1#32 ≠ 0#32 then
        let r := rsh128 v
        { r with w0 := r.w0 ^^^ 0xE1000000#32 }
      else rsh128 v
    gfMulLoop n v' (lsh128 t) zz'

/-- `kryptos_gcm_gf_mul` (src/kryptos_gcm_utils.c:103-150). -/
def gfMul (x y : W4) : W4 := gfMulLoop 128 y x ⟨0, 0, 0, 0⟩

/-- `kryptos_get_u32_as_big_endian` on four bytes (src/kryptos_endianness_utils.c:22-39,
little-endian CPU). -/
def getBe32 (a b c d : Byte) : W32 :=
  (a.setWidth 32 <<< 24) ||| (b.setWidth 32 <<< 16) ||| (c.setWidth 32 <<< 8) ||| d.setWidth 32

/-- `kryptos_cpy_u32_as_big_endian` (src/kryptos_endianness_utils.c:45-60). -/
def putBe32 (v : W32) : Bytes :=
  [ ((v >>> 24) &&& 0xFF#32).setWidth 8, ((v >>> 16) &&& 0xFF#32).setWidth 8,
    ((v >>> 8) &&& 0xFF#32).setWidth 8, (v &&& 0xFF#32).setWidth 8 ]

/-- One 16-byte block as words, as done for `H` (src/kryptos_gcm_utils.c:243-246) and by
`GCM_GHASH_LD_BYTES` (src/kryptos_gcm_utils.c:250-273). -/
def loadBlock (b : Bytes) : Out W4 :=
  match b with
  | b0 :: b1 :: b2 :: b3 :: b4 :: b5 :: b6 :: b7 :: b8 :: b9 :: b10 :: b11 :: b12 :: b13 :: b14 ::
      b15 :: _ =>
    .ok ⟨getBe32 b0 b1 b2 b3, getBe32 b4 b5 b6 b7, getBe32 b8 b9 b10 b11, getBe32 b12 b13 b14 b15⟩
  | _ => .ub

/-- `GCM_GHASH_LD_BYTES`: the sequence of blocks of a buffer. -/
def loadBlocks (b : Bytes) : Out (List W4) :=
  if _h : b = [] then .ok [] else do
    let x ← loadBlock b
    let xs ← loadBlocks (b.drop 16)
    return x :: xs
termination_by b.length
decreasing_by
  have := List.length_pos_iff.mpr _h
  simp; omega

/-- Padding with zero bytes up to a multiple of 16 (src/kryptos_gcm_utils.c:281-295, 312-326). -/
def pad16 (b : Bytes) : Bytes := b ++ List.replicate ((16 - b.length % 16) % 16) 0#8

/-- The length block `L` (src/kryptos_gcm_utils.c:365-371), with the masks as written. -/
def lenBlock (asz csz : Nat) : W4 :=
  let l0 : W64 := BitVec.ofNat 64 asz <<< 3
  let l1 : W64 := BitVec.ofNat 64 csz <<< 3
  ⟨(l0 >>> 32).setWidth 32, (l0 &&& 0xFFFFFF#64).setWidth 32,
   (l1 >>> 32).setWidth 32, (l1 &&& 0xFFFFFF#64).setWidth 32⟩

/-- The GHASH loop (src/kryptos_gcm_utils.c:379-390). -/
def ghashLoop (H X : W4) : List W4 → W4
  | [] => X
  | b :: bs => ghashLoop H (gfMul (X.xor b) H) bs

/-- The blocks of the additional data, none if there is none (src/kryptos_gcm_utils.c:275-310). -/
def loadAad (a : Bytes) : Out (List W4) :=
  if a.length > 0 then loadBlocks (pad16 a) else .ok []

/-- `kryptos_gcm_ghash` (src/kryptos_gcm_utils.c:225-459); allocations are assumed to succeed. -/
def ghash (h a c : Bytes) : Out Bytes := do
  let H ← loadBlock h
  let A ← loadAad a
  let C ← loadBlocks (pad16 c)
  let X := ghashLoop H ⟨0, 0, 0, 0⟩ (A ++ C ++ [lenBlock a.length c.length])
  return putBe32 X.w0 ++ putBe32 X.w1 ++ putBe32 X.w2 ++ putBe32 X.w3

/-- How `kryptos_<cipher>_e` was generated: `KRYPTOS_IMPL_STANDARD_BLOCK_CIPHER_GCM_E`,
`KRYPTOS_IMPL_CUSTOM_BLOCK_CIPHER_GCM_E` or one of the `_NO_SUPPORT` macros
(src/kryptos_types.h:462-561). -/
inductive EKind where
  | standard | custom | unsupported
  deriving Repr, DecidableEq

/-- `kryptos_<cipher>_e` (src/kryptos_types.h:462-561) for a 16-byte block `h`: an ECB task, of
whose output the first 16 bytes are used. -/
def eFunc (C : Cipher) (kind : EKind) (stale : Bytes) (rnd : Nat → Byte) (h : Bytes) :
    Out (TaskResult × Bytes) :=
  match kind with
  | .unsupported => .ok (.noSupport, h)
  | .standard => do
    let r ← process C .ecb .encrypt h stale rnd none none
    match r.out with
    | none => .ok (.processError, h)
    | some o => if o.length < 16 then .ub else .ok (.success, o.take 16)
  | .custom => do
    let r ← process C .ecb .encryptWithoutRandomPad h stale rnd none none
    match r.out with
    | none => .ok (.processError, h)
    | some o => if o.length < 16 then .ub else .ok (.success, o.take 16)

/-- The block `Y0` (src/kryptos_gcm_utils.c:173-186). -/
def gcmY0 (H c : Bytes) (ivSize : Nat) : Out Bytes :=
  if ivSize ≠ 12 then
    (if c.length < 16 then Out.ub else ghash H [] (c.take 16))
  else
    (if c.length < 12 then Out.ub else Out.ok (c.take 12 ++ [0, 0, 0, 1]))

/-- `kryptos_gcm_tag` (src/kryptos_gcm_utils.c:152-223). -/
def gcmTag (E : Bytes → Out (TaskResult × Bytes)) (c : Bytes) (ivSize : Nat) (a : Bytes) :
    Out (TaskResult × Bytes) := do
  let (r, H) ← E (List.replicate 16 0#8)
  if r ≠ .success then return (r, [])
  else do
    let Y0 ← gcmY0 H c ivSize
    if c.length < ivSize then .ub
    else do
      let t ← ghash H a (c.drop ivSize)
      let (r, Y) ← E Y0
      if r ≠ .success then return (r, [])
      else return (.success, List.zipWith (· ^^^ ·) t Y)

/-- `kryptos_gcm_auth` (src/kryptos_gcm_utils.c:40-66). -/
def gcmAuth (E : Bytes → Out (TaskResult × Bytes)) (c : Bytes) (ivSize : Nat) (a : Bytes) :
    Out (TaskResult × Bytes) := do
  let (r, tag) ← gcmTag E c ivSize a
  if r = .success then return (r, tag ++ c) else return (r, c)

/-- `kryptos_gcm_verify` (src/kryptos_gcm_utils.c:68-101). -/
def gcmVerify (E : Bytes → Out (TaskResult × Bytes)) (c : Bytes) (ivSize : Nat) (a : Bytes) :
    Out (TaskResult × Bytes) := do
  if c.length < 16 then return (.processError, c)
  else do
    let (r, tag) ← gcmTag E (c.drop 16) ivSize a
    if r = .success then
      if tag ≠ c.take 16 then return (.gmacError, c)
      else return (.success, c.drop 16)
    else return (r, c)

end Kryptos.Gcm
