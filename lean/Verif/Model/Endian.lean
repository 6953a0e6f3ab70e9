import Verif.Base
/-
  Model of src/kryptos_endianness_utils.c and src/kryptos_endianness_utils.h, on a little-endian
  CPU (the other branch copies the bytes and gives the same values).
-/
namespace Kryptos

/-- `kryptos_u32_rev` (src/kryptos_endianness_utils.h:17). -/
def rev32 (w : W32) : W32 :=
  (w <<< 24) ||| ((w &&& 0x0000FF00#32) <<< 8) ||| ((w &&& 0x00FF0000#32) >>> 8) ||| (w >>> 24)

/-- `kryptos_u64_rev` (src/kryptos_endianness_utils.h:19-26). -/
def rev64 (w : W64) : W64 :=
  (w <<< 56) ||| ((w &&& 0x000000000000FF00#64) <<< 40) ||| ((w &&& 0x0000000000FF0000#64) <<< 24) |||
  ((w &&& 0x00000000FF000000#64) <<< 8) ||| ((w &&& 0x000000FF00000000#64) >>> 8) |||
  ((w &&& 0x0000FF0000000000#64) >>> 24) ||| ((w &&& 0x00FF000000000000#64) >>> 40) ||| (w >>> 56)

/-- The value computed by `kryptos_get_u16_as_big_endian` (src/kryptos_endianness_utils.c:66-81). -/
def be16 (a b : Byte) : W16 := (a.setWidth 16 <<< 8) ||| b.setWidth 16

/-- The value computed by `kryptos_get_u32_as_big_endian` (src/kryptos_endianness_utils.c:22-39). -/
def be32 (a b c d : Byte) : W32 :=
  (a.setWidth 32 <<< 24) ||| (b.setWidth 32 <<< 16) ||| (c.setWidth 32 <<< 8) ||| d.setWidth 32

/-- The value computed by `kryptos_get_u64_as_big_endian` (src/kryptos_endianness_utils.c:119-140). -/
def be64 (a b c d e f g h : Byte) : W64 :=
  (a.setWidth 64 <<< 56) ||| (b.setWidth 64 <<< 48) ||| (c.setWidth 64 <<< 40) ||| (d.setWidth 64 <<< 32) |||
  (e.setWidth 64 <<< 24) ||| (f.setWidth 64 <<< 16) ||| (g.setWidth 64 <<< 8) ||| h.setWidth 64

/-- `kryptos_get_u16_as_big_endian(b + off, 2)`. -/
def getBe16 (b : Bytes) (off : Nat) : Out W16 := do
  let x0 ← rd b off
  let x1 ← rd b (off + 1)
  return be16 x0 x1

/-- `kryptos_get_u32_as_big_endian(b + off, 4)` (src/kryptos_endianness_utils.c:22-39).  All callers pass a
size of at least four, so the early `return 0` is not modelled. -/
def getBe32 (b : Bytes) (off : Nat) : Out W32 := do
  let x0 ← rd b off
  let x1 ← rd b (off + 1)
  let x2 ← rd b (off + 2)
  let x3 ← rd b (off + 3)
  return be32 x0 x1 x2 x3

/-- `kryptos_get_u32_as_little_endian` (src/kryptos_endianness_utils.c:41-43). -/
def getLe32 (b : Bytes) (off : Nat) : Out W32 := do
  let v ← getBe32 b off
  return rev32 v

/-- `kryptos_get_u64_as_big_endian(b + off, 8)` (src/kryptos_endianness_utils.c:119-140). -/
def getBe64 (b : Bytes) (off : Nat) : Out W64 := do
  let x0 ← rd b off
  let x1 ← rd b (off + 1)
  let x2 ← rd b (off + 2)
  let x3 ← rd b (off + 3)
  let x4 ← rd b (off + 4)
  let x5 ← rd b (off + 5)
  let x6 ← rd b (off + 6)
  let x7 ← rd b (off + 7)
  return be64 x0 x1 x2 x3 x4 x5 x6 x7

/-- `kryptos_get_u64_as_little_endian` (src/kryptos_endianness_utils.c:142-144). -/
def getLe64 (b : Bytes) (off : Nat) : Out W64 := do
  let v ← getBe64 b off
  return rev64 v

/-- The bytes written by `kryptos_cpy_u16_as_big_endian` (src/kryptos_endianness_utils.c:83-96). -/
def putBe16 (v : W16) : Bytes := [(v >>> 8).setWidth 8, (v &&& 0xFF#16).setWidth 8]

/-- The bytes written by `kryptos_cpy_u32_as_big_endian` (src/kryptos_endianness_utils.c:45-60). -/
def putBe32 (v : W32) : Bytes :=
  [((v >>> 24) &&& 0xFF#32).setWidth 8, ((v >>> 16) &&& 0xFF#32).setWidth 8,
   ((v >>> 8) &&& 0xFF#32).setWidth 8, (v &&& 0xFF#32).setWidth 8]

/-- The bytes written by `kryptos_cpy_u32_as_little_endian` (src/kryptos_endianness_utils.c:62-64). -/
def putLe32 (v : W32) : Bytes := putBe32 (rev32 v)

/-- The bytes written by `kryptos_cpy_u64_as_big_endian` (src/kryptos_endianness_utils.c:98-117). -/
def putBe64 (v : W64) : Bytes :=
  [((v >>> 56) &&& 0xFF#64).setWidth 8, ((v >>> 48) &&& 0xFF#64).setWidth 8,
   ((v >>> 40) &&& 0xFF#64).setWidth 8, ((v >>> 32) &&& 0xFF#64).setWidth 8,
   ((v >>> 24) &&& 0xFF#64).setWidth 8, ((v >>> 16) &&& 0xFF#64).setWidth 8,
   ((v >>> 8) &&& 0xFF#64).setWidth 8, (v &&& 0xFF#64).setWidth 8]

/-- Little-endian bytes of a 64-bit word.  The file has no such function; it is the counterpart of
`kryptos_get_u64_as_little_endian` (src/kryptos_endianness_utils.c:142-144). -/
def putLe64 (v : W64) : Bytes := putBe64 (rev64 v)

end Kryptos
