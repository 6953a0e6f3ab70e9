import Verif.Model.KeyLoad
/-
  Model of src/kryptos_aes.c.  The 4 x 4 matrix `data[row][column]` is kept by columns.  `wblock` is read before it is
  written, but every use shifts the old contents out; the model packs four bytes into a new word.
-/
namespace Kryptos.Aes

/-- Four values, the first one first. -/
structure Four (α : Type) where
  a : α
  b : α
  c : α
  d : α
  deriving DecidableEq, Repr

def Four.map {α β : Type} (f : α → β) (x : Four α) : Four β := ⟨f x.a, f x.b, f x.c, f x.d⟩
def Four.zip {α β γ : Type} (f : α → β → γ) (x : Four α) (y : Four β) : Four γ := ⟨f x.a y.a, f x.b y.b, f x.c y.c, f x.d y.d⟩

/-- `struct kryptos_128bit_u8_matrix` (src/kryptos_aes.c:40-42): four columns, each from row 0 to row 3. -/
abbrev Mat := Four (Four Byte)

/-- `kryptos_aes_rotl` (src/kryptos_aes.c:18). -/
def rotl (x : W32) (s : Nat) : W32 := (x <<< s) ||| (x >>> (32 - s))

/-- `kryptos_aes_get_u8_from_u32` (src/kryptos_aes.c:20). -/
def getU8 (x : W32) (n : Nat) : Byte := ((x >>> (24 - 8 * n)) &&& 0xff#32).setWidth 8

/-- The word made by `w = w << 8 | byte`, four times (for instance src/kryptos_aes.c:725-729). -/
def pack (x : Four Byte) : W32 :=
  (((((x.a.setWidth 32 <<< 8) ||| x.b.setWidth 32) <<< 8) ||| x.c.setWidth 32) <<< 8) ||| x.d.setWidth 32

/-- The four bytes of a word (for instance src/kryptos_aes.c:749-753). -/
def unpack (x : W32) : Four Byte := ⟨getU8 x 0, getU8 x 1, getU8 x 2, getU8 x 3⟩

/-- `kryptos_aes_rcon` (src/kryptos_aes.c:51-62). -/
def rcon : List W32 := [0x01000000#32, 0x02000000#32, 0x04000000#32, 0x08000000#32, 0x10000000#32, 0x20000000#32, 0x40000000#32,
  0x80000000#32, 0x1b000000#32, 0x36000000#32]

/-- `kryptos_aes_sbox` (src/kryptos_aes.c:66-83), row after row. -/
def sboxTable : List Byte := [
  0x63#8, 0x7C#8, 0x77#8, 0x7B#8, 0xF2#8, 0x6B#8, 0x6F#8, 0xC5#8, 0x30#8, 0x01#8, 0x67#8, 0x2B#8, 0xFE#8, 0xD7#8, 0xAB#8, 0x76#8,
  0xCA#8, 0x82#8, 0xC9#8, 0x7D#8, 0xFA#8, 0x59#8, 0x47#8, 0xF0#8, 0xAD#8, 0xD4#8, 0xA2#8, 0xAF#8, 0x9C#8, 0xA4#8, 0x72#8, 0xC0#8,
  0xB7#8, 0xFD#8, 0x93#8, 0x26#8, 0x36#8, 0x3F#8, 0xF7#8, 0xCC#8, 0x34#8, 0xA5#8, 0xE5#8, 0xF1#8, 0x71#8, 0xD8#8, 0x31#8, 0x15#8,
  0x04#8, 0xC7#8, 0x23#8, 0xC3#8, 0x18#8, 0x96#8, 0x05#8, 0x9A#8, 0x07#8, 0x12#8, 0x80#8, 0xE2#8, 0xEB#8, 0x27#8, 0xB2#8, 0x75#8,
  0x09#8, 0x83#8, 0x2C#8, 0x1A#8, 0x1B#8, 0x6E#8, 0x5A#8, 0xA0#8, 0x52#8, 0x3B#8, 0xD6#8, 0xB3#8, 0x29#8, 0xE3#8, 0x2F#8, 0x84#8,
  0x53#8, 0xD1#8, 0x00#8, 0xED#8, 0x20#8, 0xFC#8, 0xB1#8, 0x5B#8, 0x6A#8, 0xCB#8, 0xBE#8, 0x39#8, 0x4A#8, 0x4C#8, 0x58#8, 0xCF#8,
  0xD0#8, 0xEF#8, 0xAA#8, 0xFB#8, 0x43#8, 0x4D#8, 0x33#8, 0x85#8, 0x45#8, 0xF9#8, 0x02#8, 0x7F#8, 0x50#8, 0x3C#8, 0x9F#8, 0xA8#8,
  0x51#8, 0xA3#8, 0x40#8, 0x8F#8, 0x92#8, 0x9D#8, 0x38#8, 0xF5#8, 0xBC#8, 0xB6#8, 0xDA#8, 0x21#8, 0x10#8, 0xFF#8, 0xF3#8, 0xD2#8,
  0xCD#8, 0x0C#8, 0x13#8, 0xEC#8, 0x5F#8, 0x97#8, 0x44#8, 0x17#8, 0xC4#8, 0xA7#8, 0x7E#8, 0x3D#8, 0x64#8, 0x5D#8, 0x19#8, 0x73#8,
  0x60#8, 0x81#8, 0x4F#8, 0xDC#8, 0x22#8, 0x2A#8, 0x90#8, 0x88#8, 0x46#8, 0xEE#8, 0xB8#8, 0x14#8, 0xDE#8, 0x5E#8, 0x0B#8, 0xDB#8,
  0xE0#8, 0x32#8, 0x3A#8, 0x0A#8, 0x49#8, 0x06#8, 0x24#8, 0x5C#8, 0xC2#8, 0xD3#8, 0xAC#8, 0x62#8, 0x91#8, 0x95#8, 0xE4#8, 0x79#8,
  0xE7#8, 0xC8#8, 0x37#8, 0x6D#8, 0x8D#8, 0xD5#8, 0x4E#8, 0xA9#8, 0x6C#8, 0x56#8, 0xF4#8, 0xEA#8, 0x65#8, 0x7A#8, 0xAE#8, 0x08#8,
  0xBA#8, 0x78#8, 0x25#8, 0x2E#8, 0x1C#8, 0xA6#8, 0xB4#8, 0xC6#8, 0xE8#8, 0xDD#8, 0x74#8, 0x1F#8, 0x4B#8, 0xBD#8, 0x8B#8, 0x8A#8,
  0x70#8, 0x3E#8, 0xB5#8, 0x66#8, 0x48#8, 0x03#8, 0xF6#8, 0x0E#8, 0x61#8, 0x35#8, 0x57#8, 0xB9#8, 0x86#8, 0xC1#8, 0x1D#8, 0x9E#8,
  0xE1#8, 0xF8#8, 0x98#8, 0x11#8, 0x69#8, 0xD9#8, 0x8E#8, 0x94#8, 0x9B#8, 0x1E#8, 0x87#8, 0xE9#8, 0xCE#8, 0x55#8, 0x28#8, 0xDF#8,
  0x8C#8, 0xA1#8, 0x89#8, 0x0D#8, 0xBF#8, 0xE6#8, 0x42#8, 0x68#8, 0x41#8, 0x99#8, 0x2D#8, 0x0F#8, 0xB0#8, 0x54#8, 0xBB#8, 0x16#8]

/-- `kryptos_aes_sbox_1` (src/kryptos_aes.c:85-102). -/
def invSboxTable : List Byte := [
  0x52#8, 0x09#8, 0x6A#8, 0xD5#8, 0x30#8, 0x36#8, 0xA5#8, 0x38#8, 0xBF#8, 0x40#8, 0xA3#8, 0x9E#8, 0x81#8, 0xF3#8, 0xD7#8, 0xFB#8,
  0x7C#8, 0xE3#8, 0x39#8, 0x82#8, 0x9B#8, 0x2F#8, 0xFF#8, 0x87#8, 0x34#8, 0x8E#8, 0x43#8, 0x44#8, 0xC4#8, 0xDE#8, 0xE9#8, 0xCB#8,
  0x54#8, 0x7B#8, 0x94#8, 0x32#8, 0xA6#8, 0xC2#8, 0x23#8, 0x3D#8, 0xEE#8, 0x4C#8, 0x95#8, 0x0B#8, 0x42#8, 0xFA#8, 0xC3#8, 0x4E#8,
  0x08#8, 0x2E#8, 0xA1#8, 0x66#8, 0x28#8, 0xD9#8, 0x24#8, 0xB2#8, 0x76#8, 0x5B#8, 0xA2#8, 0x49#8, 0x6D#8, 0x8B#8, 0xD1#8, 0x25#8,
  0x72#8, 0xF8#8, 0xF6#8, 0x64#8, 0x86#8, 0x68#8, 0x98#8, 0x16#8, 0xD4#8, 0xA4#8, 0x5C#8, 0xCC#8, 0x5D#8, 0x65#8, 0xB6#8, 0x92#8,
  0x6C#8, 0x70#8, 0x48#8, 0x50#8, 0xFD#8, 0xED#8, 0xB9#8, 0xDA#8, 0x5E#8, 0x15#8, 0x46#8, 0x57#8, 0xA7#8, 0x8D#8, 0x9D#8, 0x84#8,
  0x90#8, 0xD8#8, 0xAB#8, 0x00#8, 0x8C#8, 0xBC#8, 0xD3#8, 0x0A#8, 0xF7#8, 0xE4#8, 0x58#8, 0x05#8, 0xB8#8, 0xB3#8, 0x45#8, 0x06#8,
  0xD0#8, 0x2C#8, 0x1E#8, 0x8F#8, 0xCA#8, 0x3F#8, 0x0F#8, 0x02#8, 0xC1#8, 0xAF#8, 0xBD#8, 0x03#8, 0x01#8, 0x13#8, 0x8A#8, 0x6B#8,
  0x3A#8, 0x91#8, 0x11#8, 0x41#8, 0x4F#8, 0x67#8, 0xDC#8, 0xEA#8, 0x97#8, 0xF2#8, 0xCF#8, 0xCE#8, 0xF0#8, 0xB4#8, 0xE6#8, 0x73#8,
  0x96#8, 0xAC#8, 0x74#8, 0x22#8, 0xE7#8, 0xAD#8, 0x35#8, 0x85#8, 0xE2#8, 0xF9#8, 0x37#8, 0xE8#8, 0x1C#8, 0x75#8, 0xDF#8, 0x6E#8,
  0x47#8, 0xF1#8, 0x1A#8, 0x71#8, 0x1D#8, 0x29#8, 0xC5#8, 0x89#8, 0x6F#8, 0xB7#8, 0x62#8, 0x0E#8, 0xAA#8, 0x18#8, 0xBE#8, 0x1B#8,
  0xFC#8, 0x56#8, 0x3E#8, 0x4B#8, 0xC6#8, 0xD2#8, 0x79#8, 0x20#8, 0x9A#8, 0xDB#8, 0xC0#8, 0xFE#8, 0x78#8, 0xCD#8, 0x5A#8, 0xF4#8,
  0x1F#8, 0xDD#8, 0xA8#8, 0x33#8, 0x88#8, 0x07#8, 0xC7#8, 0x31#8, 0xB1#8, 0x12#8, 0x10#8, 0x59#8, 0x27#8, 0x80#8, 0xEC#8, 0x5F#8,
  0x60#8, 0x51#8, 0x7F#8, 0xA9#8, 0x19#8, 0xB5#8, 0x4A#8, 0x0D#8, 0x2D#8, 0xE5#8, 0x7A#8, 0x9F#8, 0x93#8, 0xC9#8, 0x9C#8, 0xEF#8,
  0xA0#8, 0xE0#8, 0x3B#8, 0x4D#8, 0xAE#8, 0x2A#8, 0xF5#8, 0xB0#8, 0xC8#8, 0xEB#8, 0xBB#8, 0x3C#8, 0x83#8, 0x53#8, 0x99#8, 0x61#8,
  0x17#8, 0x2B#8, 0x04#8, 0x7E#8, 0xBA#8, 0x77#8, 0xD6#8, 0x26#8, 0xE1#8, 0x69#8, 0x14#8, 0x63#8, 0x55#8, 0x21#8, 0x0C#8, 0x7D#8]

/-- `kryptos_aes_ptable` (src/kryptos_aes.c:106-119). -/
def pTable : List Byte := [
  0x01#8, 0x03#8, 0x05#8, 0x0F#8, 0x11#8, 0x33#8, 0x55#8, 0xFF#8, 0x1A#8, 0x2E#8, 0x72#8, 0x96#8, 0xA1#8, 0xF8#8, 0x13#8, 0x35#8,
  0x5F#8, 0xE1#8, 0x38#8, 0x48#8, 0xD8#8, 0x73#8, 0x95#8, 0xA4#8, 0xF7#8, 0x02#8, 0x06#8, 0x0A#8, 0x1E#8, 0x22#8, 0x66#8, 0xAA#8,
  0xE5#8, 0x34#8, 0x5C#8, 0xE4#8, 0x37#8, 0x59#8, 0xEB#8, 0x26#8, 0x6A#8, 0xBE#8, 0xD9#8, 0x70#8, 0x90#8, 0xAB#8, 0xE6#8, 0x31#8,
  0x53#8, 0xF5#8, 0x04#8, 0x0C#8, 0x14#8, 0x3C#8, 0x44#8, 0xCC#8, 0x4F#8, 0xD1#8, 0x68#8, 0xB8#8, 0xD3#8, 0x6E#8, 0xB2#8, 0xCD#8,
  0x4C#8, 0xD4#8, 0x67#8, 0xA9#8, 0xE0#8, 0x3B#8, 0x4D#8, 0xD7#8, 0x62#8, 0xA6#8, 0xF1#8, 0x08#8, 0x18#8, 0x28#8, 0x78#8, 0x88#8,
  0x83#8, 0x9E#8, 0xB9#8, 0xD0#8, 0x6B#8, 0xBD#8, 0xDC#8, 0x7F#8, 0x81#8, 0x98#8, 0xB3#8, 0xCE#8, 0x49#8, 0xDB#8, 0x76#8, 0x9A#8,
  0xB5#8, 0xC4#8, 0x57#8, 0xF9#8, 0x10#8, 0x30#8, 0x50#8, 0xF0#8, 0x0B#8, 0x1D#8, 0x27#8, 0x69#8, 0xBB#8, 0xD6#8, 0x61#8, 0xA3#8,
  0xFE#8, 0x19#8, 0x2B#8, 0x7D#8, 0x87#8, 0x92#8, 0xAD#8, 0xEC#8, 0x2F#8, 0x71#8, 0x93#8, 0xAE#8, 0xE9#8, 0x20#8, 0x60#8, 0xA0#8,
  0xFB#8, 0x16#8, 0x3A#8, 0x4E#8, 0xD2#8, 0x6D#8, 0xB7#8, 0xC2#8, 0x5D#8, 0xE7#8, 0x32#8, 0x56#8, 0xFA#8, 0x15#8, 0x3F#8, 0x41#8,
  0xC3#8, 0x5E#8, 0xE2#8, 0x3D#8, 0x47#8, 0xC9#8, 0x40#8, 0xC0#8, 0x5B#8, 0xED#8, 0x2C#8, 0x74#8, 0x9C#8, 0xBF#8, 0xDA#8, 0x75#8,
  0x9F#8, 0xBA#8, 0xD5#8, 0x64#8, 0xAC#8, 0xEF#8, 0x2A#8, 0x7E#8, 0x82#8, 0x9D#8, 0xBC#8, 0xDF#8, 0x7A#8, 0x8E#8, 0x89#8, 0x80#8,
  0x9B#8, 0xB6#8, 0xC1#8, 0x58#8, 0xE8#8, 0x23#8, 0x65#8, 0xAF#8, 0xEA#8, 0x25#8, 0x6F#8, 0xB1#8, 0xC8#8, 0x43#8, 0xC5#8, 0x54#8,
  0xFC#8, 0x1F#8, 0x21#8, 0x63#8, 0xA5#8, 0xF4#8, 0x07#8, 0x09#8, 0x1B#8, 0x2D#8, 0x77#8, 0x99#8, 0xB0#8, 0xCB#8, 0x46#8, 0xCA#8,
  0x45#8, 0xCF#8, 0x4A#8, 0xDE#8, 0x79#8, 0x8B#8, 0x86#8, 0x91#8, 0xA8#8, 0xE3#8, 0x3E#8, 0x42#8, 0xC6#8, 0x51#8, 0xF3#8, 0x0E#8,
  0x12#8, 0x36#8, 0x5A#8, 0xEE#8, 0x29#8, 0x7B#8, 0x8D#8, 0x8C#8, 0x8F#8, 0x8A#8, 0x85#8, 0x94#8, 0xA7#8, 0xF2#8, 0x0D#8, 0x17#8,
  0x39#8, 0x4B#8, 0xDD#8, 0x7C#8, 0x84#8, 0x97#8, 0xA2#8, 0xFD#8, 0x1C#8, 0x24#8, 0x6C#8, 0xB4#8, 0xC7#8, 0x52#8, 0xF6#8, 0x01#8]

/-- `kryptos_aes_ltable` (src/kryptos_aes.c:121-134). -/
def lTable : List Byte := [
  0x00#8, 0xFF#8, 0x19#8, 0x01#8, 0x32#8, 0x02#8, 0x1A#8, 0xC6#8, 0x4B#8, 0xC7#8, 0x1B#8, 0x68#8, 0x33#8, 0xEE#8, 0xDF#8, 0x03#8,
  0x64#8, 0x04#8, 0xE0#8, 0x0E#8, 0x34#8, 0x8D#8, 0x81#8, 0xEF#8, 0x4C#8, 0x71#8, 0x08#8, 0xC8#8, 0xF8#8, 0x69#8, 0x1C#8, 0xC1#8,
  0x7D#8, 0xC2#8, 0x1D#8, 0xB5#8, 0xF9#8, 0xB9#8, 0x27#8, 0x6A#8, 0x4D#8, 0xE4#8, 0xA6#8, 0x72#8, 0x9A#8, 0xC9#8, 0x09#8, 0x78#8,
  0x65#8, 0x2F#8, 0x8A#8, 0x05#8, 0x21#8, 0x0F#8, 0xE1#8, 0x24#8, 0x12#8, 0xF0#8, 0x82#8, 0x45#8, 0x35#8, 0x93#8, 0xDA#8, 0x8E#8,
  0x96#8, 0x8F#8, 0xDB#8, 0xBD#8, 0x36#8, 0xD0#8, 0xCE#8, 0x94#8, 0x13#8, 0x5C#8, 0xD2#8, 0xF1#8, 0x40#8, 0x46#8, 0x83#8, 0x38#8,
  0x66#8, 0xDD#8, 0xFD#8, 0x30#8, 0xBF#8, 0x06#8, 0x8B#8, 0x62#8, 0xB3#8, 0x25#8, 0xE2#8, 0x98#8, 0x22#8, 0x88#8, 0x91#8, 0x10#8,
  0x7E#8, 0x6E#8, 0x48#8, 0xC3#8, 0xA3#8, 0xB6#8, 0x1E#8, 0x42#8, 0x3A#8, 0x6B#8, 0x28#8, 0x54#8, 0xFA#8, 0x85#8, 0x3D#8, 0xBA#8,
  0x2B#8, 0x79#8, 0x0A#8, 0x15#8, 0x9B#8, 0x9F#8, 0x5E#8, 0xCA#8, 0x4E#8, 0xD4#8, 0xAC#8, 0xE5#8, 0xF3#8, 0x73#8, 0xA7#8, 0x57#8,
  0xAF#8, 0x58#8, 0xA8#8, 0x50#8, 0xF4#8, 0xEA#8, 0xD6#8, 0x74#8, 0x4F#8, 0xAE#8, 0xE9#8, 0xD5#8, 0xE7#8, 0xE6#8, 0xAD#8, 0xE8#8,
  0x2C#8, 0xD7#8, 0x75#8, 0x7A#8, 0xEB#8, 0x16#8, 0x0B#8, 0xF5#8, 0x59#8, 0xCB#8, 0x5F#8, 0xB0#8, 0x9C#8, 0xA9#8, 0x51#8, 0xA0#8,
  0x7F#8, 0x0C#8, 0xF6#8, 0x6F#8, 0x17#8, 0xC4#8, 0x49#8, 0xEC#8, 0xD8#8, 0x43#8, 0x1F#8, 0x2D#8, 0xA4#8, 0x76#8, 0x7B#8, 0xB7#8,
  0xCC#8, 0xBB#8, 0x3E#8, 0x5A#8, 0xFB#8, 0x60#8, 0xB1#8, 0x86#8, 0x3B#8, 0x52#8, 0xA1#8, 0x6C#8, 0xAA#8, 0x55#8, 0x29#8, 0x9D#8,
  0x97#8, 0xB2#8, 0x87#8, 0x90#8, 0x61#8, 0xBE#8, 0xDC#8, 0xFC#8, 0xBC#8, 0x95#8, 0xCF#8, 0xCD#8, 0x37#8, 0x3F#8, 0x5B#8, 0xD1#8,
  0x53#8, 0x39#8, 0x84#8, 0x3C#8, 0x41#8, 0xA2#8, 0x6D#8, 0x47#8, 0x14#8, 0x2A#8, 0x9E#8, 0x5D#8, 0x56#8, 0xF2#8, 0xD3#8, 0xAB#8,
  0x44#8, 0x11#8, 0x92#8, 0xD9#8, 0x23#8, 0x20#8, 0x2E#8, 0x89#8, 0xB4#8, 0x7C#8, 0xB8#8, 0x26#8, 0x77#8, 0x99#8, 0xE3#8, 0xA5#8,
  0x67#8, 0x4A#8, 0xED#8, 0xDE#8, 0xC5#8, 0x31#8, 0xFE#8, 0x18#8, 0x0D#8, 0x63#8, 0x8C#8, 0x80#8, 0xC0#8, 0xF7#8, 0x70#8, 0x07#8]

theorem length_sboxTable : sboxTable.length = 256 := by decide +kernel
theorem length_invSboxTable : invSboxTable.length = 256 := by decide +kernel
theorem length_pTable : pTable.length = 256 := by decide +kernel
theorem length_lTable : lTable.length = 256 := by decide +kernel

/-- `sbox[b >> 4][b & 0x0f]` (src/kryptos_aes.c:237); the place in the table is `16 * (b >> 4) + (b & 0x0f)`, which is `b`. -/
def look (t : List Byte) (ht : t.length = 256) (b : Byte) : Byte := t[b.toNat]'(by rw [ht]; exact b.isLt)

def sbox (b : Byte) : Byte := look sboxTable length_sboxTable b
def invSbox (b : Byte) : Byte := look invSboxTable length_invSboxTable b

/-- `kryptos_aes_subbytes` (src/kryptos_aes.c:233-240) for all four bytes of a word, put together again as in `kryptos_aes_h`
(src/kryptos_aes.c:509-512). -/
def subWord (v : W32) : W32 :=
  ((sbox (getU8 v 0)).setWidth 32 <<< 24) ||| ((sbox (getU8 v 1)).setWidth 32 <<< 16) |||
    ((sbox (getU8 v 2)).setWidth 32 <<< 8) ||| (sbox (getU8 v 3)).setWidth 32

/-- `kryptos_aes_g` (src/kryptos_aes.c:34-38). -/
def g (v rc : W32) : W32 := rc ^^^ rotl (subWord v) 8

/-- `kryptos_aes_mul_xy` (src/kryptos_aes.c:575-581). -/
def mulXY (x y : Byte) : Byte :=
  if x ≠ 0 ∧ y ≠ 0 then
    pTable[((look lTable length_lTable x).toNat + (look lTable length_lTable y).toNat) % 255]'(by
      rw [length_pTable]; exact Nat.lt_trans (Nat.mod_lt _ (by decide)) (by decide))
  else 0

/-- One byte of a product with a row of constants (for instance src/kryptos_aes.c:597-600). -/
def rowMul (w d : Four Byte) : Byte := mulXY w.a d.a ^^^ mulXY w.b d.b ^^^ mulXY w.c d.c ^^^ mulXY w.d d.d

/-- The product of a column with the four rows given as words (src/kryptos_aes.c:583-636, 638-691). -/
def mulCol (r0 r1 r2 r3 : W32) (value : W32) : W32 :=
  let wb := unpack value
  pack ⟨rowMul wb (unpack r0), rowMul wb (unpack r1), rowMul wb (unpack r2), rowMul wb (unpack r3)⟩

/-- `kryptos_aes_mix_col` (src/kryptos_aes.c:583-636, constants 23-26). -/
def mixCol (value : W32) : W32 := mulCol 0x02030101#32 0x01020301#32 0x01010203#32 0x03010102#32 value

/-- `kryptos_aes_inv_mix_col` (src/kryptos_aes.c:638-691, constants 29-32). -/
def invMixCol (value : W32) : W32 := mulCol 0x0E0B0D09#32 0x090E0B0D#32 0x0D090E0B#32 0x0B0D090E#32 value

/-! ### Key schedule -/

/-- `kryptos_aes128_eval_skey_chunk` (src/kryptos_aes.c:322-327): `W` are the words so far. -/
def chunk128 (W : List W32) (w i : Nat) : Out (List W32) := do
  let x4 := (← rd W w) ^^^ g (← rd W (w + 3)) (← rd rcon i)
  let x5 := (← rd W (w + 1)) ^^^ x4
  let x6 := (← rd W (w + 2)) ^^^ x5
  let x7 := (← rd W (w + 3)) ^^^ x6
  return W ++ [x4, x5, x6, x7]

/-- `kryptos_aes192_eval_skey_chunk_head` (src/kryptos_aes.c:407-412). -/
def head192 (W : List W32) (w i : Nat) : Out (List W32) := do
  let x6 := (← rd W w) ^^^ g (← rd W (w + 5)) (← rd rcon i)
  let x7 := x6 ^^^ (← rd W (w + 1))
  let x8 := x7 ^^^ (← rd W (w + 2))
  let x9 := x8 ^^^ (← rd W (w + 3))
  return W ++ [x6, x7, x8, x9]

/-- `kryptos_aes192_eval_skey_chunk_tail` (src/kryptos_aes.c:414-417). -/
def tail192 (W : List W32) (w : Nat) : Out (List W32) := do
  let x10 := (← rd W (w + 9)) ^^^ (← rd W (w + 4))
  let x11 := x10 ^^^ (← rd W (w + 5))
  return W ++ [x10, x11]

/-- `kryptos_aes256_eval_skey_chunk_head` (src/kryptos_aes.c:514-519). -/
def head256 (W : List W32) (w i : Nat) : Out (List W32) := do
  let x8 := (← rd W w) ^^^ g (← rd W (w + 7)) (← rd rcon i)
  let x9 := (← rd W (w + 1)) ^^^ x8
  let x10 := (← rd W (w + 2)) ^^^ x9
  let x11 := (← rd W (w + 3)) ^^^ x10
  return W ++ [x8, x9, x10, x11]

/-- `kryptos_aes256_eval_skey_chunk_tail` (src/kryptos_aes.c:521-526). -/
def tail256 (W : List W32) (w : Nat) : Out (List W32) := do
  let x12 := (← rd W (w + 4)) ^^^ subWord (← rd W (w + 11))
  let x13 := (← rd W (w + 5)) ^^^ x12
  let x14 := (← rd W (w + 6)) ^^^ x13
  let x15 := (← rd W (w + 7)) ^^^ x14
  return W ++ [x12, x13, x14, x15]

/-- `kryptos_aes_sto_u32_into_byte_matrix` (src/kryptos_aes.c:221-231). -/
def stoMatrix (W : List W32) (i : Nat) : Out Mat := do
  return ⟨unpack (← rd W i), unpack (← rd W (i + 1)), unpack (← rd W (i + 2)), unpack (← rd W (i + 3))⟩

/-- The round keys `0 … nr` (for instance src/kryptos_aes.c:346-356). -/
def storeAll (W : List W32) (nr : Nat) : Out (List Mat) := (List.range (nr + 1)).mapM fun r => stoMatrix W (4 * r)

/-- The expanded key of `kryptos_aes128_eval_skeys` (src/kryptos_aes.c:315-342). -/
def words128 (key : Bytes) : Out (List W32) :=
  forLoop (fun i W => chunk128 W (4 * i) i) 10 0 (KeyLoad.ldUserKey 4 4 key)

/-- The expanded key of `kryptos_aes192_eval_skeys` (src/kryptos_aes.c:396-436). -/
def words192 (key : Bytes) : Out (List W32) := do
  let W ← forLoop (fun i W => do tail192 (← head192 W (6 * i) i) (6 * i)) 7 0 (KeyLoad.ldUserKey 4 6 key)
  head192 W 42 7

/-- The expanded key of `kryptos_aes256_eval_skeys` (src/kryptos_aes.c:502-543). -/
def words256 (key : Bytes) : Out (List W32) := do
  let W ← forLoop (fun i W => do tail256 (← head256 W (8 * i) i) (8 * i)) 6 0 (KeyLoad.ldUserKey 4 8 key)
  head256 W 48 6

/-- `kryptos_aes128_eval_skeys`, `kryptos_aes192_eval_skeys` and `kryptos_aes256_eval_skeys`: the round keys. -/
def subkeys128 (key : Bytes) : Out (List Mat) := do storeAll (← words128 key) 10
def subkeys192 (key : Bytes) : Out (List Mat) := do storeAll (← words192 key) 12
def subkeys256 (key : Bytes) : Out (List Mat) := do storeAll (← words256 key) 14

/-! ### Blocks -/

/-- AddRoundKey (src/kryptos_aes.c:717-722). -/
def addKey (s k : Mat) : Mat := s.zip (fun x y => x.zip (· ^^^ ·) y) k

/-- SubBytes (src/kryptos_aes.c:725-735, 875-885): every column is packed into a word and its bytes are replaced. -/
def subBytes (box : Byte → Byte) (s : Mat) : Mat := s.map fun col => (unpack (pack col)).map box

/-- ShiftRows (src/kryptos_aes.c:738-753, 858-872): the rows 1 to 3 are packed, rotated and written back. -/
def shiftRows (r1 r2 r3 : Nat) (s : Mat) : Mat :=
  let w1 := unpack (rotl (pack ⟨s.a.b, s.b.b, s.c.b, s.d.b⟩) r1)
  let w2 := unpack (rotl (pack ⟨s.a.c, s.b.c, s.c.c, s.d.c⟩) r2)
  let w3 := unpack (rotl (pack ⟨s.a.d, s.b.d, s.c.d, s.d.d⟩) r3)
  ⟨⟨s.a.a, w1.a, w2.a, w3.a⟩, ⟨s.b.a, w1.b, w2.b, w3.b⟩, ⟨s.c.a, w1.c, w2.c, w3.c⟩, ⟨s.d.a, w1.d, w2.d, w3.d⟩⟩

/-- MixColumns (src/kryptos_aes.c:755-769, 835-850). -/
def mixColumns (m : W32 → W32) (s : Mat) : Mat := s.map fun col => unpack (m (pack col))

/-- The state from a block (src/kryptos_aes.c:699-714). -/
def load (block : Bytes) : Out Mat := do
  return ⟨⟨← rd block 0, ← rd block 1, ← rd block 2, ← rd block 3⟩, ⟨← rd block 4, ← rd block 5, ← rd block 6, ← rd block 7⟩,
    ⟨← rd block 8, ← rd block 9, ← rd block 10, ← rd block 11⟩, ⟨← rd block 12, ← rd block 13, ← rd block 14, ← rd block 15⟩⟩

/-- The block from a state (src/kryptos_aes.c:780-795). -/
def store (s : Mat) : Bytes :=
  [s.a.a, s.a.b, s.a.c, s.a.d, s.b.a, s.b.b, s.b.c, s.b.d, s.c.a, s.c.b, s.c.c, s.c.d, s.d.a, s.d.b, s.d.c, s.d.d]

/-- The round `r` of `kryptos_aes_block_encrypt` (src/kryptos_aes.c:724-778). -/
def encRound (sks : List Mat) (nr r : Nat) (s : Mat) : Out Mat := do
  let s := shiftRows 8 16 24 (subBytes sbox s)
  let k ← rd sks r
  return addKey (if r < nr then mixColumns mixCol s else s) k

/-- `kryptos_aes_block_encrypt` (src/kryptos_aes.c:693-800). -/
def encBlock (sks : List Mat) (nr : Nat) (block : Bytes) : Out Bytes := do
  let s ← load block
  let k ← rd sks 0
  let s ← forLoop (fun r => encRound sks nr r) nr 1 (addKey k s)
  return store s

/-- The round `r` of `kryptos_aes_block_decrypt` (src/kryptos_aes.c:826-886). -/
def decRound (sks : List Mat) (nr r : Nat) (s : Mat) : Out Mat := do
  let k ← rd sks r
  let s := addKey s k
  let s := if r < nr then mixColumns invMixCol s else s
  return subBytes invSbox (shiftRows 24 16 8 s)

/-- `kryptos_aes_block_decrypt` (src/kryptos_aes.c:802-915): the rounds run from `nr` down to 1. -/
def decBlock (sks : List Mat) (nr : Nat) (block : Bytes) : Out Bytes := do
  let s ← load block
  let s ← forLoop (fun j => decRound sks nr (nr - j)) nr 0 s
  let k ← rd sks 0
  return store (addKey k s)

/-- The block functions for a key. -/
def enc128 (key block : Bytes) : Out Bytes := do encBlock (← subkeys128 key) 10 block
def dec128 (key block : Bytes) : Out Bytes := do decBlock (← subkeys128 key) 10 block
def enc192 (key block : Bytes) : Out Bytes := do encBlock (← subkeys192 key) 12 block
def dec192 (key block : Bytes) : Out Bytes := do decBlock (← subkeys192 key) 12 block
def enc256 (key block : Bytes) : Out Bytes := do encBlock (← subkeys256 key) 14 block
def dec256 (key block : Bytes) : Out Bytes := do decBlock (← subkeys256 key) 14 block

end Kryptos.Aes
