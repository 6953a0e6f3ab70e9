import Verif.Model.MdCommon
/-
  Model of src/kryptos_md5.c.
-/
namespace Kryptos.Md5
open Hash Md

/-- The names of the round functions. -/
inductive Fn where
  | f | g | h | i
  deriving DecidableEq

/-- `kryptos_md5_F`, `kryptos_md5_G`, `kryptos_md5_H`, `kryptos_md5_I` (src/kryptos_md5.c:19-25). -/
def Fn.ap : Fn → W32 → W32 → W32 → W32
  | .f, x, y, z => (x &&& y) ||| (~~~x &&& z)
  | .g, x, y, z => (x &&& z) ||| (y &&& ~~~z)
  | .h, x, y, z => x ^^^ y ^^^ z
  | .i, x, y, z => y ^^^ (x ||| ~~~z)

/-- `kryptos_md5_step` (src/kryptos_md5.c:31). -/
def line (fn : Fn) (a b c d x t : W32) (s : Nat) : W32 := b + rotl (a + fn.ap b c d + x + t) s

/-- The steps (src/kryptos_md5.c:164-233). -/
def steps : List (Step Fn) := [
  ⟨.A, .f, 0, 0xD76AA478#32, 7⟩, ⟨.D, .f, 1, 0xE8C7B756#32, 12⟩, ⟨.C, .f, 2, 0x242070DB#32, 17⟩, ⟨.B, .f, 3, 0xC1BDCEEE#32, 22⟩,
  ⟨.A, .f, 4, 0xF57C0FAF#32, 7⟩, ⟨.D, .f, 5, 0x4787C62A#32, 12⟩, ⟨.C, .f, 6, 0xA8304613#32, 17⟩, ⟨.B, .f, 7, 0xFD469501#32, 22⟩,
  ⟨.A, .f, 8, 0x698098d8#32, 7⟩, ⟨.D, .f, 9, 0x8B44F7AF#32, 12⟩, ⟨.C, .f, 10, 0xFFFF5BB1#32, 17⟩, ⟨.B, .f, 11, 0x895CD7BE#32, 22⟩,
  ⟨.A, .f, 12, 0x6B901122#32, 7⟩, ⟨.D, .f, 13, 0xFD987193#32, 12⟩, ⟨.C, .f, 14, 0xA679438E#32, 17⟩, ⟨.B, .f, 15, 0x49B40821#32, 22⟩,
  ⟨.A, .g, 1, 0xF61E2562#32, 5⟩, ⟨.D, .g, 6, 0xC040B340#32, 9⟩, ⟨.C, .g, 11, 0x265E5A51#32, 14⟩, ⟨.B, .g, 0, 0xE9B6C7AA#32, 20⟩,
  ⟨.A, .g, 5, 0xD62F105D#32, 5⟩, ⟨.D, .g, 10, 0x02441453#32, 9⟩, ⟨.C, .g, 15, 0xD8A1E681#32, 14⟩, ⟨.B, .g, 4, 0xE7D3FBC8#32, 20⟩,
  ⟨.A, .g, 9, 0x21E1CDE6#32, 5⟩, ⟨.D, .g, 14, 0xC33707D6#32, 9⟩, ⟨.C, .g, 3, 0xF4D50D87#32, 14⟩, ⟨.B, .g, 8, 0x455A14ED#32, 20⟩,
  ⟨.A, .g, 13, 0xA9E3E905#32, 5⟩, ⟨.D, .g, 2, 0xFCEFA3f8#32, 9⟩, ⟨.C, .g, 7, 0x676F02D9#32, 14⟩, ⟨.B, .g, 12, 0x8D2A4C8A#32, 20⟩,
  ⟨.A, .h, 5, 0xFFFA3942#32, 4⟩, ⟨.D, .h, 8, 0x8771F681#32, 11⟩, ⟨.C, .h, 11, 0x6D9D6122#32, 16⟩, ⟨.B, .h, 14, 0xFDE5380C#32, 23⟩,
  ⟨.A, .h, 1, 0xA4BEEA44#32, 4⟩, ⟨.D, .h, 4, 0x4BDECFA9#32, 11⟩, ⟨.C, .h, 7, 0xF6BB4B60#32, 16⟩, ⟨.B, .h, 10, 0xBEBFBC70#32, 23⟩,
  ⟨.A, .h, 13, 0x289B7EC6#32, 4⟩, ⟨.D, .h, 0, 0xEAA127FA#32, 11⟩, ⟨.C, .h, 3, 0xD4EF3085#32, 16⟩, ⟨.B, .h, 6, 0x04881D05#32, 23⟩,
  ⟨.A, .h, 9, 0xD9D4D039#32, 4⟩, ⟨.D, .h, 12, 0xE6DB99E5#32, 11⟩, ⟨.C, .h, 15, 0x1FA27CF8#32, 16⟩, ⟨.B, .h, 2, 0xC4AC5665#32, 23⟩,
  ⟨.A, .i, 0, 0xF4292244#32, 6⟩, ⟨.D, .i, 7, 0x432AFF97#32, 10⟩, ⟨.C, .i, 14, 0xAB9423A7#32, 15⟩, ⟨.B, .i, 5, 0xFC93A039#32, 21⟩,
  ⟨.A, .i, 12, 0x655B59C3#32, 6⟩, ⟨.D, .i, 3, 0x8F0CCC92#32, 10⟩, ⟨.C, .i, 10, 0xFFEFF47D#32, 15⟩, ⟨.B, .i, 1, 0x85845DD1#32, 21⟩,
  ⟨.A, .i, 8, 0x6FA87E4F#32, 6⟩, ⟨.D, .i, 15, 0xFE2CE6E0#32, 10⟩, ⟨.C, .i, 6, 0xA3014314#32, 15⟩, ⟨.B, .i, 13, 0x4E0811A1#32, 21⟩,
  ⟨.A, .i, 4, 0xF7537E82#32, 6⟩, ⟨.D, .i, 11, 0xBD3AF235#32, 10⟩, ⟨.C, .i, 2, 0x2AD7D2BB#32, 15⟩, ⟨.B, .i, 9, 0xEB86D391#32, 21⟩]

/-- `kryptos_md5_init` (src/kryptos_md5.c:118-124). -/
def init : Four 32 := ⟨0x67452301#32, 0xEFCDAB89#32, 0x98BADCFE#32, 0x10325476#32⟩

/-- The compression in `kryptos_md5_do_block` (src/kryptos_md5.c:141-238). -/
def compress (st : Four 32) (block : List W32) : Out (Four 32) := do
  let X ← revBlock block
  let s ← steps.foldlM (step line X) st
  return ⟨st.a + s.a, st.b + s.b, st.c + s.c, st.d + s.d⟩

/-- The instantiation of the message processor (src/kryptos_md5.c:76-77). -/
def alg : Alg 32 (Four 32) where
  wb := 4
  nr := 16
  tab := tab
  lenOff := 56
  tok := 0x80#8
  putLen := putLen32
  fix := Md.fix
  init := init
  compress := compress

/-- `kryptos_md5_hash` (src/kryptos_md5.c:83-116). -/
def hash (stale : List W32) : HashFn := hashOf alg (fun s => raw s.words) (fun s => hex s.words) stale

end Kryptos.Md5
