import Verif.Model.MdCommon
/-
  Model of src/kryptos_md4.c.
-/
namespace Kryptos.Md4
open Hash Md

/-- The names of the round functions. -/
inductive Fn where
  | f | g | h
  deriving DecidableEq

/-- `kryptos_md4_F`, `kryptos_md4_G`, `kryptos_md4_H` (src/kryptos_md4.c:20-24). -/
def Fn.ap : Fn → W32 → W32 → W32 → W32
  | .f, x, y, z => (x &&& y) ||| (~~~x &&& z)
  | .g, x, y, z => (x &&& y) ||| (x &&& z) ||| (y &&& z)
  | .h, x, y, z => x ^^^ y ^^^ z

/-- `KRYPTOS_MD4DELTA0` to `KRYPTOS_MD4DELTA2` (src/kryptos_md4.c:28-32). -/
def delta0 : W32 := 0x00000000#32
def delta1 : W32 := 0x5A827999#32
def delta2 : W32 := 0x6ED9EBA1#32

/-- `kryptos_md4_step` (src/kryptos_md4.c:38). -/
def line (fn : Fn) (a b c d x t : W32) (s : Nat) : W32 := rotl (a + fn.ap b c d + x + t) s

/-- The steps (src/kryptos_md4.c:185-236). -/
def steps : List (Step Fn) := [
  ⟨.A, .f, 0, delta0, 3⟩, ⟨.D, .f, 1, delta0, 7⟩, ⟨.C, .f, 2, delta0, 11⟩, ⟨.B, .f, 3, delta0, 19⟩,
  ⟨.A, .f, 4, delta0, 3⟩, ⟨.D, .f, 5, delta0, 7⟩, ⟨.C, .f, 6, delta0, 11⟩, ⟨.B, .f, 7, delta0, 19⟩,
  ⟨.A, .f, 8, delta0, 3⟩, ⟨.D, .f, 9, delta0, 7⟩, ⟨.C, .f, 10, delta0, 11⟩, ⟨.B, .f, 11, delta0, 19⟩,
  ⟨.A, .f, 12, delta0, 3⟩, ⟨.D, .f, 13, delta0, 7⟩, ⟨.C, .f, 14, delta0, 11⟩, ⟨.B, .f, 15, delta0, 19⟩,
  ⟨.A, .g, 0, delta1, 3⟩, ⟨.D, .g, 4, delta1, 5⟩, ⟨.C, .g, 8, delta1, 9⟩, ⟨.B, .g, 12, delta1, 13⟩,
  ⟨.A, .g, 1, delta1, 3⟩, ⟨.D, .g, 5, delta1, 5⟩, ⟨.C, .g, 9, delta1, 9⟩, ⟨.B, .g, 13, delta1, 13⟩,
  ⟨.A, .g, 2, delta1, 3⟩, ⟨.D, .g, 6, delta1, 5⟩, ⟨.C, .g, 10, delta1, 9⟩, ⟨.B, .g, 14, delta1, 13⟩,
  ⟨.A, .g, 3, delta1, 3⟩, ⟨.D, .g, 7, delta1, 5⟩, ⟨.C, .g, 11, delta1, 9⟩, ⟨.B, .g, 15, delta1, 13⟩,
  ⟨.A, .h, 0, delta2, 3⟩, ⟨.D, .h, 8, delta2, 9⟩, ⟨.C, .h, 4, delta2, 11⟩, ⟨.B, .h, 12, delta2, 15⟩,
  ⟨.A, .h, 2, delta2, 3⟩, ⟨.D, .h, 10, delta2, 9⟩, ⟨.C, .h, 6, delta2, 11⟩, ⟨.B, .h, 14, delta2, 15⟩,
  ⟨.A, .h, 1, delta2, 3⟩, ⟨.D, .h, 9, delta2, 9⟩, ⟨.C, .h, 5, delta2, 11⟩, ⟨.B, .h, 13, delta2, 15⟩,
  ⟨.A, .h, 3, delta2, 3⟩, ⟨.D, .h, 11, delta2, 9⟩, ⟨.C, .h, 7, delta2, 11⟩, ⟨.B, .h, 15, delta2, 15⟩]

/-- `kryptos_md4_init` (src/kryptos_md4.c:132-138). -/
def init : Four 32 := ⟨0x67452301#32, 0xEFCDAB89#32, 0x98BADCFE#32, 0x10325476#32⟩

/-- The compression in `kryptos_md4_do_block` (src/kryptos_md4.c:158-241). -/
def compress (st : Four 32) (block : List W32) : Out (Four 32) := do
  let X ← revBlock block
  let s ← steps.foldlM (step line X) st
  return ⟨st.a + s.a, st.b + s.b, st.c + s.c, st.d + s.d⟩

/-- The instantiation of the message processor (src/kryptos_md4.c:85-90). -/
def alg : Alg 32 (Four 32) where
  wb := 4
  nr := 16
  tab := tab
  lenOff := 56
  tok := 0x80#8
  putLen := putLen32
  fix := Md.fix
  init := init
  compress := compress

/-- `kryptos_md4_hash` (src/kryptos_md4.c:96-129). -/
def hash (stale : List W32) : HashFn := hashOf alg (fun s => raw s.words) (fun s => hex s.words) stale

end Kryptos.Md4
