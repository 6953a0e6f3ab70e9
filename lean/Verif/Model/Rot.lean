import Verif.Base
/-
  Rotations by a variable number of places, as the macros of several ciphers write them.
-/
namespace Kryptos

/-- `((w) << (s)) | ((w) >> (32 - (s)))` with `s < 32` (for instance src/kryptos_rc5.c:32).  For `s = 0` the right shift is by
the width of the word, which is undefined in C: with `strict` this is the outcome `ub`; without, it is what the shift
instruction of the x86 processors does, which takes the number of places modulo 32. -/
def rotlV (strict : Bool) (w : W32) (s : Nat) : Out W32 :=
  if strict && s == 0 then .ub else .ok ((w <<< s) ||| (w >>> ((32 - s) % 32)))

/-- `((w) >> (s)) | ((w) << (32 - (s)))` with `s < 32` (for instance src/kryptos_rc5.c:34). -/
def rotrV (strict : Bool) (w : W32) (s : Nat) : Out W32 :=
  if strict && s == 0 then .ub else .ok ((w >>> s) ||| (w <<< ((32 - s) % 32)))

end Kryptos
