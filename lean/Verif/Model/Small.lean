import Verif.Base
/-
  Model of src/kryptos_djb2.c and src/kryptos_pw2.c.
-/
namespace Kryptos.Small

/-- The loop of `kryptos_djb2` (src/kryptos_djb2.c:21-24). -/
def djb2Loop : Bytes → W64 → W64
  | [], sum => sum
  | c :: ip, sum => djb2Loop ip (((sum <<< 5) + sum) + c.setWidth 64)

/-- `kryptos_djb2` (src/kryptos_djb2.c:10-27); `none` is a `NULL` input. -/
def djb2 (input : Option Bytes) : W64 :=
  match input with
  | none => 5381
  | some [] => 5381
  | some b => djb2Loop b 5381

/-- `KRYPTOS_PW2_NAN` (src/kryptos_pw2.c:14). -/
def nan : Int := -2147483647 - 1

/-- `kryptos_pw2_lt` (src/kryptos_pw2.c:16-47): 31 numbers, then 24 rows of nine and one of eight times the infinity. -/
def lt : List Int :=
  [1, 2, 4, 8, 16, 32, 64, 128, 256,
   512, 1024, 2048, 4096, 8192, 16384, 32768, 65536, 131072,
   262144, 524288, 1048576, 2097152, 4194304, 8388608, 16777216, 33554432, 67108864,
   134217728, 268435456, 536870912, 1073741824] ++ List.replicate (24 * 9 + 8) nan

/-- `kryptos_pw2` (src/kryptos_pw2.c:51-53): the `int` is converted to `size_t` before the division by the size of the table. -/
def pw2 (e : Int) : Out Int := rd lt ((e % 2 ^ 64).toNat % 255)

end Kryptos.Small
