import Verif.Model.Endian
/-
  Model of the bounded random numbers of src/kryptos_random.c.

  The bytes returned by the successive calls of `kryptos_get_random_byte` are a list; `none` means that the list is
  exhausted and the loop still running.  `size_t` has 64 bits, which is why the limits do not wrap.  The order in which
  the operands of `|` are evaluated is taken from left to right.
-/
namespace Kryptos.Random

/-- `max - (max % n)`, the limit of the accepted values; `n = 0` divides by zero. -/
def limit (max n : Nat) : Nat := max - max % n

/-- `kryptos_unbiased_rand_mod_u8` (src/kryptos_random.c:26-35). -/
def u8Loop (n : Nat) : Bytes → Option (Nat × Bytes)
  | [] => none
  | a :: l => if limit 0xFF n ≤ a.toNat then u8Loop n l else some (a.toNat % n, l)

/-- `kryptos_unbiased_rand_mod_u16` (src/kryptos_random.c:37-47). -/
def u16Loop (n : Nat) : Bytes → Option (Nat × Bytes)
  | a :: b :: l => if limit 0xFFFF n ≤ (be16 a b).toNat then u16Loop n l else some ((be16 a b).toNat % n, l)
  | _ => none

/-- `kryptos_unbiased_rand_mod_u32` (src/kryptos_random.c:49-61). -/
def u32Loop (n : Nat) : Bytes → Option (Nat × Bytes)
  | a :: b :: c :: d :: l =>
    if limit 0xFFFFFFFF n ≤ (be32 a b c d).toNat then u32Loop n l else some ((be32 a b c d).toNat % n, l)
  | _ => none

/-- `kryptos_unbiased_rand_mod_u64` in user mode (src/kryptos_random.c:63-64, 84-96). -/
def u64Loop (n : Nat) : Bytes → Option (Nat × Bytes)
  | a :: b :: c :: d :: e :: f :: g :: h :: l =>
    if limit 0xFFFFFFFFFFFFFFFF n ≤ (be64 a b c d e f g h).toNat then u64Loop n l
    else some ((be64 a b c d e f g h).toNat % n, l)
  | _ => none

/-- `kryptos_unbiased_rand_mod_u64` in the Linux kernel (src/kryptos_random.c:65-82).  `div_u64_rem` takes a
32-bit divisor and stores a 32-bit remainder: the last call overwrites the low half of `r` (little-endian) and
leaves its high half. -/
def u64KernelLoop (n : Nat) : Bytes → Option (Nat × Bytes)
  | a :: b :: c :: d :: e :: f :: g :: h :: l =>
    let r := (be64 a b c d e f g h).toNat
    if limit 0xFFFFFFFFFFFFFFFF (n % 2 ^ 32) ≤ r then u64KernelLoop n l
    else some (r / 2 ^ 32 * 2 ^ 32 + r % (n % 2 ^ 32), l)
  | _ => none

/-- The functions with their undefined case. -/
def u8 (n : Nat) (bs : Bytes) : Out (Option (Nat × Bytes)) := if n = 0 then .ub else .ok (u8Loop n bs)
def u16 (n : Nat) (bs : Bytes) : Out (Option (Nat × Bytes)) := if n = 0 then .ub else .ok (u16Loop n bs)
def u32 (n : Nat) (bs : Bytes) : Out (Option (Nat × Bytes)) := if n = 0 then .ub else .ok (u32Loop n bs)
def u64 (n : Nat) (bs : Bytes) : Out (Option (Nat × Bytes)) := if n = 0 then .ub else .ok (u64Loop n bs)
def u64Kernel (n : Nat) (bs : Bytes) : Out (Option (Nat × Bytes)) :=
  if n % 2 ^ 32 = 0 then .ub else .ok (u64KernelLoop n bs)

end Kryptos.Random
