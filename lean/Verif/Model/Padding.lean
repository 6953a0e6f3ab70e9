import Verif.Base
/-
  Model of the ANSI X9.23 padding of src/kryptos_padding.c.
-/
namespace Kryptos.Padding

/-- The loop `while ((padded_size % block_size) != 0) padded_size++`
(src/kryptos_padding.c:36-38). -/
def padLoop (bs : Nat) (hbs : 0 < bs) (n : Nat) : Nat :=
  if n % bs ≠ 0 then padLoop bs hbs (n + 1) else n
termination_by (bs - n % bs) % bs
decreasing_by
  have h1 : n % bs < bs := Nat.mod_lt _ hbs
  have h2 : (bs - n % bs) % bs = bs - n % bs := Nat.mod_eq_of_lt (by omega)
  rw [h2]
  by_cases h3 : n % bs + 1 = bs
  · have : (n + 1) % bs = 0 := by
      rw [Nat.add_mod]
      by_cases hb1 : bs = 1
      · subst hb1; exact Nat.mod_one _
      · rw [Nat.mod_eq_of_lt (show 1 < bs by omega), h3, Nat.mod_self]
    rw [this]; simp; omega
  · have : (n + 1) % bs = n % bs + 1 := by
      rw [Nat.add_mod, Nat.mod_eq_of_lt (show 1 < bs by omega), Nat.mod_eq_of_lt (by omega)]
    rw [this, Nat.mod_eq_of_lt (by omega)]; omega

/-- `padded_size` (src/kryptos_padding.c:29-38). -/
def paddedSize (n bs : Nat) (hbs : 0 < bs) : Nat :=
  padLoop bs hbs (if n % bs = 0 then n + 1 else n)

/-- `kryptos_ansi_x923_padding` (src/kryptos_padding.c:18-55).  `rnd i` is the `i`-th byte
returned by `kryptos_get_random_byte` during the call. -/
def ansiX923 (buffer : Bytes) (bs : Nat) (randomize : Bool) (rnd : Nat → Byte) : Option Bytes :=
  if hbs : bs = 0 then none
  else if buffer.length = 0 then none
  else
    let p := paddedSize buffer.length bs (Nat.pos_of_ne_zero hbs)
    let fill := p - buffer.length - 1
    some (buffer ++ (if randomize then (List.range fill).map rnd else List.replicate fill 0#8)
      ++ [BitVec.ofNat 8 (p - buffer.length)])

end Kryptos.Padding
