import Verif.Base
/-
  Model of the macros that load a user key into words, the first byte of a word highest.
-/
namespace Kryptos.KeyLoad

/-- `kryptos_ld_user_key_byte` (src/kryptos.h:154-164) when there is a byte left: `(state, w, b)`, words of `k` bytes. -/
def ldByte (k n : Nat) (s : List (BitVec (8 * k)) × Nat × Nat) (c : Byte) : List (BitVec (8 * k)) × Nat × Nat :=
  let st := if s.2.1 < n then s.1.modify s.2.1 fun x => (x <<< 8) ||| c.setWidth (8 * k) else s.1
  let b := (s.2.2 + 1) % k
  (st, if b = 0 then s.2.1 + 1 else s.2.1, b)

/-- The whole loader: prologue (src/kryptos.h:143-152), as many calls of the byte macro as there are bytes in the `n` words, and
epilogue (src/kryptos.h:166-174), which moves the bytes of an incomplete last word up by `b` bytes. -/
def ldUserKey (k n : Nat) (key : Bytes) : List (BitVec (8 * k)) :=
  let s := (key.take (n * k)).foldl (ldByte k n) (List.replicate n 0, 0, 0)
  if s.2.1 < n then s.1.modify s.2.1 fun x => x <<< (8 * s.2.2) else s.1

end Kryptos.KeyLoad
