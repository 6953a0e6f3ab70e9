import Verif.Model.Poly1305Mp
/-
  Model of src/kryptos_poly1305.c.

  Memory is never exhausted.  Of a task only the fields used are modelled; buffers are `none` for `NULL`, otherwise their
  size is the length of the list.
-/
namespace Kryptos.Poly1305

/-- The masks of the first half of the key (src/kryptos_poly1305.c:284-290). -/
def clamp (k : Bytes) : Out Bytes := do
  let k ← wr k 3 ((← rd k 3) &&& 0x0F)
  let k ← wr k 7 ((← rd k 7) &&& 0x0F)
  let k ← wr k 11 ((← rd k 11) &&& 0x0F)
  let k ← wr k 15 ((← rd k 15) &&& 0x0F)
  let k ← wr k 4 ((← rd k 4) &&& 0xFC)
  let k ← wr k 8 ((← rd k 8) &&& 0xFC)
  wr k 12 ((← rd k 12) &&& 0xFC)

/-- The modulus (src/kryptos_poly1305.c:317-323). -/
def modulus : PNum := [0xFFFFFFFFFFFFFFFB, 0xFFFFFFFFFFFFFFFF, 3, 0, 0, 0, 0]

/-- The state of the loop over the message: the accumulator, `poly_mbuf` and the offset of `bp`. -/
structure Acc where
  a : PNum
  buf : Bytes
  bp : Nat
  deriving DecidableEq

/-- `poly_mbuf` before any byte is put there (src/kryptos_poly1305.c:341-343, 374-375). -/
def freshBuf : Bytes := List.replicate 17 1

/-- The block in `poly_mbuf` is worked in (src/kryptos_poly1305.c:363-375). -/
def flush (beyond : List W64) (bits : List Nat) (r : PNum) (s : Acc) : Out Acc := do
  let n ← leBytesToNum 0 (s.buf.take (17 - (16 - s.bp))) zeros
  let a ← mul beyond (padd s.a n) r
  let qr ← div bits a modulus
  return ⟨qr.2, freshBuf, 0⟩

/-- `*bp = *mp; bp++` (src/kryptos_poly1305.c:347-348, 352-353). -/
def put (c : Byte) (s : Acc) : Out Acc := do
  let b ← wr s.buf s.bp c
  return ⟨s.a, b, s.bp + 1⟩

/-- The block is worked in under a condition. -/
def flushIf (cond : Bool) (beyond : List W64) (bits : List Nat) (r : PNum) (s : Acc) : Out Acc :=
  if cond then flush beyond bits r s else .ok s

/-- The loop over the message (src/kryptos_poly1305.c:345-377): before a byte is taken a full buffer is worked in, which in
the C code is an iteration of its own. -/
def tagLoop (beyond : List W64) (bits : List Nat) (r : PNum) : Bytes → Acc → Out Acc
  | [], s => .ok s
  | c :: l, s => do
    let s ← flushIf (s.bp == 16) beyond bits r s
    let s ← put c s
    let s ← flushIf l.isEmpty beyond bits r s
    tagLoop beyond bits r l s

/-- `kryptos_poly1305_get_tag_from_num` (src/kryptos_poly1305.c:399-446). -/
def tagFromNum (a : PNum) : Out Bytes := do
  let a0 ← rd a 0
  let a1 ← rd a 1
  let byte := fun (w : W64) (n : Nat) => ((w >>> (56 - 8 * n)) &&& 0xFF#64).setWidth 8
  return [byte a0 7, byte a0 6, byte a0 5, byte a0 4, byte a0 3, byte a0 2, byte a0 1, byte a0 0,
    byte a1 7, byte a1 6, byte a1 5, byte a1 4, byte a1 3, byte a1 2, byte a1 1, byte a1 0]

/-- `kryptos_poly1305_tag` (src/kryptos_poly1305.c:257-397) for a key of 32 bytes; `none` is `NULL`.  `beyond` is the
memory behind the product, see `mul`; `bits` are the bits compared, see `getGt`. -/
def tagWith (beyond : List W64) (bits : List Nat) (message key : Bytes) : Out (Option Bytes) :=
  if message = [] ∨ key = [] then .ok none
  else if key.length ≠ 32 then .ub
  else do
    let k ← clamp key
    let r ← leBytesToNum 0 (k.take 16) zeros
    let s ← leBytesToNum 0 (k.drop 16) zeros
    let acc ← tagLoop beyond bits r message ⟨zeros, freshBuf, 0⟩
    let t ← tagFromNum (padd acc.a s)
    return some t

/-- The tag as the code computes it. -/
def tag (beyond : List W64) (message key : Bytes) : Out (Option Bytes) := tagWith beyond checkedBits message key

/-- The fields of a task. -/
structure Task where
  action : Action
  key : Option Bytes
  inp : Option Bytes
  out : Option Bytes
  result : TaskResult
  deriving DecidableEq

/-- A buffer which is neither `NULL` nor empty. -/
def filled (b : Option Bytes) : Option Bytes :=
  match b with
  | none => none
  | some b => if b = [] then none else some b

/-- The encryption branch of `kryptos_poly1305` (src/kryptos_poly1305.c:83-145).  `nonce n` is the result of
`kryptos_get_random_block(n)`. -/
def encrypt (beyond : List W64) (nonce : Nat → Option Bytes) (t : Task) : Out Task :=
  match filled t.out, filled t.key with
  | some out, some key =>
    let nonceSize := 32 - key.length
    match (if 0 < nonceSize then nonce nonceSize else some []) with
    | none => .ok { t with result := .poly1305Error }
    | some n => do
      match ← tag beyond out (key ++ n) with
      | none => .ok { t with result := .poly1305Error }
      | some tg => .ok { t with out := some (tg ++ n ++ out), result := .success }
  | _, _ => .ok { t with result := .poly1305Error }

/-- The decryption branch of `kryptos_poly1305` (src/kryptos_poly1305.c:147-222). -/
def decrypt (beyond : List W64) (t : Task) : Out Task :=
  match filled t.inp, filled t.key with
  | some inp, some key =>
    let nonceSize := 32 - key.length
    if inp.length ≤ nonceSize + 16 then .ok { t with result := .poly1305Error }
    else do
      let msg := inp.drop (16 + nonceSize)
      match ← tag beyond msg (key ++ (inp.drop 16).take nonceSize) with
      | none => .ok { t with result := .poly1305Error }
      | some tg =>
        if tg = inp.take 16 then .ok { t with inp := some msg, result := .success }
        else .ok { t with result := .poly1305Error }
  | _, _ => .ok { t with result := .poly1305Error }

/-- `kryptos_poly1305` (src/kryptos_poly1305.c:68-255).  The error set for any other action is overwritten by
`kKryptosSuccess` (lines 225 and 230). -/
def poly1305 (beyond : List W64) (nonce : Nat → Option Bytes) (t : Task) : Out Task :=
  match t.key with
  | none => .ok { t with result := .poly1305Error }
  | some key =>
    if 32 < key.length then .ok { t with result := .poly1305Error }
    else
      match t.action with
      | .encrypt => encrypt beyond nonce t
      | .decrypt => decrypt beyond t
      | _ => .ok { t with result := .success }

/-- The bytes behind the first sixteen are xored into them (src/kryptos_poly1305.c:43-47). -/
def fold : Bytes → Nat → Bytes → Out Bytes
  | [], _, key => .ok key
  | u :: l, k, key => do
    let b ← rd key k
    let key ← wr key k (b ^^^ u)
    fold l ((k + 1) % 16) key

/-- `kryptos_do_poly1305` (src/kryptos_poly1305.c:20-66), the function run by the macros of src/kryptos.h. -/
def doPoly1305 (beyond : List W64) (nonce : Nat → Option Bytes) (t : Task) : Out Task :=
  match filled t.key with
  | none => .ok t
  | some userKey =>
    if 16 < userKey.length then do
      let key ← fold (userKey.drop 16) 0 (userKey.take 16)
      let r ← poly1305 beyond nonce { t with key := some key }
      return { r with key := some userKey }
    else poly1305 beyond nonce t

end Kryptos.Poly1305
