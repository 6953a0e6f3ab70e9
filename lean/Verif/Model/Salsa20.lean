import Verif.Model.Endian
/-
  Model of src/kryptos_salsa20_core.c, src/kryptos_salsa20.c and src/kryptos_chacha20.c.
-/
namespace Kryptos.Stream

/-- `kryptos_salsa20_rotl` (src/kryptos_salsa20_core.c:13). -/
def rotl (u : W32) (c : Nat) : W32 := (u <<< c) ||| (u >>> (32 - c))

/-- `kryptos_salsa20_quarterround` (src/kryptos_salsa20_core.c:15-20) applied to the words `i0..i3` of
the array `x`. -/
def salsaQr (i0 i1 i2 i3 : Nat) (x : List W32) : Out (List W32) := do
  let x ← wr x i1 ((← rd x i1) ^^^ rotl ((← rd x i0) + (← rd x i3)) 7)
  let x ← wr x i2 ((← rd x i2) ^^^ rotl ((← rd x i1) + (← rd x i0)) 9)
  let x ← wr x i3 ((← rd x i3) ^^^ rotl ((← rd x i2) + (← rd x i1)) 13)
  wr x i0 ((← rd x i0) ^^^ rotl ((← rd x i3) + (← rd x i2)) 18)

/-- `kryptos_salsa20_rowround` (src/kryptos_salsa20_core.c:22-27). -/
def salsaRow (x : List W32) : Out (List W32) := do
  let x ← salsaQr 0 1 2 3 x
  let x ← salsaQr 5 6 7 4 x
  let x ← salsaQr 10 11 8 9 x
  salsaQr 15 12 13 14 x

/-- `kryptos_salsa20_columnround` (src/kryptos_salsa20_core.c:29-34). -/
def salsaCol (x : List W32) : Out (List W32) := do
  let x ← salsaQr 0 4 8 12 x
  let x ← salsaQr 5 9 13 1 x
  let x ← salsaQr 10 14 2 6 x
  salsaQr 15 3 7 11 x

/-- `kryptos_salsa20_doubleround` (src/kryptos_salsa20_core.c:36-39). -/
def salsaDouble (x : List W32) : Out (List W32) := do
  let x ← salsaCol x
  salsaRow x

/-- `kryptos_chacha20_quarterround` (src/kryptos_salsa20_core.c:243-256) on the words `a, b, c, d`. -/
def chachaQr (a b c d : Nat) (x : List W32) : Out (List W32) := do
  let x ← wr x a ((← rd x a) + (← rd x b))
  let x ← wr x d ((← rd x d) ^^^ (← rd x a))
  let x ← wr x d (rotl (← rd x d) 16)
  let x ← wr x c ((← rd x c) + (← rd x d))
  let x ← wr x b ((← rd x b) ^^^ (← rd x c))
  let x ← wr x b (rotl (← rd x b) 12)
  let x ← wr x a ((← rd x a) + (← rd x b))
  let x ← wr x d ((← rd x d) ^^^ (← rd x a))
  let x ← wr x d (rotl (← rd x d) 8)
  let x ← wr x c ((← rd x c) + (← rd x d))
  let x ← wr x b ((← rd x b) ^^^ (← rd x c))
  wr x b (rotl (← rd x b) 7)

/-- `kryptos_chacha20_cr` and `kryptos_chacha20_dr` (src/kryptos_salsa20_core.c:258-270). -/
def chachaDouble (x : List W32) : Out (List W32) := do
  let x ← chachaQr 0 4 8 12 x
  let x ← chachaQr 1 5 9 13 x
  let x ← chachaQr 2 6 10 14 x
  let x ← chachaQr 3 7 11 15 x
  let x ← chachaQr 0 5 10 15 x
  let x ← chachaQr 1 6 11 12 x
  let x ← chachaQr 2 7 8 13 x
  chachaQr 3 4 9 14 x

/-- The sixteen words at the offsets 0, 4, ..., 60 (`kryptos_salsa20_ld_u32`,
src/kryptos_salsa20_core.c:46-49). -/
def load (x : Bytes) : Out (List W32) := (List.range 16).mapM fun i => getBe32 x (4 * i)

/-- `kryptos_salsa20_H` (src/kryptos_salsa20_core.c:51-220) on a buffer of 64 bytes. -/
def salsaH (x : Bytes) : Out Bytes := do
  let x0 ← load x
  let x1 := x0.map rev32
  let r ← forLoop (fun _ => salsaDouble) 10 0 x1
  let s := List.zipWith (· + ·) r x1
  return (s.map rev32).flatMap putBe32

/-- `kryptos_chacha20_H` (src/kryptos_salsa20_core.c:222-397): the words are loaded big-endian, the
caller having reversed the bytes, and stored little-endian. -/
def chachaH (x : Bytes) : Out Bytes := do
  let x1 ← load x
  let r ← forLoop (fun _ => chachaDouble) 10 0 x1
  let s := List.zipWith (· + ·) r x1
  return (s.map rev32).flatMap putBe32

/-- `kryptos_salsa20_getbyte(w, 0..3)` (src/kryptos_salsa20.c:19) in this order. -/
def bytes4 (w : W32) : Bytes :=
  [((w >>> 24) &&& 0xFF#32).setWidth 8, ((w >>> 16) &&& 0xFF#32).setWidth 8,
   ((w >>> 8) &&& 0xFF#32).setWidth 8, ((w >>> 0) &&& 0xFF#32).setWidth 8]

/-- `key[i]` for the listed positions. -/
def pick (b : Bytes) (is : List Nat) : Out Bytes := is.mapM (rd b)

/-- `kryptos_chacha20_keystream_feed` (src/kryptos_chacha20.c:145-229): the key stream block of
counter `l`. -/
def chachaFeed (key n : Bytes) (l : W32) : Out Bytes := do
  let k ← pick key [3, 2, 1, 0, 7, 6, 5, 4, 11, 10, 9, 8, 15, 14, 13, 12,
    19, 18, 17, 16, 23, 22, 21, 20, 27, 26, 25, 24, 31, 30, 29, 28]
  let v ← pick n [3, 2, 1, 0, 7, 6, 5, 4, 11, 10, 9, 8]
  chachaH (bytes4 0x61707865#32 ++ bytes4 0x3320646E#32 ++ bytes4 0x79622D32#32 ++ bytes4 0x6B206574#32 ++
    k ++ bytes4 l ++ v)

/-- The nonce packed in a 64-bit word (src/kryptos_salsa20.c:88-95). -/
def salsaNonce (iv : Bytes) : Out W64 := getBe64 iv 0

/-- `kryptos_salsa20_keystream_feed` (src/kryptos_salsa20.c:148-310) for a key of 16 or 32 bytes and the
block counter `l`. -/
def salsaFeed (key : Bytes) (n l : W64) : Out Bytes := do
  let k0 ← pick key [0, 1, 2, 3, 4, 5, 6, 7, 8, 9, 10, 11, 12, 13, 14, 15]
  let k1 ← pick key (if key.length = 16 then [0, 1, 2, 3, 4, 5, 6, 7, 8, 9, 10, 11, 12, 13, 14, 15]
    else [16, 17, 18, 19, 20, 21, 22, 23, 24, 25, 26, 27, 28, 29, 30, 31])
  let n0 : W32 := (n >>> 32).setWidth 32
  let n1 : W32 := (n &&& 0xFFFFFFFF#64).setWidth 32
  let l1 : W32 := (l >>> 32).setWidth 32
  let l0 : W32 := (l &&& 0xFFFFFFFF#64).setWidth 32
  salsaH (bytes4 0x65787061#32 ++ k0 ++ bytes4 0x6E642033#32 ++ bytes4 n0 ++ bytes4 n1 ++
    bytes4 (rev32 l0) ++ bytes4 (rev32 l1) ++ bytes4 0x322D6279#32 ++ k1 ++ bytes4 0x7465206B#32)

/-- The loop `while (ip != ip_end)` (src/kryptos_chacha20.c:96-106, src/kryptos_salsa20.c:106-116): a key
stream block, up to 64 bytes, and so on; `feed j` is the block of the `j`-th pass.  Result: output
and number of passes. -/
def xorLoop (feed : Nat → Out Bytes) (j : Nat) (inp : Bytes) : Out (Bytes × Nat) :=
  if _h : inp = [] then .ok ([], j)
  else do
    let k ← feed j
    let (o, j) ← xorLoop feed (j + 1) (inp.drop 64)
    return (List.zipWith (· ^^^ ·) (inp.take 64) k ++ o, j)
termination_by inp.length
decreasing_by
  have := List.length_pos_iff.mpr _h
  rw [List.length_drop]
  omega

/-- What the pointer `ktask->iv` designates. -/
inductive Ptr where
  | null
  | live (b : Bytes)
  | dangling
  deriving Repr, DecidableEq

/-- The fields of `kryptos_task_ctx` used by these ciphers.  `ctr` is `*arg[0]` (ChaCha20 only);
`inFreed` records that the cipher released the memory of the caller's input. -/
structure Task where
  key : Option Bytes
  action : Action
  inp : Option Bytes
  inFreed : Bool
  iv : Ptr
  ivSize : Nat
  ctr : Option W32
  out : Option Bytes
  result : TaskResult
  deriving Repr, DecidableEq

/-- `kryptos_task_check` (src/kryptos_task_check.c:85-188, 353-360, 434-446) for these ciphers; `n` is
the nonce size. -/
def taskCheck (n : Nat) (t : Task) : TaskResult :=
  if t.key = none ∨ t.key = some [] then .invalidParams
  else if ¬ ((t.iv = .null ∧ t.ivSize = 0) ∨ (t.iv ≠ .null ∧ t.ivSize = n)) then .invalidParams
  else if t.inp = none ∨ t.inp = some [] then .invalidParams
  else .success

/-- `kryptos_chacha20_setup` / `kryptos_salsa20_setup` (src/kryptos_chacha20.c:131-143,
src/kryptos_salsa20.c:134-146); the salsa20 one does not touch `arg[0]`. -/
def setup (n : Nat) (t : Task) (key : Bytes) (iv : Option Bytes) (ctr : Option W32) : Task :=
  { t with
    key := some key
    iv := match iv with | some b => .live b | none => .null
    ivSize := if iv.isSome then n else 0
    ctr := ctr }

/-- `kryptos_task_free(ktask, KRYPTOS_TASK_IV)` (src/kryptos.h:225-229): releasing memory that was
already released is undefined. -/
def freeIv (t : Task) : Out Task :=
  match t.iv with
  | .null => .ok t
  | .live _ => .ok { t with iv := .null, ivSize := 0 }
  | .dangling => .ub

/-- `kryptos_chacha20_cipher` (src/kryptos_chacha20.c:34-129).  `fresh` is the result of
`kryptos_get_random_block(12)`.  Moving the input pointer beyond the end of the input is undefined.
Memory exhaustion is not modelled. -/
def chacha20 (t : Task) (fresh : Bytes) : Out Task :=
  if taskCheck 12 t ≠ .success then .ok { t with result := taskCheck 12 t }
  else match t.key, t.inp with
  | some key, some inp =>
    if t.inFreed then .ub
    else if key.length ≠ 32 then .ok { t with result := .keyError }
    else do
      let l : W32 := match t.ctr with | none => 0 | some c => c
      match t.iv with
      | .dangling => .ub
      | .live iv => do
        let (o, j) ← xorLoop (fun j => chachaFeed key iv (l + BitVec.ofNat 32 j)) 0 inp
        return { t with out := some o, result := .success, ctr := t.ctr.map fun _ => l + BitVec.ofNat 32 j }
      | .null =>
        if t.action = .encrypt then do
          let (o, j) ← xorLoop (fun j => chachaFeed key fresh (l + BitVec.ofNat 32 j)) 0 inp
          return { t with
            out := some (fresh ++ o)
            result := .success
            ctr := t.ctr.map fun _ => l + BitVec.ofNat 32 j
            -- the nonce is released, the pointer and the size stay
            iv := .dangling
            ivSize := 12 }
        else if inp.length < 12 then .ub
        else do
          let (o, j) ← xorLoop (fun j => chachaFeed key (inp.take 12) (l + BitVec.ofNat 32 j)) 0 (inp.drop 12)
          let t := { t with out := some o, result := .success, ctr := t.ctr.map fun _ => l + BitVec.ofNat 32 j }
          if t.action = .decrypt then return t
          -- for any other action `iv`, which points to the input, is released
          else return { t with iv := .dangling, inFreed := true }
  | _, _ => .ub

/-- `kryptos_salsa20_cipher` (src/kryptos_salsa20.c:34-132). -/
def salsa20 (t : Task) (fresh : Bytes) : Out Task :=
  if taskCheck 8 t ≠ .success then .ok { t with result := taskCheck 8 t }
  else match t.key, t.inp with
  | some key, some inp =>
    if t.inFreed then .ub
    else if key.length ≠ 32 ∧ key.length ≠ 16 then .ok { t with result := .keyError }
    else
      match t.iv with
      | .dangling => .ub
      | .live iv => do
        let n ← salsaNonce iv
        let (o, _) ← xorLoop (fun j => salsaFeed key n (BitVec.ofNat 64 j)) 0 inp
        return { t with out := some o, result := .success }
      | .null =>
        if t.action = .encrypt then do
          let n ← salsaNonce fresh
          let (o, _) ← xorLoop (fun j => salsaFeed key n (BitVec.ofNat 64 j)) 0 inp
          return { t with out := some (fresh ++ o), result := .success, iv := .dangling, ivSize := 8 }
        else if inp.length < 8 then .ub
        else do
          let n ← salsaNonce inp
          let (o, _) ← xorLoop (fun j => salsaFeed key n (BitVec.ofNat 64 j)) 0 (inp.drop 8)
          return { t with out := some o, result := .success }
  | _, _ => .ub

end Kryptos.Stream
