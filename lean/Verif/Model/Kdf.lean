import Verif.Model.Hmac
/-
  Model of src/kryptos_hkdf.c and src/kryptos_pbkdf2.c.

  Allocation is assumed to succeed (also for size zero).  A NULL pointer given together with a
  positive size is not represented (`none` is NULL with size zero).
-/
namespace Kryptos.Kdf
open Hash Hmac

/-- Prefix of a buffer of which `n` bytes are read. -/
def rdn (n : Nat) (b : Bytes) : Out Bytes := if b.length < n then .ub else .ok (b.take n)

/-- The HMAC call of both functions: a task with the encrypt action whose `out` is the message; the
result is the `out` field when the task succeeded. -/
def mac (h : Option HashFn) (hin hsz : Option Nat) (key : Option Bytes) (x : Bytes) :
    Out (Option Bytes) := do
  let t ← hmac h hin hsz ⟨.encrypt, key, none, some x, .nr⟩
  return (if t.result = .success then t.out else none)

/-- The expansion loop of `kryptos_do_hkdf` (src/kryptos_hkdf.c:84-120); `rem` is the number of
output bytes still missing, `T` the previous block with its `T_size`. -/
def hkdfLoop (h : HashFn) (inSize size : Nat) (prk info : Bytes) (T : Bytes) (sfx : Byte) (rem : Nat) :
    Out (Option Bytes) :=
  if rem = 0 then .ok (some [])
  else if _hs : size = 0 then .ub
  else do
    let o ← mac (some h) (some inSize) (some size) (some prk) (T ++ info ++ [sfx])
    match o with
    | none => return none
    | some o =>
      let n := if size ≤ rem then size else rem
      let t ← rdn n o
      let rest ← hkdfLoop h inSize size prk info t (sfx + 1#8) (rem - n)
      match rest with
      | none => return none
      | some r => return some (t ++ r)
termination_by rem
decreasing_by split <;> omega

/-- `kryptos_do_hkdf` (src/kryptos_hkdf.c:11-144).  `h`, `hin`, `hsz` may be NULL: the local copies
default to SHA-256 (lines 23-25), but line 63 calls the parameter `h_size` itself.  Result `none`:
NULL. -/
def hkdf (h : Option HashFn) (hin hsz : Option Nat) (stale : List W32) (ikm salt info : Option Bytes)
    (osize : Nat) : Out (Option Bytes) :=
  let lh := h.getD (Sha256.hash stale)
  let lin := hin.getD 64
  let lsz := hsz.getD 32
  match ikm with
  | none => .ok none
  | some ikm =>
    if osize = 0 ∨ 255 * lsz < osize then .ok none
    else do
      let o ← mac (some lh) (some lin) (some lsz) (some (salt.getD [])) ikm
      match o with
      | none => return none
      | some o =>
        match hsz with
        | none => .ub
        | some prkSize => do
          let prk ← rdn prkSize o
          hkdfLoop lh lin prkSize prk (info.getD []) [] 1#8 osize

/-- Bytewise xor of the accumulator with the next block (src/kryptos_pbkdf2.c:143-145). -/
def xorInto (hlen : Nat) (dk o : Bytes) : Out Bytes :=
  if o.length < hlen ∨ dk.length < hlen then .ub
  else .ok (List.zipWith (· ^^^ ·) dk (o.take hlen))

/-- The loop of `kryptos_pbkdf2_f` (src/kryptos_pbkdf2.c:137-152), `n` iterations; `o` is the `out`
field of the HMAC task. -/
def fLoop (h : Option HashFn) (hin hsz : Option Nat) (p : Option Bytes) (hlen : Nat) :
    Nat → Bytes → Bytes → Out (Option Bytes)
  | 0, dk, _ => .ok (some dk)
  | n + 1, dk, o => do
    let u ← rdn hlen o
    let o ← mac h hin hsz p u
    match o with
    | none => .ub
    | some o =>
      let dk ← xorInto hlen dk o
      fLoop h hin hsz p hlen n dk o

/-- `kryptos_pbkdf2_f` (src/kryptos_pbkdf2.c:88-162).  (When the HMAC of an iteration fails, line 144
reads through the NULL `out`; it does not fail after a first success.) -/
def f (h : Option HashFn) (hin hsz : Option Nat) (p s : Option Bytes) (c : Nat) (i : W32)
    (hlen : Nat) : Out (Option Bytes) := do
  let m := s.getD [] ++ [(i >>> 24).setWidth 8, ((i >>> 16) &&& 0xFF#32).setWidth 8,
    ((i >>> 8) &&& 0xFF#32).setWidth 8, (i &&& 0xFF#32).setWidth 8]
  let o ← mac h hin hsz p m
  match o with
  | none => return none
  | some o =>
    let dk ← rdn hlen o
    fLoop h hin hsz p hlen (c - 1) dk o

/-- The loop of `kryptos_do_pbkdf2` (src/kryptos_pbkdf2.c:54-77); `rem` bytes are missing. -/
def dkLoop (h : Option HashFn) (hin hsz : Option Nat) (p s : Option Bytes) (c hlen : Nat) (i : W32)
    (rem : Nat) : Out (Option Bytes) :=
  if rem = 0 then .ok (some [])
  else if _hs : hlen = 0 then .ub
  else do
    let t ← f h hin hsz p s c i hlen
    match t with
    | none => return none
    | some t =>
      let n := if hlen ≤ rem then hlen else rem
      let b ← rdn n t
      let rest ← dkLoop h hin hsz p s c hlen (i + 1#32) (rem - n)
      match rest with
      | none => return none
      | some r => return some (b ++ r)
termination_by rem
decreasing_by split <;> omega

/-- `kryptos_do_pbkdf2` (src/kryptos_pbkdf2.c:26-86).  Result `none`: NULL. -/
def pbkdf2 (h : Option HashFn) (hin hsz : Option Nat) (p s : Option Bytes) (c dklen : Nat) :
    Out (Option Bytes) :=
  match hsz with
  | none => .ok none
  | some hlen =>
    if (2 ^ 32 - 1) * hlen < dklen then .ok none
    else dkLoop h hin hsz p s c hlen 1#32 dklen

end Kryptos.Kdf
