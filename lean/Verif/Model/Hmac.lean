import Verif.Model.HashTask
/-
  Model of src/kryptos_hmac.c and of the encrypt-then-MAC macro of src/kryptos.h.

  Allocation is assumed to succeed, except that a request of a wrapped (negative) size fails, which
  is how the C code rejects a truncated input.
-/
namespace Kryptos.Hmac
open Hash

/-- Running a hash function on a non-NULL input through a fresh task (src/kryptos_hmac.c:203-217,
268-286, 290-307): `none` when the task does not succeed. -/
def runHash (h : HashFn) (m : Bytes) : Out (Option Bytes) := do
  let t ← hashTask h ⟨some m, none, .nr, none⟩ false
  return (if t.result = .success then t.out else none)

/-- The pad and xor of the key (src/kryptos_hmac.c:243-264): `memset` to zero, `memcpy` of the key,
xor of every byte.  A key longer than the buffer overflows it. -/
def keyXor (n : Nat) (lkey : Bytes) (p : Byte) : Out Bytes :=
  if n < lkey.length then .ub
  else .ok ((lkey ++ List.replicate (n - lkey.length) 0#8).map fun b => b ^^^ p)

/-- `kryptos_hmac_gen` (src/kryptos_hmac.c:156-367): `none` when a hash task fails.  On success the
result is the MAC followed by `x`. -/
def gen (h : HashFn) (inSize : Nat) (key x : Bytes) : Out (Option Bytes) := do
  let lkey ← (if inSize < key.length then runHash h key else .ok (some key))
  match lkey with
  | none => return none
  | some lkey =>
    let ki ← keyXor inSize lkey 0x36#8
    let ko ← keyXor inSize lkey 0x5C#8
    let inner ← runHash h (ki ++ x)
    match inner with
    | none => return none
    | some inner =>
      let outer ← runHash h (ko ++ inner)
      match outer with
      | none => return none
      | some mac => return some (mac ++ x)

/-- The fields of `kryptos_task_ctx` used by `kryptos_hmac` (`none`: NULL). -/
structure MTask where
  action : Action
  key : Option Bytes
  inp : Option Bytes
  out : Option Bytes
  result : TaskResult
  deriving DecidableEq

/-- `kryptos_hmac_check` (src/kryptos_hmac.c:95-154).  `x_size = in_size - hmac_size` wraps for a
short input and the allocation fails; for equality the explicit test reports the error. -/
def check (h : HashFn) (inSize size : Nat) (key inp : Bytes) (t : MTask) : Out MTask :=
  if inp.length ≤ size then .ok { t with result := .hmacError }
  else do
    let x := inp.drop size
    let r ← gen h inSize key x
    match r with
    | none => return { t with result := .hmacError }
    | some hm =>
      if hm.length < size then .ub
      else if hm.take size ≠ inp.take size then return { t with result := .hmacError }
      else return { t with inp := some x, result := .success }

/-- `kryptos_hmac` (src/kryptos_hmac.c:32-93). -/
def hmac (h : Option HashFn) (hin hsz : Option Nat) (t : MTask) : Out MTask :=
  match h, hin, hsz with
  | some h, some inSize, some size =>
    match t.key with
    | none => .ok { t with result := .hmacError }
    | some key =>
      match t.action with
      | .encrypt =>
        match t.out with
        | none => .ok { t with result := .hmacError }
        | some x =>
          if x = [] then .ok { t with result := .hmacError }
          else do
            let r ← gen h inSize key x
            match r with
            | none => return { t with out := none, result := .hmacError }
            | some o => return { t with out := some o, result := .success }
      | .decrypt =>
        match t.inp with
        | none => .ok { t with result := .hmacError }
        | some i => if i = [] then .ok { t with result := .hmacError } else check h inSize size key i t
      | _ => .ok { t with result := .hmacError }
  | _, _, _ => .ok { t with result := .hmacError }

/-- `kryptos_run_cipher_hmac` (src/kryptos.h:572-594).  `setup` and `cipher` are the set-up and the
cipher function of the chosen cipher, acting on the task.  Any action other than encrypt and decrypt
does nothing at all. -/
def runCipherHmac (setup : MTask → MTask) (cipher : MTask → Out MTask) (h : HashFn)
    (inSize size : Nat) (t : MTask) : Out MTask :=
  match t.action with
  | .encrypt => do
    let t ← cipher (setup t)
    if t.result = .success then hmac (some h) (some inSize) (some size) t else return t
  | .decrypt => do
    let t ← hmac (some h) (some inSize) (some size) (setup t)
    if t.result = .success then cipher (setup t) else return t
  | _ => .ok t

end Kryptos.Hmac
