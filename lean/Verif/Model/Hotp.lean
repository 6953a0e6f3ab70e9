import Verif.Model.Kdf
/-
  Model of src/kryptos_hotp.c and src/kryptos_totp.c.

  The counter, the throttling parameter and the resynchronisation parameter live in memory of the
  caller; they are the mutable state.  Key, number of digits and hash function are fixed by the
  initialisation.  Allocation is assumed to succeed.  Tokens are stored in host (little-endian)
  order.
-/
namespace Kryptos.Hotp
open Hash Hmac Kdf

/-- What `kryptos_hotp_init` stores and the code does not change. -/
structure Cfg where
  key : Bytes
  h : HashFn
  inSize : Nat
  size : Nat
  digits : Nat

/-- `kryptos_hotp_init` (src/kryptos_hotp.c:31-87): the parameter checks; `none` stands for a NULL
pointer, `throttle`/`resync` are the initial values of the pointed variables. -/
def init (action : Action) (key : Option Bytes) (factor throttle resync digits : Option Nat)
    (h : Option HashFn) (hin hsz : Option Nat) : TaskResult :=
  match key, factor, digits, h, hin, hsz with
  | some key, some _, some d, some _, some _, some size =>
    if key = [] ∨ d = 0 ∨ 9 < d ∨ (action ≠ .generateToken ∧ action ≠ .validateToken) then .invalidParams
    else if size < 15 then .invalidParams
    else if action = .validateToken then
      match throttle, resync with
      | some t, some _ => if t = 0 then .invalidParams else .success
      | _, _ => .invalidParams
    else .success
  | _, _, _, _, _, _ => .invalidParams

/-- `ten2d_1_lt` (src/kryptos_hotp.c:204-215). -/
def tens : List W32 :=
  [1#32, 10#32, 100#32, 1000#32, 10000#32, 100000#32, 1000000#32, 10000000#32, 100000000#32, 1000000000#32]

/-- `kryptos_hotp_trunc` (src/kryptos_hotp.c:201-226). -/
def trunc (inp : Bytes) (size d : Nat) : Out W32 :=
  if size = 0 then .ok 0#32
  else do
    let l ← rd inp (size - 1)
    let o := (l &&& 0xF#8).toNat
    let a ← rd inp o
    let b ← rd inp (o + 1)
    let c ← rd inp (o + 2)
    let e ← rd inp (o + 3)
    let n := ((a &&& 0x7F#8).setWidth 32 <<< 24) ||| ((b.setWidth 32 : W32) <<< 16) |||
      ((c.setWidth 32 : W32) <<< 8) ||| (e.setWidth 32 : W32)
    let t ← rd tens d
    return n % t

/-- The eight bytes of the moving factor (src/kryptos_hotp.c:134-142). -/
def counterBytes (c : W64) : Bytes :=
  [((c >>> 56) &&& 0xFF#64).setWidth 8, ((c >>> 48) &&& 0xFF#64).setWidth 8,
   ((c >>> 40) &&& 0xFF#64).setWidth 8, ((c >>> 32) &&& 0xFF#64).setWidth 8,
   ((c >>> 24) &&& 0xFF#64).setWidth 8, ((c >>> 16) &&& 0xFF#64).setWidth 8,
   ((c >>> 8) &&& 0xFF#64).setWidth 8, (c &&& 0xFF#64).setWidth 8]

/-- Lines 124-161 of `kryptos_do_hotp`: the token of a counter value; `none` when the HMAC task
fails. -/
def token (g : Cfg) (c : W64) : Out (Option W32) := do
  let o ← mac (some g.h) (some g.inSize) (some g.size) (some g.key) (counterBytes c)
  match o with
  | none => return none
  | some o => do
    let t ← trunc o g.size g.digits
    return some t

/-- The mutable state: `*arg[C]`, `*arg[T]`, `*arg[s]`.  `tried` is a ghost: the counter values against
which a presented token was compared, latest first. -/
structure St where
  C : W64
  T : Nat
  s : Nat
  tried : List W64

/-- Memory representation of a token. -/
def tokBytes (t : W32) : Bytes :=
  [t.setWidth 8, (t >>> 8).setWidth 8, (t >>> 16).setWidth 8, (t >>> 24).setWidth 8]

/-- `kryptos_do_hotp` (src/kryptos_hotp.c:111-199) with the validate action. -/
def doValidate (g : Cfg) (inp : Bytes) (st : St) : Out (TaskResult × St) :=
  if st.T = 0 then .ok (.invalidToken, st)
  else do
    let t ← token g st.C
    match t with
    | none => return (.hmacError, st)
    | some t =>
      let st := { st with tried := st.C :: st.tried }
      if inp.length = 4 ∧ tokBytes t = inp then return (.success, st)
      else return (.invalidToken, { st with T := st.T - 1 })

/-- The resynchronisation loop (src/kryptos_hotp.c:99-102), `n` iterations left. -/
def resync (g : Cfg) (inp : Bytes) : Nat → TaskResult × St → Out (TaskResult × St)
  | 0, r => .ok r
  | n + 1, (res, st) =>
    if res = .success then .ok (res, st)
    else do
      let r ← doValidate g inp { st with C := st.C + 1#64 }
      resync g inp n r

/-- `kryptos_hotp` (src/kryptos_hotp.c:89-109) with the validate action. -/
def validate (g : Cfg) (inp : Bytes) (st : St) : Out (TaskResult × St) := do
  let (res, st) ← doValidate g inp st
  if res = .success then return (res, { st with C := st.C + 1#64 })
  else if res = .invalidToken ∧ 0 < st.T then do
    let (res, st) ← resync g inp st.s (res, st)
    if res = .success then return (res, { st with C := st.C + 1#64 })
    else return (res, st)
  else return (res, st)

/-- `kryptos_hotp` with the generate action: the produced bytes and the new counter. -/
def generate (g : Cfg) (C : W64) : Out (TaskResult × Option Bytes × W64) := do
  let t ← token g C
  match t with
  | none => return (.hmacError, none, C)
  | some t => return (.success, some (tokBytes t), C + 1#64)

/-- The loop of `kryptos_totp` (src/kryptos_totp.c:107-132) with the validate action; `ntry` attempts
are left.  The bogus parameters are reset to one before every attempt. -/
def totpLoop (g : Cfg) (inp : Bytes) (T0 X : W64) : Nat → W64 → Out TaskResult
  | 0, _ => .ok .invalidToken
  | ntry + 1, ts =>
    if X = 0#64 then .ub
    else do
      let c := (if ntry + 1 > 1 then ts - T0 else ts + T0) / X
      let (r, _) ← validate g inp ⟨c, 1, 1, []⟩
      if r = .success then return r
      else if X < ts ∧ X < ts - X ∧ 0 < ntry then totpLoop g inp T0 X ntry (ts - X)
      else return r

/-- `kryptos_totp` (src/kryptos_totp.c:91-141) with the validate action at Unix time `ts`. -/
def totpValidate (g : Cfg) (inp : Bytes) (T0 X ts : W64) : Out TaskResult := totpLoop g inp T0 X 3 ts

/-- `kryptos_totp` with the generate action: a single pass. -/
def totpGenerate (g : Cfg) (T0 X ts : W64) : Out (TaskResult × Option Bytes) :=
  if X = 0#64 then .ub
  else do
    let (r, o, _) ← generate g ((ts - T0) / X)
    return (r, o)

end Kryptos.Hotp
