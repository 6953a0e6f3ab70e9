import Verif.Model.Gcm
/-
  Model of the block cipher tasks: setup (src/kryptos_types.h:364-388), task check as far as block
  ciphers are concerned (src/kryptos_task_check.c:85-188) and the cipher processor
  (src/kryptos_types.h:565-648).
-/
namespace Kryptos.Block
open Kryptos.Gcm

/-- The fields of `kryptos_task_ctx` a block cipher task uses.  `none` is a NULL pointer; sizes
are the list lengths; `aad` is `aux_buffers.buf1`; `ctr` is the value of `*ctr`. -/
structure Task where
  key : Option Bytes
  mode : Mode
  action : Action
  inp : Option Bytes
  iv : Option Bytes
  ctr : Option W32
  aad : Option Bytes
  out : Option Bytes
  outSize : Nat
  result : TaskResult
  deriving Repr, DecidableEq

/-- The `_setup` function of a block cipher (src/kryptos_types.h:364-388).  `fresh` is the block
returned by `kryptos_get_random_block`. -/
def setup (bs : Nat) (t : Task) (key : Bytes) (mode : Mode) (fresh : Bytes) : Out Task := do
  let t := { t with key := some key, mode := mode }
  let t := if (mode = .cbc ∨ mode = .ofb ∨ mode = .ctr ∨ mode = .gcm) ∧ t.iv = none then
      { t with iv := some fresh } else t
  if mode = .ctr then
    match t.ctr, t.iv with
    | some c, some v =>
      if v.length ≠ bs then .ub else do
        let v' ← putCounter v c
        return { t with iv := some v' }
    | some _, none => .ub
    | none, _ => return t
  else return t

/-- `kryptos_task_check` (src/kryptos_task_check.c:85-188) for a block cipher with block size
`bs` other than NOEKEON (whose extra key limit is lines 120-125): returns the verdict. -/
def taskCheck (bs : Nat) (t : Task) : TaskResult :=
  if t.key = none ∨ t.key = some [] then .invalidParams
  else if t.mode = .nr then .invalidParams
  else if (t.mode = .cbc ∨ t.mode = .ofb ∨ t.mode = .ctr ∨ t.mode = .gcm) ∧
      ¬ (∃ v, t.iv = some v ∧ v.length = bs ∧ v ≠ []) then .invalidParams
  else if t.action ≠ .encrypt ∧ t.action ≠ .decrypt ∧ t.action ≠ .encryptWithoutRandomPad then
    .invalidParams
  else if t.inp = none ∨ t.inp = some [] then .invalidParams
  else .success

instance (bs : Nat) (iv : Option Bytes) : Decidable (∃ v, iv = some v ∧ v.length = bs ∧ v ≠ []) :=
  match iv with
  | none => isFalse (by rintro ⟨v, h, _⟩; cases h)
  | some v =>
    if h : v.length = bs ∧ v ≠ [] then isTrue ⟨v, rfl, h⟩
    else isFalse (by rintro ⟨w, hw, h2⟩; cases hw; exact h h2)

/-- The body of the processor after the check (src/kryptos_types.h:590-648), except GCM. -/
def runProcess (C : Cipher) (t : Task) (inp stale : Bytes) (rnd : Nat → Byte) : Out Task := do
  let p ← process C t.mode t.action inp stale rnd t.iv t.ctr
  match p.out with
  | none =>
    return { t with iv := p.iv, ctr := p.ctr, result := .processError }
  | some o =>
    return { t with iv := p.iv, ctr := p.ctr, out := some o, outSize := p.size, result := .success }

/-- `kryptos_<cipher>_cipher` (src/kryptos_types.h:581-648).  The model starts from a task whose
`out` is NULL, as every caller of the library does; with a stale non-NULL `out` only the final
`out == NULL` test of the epilogue would differ. -/
def cipherTask (C : Cipher) (kind : EKind) (t : Task) (stale : Bytes) (rnd : Nat → Byte) :
    Out Task := do
  if taskCheck C.bs t ≠ .success then return { t with result := taskCheck C.bs t }
  else
    match t.inp with
    | none => .ub
    | some inp =>
      let ivSize := (t.iv.map List.length).getD 0
      let a := t.aad.getD []
      if t.mode = .gcm ∧ t.action = .decrypt then do
        let (r, inp') ← gcmVerify (eFunc C kind stale rnd) inp ivSize a
        let t := { t with inp := some inp', result := r }
        if r ≠ .success then
          -- epilogue (src/kryptos.h:308-314) with out == NULL
          if t.out = none ∧ r ≠ .keyError ∧ r ≠ .gmacError ∧ r ≠ .noSupport then
            return { t with result := .processError }
          else return t
        else runProcess C t inp' stale rnd
      else do
        let t' ← runProcess C t inp stale rnd
        if t.action = .encrypt ∧ t'.result = .success ∧ t.mode = .gcm then
          match t'.out with
          | none => .ub
          | some o => do
            let (r, o') ← gcmAuth (eFunc C kind stale rnd) o ivSize a
            if r ≠ .success then
              let r' : TaskResult := if r ≠ .keyError ∧ r ≠ .gmacError ∧ r ≠ .noSupport then
                  .processError else r
              return { t' with out := none, outSize := 0, result := r' }
            else return { t' with out := some o', outSize := o'.length, result := .success }
        else return t'

end Kryptos.Block
