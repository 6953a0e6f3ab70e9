import Verif.Model.DlParams
import Verif.Model.Rsa
/-
  Model of src/kryptos_dsa.c.

  `none` in front of a result stands for a loop that has not ended.  Both tasks release the hash task at the end; when they fail
  before it has been initialised (src/kryptos_dsa.c:346, 599), they read its uninitialised fields there
  (src/kryptos_dsa.c:478, 883), which is undefined.
-/
namespace Kryptos.Dsa
open Mp Hash Hmac
open Rsa (Res getMp putMps)

variable {w : Nat}

/-- `kryptos_mp_modinv` as used here: it returns `NULL` only when memory runs out, so that a number without an inverse is not
noticed. -/
abbrev inverse (fuel : Nat) (a n : Num w) : Out (Option (Num w)) := modinv fuel a n

/-- `HASH(x)` as a number (src/kryptos_dsa.c:346-367, 599-620). -/
def hashNum (w : Nat) (hash : HashFn) (x : Bytes) : Out (Option (Num w)) := do
  match ← runHash hash x with
  | none => return none
  | some d => rawBuffer w d

/-- The signature of a message with the ephemeral key `ke` (src/kryptos_dsa.c:300-430). -/
def signWith (hash : HashFn) (fuel : Nat) (p q g d ke : Num w) (x : Bytes) : Out (Option Res) := do
  match ← inverse fuel ke q with
  | none => return none
  | some keInv => do
    match ← modO (← meModN g ke p) (some q) with
    | none => .ub
    | some r => do
      let r := assign none r
      match ← hashNum w hash x with
      | none => return some (.processError, none)
      | some h => do
        let t ← mul d r
        let t ← add t h
        let t ← mul t keInv
        match ← modO (some t) (some q) with
        | none => return some (.processError, none)
        | some s => do
          let o ← Pem.putData true none (some (ascii "DSA X")) (some x)
          if o.1 ≠ .success then return some (.processError, none)
          else do
            let o ← putMps o.2 [("DSA R", r), ("DSA S", s)]
            if o.1 ≠ .success then return some (.processError, none) else return some o

/-- `kryptos_dsa_sign` (src/kryptos_dsa.c:246-488) after the check. -/
def sign (w : Nat) (hash : HashFn) (rnd : Nat → Byte) (fuel : Nat) (key x : Bytes) : Out (Option Res) := do
  match ← getMp w "DSA P" key with
  | none => .ub
  | some p => do
    match ← getMp w "DSA G" key with
    | none => .ub
    | some g => do
      match ← getMp w "DSA Q" key with
      | none => .ub
      | some q => do
        match ← getMp w "DSA D" key with
        | none => .ub
        | some d => do
          match ← Dl.draw rnd fuel one q with
          | none => return none
          | some ke => signWith hash fuel p q g d ke x

/-- The end of `kryptos_dsa_verify` (src/kryptos_dsa.c:703-814). -/
def verifyEnd (p q g e r u1 u2 : Num w) (x : Bytes) : Out Res := do
  let v ← meModN g u1 p
  let eu ← meModN e u2 p
  let v ← mulO v eu
  match ← modO v (some p) with
  | none => return (.processError, none)
  | some v => do
    match ← modO (some (assign none v)) (some q) with
    | none => return (.processError, none)
    | some v => do
      match ← modO (some r) (some q) with
      | none => return (.processError, none)
      | some r => if eq (assign none v) (assign none r) then return (.success, some x) else return (.invalidSignature, none)

/-- `kryptos_dsa_verify` from the inverse on (src/kryptos_dsa.c:572-694). -/
def verifyWith (hash : HashFn) (fuel : Nat) (p q g e r s : Num w) (x : Bytes) : Out (Option Res) := do
  match ← inverse fuel s q with
  | none => return none
  | some sInv => do
    match ← modO (some sInv) (some q) with
    | none => .ub
    | some k => do
      match ← hashNum w hash x with
      | none => return some (.processError, none)
      | some h => do
        let u1 ← mul (assign none k) h
        match ← modO (some u1) (some q) with
        | none => return some (.processError, none)
        | some u1 => do
          let u2 ← mul (assign none k) r
          match ← modO (some u2) (some q) with
          | none => return some (.processError, none)
          | some u2 => do
            let o ← verifyEnd p q g e r (assign none u1) (assign none u2) x
            return some o

/-- `kryptos_dsa_verify` (src/kryptos_dsa.c:490-894) after the check. -/
def verify (w : Nat) (hash : HashFn) (fuel : Nat) (key inp : Bytes) : Out (Option Res) := do
  match ← getMp w "DSA P" key with
  | none => .ub
  | some p => do
    match ← getMp w "DSA G" key with
    | none => .ub
    | some g => do
      match ← getMp w "DSA Q" key with
      | none => .ub
      | some q => do
        match ← getMp w "DSA E" key with
        | none => .ub
        | some e => do
          match ← Pem.getData (some (ascii "DSA X")) (some inp) with
          | none => .ub
          | some x =>
            if x.length = 0 then .ub
            else do
              match ← getMp w "DSA R" inp with
              | none => .ub
              | some r => do
                match ← getMp w "DSA S" inp with
                | none => .ub
                | some s => verifyWith hash fuel p q g e r s x

/-- What is done after a check has passed; `NULL` and empty buffers have been refused by it. -/
def afterCheck (t : TaskCheck.Task) (check : TaskCheck.Task → Out TaskCheck.Verdict) (f : Bytes → Bytes → Out (Option Res)) :
    Out (Option Res) := do
  match ← check t with
  | some (r, _) => return some (r, none)
  | none =>
    match t.key, t.inp with
    | some key, some inp => f key inp
    | _, _ => return some (.invalidParams, none)

/-- The signing task. -/
def signTask (w : Nat) (hash : HashFn) (rnd : Nat → Byte) (fuel : Nat) (t : TaskCheck.Task) : Out (Option Res) :=
  afterCheck t TaskCheck.checkSign (sign w hash rnd fuel)

/-- The verifying task. -/
def verifyTask (w : Nat) (hash : HashFn) (fuel : Nat) (t : TaskCheck.Task) : Out (Option Res) :=
  afterCheck t TaskCheck.checkVerify (verify w hash fuel)

/-- The numbers of a key pair for given parameters (src/kryptos_dsa.c:47-116): public and private key, which are both dropped
when something fails. -/
def mkKeys (rnd : Nat → Byte) (fuel : Nat) (p q g : Num w) : Out (Option (TaskResult × Option Bytes × Option Bytes)) := do
  match ← Dl.draw rnd fuel one q with
  | none => return none
  | some d => do
    match ← meModN g d p with
    | none => return some (.processError, none, none)
    | some e => do
      let pub ← putMps none [("DSA P", p), ("DSA Q", q), ("DSA G", g), ("DSA E", e)]
      if pub.1 ≠ .success then return some (pub.1, none, none)
      else do
        let priv ← putMps none [("DSA P", p), ("DSA Q", q), ("DSA G", g), ("DSA D", d)]
        if priv.1 ≠ .success then return some (priv.1, none, none)
        else return some (priv.1, pub.2, priv.2)

/-- `kryptos_dsa_mk_key_pair` (src/kryptos_dsa.c:23-155). -/
def mkKeyPair (w : Nat) (rnd : Nat → Nat → Nat → Byte) (rndD : Nat → Byte) (fuel pBits qBits : Nat) :
    Out (Option (TaskResult × Option Bytes × Option Bytes)) := do
  match ← Dl.generate w rnd pBits qBits fuel 0 with
  | none => return none
  | some none => return some (.processError, none, none)
  | some (some (p, q, g)) => mkKeys rndD fuel p q g

end Kryptos.Dsa
