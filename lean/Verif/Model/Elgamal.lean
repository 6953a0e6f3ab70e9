import Verif.Model.DlParams
import Verif.Model.Rsa
/-
  Model of src/kryptos_elgamal.c.  As in Model/Rsa.lean a task returns its result and its output; here `none` in front stands for
  a loop that has not ended.
-/
namespace Kryptos.Elgamal
open Mp Hash
open Rsa (Res getMp putMps byteSize)

variable {w : Nat}

/-- The product modulo `p` by `kryptos_mp_mul` and `kryptos_mp_div` (src/kryptos_elgamal.c:517-531, 698-712). -/
def mulMod (x : Num w) (k : Option (Num w)) (p : Num w) : Out (Option (Num w)) := do
  let y ← mulO (some x) k
  modO y (some p)

/-- The computation of a ciphertext with the ephemeral secret `i` (src/kryptos_elgamal.c:509-552). -/
def encryptWith (p g b x i : Num w) : Out Res := do
  let ke ← meModN g i p
  let km ← meModN b i p
  match ← mulMod x km p with
  | none => return (.processError, none)
  | some y =>
    match ke with
    | none => .ub
    | some ke => putMps none [("ELGAMAL PARAM Y", y), ("ELGAMAL PARAM E", ke)]

/-- `kryptos_elgamal_encrypt` (src/kryptos_elgamal.c:414-608). -/
def encrypt (w : Nat) (rnd : Nat → Byte) (fuel : Nat) (key inp : Bytes) : Out (Option Res) := do
  match ← getMp w "ELGAMAL PARAM P" key with
  | none => return some (.processError, none)
  | some p => do
    let p1 ← sub (assign none p) one
    match ← rawBuffer w inp with
    | none => return some (.invalidParams, none)
    | some x =>
      if lt x one || gt x p1 then return some (.invalidParams, none)
      else do
        let q ← getMp w "ELGAMAL PARAM Q" key
        match ← getMp w "ELGAMAL PARAM G" key with
        | none => return some (.processError, none)
        | some g => do
          match ← getMp w "ELGAMAL PARAM B" key with
          | none => return some (.processError, none)
          | some b => do
            match ← Dl.draw rnd fuel two (match q with
              | some q => q
              | none => p) with
            | none => return none
            | some i => do
              let r ← encryptWith p g b x i
              return some r

/-- `kryptos_elgamal_decrypt` (src/kryptos_elgamal.c:610-760).  A missing ephemeral key is noticed as the power of it is `NULL`. -/
def decrypt (w : Nat) (key inp : Bytes) : Out Res := do
  match ← getMp w "ELGAMAL PARAM P" key with
  | none => return (.processError, none)
  | some p => do
    match ← getMp w "ELGAMAL PARAM D" key with
    | none => return (.processError, none)
    | some d => do
      let pd ← sub (assign none p) d
      let pd ← sub pd one
      match ← getMp w "ELGAMAL PARAM E" inp with
      | none => return (.processError, none)
      | some ke => do
        match ← meModN ke pd p with
        | none => return (.processError, none)
        | some kmInv => do
          match ← getMp w "ELGAMAL PARAM Y" inp with
          | none => return (.processError, none)
          | some y => do
            match ← mulMod y (some kmInv) p with
            | none => return (.processError, none)
            | some x => return (.success, some (asTaskOut x))

/-- What is done after `kryptos_task_check` has passed. -/
def afterCheck (t : TaskCheck.Task) (f : Bytes → Bytes → Out (Option Res)) : Out (Option Res) := do
  match ← TaskCheck.check t with
  | some (r, _) => return some (r, none)
  | none =>
    match t.key, t.inp with
    | some key, some inp => f key inp
    | _, _ => return some (.invalidParams, none)

/-- `kryptos_elgamal_cipher` (src/kryptos_elgamal.c:213-236). -/
def cipher (w : Nat) (rnd : Nat → Byte) (fuel : Nat) (t : TaskCheck.Task) : Out (Option Res) :=
  afterCheck t fun key inp =>
    match t.action with
    | .encrypt => encrypt w rnd fuel key inp
    | .decrypt => do
      let r ← decrypt w key inp
      return some r
    | _ => .ok (some (.invalidParams, none))

/-- `kryptos_elgamal_oaep_cipher` after the checks (src/kryptos_elgamal.c:283-323). -/
def oaep (w : Nat) (rnd : Nat → Byte) (fuel : Nat) (hash : HashFn) (h : Nat) (seed label : Option Bytes) (action : Action)
    (key inp : Bytes) : Out (Option Res) := do
  match ← getMp w "ELGAMAL PARAM P" key with
  | none => return some (.processError, none)
  | some p =>
    if action = .encrypt then do
      match ← Oaep.apply hash h seed inp (byteSize p) label with
      | none => return some (.processError, none)
      | some em => encrypt w rnd fuel key em
    else do
      match ← decrypt w key inp with
      | (.success, some out) => do
        match ← Oaep.drop hash h out (byteSize p) label with
        | none => return some (.processError, none)
        | some m => return some (.success, some m)
      | r => return some r

/-- The numbers of a key pair for given parameters (src/kryptos_elgamal.c:45-53, 58-96): public and private key. -/
def mkKeys (rnd : Nat → Byte) (fuel : Nat) (p q g : Num w) : Out (Option (TaskResult × Option Bytes × Option Bytes)) := do
  match ← Dl.draw rnd fuel two q with
  | none => return none
  | some d => do
    match ← meModN g d p with
    | none => return some (.processError, none, none)
    | some b => do
      let pub ← putMps none [("ELGAMAL PARAM P", p), ("ELGAMAL PARAM Q", q), ("ELGAMAL PARAM G", g), ("ELGAMAL PARAM B", b)]
      if pub.1 ≠ .success then return some (pub.1, pub.2, none)
      else do
        let priv ← putMps none [("ELGAMAL PARAM P", p), ("ELGAMAL PARAM D", d)]
        return some (priv.1, pub.2, priv.2)

/-- `kryptos_elgamal_mk_key_pair` (src/kryptos_elgamal.c:28-133).  When no parameters are made the function goes on with
`NULL` numbers. -/
def mkKeyPair (w : Nat) (rnd : Nat → Nat → Nat → Byte) (rndD : Nat → Byte) (fuel pBits qBits : Nat) :
    Out (Option (TaskResult × Option Bytes × Option Bytes)) := do
  match ← Dl.generate w rnd pBits qBits fuel 0 with
  | none => return none
  | some none => .ub
  | some (some (p, q, g)) => mkKeys rndD fuel p q g

/-- `kryptos_elgamal_verify_public_key` (src/kryptos_elgamal.c:135-200). -/
def verifyPublicKey (w : Nat) (rnd : Nat → Nat → Byte) (fuel : Nat) (key : Bytes) : Out (Option TaskResult) :=
  if key.length = 0 then .ok (some .invalidParams)
  else do
    match ← getMp w "ELGAMAL PARAM B" key with
    | none => return some .invalidParams
    | some _ => do
      match ← getMp w "ELGAMAL PARAM P" key with
      | none => return some .invalidParams
      | some p => do
        match ← getMp w "ELGAMAL PARAM Q" key with
        | none => return some .invalidParams
        | some q => do
          match ← getMp w "ELGAMAL PARAM G" key with
          | none => return some .invalidParams
          | some g => Dl.verify rnd fuel p q g

end Kryptos.Elgamal
