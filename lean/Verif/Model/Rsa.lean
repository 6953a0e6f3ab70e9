import Verif.Model.MpHex
import Verif.Model.MpPrime
import Verif.Model.MpGcd
import Verif.Model.Oaep
import Verif.Model.TaskCheck
/-
  Model of src/kryptos_rsa.c.

  A task returns its result and its output (`none` for an output which is not set).  Freeing and wiping, running out of memory
  and the texts of errors are not modelled.  Numbers have digits of `w` bits; 64 is the width on a 64-bit machine, 32 on the
  others (src/kryptos_types.h:288-302).
-/
namespace Kryptos.Rsa
open Mp Hash

/-- `result` and `out`. -/
abbrev Res := TaskResult × Option Bytes

/-- `kryptos_pem_get_mp_data` with a header which is a literal. -/
def getMp (w : Nat) (h : String) (buf : Bytes) : Out (Option (Num w)) := Pem.getMpData w (some (ascii h)) (some buf)

/-- Successive calls of `kryptos_pem_put_data` with the digits of numbers, up to the first failure, as in
src/kryptos_rsa.c:111-133. -/
def putMps {w : Nat} : Option Bytes → List (String × Num w) → Out Res
  | pem, [] => .ok (.success, pem)
  | pem, (h, n) :: ops => do
    let r ← Pem.putData true pem (some (ascii h)) (some (leBytes n.data))
    if r.1 ≠ .success then return r else putMps r.2 ops

/-- `kryptos_mp_byte2bit(n->data_size) >> 3` (src/kryptos_mp.h:152-160). -/
def byteSize {w : Nat} (n : Num w) : Nat := n.data.length * w / 8

/-- `kryptos_rsa_encrypt` (src/kryptos_rsa.c:347-406). -/
def encrypt (w : Nat) (key inp : Bytes) : Out Res := do
  match ← getMp w "RSA PARAM N" key with
  | none => return (.processError, none)
  | some n =>
    if byteSize n < inp.length then return (.invalidParams, none)
    else do
      match ← getMp w "RSA PARAM E" key with
      | none => return (.processError, none)
      | some e => do
        match ← rawBuffer w inp with
        | none => return (.invalidParams, none)
        | some m => do
          match ← meModN m e n with
          | none => return (.processError, none)
          | some c => putMps none [("RSA PARAM C", c)]

/-- `kryptos_rsa_decrypt` (src/kryptos_rsa.c:408-465). -/
def decrypt (w : Nat) (key inp : Bytes) : Out Res := do
  match ← getMp w "RSA PARAM N" key with
  | none => return (.processError, none)
  | some n => do
    match ← getMp w "RSA PARAM D" key with
    | none => return (.processError, none)
    | some d => do
      match ← getMp w "RSA PARAM C" inp with
      | none => return (.processError, none)
      | some c => do
        match ← meModN c d n with
        | none => return (.processError, none)
        | some m => return (.success, some (asTaskOut m))

/-- What is done after `kryptos_task_check` has passed; `NULL` and empty buffers have been refused by it. -/
def afterCheck (t : TaskCheck.Task) (check : TaskCheck.Task → Out TaskCheck.Verdict) (f : Bytes → Bytes → Out Res) : Out Res := do
  match ← check t with
  | some (r, _) => return (r, none)
  | none =>
    match t.key, t.inp with
    | some key, some inp => f key inp
    | _, _ => return (.invalidParams, none)

/-- `kryptos_rsa_cipher` (src/kryptos_rsa.c:234-257). -/
def cipher (w : Nat) (t : TaskCheck.Task) : Out Res :=
  afterCheck t TaskCheck.check fun key inp =>
    match t.action with
    | .encrypt => encrypt w key inp
    | .decrypt => decrypt w key inp
    | _ => .ok (.invalidParams, none)

/-- `kryptos_rsa_oaep_cipher` after the checks (src/kryptos_rsa.c:284-331).  The hash is the one given, or SHA-1
(src/kryptos_padding.c:164-179); `seed` is what the system delivers. -/
def oaep (w : Nat) (hash : HashFn) (h : Nat) (seed label : Option Bytes) (action : Action) (key inp : Bytes) : Out Res := do
  match ← getMp w "RSA PARAM N" key with
  | none => return (.invalidParams, none)
  | some n =>
    if action = .encrypt then do
      match ← Oaep.apply hash h seed inp (byteSize n) label with
      | none => return (.processError, none)
      | some em => encrypt w key em
    else do
      match ← decrypt w key inp with
      | (.success, some out) => do
        match ← Oaep.drop hash h out (byteSize n) label with
        | none => return (.processError, none)
        | some m => return (.success, some m)
      | r => return r

/-- `kryptos_rsa_oaep_cipher` (src/kryptos_rsa.c:259-345). -/
def oaepCipher (w : Nat) (hash : HashFn) (h : Nat) (seed label : Option Bytes) (t : TaskCheck.Task) : Out Res :=
  if t.action ≠ .encrypt ∧ t.action ≠ .decrypt then .ok (.invalidParams, none)
  else afterCheck t TaskCheck.check (oaep w hash h seed label t.action)

/-- The computation of a signature (src/kryptos_rsa.c:596-667) of the number of `em`, exported with the number of `x`. -/
def signCore (w : Nat) (d n : Num w) (em x : Bytes) : Out Res :=
  if byteSize n < em.length then .ok (.invalidParams, none)
  else do
    match ← rawBuffer w em with
    | none => return (.processError, none)
    | some xe => do
      match ← meModN xe d n with
      | none => return (.processError, none)
      | some s => do
        match ← rawBuffer w x with
        | none => return (.processError, none)
        | some x => putMps none [("RSA PARAM X", x), ("RSA PARAM S", s)]

/-- The zeros added to the message (src/kryptos_rsa.c:563-583). -/
def padDigits (w : Nat) (inp : Bytes) : Bytes :=
  inp ++ List.replicate ((w / 8 - inp.length % (w / 8)) % (w / 8)) 0#8

/-- The PSS encoding in `kryptos_rsa_sign`: the hash, its size, the salt delivered and its size. -/
structure Pss where
  hash : HashFn
  h : Nat
  salt : Option Bytes
  saltSize : Nat

/-- `kryptos_rsa_sign` (src/kryptos_rsa.c:529-715), with `pss` for `kKryptosCipherRSAEMSAPSS`. -/
def sign (w : Nat) (pss : Option Pss) (key inp : Bytes) : Out Res := do
  match ← getMp w "RSA PARAM D" key with
  | none => return (.processError, none)
  | some d => do
    match ← getMp w "RSA PARAM N" key with
    | none => return (.processError, none)
    | some n =>
      match pss with
      | none => signCore w d n inp inp
      | some p => do
        match ← Oaep.pssEncode p.hash p.h p.salt (padDigits w inp) p.saltSize with
        | none => return (.invalidParams, none)
        | some em => signCore w d n em (padDigits w inp)

/-- `kryptos_rsa_verify` (src/kryptos_rsa.c:717-848): `inp` is the signature document. -/
def verify (w : Nat) (pss : Option Pss) (key inp : Bytes) : Out Res := do
  match ← getMp w "RSA PARAM X" inp with
  | none => return (.processError, none)
  | some x => do
    match ← getMp w "RSA PARAM S" inp with
    | none => return (.processError, none)
    | some s => do
      match ← getMp w "RSA PARAM E" key with
      | none => return (.processError, none)
      | some e => do
        match ← getMp w "RSA PARAM N" key with
        | none => return (.processError, none)
        | some n => do
          match ← meModN s e n with
          | none => return (.processError, none)
          | some xp =>
            match pss with
            | none => if ne x xp then return (.invalidSignature, none) else return (.success, some (asTaskOut x))
            | some p => do
              let b ← Oaep.pssVerify p.hash p.h (asTaskOut x) (asTaskOut xp) (n.data.length * w) p.saltSize
              if b then return (.success, some (asTaskOut x)) else return (.invalidSignature, none)

/-- The signing task, with the checks. -/
def signTask (w : Nat) (pss : Option Pss) (t : TaskCheck.Task) : Out Res := afterCheck t TaskCheck.checkSign (sign w pss)

/-- The verifying task, with the checks. -/
def verifyTask (w : Nat) (pss : Option Pss) (t : TaskCheck.Task) : Out Res := afterCheck t TaskCheck.checkVerify (verify w pss)

/-- A candidate for the public exponent (src/kryptos_rsa.c:187-196): every digit is an `int` of four random bytes, extended by
its sign.  The order in which the four bytes are drawn is taken to be from left to right. -/
def candidateE (w : Nat) (rnd : Nat → Byte) (i n : Nat) : Num w :=
  ⟨(List.range n).map fun d =>
    ((rnd (i + 4 * d)) ++ (rnd (i + 4 * d + 1)) ++ (rnd (i + 4 * d + 2)) ++ (rnd (i + 4 * d + 3))).signExtend w, false⟩

/-- The loops of `kryptos_rsa_eval_e` (src/kryptos_rsa.c:184-206).  `none`: no exponent found with this fuel. -/
def evalELoop {w : Nat} (rnd : Nat → Byte) (phi : Num w) : Nat → Nat → Out (Option (Num w))
  | 0, _ => .ok none
  | f + 1, i => do
    let n := newSize w (phi.data.length * w)
    let e := candidateE w rnd i n
    if ge e phi then evalELoop rnd phi f (i + 4 * n)
    else do
      match ← gcd f e phi with
      | none => return none
      | some g => if ne g one then evalELoop rnd phi f (i + 4 * n) else return some e

/-- The numbers of a key pair (src/kryptos_rsa.c:39-108).  The random bytes for the two primes and the exponent are three
streams.  `kryptos_mp_modinv` returns `NULL` only when memory runs out, so that the steps are not repeated; `none`: no key
pair with this fuel. -/
def mkNumbers (w : Nat) (rndP rndQ rndE : Nat → Byte) (fuel bits : Nat) : Out (Option (Num w × Num w × Num w)) := do
  match ← genPrime w rndP fuel 0 (bits / 2), ← genPrime w rndQ fuel 0 (bits / 2) with
  | some p, some q => do
    let n ← mul (assign none p) q
    let t ← sub (assign none p) one
    let phi := assign none t
    let t ← sub (assign (some t) q) one
    let phi ← mul phi t
    match ← evalELoop rndE phi fuel 0 with
    | none => return none
    | some e => do
      match ← modinv fuel e phi with
      | none => return none
      | some d => return some (n, e, d)
  | _, _ => return none

/-- `kryptos_rsa_mk_key_pair` (src/kryptos_rsa.c:27-170), for empty key buffers: the result, the public and the private key. -/
def mkKeyPair (w : Nat) (rndP rndQ rndE : Nat → Byte) (fuel bits : Nat) : Out (Option (TaskResult × Option Bytes × Option Bytes)) :=
  if bits < 16 then .ok (some (.invalidParams, none, none))
  else do
    match ← mkNumbers w rndP rndQ rndE fuel bits with
    | none => return none
    | some (n, e, d) => do
      let pub ← putMps none [("RSA PARAM N", n), ("RSA PARAM E", e)]
      if pub.1 ≠ .success then return some (pub.1, pub.2, none)
      else do
        let priv ← putMps none [("RSA PARAM N", n), ("RSA PARAM D", d)]
        return some (priv.1, pub.2, priv.2)

end Kryptos.Rsa
