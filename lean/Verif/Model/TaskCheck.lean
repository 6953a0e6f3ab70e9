import Verif.Model.Pem
/-
  Model of src/kryptos_task_check.c.

  Of a task only the fields looked at are modelled.  Buffers are `none` for `NULL`; for `key` and `in` the size is the length
  (the code treats a `NULL` pointer and a size of zero alike); `iv` and `iv_size` are independent.  `args i` tells whether
  `arg[i]` is not `NULL`.  The verification looks into keys by `Pem.getData`, which may be undefined.
-/
namespace Kryptos.TaskCheck

/-- `kryptos_cipher_t` (src/kryptos_types.h:146-198); `invalid` is any value outside of it. -/
inductive Cipher where
  | arc4 | seal | rabbit | salsa20 | chacha20 | aes128 | aes192 | aes256 | des | tdes | tdesede | idea | rc2 | rc5
  | rc6128 | rc6192 | rc6256 | feal | cast5 | camellia | saferk64 | blowfish | serpent | tea | xtea | misty1
  | mars128 | mars192 | mars256 | present | shacal1 | shacal2 | noekeon | noekeond | gostds | gost | twofish128
  | twofish192 | twofish256 | rsa | rsaoaep | elgamal | elgamaloaep | rsaemsapss | dsa | ecdsa
  | invalid
  deriving DecidableEq, Repr

/-- The fields of a task looked at. -/
structure Task where
  cipher : Cipher
  mode : Mode
  action : Action
  key : Option Bytes
  iv : Bool
  ivSize : Nat
  inp : Option Bytes
  args : Nat → Bool

/-- The outcome: `none` is a pass, otherwise `result` and `result_verbose`. -/
abbrev Verdict := Option (TaskResult × String)

/-- `NULL` or empty. -/
def missing (b : Option Bytes) : Bool :=
  match b with
  | none => true
  | some b => b.isEmpty

/-- A condition followed by the rest of the checks. -/
def orElse (bad : Bool) (r : TaskResult) (s : String) (rest : Out Verdict) : Out Verdict :=
  if bad then .ok (some (r, s)) else rest

/-- The `switch` of `kryptos_task_check_iv_data` (src/kryptos_task_check.c:360-453). -/
def ivSwitch (t : Task) : Bool :=
  match t.cipher with
  | .des | .tdes | .tdesede => t.ivSize == 8
  | .idea => t.ivSize == 8
  | .blowfish => t.ivSize == 8
  | .feal => t.ivSize == 8
  | .camellia => t.ivSize == 16
  | .cast5 => t.ivSize == 8
  | .rc2 => t.ivSize == 8
  | .rc5 => t.ivSize == 8
  | .rc6128 | .rc6192 | .rc6256 => t.ivSize == 16
  | .saferk64 => t.ivSize == 8
  | .tea => t.ivSize == 8
  | .xtea => t.ivSize == 8
  | .aes128 | .aes192 | .aes256 => t.ivSize == 16
  | .serpent => t.ivSize == 16
  | .misty1 => t.ivSize == 8
  | .mars128 | .mars192 | .mars256 => t.ivSize == 16
  | .present => t.ivSize == 8
  | .shacal1 => t.ivSize == 20
  | .shacal2 => t.ivSize == 32
  | .noekeon | .noekeond => t.ivSize == 16
  | .gostds | .gost => t.ivSize == 8
  | .rabbit => (!t.iv && t.ivSize == 0) || t.ivSize == 8
  | .salsa20 => (!t.iv && t.ivSize == 0) || (t.iv && t.ivSize == 8)
  | .chacha20 => (!t.iv && t.ivSize == 0) || (t.iv && t.ivSize == 12)
  | .twofish128 | .twofish192 | .twofish256 => t.ivSize == 16
  | _ => false

/-- `kryptos_task_check_iv_data` (src/kryptos_task_check.c:353-456). -/
def ivData (t : Task) : Bool :=
  if (!t.iv || t.ivSize == 0) && t.cipher != .rabbit && t.cipher != .salsa20 && t.cipher != .chacha20 then false
  else ivSwitch t

/-- Whether `kryptos_pem_get_data` finds data under a header. -/
def hasData (header : String) (key : Option Bytes) : Out Bool := do
  let d ← Pem.getData (some (ascii header)) key
  return d.isSome

/-- Whether it finds data which is not empty (`data == NULL || data_size == 0`). -/
def hasBytes (header : String) (key : Option Bytes) : Out Bool := do
  let d ← Pem.getData (some (ascii header)) key
  return !missing d

/-- Headers looked up one after the other until one is missing. -/
def allData : List String → Option Bytes → Out Bool
  | [], _ => .ok true
  | h :: l, key => do
    let b ← hasData h key
    if b then allData l key else return false

/-- `kryptos_task_check_rsa_params` (src/kryptos_task_check.c:458-502). -/
def rsaParams (t : Task) : Out Verdict :=
  orElse (missing t.key) .keyError "RSA key not supplied." <|
  if t.action = .encrypt then do
    let b ← allData ["RSA PARAM E", "RSA PARAM N"] t.key
    return if b then none else some (.keyError, "RSA public key not supplied.")
  else do
    let b ← allData ["RSA PARAM D", "RSA PARAM N"] t.key
    return if b then none else some (.keyError, "RSA private key not supplied.")

/-- `kryptos_task_check_rsa_oaep_additional_params` (src/kryptos_task_check.c:504-536). -/
def oaepParams (t : Task) : Out Verdict :=
  orElse (!t.args 0 && t.args 1) .invalidParams "Label token indicated as null but with size greater than zero." <|
  orElse (t.args 0 && !t.args 1) .invalidParams "Label token indicated as non-null but with size equals to zero." <|
  orElse (!t.args 2 && t.args 3) .invalidParams "Hash function indicated as null but Hash_size function is non-null." <|
  orElse (t.args 2 && !t.args 3) .invalidParams "Hash function indicated as non-null but Hash_size function is null." <|
  .ok none

/-- `kryptos_task_check_elgamal_params` (src/kryptos_task_check.c:538-589). -/
def elgamalParams (t : Task) : Out Verdict :=
  orElse (missing t.key) .keyError "ELGAMAL key not supplied." <|
  if t.action = .encrypt then do
    let b ← allData ["ELGAMAL PARAM P", "ELGAMAL PARAM B", "ELGAMAL PARAM G"] t.key
    return if b then none else some (.keyError, "ELGAMAL public key not supplied.")
  else if t.action = .decrypt then do
    let b ← allData ["ELGAMAL PARAM P", "ELGAMAL PARAM D"] t.key
    return if b then none else some (.keyError, "ELGAMAL private key not supplied.")
  else .ok none

/-- One check after another. -/
def andThen (a b : Out Verdict) : Out Verdict := do
  match ← a with
  | none => b
  | some v => return some v

/-- The part of `kryptos_task_check` for public keys (src/kryptos_task_check.c:158-174). -/
def pkParams (t : Task) : Out Verdict :=
  if t.cipher = .rsa ∨ t.cipher = .rsaoaep then
    andThen (rsaParams t) (if t.cipher = .rsaoaep then oaepParams t else .ok none)
  else if t.cipher = .elgamal ∨ t.cipher = .elgamaloaep then
    andThen (elgamalParams t) (if t.cipher = .elgamaloaep then oaepParams t else .ok none)
  else .ok none

/-- The first condition on the mode (src/kryptos_task_check.c:102-115). -/
def badMode (t : Task) : Bool :=
  (t.cipher != .arc4 && t.cipher != .seal && t.cipher != .rabbit && t.cipher != .salsa20 && t.cipher != .chacha20 &&
    t.cipher != .rsa && t.cipher != .rsaoaep && t.cipher != .elgamal && t.cipher != .elgamaloaep) &&
  t.mode != .ecb && t.mode != .cbc && t.mode != .ofb && t.mode != .ctr && t.mode != .gcm

/-- The condition on the initialization vector (src/kryptos_task_check.c:129-141). -/
def badIv (t : Task) : Bool :=
  (t.cipher != .arc4 && t.cipher != .seal && t.cipher != .rsa && t.cipher != .rsaoaep && t.cipher != .elgamal) &&
  (t.mode == .cbc || t.mode == .ofb || t.mode == .ctr || t.mode == .gcm ||
    t.cipher == .rabbit || t.cipher == .salsa20 || t.cipher == .chacha20) &&
  !ivData t

/-- The condition on the action (src/kryptos_task_check.c:146-153). -/
def badAction (t : Task) : Bool :=
  (t.cipher != .arc4 && t.cipher != .seal && t.cipher != .rabbit && t.cipher != .salsa20 && t.cipher != .chacha20) &&
  t.action != .encrypt && t.action != .decrypt && t.action != .encryptWithoutRandomPad

/-- The condition on the key of NOEKEON (src/kryptos_task_check.c:120-121). -/
def longKey (t : Task) : Bool :=
  (t.cipher == .noekeon || t.cipher == .noekeond) &&
    (match t.key with
    | none => false
    | some k => decide (16 < k.length))

/-- `kryptos_task_check` (src/kryptos_task_check.c:85-188); a pass sets `kKryptosSuccess`. -/
def check (t : Task) : Out Verdict :=
  orElse (missing t.key) .invalidParams "Invalid key data." <|
  orElse (t.cipher == .invalid) .invalidCipher "Invalid cipher." <|
  orElse (badMode t) .invalidParams "Invalid operation mode." <|
  orElse (longKey t) .keyError "NOEKEON requires a 128-bit key as its maximum key size." <|
  orElse (badIv t) .invalidParams "Invalid iv data." <|
  orElse (badAction t) .invalidParams "Invalid task action." <|
  andThen (pkParams t) <|
  orElse (missing t.inp) .invalidParams "No input." <|
  .ok none

/-- `kryptos_task_check_basic_input_and_key_checks` (src/kryptos_task_check.c:72-83). -/
def basic (t : Task) (rest : Out Verdict) : Out Verdict :=
  orElse (missing t.inp) .invalidParams "No input." <|
  orElse (missing t.key) .keyError "NULL key." rest

/-- A parameter which has to be in the key. -/
def need (header msg : String) (t : Task) (rest : Out Verdict) : Out Verdict := do
  let b ← hasBytes header t.key
  if b then rest else return some (.keyError, msg)

/-- The same where a size of zero is not looked at. -/
def needData (header msg : String) (t : Task) (rest : Out Verdict) : Out Verdict := do
  let b ← hasData header t.key
  if b then rest else return some (.keyError, msg)

/-- `kryptos_task_check_rsa_emsa_pss_additional_params` (src/kryptos_task_check.c:591-611). -/
def pssParams (t : Task) : Out Verdict :=
  orElse (!t.args 0) .invalidParams "No salt size indicated." <|
  orElse (!t.args 1 && t.args 2) .invalidParams "No hash algorithm was indicated but a hash_size function was." <|
  orElse (t.args 1 && !t.args 2) .invalidParams "Hash algorithm indicated without a valid hash_size function." <|
  .ok none

/-- `kryptos_task_check_sign_rsa` (src/kryptos_task_check.c:215-268). -/
def signRsa (t : Task) : Out Verdict :=
  basic t <| need "RSA PARAM D" "Invalid RSA private key." t <| need "RSA PARAM N" "Invalid RSA private key." t <|
  if t.cipher = .rsa then .ok none else pssParams t

/-- `kryptos_task_check_verify_rsa` (src/kryptos_task_check.c:298-351). -/
def verifyRsa (t : Task) : Out Verdict :=
  basic t <| need "RSA PARAM E" "Invalid RSA public key." t <| need "RSA PARAM N" "Invalid RSA public key." t <|
  if t.cipher = .rsa then .ok none else pssParams t

/-- `kryptos_task_check_dsa_domain_params` (src/kryptos_task_check.c:667-705). -/
def dsaDomain (t : Task) (rest : Out Verdict) : Out Verdict :=
  need "DSA P" "Unable to get p." t <| need "DSA Q" "Unable to get q." t <| need "DSA G" "Unable to get g." t rest

/-- `kryptos_task_check_sign_dsa` (src/kryptos_task_check.c:613-638). -/
def signDsa (t : Task) : Out Verdict := basic t <| dsaDomain t <| needData "DSA D" "Unable to get d." t <| .ok none

/-- `kryptos_task_check_verify_dsa` (src/kryptos_task_check.c:640-665). -/
def verifyDsa (t : Task) : Out Verdict := basic t <| dsaDomain t <| needData "DSA E" "Unable to get e." t <| .ok none

/-- `kryptos_task_check_ecdsa_domain_params` (src/kryptos_task_check.c:772-843). -/
def ecdsaDomain (t : Task) (rest : Out Verdict) : Out Verdict :=
  need "ECDSA P" "Unable to get p." t <| need "ECDSA A" "Unable to get a." t <| need "ECDSA B" "Unable to get b." t <|
  need "ECDSA Q" "Unable to get q." t <| need "ECDSA A X" "Unable to get a->x." t <|
  need "ECDSA A Y" "Unable to get a->y." t rest

/-- `kryptos_task_check_sign_ecdsa` (src/kryptos_task_check.c:707-732). -/
def signEcdsa (t : Task) : Out Verdict := basic t <| ecdsaDomain t <| needData "ECDSA D" "Unable to get d." t <| .ok none

/-- `kryptos_task_check_verify_ecdsa` (src/kryptos_task_check.c:734-770). -/
def verifyEcdsa (t : Task) : Out Verdict :=
  basic t <| ecdsaDomain t <| need "ECDSA B X" "Unable to get b->x." t <| need "ECDSA B Y" "Unable to get b->y." t <| .ok none

/-- `kryptos_task_check_sign` (src/kryptos_task_check.c:190-213). -/
def checkSign (t : Task) : Out Verdict :=
  match t.cipher with
  | .rsa | .rsaemsapss => signRsa t
  | .dsa => signDsa t
  | .ecdsa => signEcdsa t
  | _ => .ok (some (.invalidParams, "Invalid algorithm."))

/-- `kryptos_task_check_verify` (src/kryptos_task_check.c:270-296). -/
def checkVerify (t : Task) : Out Verdict :=
  match t.cipher with
  | .rsa | .rsaemsapss => verifyRsa t
  | .dsa => verifyDsa t
  | .ecdsa => verifyEcdsa t
  | _ => .ok (some (.invalidParams, "Invalid algorithm."))

end Kryptos.TaskCheck
