import Verif.Model.Ecdh
import Verif.Model.Dsa
/-
  Model of src/kryptos_ecdsa.c.

  `none` in front of a result stands for a loop that has not ended.  Memory is never exhausted; releasing it is not modelled.
-/
namespace Kryptos.Ecdsa
open Mp Ec Hash
open Rsa (Res getMp putMps)
open Ecdh (CurveCtx getRandomD)
open Dsa (hashNum inverse)

variable {w : Nat}

/-- The result of a failure. -/
abbrev fail : Out (Option Res) := .ok (some (.processError, none))

/-- The public key (src/kryptos_ecdsa.c:43-89). -/
def pubOps (e : CurveCtx w) (b : Point w) : List (String × Num w) :=
  [("ECDSA P", e.ec.p), ("ECDSA A", e.ec.a), ("ECDSA B", e.ec.b), ("ECDSA Q", e.q), ("ECDSA A X", e.g.x), ("ECDSA A Y", e.g.y),
    ("ECDSA B X", b.x), ("ECDSA B Y", b.y)]

/-- The private key (src/kryptos_ecdsa.c:94-134). -/
def privOps (e : CurveCtx w) (d : Num w) : List (String × Num w) :=
  [("ECDSA D", d), ("ECDSA P", e.ec.p), ("ECDSA A", e.ec.a), ("ECDSA B", e.ec.b), ("ECDSA Q", e.q), ("ECDSA A X", e.g.x),
    ("ECDSA A Y", e.g.y)]

/-- `kryptos_ecdsa_mk_key_pair` (src/kryptos_ecdsa.c:19-159) for empty `*k_pub` and `*k_priv`; both are dropped on failure. -/
def mkKeyPair (rnd : Nat → Byte) (fuel : Nat) (e : CurveCtx w) : Out (Option (TaskResult × Option Bytes × Option Bytes)) := do
  match ← getRandomD rnd fuel e.q e.bits with
  | none => return none
  | some d => do
    match ← mul fuel e.g d e.ec with
    | none => return some (.processError, none, none)
    | some b => do
      let pub ← putMps none (pubOps e b)
      if pub.1 ≠ .success then return some (pub.1, none, none)
      else do
        let priv ← putMps none (privOps e d)
        if priv.1 ≠ .success then return some (priv.1, none, none) else return some (.success, pub.2, priv.2)

/-- The signature with the ephemeral key `ke` (src/kryptos_ecdsa.c:281-360).  Neither a zero `r` nor a zero `s` is drawn again. -/
def signWith (hash : HashFn) (fuel : Nat) (e : CurveCtx w) (d ke : Num w) (x : Bytes) : Out (Option Res) := do
  match ← Ec.mul fuel e.g ke e.ec with
  | none => fail
  | some r => do
    match ← inverse fuel ke e.q with
    | none => return none
    | some keInv => do
      let t ← Mp.mul d r.x
      match ← hashNum w hash x with
      | none => fail
      | some h => do
        let s ← add h t
        let s ← Mp.mul s keInv
        match ← modO (some s) (some e.q) with
        | none => fail
        | some s => do
          let o ← Pem.putData true none (some (ascii "ECDSA X")) (some x)
          if o.1 ≠ .success then fail
          else do
            let o ← putMps o.2 [("ECDSA R", r.x), ("ECDSA S", s)]
            if o.1 ≠ .success then fail else return some o

/-- `kryptos_ecdsa_sign` (src/kryptos_ecdsa.c:161-413) for a hash function and the function that gives its size, without `NULL`
arguments. -/
def sign (w : Nat) (hash : HashFn) (hashSize : Nat) (rnd : Nat → Byte) (fuel : Nat) (key x : Bytes) : Out (Option Res) :=
  if x.length = 0 || key.length = 0 then .ok (some (.invalidParams, none))
  else do
    match ← getMp w "ECDSA D" key with
    | none => fail
    | some d => do
      match ← getMp w "ECDSA P" key with
      | none => fail
      | some p =>
        let bits := p.data.length * w
        if hashSize * 8 < bits then fail
        else do
          match ← getMp w "ECDSA A" key with
          | none => fail
          | some a => do
            match ← getMp w "ECDSA B" key with
            | none => fail
            | some b => do
              match ← getMp w "ECDSA Q" key with
              | none => fail
              | some q => do
                match ← getMp w "ECDSA A X" key with
                | none => fail
                | some gx => do
                  match ← getMp w "ECDSA A Y" key with
                  | none => fail
                  | some gy => do
                    match ← getRandomD rnd fuel q bits with
                    | none => return none
                    | some ke => signWith hash fuel ⟨bits, setCurve a b p, q, setPoint gx gy⟩ d ke x

/-- The end of `kryptos_ecdsa_verify` (src/kryptos_ecdsa.c:631-664). -/
def verifyEnd (fuel : Nat) (c : Curve w) (A B : Point w) (r u1 u2 : Num w) (x : Bytes) : Out (Option Res) := do
  match ← Ec.mul fuel A u1 c with
  | none => fail
  | some ap => do
    match ← Ec.mul fuel B u2 c with
    | none => fail
    | some bp => do
      match ← Ec.add fuel ap bp c with
      | none => fail
      | some P => if eq P.x r then return some (.success, some x) else return some (.invalidSignature, none)

/-- `kryptos_ecdsa_verify` from the inverse on (src/kryptos_ecdsa.c:570-664): neither `r` nor `s` is compared with zero or with the
order. -/
def verifyWith (hash : HashFn) (fuel : Nat) (c : Curve w) (q : Num w) (A B : Point w) (r s : Num w) (x : Bytes) :
    Out (Option Res) := do
  match ← inverse fuel s q with
  | none => return none
  | some sInv => do
    match ← hashNum w hash x with
    | none => fail
    | some h => do
      let u1 ← Mp.mul (assign none sInv) h
      match ← modO (some u1) (some q) with
      | none => fail
      | some u1 => do
        let u2 ← Mp.mul (assign none sInv) r
        match ← modO (some u2) (some q) with
        | none => fail
        | some u2 => verifyEnd fuel c A B r u1 u2 x

/-- `kryptos_ecdsa_verify` (src/kryptos_ecdsa.c:415-739) for a hash function and the function that gives its size. -/
def verify (w : Nat) (hash : HashFn) (hashSize fuel : Nat) (key inp : Bytes) : Out (Option Res) :=
  if inp.length = 0 || key.length = 0 then .ok (some (.invalidParams, none))
  else do
    match ← getMp w "ECDSA P" key with
    | none => fail
    | some p => do
      match ← getMp w "ECDSA A" key with
      | none => fail
      | some a => do
        match ← getMp w "ECDSA B" key with
        | none => fail
        | some b =>
          if hashSize * 8 < p.data.length * w then fail
          else do
            match ← getMp w "ECDSA Q" key with
            | none => fail
            | some q => do
              match ← getMp w "ECDSA A X" key with
              | none => fail
              | some ax => do
                match ← getMp w "ECDSA A Y" key with
                | none => fail
                | some ay => do
                  match ← getMp w "ECDSA B X" key with
                  | none => fail
                  | some bx => do
                    match ← getMp w "ECDSA B Y" key with
                    | none => fail
                    | some bY => do
                      match ← getMp w "ECDSA R" inp with
                      | none => fail
                      | some r => do
                        match ← getMp w "ECDSA S" inp with
                        | none => fail
                        | some s => do
                          match ← Pem.getData (some (ascii "ECDSA X")) (some inp) with
                          | none => fail
                          | some x =>
                            if x.length = 0 then fail
                            else verifyWith hash fuel (setCurve a b p) q (setPoint ax ay) (setPoint bx bY) r s x

end Kryptos.Ecdsa
