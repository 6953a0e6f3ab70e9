import Verif.Model.DlParams
import Verif.Model.Rsa
/-
  Model of src/kryptos_dh.c.  A context is a record of numbers and buffers; freeing is not modelled, apart from the buffers
  freed before they are read.  `none` stands for a loop of `kryptos_dh_get_random_s` that has not ended.
-/
namespace Kryptos.Dh
open Mp

variable {w : Nat}

/-- `struct kryptos_dh_xchg_ctx` (src/kryptos_dh.h:36-44). -/
structure Ctx (w : Nat) where
  sBits : Nat
  inp : Option Bytes
  out : Option Bytes
  result : TaskResult
  p : Option (Num w)
  q : Option (Num w)
  g : Option (Num w)
  t : Option (Num w)
  s : Option (Num w)
  k : Option (Num w)

/-- `kryptos_dh_init_xchg_ctx` (src/kryptos_dh.h:46-54), with the fields which a caller sets afterwards. -/
def Ctx.init (sBits : Nat) (inp : Option Bytes) (p q g : Option (Num w)) : Ctx w :=
  ⟨sBits, inp, none, .success, p, q, g, none, none, none⟩

/-- `kryptos_dh_eval_t` (src/kryptos_dh.c:768-781): the result and the number stored, which stays as it was (`old`) for a `NULL`
argument. -/
def evalT (old g s p : Option (Num w)) : Out (TaskResult × Option (Num w)) :=
  match g, s, p with
  | some g, some s, some p => do
    match ← meModN g s p with
    | none => return (.processError, none)
    | some t => return (.success, some t)
  | _, _, _ => .ok (.invalidParams, old)

/-- The mask of src/kryptos_dh.c:811-825; the shift by the width, for `s_bits` 0, is undefined. -/
def sMask (w sBits : Nat) : Out (BitVec w) :=
  if sBits < w then (if sBits = 0 then .ub else .ok (BitVec.allOnes w >>> (w - sBits))) else .ok (BitVec.allOnes w)

/-- The number of digits of `s` (src/kryptos_dh.c:805). -/
def sDigits (w sBits pSize : Nat) : Nat :=
  newSize w (if sBits = 0 ∨ pSize < sBits / w then pSize * w else sBits)

/-- The loop of `kryptos_dh_get_random_s` (src/kryptos_dh.c:827-849): the mask is applied to every digit. -/
def drawS (rnd : Nat → Byte) (mask : BitVec w) (p2 : Num w) (n : Nat) : Nat → Nat → Out (Option (Num w))
  | 0, _ => .ok none
  | f + 1, i =>
    let s : Num w := ⟨(randDigits w rnd i n).map (· &&& mask), false⟩
    if gt s p2 || lt s two then drawS rnd mask p2 n f (i + n * (w / 8)) else .ok (some s)

/-- `kryptos_dh_get_random_s` (src/kryptos_dh.c:783-863). -/
def getRandomS (rnd : Nat → Byte) (fuel : Nat) (p : Num w) (sBits : Nat) : Out (Option (Num w)) := do
  let p2 ← sub (assign none p) two
  let mask ← sMask w sBits
  drawS rnd mask p2 (sDigits w sBits p.data.length) fuel 0

/-- A number from the input; the next step runs only if it is there. -/
def fetch {α : Type} (h : String) (c : Ctx w) (fail : Ctx w → α) (next : Num w → Out α) : Out α := do
  match ← Pem.getMpData w (some (ascii h)) c.inp with
  | none => return fail { c with result := .processError }
  | some n => next n

/-- The modulus for the secret: `q`, or `p` if there is no `q`. -/
def order (c : Ctx w) : Option (Num w) := match c.q with
  | some q => some q
  | none => c.p

/-- `kryptos_dh_get_random_s(&(*data)->s, ((*data)->q == NULL) ? (*data)->p : (*data)->q, (*data)->s_bits)` and the test of its
result. -/
def drawInto (rnd : Nat → Byte) (fuel : Nat) (c : Ctx w) (next : Ctx w → Out (Option (Ctx w))) : Out (Option (Ctx w)) :=
  match order c with
  | none => .ok (some { c with result := .invalidParams })
  | some n => do
    match ← getRandomS rnd fuel n c.sBits with
    | none => return none
    | some s => next { c with s := some s, result := .success }

/-- `kryptos_dh_process_stdxchg_eval_k` (src/kryptos_dh.c:645-651) and what follows it. -/
def evalK (c : Ctx w) (next : Ctx w → Out (Option (Ctx w))) : Out (Option (Ctx w)) := do
  let r ← evalT c.k c.t c.s c.p
  if r.1 = .success then next { c with k := r.2, result := r.1 } else return some { c with k := r.2, result := r.1 }

/-- The end of the first step of a side (src/kryptos_dh.c:707-719): the result of the power is not looked at, so that its digits
are read from `NULL` when it fails. -/
def sendT (c : Ctx w) : Out (Option (Ctx w)) := do
  let r ← evalT c.t c.g c.s c.p
  match r.2 with
  | none => .ub
  | some t => do
    let o ← Rsa.putMps c.out [("DH PARAM T", t)]
    return some { c with out := o.2, result := o.1, t := none }

/-- The numbers that the sender packs (src/kryptos_dh.c:668-698). -/
def offer (p : Num w) (q : Option (Num w)) (g : Num w) : List (String × Num w) :=
  ("DH PARAM P", p) :: (match q with
    | none => []
    | some q => [("DH PARAM Q", q)]) ++ [("DH PARAM G", g)]

/-- `kryptos_dh_process_stdxchg` from the secret on (src/kryptos_dh.c:653-726). -/
def stdSecret (rnd : Nat → Byte) (fuel : Nat) (sender : Bool) (c : Ctx w) : Out (Option (Ctx w)) :=
  match c.s with
  | some _ => evalK c fun c => .ok (some c)
  | none => drawInto rnd fuel c fun c =>
    if sender then
      match c.p, c.g with
      | some p, some g => do
        let o ← Rsa.putMps none (offer p c.q g)
        if o.1 = .success then sendT { c with out := o.2 } else return some { c with out := o.2, result := o.1 }
      | _, _ => .ub
    else evalK { c with out := none } fun c => sendT { c with t := none }

/-- `kryptos_dh_process_stdxchg` from `t` on (src/kryptos_dh.c:635-643). -/
def stdT (rnd : Nat → Byte) (fuel : Nat) (sender : Bool) (c : Ctx w) : Out (Option (Ctx w)) :=
  match c.t, c.inp with
  | none, some _ => fetch "DH PARAM T" c some fun t => stdSecret rnd fuel sender { c with t := some t, result := .success }
  | _, _ => stdSecret rnd fuel sender c

/-- `kryptos_dh_process_stdxchg` (src/kryptos_dh.c:603-726). -/
def stdxchg (rnd : Nat → Byte) (fuel : Nat) (c : Ctx w) : Out (Option (Ctx w)) :=
  if c.p.isNone || c.g.isNone then
    fetch "DH PARAM P" c some fun p => do
      let q ← Pem.getMpData w (some (ascii "DH PARAM Q")) c.inp
      let c : Ctx w := { c with p := some p, q := match q with
        | none => c.q
        | some q => some q }
      fetch "DH PARAM G" c some fun g => stdT rnd fuel false { c with g := some g, result := .success }
  else stdT rnd fuel true c

/-- `kryptos_dh_mk_key_pair` (src/kryptos_dh.c:357-471): the context, the public and the private key.  Keys given by the caller
are freed (src/kryptos_dh.c:392-394, 441-443) and then extended. -/
def mkKeyPair (rnd : Nat → Byte) (fuel : Nat) (pub priv : Option Bytes) (c : Ctx w) :
    Out (Option (Ctx w × Option Bytes × Option Bytes)) :=
  match c.p, c.g, order c with
  | some p, some g, some n => do
    match ← getRandomS rnd fuel n c.sBits with
    | none => return none
    | some s => do
      let r ← evalT c.t (some g) (some s) (some p)
      match r.2 with
      | none => return some ({ c with s := some s, t := none, result := r.1 }, pub, priv)
      | some t => do
        if pub.isSome then .ub
        else do
          let o ← Rsa.putMps none (offer p c.q g ++ [("DH PARAM T", t)])
          if o.1 ≠ .success then return some ({ c with s := some s, t := some t, result := o.1 }, o.2, priv)
          else if priv.isSome then .ub
          else do
            let o2 ← Rsa.putMps none [("DH PARAM S", s), ("DH PARAM P", p)]
            return some ({ c with s := none, t := none, result := o2.1 }, o.2, o2.2)
  | _, _, _ => .ok (some ({ c with result := .invalidParams }, pub, priv))

/-- The sender's side of `kryptos_dh_process_modxchg` (src/kryptos_dh.c:484-567). -/
def modSend (rnd : Nat → Byte) (fuel : Nat) (c : Ctx w) : Out (Option (Ctx w)) :=
  fetch "DH PARAM P" c some fun p => do
    let q ← Pem.getMpData w (some (ascii "DH PARAM Q")) c.inp
    let c : Ctx w := { c with p := some p, q := match q with
      | none => c.q
      | some q => some q }
    fetch "DH PARAM G" c some fun g =>
      let c := { c with g := some g }
      fetch "DH PARAM T" c some fun t =>
        drawInto rnd fuel { c with t := some t } fun c => do
          let r ← evalT none c.g c.s c.p
          match r.2 with
          | none => return some { c with result := r.1 }
          | some u => do
            let o ← Rsa.putMps c.out [("DH PARAM U", u)]
            if o.1 ≠ .success then return some { c with out := o.2, result := o.1 }
            else evalK { c with out := o.2 } fun c =>
              .ok (some { c with p := none, q := none, g := none, t := none, s := none })

/-- The receiver's side of `kryptos_dh_process_modxchg` (src/kryptos_dh.c:568-600). -/
def modReceive (c : Ctx w) (u : Num w) : Out (Option (Ctx w)) :=
  fetch "DH PARAM P" c some fun p =>
    let c := { c with p := some p }
    fetch "DH PARAM S" c some fun s => do
      let r ← evalT c.k (some u) (some s) (some p)
      return some { c with p := none, s := none, k := r.2, result := r.1 }

/-- `kryptos_dh_process_modxchg` (src/kryptos_dh.c:473-601): the caller is the receiver if there is a `U` in the input. -/
def modxchg (rnd : Nat → Byte) (fuel : Nat) (c : Ctx w) : Out (Option (Ctx w)) := do
  match ← Pem.getMpData w (some (ascii "DH PARAM U")) c.inp with
  | some u => modReceive { c with result := .success } u
  | none => modSend rnd fuel { c with result := .processError }

/-- `kryptos_dh_verify_domain_params` (src/kryptos_dh.c:257-303). -/
def verifyParams (w : Nat) (rnd : Nat → Nat → Byte) (fuel : Nat) (params : Option Bytes) : Out (Option TaskResult) :=
  match params with
  | none => .ok (some .invalidParams)
  | some b =>
    if b.length = 0 then .ok (some .invalidParams)
    else do
      match ← Rsa.getMp w "DH PARAM P" b with
      | none => return some .invalidParams
      | some p => do
        match ← Rsa.getMp w "DH PARAM Q" b with
        | none => return some .invalidParams
        | some q => do
          match ← Rsa.getMp w "DH PARAM G" b with
          | none => return some .invalidParams
          | some g => Dl.verify rnd fuel p q g

/-- The index check of `kryptos_dh_get_modp` (src/kryptos_dh.c:869-875): `true` when an entry of the table of six groups is
used; the table has no entry number 6. -/
def getModpIndex (bits : Nat) : Out Bool := if 6 < bits then .ok false else if bits < 6 then .ok true else .ub

end Kryptos.Dh
