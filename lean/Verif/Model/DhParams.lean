import Verif.Model.Dh
/-
  Model of the writing and reading of domain parameters in src/kryptos_dh.c.  Memory is never exhausted.
-/
namespace Kryptos.Dh
open Mp

/-- `kryptos_dh_mk_domain_params` (src/kryptos_dh.c:199-255), with places for the buffer and its size: the result and the buffer.
`none` stands for a search that has not ended.  The failure of `kryptos_generate_dl_params` leaves the buffer `NULL`. -/
def mkDomainParams (w : Nat) (rnd : Nat → Nat → Nat → Byte) (fuel pBits qBits : Nat) : Out (Option (TaskResult × Option Bytes)) :=
  if pBits = 0 ∨ qBits = 0 then .ok (some (.invalidParams, none))
  else do
    match ← Dl.generate w rnd pBits qBits fuel 0 with
    | none => return none
    | some none => return some (.processError, none)
    | some (some (p, q, g)) => do
      let r ← Rsa.putMps none [("DH PARAM P", p), ("DH PARAM Q", q), ("DH PARAM G", g)]
      return some r

/-- The numbers which `kryptos_dh_get_modp_from_params_buf` leaves in `*p`, `*q` and `*g`; `NULL` is `none`, and so is the `*q` of
a caller who does not ask for it. -/
structure Modp (w : Nat) where
  p : Option (Num w)
  q : Option (Num w)
  g : Option (Num w)

/-- `kryptos_dh_get_modp_from_params_buf` (src/kryptos_dh.c:305-355), for places of `p` and `g`; `wantQ`: there is a place for `q`.
The first failure has the code of `kryptos_pem_get_mp_data`, and what was read is deleted.  `none` beside the code: nothing is
stored, not even `NULL`. -/
def getModpFromParams (w : Nat) (wantQ : Bool) (params : Option Bytes) : Out (TaskResult × Option (Modp w)) :=
  match params with
  | none => .ok (.invalidParams, none)
  | some b =>
    if b.length = 0 then .ok (.invalidParams, none)
    else do
      match ← Rsa.getMp w "DH PARAM P" b with
      | none => return (.processError, some ⟨none, none, none⟩)
      | some p =>
        if wantQ then do
          match ← Rsa.getMp w "DH PARAM Q" b with
          | none => return (.processError, some ⟨none, none, none⟩)
          | some q => do
            match ← Rsa.getMp w "DH PARAM G" b with
            | none => return (.processError, some ⟨none, none, none⟩)
            | some g => return (.success, some ⟨some p, some q, some g⟩)
        else do
          match ← Rsa.getMp w "DH PARAM G" b with
          | none => return (.processError, some ⟨none, none, none⟩)
          | some g => return (.success, some ⟨some p, none, some g⟩)

end Kryptos.Dh
