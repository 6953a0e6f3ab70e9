import Verif.Model.Sha1
import Verif.Model.Sha256
import Verif.Model.Sha512
/-
  Model of the hash tasks: `KRYPTOS_IMPL_HASH_PROCESSOR` (src/kryptos_types.h:821-850) and the
  incremental interface of src/kryptos_hash_common.c:90-155 and src/kryptos.h:673-680.

  Allocation is assumed to succeed (also for size zero).
-/
namespace Kryptos.Hash

/-- A hash function as stored in `arg[0]`: message and `to_hex` flag to output. -/
abbrev HashFn := Bytes → Bool → Out Bytes

/-- What `kryptos_xxx_hash` computes for a supplied input: process the message and emit the state
in raw or hexadecimal form.  `stale` is the initial content of the (uninitialised) block. -/
def hashOf {w : Nat} {σ : Type} (A : Alg w σ) (raw hex : σ → Bytes) (stale : List (BitVec w)) :
    HashFn := fun m toHex => do
  let st ← processMessage A m stale
  return (if toHex then hex st else raw st)

/-- The fields of `kryptos_task_ctx` used by hash tasks (`none`: NULL). -/
structure HTask where
  inp : Option Bytes
  out : Option Bytes
  result : TaskResult
  fn : Option HashFn

/-- `kryptos_hash_init` (src/kryptos.h:673-676): a null task carrying the hash function.
`kryptos_task_init_as_null` leaves `result` at its last value, which is irrelevant here. -/
def hashInit (H : HashFn) (t : HTask) : HTask := { t with inp := none, out := none, fn := some H }

/-- `kryptos_xxx_hash` (src/kryptos_types.h:828-850). -/
def hashTask (H : HashFn) (t : HTask) (toHex : Bool) : Out HTask :=
  match t.inp with
  | none => .ok { t with result := .invalidParams }
  | some m => do
    let d ← H m toHex
    return { t with out := some d, result := .success }

/-- `kryptos_hash_do_update` (src/kryptos_hash_common.c:91-124). -/
def hashUpdate (t : HTask) (input : Option Bytes) : HTask :=
  match t.fn, input with
  | some _, some x =>
    let old := match t.inp with
      | none => []
      | some y => y
    { t with inp := some (old ++ x), result := .success }
  | _, _ => { t with result := .invalidParams }

/-- `kryptos_hash_do_finalize` (src/kryptos_hash_common.c:126-155). -/
def hashFinalize (t : HTask) (toHex : Bool) : Out HTask :=
  match t.fn with
  | none => .ok { t with result := .invalidParams }
  | some H => do
    let inp := match t.inp with
      | none => some []
      | some y => some y
    let t ← hashTask H { t with inp := inp } toHex
    return { t with inp := none }

end Kryptos.Hash

namespace Kryptos
open Hash

/-- `kryptos_sha1_hash` (src/kryptos_sha1.c:97-131). -/
def Sha1.hash (stale : List W32) : HashFn := hashOf Sha1.alg Sha1.raw Sha1.hex stale
/-- `kryptos_sha224_hash` (src/kryptos_sha224_256.c:136-178). -/
def Sha224.hash (stale : List W32) : HashFn :=
  hashOf (Sha256.alg Sha256.init224) Sha256.raw224 Sha256.hex224 stale
/-- `kryptos_sha256_hash` (src/kryptos_sha224_256.c:180-224). -/
def Sha256.hash (stale : List W32) : HashFn :=
  hashOf (Sha256.alg Sha256.init256) Sha256.raw256 Sha256.hex256 stale
/-- `kryptos_sha384_hash` (src/kryptos_sha384_512.c:133-172). -/
def Sha384.hash (stale : List W64) : HashFn :=
  hashOf (Sha512.alg Sha512.init384) Sha512.raw384 Sha512.hex384 stale
/-- `kryptos_sha512_hash` (src/kryptos_sha384_512.c:177-220). -/
def Sha512.hash (stale : List W64) : HashFn :=
  hashOf (Sha512.alg Sha512.init512) Sha512.raw512 Sha512.hex512 stale

end Kryptos
