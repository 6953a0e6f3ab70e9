import Verif.Spec.Sha
/-
  SHACAL-1 and SHACAL-2 (Handschuh and Naccache, NESSIE submission): the compression functions of SHA-1 and SHA-256 without the
  addition of the chaining value, the key being the message block (padded with zeros to 512 bits) and the plaintext the chaining
  value.
-/
namespace Kryptos.Spec.Shacal
open Sha

/-- `s` after the eighty steps of SHA-1 with the block `key` of 64 bytes. -/
def shacal1 (key : Bytes) (s : Five 32) : Five 32 := (List.range 80).foldl (sha1Round key) s

/-- `s` after the sixty-four steps of SHA-256 with the block `key` of 64 bytes. -/
def shacal2 (key : Bytes) (s : Eight 32) : Eight 32 :=
  p256.K.zipIdx.foldl (fun s kt => p256.round key s kt.1 kt.2) s

/-- Adding the chaining value gives the hash functions. -/
theorem sha1Compress_eq (H : Five 32) (block : Bytes) : sha1Compress H block = add5 (shacal1 block H) H := rfl
theorem sha256Compress_eq (H : Eight 32) (block : Bytes) : p256.compress H block = add8 (shacal2 block H) H := rfl

/-- The bytes of a state. -/
def bytes (ws : List (BitVec 32)) : Bytes := ws.flatMap fun w => MD.be 4 w.toNat

end Kryptos.Spec.Shacal
