import Verif.Model.MpPrime
/-
  Model of src/kryptos_dl_params.c: domain parameters of the discrete logarithm algorithms.

  Random bytes are a family of streams `rnd : Nat → Nat → Byte`: every call of a random function of src/kryptos_mp.c uses a
  stream of its own.  Loops run on fuel; `none` stands for a loop that has not ended.  Allocations succeed, so that the results
  tested for `NULL` are never `NULL`, apart from those of a division by zero.
-/
namespace Kryptos.Dl
open Mp

variable {w : Nat}

/-- The last tests of `kryptos_verify_dl_params` (src/kryptos_dl_params.c:189-208): `q` divides `p - 1`, and `g ^ q` is 1 modulo
`p`. -/
def verifyOrder (p q g p1 : Num w) : Out TaskResult := do
  match ← div p1 q with
  | none => return .invalidParams
  | some (_, r) =>
    if ne r zero then return .invalidParams
    else do
      match ← meModN g q p with
      | none => .ub
      | some e => if ne e one then return .invalidParams else return .success

/-- `kryptos_verify_dl_params` (src/kryptos_dl_params.c:141-237).  A power which is `NULL` would be read by the comparison; `none`
for a test of primality that has not ended. -/
def verify (rnd : Nat → Nat → Byte) (fuel : Nat) (p q g : Num w) : Out (Option TaskResult) := do
  let p1 ← sub (assign none p) one
  if le g one || ge g p1 then return some .invalidParams
  else do
    match ← isPrime (rnd 0) fuel 0 q with
    | none => return none
    | some false => return some .invalidParams
    | some true => do
      match ← isPrime (rnd 1) fuel 0 p with
      | none => return none
      | some false => return some .invalidParams
      | some true => do
        let r ← verifyOrder p q g p1
        return some r

/-- `j->data[0] &= (~0x1)` (src/kryptos_dl_params.c:85-87). -/
def setEven : Digits w → Digits w
  | [] => []
  | d :: l => (d &&& ~~~ 1) :: l

/-- The loop for `p = jq + 1` (src/kryptos_dl_params.c:70-99): `p` and `j`.  A turn uses two streams. -/
def findP (rnd : Nat → Nat → Byte) (jBits : Nat) (q : Num w) : Nat → Nat → Out (Option (Num w × Num w))
  | 0, _ => .ok none
  | f + 1, c => do
    let j : Num w := ⟨setEven (rand w (rnd c) 0 jBits).data, false⟩
    let p ← mul (assign none j) q
    let p ← add p one
    match ← isPrime (rnd (c + 1)) f 0 p with
    | none => return none
    | some true => return some (p, j)
    | some false => findP rnd jBits q f (c + 2)

/-- `kryptos_dl_get_h` (src/kryptos_dl_params.c:239-279): a random number between 2 and `p - 2`. -/
def getH (rnd : Nat → Nat → Byte) (p p1 : Num w) : Nat → Nat → Out (Option (Num w × Nat))
  | 0, _ => .ok none
  | f + 1, c =>
    let h := rand w (rnd c) 0 (p.data.length * w)
    if le h one || ge h p1 then getH rnd p p1 f (c + 1) else .ok (some (h, c + 1))

/-- `kryptos_dl_get_g` (src/kryptos_dl_params.c:281-329). -/
def getG (rnd : Nat → Nat → Byte) (p j p1 : Num w) : Nat → Nat → Out (Option (Option (Num w)))
  | 0, _ => .ok none
  | f + 1, c => do
    match ← getH rnd p p1 f c with
    | none => return none
    | some (h, c) => do
      match ← meModN h j p with
      | none => return some none
      | some g => if eq g one then getG rnd p j p1 f c else return some (some g)

/-- `kryptos_generate_dl_temp_params` (src/kryptos_dl_params.c:37-139); `some none` is a failure. -/
def genTemp (w : Nat) (rnd : Nat → Nat → Byte) (fuel pBits qBits : Nat) : Out (Option (Option (Num w × Num w × Num w))) := do
  match ← genPrime w (rnd 0) fuel 0 qBits with
  | none => return none
  | some q => do
    match ← findP (fun c => rnd (2 * c + 1)) (if qBits < pBits then pBits - qBits else qBits - pBits) q fuel 0 with
    | none => return none
    | some (p, j) => do
      let p1 ← sub (assign none p) one
      match ← getG (fun c => rnd (2 * c + 2)) p j p1 fuel 0 with
      | none => return none
      | some none => return some none
      | some (some g) => return some (some (p, q, g))

/-- `kryptos_generate_dl_params` (src/kryptos_dl_params.c:20-35): new parameters until they pass the verification.  The streams
of a turn are the ones of the call numbers in `rnd c`. -/
def generate (w : Nat) (rnd : Nat → Nat → Nat → Byte) (pBits qBits : Nat) : Nat → Nat → Out (Option (Option (Num w × Num w × Num w)))
  | 0, _ => .ok none
  | f + 1, c => do
    match ← genTemp w (rnd (2 * c)) f pBits qBits with
    | none => return none
    | some none => return some none
    | some (some (p, q, g)) => do
      match ← verify (rnd (2 * c + 1)) f p q g with
      | none => return none
      | some .invalidParams => generate w rnd pBits qBits f (c + 1)
      | some _ => return some (some (p, q, g))

/-! ### Random numbers below an order, used by ElGamal and DSA -/

/-- `data[data_size - 1] &= mask`. -/
def andLast (mask : BitVec w) : Digits w → Digits w
  | [] => []
  | [d] => [d &&& mask]
  | d :: e :: l => d :: andLast mask (e :: l)

/-- The mask of src/kryptos_dsa.c:191-197 and src/kryptos_elgamal.c:380-386: ones up to the highest bit of the highest digit.
For a highest digit which is zero the count goes below zero, and the next shift is by more than the width. -/
def topMask (d : Digits w) : Out (BitVec w) := do
  let x ← rd d (d.length - 1)
  if x = 0 then .ub else .ok (BitVec.allOnes w >>> (w - 1 - Nat.log2 x.toNat))

/-- The loop of src/kryptos_dsa.c:199-214 and src/kryptos_elgamal.c:389-399: a random number of `n` digits from `lo` to `hi`. -/
def drawLoop (rnd : Nat → Byte) (mask : BitVec w) (lo hi : Num w) (n : Nat) : Nat → Nat → Out (Option (Num w))
  | 0, _ => .ok none
  | f + 1, i =>
    let r : Num w := ⟨andLast mask (rand w rnd i (n * w)).data, false⟩
    if lt r lo || gt r hi then drawLoop rnd mask lo hi n f (i + newSize w (n * w / w * w) * (w / 8)) else .ok (some r)

/-- `kryptos_dsa_get_random` with `lo = 1` (src/kryptos_dsa.c:157-227) and `kryptos_elgamal_get_random_mp` with `lo = 2`
(src/kryptos_elgamal.c:343-412): a number from `lo` to `n - lo`. -/
def draw (rnd : Nat → Byte) (fuel : Nat) (lo n : Num w) : Out (Option (Num w)) := do
  let hi ← sub (assign none n) lo
  let mask ← topMask hi.data
  drawLoop rnd mask lo hi n.data.length fuel 0

end Kryptos.Dl
