import Verif.Model.MpHex
import Verif.Model.SmallPrimes
/-
  Model of the random big numbers and the primality tests of src/kryptos_mp.c.  The random bytes come from a stream
  `rnd : Nat → Byte`; functions that read it take the position of the next byte.  Loops run on fuel; `none` stands for a loop
  that has not ended when the fuel is spent.  Allocations succeed.
-/
namespace Kryptos.Mp

variable {w : Nat}

/-- One digit of random bytes, the first one highest (src/kryptos_mp.c:2904-2917, 3436-3448).  The code leaves open in which
order the calls are made; here it is from left to right. -/
def randDigit (w : Nat) (rnd : Nat → Byte) (i : Nat) : BitVec w :=
  (List.range (w / 8)).foldl (fun acc j => (acc <<< 8) ||| (rnd (i + j)).setWidth w) 0

/-- `n` digits of random bytes, the first one lowest. -/
def randDigits (w : Nat) (rnd : Nat → Byte) (i n : Nat) : Digits w :=
  (List.range n).map fun d => randDigit w rnd (i + d * (w / 8))

/-- `kryptos_mp_rand` (src/kryptos_mp.c:2889-2922). -/
def rand (w : Nat) (rnd : Nat → Byte) (i bits : Nat) : Num w := ⟨randDigits w rnd i (newSize w (bits / w * w)), false⟩

/-- The number of bytes that `kryptos_mp_gen_random` reads: one for each digit. -/
def genRandomBytes (n : Num w) : Nat := newSize w (n.data.length * w)

/-- The number that `kryptos_mp_gen_random` reduces (src/kryptos_mp.c:2932-2942).  The macro tested there
(`KRYPTOS_MP_DIGIT_U32`) is defined nowhere, so that every digit gets one byte; the first byte goes to the highest digit. -/
def genRandomRaw (rnd : Nat → Byte) (i : Nat) (n : Num w) : Num w :=
  ⟨(List.range (genRandomBytes n)).map fun d => (rnd (i + (genRandomBytes n - 1 - d))).setWidth w, false⟩

/-- `kryptos_mp_gen_random` (src/kryptos_mp.c:2924-2973). -/
def genRandom (rnd : Nat → Byte) (i : Nat) (n : Num w) : Out (Option (Num w)) := do
  let r ← div (genRandomRaw rnd i n) n
  .ok (r.map (·.2))

/-- The loop that finds `m` with `n - 1 = 2^k * m` (src/kryptos_mp.c:3049-3073); `ndiv` is `(n - 1) / 2^pn`. -/
def splitLoop (n1 : Num w) : Nat → Nat → Option (Num w) → Num w → Out (Option (Num w))
  | 0, _, _, _ => .ok none
  | f + 1, pn, m, ndiv => do
    let m := assign m ndiv
    let qr ← div2p n1 (pn + 1)
    if eq qr.2 zero then splitLoop n1 f (pn + 1) (some m) qr.1 else .ok (some m)

/-- The loop that draws the base (src/kryptos_mp.c:3098-3106): the base, or `none` for a random number that is `NULL`, and the
position after it. -/
def drawBase (rnd : Nat → Byte) (p : Num w) : Nat → Nat → Out (Option (Option (Num w) × Nat))
  | 0, _ => .ok none
  | f + 1, i => do
    let a ← genRandom rnd i p
    match a with
    | none => .ok (some (none, i + genRandomBytes p))
    | some a => if le a one then drawBase rnd p f (i + genRandomBytes p) else .ok (some (some a, i + genRandomBytes p))

/-- The squarings of the Miller-Rabin test (src/kryptos_mp.c:3135-3152). -/
def mrLoop (n n1 : Num w) : Nat → Num w → Out Bool
  | 0, _ => .ok false
  | s + 1, x => do
    let b ← meModN x two n
    match b with
    | none => .ok false
    | some b => if eq b one then .ok false else if eq b n1 then .ok true else mrLoop n n1 s b

/-- The Miller-Rabin test for a base (src/kryptos_mp.c:3118-3153). -/
def mrBase (n n1 m a : Num w) (sn : Nat) : Out Bool := do
  let x ← meModN a m n
  match x with
  | none => .ok false
  | some x => if eq x one || eq x n1 then .ok true else mrLoop n n1 sn x

/-- `kryptos_mp_miller_rabin_test` (src/kryptos_mp.c:2986-3198): the verdict and the position of the next random byte. -/
def millerRabin (rnd : Nat → Byte) (fuel i : Nat) (n : Num w) (sn : Nat) : Out (Option (Bool × Nat)) := do
  let o ← isOdd n
  if !o then .ok (some (false, i))
  else if eq n two then .ok (some (true, i))
  else do
    let n1 ← sub (assign none n) one
    let qr ← div2p n1 1
    let m ← splitLoop n1 fuel 1 none qr.1
    match m with
    | none => .ok none
    | some m => do
      let p ← sub (assign none n1) one
      if !eq p one then do
        let a ← drawBase rnd p fuel i
        match a with
        | none => .ok none
        | some (none, i) => .ok (some (false, i))
        | some (some a, i) => do
          let v ← mrBase n n1 m a sn
          .ok (some (v, i))
      else do
        let v ← mrBase n n1 m (assign (some two) p) sn
        .ok (some (v, i))

/-- The loop of `kryptos_mp_fermat_test` (src/kryptos_mp.c:3257-3280). -/
def fermatLoop (rnd : Nat → Byte) (n n1 n2 : Num w) : Nat → Nat → Out (Bool × Nat)
  | 0, i => .ok (true, i)
  | k + 1, i => do
    let a ← genRandom rnd i n2
    match a with
    | none => .ub
    | some a => do
      let a ← add a one
      let p ← meModN a n1 n
      match p with
      | none => .ok (false, i + genRandomBytes n2)
      | some p => if eq p one then fermatLoop rnd n n1 n2 k (i + genRandomBytes n2) else .ok (false, i + genRandomBytes n2)

/-- `kryptos_mp_fermat_test` (src/kryptos_mp.c:3200-3308).  The addition to a random number that is `NULL` does not happen
(the modulus `n - 2` is not zero) and is left undefined here. -/
def fermat (rnd : Nat → Byte) (i : Nat) (n : Num w) (k : Nat) : Out (Bool × Nat) :=
  if le n two then .ok (eq n two, i)
  else do
    let o ← isOdd n
    if !o then .ok (false, i)
    else do
      let n1 ← sub (assign none n) one
      let n2 ← sub (assign none n1) one
      fermatLoop rnd n n1 n2 k i

/-- `kryptos_mp_is_prime` (src/kryptos_mp.c:2975-2984). -/
def isPrime (rnd : Nat → Byte) (fuel i : Nat) (n : Num w) : Out (Option Bool) := do
  let r ← fermat rnd i n 7
  if r.1 then do
    let r ← millerRabin rnd fuel r.2 n 14
    .ok (r.map (·.1))
  else .ok (some false)

/-- An entry of the table of small primes. -/
def hex4 (n : Nat) : Bytes := [n / 4096 % 16, n / 256 % 16, n / 16 % 16, n % 16].map fun d =>
  BitVec.ofNat 8 (if d < 10 then 48 + d else 55 + d)

/-- `kryptos_mp_gen_prime_small_primes_test` (src/kryptos_mp.c:4149-4197). -/
def smallPrimesTest (n : Num w) : List Nat → Out Bool
  | [] => .ok true
  | p :: ps =>
    match hexValue w (hex4 p) with
    | none => .ok false
    | some p => do
      let r ← div n p
      match r with
      | none => .ok false
      | some (_, r) => if eq r zero then .ok false else smallPrimesTest n ps

/-- The search of `kryptos_mp_gen_prime` for a number without small factors (src/kryptos_mp.c:3473-3493): the Fermat test and
the increment of `d` are never reached, because of the `continue`; `p` stays `NULL`. -/
def sieveLoop : Nat → Num w → Out (Option (Num w))
  | 0, _ => .ok none
  | f + 1, pn => do
    let t ← smallPrimesTest pn smallPrimes
    if t then .ok (some pn)
    else do
      let pn ← add pn two
      sieveLoop f pn

/-- `pn->data[0] |= 0x1` (src/kryptos_mp.c:3455). -/
def setOdd : Digits w → Digits w
  | [] => []
  | d :: l => (d ||| 1) :: l

/-- The random candidate (src/kryptos_mp.c:3431-3467): odd and with the highest bit set. -/
def candidate (rnd : Nat → Byte) (i n : Nat) : Num w := ⟨orLast ((1 : BitVec w) <<< (w - 1)) (setOdd (randDigits w rnd i n)), false⟩

/-- The main loop of `kryptos_mp_gen_prime` (src/kryptos_mp.c:3429-3501); `n` is the number of digits of `pn`. -/
def genPrimeLoop (rnd : Nat → Byte) : Nat → Nat → Nat → Out (Option (Num w))
  | 0, _, _ => .ok none
  | f + 1, i, n => do
    let c ← sieveLoop f (candidate rnd i n)
    match c with
    | none => .ok none
    | some c => do
      let v ← millerRabin rnd f (i + n * (w / 8)) c 5
      match v with
      | none => .ok none
      | some (true, _) => .ok (some c)
      | some (false, i) => genPrimeLoop rnd f i c.data.length

/-- `kryptos_mp_gen_prime` (src/kryptos_mp.c:3409-3506). -/
def genPrime (w : Nat) (rnd : Nat → Byte) (fuel i bits : Nat) : Out (Option (Num w)) :=
  genPrimeLoop rnd fuel i (newSize w (bits / w * w))

end Kryptos.Mp
