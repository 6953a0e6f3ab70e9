import Verif.Base
import Mathlib.Logic.Function.Iterate
/-
  Model of the big-number arithmetic of src/kryptos_mp.c and src/kryptos_mp.h.

  The digits have `w` bits; the code is built with `w = 64` (`KRYPTOS_MP_EXTENDED_RADIX`, user mode of 64-bit systems) or
  `w = 32` (kernel mode, Windows and 32-bit systems).  The variant with digits of 8 bits is switched off
  (src/kryptos_types.h:283) and not modelled.  `NULL` arguments are modelled only where callers can pass them on; memory is
  never exhausted.  Values of indeterminate content are `Out.ub`.
-/
namespace Kryptos.Mp

/-- Digits, least significant first. -/
abbrev Digits (w : Nat) := List (BitVec w)

/-- `kryptos_mp_value_t` (src/kryptos_types.h:305-309). -/
structure Num (w : Nat) where
  data : Digits w
  neg : Bool
  deriving DecidableEq, Repr

variable {w : Nat}

/-- The number of digits allocated by `kryptos_new_mp_value` (src/kryptos_mp.c:242-256). -/
def newSize (w bits : Nat) : Nat := (max bits 8 + w - 1) / w

/-- `kryptos_new_mp_value` (src/kryptos_mp.c:234-264). -/
def newMp (w bits : Nat) : Num w := ⟨List.replicate (newSize w bits) 0, false⟩

/-- Zeros above the digits, up to a number of digits. -/
def padTo (n : Nat) (d : Digits w) : Digits w := d ++ List.replicate (n - d.length) 0

/-- `kryptos_assign_mp_value` (src/kryptos_mp.c:279-312); `none` is a `NULL` destination. -/
def assign (dest : Option (Num w)) (src : Num w) : Num w :=
  let size := match dest with
    | none => newSize w (src.data.length * w)
    | some d => d.data.length
  ⟨padTo size src.data, src.neg⟩

/-- The constants 0, 1 and 2 as `kryptos_hex_value_as_mp` makes them. -/
def zero : Num w := ⟨[0], false⟩
def one : Num w := ⟨[1], false⟩
def two : Num w := ⟨[2], false⟩

/-- The number of digits up to the last one which is not zero: `sn + 1` after
`for (sn = size - 1; sn >= 0 && data[sn] == 0; sn--)` (src/kryptos_mp.c:650-651). -/
def sig : Digits w → Nat
  | [] => 0
  | x :: d => if sig d = 0 then (if x = 0 then 0 else 1) else sig d + 1

/-- `kryptos_new_mp_value(kryptos_mp_byte2bit(sn + 1))` followed by a copy of the digits 0..sn. -/
def norm (d : Digits w) : Digits w := padTo (newSize w (sig d * w)) (d.take (sig d))

/-- `(d < b->data_size) ? b->data[d] : 0` for the digits from `d` on (src/kryptos_mp.c:634, 816-817). -/
def first : Digits w → BitVec w
  | y :: _ => y
  | [] => 0

/-- The loop of `kryptos_mp_add` (src/kryptos_mp.c:628-640). -/
def addLoop : Digits w → Digits w → Nat → Digits w × Nat
  | [], _, c => ([], c)
  | x :: a, b, c =>
    let bsum := x.toNat + (first b).toNat + c
    let r := addLoop a b.tail (if 2 ^ w - 1 < bsum then 1 else 0)
    (BitVec.ofNat w bsum :: r.1, r.2)

/-- `kryptos_mp_add` (src/kryptos_mp.c:578-670).  When the sum is zero the destination gets memory which is never
written (src/kryptos_mp.c:653-665). -/
def add (dest src : Num w) : Out (Num w) :=
  let ab := if src.data.length ≤ dest.data.length then (dest.data, src.data) else (src.data, dest.data)
  let size := newSize w ((src.data.length + dest.data.length) * w)
  let r := addLoop ab.1 ab.2 0
  let sum := padTo size (r.1 ++ if 0 < r.2 ∧ ab.1.length < size then [BitVec.ofNat w r.2] else [])
  if sig sum = 0 then .ub else .ok ⟨sum.take (sig sum), dest.neg⟩

/-- The bits of a C digit above the ones kept by `memcpy` of `n` bytes are zero: `truncBytes n i d` keeps the first `n`
bytes of digits numbered from `i` (little-endian). -/
def truncBytes (n : Nat) : Nat → Digits w → Digits w
  | _, [] => []
  | i, d :: l => (d &&& BitVec.ofNat w (2 ^ (8 * (n - i * (w / 8))) - 1)) :: truncBytes n (i + 1) l

/-- `kryptos_mp_add` and `kryptos_mp_mul` with a `NULL` destination (src/kryptos_mp.c:594-598, 1014-1018): as many
*bytes* as there are digits are copied. -/
def copyNull (src : Num w) : Num w :=
  let size := newSize w (src.data.length * 8)
  ⟨padTo size ((truncBytes src.data.length 0 src.data).take size), false⟩

/-- `kryptos_mp_not` (src/kryptos_mp.c:4135-4147). -/
def not (a : Num w) : Num w := ⟨a.data.map (~~~ ·), a.neg⟩

/-- `kryptos_mp_inv_cmplt` (src/kryptos_mp.c:737-746). -/
def invCmplt (a : Num w) : Out (Num w) := add (not a) one

/-- All digits are zero (src/kryptos_mp.c:777-795, 4237-4252). -/
def isZeroD (d : Digits w) : Bool := d.all (· == 0)

/-- `kryptos_mp_is_zero` (src/kryptos_mp.c:4237-4252). -/
def isZero (a : Num w) : Bool := isZeroD a.data

/-- The loop of `kryptos_mp_sub` (src/kryptos_mp.c:810-823), in arithmetic of `2 * w` bits. -/
def subLoop : Nat → Digits w → Digits w → BitVec w → Digits w × BitVec w
  | 0, _, _, c => ([], c)
  | n + 1, a, b, c =>
    let bsub : BitVec (2 * w) := (first a).setWidth (2 * w) - (first b).setWidth (2 * w) + c.setWidth (2 * w)
    let r := subLoop n a.tail b.tail (c + (bsub >>> w).setWidth w)
    (bsub.setWidth w :: r.1, r.2)

/-- `kryptos_mp_sub` (src/kryptos_mp.c:748-866). -/
def sub (dest src : Num w) : Out (Num w) :=
  if isZeroD src.data then .ok dest
  else if isZeroD dest.data then .ok (assign none src)
  else
    let dn := if src.data.length < dest.data.length then dest.data.length else src.data.length
    let r := subLoop dn dest.data src.data 0
    let delta : Num w := ⟨padTo (newSize w (dn * w)) r.1, false⟩
    (if r.2 = BitVec.allOnes w then do
      let d ← invCmplt delta
      .ok ⟨d.data, true⟩
    else .ok delta) >>= fun delta =>
    .ok (if sig delta.data = 0 then ⟨List.replicate delta.data.length 0, delta.neg⟩
      else ⟨delta.data.take (sig delta.data), delta.neg⟩)

/-- One row of `kryptos_mp_mul` (src/kryptos_mp.c:1059-1069): `m` are the digits from `r` on. -/
def mulRow (y : BitVec w) : Digits w → Digits w → BitVec w → Nat → Out (Digits w)
  | [], [], _, _ => .ok []
  | [], d :: m, mc, ac => .ok ((d + mc + BitVec.ofNat w ac) :: m)
  | _ :: _, [], _, _ => .ub
  | x :: xs, d :: m, mc, ac => do
    let bmul := y.toNat * x.toNat + mc.toNat
    let bsum := d.toNat + bmul % 2 ^ w + ac
    let m ← mulRow y xs m (BitVec.ofNat w (bmul / 2 ^ w)) (if 2 ^ w - 1 < bsum then 1 else 0)
    .ok (BitVec.ofNat w bsum :: m)

/-- The rows of `kryptos_mp_mul` (src/kryptos_mp.c:1041-1071). -/
def mulLoop : Digits w → Digits w → Digits w → Out (Digits w)
  | [], _, m => .ok m
  | y :: ys, x, m => do
    let m ← mulRow y x m 0 0
    match m with
    | [] => .ok []
    | d :: m => do
      let m ← mulLoop ys x m
      .ok (d :: m)

/-- `kryptos_mp_mul` (src/kryptos_mp.c:994-1098).  `bmul` is signed, which does not change the digits taken from it. -/
def mul (dest src : Num w) : Out (Num w) := do
  let xy := if src.data.length ≤ dest.data.length then (dest.data, src.data) else (src.data, dest.data)
  let m ← mulLoop xy.2 xy.1 (newMp w ((dest.data.length + src.data.length + 1) * w)).data
  .ok ⟨norm m, false⟩

/-- `kryptos_mp_mul` with possibly `NULL` operands. -/
def mulO : Option (Num w) → Option (Num w) → Out (Option (Num w))
  | _, none => .ok none
  | none, some src => .ok (some (copyNull src))
  | some dest, some src => do
    let m ← mul dest src
    .ok (some m)

/-- One bit of a left shift (src/kryptos_mp.c:3328-3336). -/
def shl1 : Digits w → BitVec w → Digits w
  | [], _ => []
  | d :: l, lc => ((d <<< 1) ||| lc) :: shl1 l (d >>> (w - 1))

/-- `kryptos_mp_lsh` (src/kryptos_mp.c:3310-3346). -/
def lsh (a : Num w) (level : Nat) : Num w :=
  let t := assign (some (newMp w (a.data.length * w + level))) a
  ⟨(fun d => shl1 d 0)^[level] t.data, t.neg⟩

/-- One bit of a right shift, from the most significant digit (src/kryptos_mp.c:3380-3388); the second component is the
carry after the least significant digit. -/
def shr1 : Digits w → Digits w × BitVec w
  | [] => ([], 0)
  | d :: l =>
    let r := shr1 l
    (((d >>> 1) ||| (r.2 <<< (w - 1))) :: r.1, d &&& 1)

/-- `t->data[t->data_size - 1] |= signal` (src/kryptos_mp.c:3389). -/
def orLast (s : BitVec w) : Digits w → Digits w
  | [] => []
  | [d] => [d ||| s]
  | d :: e :: l => d :: orLast s (e :: l)

/-- `kryptos_mp_rsh_op` (src/kryptos_mp.c:3348-3407). -/
def rshOp (a : Num w) (level : Nat) (signed : Bool) : Num w :=
  let t := assign (some (newMp w (a.data.length * w))) a
  let signal : BitVec w := if signed && a.neg then 1 <<< (w - 1) else 0
  let d := (fun d => orLast signal (shr1 d).1)^[level] t.data
  ⟨padTo (newSize w (d.length * w)) d, false⟩

/-- `kryptos_mp_rsh` (src/kryptos_mp.h:122). -/
def rsh (a : Num w) (level : Nat) : Num w := rshOp a level false

/-- The loop of `kryptos_mp_mul_digit` (src/kryptos_mp.c:1423-1433). -/
def mulDigitLoop (digit : BitVec w) : Digits w → BitVec w → Digits w × BitVec w
  | [], mc => ([], mc)
  | x :: l, mc =>
    let bmul := x.toNat * digit.toNat + mc.toNat
    let r := mulDigitLoop digit l (BitVec.ofNat w (bmul / 2 ^ w))
    (BitVec.ofNat w bmul :: r.1, r.2)

/-- `kryptos_mp_mul_digit` (src/kryptos_mp.c:1409-1447). -/
def mulDigit (x : Num w) (digit : BitVec w) : Out (Num w) :=
  let r := mulDigitLoop digit x.data 0
  if r.2 = 0 then .ok ⟨r.1, x.neg⟩
  else
    let t := rsh (lsh ⟨r.1, x.neg⟩ w) w
    (wr t.data (t.data.length - 1) r.2) >>= fun d => .ok ⟨d, t.neg⟩

/-- `kryptos_mp_eq` (src/kryptos_mp.c:1100-1133). -/
def eq (a b : Num w) : Bool :=
  if a.neg ≠ b.neg then false
  else if a.data.length = b.data.length then a.data == b.data
  else
    let ab := if b.data.length ≤ a.data.length then (a.data, b.data) else (b.data, a.data)
    isZeroD (ab.1.drop ab.2.length) && ab.1.take ab.2.length == ab.2

/-- `kryptos_mp_get_gt_bitcmp` for the bits below `n`, from the highest (src/kryptos_mp.c:1162-1171). -/
def bitCmp (x y : BitVec w) : Nat → Option Bool
  | 0 => none
  | n + 1 =>
    if x.getLsbD n && !y.getLsbD n then some true
    else if y.getLsbD n && !x.getLsbD n then some false
    else bitCmp x y n

/-- The comparison of the digits from the most significant one (src/kryptos_mp.c:1188-1257). -/
def digitsCmp : Digits w → Digits w → Option Bool
  | x :: xs, y :: ys => match digitsCmp xs ys with
    | some r => some r
    | none => bitCmp x y w
  | _, _ => none

/-- The bytes of a digit in memory (little-endian). -/
def digitBytes (d : BitVec w) : Bytes := (List.range (w / 8)).map fun i => (d >>> (8 * i)).setWidth 8

/-- `kryptos_mp_get_gt` (src/kryptos_mp.c:1135-1262): `some true` is the first operand, `some false` the second and `none`
is `NULL`.  The first `memcmp` compares as many *bytes* as there are digits. -/
def getGt (a b : Num w) : Option Bool :=
  if a.data.length = b.data.length && a.neg != b.neg &&
      (a.data.flatMap digitBytes).take a.data.length == (b.data.flatMap digitBytes).take a.data.length then
    some (!a.neg)
  else if b.data.length ≤ a.data.length then
    if !isZeroD (a.data.drop b.data.length) then some true else digitsCmp (a.data.take b.data.length) b.data
  else
    if !isZeroD (b.data.drop a.data.length) then some false
    else (digitsCmp (b.data.take a.data.length) a.data).map (!·)

/-- The comparison macros (src/kryptos_mp.h:108-116). -/
def ne (a b : Num w) : Bool := !eq a b
def gt (a b : Num w) : Bool := ne a b && getGt a b == some true
def lt (a b : Num w) : Bool := gt b a
def ge (a b : Num w) : Bool := eq a b || getGt a b == some true
def le (a b : Num w) : Bool := eq a b || getGt a b == some false

/-- `kryptos_mp_is_odd` (src/kryptos_mp.h:118). -/
def isOdd (a : Num w) : Out Bool := (rd a.data 0).bind fun d => .ok (d.getLsbD 0)

/-- `kryptos_mp_inv` (src/kryptos_mp.h:124). -/
def inv (a : Num w) : Num w := ⟨a.data, !a.neg⟩

/-- The normalization loop of `kryptos_mp_div` (src/kryptos_mp.c:1575-1595); the divisor has to have a digit which is not
zero, otherwise `yn->data[n - 1]` is outside the array.  Exhausting the fuel stands for a loop which does not end. -/
def normalize : Nat → Num w → Num w → Nat → Out (Num w × Num w × Nat)
  | 0, _, _, _ => .ub
  | fuel + 1, xn, yn, s => do
    let d ← rd yn.data (sig yn.data - 1)
    if sig yn.data = 0 then .ub
    else if d.toNat < 2 ^ (w - 1) then normalize fuel (lsh xn 1) (lsh yn 1) (s + 1)
    else .ok (xn, yn, s)

/-- `while (kryptos_mp_ge(xn, b) && q->data[m] < 0xFF)` (src/kryptos_mp.c:1625-1628): `fuel` is `0xFF - q->data[m]`. -/
def subtractB : Nat → Num w → Num w → Nat → Out (Num w × Nat)
  | 0, xn, _, qm => .ok (xn, qm)
  | fuel + 1, xn, b, qm =>
    if ge xn b then do
      let xn ← sub xn b
      subtractB fuel xn b (qm + 1)
    else .ok (xn, qm)

/-- The guess for a digit of the quotient (src/kryptos_mp.c:1660-1705). -/
def guess (xn : Digits w) (xi : Nat) (top : BitVec w) : Out Nat := do
  let hi ← rd xn xi
  let q ← (if 1 ≤ xi then do
    let lo ← rd xn (xi - 1)
    .ok (hi.toNat * 2 ^ w + lo.toNat)
  else .ok hi.toNat)
  if top = 0 then .ub
  else .ok (if 2 ^ w - 1 < q / top.toNat then 0xFF else q / top.toNat)

/-- The correction of the guess (src/kryptos_mp.c:1719-1773); `fuel` is `0xFF - dec_nr`.  The result is the digit and the
rest. -/
def correct (xn yn : Num w) (j : Nat) : Nat → Nat → Out (BitVec w × Num w)
  | 0, _ => .ok (0, xn)
  | fuel + 1, qtemp => do
    let qj := BitVec.ofNat w qtemp
    let b ← mulDigit (assign none yn) qj
    let b := lsh b (w * j)
    if lt xn b then correct xn yn j fuel (qtemp - 1)
    else do
      let xn ← sub xn b
      .ok (qj, xn)

/-- The main loop of `kryptos_mp_div` for the digits below `m` (src/kryptos_mp.c:1659-1793); the digits of the quotient
come least significant first. -/
def divLoop (yn : Num w) (n : Nat) (top : BitVec w) : Nat → Num w → Out (Digits w × Num w)
  | 0, xn => .ok ([], xn)
  | j + 1, xn => do
    let xi := if xn.data.length ≤ n + j then xn.data.length - 1 else n + j
    let qtemp ← guess xn.data xi top
    let qx ← correct xn yn j 0xFF qtemp
    let r ← divLoop yn n top j qx.2
    .ok (r.1 ++ [qx.1], r.2)

/-- The main part of `kryptos_mp_div`, for `x >= y > 0` (src/kryptos_mp.c:1519-1849). -/
def divMain (x y : Num w) : Out (Num w × Num w) := do
  let xn := assign (some (newMp w (x.data.length * w))) x
  let yn := assign none y
  let (xn, yn, s) ← normalize (w + 1) xn yn 0
  let n := sig yn.data
  let top ← rd yn.data (n - 1)
  let m := if xn.data.length ≤ yn.data.length then 1 else xn.data.length - yn.data.length
  let b := lsh yn (w * m)
  let t := xn
  let (xn, qm) ← subtractB 0xFF xn b 0
  let (q, xn) ← (if qm = 0xFF && ge xn b then
      if lt t yn then .ok (List.replicate (m + 1) 0, t) else divLoop yn n top (m + 1) t
    else if lt xn yn then .ok (List.replicate m 0 ++ [BitVec.ofNat w qm], xn)
    else do
      let r ← divLoop yn n top m xn
      .ok (r.1 ++ [BitVec.ofNat w qm], r.2))
  let xn := if 0 < s then rsh xn s else xn
  let r : Num w := ⟨norm xn.data, false⟩
  let q : Num w := if sig q = 0 then ⟨padTo (newSize w ((m + 1) * w)) q, false⟩ else ⟨norm q, false⟩
  .ok (q, r)

/-- `kryptos_mp_div` (src/kryptos_mp.c:1464-1849): quotient and remainder; `none` for a zero divisor. -/
def div (x y : Num w) : Out (Option (Num w × Num w)) :=
  if isZeroD y.data then .ok none
  else if isZeroD x.data then .ok (some (zero, zero))
  else if lt x y then .ok (some (zero, assign none x))
  else do
    let qr ← divMain x y
    .ok (some qr)

/-- `kryptos_mp_div` with possibly `NULL` operands (src/kryptos_mp.c:1480-1485): the remainder. -/
def modO : Option (Num w) → Option (Num w) → Out (Option (Num w))
  | some x, some y => do
    let r ← div x y
    .ok (r.map (·.2))
  | _, _ => .ok none

/-- `kryptos_mp_mod` (src/kryptos_mp.c:2059-2117): the new destination. -/
def mod (dest src : Num w) : Out (Option (Num w)) :=
  let d := assign none dest
  if d.neg then do
    let temp ← sub (assign none src) one
    let d ← mul (inv d) temp
    let r ← div d src
    .ok (r.map (·.2))
  else do
    let r ← div d src
    .ok (r.map (·.2))

/-- `kryptos_mp_add_s` (src/kryptos_mp.c:2211-2301). -/
def addS (dest src : Num w) : Out (Num w) :=
  let dc := assign none dest
  let sc := assign none src
  if eq sc zero && eq dc zero then .ok zero
  else if eq sc zero then .ok dc
  else if eq dc zero then .ok sc
  else
    let dcNeg := dc.neg
    let scNeg := sc.neg
    let dc : Num w := ⟨dc.data, false⟩
    let sc : Num w := ⟨sc.data, false⟩
    (if dcNeg != scNeg then
      if gt dc sc then (sub dc sc).bind fun r => .ok (r, dcNeg, true)
      else (sub sc dc).bind fun r => .ok (r, scNeg, gt sc dc)
    else (add dc sc).bind fun r => .ok (r, dcNeg, true)) >>= fun (r, dcNeg, greater) =>
    .ok ⟨r.data, dcNeg && greater⟩

/-- `kryptos_mp_sub_s` (src/kryptos_mp.c:2303-2408). -/
def subS (dest src : Num w) : Out (Num w) :=
  let dc := assign none dest
  let sc := assign none src
  let scZ := eq sc zero
  let dcZ := eq dc zero
  if dcZ && !scZ then .ok (inv (assign none sc))
  else if !dcZ && scZ then .ok dest
  else if dcZ && scZ then .ok zero
  else
    let dcNeg := dc.neg
    let scNeg := sc.neg
    let dc : Num w := ⟨dc.data, false⟩
    let sc : Num w := ⟨sc.data, false⟩
    if dcNeg == scNeg && eq dc sc then .ok zero
    else
      let isSub := dcNeg == scNeg
      let scNeg := if isSub then !scNeg else scNeg
      let doInv := (ge dc sc && dcNeg && scNeg) || (ge dc sc && dcNeg && !scNeg) || (ge sc dc && dcNeg && !scNeg)
      (if isSub then sub dc sc else add dc sc) >>= fun r =>
      if doInv then
        let r := inv r
        .ok (if !r.neg && !(ge sc r && dcNeg && !scNeg) then ⟨r.data, true⟩ else r)
      else .ok r

/-- `kryptos_mp_mul_s` (src/kryptos_mp.c:2550-2606). -/
def mulS (dest src : Num w) : Out (Num w) :=
  let dc := assign none dest
  let sc := assign none src
  if eq src zero || eq dest zero then .ok zero
  else do
    let r ← mul ⟨dc.data, false⟩ ⟨sc.data, false⟩
    .ok ⟨r.data, dc.neg != sc.neg⟩

/-- `kryptos_mp_div_2p` (src/kryptos_mp.c:2608-2676): quotient and remainder. -/
def div2p (x : Num w) (power : Nat) : Out (Num w × Num w) := do
  let q := rsh (assign none x) power
  let p : Num w := ⟨1 :: List.replicate 7 0, false⟩
  let p ← mul (lsh p power) q
  let tr ← sub (assign none x) p
  .ok (q, if sig tr.data = 0 then newMp w (8 * w) else ⟨norm tr.data, false⟩)

/-- The bits of the digits, most significant first, as the unrolled steps of `kryptos_mp_pow`, `kryptos_mp_me_mod_n` and
`kryptos_mp_get_bitmap` visit them (src/kryptos_mp.c:1283-1350, 2428-2541, 2807-2876). -/
def bitsMsb (d : Digits w) : List Bool := d.reverse.flatMap fun x => (List.range w).reverse.map x.getLsbD

/-- `kryptos_mp_pow` (src/kryptos_mp.c:1264-1356). -/
def pow (g e : Num w) : Out (Num w) :=
  (bitsMsb e.data).foldlM (fun a bit => do
    let a ← mul a a
    if bit then mul a g else .ok a) one

/-- One step of `kryptos_mp_me_mod_n` (src/kryptos_mp.c:2715-2730). -/
def meStep (m n : Num w) (a : Option (Num w)) (bit : Bool) : Out (Option (Num w)) := do
  let a ← mulO a a
  let a ← modO a (some n)
  if bit then do
    let a ← mulO a (some m)
    modO a (some n)
  else .ok a

/-- `kryptos_mp_me_mod_n` (src/kryptos_mp.c:2684-2887). -/
def meModN (m e n : Num w) : Out (Option (Num w)) := (bitsMsb e.data).foldlM (meStep m n) (some one)

end Kryptos.Mp
