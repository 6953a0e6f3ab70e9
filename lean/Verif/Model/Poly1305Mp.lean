import Verif.Model.Mp
/-
  Model of src/kryptos_poly1305_mp.c: numbers of a fixed number of digits, here the seven digits of 64 bits used where the
  compiler has integers of 128 bits (`KRYPTOS_MP_EXTENDED_RADIX`).  The variant with digits of 32 bits and the division
  using the heap are not modelled, nor are `kryptos_poly1305_ld_raw_bytes` and `kryptos_poly1305_le_num`, which nothing
  in the library calls.

  Digits come least significant first; all numbers have `size` digits.
-/
namespace Kryptos.Poly1305
open Mp

/-- `kKryptosPoly1305NumberSize` (src/kryptos_poly1305_mp.h:62, 76). -/
def size : Nat := 7

/-- `kryptos_poly1305_number_t`. -/
abbrev PNum := Digits 64

/-- A number with all digits zero (`memset`). -/
def zeros : PNum := List.replicate size 0

/-- `kryptos_poly1305_add` (src/kryptos_poly1305_mp.c:31-64).  After the loop `sp` is at the end of the sum, so the last
carry is lost. -/
def padd (x y : PNum) : PNum := (addLoop x y 0).1

/-- `kryptos_poly1305_not` (src/kryptos_poly1305_mp.c:135-143). -/
def pnot (x : PNum) : PNum := x.map (~~~ ·)

/-- `kryptos_poly1305_inv_cmplt` (src/kryptos_poly1305_mp.c:127-133). -/
def invCmplt (x : PNum) : PNum := padd (pnot x) (1 :: List.replicate (size - 1) 0)

/-- `kryptos_poly1305_sub` (src/kryptos_poly1305_mp.c:66-125). -/
def psub (x y : PNum) : PNum :=
  if isZeroD y then x
  else if isZeroD x then y
  else
    let r := subLoop size x y 0
    if r.2 = BitVec.allOnes 64 then invCmplt r.1 else r.1

/-- The inner loop of `kryptos_poly1305_mul` (src/kryptos_poly1305_mp.c:166-173); `m` is the memory from `pp[y_off]` on. -/
def mulRow (y : W64) : PNum → List W64 → W64 → Nat → Out (List W64)
  | [], m, _, _ => .ok m
  | _ :: _, [], _, _ => .ub
  | x :: xs, d :: m, mc, ac => do
    let bmul := y.toNat * x.toNat + mc.toNat
    let bsum := d.toNat + bmul % 2 ^ 64 + ac
    let m ← mulRow y xs m (BitVec.ofNat 64 (bmul / 2 ^ 64)) (if 2 ^ 64 - 1 < bsum then 1 else 0)
    .ok (BitVec.ofNat 64 bsum :: m)

/-- The outer loop (src/kryptos_poly1305_mp.c:163-181).  The condition of line 175 never holds, since `x_off` is then
`size`. -/
def mulLoop : PNum → PNum → List W64 → Out (List W64)
  | [], _, m => .ok m
  | y :: ys, x, m => do
    let m ← mulRow y x m 0 0
    match m with
    | [] => .ok []
    | d :: m => do
      let m ← mulLoop ys x m
      .ok (d :: m)

/-- `kryptos_poly1305_mul` (src/kryptos_poly1305_mp.c:145-192).  The digits are written to `pp[y_off + x_off]` where both
offsets run through 0..6, so the array `p` of seven digits is left by up to six digits.  `beyond` is the memory behind `p`
which may be read and written without harm; in C there is none (`beyond = []`).  Changing what is there is undefined. -/
def mul (beyond : List W64) (x y : PNum) : Out PNum := do
  let m ← mulLoop y x (zeros ++ beyond)
  if m.drop size = beyond then .ok (m.take size) else .ub

/-- `kryptos_poly1305_lsh` (src/kryptos_poly1305_mp.c:481-501). -/
def lsh (x : PNum) (level : Nat) : PNum := (fun d => shl1 d 0)^[level] x

/-- `kryptos_poly1305_rsh` (src/kryptos_poly1305_mp.c:503-523). -/
def rsh (x : PNum) (level : Nat) : PNum := (fun d => (shr1 d).1)^[level] x

/-- `kryptos_poly1305_mul_digit` (src/kryptos_poly1305_mp.c:194-218).  A carry out of the last digit replaces it. -/
def mulDigit (x : PNum) (digit : W64) : Out PNum :=
  let r := mulDigitLoop digit x 0
  if r.2 = 0 then .ok r.1 else wr (rsh (lsh r.1 64) 64) (size - 1) r.2

/-- The bits looked at by `kryptos_poly1305_get_gt`, in this order (src/kryptos_poly1305_mp.c:638-700): bit 30 is left
out. -/
def checkedBits : List Nat :=
  [63, 62, 61, 60, 59, 58, 57, 56, 55, 54, 53, 52, 51, 50, 49, 48, 47, 46, 45, 44, 43, 42, 41, 40, 39, 38, 37, 36, 35, 34,
   33, 32, 31, 29, 28, 27, 26, 25, 24, 23, 22, 21, 20, 19, 18, 17, 16, 15, 14, 13, 12, 11, 10, 9, 8, 7, 6, 5, 4, 3, 2, 1, 0]

/-- `kryptos_poly1305_get_gt_bitcmp` for a list of bits (src/kryptos_poly1305_mp.c:621-634). -/
def bitsCmp (x y : W64) : List Nat → Option Bool
  | [] => none
  | n :: l =>
    if x.getLsbD n && !y.getLsbD n then some true
    else if y.getLsbD n && !x.getLsbD n then some false
    else bitsCmp x y l

/-- `kryptos_poly1305_get_gt` (src/kryptos_poly1305_mp.c:613-745): `some true` is the first operand, `some false` the
second and `none` is `NULL`. -/
def getGt (bits : List Nat) : PNum → PNum → Option Bool
  | x :: xs, y :: ys => match getGt bits xs ys with
    | some r => some r
    | none => bitsCmp x y bits
  | _, _ => none

/-- The comparison macros (src/kryptos_poly1305_mp.h:109-115, src/kryptos_poly1305_mp.c:609-611). -/
def gt (bits : List Nat) (x y : PNum) : Bool := getGt bits x y != none && getGt bits x y == some true
def lt (bits : List Nat) (x y : PNum) : Bool := gt bits y x
def ge (bits : List Nat) (x y : PNum) : Bool := getGt bits x y == none || gt bits x y

/-- The normalization loop of `kryptos_poly1305_div` (src/kryptos_poly1305_mp.c:268-276).  Exhausting the fuel stands for a
loop which does not end. -/
def normalize : Nat → PNum → PNum → Nat → Out (PNum × PNum × Nat)
  | 0, _, _, _ => .ub
  | fuel + 1, x, y, s => do
    if sig y = 0 then .ub
    else do
      let d ← rd y (sig y - 1)
      if d.toNat < 2 ^ 63 then normalize fuel (lsh x 1) (lsh y 1) (s + 1) else .ok (x, y, s)

/-- `while (kryptos_poly1305_ge(x_cp, b) && q[m] < 0xFF)` (src/kryptos_poly1305_mp.c:297-300); `fuel` is `0xFF - q[m]`. -/
def subtractB (bits : List Nat) : Nat → PNum → PNum → Nat → PNum × Nat
  | 0, x, _, qm => (x, qm)
  | fuel + 1, x, b, qm => if ge bits x b then subtractB bits fuel (psub x b) b (qm + 1) else (x, qm)

/-- The guess for a digit of the quotient (src/kryptos_poly1305_mp.c:318-333). -/
def guess (x : PNum) (xi : Nat) (top : W64) : Out Nat := do
  let hi ← rd x xi
  let q ← (if 1 ≤ xi then do
    let lo ← rd x (xi - 1)
    .ok (hi.toNat * 2 ^ 64 + lo.toNat)
  else .ok hi.toNat)
  if top = 0 then .ub
  else .ok (if 2 ^ 64 - 1 < q / top.toNat then 0xFF else q / top.toNat)

/-- The correction of the guess (src/kryptos_poly1305_mp.c:335-355); `fuel` is `0xFF - dec_nr`.  The result is the digit
and the rest.  `qtemp` is not decremented below zero, since no number is below zero times the divisor. -/
def correct (bits : List Nat) (x y : PNum) (j : Nat) : Nat → Nat → Out (W64 × PNum)
  | 0, _ => .ok (0, x)
  | fuel + 1, qtemp => do
    let qj := BitVec.ofNat 64 qtemp
    let b ← mulDigit y qj
    let b := lsh b (64 * j)
    if lt bits x b then correct bits x y j fuel (qtemp - 1) else .ok (qj, psub x b)

/-- The main loop for the digits below `m` (src/kryptos_poly1305_mp.c:312-357). -/
def divLoop (bits : List Nat) (y : PNum) (n : Nat) (top : W64) : Nat → PNum → Out (Digits 64 × PNum)
  | 0, x => .ok ([], x)
  | j + 1, x => do
    let xi := if size ≤ n + j then size - 1 else n + j
    let qtemp ← guess x xi top
    let qx ← correct bits x y j 0xFF qtemp
    let r ← divLoop bits y n top j qx.2
    .ok (r.1 ++ [qx.1], r.2)

/-- `kryptos_poly1305_div` (src/kryptos_poly1305_mp.c:222-379): quotient and remainder.  When `x` is zero but not below `y`
for the comparison, `x_cp[-1]` is read. -/
def div (bits : List Nat) (x y : PNum) : Out (PNum × PNum) :=
  if isZeroD y then .ok (zeros, zeros)
  else if isZeroD x then (if lt bits x y then .ok (zeros, zeros) else .ub)
  else do
    let m := if sig x ≤ sig y then 1 else sig x - sig y
    let (xn, yn, s) ← normalize 64 x y 0
    let n := sig yn
    let top ← rd yn (n - 1)
    let b := lsh yn (64 * m)
    let (xs, qm) := subtractB bits 0xFF xn b 0
    let pad := fun (q : Digits 64) => q ++ List.replicate (size - q.length) 0
    let (q, xr) ← (if qm = 0xFF && ge bits xs b then
        if lt bits xn yn then .ok (zeros, xn) else (divLoop bits yn n top (m + 1) xn).bind fun r => .ok (pad r.1, r.2)
      else if lt bits xs yn then .ok (pad (List.replicate m 0 ++ [BitVec.ofNat 64 qm]), xs)
      else (divLoop bits yn n top m xs).bind fun r => .ok (pad (r.1 ++ [BitVec.ofNat 64 qm]), r.2))
    .ok (q, if 0 < s then rsh xr s else xr)

/-- `kryptos_poly1305_le_bytes_to_num` (src/kryptos_poly1305_mp.c:525-542): byte `k` goes to digit `k / 8`. -/
def leBytesToNum : Nat → Bytes → PNum → Out PNum
  | _, [], n => .ok n
  | k, b :: l, n =>
    if size ≤ k / 8 then .ok n
    else do
      let d ← rd n (k / 8)
      let n ← wr n (k / 8) (d ||| b.setWidth 64 <<< (8 * (k % 8)))
      leBytesToNum (k + 1) l n

end Kryptos.Poly1305
