import Verif.Model.Mp
/-
  Model of the greatest common divisor, the modular inverses and the Barrett and Montgomery reductions of
  src/kryptos_mp.c.  Loops run on fuel; `Out.ok none` stands for a loop that has not ended when the fuel is spent.
  Allocations succeed.
-/
namespace Kryptos.Mp

variable {w : Nat}

/-- `while (kryptos_mp_is_even(x)) x = kryptos_mp_rsh(&x, 1);` (src/kryptos_mp.c:3692-3698). -/
def stripEven : Nat → Num w → Out (Option (Num w))
  | 0, _ => .ok none
  | f + 1, x => do
    let odd ← isOdd x
    if odd then .ok (some x) else stripEven f (rsh x 1)

/-- The first loop of `kryptos_mp_gcd` (src/kryptos_mp.c:3683-3687). -/
def evenBoth : Nat → Num w → Num w → Num w → Out (Option (Num w × Num w × Num w))
  | 0, _, _, _ => .ok none
  | f + 1, x, y, g => do
    let ox ← isOdd x
    if ox then .ok (some (x, y, g))
    else do
      let oy ← isOdd y
      if oy then .ok (some (x, y, g)) else evenBoth f (rsh x 1) (rsh y 1) (lsh g 1)

/-- The second loop of `kryptos_mp_gcd` (src/kryptos_mp.c:3693-3717): `y` at its end. -/
def gcdLoop : Nat → Num w → Num w → Option (Num w) → Out (Option (Num w))
  | 0, _, _, _ => .ok none
  | f + 1, x, y, t =>
    if ne x zero then do
      let x ← stripEven f x
      match x with
      | none => .ok none
      | some x => do
        let y ← stripEven f y
        match y with
        | none => .ok none
        | some y => do
          let t ← (if lt y x then sub (assign t x) y else sub (assign t y) x)
          let t := rsh t 1
          if ge x y then gcdLoop f (assign (some x) t) y (some t)
          else gcdLoop f x (assign (some y) t) (some t)
    else .ok (some y)

/-- `kryptos_mp_gcd` (src/kryptos_mp.c:3663-3745). -/
def gcd (fuel : Nat) (a b : Num w) : Out (Option (Num w)) := do
  let xy := if gt a b then (assign none a, assign none b) else (assign none b, assign none a)
  let r ← evenBoth fuel xy.1 xy.2 one
  match r with
  | none => .ok none
  | some (x, y, g) => do
    let r ← gcdLoop fuel x y none
    match r with
    | none => .ok none
    | some y => do
      let p ← mul (assign none g) y
      .ok (some p)

/-- The state of `kryptos_mp_modinv`; `odd` says that `iter` is `~1`, which is negative (`char` is taken to be signed). -/
structure Euclid (w : Nat) where
  u1 : Num w
  u3 : Num w
  v1 : Num w
  v3 : Num w
  t1 : Option (Num w)
  odd : Bool
  deriving DecidableEq

/-- One turn of the loop of `kryptos_mp_modinv` (src/kryptos_mp.c:3972-3985); `none`: the quotient is `NULL`. -/
def euclidStep (s : Euclid w) : Out (Option (Euclid w)) := do
  let qr ← div s.u3 s.v3
  match qr with
  | none => .ok none
  | some (q, t3) => do
    let t1 ← mul (assign s.t1 q) s.v1
    let t1 ← add t1 s.u1
    .ok (some ⟨assign (some s.u1) s.v1, assign (some s.u3) s.v3, assign (some s.v1) t1, assign (some s.v3) t3, some t1, !s.odd⟩)

/-- The loop of `kryptos_mp_modinv` (src/kryptos_mp.c:3971-3985). -/
def euclidLoop : Nat → Euclid w → Out (Option (Option (Euclid w)))
  | 0, _ => .ok none
  | f + 1, s =>
    if ne s.v3 zero then do
      let r ← euclidStep s
      match r with
      | none => .ok (some none)
      | some s => euclidLoop f s
    else .ok (some (some s))

/-- The loop of `kryptos_mp_modinv_rs` (src/kryptos_mp.c:4055-4089): `u` and `r` at its end. -/
def rsLoop (m : Num w) : Nat → Num w → Num w → Num w → Num w → Out (Option (Num w × Num w))
  | 0, _, _, _, _ => .ok none
  | f + 1, u, v, r, s =>
    if isZero v then .ok (some (u, r))
    else do
      let ou ← isOdd u
      if !ou then do
        let orr ← isOdd r
        let r ← (if !orr then .ok r else addS r m)
        rsLoop m f (rsh u 1) v (rsh r 1) s
      else do
        let ov ← isOdd v
        if !ov then do
          let os ← isOdd s
          let s ← (if !os then .ok s else addS s m)
          rsLoop m f u (rsh v 1) r (rsh s 1)
        else if gt u v then do
          let u ← subS u v
          let r ← subS r s
          let r ← (if r.neg then addS r m else .ok r)
          rsLoop m f u v r s
        else do
          let v ← subS v u
          let s ← subS s r
          let s ← (if s.neg then addS s m else .ok s)
          rsLoop m f u v r s

/-- `kryptos_mp_modinv_rs` (src/kryptos_mp.c:4042-4133). -/
def modinvRs (fuel : Nat) (a m : Num w) : Out (Option (Num w)) := do
  let e ← rsLoop m fuel (assign none m) (assign none a) zero one
  match e with
  | none => .ok none
  | some (u, r) =>
    if gt u one then .ok (some zero)
    else if gt r m then do
      let r ← subS r m
      .ok (some r)
    else if r.neg then do
      let r ← addS r m
      .ok (some r)
    else .ok (some r)

/-- `kryptos_mp_modinv` (src/kryptos_mp.c:3952-4038). -/
def modinv (fuel : Nat) (u v : Num w) : Out (Option (Num w)) := do
  let ov ← isOdd v
  if ov then modinvRs fuel u v
  else do
    let e ← euclidLoop fuel ⟨assign none one, assign none u, assign none zero, assign none v, none, false⟩
    match e with
    | none => .ok none
    | some none => .ok (some zero)
    | some (some s) =>
      if eq s.u3 one then
        if s.odd then do
          let r ← sub (assign none v) s.u1
          .ok (some r)
        else .ok (some (assign none s.u1))
      else .ok (some zero)

/-- The shift of `kryptos_mp_barrett_reduction` (src/kryptos_mp.c:2141-2150): twice the number of bits from the first one on,
`kryptos_mp_get_bitmap` (src/kryptos_mp.c:2410-2541) giving the bits of all digits. -/
def barrettShift (m : Num w) : Nat := ((bitsMsb m.data).dropWhile (· != true)).length * 2

/-- `kryptos_mp_barrett_reduction` after the factor has been found (src/kryptos_mp.c:2167-2193). -/
def barrettMain (x factor : Num w) (sh : Nat) (m : Num w) : Out (Option (Num w)) :=
  if x.neg || ge x (lsh (assign none m) 1) then mod x m
  else do
    let t ← mul (assign none x) factor
    let t ← mul (rsh t sh) m
    let r ← sub (assign none x) t
    if ge r m then do
      let r ← sub r m
      .ok (some r)
    else .ok (some r)

/-- `kryptos_mp_barrett_reduction` (src/kryptos_mp.c:2119-2209): the result, and the factor and shift left to the caller. -/
def barrett (x : Num w) (factor : Option (Num w)) (sh : Nat) (m : Num w) :
    Out (Option (Num w) × Option (Num w) × Nat) :=
  match factor with
  | some f => do
    let r ← barrettMain x f sh m
    .ok (r, some f, sh)
  | none =>
    if m.neg || isZero m then .ok (none, none, sh)
    else
      let sh := barrettShift m
      if sh = 0 then .ok (none, none, 0)
      else do
        let qr ← div (lsh one sh) m
        match qr with
        | none => .ok (none, none, sh)
        | some (f, _) => do
          let r ← barrettMain x f sh m
          .ok (r, some f, sh)

/-- The loop of `kryptos_mp_montgomery_reduction_2kx_mod_y` (src/kryptos_mp.c:3648-3653). -/
def halve (y : Num w) : Nat → Num w → Out (Num w)
  | 0, x => .ok x
  | k + 1, x => do
    let o ← isOdd x
    let x ← (if o then add x y else .ok x)
    halve y k (rsh x 1)

/-- `kryptos_mp_montgomery_reduction_2kx_mod_y` (src/kryptos_mp.c:3636-3660). -/
def montgomery2k (x y : Num w) : Out (Num w) := do
  let xt ← halve y (x.data.length * w) (assign none x)
  if ge xt y then sub xt y else .ok xt

/-- `kryptos_mp_montgomery_reduction` (src/kryptos_mp.c:3574-3634).  The result is copied to a number made for 8 bits per
digit; the copy is undefined when it does not fit. -/
def montgomery (x y : Num w) : Out (Option (Num w)) := do
  let z ← montgomery2k x y
  let d ← div (lsh one (x.data.length * w)) y
  match d with
  | none => .ok none
  | some (_, r) => do
    let z ← mul z r
    let d ← div z y
    match d with
    | none => .ok none
    | some (_, r) =>
      if sig r.data = 0 then .ok (some r)
      else
        let size := newSize w (sig r.data * 8)
        if size < sig r.data then .ub
        else .ok (some ⟨padTo size (r.data.take (sig r.data)), false⟩)

end Kryptos.Mp
