import Verif.Model.MpGcd
/-
  Model of src/kryptos_ec_utils.c.

  A point is a pair of numbers; the pair of zeros stands for the point at infinity.  The loops of `kryptos_mp_modinv_rs` have a
  fuel.  `none` is a `NULL` result: memory is never exhausted, so that it comes only from a modulus which
  `kryptos_mp_barrett_reduction` refuses.  Releasing memory is not modelled.
-/
namespace Kryptos.Ec
open Mp

variable {w : Nat}

/-- `kryptos_ec_pt_t` (src/kryptos_types.h:315-317). -/
structure Point (w : Nat) where
  x : Num w
  y : Num w
  deriving DecidableEq, Repr

/-- `kryptos_ec_t` (src/kryptos_types.h:311-313). -/
structure Curve (w : Nat) where
  a : Num w
  b : Num w
  p : Num w
  deriving DecidableEq, Repr

/-- `kryptos_ec_set_point` (src/kryptos_ec_utils.c:30-51). -/
def setPoint (x y : Num w) : Point w := ⟨assign none x, assign none y⟩

/-- `kryptos_ec_set_curve` (src/kryptos_ec_utils.c:53-74). -/
def setCurve (a b p : Num w) : Curve w := ⟨assign none a, assign none b, assign none p⟩

/-- The constant 3 (src/kryptos_ec_utils.c:291). -/
def three : Num w := ⟨[3], false⟩

/-- `kryptos_ec_pt_mod_p` (src/kryptos_ec_utils.c:92-103): the factor left by the first reduction is used by the second one. -/
def ptModP (pt : Point w) (p : Num w) : Out (Option (Point w)) := do
  match ← barrett (assign none pt.x) none 0 p with
  | (none, _, _) => return none
  | (some x, f, sh) => do
    match ← barrett (assign none pt.y) f sh p with
    | (none, _, _) => return none
    | (some y, _, _) => return some ⟨x, y⟩

/-- The part of `kryptos_ec_dbl` for `y` not zero (src/kryptos_ec_utils.c:281-331). -/
def dblMain (fuel : Nat) (p : Point w) (c : Curve w) : Out (Option (Point w)) := do
  let t ← mulS two p.y
  match ← modinvRs fuel t c.p with
  | none => return none
  | some t => do
    let slope ← mulS (assign none p.x) p.x
    let slope ← mulS three slope
    let slope ← addS slope c.a
    let slope ← mulS slope t
    match ← barrett slope none 0 c.p with
    | (none, _, _) => return none
    | (some slope, f, sh) => do
      let x ← mulS (assign none slope) slope
      let x ← subS x p.x
      let x ← subS x p.x
      match ← barrett x f sh c.p with
      | (none, _, _) => return none
      | (some x, f, sh) => do
        let t ← subS (assign none p.x) x
        let y ← mulS (assign none slope) t
        let y ← subS y p.y
        match ← barrett y f sh c.p with
        | (none, _, _) => return none
        | (some y, _, _) => return some ⟨x, y⟩

/-- `kryptos_ec_dbl` (src/kryptos_ec_utils.c:269-370). -/
def dbl (fuel : Nat) (p : Point w) (c : Curve w) : Out (Option (Point w)) :=
  if eq p.y zero then .ok (some (setPoint zero zero)) else dblMain fuel p c

/-- The opposite of the second coordinate of `q` (src/kryptos_ec_utils.c:134-145), with the factor and the shift, which stay as
they were (`NULL` and without a value) when the coordinate is zero. -/
def negY (q : Point w) (c : Curve w) : Out (Option (Num w) × Option (Num w) × Nat) :=
  if eq q.y zero then .ok (some zero, none, 0)
  else do
    let t ← subS (assign none c.p) q.y
    barrett t none 0 c.p

/-- The part of `kryptos_ec_add` for two points with different first coordinates (src/kryptos_ec_utils.c:159-214). -/
def addMain (fuel : Nat) (p q : Point w) (c : Curve w) (t : Num w) (f : Option (Num w)) (sh : Nat) : Out (Option (Point w)) := do
  let t ← subS (assign (some t) p.x) q.x
  match ← barrett t f sh c.p with
  | (none, _, _) => return none
  | (some t, f, sh) => do
    match ← modinvRs fuel t c.p with
    | none => return none
    | some i => do
      let t := assign (some t) i
      let slope ← subS (assign none p.y) q.y
      let slope ← mulS slope t
      match ← barrett slope f sh c.p with
      | (none, _, _) => return none
      | (some slope, f, sh) => do
        let x ← mulS (assign none slope) slope
        let x ← subS x p.x
        let x ← subS x q.x
        match ← barrett x f sh c.p with
        | (none, _, _) => return none
        | (some x, f, sh) => do
          let t ← subS (assign none p.x) x
          let y ← mulS (assign none t) slope
          let y ← subS y p.y
          match ← barrett y f sh c.p with
          | (none, _, _) => return none
          | (some y, _, _) => return some ⟨x, y⟩

/-- `kryptos_ec_add` from the reduced points on (src/kryptos_ec_utils.c:118-214). -/
def addReduced (fuel : Nat) (p q : Point w) (c : Curve w) : Out (Option (Point w)) :=
  if eq p.x zero && eq p.y zero then .ok (some (setPoint q.x q.y))
  else if eq q.x zero && eq q.y zero then .ok (some (setPoint p.x p.y))
  else do
    match ← negY q c with
    | (none, _, _) => return none
    | (some t, f, sh) =>
      if eq p.y t && eq p.x q.x then return some (setPoint zero zero)
      else if eq p.x q.x && eq p.y q.y then dbl fuel p c
      else addMain fuel p q c t f sh

/-- `kryptos_ec_add` (src/kryptos_ec_utils.c:76-267). -/
def add (fuel : Nat) (p q : Point w) (c : Curve w) : Out (Option (Point w)) := do
  match ← ptModP p c.p with
  | none => return none
  | some p => do
    match ← ptModP q c.p with
    | none => return none
    | some q => addReduced fuel p q c

/-- The steps of `kryptos_ec_mul` (src/kryptos_ec_utils.c:415-447), from the second lowest bit up. -/
def mulSteps (fuel : Nat) (c : Curve w) : List Bool → Point w → Point w → Out (Option (Point w))
  | [], _, r => .ok (some r)
  | b :: bs, q, r => do
    match ← dbl fuel q c with
    | none => return none
    | some t => do
      let q : Point w := ⟨assign (some q.x) t.x, assign (some q.y) t.y⟩
      if b then
        match ← add fuel r q c with
        | none => return none
        | some t => mulSteps fuel c bs q ⟨assign (some r.x) t.x, assign (some r.y) t.y⟩
      else mulSteps fuel c bs q r

/-- `kryptos_ec_mul` (src/kryptos_ec_utils.c:372-481).  The bits come from `kryptos_mp_get_bitmap`
(src/kryptos_mp.c:2410-2548), the highest first; the leading zeros are passed over (lines 399-401), and the loop takes at least
one step, so that the bit below the lowest one is read even if it is a leading zero. -/
def mul (fuel : Nat) (p : Point w) (d : Num w) (c : Curve w) : Out (Option (Point w)) :=
  if eq d zero then .ok (some (setPoint zero zero))
  else
    match (bitsMsb d.data).reverse with
    | b0 :: b1 :: bs =>
      let r := if b0 then setPoint p.x p.y else setPoint zero zero
      mulSteps fuel c (b1 :: bs.take (((bitsMsb d.data).dropWhile (· != true)).length - 2)) (setPoint p.x p.y) r
    | _ => .ub

end Kryptos.Ec
