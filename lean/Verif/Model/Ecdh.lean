import Verif.Model.Ec
import Verif.Model.Rsa
import Mathlib.Data.Nat.Digits.Defs
/-
  Model of src/kryptos_ecdh.c and of the random secrets of src/kryptos_ecdsa.c.

  The digits have 32 or 64 bits.  `none` in front of a result stands for a loop that has not ended.  Memory is never exhausted;
  releasing it is not modelled, apart from a point that is released twice.
-/
namespace Kryptos.Ecdh
open Mp Ec
open Rsa (Res getMp putMps)

variable {w : Nat}

/-- `kryptos_curve_ctx` (src/kryptos_types.h:342-347). -/
structure CurveCtx (w : Nat) where
  bits : Nat
  ec : Curve w
  q : Num w
  g : Point w
  deriving DecidableEq, Repr

/-! ## Random secrets -/

/-- The mask of src/kryptos_ecdh.c:145-148 and src/kryptos_ecdsa.c:766-769: 32 ones, whatever the width of a digit.  The shift by
the width is undefined. -/
def mask (w bits : Nat) : Out (BitVec w) :=
  if bits < 32 then (if w ≤ 32 - bits then .ub else .ok ((0xFFFFFFFF#32).setWidth w >>> (32 - bits)))
  else .ok ((0xFFFFFFFF#32).setWidth w)

/-- Four random bytes (src/kryptos_ecdh.c:156-159, src/kryptos_ecdsa.c:784-787), taken in the order of the text. -/
def word (rnd : Nat → Byte) (i : Nat) : BitVec 32 :=
  (rnd i).setWidth 32 <<< 24 ||| (rnd (i + 1)).setWidth 32 <<< 16 ||| (rnd (i + 2)).setWidth 32 <<< 8 ||| (rnd (i + 3)).setWidth 32

/-- `n` digits: the four bytes, as a number of 32 bits, become a digit, and the mask is applied. -/
def digits (rnd : Nat → Byte) (mask : BitVec w) (i n : Nat) : Digits w :=
  (List.range n).map fun d => (word rnd (i + 4 * d)).setWidth w &&& mask

/-- The number of digits of a secret (src/kryptos_ecdh.c:135-136, src/kryptos_ecdsa.c:774-775). -/
def secretDigits (w bits qSize : Nat) : Nat := newSize w (if bits = 0 ∨ qSize < bits / w then qSize * w else bits)

/-- The loops of src/kryptos_ecdh.c:151-162 and src/kryptos_ecdsa.c:781-792; `small` tells which numbers are too small. -/
def draw (rnd : Nat → Byte) (mask : BitVec w) (small : Num w → Bool) (q : Num w) (n : Nat) : Nat → Nat → Option (Num w)
  | 0, _ => none
  | f + 1, i =>
    let k : Num w := ⟨digits rnd mask i n, false⟩
    if small k || ge k q then draw rnd mask small q n f (i + 4 * n) else some k

/-- `kryptos_ecdh_get_random_k` (src/kryptos_ecdh.c:121-173). -/
def getRandomK (rnd : Nat → Byte) (fuel : Nat) (q : Num w) (bits : Nat) : Out (Option (Num w)) := do
  let m ← mask w bits
  return draw rnd m (fun k => lt k two) q (secretDigits w bits q.data.length) fuel 0

/-- `kryptos_ecdsa_get_random_d` (src/kryptos_ecdsa.c:760-795). -/
def getRandomD (rnd : Nat → Byte) (fuel : Nat) (q : Num w) (bits : Nat) : Out (Option (Num w)) := do
  let m ← mask w bits
  return draw rnd m isZero q (secretDigits w bits q.data.length) fuel 0

/-! ## The exchange -/

/-- `struct kryptos_ecdh_xchg_ctx` (src/kryptos_ecdh.h:31-38). -/
structure Ctx (w : Nat) where
  result : TaskResult
  curve : Option (CurveCtx w)
  inp : Option Bytes
  out : Option Bytes
  k : Option (Num w)
  deriving DecidableEq, Repr

/-- `kryptos_clear_ecdh_xchg_ctx` (src/kryptos_ecdh.c:474-492) with `kryptos_ecdh_init_xchg_ctx` (src/kryptos_ecdh.h:40-47): what is
left of a context when a step fails (src/kryptos_ecdh.c:448-455). -/
def failed : Ctx w := ⟨.processError, none, none, none, none⟩

/-- `strtoul(s, NULL, 10)` (src/kryptos_ecdh.c:102) of the bytes before the first NUL, for texts which start with a digit; any other
text counts as zero.  Signs, leading blanks and numbers of more than 64 bits, which `strtoul` knows as well, are not modelled. -/
def strtoul (s : Bytes) : Nat :=
  ((s.takeWhile fun b => 0x30#8 ≤ b && b ≤ 0x39#8).foldl (fun n b => 10 * n + (b.toNat - 0x30)) 0) % 2 ^ 64

/-- `snprintf(temp, sizeof(temp) - 1, "%d", (unsigned int)bits)` (src/kryptos_ecdh.c:209) for less than 2^31 bits. -/
def decimal (bits : Nat) : Bytes :=
  if bits = 0 then [0x30#8] else (Nat.digits 10 bits).reverse.map fun d => 0x30#8 + BitVec.ofNat 8 d

/-- `kryptos_ecdh_get_curve_from_params_buf` (src/kryptos_ecdh.c:25-119) for a buffer. -/
def getCurve (w : Nat) (params : Bytes) : Out (Option (CurveCtx w)) :=
  if params.length = 0 then .ok none
  else do
    match ← getMp w "ECDH PARAM EC P" params with
    | none => return none
    | some p => do
      match ← getMp w "ECDH PARAM EC A" params with
      | none => return none
      | some a => do
        match ← getMp w "ECDH PARAM EC B" params with
        | none => return none
        | some b => do
          match ← getMp w "ECDH PARAM EC G X" params with
          | none => return none
          | some x => do
            match ← getMp w "ECDH PARAM EC G Y" params with
            | none => return none
            | some y => do
              match ← getMp w "ECDH PARAM EC Q" params with
              | none => return none
              | some q => do
                match ← Pem.getData (some (ascii "ECDH PARAM EC BITS")) (some params) with
                | none => return none
                | some t => return some ⟨strtoul t, ⟨a, b, p⟩, q, ⟨x, y⟩⟩

/-- The numbers that Alice sends (src/kryptos_ecdh.c:220-298). -/
def offer (c : CurveCtx w) (kp : Point w) : List (String × Num w) :=
  [("ECDH PARAM EC P", c.ec.p), ("ECDH PARAM EC A", c.ec.a), ("ECDH PARAM EC B", c.ec.b), ("ECDH PARAM EC G X", c.g.x),
    ("ECDH PARAM EC G Y", c.g.y), ("ECDH PARAM EC Q", c.q), ("ECDH PARAM KP X", kp.x), ("ECDH PARAM KP Y", kp.y)]

/-- Alice's first step (src/kryptos_ecdh.c:187-299): a second one without an answer fails. -/
def alice (rnd : Nat → Byte) (fuel : Nat) (c : Ctx w) : Out (Option (Ctx w)) :=
  match c.k, c.curve with
  | some _, _ => .ok (some failed)
  | none, none => .ub
  | none, some cv => do
    match ← getRandomK rnd fuel cv.q cv.bits with
    | none => return none
    | some k => do
      match ← mul fuel cv.g k cv.ec with
      | none => return some failed
      | some kp => do
        let o ← Pem.putData true c.out (some (ascii "ECDH PARAM EC BITS")) (some (decimal cv.bits))
        if o.1 ≠ .success then return some failed
        else do
          let o ← putMps o.2 (offer cv kp)
          if o.1 ≠ .success then return some failed
          else return some { c with result := .success, k := some k, out := o.2 }

/-- The end of Bob's step (src/kryptos_ecdh.c:350-396).  His own point has been released (line 352); when the point of the peer cannot
be read, it is released again (lines 457-459), which is undefined. -/
def bobEnd (fuel : Nat) (cv : CurveCtx w) (k : Num w) (inp : Bytes) (out : Option Bytes) : Out (Option (Ctx w)) := do
  match ← getMp w "ECDH PARAM KP X" inp with
  | none => .ub
  | some x => do
    match ← getMp w "ECDH PARAM KP Y" inp with
    | none => .ub
    | some y => do
      let kp := setPoint x y
      match ← mul fuel kp k cv.ec with
      | none => return some failed
      | some t => return some ⟨.success, none, some inp, out, some t.x⟩

/-- Bob's step (src/kryptos_ecdh.c:300-397). -/
def bob (rnd : Nat → Byte) (fuel : Nat) (c : Ctx w) (inp : Bytes) : Out (Option (Ctx w)) :=
  match c.curve with
  | some _ => .ok (some failed)
  | none => do
    match ← getCurve w inp with
    | none => return some failed
    | some cv => do
      match ← getRandomK rnd fuel cv.q cv.bits with
      | none => return none
      | some k => do
        match ← mul fuel cv.g k cv.ec with
        | none => return some failed
        | some kp => do
          let o ← putMps c.out [("ECDH PARAM KP X", kp.x), ("ECDH PARAM KP Y", kp.y)]
          if o.1 ≠ .success then return some failed else bobEnd fuel cv k inp o.2

/-- Alice's second step (src/kryptos_ecdh.c:398-444). -/
def aliceEnd (fuel : Nat) (c : Ctx w) (k : Num w) (inp : Bytes) : Out (Option (Ctx w)) := do
  match ← getMp w "ECDH PARAM KP X" inp with
  | none => return some failed
  | some x => do
    match ← getMp w "ECDH PARAM KP Y" inp with
    | none => return some failed
    | some y =>
      match c.curve with
      | none => .ub
      | some cv => do
        match ← mul fuel (setPoint x y) k cv.ec with
        | none => return some failed
        | some t => return some { c with result := .success, curve := none, k := some t.x }

/-- `kryptos_ecdh_process_xchg` (src/kryptos_ecdh.c:175-472).  The buffer that Alice's second step finds in `out` stays there. -/
def process (rnd : Nat → Byte) (fuel : Nat) (c : Ctx w) : Out (Option (Ctx w)) :=
  match c.inp, c.k with
  | none, _ => alice rnd fuel c
  | some inp, none => bob rnd fuel c inp
  | some inp, some k => aliceEnd fuel c k inp

end Kryptos.Ecdh
