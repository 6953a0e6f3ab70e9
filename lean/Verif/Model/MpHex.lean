import Verif.Model.Mp
import Verif.Model.Memory
/-
  Model of the conversions of big numbers to and from text and bytes, and of releasing a big number
  (src/kryptos_mp.c, src/kryptos_mp.h).  The digits have `w` bits, `w` a multiple of 8.
-/
namespace Kryptos.Mp

variable {w : Nat}

/-- `toupper` in the C locale. -/
def toupper (c : Byte) : Byte := if 97 ≤ c ∧ c ≤ 122 then c - 32 else c

/-- `kryptos_mp_xnb` (src/kryptos_mp.c:33), truncated to the `kryptos_u8_t` it is stored in. -/
def xnb (c : Byte) : Byte := if 48 ≤ c ∧ c ≤ 57 then c - 48 else toupper c - 55

/-- The characters of one digit (src/kryptos_mp.c:394-403): two at a time are shifted into the digit. -/
def hexDigitLoop : BitVec w → Bytes → BitVec w
  | d, a :: b :: cs => hexDigitLoop (((d <<< 4) <<< 4) ||| ((xnb a <<< 4) ||| xnb b).setWidth w) cs
  | d, [a] => (d <<< 4) ||| (xnb a).setWidth w
  | d, [] => d

/-- The loop of `kryptos_hex_value_as_mp` (src/kryptos_mp.c:391-415), highest digit first.  The counter `w` of the code, which
counts the pairs of characters of a digit, is replaced by taking the `w / 4` characters of a digit at once. -/
def hexLoop : Nat → Bytes → Digits w
  | 0, _ => []
  | n + 1, cs => hexDigitLoop 0 (cs.take (w / 4)) :: hexLoop n (cs.drop (w / 4))

/-- The number of characters rounded up to whole digits (src/kryptos_mp.c:337-341). -/
def hexSize (w n : Nat) : Nat := (n + w / 4 - 1) / (w / 4) * (w / 4)

/-- `kryptos_hex_value_as_mp` (src/kryptos_mp.c:314-423). -/
def hexValue (w : Nat) (value : Bytes) : Option (Num w) :=
  match value with
  | [] => none
  | c :: cs =>
    let neg := c = 45
    let v := if neg then cs else c :: cs
    let padded := List.replicate (hexSize w v.length - v.length) 48 ++ v
    some ⟨(hexLoop (newSize w (hexSize w v.length * 4)) padded).reverse, neg⟩

/-- `nbxlt` (src/kryptos_mp.c:35-37). -/
def nbxlt : Bytes := ascii "0123456789ABCDEF"

/-- The characters of one digit (src/kryptos_mp.c:471-502): the highest four bits are not masked. -/
def digitHex (d : BitVec w) : Out Bytes :=
  (List.range (w / 4)).reverse.mapM fun i =>
    rd nbxlt (if i + 1 = w / 4 then (d >>> (4 * i)).toNat else ((d >>> (4 * i)) &&& 15).toNat)

/-- `kryptos_mp_value_as_hex` (src/kryptos_mp.c:425-506): the contents of the buffer (`none`: a byte never written) and
`*hex_size`. -/
def valueAsHex (n : Num w) : Out (List (Option Byte) × Nat) := do
  let hexSize := n.data.length * (w / 8) * 2
  let cs ← n.data.reverse.mapM digitHex
  let hp := (if n.neg then [45] else []) ++ cs.flatten
  .ok (hp.map some ++ (if n.neg then [none] else [some 0]), hexSize)

/-- `kryptos_raw_buffer_as_mp` (src/kryptos_mp.c:4199-4235). -/
def rawBuffer (w : Nat) (buf : Bytes) : Out (Option (Num w)) :=
  if buf = [] then .ok none
  else do
    let hex ← buf.mapM fun (b : Byte) => do
      let h ← rd nbxlt (b >>> 4).toNat
      let l ← rd nbxlt (b &&& 15).toNat
      .ok [h, l]
    .ok (hexValue w hex.flatten)

/-- `kryptos_mp_as_task_out` (src/kryptos_mp.h:162-202): the bytes of every digit, highest first
(`kryptos_cpy_u32_as_big_endian`, `kryptos_cpy_u64_as_big_endian`). -/
def asTaskOut (n : Num w) : Bytes :=
  n.data.reverse.flatMap fun (d : BitVec w) => (List.range (w / 8)).reverse.map fun i => (d >>> (8 * i)).setWidth 8

/-- The bytes of the digits in the memory of a little-endian machine. -/
def leBytes (d : Digits w) : Bytes :=
  d.flatMap fun (d : BitVec w) => (List.range (w / 8)).map fun i => (d >>> (8 * i)).setWidth 8

/-- `kryptos_del_mp_value` (src/kryptos_mp.c:266-277): the contents of the digits when they are handed to the allocator. -/
def delMp (wp : Memory.Wipe) (n : Num w) : Out Bytes := Memory.freeseg wp (leBytes n.data) n.data.length

/-- `memset(data, 0, data_size)` (src/kryptos_mp.c:889) on digit `i`, on a little-endian machine: the bytes of the
digit below `size` are cleared. -/
def clearLow (size i : Nat) (d : BitVec w) : BitVec w :=
  let k := size - i * (w / 8)
  (d >>> (8 * k)) <<< (8 * k)

/-- The loop of `kryptos_assign_hex_value_to_mp` (src/kryptos_mp.c:913-929): `d1` is `d + 1`, `c` the pairs in the digit so
far.  A character below `'0'` gives a negative `int`, whose shift is undefined. -/
def assignHexLoop : Bytes → Nat → Nat → Digits w → Out (Digits w)
  | _, 0, _, data => .ok data
  | [], _ + 1, _, data => .ok data
  | a :: cs, d + 1, c, data => do
    let nb := match cs with
      | [] => 0
      | b :: _ => xnb b
    if a < 48 then .ub
    else do
      let x ← rd data d
      let data ← wr data d ((x <<< 8) ||| (((xnb a).setWidth w <<< 4) ||| nb.setWidth w))
      let c := (c + 1) % (w / 8)
      assignHexLoop (cs.drop 1) (if c = 0 then d else d + 1) c data
  termination_by cs => cs.length

/-- `kryptos_assign_hex_value_to_mp` (src/kryptos_mp.c:868-934). -/
def assignHex (dest : Option (Num w)) (value : Bytes) : Out (Option (Num w)) :=
  if value = [] then .ok none
  else match dest with
  | none => .ok (hexValue w value)
  | some n => do
    let size := n.data.length
    let data := n.data.mapIdx (clearLow size)
    let d1 := if size < value.length / 2 then size else value.length / 2
    let data ← assignHexLoop value d1 0 data
    .ok (some ⟨data, n.neg⟩)

end Kryptos.Mp
