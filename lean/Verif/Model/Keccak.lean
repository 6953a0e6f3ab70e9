import Verif.Model.HashTask
import Verif.Model.Endian
/-
  Model of src/kryptos_keccak.c.  `state[x][y]` is element `5 * x + y` of a list of 25 words.  Allocations succeed; sizes do not wrap.
-/
namespace Kryptos.Keccak
open Hash

/-- `kryptos_keccak_rot_offset` (src/kryptos_keccak.c:85-89). -/
def rotOffset : List Nat := [1, 3, 6, 10, 15, 21, 28, 36, 45, 55, 2, 14, 27, 41, 56, 8, 25, 43, 62, 18, 39, 61, 20, 44]

/-- `kryptos_keccak_rc` (src/kryptos_keccak.c:91-100). -/
def RC : List W64 := [
  0x0000000000000001#64, 0x0000000000008082#64, 0x800000000000808A#64,
  0x8000000080008000#64, 0x000000000000808B#64, 0x0000000080000001#64,
  0x8000000080008081#64, 0x8000000000008009#64, 0x000000000000008A#64,
  0x0000000000000088#64, 0x0000000080008009#64, 0x000000008000000A#64,
  0x000000008000808B#64, 0x800000000000008B#64, 0x8000000000008089#64,
  0x8000000000008003#64, 0x8000000000008002#64, 0x8000000000000080#64,
  0x000000000000800A#64, 0x800000008000000A#64, 0x8000000080008081#64,
  0x8000000000008080#64, 0x0000000080000001#64, 0x8000000080008008#64]

/-- `keccak_rot` (src/kryptos_keccak.c:21). -/
def rot (a : W64) (r : Nat) : W64 := (a <<< r) ||| (a >>> (64 - r))

/-- The loop filling `C` (src/kryptos_keccak.c:1105-1110). -/
def thetaC (s : List W64) : Out (List W64) :=
  [0, 1, 2, 3, 4].mapM fun x => do
    let c ← rd s (5 * x)
    [1, 2, 3, 4].foldlM (fun c y => do return c ^^^ (← rd s (5 * x + y))) c

/-- Step theta (src/kryptos_keccak.c:1104-1117). -/
def theta (s : List W64) : Out (List W64) := do
  let C ← thetaC s
  [0, 1, 2, 3, 4].foldlM (fun s x => do
    let D := (← rd C ((x + 4) % 5)) ^^^ rot (← rd C ((x + 1) % 5)) 1
    [0, 1, 2, 3, 4].foldlM (fun s y => do wr s (5 * x + y) ((← rd s (5 * x + y)) ^^^ D)) s) s

/-- The local variables of step pi: `x`, `y`, `s_chunk`, and the state. -/
structure PiSt where
  (x y : Nat)
  chunk : W64
  s : List W64

/-- The body of the loop of step pi (src/kryptos_keccak.c:1125-1129). -/
def piStep (st : PiSt) (rOff : Nat) : Out PiSt := do
  let xt := st.y
  let yt := (2 * st.x + 3 * st.y) % 5
  let swp ← rd st.s (5 * xt + yt)
  let s ← wr st.s (5 * xt + yt) (rot st.chunk (← rd rotOffset rOff))
  return ⟨xt, yt, swp, s⟩

/-- Step pi, with the rotations (src/kryptos_keccak.c:1119-1130). -/
def rhoPi (s : List W64) : Out (List W64) := do
  let chunk ← rd s 5
  let st ← [0, 1, 2, 3, 4, 5, 6, 7, 8, 9, 10, 11, 12, 13, 14, 15, 16, 17, 18, 19, 20, 21, 22, 23].foldlM piStep ⟨1, 0, chunk, s⟩
  return st.s

/-- Step chi (src/kryptos_keccak.c:1131-1140). -/
def chi (s : List W64) : Out (List W64) :=
  [0, 1, 2, 3, 4].foldlM (fun s y => do
    let C ← [0, 1, 2, 3, 4].mapM fun x => rd s (5 * x + y)
    [0, 1, 2, 3, 4].foldlM (fun s x => do
      wr s (5 * x + y) ((← rd C x) ^^^ (~~~ (← rd C ((x + 1) % 5)) &&& (← rd C ((x + 2) % 5))))) s) s

/-- The body of the loop over the rounds (src/kryptos_keccak.c:1103-1144). -/
def round (s : List W64) (r : Nat) : Out (List W64) := do
  let s ← theta s
  let s ← rhoPi s
  let s ← chi s
  wr s 0 ((← rd s 0) ^^^ (← rd RC r))

/-- `kryptos_keccak_r1600` (src/kryptos_keccak.c:1097-1150). -/
def r1600 (s : List W64) : Out (List W64) := (List.range 24).foldlM round s

/-- `keccak_pad` (src/kryptos_keccak.c:25-33); `sha3` is `padtype == kKryptosKeccakPaddingSHA3`. -/
def padding (d : Nat) (sha3 : Bool) : Bytes :=
  if d = 1 then [if sha3 then 0x86#8 else 0x81#8]
  else (if sha3 then 0x06#8 else 0x01#8) :: (List.replicate (d - 2) 0x00#8 ++ [0x80#8])

/-- The inner loop of the absorbing phase (src/kryptos_keccak.c:839-851), for the block at offset `mp`. -/
def absorb (m : Bytes) (rw mp : Nat) (s : List W64) : Out (List W64) :=
  (List.range rw).foldlM (fun s off => do
    let b7 ← rd m (mp + 8 * off + 7)
    let b6 ← rd m (mp + 8 * off + 6)
    let b5 ← rd m (mp + 8 * off + 5)
    let b4 ← rd m (mp + 8 * off + 4)
    let b3 ← rd m (mp + 8 * off + 3)
    let b2 ← rd m (mp + 8 * off + 2)
    let b1 ← rd m (mp + 8 * off + 1)
    let b0 ← rd m (mp + 8 * off)
    let x := off % 5
    let y := off / 5
    wr s (5 * x + y) ((← rd s (5 * x + y)) ^^^ be64 b7 b6 b5 b4 b3 b2 b1 b0)) s

/-- The squeezing phase (src/kryptos_keccak.c:858-1082): the assignments of the four sizes follow one pattern; `zp` keeps its zeros for
other sizes. -/
def squeeze (zSize : Nat) (s : List W64) : Out Bytes :=
  if zSize = 28 ∨ zSize = 32 ∨ zSize = 48 ∨ zSize = 64 then
    (List.range zSize).mapM fun i => do
      let w ← rd s (5 * (i / 8 % 5) + i / 8 / 5)
      return ((w >>> (8 * (i % 8))) &&& 0xFF#64).setWidth 8
  else .ok (List.replicate zSize 0)

/-- `kryptos_keccak_sponge_1600` (src/kryptos_keccak.c:803-1095): the loop `while (mp < mp_end)` with its step `b_size` has
`m_size / b_size` iterations, rounded up. -/
def sponge (msg : Bytes) (r c : Nat) (sha3 : Bool) : Out Bytes := do
  let d := r / 8 - msg.length % (r / 8)
  let m := msg ++ padding d sha3
  let bSize := r / 64 * 8
  let rw := r / 64
  let s ← (List.range ((m.length + bSize - 1) / bSize)).foldlM (fun s i => do
    let s ← absorb m rw (i * bSize) s
    r1600 s) (List.replicate 25 0#64)
  squeeze (c / 2 / 8) s

/-- Hexadecimal output of the instances of the hash processor (for instance src/kryptos_keccak.c:158-185 and 227-258): words of eight
bytes and, for 28 bytes, a last one of four. -/
def hexOut (z : Bytes) : Out Bytes := do
  let ws ← (List.range (z.length / 8)).mapM fun i => do
    let w ← getBe64 z (8 * i)
    return toHex 8 w
  if z.length % 8 = 4 then do
    let w ← getBe32 z (8 * (z.length / 8))
    return ws.flatten ++ toHex 4 w
  else return ws.flatten

/-- The hash processors (src/kryptos_keccak.c:125-188, 194-261, 267-350, 356-455, 471-534, 540-607, 613-696, 702-801): the sponge, raw
or as hexadecimal digits. -/
def hash (r c : Nat) (sha3 : Bool) : HashFn := fun m hex => do
  let z ← sponge m r c sha3
  if hex then hexOut z else return z

/-- `kryptos_keccak224_hash` (src/kryptos_keccak.c:125-188). -/
def keccak224 : HashFn := hash 1152 448 false
/-- `kryptos_keccak256_hash` (src/kryptos_keccak.c:194-261). -/
def keccak256 : HashFn := hash 1088 512 false
/-- `kryptos_keccak384_hash` (src/kryptos_keccak.c:267-350). -/
def keccak384 : HashFn := hash 832 768 false
/-- `kryptos_keccak512_hash` (src/kryptos_keccak.c:356-455). -/
def keccak512 : HashFn := hash 576 1024 false
/-- `kryptos_sha3_224_hash` (src/kryptos_keccak.c:471-534). -/
def sha3_224 : HashFn := hash 1152 448 true
/-- `kryptos_sha3_256_hash` (src/kryptos_keccak.c:540-607). -/
def sha3_256 : HashFn := hash 1088 512 true
/-- `kryptos_sha3_384_hash` (src/kryptos_keccak.c:613-696). -/
def sha3_384 : HashFn := hash 832 768 true
/-- `kryptos_sha3_512_hash` (src/kryptos_keccak.c:702-801). -/
def sha3_512 : HashFn := hash 576 1024 true

end Kryptos.Keccak
