import Verif.Model.Sha1
/-
  Model of src/kryptos_seal.c: SEAL 2.0 and 3.0.

  Arrays that are filled from their beginning are lists of what has been written so far: reading further is undefined, and so is
  writing at the capacity of the array.  The output is written through a pointer and is a list with the capacity of the input.
-/
namespace Kryptos.Seal
open Hash

/-- Writing to the first entry of an array of `cap` entries that was not written to before. -/
def push (cap : Nat) (l : List W32) (x : W32) : Out (List W32) := if l.length < cap then return l ++ [x] else .ub

/-- `kryptos_seal_roll` (src/kryptos_seal.c:23). -/
def roll (x : W32) (s : Nat) : W32 := x <<< s ||| x >>> (32 - s)

/-- `kryptos_seal_rolr` (src/kryptos_seal.c:24). -/
def rolr (x : W32) (s : Nat) : W32 := x >>> s ||| x <<< (32 - s)

/-- `kryptos_seal_f`, `kryptos_seal_g`, `kryptos_seal_h` (src/kryptos_seal.c:16-18). -/
def f (B C D : W32) : W32 := (B &&& C) ||| (~~~B &&& D)
def g (B C D : W32) : W32 := (B &&& C) ||| (B &&& D) ||| (C &&& D)
def h (B C D : W32) : W32 := B ^^^ C ^^^ D

/-- The expansion (src/kryptos_seal.c:82-84). -/
def sched (X : List W32) (w : Nat) : Out W32 := do
  let a ← rd X (w - 3)
  let b ← rd X (w - 8)
  let c ← rd X (w - 14)
  let d ← rd X (w - 16)
  return roll (a ^^^ b ^^^ c ^^^ d) 1

/-- The body of a round (src/kryptos_seal.c:95-100, 105-110, 115-120, 125-130). -/
def step (F : W32 → W32 → W32 → W32) (Y : W32) (X : List W32) (w : Nat) (s : Five 32) : Out (Five 32) := do
  let x ← rd X w
  return ⟨roll s.a 5 + F s.b s.c s.d + s.e + x + Y, s.a, roll s.b 30, s.c, s.d⟩

/-- `kryptos_seal_ga` (src/kryptos_seal.c:72-142). -/
def ga (a : Five 32) (i : Nat) : Out (Five 32) := do
  let X ← expand sched 64 (BitVec.ofNat 32 i :: List.replicate 15 0)
  let s ← forLoop (step f 0x5a827999#32 X) 20 0 a
  let s ← forLoop (step h 0x6ed9eba1#32 X) 20 20 s
  let s ← forLoop (step g 0x8f1bbcdc#32 X) 20 40 s
  let s ← forLoop (step h 0xca62c1d6#32 X) 20 60 s
  return ⟨a.a + s.a, a.b + s.b, a.c + s.c, a.d + s.d, a.e + s.e⟩

/-- The loop over the bytes of the key in `kryptos_seal_ld_userkey` (src/kryptos_seal.c:155-160): the state, `s` and `k`. -/
def ldLoop : Bytes → List W32 → Nat → Nat → Out (List W32 × Nat × Nat)
  | [], st, s, k => return (st, s, k)
  | y :: key, st, s, k => do
    let x ← rd st s
    let st ← wr st s (x <<< 8 ||| y.setWidth 32)
    ldLoop key st (if (k + 1) % 4 = 0 then (s + 1) % 5 else s) (k + 1)

/-- `while (((k) % 4) != 0) { state[s] = state[s] << 4; k++; }` (src/kryptos_seal.c:162-165), at most three times. -/
def ldTail : Nat → List W32 → Nat → Nat → Out (List W32)
  | 0, st, _, _ => return st
  | fuel + 1, st, s, k =>
    if k % 4 ≠ 0 then do
      let x ← rd st s
      let st ← wr st s (x <<< 4)
      ldTail fuel st s (k + 1)
    else return st

/-- `kryptos_seal_ld_userkey` (src/kryptos_seal.c:144-166) for a state of five words. -/
def ldUserkey (key : Bytes) : Out (Five 32) := do
  let (st, s, k) ← ldLoop key (List.replicate 5 0) 0 0
  let st ← ldTail 3 st s k
  let a ← rd st 0
  let b ← rd st 1
  let c ← rd st 2
  let d ← rd st 3
  let e ← rd st 4
  return ⟨a, b, c, d, e⟩

/-- The `do` loop filling `T` (src/kryptos_seal.c:196-199); it ends after at most five runs. -/
def tRow (o : List W32) : Nat → List W32 → Out (List W32)
  | 0, _ => .ub
  | fuel + 1, T => do
    let x ← rd o (T.length % 5)
    let T ← push 512 T x
    if T.length % 5 ≠ 0 ∧ T.length < 512 then tRow o fuel T else return T

/-- The loop filling `T` (src/kryptos_seal.c:194-200), `103 - i` being the fuel. -/
def tLoop (a : Five 32) : Nat → Nat → List W32 → Out (List W32)
  | 0, _, T => return T
  | fuel + 1, i, T =>
    if T.length < 512 then do
      let o ← ga a i
      let T ← tRow o.words 5 T
      tLoop a fuel (i + 1) T
    else return T

/-- The inner loop filling `S` (src/kryptos_seal.c:211-213), `5 - p` being the fuel. -/
def sRow (o : List W32) : Nat → Nat → List W32 → Out (List W32)
  | 0, _, S => return S
  | fuel + 1, p, S =>
    if S.length < 256 then do
      let x ← rd o p
      let S ← push 256 S x
      sRow o fuel (p + 1) S
    else return S

/-- The loop filling `S` (src/kryptos_seal.c:209-214), `52 - i` being the fuel. -/
def sLoop (a : Five 32) : Nat → Nat → List W32 → Out (List W32)
  | 0, _, S => return S
  | fuel + 1, i, S =>
    if S.length < 256 then do
      let o ← ga a (819 + i)
      let S ← sRow o.words 5 0 S
      sLoop a fuel (i + 1) S
    else return S

/-- The number of entries of `R` (src/kryptos_seal.c:176). -/
def rCap : Nat := 4 * ((0xffffff - 1) / 8192) - 1

/-- Five entries of `R` (src/kryptos_seal.c:230-234). -/
def rRow (o : Five 32) (R : List W32) : Out (List W32) := o.words.foldlM (push rCap) R

/-- The loop filling `R` (src/kryptos_seal.c:228-235), for `until - 1` values of `i`. -/
def rLoop (a : Five 32) : Nat → Nat → List W32 → Out (List W32)
  | 0, _, R => return R
  | fuel + 1, i, R => do
    let o ← ga a (1638 + i)
    let R ← rRow o R
    rLoop a fuel (i + 1) R

/-- The tables. -/
structure Tabs where
  T : List W32
  S : List W32
  R : List W32

/-- Filling the tables (src/kryptos_seal.c:194-235).  `until` is -1 for `L` of at most 8192 (the conversion to int of 2^32 - 1), and then the last
loop is not run, which is the case too for 0 here. -/
def tables (a : Five 32) (L : W32) : Out Tabs := do
  let T ← tLoop a 103 0 []
  let o ← ga a 819
  let S ← sLoop a 51 1 [o.b, o.c, o.d, o.e]
  let til := (((L - 1) >>> 13) <<< 2).toNat - 1
  let o ← ga a 1638
  let o2 ← ga a 1639
  let R ← rLoop a (til - 1) 2 ([o.c, o.d, o.e] ++ o2.words)
  return ⟨T, S, R⟩

/-- The registers. -/
structure Regs where
  A : W32
  B : W32
  C : W32
  D : W32

/-- `T[(x & 0x7fc) >> 2]`. -/
def look (T : List W32) (x : W32) : Out W32 := rd T ((x &&& 0x7fc#32) >>> 2).toNat

/-- Four lines of `kryptos_seal_initialize` (src/kryptos_seal.c:31-34, 35-38, 40-43). -/
def stir (T : List W32) (r : Regs) : Out Regs := do
  let t ← look T r.A
  let B := r.B + t
  let A := rolr r.A 9
  let t ← look T B
  let C := r.C + t
  let B := rolr B 9
  let t ← look T C
  let D := r.D + t
  let C := rolr C 9
  let t ← look T D
  let A := A + t
  let D := rolr D 9
  return ⟨A, B, C, D⟩

/-- `kryptos_seal_initialize` (src/kryptos_seal.c:26-43): the registers, and those from which `n1 = D`, `n2 = B`, `n3 = A`, `n4 = C` are taken. -/
def initRegs (n : W32) (l : Nat) (R T : List W32) : Out (Regs × Regs) := do
  let r0 ← rd R (l <<< 2)
  let r1 ← rd R ((l <<< 2) + 1)
  let r2 ← rd R ((l <<< 2) + 2)
  let r3 ← rd R ((l <<< 2) + 3)
  let r ← stir T ⟨n ^^^ r0, rolr n 8 ^^^ r1, rolr n 16 ^^^ r2, rolr n 24 ^^^ r3⟩
  let x ← stir T r
  let r ← stir T x
  return (r, x)

/-- The eight lines of an iteration (src/kryptos_seal.c:246-254). -/
def lines (T : List W32) (r : Regs) : Out Regs := do
  let P := r.A &&& 0x7fc#32
  let t ← rd T (P >>> 2).toNat
  let B := r.B + t
  let A := rolr r.A 9
  let B := B ^^^ A
  let Q := B &&& 0x7fc#32
  let t ← rd T (Q >>> 2).toNat
  let C := r.C ^^^ t
  let B := rolr B 9
  let C := C + B
  let P := (P + C) &&& 0x7fc#32
  let t ← rd T (P >>> 2).toNat
  let D := r.D + t
  let C := rolr C 9
  let D := D ^^^ C
  let Q := (Q + D) &&& 0x7fc#32
  let t ← rd T (Q >>> 2).toNat
  let A := A ^^^ t
  let D := rolr D 9
  let A := A + D
  let P := (P + A) &&& 0x7fc#32
  let t ← rd T (P >>> 2).toNat
  let B := B ^^^ t
  let A := rolr A 9
  let Q := (Q + B) &&& 0x7fc#32
  let t ← rd T (Q >>> 2).toNat
  let C := C + t
  let B := rolr B 9
  let P := (P + C) &&& 0x7fc#32
  let t ← rd T (P >>> 2).toNat
  let D := D ^^^ t
  let C := rolr C 9
  let Q := (Q + D) &&& 0x7fc#32
  let t ← rd T (Q >>> 2).toNat
  let A := A + t
  let D := rolr D 9
  return ⟨A, B, C, D⟩

/-- The end of an iteration (src/kryptos_seal.c:267-295).  The version is 2 or 3 (src/kryptos_seal.h:15). -/
def feed (version : Nat) (x : Regs) (i : Nat) (r : Regs) : Regs :=
  if i &&& 1 ≠ 0 then
    if version = 2 then ⟨r.A + x.D, r.B, r.C + x.B, r.D⟩ else ⟨r.A + x.D, r.B + x.B, r.C ^^^ x.D, r.D ^^^ x.B⟩
  else
    if version = 2 then ⟨r.A + x.A, r.B, r.C + x.C, r.D⟩ else ⟨r.A + x.A, r.B + x.C, r.C ^^^ x.A, r.D ^^^ x.C⟩

/-- Writing up to four words (src/kryptos_seal.c:256-265). -/
def put4 (LL p : Nat) (S : List W32) (i : Nat) (r : Regs) (ks : List W32) : Out (List W32) := do
  let s ← rd S ((i <<< 2) - 4)
  let ks ← push 0xffff ks (r.B + s)
  if p + 1 < LL then do
    let s ← rd S ((i <<< 2) - 3)
    let ks ← push 0xffff ks (r.C ^^^ s)
    if p + 2 < LL then do
      let s ← rd S ((i <<< 2) - 2)
      let ks ← push 0xffff ks (r.D + s)
      if p + 3 < LL then do
        let s ← rd S ((i <<< 2) - 1)
        push 0xffff ks (r.A ^^^ s)
      else return ks
    else return ks
  else return ks

/-- The inner loop (src/kryptos_seal.c:245-297), `65 - i` being the fuel: the key stream and `p`. -/
def inner (version LL : Nat) (tb : Tabs) (x : Regs) : Nat → Nat → Nat → Regs → List W32 → Out (List W32 × Nat)
  | 0, _, p, _, ks => return (ks, p)
  | fuel + 1, i, p, r, ks =>
    if p < LL then do
      let r ← lines tb.T r
      let ks ← put4 LL p tb.S i r ks
      inner version LL tb x fuel (i + 1) (p + 4) (feed version x i r) ks
    else return (ks, p)

/-- The outer loop (src/kryptos_seal.c:243-298).  Every run adds to `p`, so that `LL` runs are enough. -/
def outer (version LL : Nat) (tb : Tabs) (n : W32) : Nat → Nat → Nat → List W32 → Out (List W32)
  | 0, _, p, ks => if p < LL then .ub else return ks
  | fuel + 1, l, p, ks =>
    if p < LL then do
      let (r, x) ← initRegs n l tb.R tb.T
      let (ks, p) ← inner version LL tb x 64 1 p r ks
      outer version LL tb n fuel (l + 1) p ks
    else return ks

/-- `kryptos_seal_keystream` (src/kryptos_seal.c:168-341).  With an unknown version nothing is written, and the caller reads a local variable that has
no value.  (`L >> 5` is never above the limit tested.) -/
def keystream (version : Nat) (key : Bytes) (n L : W32) : Out (List W32) :=
  if version ≠ 2 ∧ version ≠ 3 then .ub
  else do
    let a ← ldUserkey key
    let tb ← tables a L
    let LL := (L >>> 5).toNat
    outer version LL tb n LL 0 0 []

/-- State of `kryptos_seal_cipher`: `inblock[0..w-1]`, `inblock[w]`, `b`, what was written to the output, `n`. -/
structure St where
  words : List W32
  x : W32
  b : Nat
  out : Bytes
  n : W32

/-- `inblock[w] <<= 8` for `t` from `b` to 3 (src/kryptos_seal.c:458-464). -/
def align (x : W32) (b : Nat) : W32 := if b > 0 then (List.range (4 - b)).foldl (fun x _ => x <<< 8) x else x

/-- The bytes of a word. -/
def bytes4 (w : W32) : Bytes := [(w >>> 24).setWidth 8, (w >>> 16).setWidth 8, (w >>> 8).setWidth 8, w.setWidth 8]

/-- `inblock[k]`, which is zero behind the words read. -/
def inAt (inb : List W32) (k : Nat) : Out W32 := if k < inb.length then rd inb k else pure 0

/-- The part of `kryptos_seal_cipher` from the label `apply_xor` (src/kryptos_seal.c:457-510), for an output of `cap` bytes. -/
def apply (version : Nat) (key : Bytes) (wordsize cap : Nat) (s : St) : Out St := do
  let w := s.words.length
  let inb := if w < wordsize then s.words ++ [align s.x s.b] else s.words
  let ks ← keystream version key s.n (BitVec.ofNat 32 wordsize <<< 5)
  let outblock ← (List.range wordsize).mapM fun k => do
    let y ← rd ks k
    let x ← inAt inb k
    return x ^^^ y
  let w := if w < wordsize then w + 1 else w
  let ws ← (List.range (w - 1)).mapM fun t => rd outblock t
  let out := (s.out ++ ws.flatMap bytes4).take cap
  let last ← rd outblock (w - 1)
  let tail := (bytes4 last).take (if s.b = 0 then 4 else s.b)
  if out.length + tail.length > cap then .ub
  else return ⟨[], 0, 0, out ++ tail, s.n + 1⟩

/-- The loop over the input (src/kryptos_seal.c:453-512 with 422-428). -/
def loop (version : Nat) (key : Bytes) (wordsize cap : Nat) : Bytes → St → Out St
  | [], s => return s
  | y :: rest, s =>
    if s.words.length ≥ 0xffff then .ub
    else
      let s := { s with x := s.x <<< 8 ||| y.setWidth 32, b := (s.b + 1) % 4 }
      if rest = [] then apply version key wordsize cap s
      else
        let s := if s.b = 0 then { s with words := s.words ++ [s.x], x := 0 } else s
        if s.words.length = wordsize then do
          let s ← apply version key wordsize cap s
          loop version key wordsize cap rest s
        else loop version key wordsize cap rest s

/-- The result and the output of a task. -/
structure Res where
  result : TaskResult
  out : Bytes
  deriving DecidableEq

/-- `kryptos_seal_cipher` (src/kryptos_seal.c:354-527) behind `kryptos_task_check`: `none` is a NULL argument.  `n` is the word that is read through the
pointer (the low half of what `kryptos_seal_setup` is given on a little-endian machine). -/
def cipher (key : Bytes) (version wordsize : Option Nat) (n : Option W32) (input : Bytes) : Out Res :=
  match version, wordsize with
  | none, _ => return ⟨.invalidParams, []⟩
  | some _, none => return ⟨.invalidParams, []⟩
  | some version, some wordsize =>
    if wordsize < 1 ∨ wordsize > 0xffff then return ⟨.invalidParams, []⟩
    else do
      let s ← loop version key wordsize input.length input ⟨[], 0, 0, [], n.getD 0⟩
      return ⟨.success, s.out⟩

end Kryptos.Seal
