import Verif.Model.Blake2
/-
  Model of src/kryptos_argon2.c.

  A block is 1024 bytes in the code.  They are only ever read and written as 128 groups of eight bytes, the most significant first, or added byte by byte;
  the model holds the 128 words.  Failures of allocation and releasing memory are not modelled.  The password, the salt, the key and the associated data are
  valid pointers with their sizes, or NULL with the size 0.
-/
namespace Kryptos.Argon2
open Kryptos.Hash Kryptos.Blake2

/-- `kryptos_argon2_put_u32` (src/kryptos_argon2.c:59-63). -/
def put32 (v : W32) : Bytes := [v.setWidth 8, (v >>> 8).setWidth 8, (v >>> 16).setWidth 8, (v >>> 24).setWidth 8]

/-- The inner loop copying a group of eight bytes backwards (src/kryptos_argon2.c:420-426): at most `room` bytes are copied. -/
def copyGroup (out : Bytes) (o room : Nat) : Out Bytes := (List.range (min 8 room)).mapM fun k => rd out (o + 7 - k)

/-- The loop copying groups (src/kryptos_argon2.c:418-428) into `a`, which has `T` bytes. -/
def copyLoop (out : Bytes) (oEnd T : Nat) : Nat → Nat → Bytes → Out Bytes
  | 0, _, _ => .ub
  | fuel + 1, o, a =>
    if o ≠ oEnd ∧ a.length ≠ T then do
      let g ← copyGroup out o (T - a.length)
      copyLoop out oEnd T fuel (o + 8) (a ++ g)
    else return a

/-- The loop of `kryptos_argon2_H` (src/kryptos_argon2.c:409-454): the output of the last hash, `r_sz` and what was written; `none` is NULL.
(`r_sz` is never below 32 when 32 is taken from it.) -/
def Hloop (T : Nat) : Nat → Bytes → Nat → Bytes → Out (Option Bytes)
  | 0, _, _, _ => .ub
  | fuel + 1, out, r, a =>
    if a.length = T then return some a
    else do
      let a ← copyLoop out (if r > 64 then out.length >>> 1 else out.length) T (T + 1) 0 a
      let r := r - 32
      if a.length = T then return some a
      else do
        let res ← if r > 64 then blake2b512 [] (some out) false else blake2bN [] (some out) r false
        if res.result ≠ .success then return none
        else Hloop T fuel res.out r a

/-- `kryptos_argon2_H` (src/kryptos_argon2.c:365-468). -/
def H (h : Bytes) (T : Nat) : Out (Option Bytes) := do
  let inp := put32 (BitVec.ofNat 32 T) ++ h
  let res ← if T > 64 then blake2b512 [] (some inp) false else blake2bN [] (some inp) T false
  if res.result ≠ .success then return none
  else if T ≤ 64 then return some res.out
  else Hloop T (T + 1) res.out T []

/-- `kryptos_argon2_rr` (src/kryptos_argon2.c:789). -/
def rr (x : W64) (n : Nat) : W64 := (x >>> n) ||| (x <<< (64 - n))

/-- `(a) + (b) + ((kryptos_argon2_xl(a) * kryptos_argon2_xl(b)) << 1)` (src/kryptos_argon2.c:791, 794). -/
def mul (a b : W64) : W64 := a + b + (((a &&& 0xFFFFFFFF#64) * (b &&& 0xFFFFFFFF#64)) <<< 1)

/-- `kryptos_argon2_p` (src/kryptos_argon2.c:793-802). -/
def mix (v : List W64) (a b c d : Nat) : Out (List W64) := do
  let v ← wr v a (mul (← rd v a) (← rd v b))
  let v ← wr v d (rr ((← rd v d) ^^^ (← rd v a)) 32)
  let v ← wr v c (mul (← rd v c) (← rd v d))
  let v ← wr v b (rr ((← rd v b) ^^^ (← rd v c)) 24)
  let v ← wr v a (mul (← rd v a) (← rd v b))
  let v ← wr v d (rr ((← rd v d) ^^^ (← rd v a)) 16)
  let v ← wr v c (mul (← rd v c) (← rd v d))
  wr v b (rr ((← rd v b) ^^^ (← rd v c)) 63)

/-- The eight uses of the former (src/kryptos_argon2.c:804-811); `v` holds `v0` to `v15`. -/
def mixes (v : List W64) : Out (List W64) := do
  let v ← mix v 0 4 8 12
  let v ← mix v 1 5 9 13
  let v ← mix v 2 6 10 14
  let v ← mix v 3 7 11 15
  let v ← mix v 0 5 10 15
  let v ← mix v 1 6 11 12
  let v ← mix v 2 7 8 13
  mix v 3 4 9 14

/-- `kryptos_argon2_P` (src/kryptos_argon2.c:748-852) on the registers `s i`, each of two words of `R`. -/
def permute (s : Nat → Nat) (R : List W64) : Out (List W64) := do
  let v ← (List.range 16).mapM fun i => rd R (2 * s (i / 2) + i % 2)
  let v ← mixes v
  (List.range 16).foldlM (fun R i => do wr R (2 * s (i / 2) + i % 2) (← rd v i)) R

/-- `kryptos_argon2_GB` (src/kryptos_argon2.c:643-746): `old` is what was in `z` if it is to be added (`do_xor`).  The eight calls for the rows are those with the
registers `8 r` to `8 r + 7` (lines 698-705) and those for the columns have `c`, `8 + c`, …, `56 + c` (709-716). -/
def compress (old : Option (List W64)) (x y : List W64) : Out (List W64) := do
  let z ← (List.range 128).mapM fun k => do return (← rd x k) ^^^ (← rd y k)
  let R ← (List.range 8).foldlM (fun R r => permute (fun i => 8 * r + i) R) z
  let R ← (List.range 8).foldlM (fun R c => permute (fun i => 8 * i + c) R) R
  let z ← (List.range 128).mapM fun k => do return (← rd z k) ^^^ (← rd R k)
  match old with
  | none => return z
  | some t => (List.range 128).mapM fun k => do return (← rd z k) ^^^ (← rd t k)

/-- `struct kryptos_argon2_params_ctx` (src/kryptos_argon2.c:72-83) without the position. -/
structure Ctx where
  p : Nat
  t : Nat
  y : Nat
  mm : Nat
  q : Nat
  seg : Nat

/-- The blocks: `none` is one with a NULL pointer. -/
abbrev Mem := List (List (Option (List W64)))

/-- `B[i][j]`; the data behind a NULL pointer cannot be read. -/
def get (B : Mem) (i j : Nat) : Out (List W64) := do
  let row ← rd B i
  match ← rd row j with
  | some b => return b
  | none => .ub

/-- `B[i][j] = b`. -/
def set (B : Mem) (i j : Nat) (b : List W64) : Out Mem := do
  let row ← rd B i
  let row ← wr row j (some b)
  wr B i row

/-- A difference of type `size_t`. -/
def sub64 (a b : Nat) : Nat := (a + (2 ^ 64 - b)) % 2 ^ 64

/-- The word with `J_2` in its first four bytes and `J_1` in the next (src/kryptos_argon2.c:481-499). -/
def word (c : Ctx) (B : Mem) (pr : Option W64) (l j : Nat) : Out W64 :=
  match pr with
  | some w => return w
  | none => do
    let b ← get B l (sub64 j 1 % c.q)
    rd b 0

/-- `kryptos_argon2_get_indexes` (src/kryptos_argon2.c:470-536) from the word on. -/
def indexes (c : Ctx) (w : W64) (r sl l j index : Nat) : Nat × Nat :=
  let J2 := (w >>> 32).toNat
  let J1 := (w &&& 0xFFFFFFFF#64).toNat
  let ii := if r = 0 ∧ sl = 0 then l else J2 % c.p
  let ref :=
    if r = 0 then
      if sl = 0 ∨ l = ii then sub64 j 1
      else if index = 0 then sub64 (sl * c.seg) 1
      else sl * c.seg
    else if l = ii then sub64 (c.q - c.seg + index) 1
    else if index = 0 then sub64 (c.q - c.seg) 1
    else c.q - c.seg
  let rel := (J1 * J1) % 2 ^ 64 / 2 ^ 32
  let rel := sub64 (sub64 ref 1) (ref * rel % 2 ^ 64 / 2 ^ 32)
  let start := if r ≠ 0 ∧ sl ≠ 3 then (sl + 1) * c.seg else 0
  (ii, (start + rel) % 2 ^ 64 % c.q)

/-- The block of addresses (src/kryptos_argon2.c:589-602). -/
def addresses (c : Ctx) (r sl l ctr : Nat) : Out (List W64) := do
  let b := [r, l, sl, c.mm, c.t, c.y, ctr].map (BitVec.ofNat 64) ++ List.replicate 121 0
  let b ← compress none b (List.replicate 128 0)
  compress none b (List.replicate 128 0)

/-- The loop filling `params->pr_buf` (src/kryptos_argon2.c:578-609). -/
def prFill (c : Ctx) (r sl l : Nat) : Nat → Nat → List W64 → Out (List W64)
  | 0, _, pr => if pr.length < c.seg then .ub else return pr
  | fuel + 1, ctr, pr =>
    if pr.length < c.seg then do
      let b ← addresses c r sl l ctr
      prFill c r sl l fuel (ctr + 1) (pr ++ b.take (c.seg - pr.length))
    else return pr

/-- `is_di` (src/kryptos_argon2.c:546). -/
def isDi (c : Ctx) (r sl : Nat) : Bool := c.y = 1 ∨ (c.y = 2 ∧ r = 0 ∧ sl ≤ 1)

/-- What is at `params->next_pr_chunk`. -/
def chunk (pr : Option (List W64)) (next : Nat) : Out (Option W64) :=
  match pr with
  | none => return none
  | some pr => do return some (← rd pr next)

/-- `temp_z`, if the old contents of the block are to be added (src/kryptos_argon2.c:662-666). -/
def oldOf (B : Mem) (r l j : Nat) : Out (Option (List W64)) :=
  if r ≠ 0 then do return some (← get B l j) else return none

/-- One run of the loop over the segment (src/kryptos_argon2.c:619-638): the blocks and the index of `next_pr_chunk`. -/
def body (c : Ctx) (r sl l : Nat) (pr : Option (List W64)) (s : Mem × Nat) (index : Nat) : Out (Mem × Nat) :=
  let j := sl * c.seg + index
  if r = 0 ∧ j < 2 then return s
  else do
    let w ← word c s.1 (← chunk pr s.2) l j
    let (ii, jj) := indexes c w r sl l j index
    let lj := if r = 0 ∨ j ≠ 0 then j - 1 else c.q - 1
    let x ← get s.1 l lj
    let y ← get s.1 ii jj
    let z ← compress (← oldOf s.1 r l j) x y
    let B ← set s.1 l j z
    return (B, s.2 + 1)

/-- `params->pr_buf` for the segment. -/
def prOf (c : Ctx) (r sl l : Nat) : Out (Option (List W64)) :=
  if isDi c r sl then do return some (← prFill c r sl l c.seg 1 []) else return none

/-- `kryptos_argon2_G` (src/kryptos_argon2.c:538-641). -/
def segment (c : Ctx) (r sl : Nat) (B : Mem) (l : Nat) : Out Mem := do
  let pr ← prOf c r sl l
  let s ← (List.range c.seg).foldlM (body c r sl l pr) (B, 0)
  return s.1

/-- The loops over the passes, the segments and the lanes (src/kryptos_argon2.c:273-279). -/
def fillAll (c : Ctx) (B : Mem) : Out Mem :=
  (List.range c.t).foldlM (fun B r => (List.range 4).foldlM (fun B sl => (List.range c.p).foldlM (segment c r sl) B) B) B

/-- The words of a block given as bytes. -/
def words (a : Bytes) : Out (List W64) := (List.range 128).mapM fun k => getBe64 a (8 * k)

/-- `B[i][j].data = kryptos_argon2_H(buffer, …)` (src/kryptos_argon2.c:231-245). -/
def firstBlock (H0 : Bytes) (B : Mem) (i j : Nat) : Out Mem := do
  match ← H (H0 ++ put32 (BitVec.ofNat 32 j) ++ put32 (BitVec.ofNat 32 i)) 1024 with
  | none => .ub
  | some a => set B i j (← words a)

/-- The loop for the first two blocks of every lane (src/kryptos_argon2.c:231-245). -/
def firstBlocks (H0 : Bytes) (p : Nat) (B : Mem) : Out Mem :=
  (List.range p).foldlM (fun B i => do firstBlock H0 (← firstBlock H0 B i 0) i 1) B

/-- Adding the last column and reversing groups of bytes (src/kryptos_argon2.c:281-312).  Without an iteration the blocks are NULL and what is hashed
has no value. -/
def lastColumn (c : Ctx) (B : Mem) : Out Bytes := do
  let b ← get B 0 (c.q - 1)
  let b ← (List.range (c.p - 1)).foldlM (fun b i => do
    let y ← get B (i + 1) (c.q - 1)
    (List.range 128).mapM fun k => do return (← rd b k) ^^^ (← rd y k)) b
  return b.flatMap fun w => (cpyBe 8 w).reverse

/-- `kryptos_argon2_check_size_bounds` (src/kryptos_argon2.c:57). -/
def inBounds (v floor ceil : Nat) : Bool := v = 0 ∨ (v ≥ floor ∧ v ≤ ceil)

/-- The first bytes hashed (src/kryptos_argon2.c:147-179). -/
def h0Input (password salt key ad : Bytes) (p T m t y : Nat) : Bytes :=
  let u := fun n => put32 (BitVec.ofNat 32 n)
  u p ++ u T ++ u m ++ u t ++ u 0x13 ++ u y ++ u password.length ++ password ++ u salt.length ++ salt ++ u key.length ++ key ++ u ad.length ++ ad

/-- The checks (src/kryptos_argon2.c:125-132). -/
def checks (password salt key ad : Bytes) (p T m t : Nat) : Bool :=
  inBounds password.length 0 0x1FFFFFFF && inBounds salt.length 0 0x1FFFFFFF && inBounds p 1 0x00FFFFFF && inBounds T 1 0x1FFFFFFF &&
    inBounds m (p * 8) 0x1FFFFFFF && inBounds t 1 0x1FFFFFFF && inBounds key.length 0 0x1FFFFFFF && inBounds ad.length 0 0x1FFFFFFF

/-- `kryptos_do_argon2` (src/kryptos_argon2.c:102-363): `none` is NULL.  Dividing by the parallelism 0 is undefined. -/
def argon2 (password salt key ad : Bytes) (p T m t y : Nat) : Out (Option Bytes) :=
  if checks password salt key ad p T m t then do
    let res ← blake2b512 [] (some (h0Input password salt key ad p T m t y)) false
    if res.result ≠ .success then return none
    else if p = 0 then .ub
    else do
      let mm := m / (p * 4) * (p * 4)
      let q := mm / p
      let c : Ctx := ⟨p, t, y, mm, q, q / 4⟩
      let B ← firstBlocks res.out p (List.replicate p (List.replicate q none))
      let B ← fillAll c B
      let C ← lastColumn c B
      H C T
  else return none

end Kryptos.Argon2
