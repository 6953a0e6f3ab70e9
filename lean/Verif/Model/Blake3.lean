import Verif.Model.Blake2
/-
  Model of src/kryptos_blake3.c: hash, keyed hash and key derivation with BLAKE3.

  `strict` tells whether shifting a 32-bit word by 32 places is undefined, as standard C has it, or leaves the word as it was, as the usual
  processors do; it is met with inputs of no bytes only.  Failures of allocation are not modelled.  The message words, which
  `kryptos_blake3_COMPRESS` leaves permuted, are overwritten before they are read again and are not part of its result.
-/
namespace Kryptos.Blake3
open Kryptos.Hash

/-- `kryptos_blake3_IV` (src/kryptos_blake3.c:61-64). -/
def iv : List W32 := [0x6A09E667#32, 0xBB67AE85#32, 0x3C6EF372#32, 0xA54FF53A#32, 0x510E527F#32, 0x9B05688C#32, 0x1F83D9AB#32, 0x5BE0CD19#32]

/-- `kryptos_blake3_mode_t` (src/kryptos_blake3.c:66-71). -/
inductive BMode where
  | hash | keyed | derive1 | derive2
  deriving DecidableEq, Repr

/-- The flags (src/kryptos_blake3.c:222-228). -/
def CHUNK_START : W32 := 1
def CHUNK_END : W32 := 2
def PARENT : W32 := 4
def ROOT : W32 := 8
def KEYED_HASH : W32 := 16
def DERIVE_KEY_CONTEXT : W32 := 32
def DERIVE_KEY_MATERIAL : W32 := 64

/-- `struct kryptos_blake3_ctx` (src/kryptos_blake3.c:90-115), without the scratch `tm`, the input and the output; `getR` is
`pc_state == kBLAKE3PCGetR`, the stack has its top in front. -/
structure Ctx where
  mode : BMode
  wanted : Nat
  cur : Nat
  h : List W32
  v : List W32
  k : List W32
  m : List W32
  hh : List W32
  vv : List W32
  mm : List W32
  t : W64
  b : W32
  d : W32
  stack : List (List W32)
  getR : Bool
  chunkNr : Nat

/-- `kryptos_blake3_RSH` (src/kryptos_blake3.c:119). -/
def rsh (v : W32) (l : Nat) : W32 := (v <<< (32 - l)) ||| (v >>> l)

/-- `kryptos_blake3_G` (src/kryptos_blake3.c:121-130) applied to `v[a]`, `v[b]`, `v[c]`, `v[d]`, `&m[j]`. -/
def G (m : List W32) (v : List W32) (a b c d j : Nat) : Out (List W32) := do
  let v ← wr v a ((← rd v a) + (← rd v b) + (← rd m j))
  let v ← wr v d (rsh ((← rd v d) ^^^ (← rd v a)) 16)
  let v ← wr v c ((← rd v c) + (← rd v d))
  let v ← wr v b (rsh ((← rd v b) ^^^ (← rd v c)) 12)
  let v ← wr v a ((← rd v a) + (← rd v b) + (← rd m (j + 1)))
  let v ← wr v d (rsh ((← rd v d) ^^^ (← rd v a)) 8)
  let v ← wr v c ((← rd v c) + (← rd v d))
  wr v b (rsh ((← rd v b) ^^^ (← rd v c)) 7)

/-- `kryptos_blake3_ROUND` (src/kryptos_blake3.c:132-141). -/
def round (v m : List W32) : Out (List W32) := do
  let v ← G m v 0 4 8 12 0
  let v ← G m v 1 5 9 13 2
  let v ← G m v 2 6 10 14 4
  let v ← G m v 3 7 11 15 6
  let v ← G m v 0 5 10 15 8
  let v ← G m v 1 6 11 12 10
  let v ← G m v 2 7 8 13 12
  G m v 3 4 9 14 14

/-- `kryptos_blake3_PERM` (src/kryptos_blake3.c:143-162). -/
def perm (m : List W32) : Out (List W32) := [2, 6, 3, 10, 7, 0, 4, 13, 1, 11, 12, 5, 9, 14, 15, 8].mapM fun i => rd m i

/-- The seven rounds of `kryptos_blake3_COMPRESS` (src/kryptos_blake3.c:165-177). -/
def rounds (v m : List W32) : Out (List W32) := do
  let v ← round v m
  let m ← perm m
  let v ← round v m
  let m ← perm m
  let v ← round v m
  let m ← perm m
  let v ← round v m
  let m ← perm m
  let v ← round v m
  let m ← perm m
  let v ← round v m
  let m ← perm m
  round v m

/-- `kryptos_blake3_COMPRESS` (src/kryptos_blake3.c:164-202): the new `v`; the new `h` is its first half. -/
def compress (v m h : List W32) : Out (List W32) := do
  let v ← rounds v m
  let lo ← (List.range 8).mapM fun i => do return (← rd v i) ^^^ (← rd v (i + 8))
  let hi ← (List.range 8).mapM fun i => do return (← rd v (i + 8)) ^^^ (← rd h i)
  return lo ++ hi

/-- `kryptos_blake3_COMPRESS(data)`. -/
def Ctx.compress (c : Ctx) : Out Ctx := do
  let v ← Blake3.compress c.v c.m c.h
  return { c with v := v, h := v.take 8 }

/-- `kryptos_blake3_save_ctx_regs` (src/kryptos_blake3.c:208-212). -/
def Ctx.save (c : Ctx) : Ctx := { c with hh := c.h, vv := c.v, mm := c.m }

/-- The bytes of a word as `kryptos_blake3_get_sum` writes them (for instance src/kryptos_blake3.c:953-956). -/
def bytes4 (w : W32) : Bytes :=
  [(w &&& 0xFF#32).setWidth 8, ((w >>> 8) &&& 0xFF#32).setWidth 8, ((w >>> 16) &&& 0xFF#32).setWidth 8, (w >>> 24).setWidth 8]

/-- Eight words from `v[i]` on, written to `op`: the bytes written so far, of `outSize` that there are. -/
def emit (outSize : Nat) (c : Ctx) (i : Nat) (op : Bytes) : Out Bytes := do
  let ws ← (List.range 8).mapM fun j => rd c.v (i + j)
  if op.length + 32 ≤ outSize then return op ++ ws.flatMap bytes4 else .ub

/-- The loop of `kryptos_blake3_get_sum` (src/kryptos_blake3.c:952-1035).  The fuel is the size of the output; every iteration writes to it. -/
def sumLoop (outSize : Nat) : Nat → Ctx → Bytes → Out (Ctx × Bytes)
  | 0, _, _ => .ub
  | fuel + 1, c, op => do
    let op ← emit outSize c 0 op
    let c := { c with cur := c.cur + 32 }
    if c.cur < c.wanted ∧ op.length < outSize then do
      let op ← emit outSize c 8 op
      let c := { c with cur := c.cur + 32 }
      if c.cur > c.wanted ∨ op.length ≥ outSize then return (c, op)
      else do
        let v ← wr c.vv 12 ((c.t &&& 0xFFFFFFFF#64).setWidth 32)
        let v ← wr v 13 ((c.t >>> 32).setWidth 32)
        let c ← ({ c with h := c.hh, v := v, m := c.mm } : Ctx).compress
        sumLoop outSize fuel { c with t := c.t + 1 } op
    else return (c, op)

/-- `kryptos_blake3_get_sum` (src/kryptos_blake3.c:934-1038). -/
def getSum (outSize : Nat) (c : Ctx) : Out (Ctx × Bytes) :=
  if outSize = 0 ∨ c.wanted = 0 then return (c, []) else sumLoop outSize outSize { c with t := 1 } []

/-- The flags of a parent (src/kryptos_blake3.c:853 and 874-883). -/
def parentFlags (mode : BMode) (root : Bool) : W32 :=
  let d := if root then PARENT ||| ROOT else PARENT
  match mode with
  | .hash => d
  | .keyed => d ||| KEYED_HASH
  | .derive1 => d ||| DERIVE_KEY_CONTEXT
  | .derive2 => d ||| DERIVE_KEY_MATERIAL

/-- `kryptos_blake3_pc_compress` (src/kryptos_blake3.c:842-896); an empty stack is an error, reported here as `none`. -/
def pcCompress (c : Ctx) (isEnd : Bool) : Out (Option Ctx) :=
  match c.stack with
  | r :: l :: stack => do
    let iv4 ← (List.range 4).mapM fun i => rd iv i
    let d := parentFlags c.mode (decide (isEnd = true ∧ stack = []))
    let c := { c with h := c.k, v := c.k ++ iv4 ++ [0, 0, 64, d], m := l ++ r, stack := stack }
    let c := if d &&& ROOT ≠ 0 then c.save else c
    let c ← c.compress
    return some { c with stack := c.h :: c.stack }
  | _ => return none

/-- The loop of `kryptos_blake3_pc_do_compress` (src/kryptos_blake3.c:831-837).  The fuel is the depth of the stack, from which every iteration takes one. -/
def pcLoop (isEnd : Bool) : Nat → Nat → Ctx → Out (Option Ctx)
  | 0, _, c => return some c
  | fuel + 1, temp, c =>
    if temp &&& 1 = 0 ∧ c.stack.length ≥ 2 then do
      match ← pcCompress c isEnd with
      | some c => pcLoop isEnd fuel (temp >>> 1) c
      | none => return none
    else return some c

/-- `kryptos_blake3_pc_do_compress` (src/kryptos_blake3.c:818-840). -/
def pcDoCompress (c : Ctx) (isEnd : Bool) : Out (Option Ctx) := do
  let temp := c.chunkNr >>> 1
  match ← pcCompress c isEnd with
  | some c => pcLoop isEnd c.stack.length temp c
  | none => return none

/-- `kryptos_blake3_flush_pc_stack` (src/kryptos_blake3.c:784-816); it reports success always. -/
def flush (c : Ctx) (isEnd : Bool) : Out Ctx := do
  let c := { c with stack := c.h :: c.stack, chunkNr := c.chunkNr + 1 }
  if c.getR then do
    match ← pcDoCompress c isEnd with
    | some c => return { c with getR := false }
    | none => return c
  else return { c with getR := true }

/-- The loop merging what is left on the stack (src/kryptos_blake3.c:747-753). -/
def mergeLoop : Nat → Ctx → Out (Option Ctx)
  | 0, c => return some c
  | fuel + 1, c =>
    if c.stack.length ≥ 2 then do
      match ← pcDoCompress c true with
      | some c => mergeLoop fuel c
      | none => return none
    else return some c

/-- `while (data->out_size % KRYPTOS_BLAKE3_HASH_SIZE) data->out_size++;` (src/kryptos_blake3.c:529-532 and 755-758). -/
def outSizeOf (wanted : Nat) : Nat := (wanted + 31) / 32 * 32

/-- `kryptos_blake3_do_parents` (src/kryptos_blake3.c:737-782): the context and, at the end of the input, the output (`none` is NULL). -/
def doParents (c : Ctx) (isEnd : Bool) : Out (Ctx × Option Bytes) := do
  let c ← flush c isEnd
  if isEnd ∧ c.mode ≠ .derive1 then do
    match ← mergeLoop c.stack.length c with
    | some c => do
      let (c, out) ← getSum (outSizeOf c.wanted) c
      return ({ c with stack := [] }, some out)
    | none => return (c, none)
  else return (if isEnd then { c with stack := [] } else c, none)

/-- State of the loop of `kryptos_blake3_do_chunks`: the bytes between `ip` and `ip_end`, `mi`, `block_nr`, the output. -/
structure St where
  c : Ctx
  ip : Bytes
  mi : Nat
  blockNr : Nat
  out : Option Bytes

/-- `m[mi] <<= ((sizeof(kryptos_u32_t) - delta_off) << 3)` (src/kryptos_blake3.c:646). -/
def shiftUp (strict : Bool) (x : W32) (delta : Nat) : Out W32 :=
  if delta = 0 then (if strict then .ub else return x) else return x <<< ((4 - delta) <<< 3)

/-- Reading a word (src/kryptos_blake3.c:634-650). -/
def readWord (strict : Bool) (s : St) : Out St :=
  if s.ip.length ≥ 4 then do
    let x ← getLe32 s.ip 0
    let m ← wr s.c.m s.mi x
    return { s with c := { s.c with m := m, b := s.c.b + 4 }, ip := s.ip.drop 4, mi := s.mi + 1 }
  else do
    let delta := s.ip.length
    let x ← rd s.c.m s.mi
    let x ← shiftUp strict (s.ip.foldl (fun (x : W32) (y : Byte) => (x <<< 8) ||| y.setWidth 32) x) delta
    let m ← wr s.c.m s.mi (rev32 x)
    return { s with c := { s.c with m := m, b := s.c.b + BitVec.ofNat 32 delta }, ip := [], mi := 16, blockNr := 15 }

/-- The flag of a mode, as set at the beginning of every chunk (src/kryptos_blake3.c:543-602 and 702-709). -/
def modeFlag : BMode → W32
  | .hash => 0
  | .keyed => KEYED_HASH
  | .derive1 => DERIVE_KEY_CONTEXT
  | .derive2 => DERIVE_KEY_MATERIAL

/-- Compressing a block (src/kryptos_blake3.c:653-673). `small` is `in_size <= 1024`. -/
def compressBlock (small : Bool) (s : St) : Out St := do
  let blockNr := s.blockNr + 1
  let d := if blockNr = 16 ∨ s.ip = [] then s.c.d ||| CHUNK_END else s.c.d
  let d := if s.ip = [] ∧ small then d ||| ROOT else d
  let iv4 ← (List.range 4).mapM fun i => rd iv i
  let c := { s.c with d := d, v := s.c.v.take 8 ++ iv4 ++ [(s.c.t &&& 0xFFFFFFFF#64).setWidth 32, (s.c.t >>> 32).setWidth 32, s.c.b, d] }
  let c := if d &&& ROOT ≠ 0 then c.save else c
  let c ← c.compress
  return { s with c := c, blockNr := blockNr }

/-- Taking the output of a single chunk (src/kryptos_blake3.c:674-693).  `direct` is `op != NULL`. -/
def sumStep (direct : Bool) (s : St) : Out St :=
  if direct ∧ s.c.d &&& ROOT ≠ 0 then do
    let (c, out) ← getSum (outSizeOf s.c.wanted) s.c
    return { s with c := c, out := some out }
  else return s

/-- Parents, unless there is a single chunk (src/kryptos_blake3.c:695-698). -/
def parentStep (direct : Bool) (s : St) : Out St :=
  if direct then return s
  else do
    let (c, out) ← doParents s.c (s.ip = [])
    return { s with c := c, out := out }

/-- The end of a chunk (src/kryptos_blake3.c:694-723). -/
def chunkStep (direct : Bool) (s : St) : Out St :=
  if s.blockNr = 16 ∨ s.ip = [] then do
    let s ← parentStep direct s
    let c := { s.c with t := s.c.t + 1, d := CHUNK_START ||| modeFlag s.c.mode }
    let c := if s.ip ≠ [] then { c with v := c.k ++ c.v.drop 8, h := c.k } else c
    return { s with c := c, blockNr := 0 }
  else return s

/-- After a block (src/kryptos_blake3.c:674-729). -/
def afterBlock (direct : Bool) (s : St) : Out St := do
  let s ← sumStep direct s
  let s ← chunkStep direct s
  let d := if s.blockNr > 0 then s.c.d &&& ~~~CHUNK_START else s.c.d
  return { s with c := { s.c with m := List.replicate 16 0, b := 0, d := d }, mi := 0 }

/-- The condition on a block to end (src/kryptos_blake3.c:652-730) and what is done then. -/
def blockStep (small direct : Bool) (s : St) : Out St :=
  if s.mi = 16 ∨ s.ip = [] then do
    let s ← compressBlock small s
    afterBlock direct s
  else return s

/-- `done` (src/kryptos_blake3.c:731). -/
def isDone (direct : Bool) (s : St) : Bool := if direct then decide (s.c.cur ≥ s.c.wanted) else s.ip.isEmpty

/-- The loop of `kryptos_blake3_do_chunks` (src/kryptos_blake3.c:633-732).  The fuel is one more than the number of bytes of the input;
every iteration but one for an input of no bytes reads some. -/
def chunkLoop (strict small direct : Bool) : Nat → St → Out St
  | 0, _ => .ub
  | fuel + 1, s => do
    let s ← readWord strict s
    let s ← blockStep small direct s
    if isDone direct s then return s else chunkLoop strict small direct fuel s

/-- The key words (src/kryptos_blake3.c:543-602). -/
def keyWords (c : Ctx) (key : Bytes) : Out (List W32) :=
  match c.mode with
  | .hash | .derive1 => (List.range 8).mapM fun i => rd iv i
  | .keyed => (List.range 8).mapM fun i => getLe32 key (4 * i)
  | .derive2 => (List.range 8).mapM fun i => rd c.h i

/-- `kryptos_blake3_do_chunks` (src/kryptos_blake3.c:514-735): the context and the output. -/
def doChunks (strict : Bool) (c : Ctx) (key input : Bytes) : Out (Ctx × Option Bytes) :=
  if c.wanted = c.cur then return (c, none)
  else do
    let small := decide (input.length ≤ 1024)
    let direct := small && decide (c.mode ≠ .derive1)
    let k ← keyWords c key
    let c := { c with k := k, d := modeFlag c.mode ||| CHUNK_START, h := k, v := k ++ c.v.drop 8, m := List.replicate 16 0 }
    let c := { c with t := 0, stack := [], getR := false, chunkNr := 0, cur := 0 }
    let s ← chunkLoop strict small direct (input.length + 1) ⟨c, input, 0, 0, none⟩
    return (s.c, s.out)

/-- `kryptos_do_blake3` (src/kryptos_blake3.c:476-512): the context and the output, of which everything behind the wanted size is set to zero. -/
def doBlake3 (strict : Bool) (c : Ctx) (key input : Bytes) : Out (Ctx × Option Bytes) := do
  let (c', out) ← doChunks strict c key input
  let z := List.replicate 8 (0 : W32)
  let zz := List.replicate 16 (0 : W32)
  let out := out.map fun o => o.take c'.wanted ++ List.replicate (o.length - c'.wanted) 0
  let h := if c.mode ≠ .derive1 then z else c'.h
  return ({ c' with h := h, v := zz, vv := zz, k := z, m := zz, mm := zz, hh := z, t := 0, b := 0, d := 0, mode := .hash, chunkNr := 0 }, out)

/-- A context set to zero (`memset`), the mode and the size of the output. -/
def fresh (mode : BMode) (wanted : Nat) : Ctx :=
  let z := List.replicate 8 (0 : W32)
  let zz := List.replicate 16 (0 : W32)
  ⟨mode, wanted, 0, z, zz, z, zz, z, zz, zz, 0, 0, 0, [], false, 0⟩

/-- `kryptos_blake3_hash` (src/kryptos_blake3.c:282-370, raw or with the uses of `kryptos_u32_to_hex`), `key` being `none` for NULL. -/
def blake3 (strict : Bool) (key : Option Bytes) (inp : Option Bytes) (hex : Bool) : Out Blake2.Res :=
  match inp with
  | none => return ⟨.invalidParams, []⟩
  | some input =>
    if (key.any fun k => k.length ≠ 32) then return ⟨.keyError, []⟩
    else do
      let (_, out) ← doBlake3 strict (fresh (if key = none then .hash else .keyed) 32) (key.getD []) input
      match out with
      | none => return ⟨.processError, []⟩
      | some o =>
        if o.length ≠ 32 then return ⟨.processError, []⟩
        else if hex then do
          let ws ← (List.range 8).mapM fun i => do
            let x ← getBe32 o (4 * i)
            return toHex 4 x
          return ⟨.success, ws.flatten⟩
        else return ⟨.success, o⟩

/-- `kryptos_blake3N_hash` (src/kryptos_blake3.c:376-434). -/
def blake3N (strict : Bool) (key : Option Bytes) (inp : Option Bytes) (outSize : Nat) (hex : Bool) : Out Blake2.Res :=
  match inp with
  | none => return ⟨.invalidParams, []⟩
  | some input =>
    if (key.any fun k => k.length ≠ 32) then return ⟨.keyError, []⟩
    else if outSize = 0 then return ⟨.processError, []⟩
    else do
      let (_, out) ← doBlake3 strict (fresh (if key = none then .hash else .keyed) outSize) (key.getD []) input
      match out with
      | none => return ⟨.processError, []⟩
      | some o =>
        if o.length < outSize then return ⟨.processError, []⟩
        else if hex then do
          let hx ← Blake2.ptrToHex (o.take outSize)
          return ⟨.success, hx⟩
        else return ⟨.success, o.take outSize⟩

/-- `kryptos_blake3` (src/kryptos_blake3.c:438-474), the derivation of a key from strings that are not NULL: the first `derivedSize` bytes of
the result, or `none` for NULL. -/
def kdf (strict : Bool) (context key : Bytes) (derivedSize : Nat) : Out (Option Bytes) :=
  if derivedSize = 0 then return none
  else do
    let (c, out) ← doBlake3 strict (fresh .derive1 derivedSize) [] context
    match out with
    | some _ => return none
    | none => do
      let (_, out) ← doBlake3 strict { c with mode := .derive2 } [] key
      return out.map fun o => o.take derivedSize

end Kryptos.Blake3
