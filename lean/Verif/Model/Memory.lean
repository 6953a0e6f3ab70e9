import Verif.Base
/-
  Model of src/kryptos_memory.c (releasing), src/kryptos_userland_funcs.c and the macro `kryptos_task_free`.
-/
namespace Kryptos.Memory

/-- `kryptos_memcmp` (src/kryptos_userland_funcs.c:25-34): `n` bytes of both buffers, from position `i`
on; the differences are `int`s, of which the two's complement representation is or-ed. The second component is the
list of the positions which were read. -/
def memcmpLoop (b1 b2 : Bytes) : Nat → Nat → W32 → List Nat → Out (W32 × List Nat)
  | 0, _, r, tr => .ok (r, tr)
  | n + 1, i, r, tr => do
    let x ← rd b1 i
    let y ← rd b2 i
    memcmpLoop b1 b2 n (i + 1) (r ||| (x.setWidth 32 - y.setWidth 32)) (tr ++ [i])

def memcmp (b1 b2 : Bytes) (n : Nat) : Out (W32 × List Nat) := memcmpLoop b1 b2 n 0 0 []

/-- `kryptos_memset` (src/kryptos_userland_funcs.c:36-64, the branch without assembly). -/
def memset (m : Bytes) (c : Byte) (n : Nat) : Out Bytes := forLoop (fun i m => wr m i c) n 0 m

/-- `kryptos_memcpy` (src/kryptos_userland_funcs.c:66-96). -/
def memcpy (dest src : Bytes) (n : Nat) : Out Bytes :=
  forLoop (fun i m => do let b ← rd src i; wr m i b) n 0 dest

/-- The build options of src/kryptos_memory.c:22-31: none, `KRYPTOS_DATA_WIPING_WHEN_FREEING_MEMORY`, and that one
with `..._FREAK_PARANOID_PERSON`, for which `rnd p i` is the byte written at position `i` in pass `p`. -/
inductive Wipe where
  | plain
  | twice
  | paranoid (rnd : Nat → Nat → Byte)

/-- `kryptos_freeseg` (src/kryptos_memory.c:128-183) on a segment with contents `seg`: the contents at the
moment of `free`. -/
def freeseg (w : Wipe) (seg : Bytes) (ssize : Nat) : Out Bytes :=
  if 0 < ssize then
    match w with
    | .plain => memset seg 0 ssize
    | .twice => do
      let m ← memset seg 255 ssize
      memset m 0 ssize
    | .paranoid rnd => do
      let m ← memset seg 255 ssize
      let m ← memset m 0 ssize
      forLoop (fun p m => forLoop (fun i m => wr m i (rnd p i)) ssize 0 m) 5 0 m
  else .ok seg

/-- A buffer of a task: pointer (`none`: NULL) and size. -/
structure Seg where
  ptr : Option Bytes
  size : Nat
  deriving DecidableEq

/-- The buffers of `kryptos_task_ctx`. -/
structure Bufs where
  out : Seg
  inp : Seg
  key : Seg
  iv : Seg
  buf0 : Seg
  buf1 : Seg
  deriving DecidableEq

/-- The free mask. -/
structure Mask where
  out : Bool
  inp : Bool
  key : Bool
  iv : Bool
  buf0 : Bool
  buf1 : Bool

/-- One of the `if`s of `kryptos_task_free` (src/kryptos.h:209-213); `rel` is what has been handed to the allocator
so far. -/
def freeField (w : Wipe) (s : Seg) (sel : Bool) (rel : List Bytes) : Out (Seg × List Bytes) :=
  match s.ptr with
  | none => .ok (s, rel)
  | some b =>
    if sel then do
      let r ← freeseg w b s.size
      return (⟨none, 0⟩, rel ++ [r])
    else .ok (s, rel)

/-- `kryptos_task_free` (src/kryptos.h:208-248).  The fields which are not buffers are reset as well and are
not represented. -/
def taskFree (w : Wipe) (t : Bufs) (m : Mask) : Out (Bufs × List Bytes) := do
  let (out, rel) ← freeField w t.out m.out []
  let (inp, rel) ← freeField w t.inp m.inp rel
  let (key, rel) ← freeField w t.key m.key rel
  let (iv, rel) ← freeField w t.iv m.iv rel
  let (buf0, rel) ← freeField w t.buf0 m.buf0 rel
  let (buf1, rel) ← freeField w t.buf1 m.buf1 rel
  return (⟨out, inp, key, iv, buf0, buf1⟩, rel)

end Kryptos.Memory
