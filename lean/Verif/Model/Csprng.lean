import Verif.Model.Fortuna
/-
  Model of the choice of the random source in src/kryptos_random.c (user mode of Unix systems).  Memory is never exhausted.
-/
namespace Kryptos.Csprng

/-- What the devices do when one of them is opened and read (src/kryptos_random.c:225-245): none can be opened, the reading
fails, or it delivers the given bytes, perhaps fewer than asked for. -/
inductive Dev where
  | missing
  | failing
  | data (l : Bytes)

/-- `kryptos_sys_get_random_block` (src/kryptos_random.c:216-260); `mem` is what the new segment held before. -/
def sysBlock (mem : Nat → Byte) (d : Dev) (n : Nat) : Option Bytes :=
  if n = 0 then none
  else match d with
  | .missing => none
  | .failing => none
  | .data l => some (l.take n ++ ((List.range n).drop l.length).map mem)

/-- The reading of one byte from the devices (src/kryptos_random.c:323-346). -/
def sysByte : Dev → Byte
  | .data (b :: _) => b
  | _ => 0

/-- `kryptos_csprng_t` (src/kryptos_types.h:234-237). -/
inductive Source where
  | system
  | fortuna
  deriving DecidableEq

/-- The variables `g_kryptos_csprng` and `g_kryptos_fortuna_state` (src/kryptos_random.c:18-20); the second points to the static
context of src/kryptos_fortuna.c:19, which is never freed. -/
structure St where
  src : Source
  fort : Option Fortuna.Ctx

/-- Before anything is selected (src/kryptos_random.c:18-20). -/
def start : St := ⟨.system, none⟩

/-- The size of the seed (src/kryptos_random.c:119-120), from four bytes, the first one lowest. -/
def seedSize : Bytes → Out Nat
  | [a, b, c, d] => .ok ((a.toNat + 256 * b.toNat + 65536 * c.toNat + 16777216 * d.toNat) % 31 + 1)
  | _ => .ub

/-- `kryptos_set_csprng` (src/kryptos_random.c:98-157): the result and the variables afterwards.  Releasing the former source
(src/kryptos_random.c:159-170) leaves the static context alone. -/
def set (staleW : List W32) (mem1 mem2 : Nat → Byte) (d1 d2 : Dev) (which : Nat) (s : St) : Out (Bool × St) :=
  if which = 0 then .ok (true, { s with src := .system })
  else if which = 1 then
    match sysBlock mem1 d1 4 with
    | none => .ok (false, s)
    | some r => do
      let n ← seedSize r
      match sysBlock mem2 d2 n with
      | none => return (false, s)
      | some seed => do
        let c ← Fortuna.reseed staleW Fortuna.init seed
        return (true, ⟨.fortuna, some c⟩)
  else .ok (false, s)

/-- `kryptos_get_random_block` (src/kryptos_random.c:206-212); `sys1` and `sys2` are the answers of the system to the generator. -/
def getBlock (stale : Bytes) (staleW : List W32) (mem : Nat → Byte) (d : Dev) (sys1 sys2 : Option Bytes) (n : Nat) (s : St) :
    Out (Option Bytes × St) :=
  match s.src with
  | .system => .ok (sysBlock mem d n, s)
  | .fortuna =>
    match s.fort with
    | none => .ub
    | some c => do
      let (r, c) ← Fortuna.getRandomBlock stale staleW sys1 sys2 c n
      return (r, { s with fort := some c })

/-- `kryptos_get_random_byte` (src/kryptos_random.c:322-355). -/
def getByte (stale : Bytes) (staleW : List W32) (d : Dev) (sys1 sys2 : Option Bytes) (s : St) : Out (Byte × St) :=
  match s.src with
  | .system => .ok (sysByte d, s)
  | .fortuna =>
    match s.fort with
    | none => .ub
    | some c => do
      let (r, c) ← Fortuna.getRandomByte stale staleW sys1 sys2 c
      return (r, { s with fort := some c })

end Kryptos.Csprng
