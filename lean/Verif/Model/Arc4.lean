import Verif.Base
/-
  Model of src/kryptos_arc4.c.
-/
namespace Kryptos.Arc4

/-- `struct kryptos_arc4_subkey` (src/kryptos_arc4.c:23-26). -/
structure St where
  i : Nat
  j : Nat
  S : List Byte
  deriving Repr, DecidableEq

/-- The exchange `temp = S[i]; S[i] = S[j]; S[j] = temp` (src/kryptos_arc4.c:45-47, 17-19). -/
def exchange (S : List Byte) (i j : Nat) : Out (List Byte) := do
  let temp ← rd S i
  let x ← rd S j
  let S ← wr S i x
  wr S j temp

/-- One step of the second loop of `kryptos_arc4_key_setup` (src/kryptos_arc4.c:43-48). -/
def mixStep (S2 : List Byte) (i : Nat) (s : Nat × List Byte) : Out (Nat × List Byte) := do
  let x ← rd s.2 i
  let k ← rd S2 i
  let j := (s.1 + x.toNat + k.toNat) % 256
  let S ← exchange s.2 i j
  return (j, S)

/-- `kryptos_arc4_key_setup` (src/kryptos_arc4.c:34-54).  A key of size zero divides by zero. -/
def keySetup (key : Bytes) : Out St := do
  if key.length = 0 then .ub else do
    let S := (List.range 256).map (BitVec.ofNat 8)
    let S2 ← (List.range 256).mapM fun i => rd key (i % key.length)
    let (_, S) ← forLoop (mixStep S2) 256 0 (0, S)
    return ⟨0, 0, S⟩

/-- `kryptos_arc4stream` (src/kryptos_arc4.c:15-21). -/
def stream (s : St) : Out (Byte × St) := do
  let i := (s.i + 1) % 256
  let x ← rd s.S i
  let j := (s.j + x.toNat) % 256
  let S ← exchange s.S i j
  let a ← rd S i
  let b ← rd S j
  let temp := (a.toNat + b.toNat) % 256
  let k ← rd S temp
  return (k, ⟨i, j, S⟩)

/-- The loop of `kryptos_arc4_cipher` (src/kryptos_arc4.c:101-105) with `kryptos_arc4_xor` (56-68). -/
def xorLoop : Bytes → St → Out Bytes
  | [], _ => .ok []
  | b :: l, s => do
    let (k, s) ← stream s
    let l ← xorLoop l s
    return (b ^^^ k) :: l

/-- `kryptos_arc4_cipher` (src/kryptos_arc4.c:76-115): result and output.  The task check
(src/kryptos_task_check.c:85-188) refuses a missing or empty key and a missing or empty input; it
examines neither the action nor the IV for this cipher.  Memory exhaustion is not modelled. -/
def cipher (key inp : Option Bytes) : Out (TaskResult × Option Bytes) :=
  match key, inp with
  | some key, some inp =>
    if key = [] ∨ inp = [] then .ok (.invalidParams, none)
    else do
      let s ← keySetup key
      let out ← xorLoop inp s
      return (.success, some out)
  | _, _ => .ok (.invalidParams, none)

end Kryptos.Arc4
