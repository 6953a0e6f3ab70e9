import Verif.Words
import Verif.Model.Endian
/-
  Model of src/kryptos_serpent.c.  The macros assign to the registers named by their arguments; here they give the new values of the five
  registers.  The register `r4` is not initialised in the block functions: its first value is an argument of the model.
-/
namespace Kryptos.Serpent

/-- `kryptos_serpent_u32_rl` and `kryptos_serpent_u32_rr` on 32-bit words (src/kryptos_serpent.c:20, 22). -/
def rl (w : W32) (l : Nat) : W32 := w <<< l ||| w >>> (32 - l)
def rr (w : W32) (l : Nat) : W32 := w >>> l ||| w <<< (32 - l)

/-- `kryptos_serpent_lk` (src/kryptos_serpent.c:30-52). -/
def lk (k : List W32) (r : Nat) (w0 w1 w2 w3 _w4 : W32) : Out (Five 32) := do
  let w0 := rl w0 13
  let w2 := rl w2 3
  let w1 := w1 ^^^ w0
  let w4 := w0 <<< 3
  let w3 := w3 ^^^ w2
  let w1 := w1 ^^^ w2
  let w1 := rl w1 1
  let w3 := w3 ^^^ w4
  let w3 := rl w3 7
  let w4 := w1
  let w0 := w0 ^^^ w1
  let w4 := w4 <<< 7
  let w2 := w2 ^^^ w3
  let w0 := w0 ^^^ w3
  let w2 := w2 ^^^ w4
  let w3 := w3 ^^^ (← rd k (r <<< 2 + 3))
  let w1 := w1 ^^^ (← rd k (r <<< 2 + 1))
  let w0 := rl w0 5
  let w2 := rl w2 22
  let w0 := w0 ^^^ (← rd k (r <<< 2))
  let w2 := w2 ^^^ (← rd k (r <<< 2 + 2))
  return ⟨w0, w1, w2, w3, w4⟩

/-- `kryptos_serpent_lk_1` (src/kryptos_serpent.c:54-76). -/
def lkInv (k : List W32) (r : Nat) (w0 w1 w2 w3 _w4 : W32) : Out (Five 32) := do
  let w0 := w0 ^^^ (← rd k (r <<< 2))
  let w1 := w1 ^^^ (← rd k (r <<< 2 + 1))
  let w2 := w2 ^^^ (← rd k (r <<< 2 + 2))
  let w3 := w3 ^^^ (← rd k (r <<< 2 + 3))
  let w0 := rr w0 5
  let w2 := rr w2 22
  let w4 := w1
  let w2 := w2 ^^^ w3
  let w0 := w0 ^^^ w3
  let w4 := w4 <<< 7
  let w0 := w0 ^^^ w1
  let w1 := rr w1 1
  let w2 := w2 ^^^ w4
  let w3 := rr w3 7
  let w4 := w0 <<< 3
  let w1 := w1 ^^^ w0
  let w3 := w3 ^^^ w4
  let w0 := rr w0 13
  let w1 := w1 ^^^ w2
  let w3 := w3 ^^^ w2
  let w2 := rr w2 3
  return ⟨w0, w1, w2, w3, w4⟩

/-- `kryptos_serpent_sbox0` (src/kryptos_serpent.c:78-96). -/
def sbox0 (w0 w1 w2 w3 _w4 : W32) : Five 32 :=
  let w4 := w3
  let w3 := w3 ||| w0
  let w0 := w0 ^^^ w4
  let w4 := w4 ^^^ w2
  let w4 := ~~~w4
  let w3 := w3 ^^^ w1
  let w1 := w1 &&& w0
  let w1 := w1 ^^^ w4
  let w2 := w2 ^^^ w0
  let w0 := w0 ^^^ w3
  let w4 := w4 ||| w0
  let w0 := w0 ^^^ w2
  let w2 := w2 &&& w1
  let w3 := w3 ^^^ w2
  let w1 := ~~~w1
  let w2 := w2 ^^^ w4
  let w1 := w1 ^^^ w2
  ⟨w0, w1, w2, w3, w4⟩

/-- `kryptos_serpent_sbox1` (src/kryptos_serpent.c:98-117). -/
def sbox1 (w0 w1 w2 w3 _w4 : W32) : Five 32 :=
  let w4 := w1
  let w1 := w1 ^^^ w0
  let w0 := w0 ^^^ w3
  let w3 := ~~~w3
  let w4 := w4 &&& w1
  let w0 := w0 ||| w1
  let w3 := w3 ^^^ w2
  let w0 := w0 ^^^ w3
  let w1 := w1 ^^^ w3
  let w3 := w3 ^^^ w4
  let w1 := w1 ||| w4
  let w4 := w4 ^^^ w2
  let w2 := w2 &&& w0
  let w2 := w2 ^^^ w1
  let w1 := w1 ||| w0
  let w0 := ~~~w0
  let w0 := w0 ^^^ w2
  let w4 := w4 ^^^ w1
  ⟨w0, w1, w2, w3, w4⟩

/-- `kryptos_serpent_sbox2` (src/kryptos_serpent.c:119-137). -/
def sbox2 (w0 w1 w2 w3 _w4 : W32) : Five 32 :=
  let w3 := ~~~w3
  let w1 := w1 ^^^ w0
  let w4 := w0
  let w0 := w0 &&& w2
  let w0 := w0 ^^^ w3
  let w3 := w3 ||| w4
  let w2 := w2 ^^^ w1
  let w3 := w3 ^^^ w1
  let w1 := w1 &&& w0
  let w0 := w0 ^^^ w2
  let w2 := w2 &&& w3
  let w3 := w3 ||| w1
  let w0 := ~~~w0
  let w3 := w3 ^^^ w0
  let w4 := w4 ^^^ w0
  let w0 := w0 ^^^ w2
  let w1 := w1 ||| w2
  ⟨w0, w1, w2, w3, w4⟩

/-- `kryptos_serpent_sbox3` (src/kryptos_serpent.c:139-159). -/
def sbox3 (w0 w1 w2 w3 _w4 : W32) : Five 32 :=
  let w4 := w1
  let w1 := w1 ^^^ w3
  let w3 := w3 ||| w0
  let w4 := w4 &&& w0
  let w0 := w0 ^^^ w2
  let w2 := w2 ^^^ w1
  let w1 := w1 &&& w3
  let w2 := w2 ^^^ w3
  let w0 := w0 ||| w4
  let w4 := w4 ^^^ w3
  let w1 := w1 ^^^ w0
  let w0 := w0 &&& w3
  let w3 := w3 &&& w4
  let w3 := w3 ^^^ w2
  let w4 := w4 ||| w1
  let w2 := w2 &&& w1
  let w4 := w4 ^^^ w3
  let w0 := w0 ^^^ w3
  let w3 := w3 ^^^ w2
  ⟨w0, w1, w2, w3, w4⟩

/-- `kryptos_serpent_sbox4` (src/kryptos_serpent.c:161-179). -/
def sbox4 (w0 w1 w2 w3 _w4 : W32) : Five 32 :=
  let w4 := w3
  let w3 := w3 &&& w0
  let w0 := w0 ^^^ w4
  let w3 := w3 ^^^ w2
  let w2 := w2 ||| w4
  let w0 := w0 ^^^ w1
  let w4 := w4 ^^^ w3
  let w2 := w2 ||| w0
  let w2 := w2 ^^^ w1
  let w1 := w1 &&& w0
  let w1 := w1 ^^^ w4
  let w4 := w4 &&& w2
  let w2 := w2 ^^^ w3
  let w4 := w4 ^^^ w0
  let w3 := w3 ||| w1
  let w1 := ~~~w1
  let w3 := w3 ^^^ w0
  ⟨w0, w1, w2, w3, w4⟩

/-- `kryptos_serpent_sbox5` (src/kryptos_serpent.c:181-199). -/
def sbox5 (w0 w1 w2 w3 _w4 : W32) : Five 32 :=
  let w4 := w1
  let w1 := w1 ||| w0
  let w2 := w2 ^^^ w1
  let w3 := ~~~w3
  let w4 := w4 ^^^ w0
  let w0 := w0 ^^^ w2
  let w1 := w1 &&& w4
  let w4 := w4 ||| w3
  let w4 := w4 ^^^ w0
  let w0 := w0 &&& w3
  let w1 := w1 ^^^ w3
  let w3 := w3 ^^^ w2
  let w0 := w0 ^^^ w1
  let w2 := w2 &&& w4
  let w1 := w1 ^^^ w2
  let w2 := w2 &&& w0
  let w3 := w3 ^^^ w2
  ⟨w0, w1, w2, w3, w4⟩

/-- `kryptos_serpent_sbox6` (src/kryptos_serpent.c:201-219). -/
def sbox6 (w0 w1 w2 w3 _w4 : W32) : Five 32 :=
  let w4 := w1
  let w3 := w3 ^^^ w0
  let w1 := w1 ^^^ w2
  let w2 := w2 ^^^ w0
  let w0 := w0 &&& w3
  let w1 := w1 ||| w3
  let w4 := ~~~w4
  let w0 := w0 ^^^ w1
  let w1 := w1 ^^^ w2
  let w3 := w3 ^^^ w4
  let w4 := w4 ^^^ w0
  let w2 := w2 &&& w0
  let w4 := w4 ^^^ w1
  let w2 := w2 ^^^ w3
  let w3 := w3 &&& w1
  let w3 := w3 ^^^ w0
  let w1 := w1 ^^^ w2
  ⟨w0, w1, w2, w3, w4⟩

/-- `kryptos_serpent_sbox7` (src/kryptos_serpent.c:221-241). -/
def sbox7 (w0 w1 w2 w3 _w4 : W32) : Five 32 :=
  let w1 := ~~~w1
  let w4 := w1
  let w0 := ~~~w0
  let w1 := w1 &&& w2
  let w1 := w1 ^^^ w3
  let w3 := w3 ||| w4
  let w4 := w4 ^^^ w2
  let w2 := w2 ^^^ w3
  let w3 := w3 ^^^ w0
  let w0 := w0 ||| w1
  let w2 := w2 &&& w0
  let w0 := w0 ^^^ w4
  let w4 := w4 ^^^ w3
  let w3 := w3 &&& w0
  let w4 := w4 ^^^ w1
  let w2 := w2 ^^^ w4
  let w3 := w3 ^^^ w1
  let w4 := w4 ||| w0
  let w4 := w4 ^^^ w1
  ⟨w0, w1, w2, w3, w4⟩

/-- `kryptos_serpent_sbox0_1` (src/kryptos_serpent.c:243-261). -/
def inv0 (w0 w1 w2 w3 _w4 : W32) : Five 32 :=
  let w4 := w3
  let w1 := w1 ^^^ w0
  let w3 := w3 ||| w1
  let w4 := w4 ^^^ w1
  let w0 := ~~~w0
  let w2 := w2 ^^^ w3
  let w3 := w3 ^^^ w0
  let w0 := w0 &&& w1
  let w0 := w0 ^^^ w2
  let w2 := w2 &&& w3
  let w3 := w3 ^^^ w4
  let w2 := w2 ^^^ w3
  let w1 := w1 ^^^ w3
  let w3 := w3 &&& w0
  let w1 := w1 ^^^ w0
  let w0 := w0 ^^^ w2
  let w4 := w4 ^^^ w3
  ⟨w0, w1, w2, w3, w4⟩

/-- `kryptos_serpent_sbox1_1` (src/kryptos_serpent.c:263-281). -/
def inv1 (w0 w1 w2 w3 _w4 : W32) : Five 32 :=
  let w1 := w1 ^^^ w3
  let w4 := w0
  let w0 := w0 ^^^ w2
  let w2 := ~~~w2
  let w4 := w4 ||| w1
  let w4 := w4 ^^^ w3
  let w3 := w3 &&& w1
  let w1 := w1 ^^^ w2
  let w2 := w2 &&& w4
  let w4 := w4 ^^^ w1
  let w1 := w1 ||| w3
  let w3 := w3 ^^^ w0
  let w2 := w2 ^^^ w0
  let w0 := w0 ||| w4
  let w2 := w2 ^^^ w4
  let w1 := w1 ^^^ w0
  let w4 := w4 ^^^ w1
  ⟨w0, w1, w2, w3, w4⟩

/-- `kryptos_serpent_sbox2_1` (src/kryptos_serpent.c:283-301). -/
def inv2 (w0 w1 w2 w3 _w4 : W32) : Five 32 :=
  let w2 := w2 ^^^ w1
  let w4 := w3
  let w3 := ~~~w3
  let w3 := w3 ||| w2
  let w2 := w2 ^^^ w4
  let w4 := w4 ^^^ w0
  let w3 := w3 ^^^ w1
  let w1 := w1 ||| w2
  let w2 := w2 ^^^ w0
  let w1 := w1 ^^^ w4
  let w4 := w4 ||| w3
  let w2 := w2 ^^^ w3
  let w4 := w4 ^^^ w2
  let w2 := w2 &&& w1
  let w2 := w2 ^^^ w3
  let w3 := w3 ^^^ w4
  let w4 := w4 ^^^ w0
  ⟨w0, w1, w2, w3, w4⟩

/-- `kryptos_serpent_sbox3_1` (src/kryptos_serpent.c:303-322). -/
def inv3 (w0 w1 w2 w3 _w4 : W32) : Five 32 :=
  let w2 := w2 ^^^ w1
  let w4 := w1
  let w1 := w1 &&& w2
  let w1 := w1 ^^^ w0
  let w0 := w0 ||| w4
  let w4 := w4 ^^^ w3
  let w0 := w0 ^^^ w3
  let w3 := w3 ||| w1
  let w1 := w1 ^^^ w2
  let w1 := w1 ^^^ w3
  let w0 := w0 ^^^ w2
  let w2 := w2 ^^^ w3
  let w3 := w3 &&& w1
  let w1 := w1 ^^^ w0
  let w0 := w0 &&& w2
  let w4 := w4 ^^^ w3
  let w3 := w3 ^^^ w0
  let w0 := w0 ^^^ w1
  ⟨w0, w1, w2, w3, w4⟩

/-- `kryptos_serpent_sbox4_1` (src/kryptos_serpent.c:324-343). -/
def inv4 (w0 w1 w2 w3 _w4 : W32) : Five 32 :=
  let w2 := w2 ^^^ w3
  let w4 := w0
  let w0 := w0 &&& w1
  let w0 := w0 ^^^ w2
  let w2 := w2 ||| w3
  let w4 := ~~~w4
  let w1 := w1 ^^^ w0
  let w0 := w0 ^^^ w2
  let w2 := w2 &&& w4
  let w2 := w2 ^^^ w0
  let w0 := w0 ||| w4
  let w0 := w0 ^^^ w3
  let w3 := w3 &&& w2
  let w4 := w4 ^^^ w3
  let w3 := w3 ^^^ w1
  let w1 := w1 &&& w0
  let w4 := w4 ^^^ w1
  let w0 := w0 ^^^ w3
  ⟨w0, w1, w2, w3, w4⟩

/-- `kryptos_serpent_sbox5_1` (src/kryptos_serpent.c:345-366). -/
def inv5 (w0 w1 w2 w3 _w4 : W32) : Five 32 :=
  let w4 := w1
  let w1 := w1 ||| w2
  let w2 := w2 ^^^ w4
  let w1 := w1 ^^^ w3
  let w3 := w3 &&& w4
  let w2 := w2 ^^^ w3
  let w3 := w3 ||| w0
  let w0 := ~~~w0
  let w3 := w3 ^^^ w2
  let w2 := w2 ||| w0
  let w4 := w4 ^^^ w1
  let w2 := w2 ^^^ w4
  let w4 := w4 &&& w0
  let w0 := w0 ^^^ w1
  let w1 := w1 ^^^ w3
  let w0 := w0 &&& w2
  let w2 := w2 ^^^ w3
  let w0 := w0 ^^^ w2
  let w2 := w2 ^^^ w4
  let w4 := w4 ^^^ w3
  ⟨w0, w1, w2, w3, w4⟩

/-- `kryptos_serpent_sbox6_1` (src/kryptos_serpent.c:368-386). -/
def inv6 (w0 w1 w2 w3 _w4 : W32) : Five 32 :=
  let w0 := w0 ^^^ w2
  let w4 := w0
  let w0 := w0 &&& w3
  let w2 := w2 ^^^ w3
  let w0 := w0 ^^^ w2
  let w3 := w3 ^^^ w1
  let w2 := w2 ||| w4
  let w2 := w2 ^^^ w3
  let w3 := w3 &&& w0
  let w0 := ~~~w0
  let w3 := w3 ^^^ w1
  let w1 := w1 &&& w2
  let w4 := w4 ^^^ w0
  let w3 := w3 ^^^ w4
  let w4 := w4 ^^^ w2
  let w0 := w0 ^^^ w1
  let w2 := w2 ^^^ w0
  ⟨w0, w1, w2, w3, w4⟩

/-- `kryptos_serpent_sbox7_1` (src/kryptos_serpent.c:388-408). -/
def inv7 (w0 w1 w2 w3 _w4 : W32) : Five 32 :=
  let w4 := w3
  let w3 := w3 &&& w0
  let w0 := w0 ^^^ w2
  let w2 := w2 ||| w4
  let w4 := w4 ^^^ w1
  let w0 := ~~~w0
  let w1 := w1 ||| w3
  let w4 := w4 ^^^ w0
  let w0 := w0 &&& w2
  let w0 := w0 ^^^ w1
  let w1 := w1 &&& w2
  let w3 := w3 ^^^ w2
  let w4 := w4 ^^^ w3
  let w2 := w2 &&& w3
  let w3 := w3 ||| w0
  let w1 := w1 ^^^ w4
  let w3 := w3 ^^^ w4
  let w4 := w4 &&& w0
  let w4 := w4 ^^^ w2
  ⟨w0, w1, w2, w3, w4⟩

/-- `kryptos_serpent_ld_user_key` (src/kryptos_serpent.c:457-509) for the 32 bytes it is called with: the first byte of a word lowest. -/
def ldKey (key : Bytes) : Out (List W32) :=
  (List.range 8).mapM fun w => do
    return (← rd key (4 * w)).setWidth 32 ||| (← rd key (4 * w + 1)).setWidth 32 <<< 8 ||| (← rd key (4 * w + 2)).setWidth 32 <<< 16 |||
      (← rd key (4 * w + 3)).setWidth 32 <<< 24

/-- The user key in `padded_ukey`, which has 32 bytes (src/kryptos_serpent.c:520-525); longer keys are copied past its end. -/
def padKey (key : Bytes) : Out Bytes :=
  if key.length < 32 then wr (key ++ List.replicate (32 - key.length) 0) key.length 1
  else if key.length = 32 then return key
  else .ub

/-- Body of the loop over `tw` (src/kryptos_serpent.c:537).  The last operand has 64 bits, so that the rotation is one of the 64-bit value, of
which 32 bits are kept. -/
def twStep (w : Nat) (tw : List W32) : Out (List W32) := do
  let x : BitVec 64 := ((← rd tw (w - 8)) ^^^ (← rd tw (w - 5)) ^^^ (← rd tw (w - 3)) ^^^ (← rd tw (w - 1)) ^^^ 0x9E3779B9#32).setWidth 64 ^^^
    BitVec.ofNat 64 (w - 8)
  wr tw w ((x <<< 11 ||| x >>> (32 - 11)).setWidth 32)

/-- `kryptos_serpent_ld_regs` (src/kryptos_serpent.c:410-415). -/
def ldRegs (k : List W32) (r : Nat) : Out (Four 32) := do return ⟨← rd k r, ← rd k (r + 1), ← rd k (r + 2), ← rd k (r + 3)⟩

/-- `kryptos_serpent_sto_key` (src/kryptos_serpent.c:417-422). -/
def stoKey (k : List W32) (r0 r1 r2 r3 : W32) (r : Nat) : Out (List W32) := do
  let k ← wr k r r0
  let k ← wr k (r + 1) r1
  let k ← wr k (r + 2) r2
  wr k (r + 3) r3

/-- The subkeys from the words `tw` (src/kryptos_serpent.c:540-675); `k` is the array of the subkeys before. -/
def subkeys (tw k : List W32) : Out (List W32) := do
  let r0 ← rd tw (140 - 2)
  let r1 ← rd tw (140 - 1)
  let r2 ← rd tw (140 - 5)
  let r3 ← rd tw (140 - 4)
  let r4 ← rd tw (140 - 3)
  let ⟨r3, r4, r0, r1, r2⟩ := sbox3 r3 r4 r0 r1 r2
  let k ← stoKey k r1 r2 r4 r3 128
  let ⟨r1, r2, r4, r3⟩ ← ldRegs tw 132
  let ⟨r1, r2, r4, r3, r0⟩ := sbox4 r1 r2 r4 r3 r0
  let k ← stoKey k r2 r4 r3 r0 124
  let ⟨r2, r4, r3, r0⟩ ← ldRegs tw 128
  let ⟨r2, r4, r3, r0, r1⟩ := sbox5 r2 r4 r3 r0 r1
  let k ← stoKey k r1 r2 r4 r0 120
  let ⟨r1, r2, r4, r0⟩ ← ldRegs tw 124
  let ⟨r1, r2, r4, r0, r3⟩ := sbox6 r1 r2 r4 r0 r3
  let k ← stoKey k r4 r3 r2 r0 116
  let ⟨r4, r3, r2, r0⟩ ← ldRegs tw 120
  let ⟨r4, r3, r2, r0, r1⟩ := sbox7 r4 r3 r2 r0 r1
  let k ← stoKey k r1 r2 r0 r4 112
  let ⟨r1, r2, r0, r4⟩ ← ldRegs tw 116
  let ⟨r1, r2, r0, r4, r3⟩ := sbox0 r1 r2 r0 r4 r3
  let k ← stoKey k r0 r2 r4 r1 108
  let ⟨r0, r2, r4, r1⟩ ← ldRegs tw 112
  let ⟨r0, r2, r4, r1, r3⟩ := sbox1 r0 r2 r4 r1 r3
  let k ← stoKey k r3 r4 r1 r0 104
  let ⟨r3, r4, r1, r0⟩ ← ldRegs tw 108
  let ⟨r3, r4, r1, r0, r2⟩ := sbox2 r3 r4 r1 r0 r2
  let k ← stoKey k r2 r4 r3 r0 100
  let ⟨r2, r4, r3, r0⟩ ← ldRegs tw 104
  let ⟨r2, r4, r3, r0, r1⟩ := sbox3 r2 r4 r3 r0 r1
  let k ← stoKey k r0 r1 r4 r2 96
  let ⟨r0, r1, r4, r2⟩ ← ldRegs tw 100
  let ⟨r0, r1, r4, r2, r3⟩ := sbox4 r0 r1 r4 r2 r3
  let k ← stoKey k r1 r4 r2 r3 92
  let ⟨r1, r4, r2, r3⟩ ← ldRegs tw 96
  let ⟨r1, r4, r2, r3, r0⟩ := sbox5 r1 r4 r2 r3 r0
  let k ← stoKey k r0 r1 r4 r3 88
  let ⟨r0, r1, r4, r3⟩ ← ldRegs tw 92
  let ⟨r0, r1, r4, r3, r2⟩ := sbox6 r0 r1 r4 r3 r2
  let k ← stoKey k r4 r2 r1 r3 84
  let ⟨r4, r2, r1, r3⟩ ← ldRegs tw 88
  let ⟨r4, r2, r1, r3, r0⟩ := sbox7 r4 r2 r1 r3 r0
  let k ← stoKey k r0 r1 r3 r4 80
  let ⟨r0, r1, r3, r4⟩ ← ldRegs tw 84
  let ⟨r0, r1, r3, r4, r2⟩ := sbox0 r0 r1 r3 r4 r2
  let k ← stoKey k r3 r1 r4 r0 76
  let ⟨r3, r1, r4, r0⟩ ← ldRegs tw 80
  let ⟨r3, r1, r4, r0, r2⟩ := sbox1 r3 r1 r4 r0 r2
  let k ← stoKey k r2 r4 r0 r3 72
  let ⟨r2, r4, r0, r3⟩ ← ldRegs tw 76
  let ⟨r2, r4, r0, r3, r1⟩ := sbox2 r2 r4 r0 r3 r1
  let k ← stoKey k r1 r4 r2 r3 68
  let ⟨r1, r4, r2, r3⟩ ← ldRegs tw 72
  let ⟨r1, r4, r2, r3, r0⟩ := sbox3 r1 r4 r2 r3 r0
  let k ← stoKey k r3 r0 r4 r1 64
  let ⟨r3, r0, r4, r1⟩ ← ldRegs tw 68
  let ⟨r3, r0, r4, r1, r2⟩ := sbox4 r3 r0 r4 r1 r2
  let k ← stoKey k r0 r4 r1 r2 60
  let ⟨r0, r4, r1, r2⟩ ← ldRegs tw 64
  let ⟨r0, r4, r1, r2, r3⟩ := sbox5 r0 r4 r1 r2 r3
  let k ← stoKey k r3 r0 r4 r2 56
  let ⟨r3, r0, r4, r2⟩ ← ldRegs tw 60
  let ⟨r3, r0, r4, r2, r1⟩ := sbox6 r3 r0 r4 r2 r1
  let k ← stoKey k r4 r1 r0 r2 52
  let ⟨r4, r1, r0, r2⟩ ← ldRegs tw 56
  let ⟨r4, r1, r0, r2, r3⟩ := sbox7 r4 r1 r0 r2 r3
  let k ← stoKey k r3 r0 r2 r4 48
  let ⟨r3, r0, r2, r4⟩ ← ldRegs tw 52
  let ⟨r3, r0, r2, r4, r1⟩ := sbox0 r3 r0 r2 r4 r1
  let k ← stoKey k r2 r0 r4 r3 44
  let ⟨r2, r0, r4, r3⟩ ← ldRegs tw 48
  let ⟨r2, r0, r4, r3, r1⟩ := sbox1 r2 r0 r4 r3 r1
  let k ← stoKey k r1 r4 r3 r2 40
  let ⟨r1, r4, r3, r2⟩ ← ldRegs tw 44
  let ⟨r1, r4, r3, r2, r0⟩ := sbox2 r1 r4 r3 r2 r0
  let k ← stoKey k r0 r4 r1 r2 36
  let ⟨r0, r4, r1, r2⟩ ← ldRegs tw 40
  let ⟨r0, r4, r1, r2, r3⟩ := sbox3 r0 r4 r1 r2 r3
  let k ← stoKey k r2 r3 r4 r0 32
  let ⟨r2, r3, r4, r0⟩ ← ldRegs tw 36
  let ⟨r2, r3, r4, r0, r1⟩ := sbox4 r2 r3 r4 r0 r1
  let k ← stoKey k r3 r4 r0 r1 28
  let ⟨r3, r4, r0, r1⟩ ← ldRegs tw 32
  let ⟨r3, r4, r0, r1, r2⟩ := sbox5 r3 r4 r0 r1 r2
  let k ← stoKey k r2 r3 r4 r1 24
  let ⟨r2, r3, r4, r1⟩ ← ldRegs tw 28
  let ⟨r2, r3, r4, r1, r0⟩ := sbox6 r2 r3 r4 r1 r0
  let k ← stoKey k r4 r0 r3 r1 20
  let ⟨r4, r0, r3, r1⟩ ← ldRegs tw 24
  let ⟨r4, r0, r3, r1, r2⟩ := sbox7 r4 r0 r3 r1 r2
  let k ← stoKey k r2 r3 r1 r4 16
  let ⟨r2, r3, r1, r4⟩ ← ldRegs tw 20
  let ⟨r2, r3, r1, r4, r0⟩ := sbox0 r2 r3 r1 r4 r0
  let k ← stoKey k r1 r3 r4 r2 12
  let ⟨r1, r3, r4, r2⟩ ← ldRegs tw 16
  let ⟨r1, r3, r4, r2, r0⟩ := sbox1 r1 r3 r4 r2 r0
  let k ← stoKey k r0 r4 r2 r1 8
  let ⟨r0, r4, r2, r1⟩ ← ldRegs tw 12
  let ⟨r0, r4, r2, r1, r3⟩ := sbox2 r0 r4 r2 r1 r3
  let k ← stoKey k r3 r4 r0 r1 4
  let ⟨r3, r4, r0, r1⟩ ← ldRegs tw 8
  let ⟨r3, r4, _, r1, r2⟩ := sbox3 r3 r4 r0 r1 r2
  let k ← stoKey k r1 r2 r4 r3 0
  return k

/-- `kryptos_serpent_key_schedule` (src/kryptos_serpent.c:511-682); the arrays start with zeros here, which are all overwritten. -/
def schedule (key : Bytes) : Out (List W32) := do
  let w ← ldKey (← padKey key)
  let tw ← forLoop twStep 132 8 (w ++ List.replicate 132 0)
  subkeys tw (List.replicate 132 0)

/-- `kryptos_serpent_block_encrypt` (src/kryptos_serpent.c:684-803). -/
def encBlock (r4 : W32) (k : List W32) (block : Bytes) : Out Bytes := do
  let r0 ← getLe32 block 0
  let r1 ← getLe32 block 4
  let r2 ← getLe32 block 8
  let r3 ← getLe32 block 12
  let r0 := r0 ^^^ (← rd k 0)
  let r1 := r1 ^^^ (← rd k 1)
  let r2 := r2 ^^^ (← rd k 2)
  let r3 := r3 ^^^ (← rd k 3)
  let ⟨r0, r1, r2, r3, r4⟩ := sbox0 r0 r1 r2 r3 r4
  let ⟨r2, r1, r3, r0, r4⟩ ← lk k 1 r2 r1 r3 r0 r4
  let ⟨r2, r1, r3, r0, r4⟩ := sbox1 r2 r1 r3 r0 r4
  let ⟨r4, r3, r0, r2, r1⟩ ← lk k 2 r4 r3 r0 r2 r1
  let ⟨r4, r3, r0, r2, r1⟩ := sbox2 r4 r3 r0 r2 r1
  let ⟨r1, r3, r4, r2, r0⟩ ← lk k 3 r1 r3 r4 r2 r0
  let ⟨r1, r3, r4, r2, r0⟩ := sbox3 r1 r3 r4 r2 r0
  let ⟨r2, r0, r3, r1, r4⟩ ← lk k 4 r2 r0 r3 r1 r4
  let ⟨r2, r0, r3, r1, r4⟩ := sbox4 r2 r0 r3 r1 r4
  let ⟨r0, r3, r1, r4, r2⟩ ← lk k 5 r0 r3 r1 r4 r2
  let ⟨r0, r3, r1, r4, r2⟩ := sbox5 r0 r3 r1 r4 r2
  let ⟨r2, r0, r3, r4, r1⟩ ← lk k 6 r2 r0 r3 r4 r1
  let ⟨r2, r0, r3, r4, r1⟩ := sbox6 r2 r0 r3 r4 r1
  let ⟨r3, r1, r0, r4, r2⟩ ← lk k 7 r3 r1 r0 r4 r2
  let ⟨r3, r1, r0, r4, r2⟩ := sbox7 r3 r1 r0 r4 r2
  let ⟨r2, r0, r4, r3, r1⟩ ← lk k 8 r2 r0 r4 r3 r1
  let ⟨r2, r0, r4, r3, r1⟩ := sbox0 r2 r0 r4 r3 r1
  let ⟨r4, r0, r3, r2, r1⟩ ← lk k 9 r4 r0 r3 r2 r1
  let ⟨r4, r0, r3, r2, r1⟩ := sbox1 r4 r0 r3 r2 r1
  let ⟨r1, r3, r2, r4, r0⟩ ← lk k 10 r1 r3 r2 r4 r0
  let ⟨r1, r3, r2, r4, r0⟩ := sbox2 r1 r3 r2 r4 r0
  let ⟨r0, r3, r1, r4, r2⟩ ← lk k 11 r0 r3 r1 r4 r2
  let ⟨r0, r3, r1, r4, r2⟩ := sbox3 r0 r3 r1 r4 r2
  let ⟨r4, r2, r3, r0, r1⟩ ← lk k 12 r4 r2 r3 r0 r1
  let ⟨r4, r2, r3, r0, r1⟩ := sbox4 r4 r2 r3 r0 r1
  let ⟨r2, r3, r0, r1, r4⟩ ← lk k 13 r2 r3 r0 r1 r4
  let ⟨r2, r3, r0, r1, r4⟩ := sbox5 r2 r3 r0 r1 r4
  let ⟨r4, r2, r3, r1, r0⟩ ← lk k 14 r4 r2 r3 r1 r0
  let ⟨r4, r2, r3, r1, r0⟩ := sbox6 r4 r2 r3 r1 r0
  let ⟨r3, r0, r2, r1, r4⟩ ← lk k 15 r3 r0 r2 r1 r4
  let ⟨r3, r0, r2, r1, r4⟩ := sbox7 r3 r0 r2 r1 r4
  let ⟨r4, r2, r1, r3, r0⟩ ← lk k 16 r4 r2 r1 r3 r0
  let ⟨r4, r2, r1, r3, r0⟩ := sbox0 r4 r2 r1 r3 r0
  let ⟨r1, r2, r3, r4, r0⟩ ← lk k 17 r1 r2 r3 r4 r0
  let ⟨r1, r2, r3, r4, r0⟩ := sbox1 r1 r2 r3 r4 r0
  let ⟨r0, r3, r4, r1, r2⟩ ← lk k 18 r0 r3 r4 r1 r2
  let ⟨r0, r3, r4, r1, r2⟩ := sbox2 r0 r3 r4 r1 r2
  let ⟨r2, r3, r0, r1, r4⟩ ← lk k 19 r2 r3 r0 r1 r4
  let ⟨r2, r3, r0, r1, r4⟩ := sbox3 r2 r3 r0 r1 r4
  let ⟨r1, r4, r3, r2, r0⟩ ← lk k 20 r1 r4 r3 r2 r0
  let ⟨r1, r4, r3, r2, r0⟩ := sbox4 r1 r4 r3 r2 r0
  let ⟨r4, r3, r2, r0, r1⟩ ← lk k 21 r4 r3 r2 r0 r1
  let ⟨r4, r3, r2, r0, r1⟩ := sbox5 r4 r3 r2 r0 r1
  let ⟨r1, r4, r3, r0, r2⟩ ← lk k 22 r1 r4 r3 r0 r2
  let ⟨r1, r4, r3, r0, r2⟩ := sbox6 r1 r4 r3 r0 r2
  let ⟨r3, r2, r4, r0, r1⟩ ← lk k 23 r3 r2 r4 r0 r1
  let ⟨r3, r2, r4, r0, r1⟩ := sbox7 r3 r2 r4 r0 r1
  let ⟨r1, r4, r0, r3, r2⟩ ← lk k 24 r1 r4 r0 r3 r2
  let ⟨r1, r4, r0, r3, r2⟩ := sbox0 r1 r4 r0 r3 r2
  let ⟨r0, r4, r3, r1, r2⟩ ← lk k 25 r0 r4 r3 r1 r2
  let ⟨r0, r4, r3, r1, r2⟩ := sbox1 r0 r4 r3 r1 r2
  let ⟨r2, r3, r1, r0, r4⟩ ← lk k 26 r2 r3 r1 r0 r4
  let ⟨r2, r3, r1, r0, r4⟩ := sbox2 r2 r3 r1 r0 r4
  let ⟨r4, r3, r2, r0, r1⟩ ← lk k 27 r4 r3 r2 r0 r1
  let ⟨r4, r3, r2, r0, r1⟩ := sbox3 r4 r3 r2 r0 r1
  let ⟨r0, r1, r3, r4, r2⟩ ← lk k 28 r0 r1 r3 r4 r2
  let ⟨r0, r1, r3, r4, r2⟩ := sbox4 r0 r1 r3 r4 r2
  let ⟨r1, r3, r4, r2, r0⟩ ← lk k 29 r1 r3 r4 r2 r0
  let ⟨r1, r3, r4, r2, r0⟩ := sbox5 r1 r3 r4 r2 r0
  let ⟨r0, r1, r3, r2, r4⟩ ← lk k 30 r0 r1 r3 r2 r4
  let ⟨r0, r1, r3, r2, r4⟩ := sbox6 r0 r1 r3 r2 r4
  let ⟨r3, r4, r1, r2, r0⟩ ← lk k 31 r3 r4 r1 r2 r0
  let ⟨r3, _, r1, r2, r0⟩ := sbox7 r3 r4 r1 r2 r0
  let r0 := r0 ^^^ (← rd k 128)
  let r1 := r1 ^^^ (← rd k 129)
  let r2 := r2 ^^^ (← rd k 130)
  let r3 := r3 ^^^ (← rd k 131)
  return putLe32 r0 ++ (putLe32 r1 ++ (putLe32 r2 ++ putLe32 r3))

/-- `kryptos_serpent_block_decrypt` (src/kryptos_serpent.c:805-924). -/
def decBlock (r4 : W32) (k : List W32) (block : Bytes) : Out Bytes := do
  let r0 ← getLe32 block 0
  let r1 ← getLe32 block 4
  let r2 ← getLe32 block 8
  let r3 ← getLe32 block 12
  let r0 := r0 ^^^ (← rd k 128)
  let r1 := r1 ^^^ (← rd k 129)
  let r2 := r2 ^^^ (← rd k 130)
  let r3 := r3 ^^^ (← rd k 131)
  let ⟨r0, r1, r2, r3, r4⟩ := inv7 r0 r1 r2 r3 r4
  let ⟨r1, r3, r0, r4, r2⟩ ← lkInv k 31 r1 r3 r0 r4 r2
  let ⟨r1, r3, r0, r4, r2⟩ := inv6 r1 r3 r0 r4 r2
  let ⟨r0, r2, r4, r1, r3⟩ ← lkInv k 30 r0 r2 r4 r1 r3
  let ⟨r0, r2, r4, r1, r3⟩ := inv5 r0 r2 r4 r1 r3
  let ⟨r2, r3, r0, r4, r1⟩ ← lkInv k 29 r2 r3 r0 r4 r1
  let ⟨r2, r3, r0, r4, r1⟩ := inv4 r2 r3 r0 r4 r1
  let ⟨r2, r0, r1, r4, r3⟩ ← lkInv k 28 r2 r0 r1 r4 r3
  let ⟨r2, r0, r1, r4, r3⟩ := inv3 r2 r0 r1 r4 r3
  let ⟨r1, r2, r3, r4, r0⟩ ← lkInv k 27 r1 r2 r3 r4 r0
  let ⟨r1, r2, r3, r4, r0⟩ := inv2 r1 r2 r3 r4 r0
  let ⟨r2, r0, r4, r3, r1⟩ ← lkInv k 26 r2 r0 r4 r3 r1
  let ⟨r2, r0, r4, r3, r1⟩ := inv1 r2 r0 r4 r3 r1
  let ⟨r1, r0, r4, r3, r2⟩ ← lkInv k 25 r1 r0 r4 r3 r2
  let ⟨r1, r0, r4, r3, r2⟩ := inv0 r1 r0 r4 r3 r2
  let ⟨r4, r2, r0, r1, r3⟩ ← lkInv k 24 r4 r2 r0 r1 r3
  let ⟨r4, r2, r0, r1, r3⟩ := inv7 r4 r2 r0 r1 r3
  let ⟨r2, r1, r4, r3, r0⟩ ← lkInv k 23 r2 r1 r4 r3 r0
  let ⟨r2, r1, r4, r3, r0⟩ := inv6 r2 r1 r4 r3 r0
  let ⟨r4, r0, r3, r2, r1⟩ ← lkInv k 22 r4 r0 r3 r2 r1
  let ⟨r4, r0, r3, r2, r1⟩ := inv5 r4 r0 r3 r2 r1
  let ⟨r0, r1, r4, r3, r2⟩ ← lkInv k 21 r0 r1 r4 r3 r2
  let ⟨r0, r1, r4, r3, r2⟩ := inv4 r0 r1 r4 r3 r2
  let ⟨r0, r4, r2, r3, r1⟩ ← lkInv k 20 r0 r4 r2 r3 r1
  let ⟨r0, r4, r2, r3, r1⟩ := inv3 r0 r4 r2 r3 r1
  let ⟨r2, r0, r1, r3, r4⟩ ← lkInv k 19 r2 r0 r1 r3 r4
  let ⟨r2, r0, r1, r3, r4⟩ := inv2 r2 r0 r1 r3 r4
  let ⟨r0, r4, r3, r1, r2⟩ ← lkInv k 18 r0 r4 r3 r1 r2
  let ⟨r0, r4, r3, r1, r2⟩ := inv1 r0 r4 r3 r1 r2
  let ⟨r2, r4, r3, r1, r0⟩ ← lkInv k 17 r2 r4 r3 r1 r0
  let ⟨r2, r4, r3, r1, r0⟩ := inv0 r2 r4 r3 r1 r0
  let ⟨r3, r0, r4, r2, r1⟩ ← lkInv k 16 r3 r0 r4 r2 r1
  let ⟨r3, r0, r4, r2, r1⟩ := inv7 r3 r0 r4 r2 r1
  let ⟨r0, r2, r3, r1, r4⟩ ← lkInv k 15 r0 r2 r3 r1 r4
  let ⟨r0, r2, r3, r1, r4⟩ := inv6 r0 r2 r3 r1 r4
  let ⟨r3, r4, r1, r0, r2⟩ ← lkInv k 14 r3 r4 r1 r0 r2
  let ⟨r3, r4, r1, r0, r2⟩ := inv5 r3 r4 r1 r0 r2
  let ⟨r4, r2, r3, r1, r0⟩ ← lkInv k 13 r4 r2 r3 r1 r0
  let ⟨r4, r2, r3, r1, r0⟩ := inv4 r4 r2 r3 r1 r0
  let ⟨r4, r3, r0, r1, r2⟩ ← lkInv k 12 r4 r3 r0 r1 r2
  let ⟨r4, r3, r0, r1, r2⟩ := inv3 r4 r3 r0 r1 r2
  let ⟨r0, r4, r2, r1, r3⟩ ← lkInv k 11 r0 r4 r2 r1 r3
  let ⟨r0, r4, r2, r1, r3⟩ := inv2 r0 r4 r2 r1 r3
  let ⟨r4, r3, r1, r2, r0⟩ ← lkInv k 10 r4 r3 r1 r2 r0
  let ⟨r4, r3, r1, r2, r0⟩ := inv1 r4 r3 r1 r2 r0
  let ⟨r0, r3, r1, r2, r4⟩ ← lkInv k 9 r0 r3 r1 r2 r4
  let ⟨r0, r3, r1, r2, r4⟩ := inv0 r0 r3 r1 r2 r4
  let ⟨r1, r4, r3, r0, r2⟩ ← lkInv k 8 r1 r4 r3 r0 r2
  let ⟨r1, r4, r3, r0, r2⟩ := inv7 r1 r4 r3 r0 r2
  let ⟨r4, r0, r1, r2, r3⟩ ← lkInv k 7 r4 r0 r1 r2 r3
  let ⟨r4, r0, r1, r2, r3⟩ := inv6 r4 r0 r1 r2 r3
  let ⟨r1, r3, r2, r4, r0⟩ ← lkInv k 6 r1 r3 r2 r4 r0
  let ⟨r1, r3, r2, r4, r0⟩ := inv5 r1 r3 r2 r4 r0
  let ⟨r3, r0, r1, r2, r4⟩ ← lkInv k 5 r3 r0 r1 r2 r4
  let ⟨r3, r0, r1, r2, r4⟩ := inv4 r3 r0 r1 r2 r4
  let ⟨r3, r1, r4, r2, r0⟩ ← lkInv k 4 r3 r1 r4 r2 r0
  let ⟨r3, r1, r4, r2, r0⟩ := inv3 r3 r1 r4 r2 r0
  let ⟨r4, r3, r0, r2, r1⟩ ← lkInv k 3 r4 r3 r0 r2 r1
  let ⟨r4, r3, r0, r2, r1⟩ := inv2 r4 r3 r0 r2 r1
  let ⟨r3, r1, r2, r0, r4⟩ ← lkInv k 2 r3 r1 r2 r0 r4
  let ⟨r3, r1, r2, r0, r4⟩ := inv1 r3 r1 r2 r0 r4
  let ⟨r4, r1, r2, r0, r3⟩ ← lkInv k 1 r4 r1 r2 r0 r3
  let ⟨r4, r1, r2, _, r3⟩ := inv0 r4 r1 r2 r0 r3
  let r2 := r2 ^^^ (← rd k 0)
  let r3 := r3 ^^^ (← rd k 1)
  let r1 := r1 ^^^ (← rd k 2)
  let r4 := r4 ^^^ (← rd k 3)
  return putLe32 r2 ++ (putLe32 r3 ++ (putLe32 r1 ++ putLe32 r4))

/-- The block functions under a key, as the processor calls them (src/kryptos_serpent.c:440-453). -/
def enc (r4 : W32) (key block : Bytes) : Out Bytes := do encBlock r4 (← schedule key) block
def dec (r4 : W32) (key block : Bytes) : Out Bytes := do decBlock r4 (← schedule key) block

end Kryptos.Serpent
