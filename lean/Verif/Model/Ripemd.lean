import Verif.Model.MdCommon
/-
  Model of src/kryptos_ripemd128_160.c.
-/
namespace Kryptos.Ripemd
open Hash Md

/-- The names of the round functions. -/
inductive Fn where
  | f0 | f1 | f2 | f3 | f4
  deriving DecidableEq

/-- `kryptos_ripemd_f0` to `kryptos_ripemd_f4` (src/kryptos_ripemd128_160.c:17-25). -/
def Fn.ap : Fn → W32 → W32 → W32 → W32
  | .f0, x, y, z => x ^^^ y ^^^ z
  | .f1, x, y, z => (x &&& y) ||| (~~~x &&& z)
  | .f2, x, y, z => (x ||| ~~~y) ^^^ z
  | .f3, x, y, z => (x &&& z) ||| (y &&& ~~~z)
  | .f4, x, y, z => x ^^^ (y ||| ~~~z)

/-- `KRYPTOS_RIPEMD_K0` to `KRYPTOS_RIPEMD_K4_` (src/kryptos_ripemd128_160.c:29-39). -/
def K0 : W32 := 0x00000000#32
def K1 : W32 := 0x5A827999#32
def K2 : W32 := 0x6ED9EBA1#32
def K3 : W32 := 0x8F1BBCDC#32
def K4 : W32 := 0xA953FD4E#32
def K0' : W32 := 0x50A28BE6#32
def K1' : W32 := 0x5C4DD124#32
def K2' : W32 := 0x6D703Ef3#32
def K3' : W32 := 0x7A6D76E9#32
def K4' : W32 := 0x00000000#32

/-- A step of RIPEMD-128: `side` tells the registers `A_, ...` of the second line from `A, ...`. -/
structure Step2 where
  side : Bool
  r : Row
  f : Fn
  k : Nat
  t : W32
  s : Nat
  deriving DecidableEq

/-- `kryptos_ripemd128_line_proc` (src/kryptos_ripemd128_160.c:46-47). -/
def line128 (f : Fn) (a b c d x t : W32) (s : Nat) : W32 := rotl (a + f.ap b c d + x + t) s

/-- A step on the registers of both lines. -/
def step128 (X : List W32) (st : Four 32 × Four 32) (p : Step2) : Out (Four 32 × Four 32) :=
  if p.side then do
    let s ← step line128 X st.2 ⟨p.r, p.f, p.k, p.t, p.s⟩
    return (st.1, s)
  else do
    let s ← step line128 X st.1 ⟨p.r, p.f, p.k, p.t, p.s⟩
    return (s, st.2)

/-- The steps of RIPEMD-128 (src/kryptos_ripemd128_160.c:248-382). -/
def steps128 : List Step2 := [
  ⟨false, .A, .f0, 0, K0, 11⟩, ⟨false, .D, .f0, 1, K0, 14⟩, ⟨false, .C, .f0, 2, K0, 15⟩, ⟨false, .B, .f0, 3, K0, 12⟩,
  ⟨false, .A, .f0, 4, K0, 5⟩, ⟨false, .D, .f0, 5, K0, 8⟩, ⟨false, .C, .f0, 6, K0, 7⟩, ⟨false, .B, .f0, 7, K0, 9⟩,
  ⟨false, .A, .f0, 8, K0, 11⟩, ⟨false, .D, .f0, 9, K0, 13⟩, ⟨false, .C, .f0, 10, K0, 14⟩, ⟨false, .B, .f0, 11, K0, 15⟩,
  ⟨false, .A, .f0, 12, K0, 6⟩, ⟨false, .D, .f0, 13, K0, 7⟩, ⟨false, .C, .f0, 14, K0, 9⟩, ⟨false, .B, .f0, 15, K0, 8⟩,
  ⟨true, .A, .f3, 5, K0', 8⟩, ⟨true, .D, .f3, 14, K0', 9⟩, ⟨true, .C, .f3, 7, K0', 9⟩, ⟨true, .B, .f3, 0, K0', 11⟩,
  ⟨true, .A, .f3, 9, K0', 13⟩, ⟨true, .D, .f3, 2, K0', 15⟩, ⟨true, .C, .f3, 11, K0', 15⟩, ⟨true, .B, .f3, 4, K0', 5⟩,
  ⟨true, .A, .f3, 13, K0', 7⟩, ⟨true, .D, .f3, 6, K0', 7⟩, ⟨true, .C, .f3, 15, K0', 8⟩, ⟨true, .B, .f3, 8, K0', 11⟩,
  ⟨true, .A, .f3, 1, K0', 14⟩, ⟨true, .D, .f3, 10, K0', 14⟩, ⟨true, .C, .f3, 3, K0', 12⟩, ⟨true, .B, .f3, 12, K0', 6⟩,
  ⟨false, .A, .f1, 7, K1, 7⟩, ⟨false, .D, .f1, 4, K1, 6⟩, ⟨false, .C, .f1, 13, K1, 8⟩, ⟨false, .B, .f1, 1, K1, 13⟩,
  ⟨false, .A, .f1, 10, K1, 11⟩, ⟨false, .D, .f1, 6, K1, 9⟩, ⟨false, .C, .f1, 15, K1, 7⟩, ⟨false, .B, .f1, 3, K1, 15⟩,
  ⟨false, .A, .f1, 12, K1, 7⟩, ⟨false, .D, .f1, 0, K1, 12⟩, ⟨false, .C, .f1, 9, K1, 15⟩, ⟨false, .B, .f1, 5, K1, 9⟩,
  ⟨false, .A, .f1, 2, K1, 11⟩, ⟨false, .D, .f1, 14, K1, 7⟩, ⟨false, .C, .f1, 11, K1, 13⟩, ⟨false, .B, .f1, 8, K1, 12⟩,
  ⟨true, .A, .f2, 6, K1', 9⟩, ⟨true, .D, .f2, 11, K1', 13⟩, ⟨true, .C, .f2, 3, K1', 15⟩, ⟨true, .B, .f2, 7, K1', 7⟩,
  ⟨true, .A, .f2, 0, K1', 12⟩, ⟨true, .D, .f2, 13, K1', 8⟩, ⟨true, .C, .f2, 5, K1', 9⟩, ⟨true, .B, .f2, 10, K1', 11⟩,
  ⟨true, .A, .f2, 14, K1', 7⟩, ⟨true, .D, .f2, 15, K1', 7⟩, ⟨true, .C, .f2, 8, K1', 12⟩, ⟨true, .B, .f2, 12, K1', 7⟩,
  ⟨true, .A, .f2, 4, K1', 6⟩, ⟨true, .D, .f2, 9, K1', 15⟩, ⟨true, .C, .f2, 1, K1', 13⟩, ⟨true, .B, .f2, 2, K1', 11⟩,
  ⟨false, .A, .f2, 3, K2, 11⟩, ⟨false, .D, .f2, 10, K2, 13⟩, ⟨false, .C, .f2, 14, K2, 6⟩, ⟨false, .B, .f2, 4, K2, 7⟩,
  ⟨false, .A, .f2, 9, K2, 14⟩, ⟨false, .D, .f2, 15, K2, 9⟩, ⟨false, .C, .f2, 8, K2, 13⟩, ⟨false, .B, .f2, 1, K2, 15⟩,
  ⟨false, .A, .f2, 2, K2, 14⟩, ⟨false, .D, .f2, 7, K2, 8⟩, ⟨false, .C, .f2, 0, K2, 13⟩, ⟨false, .B, .f2, 6, K2, 6⟩,
  ⟨false, .A, .f2, 13, K2, 5⟩, ⟨false, .D, .f2, 11, K2, 12⟩, ⟨false, .C, .f2, 5, K2, 7⟩, ⟨false, .B, .f2, 12, K2, 5⟩,
  ⟨true, .A, .f1, 15, K2', 9⟩, ⟨true, .D, .f1, 5, K2', 7⟩, ⟨true, .C, .f1, 1, K2', 15⟩, ⟨true, .B, .f1, 3, K2', 11⟩,
  ⟨true, .A, .f1, 7, K2', 8⟩, ⟨true, .D, .f1, 14, K2', 6⟩, ⟨true, .C, .f1, 6, K2', 6⟩, ⟨true, .B, .f1, 9, K2', 14⟩,
  ⟨true, .A, .f1, 11, K2', 12⟩, ⟨true, .D, .f1, 8, K2', 13⟩, ⟨true, .C, .f1, 12, K2', 5⟩, ⟨true, .B, .f1, 2, K2', 14⟩,
  ⟨true, .A, .f1, 10, K2', 13⟩, ⟨true, .D, .f1, 0, K2', 13⟩, ⟨true, .C, .f1, 4, K2', 7⟩, ⟨true, .B, .f1, 13, K2', 5⟩,
  ⟨false, .A, .f3, 1, K3, 11⟩, ⟨false, .D, .f3, 9, K3, 12⟩, ⟨false, .C, .f3, 11, K3, 14⟩, ⟨false, .B, .f3, 10, K3, 15⟩,
  ⟨false, .A, .f3, 0, K3, 14⟩, ⟨false, .D, .f3, 8, K3, 15⟩, ⟨false, .C, .f3, 12, K3, 9⟩, ⟨false, .B, .f3, 4, K3, 8⟩,
  ⟨false, .A, .f3, 13, K3, 9⟩, ⟨false, .D, .f3, 3, K3, 14⟩, ⟨false, .C, .f3, 7, K3, 5⟩, ⟨false, .B, .f3, 15, K3, 6⟩,
  ⟨false, .A, .f3, 14, K3, 8⟩, ⟨false, .D, .f3, 5, K3, 6⟩, ⟨false, .C, .f3, 6, K3, 5⟩, ⟨false, .B, .f3, 2, K3, 12⟩,
  ⟨true, .A, .f0, 8, K4', 15⟩, ⟨true, .D, .f0, 6, K4', 5⟩, ⟨true, .C, .f0, 4, K4', 8⟩, ⟨true, .B, .f0, 1, K4', 11⟩,
  ⟨true, .A, .f0, 3, K4', 14⟩, ⟨true, .D, .f0, 11, K4', 14⟩, ⟨true, .C, .f0, 15, K4', 6⟩, ⟨true, .B, .f0, 0, K4', 14⟩,
  ⟨true, .A, .f0, 5, K4', 6⟩, ⟨true, .D, .f0, 12, K4', 9⟩, ⟨true, .C, .f0, 2, K4', 12⟩, ⟨true, .B, .f0, 13, K4', 9⟩,
  ⟨true, .A, .f0, 9, K4', 12⟩, ⟨true, .D, .f0, 7, K4', 5⟩, ⟨true, .C, .f0, 10, K4', 15⟩, ⟨true, .B, .f0, 14, K4', 8⟩]

/-- The five ways in which the registers are handed to the macro of RIPEMD-160, named after the first one. -/
inductive Row5 where
  | A | E | D | C | B
  deriving DecidableEq

/-- A step of RIPEMD-160. -/
structure Step5 where
  side : Bool
  r : Row5
  f : Fn
  k : Nat
  t : W32
  s : Nat
  deriving DecidableEq

/-- `kryptos_ripemd160_line_proc` (src/kryptos_ripemd128_160.c:43-44), the value of the first register; the third is rotated by 10. -/
def line160 (f : Fn) (a b c d e x t : W32) (s : Nat) : W32 := rotl (a + f.ap b c d + x + t) s + e

/-- A step on the registers of one line. -/
def step5 (X : List W32) (st : Five 32) (p : Step5) : Out (Five 32) := do
  let x ← rd X p.k
  return (match p.r with
    | .A => { st with a := line160 p.f st.a st.b st.c st.d st.e x p.t p.s, c := rotl st.c 10 }
    | .E => { st with e := line160 p.f st.e st.a st.b st.c st.d x p.t p.s, b := rotl st.b 10 }
    | .D => { st with d := line160 p.f st.d st.e st.a st.b st.c x p.t p.s, a := rotl st.a 10 }
    | .C => { st with c := line160 p.f st.c st.d st.e st.a st.b x p.t p.s, e := rotl st.e 10 }
    | .B => { st with b := line160 p.f st.b st.c st.d st.e st.a x p.t p.s, d := rotl st.d 10 })

/-- A step on the registers of both lines. -/
def step160 (X : List W32) (st : Five 32 × Five 32) (p : Step5) : Out (Five 32 × Five 32) :=
  if p.side then do
    let s ← step5 X st.2 p
    return (st.1, s)
  else do
    let s ← step5 X st.1 p
    return (s, st.2)

/-- The steps of RIPEMD-160 (src/kryptos_ripemd128_160.c:437-605). -/
def steps160 : List Step5 := [
  ⟨false, .A, .f0, 0, K0, 11⟩, ⟨false, .E, .f0, 1, K0, 14⟩, ⟨false, .D, .f0, 2, K0, 15⟩, ⟨false, .C, .f0, 3, K0, 12⟩,
  ⟨false, .B, .f0, 4, K0, 5⟩, ⟨false, .A, .f0, 5, K0, 8⟩, ⟨false, .E, .f0, 6, K0, 7⟩, ⟨false, .D, .f0, 7, K0, 9⟩,
  ⟨false, .C, .f0, 8, K0, 11⟩, ⟨false, .B, .f0, 9, K0, 13⟩, ⟨false, .A, .f0, 10, K0, 14⟩, ⟨false, .E, .f0, 11, K0, 15⟩,
  ⟨false, .D, .f0, 12, K0, 6⟩, ⟨false, .C, .f0, 13, K0, 7⟩, ⟨false, .B, .f0, 14, K0, 9⟩, ⟨false, .A, .f0, 15, K0, 8⟩,
  ⟨true, .A, .f4, 5, K0', 8⟩, ⟨true, .E, .f4, 14, K0', 9⟩, ⟨true, .D, .f4, 7, K0', 9⟩, ⟨true, .C, .f4, 0, K0', 11⟩,
  ⟨true, .B, .f4, 9, K0', 13⟩, ⟨true, .A, .f4, 2, K0', 15⟩, ⟨true, .E, .f4, 11, K0', 15⟩, ⟨true, .D, .f4, 4, K0', 5⟩,
  ⟨true, .C, .f4, 13, K0', 7⟩, ⟨true, .B, .f4, 6, K0', 7⟩, ⟨true, .A, .f4, 15, K0', 8⟩, ⟨true, .E, .f4, 8, K0', 11⟩,
  ⟨true, .D, .f4, 1, K0', 14⟩, ⟨true, .C, .f4, 10, K0', 14⟩, ⟨true, .B, .f4, 3, K0', 12⟩, ⟨true, .A, .f4, 12, K0', 6⟩,
  ⟨false, .E, .f1, 7, K1, 7⟩, ⟨false, .D, .f1, 4, K1, 6⟩, ⟨false, .C, .f1, 13, K1, 8⟩, ⟨false, .B, .f1, 1, K1, 13⟩,
  ⟨false, .A, .f1, 10, K1, 11⟩, ⟨false, .E, .f1, 6, K1, 9⟩, ⟨false, .D, .f1, 15, K1, 7⟩, ⟨false, .C, .f1, 3, K1, 15⟩,
  ⟨false, .B, .f1, 12, K1, 7⟩, ⟨false, .A, .f1, 0, K1, 12⟩, ⟨false, .E, .f1, 9, K1, 15⟩, ⟨false, .D, .f1, 5, K1, 9⟩,
  ⟨false, .C, .f1, 2, K1, 11⟩, ⟨false, .B, .f1, 14, K1, 7⟩, ⟨false, .A, .f1, 11, K1, 13⟩, ⟨false, .E, .f1, 8, K1, 12⟩,
  ⟨true, .E, .f3, 6, K1', 9⟩, ⟨true, .D, .f3, 11, K1', 13⟩, ⟨true, .C, .f3, 3, K1', 15⟩, ⟨true, .B, .f3, 7, K1', 7⟩,
  ⟨true, .A, .f3, 0, K1', 12⟩, ⟨true, .E, .f3, 13, K1', 8⟩, ⟨true, .D, .f3, 5, K1', 9⟩, ⟨true, .C, .f3, 10, K1', 11⟩,
  ⟨true, .B, .f3, 14, K1', 7⟩, ⟨true, .A, .f3, 15, K1', 7⟩, ⟨true, .E, .f3, 8, K1', 12⟩, ⟨true, .D, .f3, 12, K1', 7⟩,
  ⟨true, .C, .f3, 4, K1', 6⟩, ⟨true, .B, .f3, 9, K1', 15⟩, ⟨true, .A, .f3, 1, K1', 13⟩, ⟨true, .E, .f3, 2, K1', 11⟩,
  ⟨false, .D, .f2, 3, K2, 11⟩, ⟨false, .C, .f2, 10, K2, 13⟩, ⟨false, .B, .f2, 14, K2, 6⟩, ⟨false, .A, .f2, 4, K2, 7⟩,
  ⟨false, .E, .f2, 9, K2, 14⟩, ⟨false, .D, .f2, 15, K2, 9⟩, ⟨false, .C, .f2, 8, K2, 13⟩, ⟨false, .B, .f2, 1, K2, 15⟩,
  ⟨false, .A, .f2, 2, K2, 14⟩, ⟨false, .E, .f2, 7, K2, 8⟩, ⟨false, .D, .f2, 0, K2, 13⟩, ⟨false, .C, .f2, 6, K2, 6⟩,
  ⟨false, .B, .f2, 13, K2, 5⟩, ⟨false, .A, .f2, 11, K2, 12⟩, ⟨false, .E, .f2, 5, K2, 7⟩, ⟨false, .D, .f2, 12, K2, 5⟩,
  ⟨true, .D, .f2, 15, K2', 9⟩, ⟨true, .C, .f2, 5, K2', 7⟩, ⟨true, .B, .f2, 1, K2', 15⟩, ⟨true, .A, .f2, 3, K2', 11⟩,
  ⟨true, .E, .f2, 7, K2', 8⟩, ⟨true, .D, .f2, 14, K2', 6⟩, ⟨true, .C, .f2, 6, K2', 6⟩, ⟨true, .B, .f2, 9, K2', 14⟩,
  ⟨true, .A, .f2, 11, K2', 12⟩, ⟨true, .E, .f2, 8, K2', 13⟩, ⟨true, .D, .f2, 12, K2', 5⟩, ⟨true, .C, .f2, 2, K2', 14⟩,
  ⟨true, .B, .f2, 10, K2', 13⟩, ⟨true, .A, .f2, 0, K2', 13⟩, ⟨true, .E, .f2, 4, K2', 7⟩, ⟨true, .D, .f2, 13, K2', 5⟩,
  ⟨false, .C, .f3, 1, K3, 11⟩, ⟨false, .B, .f3, 9, K3, 12⟩, ⟨false, .A, .f3, 11, K3, 14⟩, ⟨false, .E, .f3, 10, K3, 15⟩,
  ⟨false, .D, .f3, 0, K3, 14⟩, ⟨false, .C, .f3, 8, K3, 15⟩, ⟨false, .B, .f3, 12, K3, 9⟩, ⟨false, .A, .f3, 4, K3, 8⟩,
  ⟨false, .E, .f3, 13, K3, 9⟩, ⟨false, .D, .f3, 3, K3, 14⟩, ⟨false, .C, .f3, 7, K3, 5⟩, ⟨false, .B, .f3, 15, K3, 6⟩,
  ⟨false, .A, .f3, 14, K3, 8⟩, ⟨false, .E, .f3, 5, K3, 6⟩, ⟨false, .D, .f3, 6, K3, 5⟩, ⟨false, .C, .f3, 2, K3, 12⟩,
  ⟨true, .C, .f1, 8, K3', 15⟩, ⟨true, .B, .f1, 6, K3', 5⟩, ⟨true, .A, .f1, 4, K3', 8⟩, ⟨true, .E, .f1, 1, K3', 11⟩,
  ⟨true, .D, .f1, 3, K3', 14⟩, ⟨true, .C, .f1, 11, K3', 14⟩, ⟨true, .B, .f1, 15, K3', 6⟩, ⟨true, .A, .f1, 0, K3', 14⟩,
  ⟨true, .E, .f1, 5, K3', 6⟩, ⟨true, .D, .f1, 12, K3', 9⟩, ⟨true, .C, .f1, 2, K3', 12⟩, ⟨true, .B, .f1, 13, K3', 9⟩,
  ⟨true, .A, .f1, 9, K3', 12⟩, ⟨true, .E, .f1, 7, K3', 5⟩, ⟨true, .D, .f1, 10, K3', 15⟩, ⟨true, .C, .f1, 14, K3', 8⟩,
  ⟨false, .B, .f4, 4, K4, 9⟩, ⟨false, .A, .f4, 0, K4, 15⟩, ⟨false, .E, .f4, 5, K4, 5⟩, ⟨false, .D, .f4, 9, K4, 11⟩,
  ⟨false, .C, .f4, 7, K4, 6⟩, ⟨false, .B, .f4, 12, K4, 8⟩, ⟨false, .A, .f4, 2, K4, 13⟩, ⟨false, .E, .f4, 10, K4, 12⟩,
  ⟨false, .D, .f4, 14, K4, 5⟩, ⟨false, .C, .f4, 1, K4, 12⟩, ⟨false, .B, .f4, 3, K4, 13⟩, ⟨false, .A, .f4, 8, K4, 14⟩,
  ⟨false, .E, .f4, 11, K4, 11⟩, ⟨false, .D, .f4, 6, K4, 8⟩, ⟨false, .C, .f4, 15, K4, 5⟩, ⟨false, .B, .f4, 13, K4, 6⟩,
  ⟨true, .B, .f0, 12, K4', 8⟩, ⟨true, .A, .f0, 15, K4', 5⟩, ⟨true, .E, .f0, 10, K4', 12⟩, ⟨true, .D, .f0, 4, K4', 9⟩,
  ⟨true, .C, .f0, 1, K4', 12⟩, ⟨true, .B, .f0, 5, K4', 5⟩, ⟨true, .A, .f0, 8, K4', 14⟩, ⟨true, .E, .f0, 7, K4', 6⟩,
  ⟨true, .D, .f0, 6, K4', 8⟩, ⟨true, .C, .f0, 2, K4', 13⟩, ⟨true, .B, .f0, 13, K4', 6⟩, ⟨true, .A, .f0, 14, K4', 5⟩,
  ⟨true, .E, .f0, 0, K4', 15⟩, ⟨true, .D, .f0, 3, K4', 13⟩, ⟨true, .C, .f0, 9, K4', 11⟩, ⟨true, .B, .f0, 11, K4', 11⟩]

/-- `kryptos_ripemd_init` (src/kryptos_ripemd128_160.c:196-207). -/
def init128 : Four 32 := ⟨0x67452301#32, 0xEFCDAB89#32, 0x98BADCFE#32, 0x10325476#32⟩
def init160 : Five 32 := ⟨0x67452301#32, 0xEFCDAB89#32, 0x98BADCFE#32, 0x10325476#32, 0xC3D2E1F0#32⟩

/-- The compression in `kryptos_ripemd128_do_block` (src/kryptos_ripemd128_160.c:224-388). -/
def compress128 (st : Four 32) (block : List W32) : Out (Four 32) := do
  let X ← revBlock block
  let s ← steps128.foldlM (step128 X) (st, st)
  let T := st.b + s.2.d + s.1.c
  return ⟨T, st.c + s.2.a + s.1.d, st.d + s.2.b + s.1.a, st.a + s.2.c + s.1.b⟩

/-- The compression in `kryptos_ripemd160_do_block` (src/kryptos_ripemd128_160.c:414-612). -/
def compress160 (st : Five 32) (block : List W32) : Out (Five 32) := do
  let X ← revBlock block
  let s ← steps160.foldlM (step160 X) (st, st)
  let T := st.b + s.2.d + s.1.c
  return ⟨T, st.c + s.2.e + s.1.d, st.d + s.2.a + s.1.e, st.e + s.2.b + s.1.a, st.a + s.2.c + s.1.b⟩

/-- The instantiations of the message processor (src/kryptos_ripemd128_160.c:103-112). -/
def alg128 : Alg 32 (Four 32) where
  wb := 4
  nr := 16
  tab := tab
  lenOff := 56
  tok := 0x80#8
  putLen := putLen32
  fix := Md.fix
  init := init128
  compress := compress128

def alg160 : Alg 32 (Five 32) where
  wb := 4
  nr := 16
  tab := tab
  lenOff := 56
  tok := 0x80#8
  putLen := putLen32
  fix := Md.fix
  init := init160
  compress := compress160

/-- `kryptos_ripemd128_hash` (src/kryptos_ripemd128_160.c:118-152) and `kryptos_ripemd160_hash` (158-194). -/
def hash128 (stale : List W32) : HashFn := hashOf alg128 (fun s => raw s.words) (fun s => hex s.words) stale
def hash160 (stale : List W32) : HashFn := hashOf alg160 (fun s => raw s.words) (fun s => hex s.words) stale

end Kryptos.Ripemd
