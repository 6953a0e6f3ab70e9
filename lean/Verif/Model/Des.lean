import Verif.Model.Endian
import Verif.Model.KeyLoad
/-
  Model of src/kryptos_des.c: DES and its triple forms.  The arrays of 70 characters `'0'` and `'1'` are modelled with their final zeros,
  through which the function that turns them into words finds their end.
-/
namespace Kryptos.Des
open KeyLoad (ldUserKey)

/-- `kryptos_des_SH` (src/kryptos_des.c:25). -/
def shifts : List Nat :=
  [0, 5, 5, 6, 6, 6, 6, 6, 6, 5, 6, 6, 6, 6, 6, 6, 5]

/-- `kryptos_des_PC_1` (src/kryptos_des.c:28-37). -/
def pc1 : List Nat :=
  [56, 48, 40, 32, 24, 16, 8, 0, 57, 49, 41, 33, 25, 17,
   9, 1, 58, 50, 42, 34, 26, 18, 10, 2, 59, 51, 43, 35,
   62, 54, 46, 38, 30, 22, 14, 6, 61, 53, 45, 37, 29, 21,
   13, 5, 60, 52, 44, 36, 28, 20, 12, 4, 27, 19, 11, 3]

/-- `kryptos_des_PC_2` (src/kryptos_des.c:40-49). -/
def pc2 : List Nat :=
  [13, 16, 10, 23, 0, 4, 2, 27, 14, 5, 20, 9,
   22, 18, 11, 3, 25, 7, 15, 6, 26, 19, 12, 1,
   40, 51, 30, 36, 46, 54, 29, 39, 50, 44, 32, 47,
   43, 48, 38, 55, 33, 52, 45, 41, 49, 35, 28, 31]

/-- `kryptos_des_IP` (src/kryptos_des.c:110-119). -/
def ip : List Nat :=
  [57, 49, 41, 33, 25, 17, 9, 1, 59, 51, 43, 35, 27, 19, 11, 3,
   61, 53, 45, 37, 29, 21, 13, 5, 63, 55, 47, 39, 31, 23, 15, 7,
   56, 48, 40, 32, 24, 16, 8, 0, 58, 50, 42, 34, 26, 18, 10, 2,
   60, 52, 44, 36, 28, 20, 12, 4, 62, 54, 46, 38, 30, 22, 14, 6]

/-- `kryptos_des_E` (src/kryptos_des.c:122-131). -/
def eTab : List Nat :=
  [31, 0, 1, 2, 3, 4, 3, 4, 5, 6, 7, 8,
   7, 8, 9, 10, 11, 12, 11, 12, 13, 14, 15, 16,
   15, 16, 17, 18, 19, 20, 19, 20, 21, 22, 23, 24,
   23, 24, 25, 26, 27, 28, 27, 28, 29, 30, 31, 0]

/-- `kryptos_des_P` (src/kryptos_des.c:134-143). -/
def pTab : List Nat :=
  [15, 6, 19, 20, 28, 11, 27, 16, 0, 14, 22, 25, 4, 17, 30, 9,
   1, 7, 23, 13, 31, 26, 2, 8, 18, 12, 29, 5, 21, 10, 3, 24]

/-- `kryptos_des_IP_1` (src/kryptos_des.c:146-155). -/
def ipInv : List Nat :=
  [39, 7, 47, 15, 55, 23, 63, 31, 38, 6, 46, 14, 54, 22, 62, 30,
   37, 5, 45, 13, 53, 21, 61, 29, 36, 4, 44, 12, 52, 20, 60, 28,
   35, 3, 43, 11, 51, 19, 59, 27, 34, 2, 42, 10, 50, 18, 58, 26,
   33, 1, 41, 9, 49, 17, 57, 25, 32, 0, 40, 8, 48, 16, 56, 24]

/-- `kryptos_des_S1` (src/kryptos_des.c:53-58). -/
def s1 : List (List Nat) :=
  [[14, 4, 13, 1, 2, 15, 11, 8, 3, 10, 6, 12, 5, 9, 0, 7],
   [0, 15, 7, 4, 14, 2, 13, 1, 10, 6, 12, 11, 9, 5, 3, 8],
   [4, 1, 14, 8, 13, 6, 2, 11, 15, 12, 9, 7, 3, 10, 5, 0],
   [15, 12, 8, 2, 4, 9, 1, 7, 5, 11, 3, 14, 10, 0, 6, 13]]

/-- `kryptos_des_S2` (src/kryptos_des.c:60-65). -/
def s2 : List (List Nat) :=
  [[15, 1, 8, 14, 6, 11, 3, 4, 9, 7, 2, 13, 12, 0, 5, 10],
   [3, 13, 4, 7, 15, 2, 8, 14, 12, 0, 1, 10, 6, 9, 11, 5],
   [0, 14, 7, 11, 10, 4, 13, 1, 5, 8, 12, 6, 9, 3, 2, 15],
   [13, 8, 10, 1, 3, 15, 4, 2, 11, 6, 7, 12, 0, 5, 14, 9]]

/-- `kryptos_des_S3` (src/kryptos_des.c:67-72). -/
def s3 : List (List Nat) :=
  [[10, 0, 9, 14, 6, 3, 15, 5, 1, 13, 12, 7, 11, 4, 2, 8],
   [13, 7, 0, 9, 3, 4, 6, 10, 2, 8, 5, 14, 12, 11, 15, 1],
   [13, 6, 4, 9, 8, 15, 3, 0, 11, 1, 2, 12, 5, 10, 14, 7],
   [1, 10, 13, 0, 6, 9, 8, 7, 4, 15, 14, 3, 11, 5, 2, 12]]

/-- `kryptos_des_S4` (src/kryptos_des.c:74-79). -/
def s4 : List (List Nat) :=
  [[7, 13, 14, 3, 0, 6, 9, 10, 1, 2, 8, 5, 11, 12, 4, 15],
   [13, 8, 11, 5, 6, 15, 0, 3, 4, 7, 2, 12, 1, 10, 14, 9],
   [10, 6, 9, 0, 12, 11, 7, 13, 15, 1, 3, 14, 5, 2, 8, 4],
   [3, 15, 0, 6, 10, 1, 13, 8, 9, 4, 5, 11, 12, 7, 2, 14]]

/-- `kryptos_des_S5` (src/kryptos_des.c:81-86). -/
def s5 : List (List Nat) :=
  [[2, 12, 4, 1, 7, 10, 11, 6, 8, 5, 3, 15, 13, 0, 14, 9],
   [14, 11, 2, 12, 4, 7, 13, 1, 5, 0, 15, 10, 3, 9, 8, 6],
   [4, 2, 1, 11, 10, 13, 7, 8, 15, 9, 12, 5, 6, 3, 0, 14],
   [11, 8, 12, 7, 1, 14, 2, 13, 6, 15, 0, 9, 10, 4, 5, 3]]

/-- `kryptos_des_S6` (src/kryptos_des.c:88-93). -/
def s6 : List (List Nat) :=
  [[12, 1, 10, 15, 9, 2, 6, 8, 0, 13, 3, 4, 14, 7, 5, 11],
   [10, 15, 4, 2, 7, 12, 9, 5, 6, 1, 13, 14, 0, 11, 3, 8],
   [9, 14, 15, 5, 2, 8, 12, 3, 7, 0, 4, 10, 1, 13, 11, 6],
   [4, 3, 2, 12, 9, 5, 15, 10, 11, 14, 1, 7, 6, 0, 8, 13]]

/-- `kryptos_des_S7` (src/kryptos_des.c:95-100). -/
def s7 : List (List Nat) :=
  [[4, 11, 2, 14, 15, 0, 8, 13, 3, 12, 9, 7, 5, 10, 6, 1],
   [13, 0, 11, 7, 4, 9, 1, 10, 14, 3, 5, 12, 2, 15, 8, 6],
   [1, 4, 11, 13, 12, 3, 7, 14, 10, 15, 6, 8, 0, 5, 9, 2],
   [6, 11, 13, 8, 1, 4, 10, 7, 9, 5, 0, 15, 14, 2, 3, 12]]

/-- `kryptos_des_S8` (src/kryptos_des.c:102-107). -/
def s8 : List (List Nat) :=
  [[13, 2, 8, 4, 6, 15, 11, 1, 10, 9, 3, 14, 5, 0, 12, 7],
   [1, 15, 13, 8, 10, 3, 7, 4, 12, 5, 6, 11, 0, 14, 9, 2],
   [7, 11, 4, 1, 9, 12, 14, 2, 0, 6, 10, 13, 15, 3, 5, 8],
   [2, 1, 14, 7, 4, 10, 8, 13, 15, 12, 9, 0, 3, 5, 6, 11]]

/-- `wkey` (src/kryptos_des.c:839-875). -/
def weakKeys : List (W32 × W32) :=
  [(0x01010101, 0x01010101), (0x1F1F1F1F, 0x0E0E0E0E), (0xE0E0E0E0, 0xF1F1F1F1), (0xFEFEFEFE, 0xFEFEFEFE),
   (0x01FE01FE, 0x01FE01FE), (0xFE01FE01, 0xFE01FE01), (0x1FE01FE0, 0x0EF10EF1), (0xE0F1E0F1, 0xF10EF10E),
   (0x01E001E0, 0x01F101F1), (0xE001E001, 0xF101F101), (0x1FFE1FFE, 0x0EFE0EFE), (0xFE1FFE1F, 0xFE0EFE0E),
   (0x01F101F1, 0x010E010E), (0x1F011F01, 0x0E010E01), (0x0EFE0EFE, 0xF1FEF1FE), (0xFE0EFE0E, 0xFEF1FEF1),
   (0x1F1F0101, 0x0E0E0101), (0x0E010EF1, 0xF10101F1), (0x011F1F01, 0x010E0E01), (0xFEF101E0, 0xFE0E01F1),
   (0x1F01011F, 0x0E01010E), (0xFE011FE0, 0xFE010EF1), (0x01011F1F, 0x01010E0E), (0xE01F1FE0, 0xF10E0EF1),
   (0xE0E00101, 0xF1F10101), (0xFE0101FE, 0xFE0101FE), (0xFEFE0101, 0xFEFE0101), (0xE01F01FE, 0xF10E01FE),
   (0xFEE01F01, 0xFEF10E01), (0xE0011FFE, 0xF1010EFE), (0xE0FE1F01, 0xF1FE0E01), (0xFE1F1FFE, 0xFE0E0EFE),
   (0xFEE0011F, 0xFEF1010E), (0x1FFE01E0, 0x0EFE01F1), (0xE0FE011F, 0xF1FE010E), (0x01FE1FE0, 0x01FE0EF1),
   (0xE0E01F1F, 0xF1F10E0E), (0x1FE001FE, 0x0EF101FE), (0xFEFE1F1F, 0xFEFE0E0E), (0x01E01FFE, 0x01F10EFE),
   (0xFE1FE001, 0xFE0EF101), (0x0101E0E0, 0x0101F1F1), (0xE01FFE01, 0xF10EFE01), (0x1F1FE0E0, 0x0E0EF1F1),
   (0xFE01E01F, 0xFE01F10E), (0x1F01FEE0, 0x0E01FEF1), (0xE001FE1F, 0xF101FE0E), (0x011FFEE0, 0x010EFEF1),
   (0x01E0E001, 0x01F1F101), (0x1F01E0FE, 0x0E01F1FE), (0x1FFEE001, 0x0EFEF001), (0x011FE0FE, 0x010EF1FE),
   (0x1FE0FE01, 0x0EF1FE01), (0x0101FEFE, 0x0101FEFE), (0x01FEFE01, 0x01FEFE01), (0x1F1FFEFE, 0x0E0EFEFE),
   (0x1FE0E01F, 0x0EF1F10E), (0xFEFEE0E0, 0xFEFEF1F1), (0x01FEE01F, 0x01FEF10E), (0xE0FEFEE0, 0xF1FEFEF1),
   (0x01E0FE1F, 0x01F1FE0E), (0xFEE0E0FE, 0xFEF1F1FE), (0x1FFEFE1F, 0x0EFEFE0E), (0xE0E0FEFE, 0xF1F1FEFE)]

/-- `kryptos_des_getbit_from_u32` (src/kryptos_des.c:173), for `n` below 32. -/
def bit (w : W32) (n : Nat) : Byte := ((w <<< n) >>> 31).setWidth 8 + 48

/-- An array of 70 zeros (for instance src/kryptos_des.c:428). -/
def zeros : List Byte := List.replicate 70 0

/-- `kryptos_des_bitseq_to_u32` (src/kryptos_des.c:411-420) from the position of the list on. -/
def bitseq : List Byte → W32 → Out W32
  | [], _ => .ub
  | b :: t, v => if b = 0 then .ok v else bitseq t (v <<< 1 ||| (b.setWidth 32 - 48))

/-- The bits of two words (src/kryptos_des.c:532-539, 567-574, 613-620, 646-653, 754-761). -/
def spread (a b : W32) : Out (List Byte) :=
  forLoop (fun i l => wr l i (if i < 32 then bit a i else bit b (i - 32))) 64 0 zeros

/-- `dest[i] = src[tab[i]]` for `i` below `n` (src/kryptos_des.c:434-437, 504-507, 541-544, 577-580, 763-767, 801-805). -/
def permute (tab : List Nat) (n : Nat) (src : List Byte) : Out (List Byte) :=
  forLoop (fun i l => do wr l i (← rd src (← rd tab i))) n 0 zeros

/-- Two words from `2 n` characters (src/kryptos_des.c:439-450 with `n` 24, 546-557 and 582-591 with `n` 32, 769-781 with `n` 28,
807-820 with `n` 24). -/
def gather (n : Nat) (src : List Byte) : Out (W32 × W32) := do
  let bits ← forLoop (fun i l => do wr l i (← rd src i)) n 0 zeros
  let x ← bitseq bits 0
  let bits ← forLoop (fun i l => do wr l (i - n) (← rd src i)) n n bits
  let y ← bitseq bits 0
  return (x, y)

/-- A box of which the six bits `b` choose row and column (src/kryptos_des.c:459-462; the higher bits of `b` are not used). -/
def box (S : List (List Nat)) (b : W32) : Out W32 := do
  let l := ((b &&& 0x20#32) >>> 4) ||| (b &&& 1#32)
  let c := (b &&& 0x1e#32) >>> 1
  return BitVec.ofNat 32 (← rd (← rd S l.toNat) c.toNat)

/-- `kryptos_des_f` (src/kryptos_des.c:422-520). -/
def f (R KL KR : W32) : Out W32 := do
  let bits ← forLoop (fun i l => wr l i (bit R i)) 32 0 zeros
  let (RL, RR) ← gather 24 (← permute eTab 48 bits)
  let RL := (RL ^^^ KL) <<< 8
  let RR := (RR ^^^ KR) <<< 8
  let R ← box s1 (RL >>> 26)
  let R := (R <<< 4) ||| (← box s2 (RL >>> 20))
  let R := (R <<< 4) ||| (← box s3 (RL >>> 14))
  let R := (R <<< 4) ||| (← box s4 (RL >>> 8))
  let R := (R <<< 4) ||| (← box s5 (RR >>> 26))
  let R := (R <<< 4) ||| (← box s6 (RR >>> 20))
  let R := (R <<< 4) ||| (← box s7 (RR >>> 14))
  let R := (R <<< 4) ||| (← box s8 (RR >>> 8))
  let bits ← forLoop (fun i l => wr l i (bit R i)) 32 0 zeros
  bitseq (← permute pTab 32 bits) 0

/-- Body of the loops over the rounds, with the subkey at `j` (src/kryptos_des.c:561-564, 640-643); of the arrays `L` and `R` only the last
elements are used. -/
def roundStep (K : List (W32 × W32)) (j : Nat) (s : W32 × W32) : Out (W32 × W32) := do
  let k ← rd K j
  return (s.2, s.1 ^^^ (← f s.2 k.1 k.2))

/-- `kryptos_des_block_encrypt` (src/kryptos_des.c:522-601). -/
def encBlock (K : List (W32 × W32)) (block : Bytes) : Out Bytes := do
  let p0 ← getBe32 block 0
  let p1 ← getBe32 block 4
  let s ← gather 32 (← permute ip 64 (← spread p0 p1))
  let s ← forLoop (fun i => roundStep K (i - 1)) 16 1 s
  let (p0, p1) ← gather 32 (← permute ipInv 64 (← spread s.2 s.1))
  return putBe32 p0 ++ putBe32 p1

/-- `kryptos_des_block_decrypt` (src/kryptos_des.c:603-680). -/
def decBlock (K : List (W32 × W32)) (block : Bytes) : Out Bytes := do
  let p0 ← getBe32 block 0
  let p1 ← getBe32 block 4
  let s ← gather 32 (← permute ip 64 (← spread p0 p1))
  let s ← forLoop (fun i => roundStep K ((19 - i) - 3)) 16 1 s
  let (p0, p1) ← gather 32 (← permute ipInv 64 (← spread s.2 s.1))
  return putBe32 p0 ++ putBe32 p1

/-- `(kryptos_des_SHL(x, s) << 4) >> 4` (src/kryptos_des.c:19, 785): without parentheses around the macro's body the first shift by 4 applies
to its second operand only. -/
def shl (x : W32) (s : Nat) : W32 := (x <<< s ||| (x >>> (32 - s)) <<< 4) >>> 4

/-- The subkey of `C[i]` and `D[i]` (src/kryptos_des.c:791-820). -/
def subkey (C D : W32) : Out (W32 × W32) := do
  let bits ← forLoop (fun j l => wr l j (if j < 28 then bit C (j + 4) else bit D (j - 28 + 4))) 56 0 zeros
  gather 24 (← permute pc2 48 bits)

/-- Bodies of the loops over the rounds of `kryptos_des_expand_user_key` (src/kryptos_des.c:784-787, 790-821), taken together: the second
loop reads `C[i]` and `D[i]`, which the first leaves as they are computed. -/
def keyStep (i : Nat) (s : List (W32 × W32) × W32 × W32) : Out (List (W32 × W32) × W32 × W32) := do
  let C := shl s.2.1 (← rd shifts i)
  let D := shl s.2.2 (← rd shifts i)
  return (← wr s.1 (i - 1) (← subkey C D), C, D)

/-- `kryptos_des_expand_user_key` after the check for weak keys (src/kryptos_des.c:752-831); `K` has 18 elements of which 16 are written and
read. -/
def schedule (k0 k1 : W32) : Out (List (W32 × W32)) := do
  let (C, D) ← gather 28 (← permute pc1 56 (← spread k0 k1))
  let s ← forLoop keyStep 16 1 (List.replicate 18 (0, 0), C, D)
  return s.1

/-- `is_somekind_des_weak_key` (src/kryptos_des.c:833-884). -/
def isWeak (k0 k1 : W32) : Bool := weakKeys.any fun w => k0 == w.1 && k1 == w.2

/-- `kryptos_des_expand_user_key` with the loader (src/kryptos_des.c:718-831): `none` for weak keys. -/
def expandKey (key : Bytes) : Out (Option (List (W32 × W32))) := do
  let u := ldUserKey 4 2 key
  let k0 ← rd u 0
  let k1 ← rd u 1
  if isWeak k0 k1 then return none else return some (← schedule k0 k1)

/-- The triple block functions (src/kryptos_des.c:682-716). -/
def enc3 (K1 K2 K3 : List (W32 × W32)) (block : Bytes) : Out Bytes := do encBlock K3 (← encBlock K2 (← encBlock K1 block))
def dec3 (K1 K2 K3 : List (W32 × W32)) (block : Bytes) : Out Bytes := do decBlock K1 (← decBlock K2 (← decBlock K3 block))
def encEde (K1 K2 K3 : List (W32 × W32)) (block : Bytes) : Out Bytes := do encBlock K3 (← decBlock K2 (← encBlock K1 block))
def decEde (K1 K2 K3 : List (W32 × W32)) (block : Bytes) : Out Bytes := do decBlock K1 (← encBlock K2 (← decBlock K3 block))

/-- The keys of the triple forms as `kryptos_triple_des_cipher` takes them: `none` when they are refused (src/kryptos_des.c:336-375). -/
def expandKeys (ede : Bool) (key1 key2 key3 : Bytes) :
    Out (Option (List (W32 × W32) × List (W32 × W32) × List (W32 × W32))) := do
  if ede && key1.length == key2.length && key1 == key2 then return none
  match ← expandKey key1 with
  | none => return none
  | some K1 => match ← expandKey key2 with
    | none => return none
    | some K2 => match ← expandKey key3 with
      | none => return none
      | some K3 => return some (K1, K2, K3)

end Kryptos.Des
