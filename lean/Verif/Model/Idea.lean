import Verif.Words
import Verif.Model.Endian
import Verif.Model.KeyLoad
/-
  Model of src/kryptos_idea.c.
-/
namespace Kryptos.Idea
open KeyLoad (ldUserKey)

/-- `kryptos_idea_mul` (src/kryptos_idea.c:22), assigned to a word of 16 bits; the product of two such words fits in the 32 bits of the
computation. -/
def mul (x y : W16) : W16 :=
  if x = 0 then 1 - y else if y = 0 then 1 - x else BitVec.ofNat 16 (x.toNat * y.toNat % 0x10001)

/-- One turn of `kryptos_idea_128bit_roll` (src/kryptos_idea.c:66-74). -/
def roll1 (x : Four 32) : Four 32 :=
  ⟨x.a <<< 1 ||| x.b >>> 31, x.b <<< 1 ||| x.c >>> 31, x.c <<< 1 ||| x.d >>> 31, x.d <<< 1 ||| x.a >>> 31⟩

/-- `kryptos_idea_128bit_roll` (src/kryptos_idea.c:63-79) for a positive degree. -/
def roll : Nat → Four 32 → Four 32
  | 0, x => x
  | n + 1, x => roll n (roll1 x)

/-- The two halves of a word (src/kryptos_idea.c:122-123). -/
def halves (x : W32) : List W16 := [(x >>> 16).setWidth 16, (x &&& 0x0000ffff#32).setWidth 16]

/-- The eight words of a turn of the key expansion (src/kryptos_idea.c:122-129). -/
def eight (x : Four 32) : List W16 := halves x.a ++ halves x.b ++ halves x.c ++ halves x.d

/-- The loop of `kryptos_idea_key_expander` (src/kryptos_idea.c:121-130) and the last four words (lines 132-135); the array is written
in order. -/
def expand : Nat → Four 32 → List W16
  | 0, x => halves x.a ++ halves x.b
  | n + 1, x => eight x ++ expand n (roll 25 x)

/-- `kryptos_idea_key_expander` (src/kryptos_idea.c:115-138) with the loader of the key (lines 81-113). -/
def sched (key : Bytes) : Out (List W16) := do
  let uk := ldUserKey 4 4 key
  return expand 6 ⟨← rd uk 0, ← rd uk 1, ← rd uk 2, ← rd uk 3⟩

/-- The second part of a round, `K` at `r + 4` and `r + 5` (src/kryptos_idea.c:159-171). -/
def ma (k4 k5 : W16) (s : Four 16) : Four 16 :=
  let y1 := s.a ^^^ s.b
  let z1 := s.c ^^^ s.d
  let y2 := mul k4 y1
  let y2 := y2 + z1
  let y2 := mul y2 k5
  let z2 := mul k4 y1
  let z2 := z2 + y2
  ⟨s.a ^^^ y2, s.b ^^^ y2, s.c ^^^ z2, s.d ^^^ z2⟩

/-- The loop body of the encryption (src/kryptos_idea.c:150-172), `r = 6 * j`. -/
def encStep (K : List W16) (j : Nat) (s : Four 16) : Out (Four 16) := do
  let a := mul s.a (← rd K (6 * j))
  let d := mul s.d (← rd K (6 * j + 3))
  let b := s.c + (← rd K (6 * j + 2))
  let c := s.b + (← rd K (6 * j + 1))
  return ma (← rd K (6 * j + 4)) (← rd K (6 * j + 5)) ⟨a, b, c, d⟩

/-- Reading the block (src/kryptos_idea.c:145-148). -/
def load (block : Bytes) : Out (Four 16) :=
  return ⟨← getBe16 block 0, ← getBe16 block 2, ← getBe16 block 4, ← getBe16 block 6⟩

/-- Writing the block (src/kryptos_idea.c:181-184). -/
def store (s : Four 16) : Bytes := [s.a, s.b, s.c, s.d].flatMap putBe16

/-- `kryptos_idea_block_encrypt` (src/kryptos_idea.c:140-189). -/
def encBlock (K : List W16) (block : Bytes) : Out Bytes := do
  let s ← load block
  let s ← forLoop (encStep K) 8 0 s
  let a := mul s.a (← rd K 48)
  let d := mul s.d (← rd K 51)
  let b := s.c + (← rd K 49)
  let c := s.b + (← rd K 50)
  return store ⟨a, b, c, d⟩

/-- The product of two words of 16 bits in the type `int`, undefined when it does not fit, added to such a word (src/kryptos_idea.c:211 and
218). -/
def addMul (t q u : W16) : Out W16 :=
  if q.toNat * u.toNat < 2 ^ 31 then .ok (BitVec.ofNat 16 (t.toNat + q.toNat * u.toNat)) else .ub

/-- The loop of `kryptos_idea_get_inv_multiplier` (src/kryptos_idea.c:208-220), at most `fuel` times; divisions by zero are undefined. -/
def invLoop : Nat → W16 → W16 → W16 → W16 → Out W16
  | 0, _, _, _, _ => .ub
  | fuel + 1, value, y, t0, t1 =>
    if y = 0 then .ub else do
      let q := value / y
      let value := value % y
      let t0 ← addMul t0 q t1
      if value = 1 then return t0
      else if value = 0 then .ub
      else do
        let q := y / value
        let y := y % value
        let t1 ← addMul t1 q t0
        if y ≠ 1 then invLoop fuel value y t0 t1
        else return 1 - t1

/-- `kryptos_idea_get_inv_multiplier` (src/kryptos_idea.c:191-224): what it leaves in `*inv`, which holds `value` before. -/
def invMul (value : W16) : Out W16 :=
  if value.toNat ≤ 1 then .ok value
  else
    let t1 := BitVec.ofNat 16 (0x10001 / value.toNat)
    let y := BitVec.ofNat 16 (0x10001 % value.toNat)
    if y = 1 then .ok (1 - t1) else invLoop 65536 value y 1 t1

/-- The loop body of `kryptos_idea_inv_subkeys` (src/kryptos_idea.c:229-234), `w = 6 * j`. -/
def invStep (j : Nat) (K : List W16) : Out (List W16) := do
  let K ← wr K (6 * j) (← invMul (← rd K (6 * j)))
  wr K (6 * j + 3) (← invMul (← rd K (6 * j + 3)))

/-- `kryptos_idea_inv_subkeys` (src/kryptos_idea.c:226-235). -/
def invSubkeys (K : List W16) : Out (List W16) := forLoop invStep 9 0 K

/-- The loop body of the decryption (src/kryptos_idea.c:260-283), `r = 6 * j`. -/
def decStep (K : List W16) (j : Nat) (s : Four 16) : Out (Four 16) := do
  let s := ma (← rd K (6 * j + 4)) (← rd K (6 * j + 5)) s
  let a := mul s.a (← rd K (6 * j))
  let d := mul s.d (← rd K (6 * j + 3))
  let b := s.c - (← rd K (6 * j + 1))
  let c := s.b - (← rd K (6 * j + 2))
  return ⟨a, b, c, d⟩

/-- `kryptos_idea_block_decrypt` (src/kryptos_idea.c:237-293). -/
def decBlock (K : List W16) (block : Bytes) : Out Bytes := do
  let s ← load block
  let a := mul s.a (← rd K 48)
  let d := mul s.d (← rd K 51)
  let b := s.c - (← rd K 50)
  let c := s.b - (← rd K 49)
  let s ← forLoop (fun j => decStep K (8 - 1 - j)) 8 0 ⟨a, b, c, d⟩
  return store s

/-- The block functions with the key schedule (src/kryptos_idea.c:46-59). -/
def enc (key block : Bytes) : Out Bytes := do encBlock (← sched key) block
def dec (key block : Bytes) : Out Bytes := do decBlock (← invSubkeys (← sched key)) block

end Kryptos.Idea
