import Verif.Words
import Verif.Spec.MerkleDamgard
import Mathlib.Logic.Function.Basic
/-
  Tiger (R. Anderson, E. Biham, "Tiger: A Fast New Hash Function", 1996), with the program by which its authors define the S-boxes.
-/
namespace Kryptos.Spec.Tiger
open MD

/-- The S-boxes: number of the box (from 0) and index. -/
abbrev Boxes := Nat → Nat → W64

/-- The byte `i` of a word, 0 being the least significant. -/
def byteAt (c : W64) (i : Nat) : Nat := c.toNat / 256 ^ i % 256

/-- A round, after which the registers change places: `round(a, b, c)` is followed by `round(b, c, a)`. -/
def round (T : Boxes) (mul : Nat) (s : Three 64) (x : W64) : Three 64 :=
  let c := s.c ^^^ x
  let a := s.a - (T 0 (byteAt c 0) ^^^ T 1 (byteAt c 2) ^^^ T 2 (byteAt c 4) ^^^ T 3 (byteAt c 6))
  let b := (s.b + (T 3 (byteAt c 1) ^^^ T 2 (byteAt c 3) ^^^ T 1 (byteAt c 5) ^^^ T 0 (byteAt c 7))) * BitVec.ofNat 64 mul
  ⟨b, c, a⟩

/-- A pass of eight rounds.  It leaves the registers in the places in which the next pass takes them: `pass(a, b, c)`, `pass(c, a, b)`,
`pass(b, c, a)`. -/
def pass (T : Boxes) (mul : Nat) (s : Three 64) (x : Nat → W64) : Three 64 :=
  (List.range 8).foldl (fun s i => round T mul s (x i)) s

/-- Step `i` of the key schedule: the word `i mod 8` is changed by its predecessors, by subtraction, exclusive or and addition in turn;
the subtracted words are mixed with a constant at the ends and with a shifted complement elsewhere. -/
def ksStep (x : Nat → W64) (i : Nat) : Nat → W64 :=
  let p := x ((i + 7) % 8)
  let q := ~~~ x ((i + 6) % 8)
  Function.update x (i % 8) (
    if i % 3 = 1 then x (i % 8) ^^^ p
    else if i % 3 = 2 then x (i % 8) + p
    else x (i % 8) - (p ^^^ (
      if i = 0 then 0xA5A5A5A5A5A5A5A5#64 else if i = 15 then 0x0123456789ABCDEF#64
      else if i % 2 = 1 then q <<< 19 else q >>> 23)))

/-- The key schedule. -/
def keySchedule (x : Nat → W64) : Nat → W64 := (List.range 16).foldl ksStep x

/-- The words of a block, least significant byte first. -/
def word (blk : Bytes) (i : Nat) : W64 := BitVec.ofNat 64 (leNat ((blk.drop (8 * i)).take 8))

/-- The compression of eight words. -/
def compressWords (T : Boxes) (st : Three 64) (x : Nat → W64) : Three 64 :=
  let s := pass T 5 st x
  let s := pass T 7 s (keySchedule x)
  let s := pass T 9 s (keySchedule (keySchedule x))
  ⟨s.a ^^^ st.a, s.b - st.b, s.c + st.c⟩

/-- The compression function. -/
def compress (T : Boxes) (st : Three 64) (blk : Bytes) : Three 64 := compressWords T st (word blk)

/-- The initial values. -/
def init : Three 64 := ⟨0x0123456789ABCDEF#64, 0xFEDCBA9876543210#64, 0xF096A5B4C3B2E187#64⟩

/-- The padding: a byte 1, zeros, the length in bits as 64 bits, least significant byte first. -/
def padTiger (m : Bytes) : Bytes := pad 64 8 0x01#8 (le 8) m

/-- The digest, least significant byte of each word first. -/
def output (ws : List W64) : Bytes := ws.flatMap fun x => le 8 x.toNat

/-! ### The generation of the S-boxes -/

/-- The S-boxes by bytes: number of the box, index, column. -/
abbrev Cells := Nat → Nat → Nat → Byte

def boxes (B : Cells) : Boxes := fun k i => BitVec.ofNat 64 (leNat ((List.range 8).map (B k i)))

/-- The exchange of two bytes of a column. -/
def swap (B : Cells) (k col i j : Nat) : Cells := fun k' i' col' =>
  if k' = k ∧ col' = col then (if i' = i then B k j col else if i' = j then B k i col else B k' i' col') else B k' i' col'

/-- The words of the text "Tiger - A Fast New Hash Function, by Ross Anderson and Eli Biham". -/
def text : Bytes :=
  "Tiger - A Fast New Hash Function, by Ross Anderson and Eli Biham".toList.map fun ch => BitVec.ofNat 8 ch.toNat

/-- A step of the generation, `e` being the number of steps done.  For each of the 256 indices in turn the four boxes are treated in
turn; the three words of the state are used in turn, and the state is compressed with the text when they are used up; every column
exchanges the entry at the index with the entry at the byte of the word. -/
def genStep (s : Cells × Three 64) (e : Nat) : Cells × Three 64 :=
  let st := if e % 3 = 0 then compress (boxes s.1) s.2 text else s.2
  let v := if e % 3 = 0 then st.a else if e % 3 = 1 then st.b else st.c
  ((List.range 8).foldl (fun B col => swap B (e % 4) col (e / 4 % 256) (byteAt v col)) s.1, st)

/-- The S-boxes: five passes over the 256 indices of the four boxes, beginning with the identity in every column. -/
def cells : Cells := ((List.range (5 * 256 * 4)).foldl genStep ((fun _ i _ => BitVec.ofNat 8 i), init)).1

/-- The Tiger digest. -/
def tiger (m : Bytes) : Bytes := output (iterate 64 (compress (boxes cells)) init (padTiger m)).words

end Kryptos.Spec.Tiger
