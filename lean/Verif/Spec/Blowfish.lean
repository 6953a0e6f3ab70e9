import Verif.Words
/-
  Blowfish (Schneier, FSE 1993) and bcrypt (Provos and Mazières, USENIX 1999).  The subkeys are one list of 1042 words: the P-array of 18 words
  and then four boxes of 256 words each.
-/
namespace Kryptos.Spec.Blowfish

/-- `2^n` times the inverse tangent of `1/k` up to rounding errors: terms of the series from `x`, with `m` and `m + 2` as divisors, until they
vanish. -/
def atan (k2 : Nat) : Nat → Nat → Nat → Nat → Nat → Nat
  | 0, _, _, pos, neg => pos - neg
  | fuel + 1, x, m, pos, neg =>
    if x = 0 then pos - neg else atan k2 fuel (x / k2 / k2) (m + 4) (pos + x / m) (neg + x / k2 / (m + 2))

/-- The first 33344 bits of the fraction of pi, by Machin's formula with 64 further bits. -/
def piFrac : Nat :=
  (4 * (4 * atan 25 4000 (2 ^ 33408 / 5) 1 0 0 - atan 57121 4000 (2 ^ 33408 / 239) 1 0 0)) / 2 ^ 64 % 2 ^ 33344

/-- The initial subkeys are the fraction of pi in words. -/
def piWords : List W32 := (List.range 1042).map fun i => BitVec.ofNat 32 (piFrac / 2 ^ (32 * (1041 - i)))

def P (s : List W32) (i : Nat) : W32 := s.getD i 0
def S (s : List W32) (b i : Nat) : W32 := s.getD (18 + 256 * b + i) 0

/-- The bytes of a word, the highest first. -/
def byte (x : W32) (i : Nat) : Nat := x.toNat / 256 ^ (3 - i) % 256

def F (s : List W32) (x : W32) : W32 := ((S s 0 (byte x 0) + S s 1 (byte x 1)) ^^^ S s 2 (byte x 2)) + S s 3 (byte x 3)

/-- Sixteen rounds with elements of the P-array in some order, each followed by an exchange of the halves. -/
def rounds (s : List W32) (order : List Nat) (b : W32 × W32) : W32 × W32 :=
  order.foldl (fun b i => (b.2 ^^^ F s (b.1 ^^^ P s i), b.1 ^^^ P s i)) b

/-- After the last round the exchange is undone and the last two elements are added. -/
def encrypt (s : List W32) (b : W32 × W32) : W32 × W32 :=
  let c := rounds s (List.range 16) b
  (c.2 ^^^ P s 17, c.1 ^^^ P s 16)

/-- The same with the P-array in reverse order. -/
def decrypt (s : List W32) (b : W32 × W32) : W32 × W32 :=
  let c := rounds s [17, 16, 15, 14, 13, 12, 11, 10, 9, 8, 7, 6, 5, 4, 3, 2] b
  (c.2 ^^^ P s 0, c.1 ^^^ P s 1)

/-- The word `i` of the bytes of a key, repeated as often as necessary. -/
def keyWord (key : Bytes) (i : Nat) : W32 :=
  (List.range 4).foldl (fun w j => w <<< 8 ||| (key.getD ((4 * i + j) % key.length) 0).setWidth 32) 0

/-- The key is added to the P-array. -/
def mix (key : Bytes) (s : List W32) : List W32 := (List.range 18).foldl (fun s i => s.set i (P s i ^^^ keyWord key i)) s

/-- Two more words are replaced by the encryption of the last two, to which half of the salt is added. -/
def step (salt : (W32 × W32) × (W32 × W32)) (t : List W32 × (W32 × W32)) (i : Nat) : List W32 × (W32 × W32) :=
  let h := if i % 2 = 0 then salt.1 else salt.2
  let b := encrypt t.1 (t.2.1 ^^^ h.1, t.2.2 ^^^ h.2)
  ((t.1.set (2 * i) b.1).set (2 * i + 1) b.2, b)

/-- `ExpandKey` with the four words of a salt. -/
def expandKey (salt : (W32 × W32) × (W32 × W32)) (key : Bytes) (s : List W32) : List W32 :=
  ((List.range 521).foldl (step salt) (mix key s, (0, 0))).1

/-- The subkeys of Blowfish: no salt. -/
def schedule (key : Bytes) : List W32 := expandKey ((0, 0), (0, 0)) key piWords

/-- The four words of a salt. -/
def saltWords (salt : Bytes) : (W32 × W32) × (W32 × W32) := ((keyWord salt 0, keyWord salt 1), (keyWord salt 2, keyWord salt 3))

/-- A function, applied so many times. -/
def times {α : Type} (f : α → α) : Nat → α → α
  | 0, x => x
  | n + 1, x => times f n (f x)

/-- `EksBlowfishSetup`. -/
def setup (cost : Nat) (salt key : Bytes) : List W32 :=
  times (fun s => expandKey ((0, 0), (0, 0)) salt (expandKey ((0, 0), (0, 0)) key s)) (2 ^ cost) (expandKey (saltWords salt) key piWords)

/-- The six words of "OrpheanBeholderScryDoubt", encrypted 64 times. -/
def raw (cost : Nat) (salt key : Bytes) : List (W32 × W32) :=
  [(0x4F727068, 0x65616E42), (0x65686F6C, 0x64657253), (0x63727944, 0x6F756274)].map (times (encrypt (setup cost salt key)) 64)

/-- The characters for six bits. -/
def alphabet : Bytes := ascii "./ABCDEFGHIJKLMNOPQRSTUVWXYZabcdefghijklmnopqrstuvwxyz0123456789"
def char (v : BitVec 6) : Byte := alphabet.getD v.toNat 0

/-- Six bits at a time, with zeros behind the last ones. -/
def radix64 : Bytes → Bytes
  | x :: y :: z :: t =>
    let v : BitVec 24 := x ++ y ++ z
    [char (v.extractLsb' 18 6), char (v.extractLsb' 12 6), char (v.extractLsb' 6 6), char (v.extractLsb' 0 6)] ++ radix64 t
  | [x, y] =>
    let v : BitVec 18 := x ++ y ++ 0#2
    [char (v.extractLsb' 12 6), char (v.extractLsb' 6 6), char (v.extractLsb' 0 6)]
  | [x] =>
    let v : BitVec 12 := x ++ 0#4
    [char (v.extractLsb' 6 6), char (v.extractLsb' 0 6)]
  | [] => []

/-- The bytes of a word. -/
def bytes (x : W32) : Bytes := (List.range 4).map fun i => BitVec.ofNat 8 (byte x i)

/-- The text of a hash; a zero byte is added to the password, and the last byte of the ciphertext is left out. -/
def hash (cost : Nat) (salt password : Bytes) : Bytes :=
  ascii "$2a$" ++ [BitVec.ofNat 8 (48 + cost / 10), BitVec.ofNat 8 (48 + cost % 10)] ++ ascii "$" ++ radix64 salt ++
    radix64 (((raw cost salt (password ++ [0])).flatMap fun b => bytes b.1 ++ bytes b.2).take 23)

end Kryptos.Spec.Blowfish
