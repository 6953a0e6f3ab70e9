import Verif.Lemmas.Tiger
import Mathlib.Tactic.IntervalCases
/-
  The generation of the S-boxes of Tiger on natural numbers: a box is kept as one number, its entries being the digits to base `2 ^ 64`,
  least significant first.  Nothing here is a model of the code.
-/
namespace Kryptos.TigerGen
open Spec Spec.MD Spec.Tiger

/-- The application of a function, after which the kernel goes on with a literal. -/
def force {α : Sort _} (n : Nat) (f : Nat → α) : α := Nat.rec (motive := fun _ => α) (f 0) (fun k _ => f (k + 1)) n

theorem force_eq {α : Sort _} (n : Nat) (f : Nat → α) : force n f = f n := by cases n <;> rfl

abbrev Q : Nat := 18446744073709551616

/-- The entry of a box at byte `k` (counted in bits) of a number. -/
def lk (t c k : Nat) : Nat := (t >>> (((c >>> k) % 256) * 64)) % Q

def xa (t0 t1 t2 t3 c : Nat) : Nat := Nat.xor (Nat.xor (Nat.xor (lk t0 c 0) (lk t1 c 16)) (lk t2 c 32)) (lk t3 c 48)
def xb (t0 t1 t2 t3 c : Nat) : Nat := Nat.xor (Nat.xor (Nat.xor (lk t3 c 8) (lk t2 c 24)) (lk t1 c 40)) (lk t0 c 56)

/-- A round; the registers are handed on in their new places. -/
def rnd (t0 t1 t2 t3 m a b c x : Nat) (k : Nat → Nat → Nat → Bool) : Bool :=
  force (Nat.xor c x) fun c =>
  force ((Q - xa t0 t1 t2 t3 c + a) % Q) fun a =>
  force ((b + xb t0 t1 t2 t3 c) % Q * m % Q) fun b => k b c a

def pass8 (t0 t1 t2 t3 m x0 x1 x2 x3 x4 x5 x6 x7 a b c : Nat) (k : Nat → Nat → Nat → Bool) : Bool :=
  rnd t0 t1 t2 t3 m a b c x0 fun a b c => rnd t0 t1 t2 t3 m a b c x1 fun a b c =>
  rnd t0 t1 t2 t3 m a b c x2 fun a b c => rnd t0 t1 t2 t3 m a b c x3 fun a b c =>
  rnd t0 t1 t2 t3 m a b c x4 fun a b c => rnd t0 t1 t2 t3 m a b c x5 fun a b c =>
  rnd t0 t1 t2 t3 m a b c x6 fun a b c => rnd t0 t1 t2 t3 m a b c x7 k

/-- The words of the text and what the key schedule makes of them. -/
def x0 : Eight 64 := ⟨0x202d207265676954#64, 0x4e20747361462041#64, 0x2068736148207765#64, 0x6e6f6974636e7546#64, 0x736f52207962202c#64, 0x737265646e412073#64, 0x4520646e61206e6f#64, 0x6d6168694220696c#64⟩
def x1 : Eight 64 := ⟨0x063480c9adbb5ef7#64, 0x905e24dddb845dd3#64, 0xa9eebeeabf4c69fc#64, 0x275ea769a55aab13#64, 0xe6a212991793dfa9#64, 0x67d10d5a1a3e5e07#64, 0x2b7e53a788380907#64, 0x846f17642e45fd84#64⟩
def x2 : Eight 64 := ⟨0xa275cf5188411242#64, 0x1c76e737cd8648c3#64, 0x02504ef7742d8dc2#64, 0x7238719b7b0c73d4#64, 0x1711bfdcecded6f8#64, 0xe60a824bc755413a#64, 0x206d98790f793822#64, 0x9cbd242adf93159f#64⟩

theorem x0_eq : ∀ i < 8, word text i = Tiger.fn x0 i := by decide +kernel
theorem x1_eq : Tiger.keySched x0 = x1 := by decide +kernel
theorem x2_eq : Tiger.keySched x1 = x2 := by decide +kernel

/-- The compression of the text. -/
def comp (t0 t1 t2 t3 a b c : Nat) (k : Nat → Nat → Nat → Bool) : Bool :=
  pass8 t0 t1 t2 t3 5 0x202d207265676954 0x4e20747361462041 0x2068736148207765 0x6e6f6974636e7546 0x736f52207962202c 0x737265646e412073 0x4520646e61206e6f 0x6d6168694220696c a b c fun a1 b1 c1 =>
  pass8 t0 t1 t2 t3 7 0x063480c9adbb5ef7 0x905e24dddb845dd3 0xa9eebeeabf4c69fc 0x275ea769a55aab13 0xe6a212991793dfa9 0x67d10d5a1a3e5e07 0x2b7e53a788380907 0x846f17642e45fd84 a1 b1 c1 fun a1 b1 c1 =>
  pass8 t0 t1 t2 t3 9 0xa275cf5188411242 0x1c76e737cd8648c3 0x02504ef7742d8dc2 0x7238719b7b0c73d4 0x1711bfdcecded6f8 0xe60a824bc755413a 0x206d98790f793822 0x9cbd242adf93159f a1 b1 c1 fun a1 b1 c1 =>
  force (Nat.xor a1 a) fun a2 => force ((Q - b + b1) % Q) fun b2 => force ((c1 + c) % Q) fun c2 => k a2 b2 c2

/-- The exchange of the bytes at the bit offsets `p` and `q`. -/
def swp (t p q : Nat) (k : Nat → Bool) : Bool :=
  force ((Nat.xor (t >>> p) (t >>> q)) % 256) fun d => force (Nat.xor (Nat.xor t (d <<< p)) (d <<< q)) k

def swap8 (t i v : Nat) (k : Nat → Bool) : Bool :=
  swp t (64 * i) (64 * (v % 256)) fun t =>
  swp t (64 * i + 8) (64 * (v >>> 8 % 256) + 8) fun t =>
  swp t (64 * i + 16) (64 * (v >>> 16 % 256) + 16) fun t =>
  swp t (64 * i + 24) (64 * (v >>> 24 % 256) + 24) fun t =>
  swp t (64 * i + 32) (64 * (v >>> 32 % 256) + 32) fun t =>
  swp t (64 * i + 40) (64 * (v >>> 40 % 256) + 40) fun t =>
  swp t (64 * i + 48) (64 * (v >>> 48 % 256) + 48) fun t =>
  swp t (64 * i + 56) (64 * (v >>> 56 % 256) + 56) k

abbrev K := Nat → Nat → Nat → Nat → Nat → Nat → Nat → Bool

def sel (e t0 t1 t2 t3 a b c : Nat) (k : K) : Bool :=
  force (bif Nat.beq (e % 3) 0 then a else bif Nat.beq (e % 3) 1 then b else c) fun v =>
  bif Nat.beq (e % 4) 0 then swap8 t0 (e / 4 % 256) v fun t0 => k t0 t1 t2 t3 a b c
  else bif Nat.beq (e % 4) 1 then swap8 t1 (e / 4 % 256) v fun t1 => k t0 t1 t2 t3 a b c
  else bif Nat.beq (e % 4) 2 then swap8 t2 (e / 4 % 256) v fun t2 => k t0 t1 t2 t3 a b c
  else swap8 t3 (e / 4 % 256) v fun t3 => k t0 t1 t2 t3 a b c

def step (e t0 t1 t2 t3 a b c : Nat) (k : K) : Bool :=
  bif Nat.beq (e % 3) 0 then comp t0 t1 t2 t3 a b c fun a b c => sel e t0 t1 t2 t3 a b c k
  else sel e t0 t1 t2 t3 a b c k

def run : Nat → Nat → Nat → Nat → Nat → Nat → Nat → Nat → Nat → K → Bool
  | 0, _, t0, t1, t2, t3, a, b, c, k => k t0 t1 t2 t3 a b c
  | n + 1, e, t0, t1, t2, t3, a, b, c, k => step e t0 t1 t2 t3 a b c fun t0 t1 t2 t3 a b c => force (e + 1) fun e => run n e t0 t1 t2 t3 a b c k

/-! ### What the functions compute -/

/-- The number stands for the box. -/
def RepT (t : Nat) (C : Nat → Nat → Byte) : Prop := ∀ i < 256, ∀ col < 8, (t >>> (64 * i + 8 * col)) % 256 = (C i col).toNat

theorem sum8 (n : Nat) : n % Q = n % 256 + 256 * (n >>> 8 % 256) + 65536 * (n >>> 16 % 256) + 16777216 * (n >>> 24 % 256) +
    4294967296 * (n >>> 32 % 256) + 1099511627776 * (n >>> 40 % 256) + 281474976710656 * (n >>> 48 % 256) + 72057594037927936 * (n >>> 56 % 256) := by
  have e : ∀ a b, n >>> (a + b) = n >>> a >>> b := fun a b => Nat.shiftRight_add n a b
  rw [show 16 = 8 + 8 from rfl, e, show 24 = 8 + 8 + 8 from rfl, e, e, show 32 = 8 + 8 + 8 + 8 from rfl, e, e, e,
    show 40 = 8 + 8 + 8 + 8 + 8 from rfl, e, e, e, e, show 48 = 8 + 8 + 8 + 8 + 8 + 8 from rfl, e, e, e, e, e,
    show 56 = 8 + 8 + 8 + 8 + 8 + 8 + 8 from rfl, e, e, e, e, e, e]
  simp only [Nat.shiftRight_eq_div_pow]
  show n % 18446744073709551616 = _
  omega

theorem boxes_toNat (B : Cells) (k i : Nat) : (boxes B k i).toNat = (B k i 0).toNat + 256 * (B k i 1).toNat + 65536 * (B k i 2).toNat +
    16777216 * (B k i 3).toNat + 4294967296 * (B k i 4).toNat + 1099511627776 * (B k i 5).toNat + 281474976710656 * (B k i 6).toNat +
    72057594037927936 * (B k i 7).toNat := by
  unfold boxes
  rw [BitVec.toNat_ofNat]
  simp only [leNat, beNat, List.range, List.range.loop, List.map_cons, List.map_nil, List.reverse_cons, List.reverse_nil, List.nil_append,
    List.cons_append, List.foldl_cons, List.foldl_nil]
  have := (B k i 0).isLt; have := (B k i 1).isLt; have := (B k i 2).isLt; have := (B k i 3).isLt
  have := (B k i 4).isLt; have := (B k i 5).isLt; have := (B k i 6).isLt; have := (B k i 7).isLt
  omega

theorem entry_eq (t : Nat) (B : Cells) (k : Nat) (h : RepT t (B k)) (i : Nat) (hi : i < 256) : (t >>> (i * 64)) % Q = (boxes B k i).toNat := by
  rw [sum8, boxes_toNat, ← h i hi 0 (by omega), ← h i hi 1 (by omega), ← h i hi 2 (by omega), ← h i hi 3 (by omega), ← h i hi 4 (by omega),
    ← h i hi 5 (by omega), ← h i hi 6 (by omega), ← h i hi 7 (by omega)]
  simp only [← Nat.shiftRight_add, Nat.mul_comm i 64, Nat.mul_zero, Nat.add_zero, Nat.reduceMul]

theorem byte_shift (w : W64) (j : Nat) : (w.toNat >>> (8 * j)) % 256 = byteAt w j := by
  unfold byteAt
  rw [Nat.shiftRight_eq_div_pow, Nat.pow_mul]

theorem lk_eq (t : Nat) (B : Cells) (k : Nat) (h : RepT t (B k)) (w : W64) (j : Nat) : lk t w.toNat (8 * j) = (boxes B k (byteAt w j)).toNat := by
  unfold lk
  rw [byte_shift, entry_eq t B k h _ (Tiger.byte_bound _ _)]

theorem rnd_eq (t0 t1 t2 t3 : Nat) (B : Cells) (h0 : RepT t0 (B 0)) (h1 : RepT t1 (B 1)) (h2 : RepT t2 (B 2)) (h3 : RepT t3 (B 3))
    (mul : Nat) (hm : mul < Q) (s : Three 64) (x : W64) (k : Nat → Nat → Nat → Bool) :
    rnd t0 t1 t2 t3 mul s.a.toNat s.b.toNat s.c.toNat x.toNat k =
      k (Spec.Tiger.round (boxes B) mul s x).a.toNat (Spec.Tiger.round (boxes B) mul s x).b.toNat (Spec.Tiger.round (boxes B) mul s x).c.toNat := by
  unfold rnd
  rw [force_eq, force_eq, force_eq]
  have ex : Nat.xor s.c.toNat x.toNat = (s.c ^^^ x).toNat := rfl
  rw [ex]
  have ea : xa t0 t1 t2 t3 (s.c ^^^ x).toNat = (boxes B 0 (byteAt (s.c ^^^ x) 0) ^^^ boxes B 1 (byteAt (s.c ^^^ x) 2) ^^^
      boxes B 2 (byteAt (s.c ^^^ x) 4) ^^^ boxes B 3 (byteAt (s.c ^^^ x) 6)).toNat := by
    unfold xa
    rw [show (0 : Nat) = 8 * 0 from rfl, show 16 = 8 * 2 from rfl, show 32 = 8 * 4 from rfl, show 48 = 8 * 6 from rfl, lk_eq t0 B 0 h0,
      lk_eq t1 B 1 h1, lk_eq t2 B 2 h2, lk_eq t3 B 3 h3]
    rfl
  have eb : xb t0 t1 t2 t3 (s.c ^^^ x).toNat = (boxes B 3 (byteAt (s.c ^^^ x) 1) ^^^ boxes B 2 (byteAt (s.c ^^^ x) 3) ^^^
      boxes B 1 (byteAt (s.c ^^^ x) 5) ^^^ boxes B 0 (byteAt (s.c ^^^ x) 7)).toNat := by
    unfold xb
    rw [show (8 : Nat) = 8 * 1 from rfl, show 24 = 8 * 3 from rfl, show 40 = 8 * 5 from rfl, show 56 = 8 * 7 from rfl, lk_eq t3 B 3 h3,
      lk_eq t2 B 2 h2, lk_eq t1 B 1 h1, lk_eq t0 B 0 h0]
    rfl
  rw [ea, eb]
  unfold Spec.Tiger.round
  dsimp only
  rw [BitVec.toNat_sub, BitVec.toNat_mul, BitVec.toNat_add, BitVec.toNat_ofNat, Nat.mod_eq_of_lt (a := mul) hm]

theorem pass8_eq (t0 t1 t2 t3 : Nat) (B : Cells) (h0 : RepT t0 (B 0)) (h1 : RepT t1 (B 1)) (h2 : RepT t2 (B 2)) (h3 : RepT t3 (B 3))
    (mul : Nat) (hm : mul < Q) (s : Three 64) (x : Eight 64) (k : Nat → Nat → Nat → Bool) :
    pass8 t0 t1 t2 t3 mul x.a.toNat x.b.toNat x.c.toNat x.d.toNat x.e.toNat x.f.toNat x.g.toNat x.h.toNat s.a.toNat s.b.toNat s.c.toNat k =
      k (pass (boxes B) mul s (Tiger.fn x)).a.toNat (pass (boxes B) mul s (Tiger.fn x)).b.toNat (pass (boxes B) mul s (Tiger.fn x)).c.toNat := by
  unfold pass8
  simp only [rnd_eq t0 t1 t2 t3 B h0 h1 h2 h3 mul hm]
  rfl

theorem comp_eq (t0 t1 t2 t3 : Nat) (B : Cells) (h0 : RepT t0 (B 0)) (h1 : RepT t1 (B 1)) (h2 : RepT t2 (B 2)) (h3 : RepT t3 (B 3))
    (s : Three 64) (k : Nat → Nat → Nat → Bool) :
    comp t0 t1 t2 t3 s.a.toNat s.b.toNat s.c.toNat k =
      k (compress (boxes B) s text).a.toNat (compress (boxes B) s text).b.toNat (compress (boxes B) s text).c.toNat := by
  have p := fun mul hm => pass8_eq t0 t1 t2 t3 B h0 h1 h2 h3 mul hm
  have k1 := Tiger.keySched_eq x0 (word text) x0_eq
  rw [x1_eq] at k1
  have k2 := Tiger.keySched_eq x1 _ k1
  rw [x2_eq] at k2
  unfold comp
  refine (p 5 (by decide) s x0 _).trans ?_
  refine (p 7 (by decide) _ x1 _).trans ?_
  refine (p 9 (by decide) _ x2 _).trans ?_
  rw [force_eq, force_eq, force_eq]
  unfold compress compressWords
  dsimp only
  rw [Tiger.pass_congr (boxes B) (boxes B) 5 s (word text) (Tiger.fn x0) (fun _ _ _ _ => rfl) x0_eq,
    Tiger.pass_congr (boxes B) (boxes B) 7 _ _ (Tiger.fn x1) (fun _ _ _ _ => rfl) k1,
    Tiger.pass_congr (boxes B) (boxes B) 9 _ _ (Tiger.fn x2) (fun _ _ _ _ => rfl) k2, BitVec.toNat_sub, BitVec.toNat_add, BitVec.toNat_xor]
  rfl

theorem swp_eq (t p q : Nat) (k : Nat → Bool) : ∃ u, swp t (8 * p) (8 * q) k = k u ∧
    ∀ r, (u >>> (8 * r)) % 256 = if r = p then (t >>> (8 * q)) % 256 else if r = q then (t >>> (8 * p)) % 256 else (t >>> (8 * r)) % 256 := by
  refine ⟨Nat.xor (Nat.xor t ((Nat.xor (t >>> (8 * p)) (t >>> (8 * q)) % 256) <<< (8 * p))) ((Nat.xor (t >>> (8 * p)) (t >>> (8 * q)) % 256) <<< (8 * q)), ?_, ?_⟩
  · unfold swp
    rw [force_eq, force_eq]
  intro r
  have hd : ∀ a b, Nat.xor a b = a ^^^ b := fun _ _ => rfl
  simp only [hd, show 256 = 2 ^ 8 from rfl]
  apply Nat.eq_of_testBit_eq
  intro i
  have hs : ∀ s, Nat.testBit (((t >>> (8 * p) ^^^ t >>> (8 * q)) % 2 ^ 8) <<< (8 * s)) (8 * r + i) =
      (decide (8 * s ≤ 8 * r + i) && (decide (8 * r + i - 8 * s < 8) && (Nat.testBit t (8 * p + (8 * r + i - 8 * s)) ^^ Nat.testBit t (8 * q + (8 * r + i - 8 * s))))) := by
    intro s
    rw [Nat.testBit_shiftLeft, Nat.testBit_mod_two_pow, Nat.testBit_xor, Nat.testBit_shiftRight, Nat.testBit_shiftRight]
  by_cases hi : i < 8
  · by_cases hp : r = p
    · subst hp
      rw [if_pos rfl, Nat.testBit_mod_two_pow, Nat.testBit_mod_two_pow, Nat.testBit_shiftRight, Nat.testBit_xor, Nat.testBit_xor, hs, hs,
        Nat.testBit_shiftRight]
      by_cases hq : r = q
      · subst hq
        simp
      · have : (decide (8 * q ≤ 8 * r + i) && decide (8 * r + i - 8 * q < 8)) = false := by
          simp
          omega
        rw [← Bool.and_assoc, ← Bool.and_assoc, this]
        simp [hi]
    · rw [if_neg hp]
      by_cases hq : r = q
      · subst hq
        have : (decide (8 * p ≤ 8 * r + i) && decide (8 * r + i - 8 * p < 8)) = false := by
          simp
          omega
        rw [if_pos rfl, Nat.testBit_mod_two_pow, Nat.testBit_mod_two_pow, Nat.testBit_shiftRight, Nat.testBit_xor, Nat.testBit_xor, hs, hs,
          Nat.testBit_shiftRight, ← Bool.and_assoc, ← Bool.and_assoc, this]
        simp only [hi, Nat.add_sub_cancel_left, Nat.le_add_right, decide_true, Bool.true_and, Bool.false_and, Bool.xor_false]
        generalize Nat.testBit t (8 * p + i) = x
        generalize Nat.testBit t (8 * r + i) = y
        cases x <;> cases y <;> rfl
      · have h1 : (decide (8 * p ≤ 8 * r + i) && decide (8 * r + i - 8 * p < 8)) = false := by
          simp
          omega
        have h2 : (decide (8 * q ≤ 8 * r + i) && decide (8 * r + i - 8 * q < 8)) = false := by
          simp
          omega
        rw [if_neg hq, Nat.testBit_mod_two_pow, Nat.testBit_mod_two_pow, Nat.testBit_shiftRight, Nat.testBit_xor, Nat.testBit_xor, hs, hs,
          Nat.testBit_shiftRight, ← Bool.and_assoc, ← Bool.and_assoc, h1, h2]
        simp
  · have z : ∀ x, Nat.testBit (x % 2 ^ 8) i = false := by
      intro x
      rw [Nat.testBit_mod_two_pow]
      simp [hi]
    rw [z]
    split
    · rw [z]
    · split <;> rw [z]

theorem swp_rep (t i j col : Nat) (B : Cells) (b : Nat) (h : RepT t (B b)) (hi : i < 256) (hj : j < 256) (hc : col < 8) (k : Nat → Bool) :
    ∃ u, swp t (64 * i + 8 * col) (64 * j + 8 * col) k = k u ∧ RepT u (swap B b col i j b) := by
  obtain ⟨u, hu, hr⟩ := swp_eq t (8 * i + col) (8 * j + col) k
  refine ⟨u, ?_, ?_⟩
  · rw [← hu]
    congr 1 <;> omega
  · intro i' hi' col' hc'
    have := hr (8 * i' + col')
    rw [show 8 * (8 * i' + col') = 64 * i' + 8 * col' by omega, show 8 * (8 * i + col) = 64 * i + 8 * col by omega,
      show 8 * (8 * j + col) = 64 * j + 8 * col by omega, h i' hi' col' hc', h i hi col hc, h j hj col hc] at this
    rw [this]
    unfold swap
    by_cases e : col' = col
    · subst e
      by_cases e1 : i' = i
      · subst e1
        simp
      · rw [if_neg (by omega)]
        by_cases e2 : i' = j
        · subst e2
          simp [e1]
        · rw [if_neg (by omega)]
          simp [e1, e2]
    · rw [if_neg (by omega), if_neg (by omega)]
      simp [e]

theorem swap8_rep (t i : Nat) (v : W64) (B : Cells) (b : Nat) (h : RepT t (B b)) (hi : i < 256) (k : Nat → Bool) :
    ∃ u, swap8 t i v.toNat k = k u ∧ RepT u ((List.range 8).foldl (fun B col => swap B b col i (byteAt v col)) B b) := by
  unfold swap8
  have b0 : v.toNat % 256 = byteAt v 0 := by rw [← byte_shift]; rfl
  have bj := fun j => byte_shift v j
  rw [b0, show v.toNat >>> 8 % 256 = byteAt v 1 from bj 1, show v.toNat >>> 16 % 256 = byteAt v 2 from bj 2,
    show v.toNat >>> 24 % 256 = byteAt v 3 from bj 3, show v.toNat >>> 32 % 256 = byteAt v 4 from bj 4,
    show v.toNat >>> 40 % 256 = byteAt v 5 from bj 5, show v.toNat >>> 48 % 256 = byteAt v 6 from bj 6,
    show v.toNat >>> 56 % 256 = byteAt v 7 from bj 7]
  have bb := fun j => Tiger.byte_bound v j
  obtain ⟨u0, e0, h0⟩ := swp_rep t i _ 0 B b h hi (bb 0) (by omega) _
  refine Exists.imp (fun u => And.imp_left fun hh => e0.trans hh) ?_
  obtain ⟨u1, e1, h1⟩ := swp_rep u0 i _ 1 _ b h0 hi (bb 1) (by omega) _
  refine Exists.imp (fun u => And.imp_left fun hh => e1.trans hh) ?_
  obtain ⟨u2, e2, h2⟩ := swp_rep u1 i _ 2 _ b h1 hi (bb 2) (by omega) _
  refine Exists.imp (fun u => And.imp_left fun hh => e2.trans hh) ?_
  obtain ⟨u3, e3, h3⟩ := swp_rep u2 i _ 3 _ b h2 hi (bb 3) (by omega) _
  refine Exists.imp (fun u => And.imp_left fun hh => e3.trans hh) ?_
  obtain ⟨u4, e4, h4⟩ := swp_rep u3 i _ 4 _ b h3 hi (bb 4) (by omega) _
  refine Exists.imp (fun u => And.imp_left fun hh => e4.trans hh) ?_
  obtain ⟨u5, e5, h5⟩ := swp_rep u4 i _ 5 _ b h4 hi (bb 5) (by omega) _
  refine Exists.imp (fun u => And.imp_left fun hh => e5.trans hh) ?_
  obtain ⟨u6, e6, h6⟩ := swp_rep u5 i _ 6 _ b h5 hi (bb 6) (by omega) _
  refine Exists.imp (fun u => And.imp_left fun hh => e6.trans hh) ?_
  obtain ⟨u7, e7, h7⟩ := swp_rep u6 i _ 7 _ b h6 hi (bb 7) (by omega) _
  exact ⟨u7, e7, h7⟩

theorem swaps_other (b b' : Nat) (hb : b' ≠ b) (i : Nat) (f : Nat → Nat) (l : List Nat) : ∀ B : Cells,
    l.foldl (fun B col => swap B b col i (f col)) B b' = B b' := by
  induction l with
  | nil => intro B; rfl
  | cons c l ih =>
    intro B
    rw [List.foldl_cons, ih]
    funext i' col'
    unfold swap
    rw [if_neg (fun h => hb h.1)]

/-- The boxes and the words of the state. -/
def Rep4 (t0 t1 t2 t3 : Nat) (B : Cells) : Prop := RepT t0 (B 0) ∧ RepT t1 (B 1) ∧ RepT t2 (B 2) ∧ RepT t3 (B 3)

theorem sel_rep (e t0 t1 t2 t3 : Nat) (B : Cells) (st : Three 64) (h : Rep4 t0 t1 t2 t3 B) (k : K) :
    ∃ u0 u1 u2 u3, sel e t0 t1 t2 t3 st.a.toNat st.b.toNat st.c.toNat k = k u0 u1 u2 u3 st.a.toNat st.b.toNat st.c.toNat ∧
      Rep4 u0 u1 u2 u3 ((List.range 8).foldl (fun B col => swap B (e % 4) col (e / 4 % 256)
        (byteAt (if e % 3 = 0 then st.a else if e % 3 = 1 then st.b else st.c) col)) B) := by
  obtain ⟨h0, h1, h2, h3⟩ := h
  have hv : (bif Nat.beq (e % 3) 0 then st.a.toNat else bif Nat.beq (e % 3) 1 then st.b.toNat else st.c.toNat) =
      (if e % 3 = 0 then st.a else if e % 3 = 1 then st.b else st.c).toNat := by
    obtain h | h | h : e % 3 = 0 ∨ e % 3 = 1 ∨ e % 3 = 2 := by omega
    all_goals rw [h]; rfl
  unfold sel
  rw [force_eq, hv]
  generalize (if e % 3 = 0 then st.a else if e % 3 = 1 then st.b else st.c) = v
  have hi : e / 4 % 256 < 256 := Nat.mod_lt _ (by omega)
  have o := fun b b' hb => swaps_other b b' hb (e / 4 % 256) (byteAt v) (List.range 8) B
  obtain h | h | h | h : e % 4 = 0 ∨ e % 4 = 1 ∨ e % 4 = 2 ∨ e % 4 = 3 := by omega
  · rw [h]
    obtain ⟨u, hu, hr⟩ := swap8_rep t0 (e / 4 % 256) v B 0 h0 hi fun t0 => k t0 t1 t2 t3 st.a.toNat st.b.toNat st.c.toNat
    exact ⟨u, t1, t2, t3, hu, hr, by rw [o 0 1 (by decide)]; exact h1, by rw [o 0 2 (by decide)]; exact h2, by rw [o 0 3 (by decide)]; exact h3⟩
  · rw [h]
    obtain ⟨u, hu, hr⟩ := swap8_rep t1 (e / 4 % 256) v B 1 h1 hi fun t1 => k t0 t1 t2 t3 st.a.toNat st.b.toNat st.c.toNat
    exact ⟨t0, u, t2, t3, hu, by rw [o 1 0 (by decide)]; exact h0, hr, by rw [o 1 2 (by decide)]; exact h2, by rw [o 1 3 (by decide)]; exact h3⟩
  · rw [h]
    obtain ⟨u, hu, hr⟩ := swap8_rep t2 (e / 4 % 256) v B 2 h2 hi fun t2 => k t0 t1 t2 t3 st.a.toNat st.b.toNat st.c.toNat
    exact ⟨t0, t1, u, t3, hu, by rw [o 2 0 (by decide)]; exact h0, by rw [o 2 1 (by decide)]; exact h1, hr, by rw [o 2 3 (by decide)]; exact h3⟩
  · rw [h]
    obtain ⟨u, hu, hr⟩ := swap8_rep t3 (e / 4 % 256) v B 3 h3 hi fun t3 => k t0 t1 t2 t3 st.a.toNat st.b.toNat st.c.toNat
    exact ⟨t0, t1, t2, u, hu, by rw [o 3 0 (by decide)]; exact h0, by rw [o 3 1 (by decide)]; exact h1, by rw [o 3 2 (by decide)]; exact h2, hr⟩

theorem step_rep (e t0 t1 t2 t3 : Nat) (B : Cells) (st : Three 64) (h : Rep4 t0 t1 t2 t3 B) (k : K) :
    ∃ u0 u1 u2 u3, step e t0 t1 t2 t3 st.a.toNat st.b.toNat st.c.toNat k =
        k u0 u1 u2 u3 (genStep (B, st) e).2.a.toNat (genStep (B, st) e).2.b.toNat (genStep (B, st) e).2.c.toNat ∧
      Rep4 u0 u1 u2 u3 (genStep (B, st) e).1 := by
  unfold step genStep
  dsimp only
  by_cases h3 : e % 3 = 0
  · have hb : Nat.beq (e % 3) 0 = true := by rw [h3]; rfl
    rw [hb, cond_true, comp_eq t0 t1 t2 t3 B h.1 h.2.1 h.2.2.1 h.2.2.2]
    simp only [if_pos h3]
    have := sel_rep e t0 t1 t2 t3 B (compress (boxes B) st text) h k
    simp only [if_pos h3] at this
    exact this
  · have hb : Nat.beq (e % 3) 0 = false := by
      obtain h | h : e % 3 = 1 ∨ e % 3 = 2 := by omega
      all_goals rw [h]; rfl
    rw [hb, cond_false]
    have := sel_rep e t0 t1 t2 t3 B st h k
    simp only [if_neg h3] at this ⊢
    exact this

theorem run_rep (k : K) : ∀ (n e t0 t1 t2 t3 : Nat) (s : Cells × Three 64), Rep4 t0 t1 t2 t3 s.1 →
    ∃ u0 u1 u2 u3, run n e t0 t1 t2 t3 s.2.a.toNat s.2.b.toNat s.2.c.toNat k =
        k u0 u1 u2 u3 ((List.range' e n).foldl genStep s).2.a.toNat ((List.range' e n).foldl genStep s).2.b.toNat
          ((List.range' e n).foldl genStep s).2.c.toNat ∧
      Rep4 u0 u1 u2 u3 ((List.range' e n).foldl genStep s).1
  | 0, e, t0, t1, t2, t3, s, h => ⟨t0, t1, t2, t3, rfl, h⟩
  | n + 1, e, t0, t1, t2, t3, s, h => by
    obtain ⟨u0, u1, u2, u3, hu, hr⟩ := step_rep e t0 t1 t2 t3 s.1 s.2 h
      fun t0 t1 t2 t3 a b c => force (e + 1) fun e => run n e t0 t1 t2 t3 a b c k
    obtain ⟨v0, v1, v2, v3, hv, hq⟩ := run_rep k n (e + 1) u0 u1 u2 u3 (genStep s e) hr
    refine ⟨v0, v1, v2, v3, ?_, ?_⟩
    · unfold run
      rw [hu, force_eq]
      exact hv
    · exact hq

/-- A list of words as a number. -/
def pack (l : List W64) : Nat := l.foldr (fun v n => v.toNat + Q * n) 0

theorem pack_get (l : List W64) : ∀ i, (pack l >>> (i * 64)) % Q = (l.getD i 0).toNat := by
  induction l with
  | nil => intro i; simp [pack]
  | cons v l ih =>
    have hv := v.isLt
    intro i
    have e : pack (v :: l) = v.toNat + Q * pack l := rfl
    cases i with
    | zero =>
      rw [e, Nat.zero_mul, Nat.shiftRight_zero, List.getD_cons_zero, Nat.add_mul_mod_self_left, Nat.mod_eq_of_lt hv]
    | succ i =>
      rw [e, List.getD_cons_succ, ← ih i, show (i + 1) * 64 = 64 + i * 64 by omega, Nat.shiftRight_add, Nat.shiftRight_eq_div_pow _ 64]
      rw [show (2 : Nat) ^ 64 = Q from rfl, Nat.add_mul_div_left _ _ (by decide), Nat.div_eq_of_lt hv, Nat.zero_add]

/-- The boxes at the beginning. -/
def ident : Nat := (List.range 256).foldr (fun i n => i * 0x0101010101010101 + Q * n) 0

theorem ident_check : ∀ i < 256, ∀ col < 8, (ident >>> (64 * i + 8 * col)) % 256 = i := by decide +kernel

def fin : K := fun t0 t1 t2 t3 _ _ _ =>
  Nat.beq t0 (pack Tiger.t1) && (Nat.beq t1 (pack Tiger.t2) && (Nat.beq t2 (pack Tiger.t3) && Nat.beq t3 (pack Tiger.t4)))

attribute [local irreducible] Tiger.t1 Tiger.t2 Tiger.t3 Tiger.t4

theorem boxes_of (N : Nat) (C : Cells) (hC : C = ((List.range N).foldl genStep ((fun _ i _ => BitVec.ofNat 8 i), init)).1)
    (h : run N 0 ident ident ident ident init.a.toNat init.b.toNat init.c.toNat fin = true) :
    ∀ k < 4, ∀ i < 256, Tiger.T k i = boxes C k i := by
  have hi : RepT ident fun i _ => BitVec.ofNat 8 i := by
    intro i hi col hc
    rw [ident_check i hi col hc, BitVec.toNat_ofNat, Nat.mod_eq_of_lt hi]
  obtain ⟨u0, u1, u2, u3, hu, h0, h1, h2, h3⟩ := run_rep fin N 0 ident ident ident ident ((fun _ i _ => BitVec.ofNat 8 i), init) ⟨hi, hi, hi, hi⟩
  have h := hu.symm.trans h
  unfold fin at h
  rw [Bool.and_eq_true, Bool.and_eq_true, Bool.and_eq_true] at h
  obtain ⟨e0, e1, e2, e3⟩ := h
  have e0 := Nat.eq_of_beq_eq_true e0
  have e1 := Nat.eq_of_beq_eq_true e1
  have e2 := Nat.eq_of_beq_eq_true e2
  have e3 := Nat.eq_of_beq_eq_true e3
  rw [e0, ← List.range_eq_range', ← hC] at h0
  rw [e1, ← List.range_eq_range', ← hC] at h1
  rw [e2, ← List.range_eq_range', ← hC] at h2
  rw [e3, ← List.range_eq_range', ← hC] at h3
  intro k hk i hi
  apply BitVec.eq_of_toNat_eq
  unfold Tiger.T
  obtain h | h | h | h : k = 0 ∨ k = 1 ∨ k = 2 ∨ k = 3 := by omega
  · subst h; rw [← entry_eq _ _ _ h0 i hi, pack_get]; rfl
  · subst h; rw [← entry_eq _ _ _ h1 i hi, pack_get]; rfl
  · subst h; rw [← entry_eq _ _ _ h2 i hi, pack_get]; rfl
  · subst h; rw [← entry_eq _ _ _ h3 i hi, pack_get]; rfl

/-- The generation, compared with the boxes of the code. -/
theorem gen_check : (force ident fun t => run 5120 0 t t t t 0x0123456789ABCDEF 0xFEDCBA9876543210 0xF096A5B4C3B2E187 fin) = true := by
  decide +kernel

/-- The boxes of the code are those of the publication. -/
theorem boxes_eq : ∀ k < 4, ∀ i < 256, Tiger.T k i = boxes cells k i := by
  have h := gen_check
  rw [force_eq] at h
  exact boxes_of 5120 cells rfl h

end Kryptos.TigerGen
