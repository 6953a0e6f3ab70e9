import Verif.Model.Cast5
import Verif.Spec.Cast5
import Verif.Lemmas.Rot
import Verif.Lemmas.KeyWords
import Verif.Props.Safer
import Mathlib.Tactic.IntervalCases
/-
  CAST-128: the block functions undo each other and follow RFC 2144, except that keys with an incomplete last word are misplaced; a key with a
  rotation by zero places makes the program shift a word by its width.
-/
namespace Kryptos.Cast5
open Block KeyLoad

/-- The boxes of the program as the specification numbers them. -/
def boxes (b i : Nat) : W32 :=
  match b with
  | 1 => sbox1.getD i 0
  | 2 => sbox2.getD i 0
  | 3 => sbox3.getD i 0
  | 4 => sbox4.getD i 0
  | 5 => sbox5.getD i 0
  | 6 => sbox6.getD i 0
  | 7 => sbox7.getD i 0
  | _ => sbox8.getD i 0

def bt (x : W32) (n : Nat) : Nat := x.toNat / 256 ^ (3 - n) % 256

theorem byteAt_eq (x : W32) (n : Nat) (hn : n < 4) : byteAt x n = bt x n := by
  have e : ∀ k, ((x >>> k) &&& 0xff#32).toNat = x.toNat / 2 ^ k % 256 := fun k => by
    rw [BitVec.toNat_and, BitVec.toNat_ushiftRight, Nat.shiftRight_eq_div_pow]
    exact Nat.and_two_pow_sub_one_eq_mod _ 8
  unfold byteAt bt
  rw [e]
  interval_cases n <;> rfl

theorem look_run {t : List W32} (ht : t.length = 256) (x : W32) (n : Nat) (hn : n < 4) : look t x n = .ok (t.getD (bt x n) 0) := by
  unfold look
  rw [byteAt_eq x n hn]
  exact rd_getD 0 (by rw [ht]; exact Nat.mod_lt _ (by decide))

theorem look1 (x : W32) (n : Nat) (hn : n < 4) : look sbox1 x n = .ok (boxes 1 (bt x n)) := look_run (by decide +kernel) x n hn
theorem look2 (x : W32) (n : Nat) (hn : n < 4) : look sbox2 x n = .ok (boxes 2 (bt x n)) := look_run (by decide +kernel) x n hn
theorem look3 (x : W32) (n : Nat) (hn : n < 4) : look sbox3 x n = .ok (boxes 3 (bt x n)) := look_run (by decide +kernel) x n hn
theorem look4 (x : W32) (n : Nat) (hn : n < 4) : look sbox4 x n = .ok (boxes 4 (bt x n)) := look_run (by decide +kernel) x n hn
theorem look5 (x : W32) (n : Nat) (hn : n < 4) : look sbox5 x n = .ok (boxes 5 (bt x n)) := look_run (by decide +kernel) x n hn
theorem look6 (x : W32) (n : Nat) (hn : n < 4) : look sbox6 x n = .ok (boxes 6 (bt x n)) := look_run (by decide +kernel) x n hn
theorem look7 (x : W32) (n : Nat) (hn : n < 4) : look sbox7 x n = .ok (boxes 7 (bt x n)) := look_run (by decide +kernel) x n hn
theorem look8 (x : W32) (n : Nat) (hn : n < 4) : look sbox8 x n = .ok (boxes 8 (bt x n)) := look_run (by decide +kernel) x n hn

/-! ## The key schedule -/

theorem zs_run (x : Four 32) : ∃ z, zs x = .ok z ∧ z.words = Spec.Cast5.z boxes x.words := by
  unfold zs
  simp (discharger := decide) only [look5, look6, look7, look8, Out.bind_ok]
  refine ⟨_, rfl, ?_⟩
  generalize boxes = S
  rfl

theorem xs_run (x : Four 32) : ∃ z, xs x = .ok z ∧ z.words = Spec.Cast5.x boxes x.words := by
  unfold xs
  simp (discharger := decide) only [look5, look6, look7, look8, Out.bind_ok]
  refine ⟨_, rfl, ?_⟩
  generalize boxes = S
  rfl

theorem kA_run (x : Four 32) : ∃ z, kA x = .ok z ∧ z.words = Spec.Cast5.k1 boxes x.words := by
  unfold kA
  simp (discharger := decide) only [look5, look6, look7, look8, Out.bind_ok]
  refine ⟨_, rfl, ?_⟩
  generalize boxes = S
  rfl

theorem kB_run (x : Four 32) : ∃ z, kB x = .ok z ∧ z.words = Spec.Cast5.k5 boxes x.words := by
  unfold kB
  simp (discharger := decide) only [look5, look6, look7, look8, Out.bind_ok]
  refine ⟨_, rfl, ?_⟩
  generalize boxes = S
  rfl

theorem kC_run (x : Four 32) : ∃ z, kC x = .ok z ∧ z.words = Spec.Cast5.k9 boxes x.words := by
  unfold kC
  simp (discharger := decide) only [look5, look6, look7, look8, Out.bind_ok]
  refine ⟨_, rfl, ?_⟩
  generalize boxes = S
  rfl

theorem kD_run (x : Four 32) : ∃ z, kD x = .ok z ∧ z.words = Spec.Cast5.k13 boxes x.words := by
  unfold kD
  simp (discharger := decide) only [look5, look6, look7, look8, Out.bind_ok]
  refine ⟨_, rfl, ?_⟩
  generalize boxes = S
  rfl

theorem half_run (x : Four 32) : ∃ y, half x = .ok (Spec.Cast5.keys boxes x.words, y) ∧ y.words = Spec.Cast5.x' boxes x.words := by
  obtain ⟨z1, a1, b1⟩ := zs_run x
  obtain ⟨k1, a2, b2⟩ := kA_run z1
  obtain ⟨x1, a3, b3⟩ := xs_run z1
  obtain ⟨k2, a4, b4⟩ := kB_run x1
  obtain ⟨z2, a5, b5⟩ := zs_run x1
  obtain ⟨k3, a6, b6⟩ := kC_run z2
  obtain ⟨x2, a7, b7⟩ := xs_run z2
  obtain ⟨k4, a8, b8⟩ := kD_run x2
  refine ⟨x2, ?_, ?_⟩
  · unfold half Spec.Cast5.keys Spec.Cast5.x'
    rw [a1, Out.bind_ok, a2, Out.bind_ok, a3, Out.bind_ok, a4, Out.bind_ok, a5, Out.bind_ok, a6, Out.bind_ok, a7, Out.bind_ok, a8, Out.bind_ok,
      b2, b4, b6, b8, b7, b5, b3, b1]
    rfl
  · rw [b7, b5, b3, b1]; rfl

theorem keys_len (w : List W32) : (Spec.Cast5.keys boxes w).length = 16 := rfl

theorem expandKey_run (key : Bytes) : expandKey key = .ok ⟨Spec.Cast5.masks boxes (ldUserKey 4 4 key), Spec.Cast5.rotations boxes (ldUserKey 4 4 key),
    Spec.Cast5.number key.length⟩ := by
  have hl := length_ldUserKey 4 4 key
  unfold expandKey
  generalize ldUserKey 4 4 key = w at hl
  match w, hl with
  | [a, b, c, d], _ =>
    obtain ⟨y, h1, h2⟩ := half_run ⟨a, b, c, d⟩
    obtain ⟨v, h3, _⟩ := half_run y
    show (do let p ← half ⟨a, b, c, d⟩; let q ← half p.2; return (⟨p.1, q.1.map (fun k : W32 => k.toNat % 32), if key.length > 10 then 16 else 12⟩ : Sks)) = _
    rw [h1, Out.bind_ok]
    simp only []
    rw [h3, Out.bind_ok, h2]
    unfold Spec.Cast5.number Spec.Cast5.masks Spec.Cast5.rotations
    by_cases h : key.length ≤ 10
    · rw [if_neg (by omega), if_pos h]; rfl
    · rw [if_pos (by omega), if_neg h]; rfl

/-! ## Rounds -/

theorem f_run (strict : Bool) (d km : W32) (kr i : Nat) (h1 : 1 ≤ i) (h2 : i ≤ 16) (hk : kr < 32) (hs : strict = true → kr ≠ 0) :
    f strict d km kr i = .ok (Spec.Cast5.f boxes i d km kr) := by
  have hr : ∀ w, rotlV strict w kr = .ok (w.rotateLeft kr) := fun w => by
    rw [← rotlV_eq w kr hk]
    unfold rotlV
    cases strict
    · rfl
    · simp [hs rfl]
  have b0 : ∀ x : W32, bt x 0 = Spec.Cast5.Ia x := fun x => by
    unfold bt Spec.Cast5.Ia
    have := x.isLt
    omega
  have b1 : ∀ x, bt x 1 = Spec.Cast5.Ib x := fun x => rfl
  have b2 : ∀ x, bt x 2 = Spec.Cast5.Ic x := fun x => rfl
  have b3 : ∀ x, bt x 3 = Spec.Cast5.Id x := fun x => by unfold bt Spec.Cast5.Id; omega
  unfold f Spec.Cast5.f
  simp (discharger := decide) only [hr, Out.bind_ok, look1, look2, look3, look4, b0, b1, b2, b3]
  generalize boxes = S
  interval_cases i <;> rfl

theorem f_zero (d km : W32) (i : Nat) (h1 : 1 ≤ i) (h2 : i ≤ 16) : f true d km 0 i = .ub := by
  unfold f
  interval_cases i <;> rfl

/-- Subkeys as the expansion leaves them. -/
structure Ok (k : Sks) : Prop where
  m : k.Km.length = 16
  r : k.Kr.length = 16
  n : k.rounds ≤ 16
  lt : ∀ i, k.Kr.getD i 0 < 32

def step (k : Sks) (b : W32 × W32) (i : Nat) : W32 × W32 := (b.2, b.1 ^^^ Spec.Cast5.f boxes i b.2 (k.Km.getD (i - 1) 0) (k.Kr.getD (i - 1) 0))

theorem round_run (strict : Bool) {k : Sks} (h : Ok k) (hs : strict = true → ∀ i, i < k.rounds → k.Kr.getD i 0 ≠ 0) (i : Nat) (h1 : 1 ≤ i)
    (h2 : i ≤ k.rounds) (b : W32 × W32) : round strict k i b = .ok (step k b i) := by
  have := h.n
  unfold round
  rw [rd_getD 0 (by rw [h.m]; omega), Out.bind_ok, rd_getD 0 (by rw [h.r]; omega), Out.bind_ok,
    f_run strict _ _ _ i h1 (by omega) (h.lt _) (fun e => hs e _ (by omega)), Out.bind_ok]
  rfl

def sw (b : W32 × W32) : W32 × W32 := (b.2, b.1)

theorem encBlock_run (strict : Bool) {k : Sks} (h : Ok k) (hs : strict = true → ∀ i, i < k.rounds → k.Kr.getD i 0 ≠ 0) (b : W32 × W32) :
    encBlock strict k (be2 b) = .ok (be2 (sw ((List.range' 1 k.rounds).foldl (step k) b))) := by
  unfold encBlock be2
  rw [getBe32_0, Out.bind_ok, getBe32_4', Out.bind_ok, forLoop_up (round strict k) (step k) k.rounds _ (fun i b h1 h2 => round_run strict h hs i h1 h2 b),
    Out.bind_ok]
  rfl

theorem decBlock_run (strict : Bool) {k : Sks} (h : Ok k) (hs : strict = true → ∀ i, i < k.rounds → k.Kr.getD i 0 ≠ 0) (b : W32 × W32) :
    decBlock strict k (be2 b) = .ok (be2 (sw ((List.range' 1 k.rounds).reverse.foldl (step k) b))) := by
  unfold decBlock be2
  rw [getBe32_0, Out.bind_ok, getBe32_4', Out.bind_ok,
    forLoop_down (round strict k) (step k) k.rounds _ (fun i b h1 h2 => round_run strict h hs i h1 h2 b), Out.bind_ok]
  rfl

/-- The rounds on exchanged halves, in the opposite order, undo the rounds. -/
theorem sw_back (k : Sks) : ∀ (l : List Nat) (b : W32 × W32), sw (l.reverse.foldl (step k) (sw (l.foldl (step k) b))) = b
  | [], b => rfl
  | i :: l, b => by
    rw [List.reverse_cons, List.foldl_append, List.foldl_cons, List.foldl_nil, List.foldl_cons]
    have := sw_back k l (step k b i)
    generalize List.foldl (step k) (sw (List.foldl (step k) (step k b i) l)) l.reverse = c at this
    obtain ⟨c1, c2⟩ := c
    obtain ⟨b1, b2⟩ := b
    unfold sw step at *
    simp only [Prod.mk.injEq] at this ⊢
    obtain ⟨rfl, rfl⟩ := this
    exact ⟨xor_cancel_right _ _, rfl⟩

theorem ok_invertible (strict : Bool) {k : Sks} (h : Ok k) (hs : strict = true → ∀ i, i < k.rounds → k.Kr.getD i 0 ≠ 0) :
    Invertible 8 (encBlock strict k) (decBlock strict k) :=
  Invertible.ofState be2 be2_surj be2_len _ _ (encBlock_run strict h hs) (decBlock_run strict h hs) (sw_back k _)
    (fun b => by have := sw_back k (List.range' 1 k.rounds).reverse b; rwa [List.reverse_reverse] at this)

/-! ## Under a key -/

/-- The rotations that the program uses for a key. -/
def krs (key : Bytes) : List Nat := (Spec.Cast5.rotations boxes (ldUserKey 4 4 key)).take (Spec.Cast5.number key.length)

theorem expanded_ok (key : Bytes) : Ok ⟨Spec.Cast5.masks boxes (ldUserKey 4 4 key), Spec.Cast5.rotations boxes (ldUserKey 4 4 key),
    Spec.Cast5.number key.length⟩ := by
  refine ⟨rfl, rfl, show Spec.Cast5.number key.length ≤ 16 by unfold Spec.Cast5.number; split <;> omega, fun i => ?_⟩
  unfold Spec.Cast5.rotations
  rw [List.getD_eq_getElem?_getD, List.getElem?_map]
  cases (Spec.Cast5.keys boxes (Spec.Cast5.x' boxes (ldUserKey 4 4 key)))[i]? with
  | none => decide
  | some v => exact Nat.mod_lt _ (by decide)

theorem krs_nonzero {key : Bytes} (h : 0 ∉ krs key) (i : Nat) (hi : i < Spec.Cast5.number key.length) :
    (Spec.Cast5.rotations boxes (ldUserKey 4 4 key)).getD i 0 ≠ 0 := fun e => h (by
  have hl : i < (Spec.Cast5.rotations boxes (ldUserKey 4 4 key)).length := by
    have h1 : Spec.Cast5.number key.length ≤ 16 := by unfold Spec.Cast5.number; split <;> omega
    have h2 : (Spec.Cast5.rotations boxes (ldUserKey 4 4 key)).length = 16 := rfl
    omega
  rw [List.getD_eq_getElem?_getD, List.getElem?_eq_getElem hl, Option.getD_some] at e
  unfold krs
  rw [List.mem_take_iff_getElem]
  exact ⟨i, by omega, e⟩)

theorem enc_eq (strict : Bool) (key : Bytes) : enc strict key = encBlock strict ⟨Spec.Cast5.masks boxes (ldUserKey 4 4 key),
    Spec.Cast5.rotations boxes (ldUserKey 4 4 key), Spec.Cast5.number key.length⟩ := funext fun b => by
  unfold enc; rw [expandKey_run, Out.bind_ok]
theorem dec_eq (strict : Bool) (key : Bytes) : dec strict key = decBlock strict ⟨Spec.Cast5.masks boxes (ldUserKey 4 4 key),
    Spec.Cast5.rotations boxes (ldUserKey 4 4 key), Spec.Cast5.number key.length⟩ := funext fun b => by
  unfold dec; rw [expandKey_run, Out.bind_ok]

/-- Decryption undoes encryption and the other way round for all keys, if shifting a word by its width does what the processor does. -/
theorem cast5_invertible (key : Bytes) : Invertible 8 (enc false key) (dec false key) := by
  rw [enc_eq, dec_eq]
  exact ok_invertible false (expanded_ok key) (by simp)

/-- With the C standard's meaning of shifts this needs a key without rotations by zero places; the others are `cast5_zero_rotation`. -/
theorem cast5_invertible_partial (key : Bytes) (h : 0 ∉ krs key) : Invertible 8 (enc true key) (dec true key) := by
  rw [enc_eq, dec_eq]
  exact ok_invertible true (expanded_ok key) fun _ i hi => krs_nonzero h i hi

/-- The 128-bit key of RFC 2144. -/
def key128 : Bytes := [0x01, 0x23, 0x45, 0x67, 0x12, 0x34, 0x56, 0x78, 0x23, 0x45, 0x67, 0x89, 0x34, 0x56, 0x78, 0x9A]
/-- Its 80-bit key. -/
def key80 : Bytes := [0x01, 0x23, 0x45, 0x67, 0x12, 0x34, 0x56, 0x78, 0x23, 0x45]
/-- Its 40-bit key. -/
def key40 : Bytes := [0x01, 0x23, 0x45, 0x67, 0x12]

theorem krs128 : 0 ∉ krs key128 := by decide +kernel

example : Invertible 8 (enc true key128) (dec true key128) := cast5_invertible_partial _ krs128

/-- A key with a rotation by zero places makes the program shift a word by 32 places, whatever block is encrypted or decrypted. -/
theorem cast5_zero_rotation (key : Bytes) (h : 0 ∈ krs key) (block : Bytes) (hb : block.length = 8) :
    enc true key block = .ub ∧ dec true key block = .ub := by
  obtain ⟨⟨x, y⟩, rfl⟩ := be2_surj block hb
  have h16 : Spec.Cast5.number key.length ≤ 16 := by unfold Spec.Cast5.number; split <;> omega
  obtain ⟨i, hi, e⟩ : ∃ i, i < Spec.Cast5.number key.length ∧ (Spec.Cast5.rotations boxes (ldUserKey 4 4 key)).getD i 0 = 0 := by
    unfold krs at h
    rw [List.mem_take_iff_getElem] at h
    obtain ⟨i, hi, e⟩ := h
    refine ⟨i, by omega, ?_⟩
    rw [List.getD_eq_getElem?_getD, List.getElem?_eq_getElem (by omega), Option.getD_some, e]
  have hr : ∀ b, round true ⟨Spec.Cast5.masks boxes (ldUserKey 4 4 key), Spec.Cast5.rotations boxes (ldUserKey 4 4 key),
      Spec.Cast5.number key.length⟩ (i + 1) b = .ub := fun b => by
    unfold round
    rw [rd_getD 0 (by rw [(expanded_ok key).m]; omega), Out.bind_ok, rd_getD 0 (by rw [(expanded_ok key).r]; omega), Out.bind_ok,
      Nat.add_sub_cancel, e, f_zero _ _ _ (by omega) (by omega)]
    rfl
  rw [enc_eq, dec_eq]
  unfold encBlock decBlock be2
  rw [getBe32_0, Out.bind_ok, getBe32_4', Out.bind_ok, Out.bind_ok, Out.bind_ok]
  refine ⟨?_, ?_⟩
  · rw [Safer.forLoop_ub _ (i + 1) hr _ _ _ (by omega) (by simp only []; omega)]; rfl
  · rw [Safer.forLoop_ub _ (Spec.Cast5.number key.length - (i + 1)) (fun b => by
      simp only []
      rw [show Spec.Cast5.number key.length - (Spec.Cast5.number key.length - (i + 1)) = i + 1 by omega]
      exact hr b) _ _ _ (by omega) (by simp only []; omega)]; rfl

theorem krs80 : 0 ∈ krs key80 := by decide +kernel

/-- The 80-bit key of the test vectors of RFC 2144 is such a key. -/
theorem cast5_zero_rotation_rfc (block : Bytes) (hb : block.length = 8) : enc true key80 block = .ub := (cast5_zero_rotation _ krs80 block hb).1

/-! ## Conformance -/

theorem keyWords_bytes (a b c d : W32) : Spec.Cast5.keyWords ([a, b, c, d].flatMap putBe32) = [a, b, c, d] := by
  have hL : ∀ q j, q < 4 → j < 4 → ([a, b, c, d].flatMap putBe32).getD (4 * q + j) 0 = (putBe32 ([a, b, c, d].getD q 0)).getD j 0 :=
    fun q j hq hj => flatMap_putBe32_getD _ q j hq hj
  generalize [a, b, c, d].flatMap putBe32 = L at hL
  have e : ∀ q, q < 4 → BitVec.ofNat 32 ((List.range 4).foldl (fun w j => 256 * w + (L.getD (4 * q + j) 0).toNat) 0) = [a, b, c, d].getD q 0 :=
    fun q hq => by
    have h := fun j hj => hL q j hq hj
    generalize [a, b, c, d].getD q 0 = v at h
    obtain ⟨p, r, s, t, h1, h2⟩ := be32_putBe32 v
    rw [h1] at h
    have i0 : L.getD (4 * q + 0) 0 = p := h 0 (by decide)
    have i1 : L.getD (4 * q + 1) 0 = r := h 1 (by decide)
    have i2 : L.getD (4 * q + 2) 0 = s := h 2 (by decide)
    have i3 : L.getD (4 * q + 3) 0 = t := h 3 (by decide)
    rw [show List.range 4 = [0, 1, 2, 3] from rfl]
    simp only [List.foldl_cons, List.foldl_nil, i0, i1, i2, i3]
    apply BitVec.eq_of_toNat_eq
    rw [← h2, be32_toNat, BitVec.toNat_ofNat]
    have := p.isLt; have := r.isLt; have := s.isLt; have := t.isLt
    omega
  have m : ∀ G : Nat → W32, (List.range 4).map G = [G 0, G 1, G 2, G 3] := fun _ => rfl
  unfold Spec.Cast5.keyWords
  rw [m, e 0 (by decide), e 1 (by decide), e 2 (by decide), e 3 (by decide)]
  rfl

theorem keyWords_pad (key : Bytes) : Spec.Cast5.keyWords (zeroPad 16 key) = Spec.Cast5.keyWords key := by
  have e : ∀ i, i < 16 → (zeroPad 16 key).getD i 0 = key.getD i 0 := fun i hi => by
    unfold zeroPad
    rw [List.getD_eq_getElem?_getD, List.getD_eq_getElem?_getD]
    by_cases h : i < key.length
    · rw [List.getElem?_append_left (by rw [List.length_take]; omega), List.getElem?_take_of_lt hi]
    · rw [List.getElem?_append_right (by rw [List.length_take]; omega), List.getElem?_eq_none (by omega : key.length ≤ i), List.getElem?_replicate]
      split <;> rfl
  unfold Spec.Cast5.keyWords
  apply List.map_congr_left
  intro i hi
  have hi := List.mem_range.mp hi
  rw [show List.range 4 = [0, 1, 2, 3] from rfl]
  simp only [List.foldl_cons, List.foldl_nil]
  rw [e _ (by omega), e _ (by omega), e _ (by omega), e _ (by omega)]

theorem ldUserKey_keyWords (key : Bytes) (h : 16 ≤ key.length ∨ key.length % 2 = 0) : ldUserKey 4 4 key = Spec.Cast5.keyWords key := by
  have h1 := ldUserKey_bytes 4 key (by omega)
  have h2 := length_ldUserKey 4 4 key
  rw [← keyWords_pad, ← h1]
  generalize ldUserKey 4 4 key = w at h2
  match w, h2 with
  | [a, b, c, d], _ => exact (keyWords_bytes a b c d).symm

/-- For keys of whole or half words CAST-128 is computed as published, if shifting a word by its width does what the processor does.  Missing: keys
of an odd number of bytes below 16, see `cast5_40bit_wrong`. -/
theorem cast5_standard_partial (key : Bytes) (h : 16 ≤ key.length ∨ key.length % 2 = 0) (b : W32 × W32) :
    enc false key (be2 b) = .ok (be2 (Spec.Cast5.encrypt boxes key b)) ∧ dec false key (be2 b) = .ok (be2 (Spec.Cast5.decrypt boxes key b)) := by
  rw [enc_eq, dec_eq, encBlock_run false (expanded_ok key) (by simp), decBlock_run false (expanded_ok key) (by simp), ldUserKey_keyWords key h]
  exact ⟨rfl, rfl⟩

/-- With the C standard's meaning of shifts, in addition for keys without rotations by zero places. -/
theorem cast5_standard_strict_partial (key : Bytes) (h : 16 ≤ key.length ∨ key.length % 2 = 0) (h0 : 0 ∉ krs key) (b : W32 × W32) :
    enc true key (be2 b) = .ok (be2 (Spec.Cast5.encrypt boxes key b)) ∧ dec true key (be2 b) = .ok (be2 (Spec.Cast5.decrypt boxes key b)) := by
  rw [enc_eq, dec_eq, encBlock_run true (expanded_ok key) fun _ i hi => krs_nonzero h0 i hi,
    decBlock_run true (expanded_ok key) fun _ i hi => krs_nonzero h0 i hi, ldUserKey_keyWords key h]
  exact ⟨rfl, rfl⟩

example (b : W32 × W32) : enc true key128 (be2 b) = .ok (be2 (Spec.Cast5.encrypt boxes key128 b)) :=
  (cast5_standard_strict_partial _ (by decide) krs128 b).1

/-- The test vectors of RFC 2144, of the specification with the boxes of the program. -/
theorem rfc128 : Spec.Cast5.encrypt boxes key128 (0x01234567, 0x89ABCDEF) = (0x238B4FE5, 0x847E44B2) := by decide +kernel
theorem rfc80 : Spec.Cast5.encrypt boxes key80 (0x01234567, 0x89ABCDEF) = (0xEB6A711A, 0x2C02271B) := by decide +kernel
theorem rfc40 : Spec.Cast5.encrypt boxes key40 (0x01234567, 0x89ABCDEF) = (0x7AC816D1, 0x6E9B302E) := by decide +kernel

/-- The 40-bit test vector of RFC 2144 comes out wrong. -/
theorem cast5_40bit_wrong : enc false key40 (be2 (0x01234567, 0x89ABCDEF)) = .ok (be2 (0xB7282EE0, 0x0B949780)) ∧
    be2 (Spec.Cast5.encrypt boxes key40 (0x01234567, 0x89ABCDEF)) ≠ be2 (0xB7282EE0, 0x0B949780) := by
  refine ⟨?_, by rw [rfc40]; decide⟩
  decide +kernel

end Kryptos.Cast5
