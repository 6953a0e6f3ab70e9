import Verif.Model.Uuencode
import Mathlib.Tactic.IntervalCases
import Mathlib.Tactic.Ring
/-
  Properties of the uuencode codec (C05).
-/
namespace Kryptos.Uuencode

theorem char_inv (x : W32) (hx : x.toNat < 64) :
    ((32#32 + x).setWidth 8).setWidth 32 - 32#32 = x := by
  apply BitVec.eq_of_toNat_eq
  simp only [BitVec.toNat_sub, BitVec.toNat_setWidth, BitVec.toNat_add, BitVec.toNat_ofNat]
  omega

theorem field_lt (blk mask : W32) (k : Nat) (h : mask.toNat >>> k < 64) :
    (((blk &&& mask) >>> k) &&& 0xFF#32).toNat < 64 := by
  simp only [BitVec.toNat_and, BitVec.toNat_ushiftRight]
  refine Nat.lt_of_le_of_lt Nat.and_le_left (Nat.lt_of_le_of_lt ?_ h)
  simp only [Nat.shiftRight_eq_div_pow]
  exact Nat.div_le_div_right Nat.and_le_right

theorem field0_lt (blk : W32) : (blk &&& 0x3F#32).toNat < 64 := by
  simp only [BitVec.toNat_and]
  exact Nat.lt_of_le_of_lt Nat.and_le_right (by decide)

/-- The value the decoder assembles from four characters. -/
def assemble (a b c d : Byte) : W32 :=
  (a.setWidth 32 - 32#32) <<< 18 ||| (b.setWidth 32 - 32#32) <<< 12 |||
          (c.setWidth 32 - 32#32) <<< 6 ||| (d.setWidth 32 - 32#32)

theorem assemble_blockChars (blk : W32) : ∃ a b c d, blockChars blk = [a, b, c, d] ∧
    assemble a b c d = blk &&& 0xFFFFFF#32 := by
  refine ⟨_, _, _, _, rfl, ?_⟩
  unfold assemble
  rw [char_inv _ (field_lt blk _ _ (by decide)), char_inv _ (field_lt blk _ _ (by decide)),
    char_inv _ (field_lt blk _ _ (by decide)), char_inv _ (field0_lt blk)]
  apply BitVec.eq_of_getLsbD_eq
  intro i hi
  interval_cases i <;> simp

theorem blockBytes_pack (g : Bytes) (h1 : g ≠ []) (h3 : g.length ≤ 3) (n : Nat)
    (hn : n = g.length ∨ (g.length = 3 ∧ 3 ≤ n)) :
    (blockBytes (packBlock g &&& 0xFFFFFF#32)).take n = g := by
  have key : ∀ a b c : Byte, blockBytes (((((0#32 <<< 8 ||| a.setWidth 32) <<< 8) |||
      b.setWidth 32) <<< 8 ||| c.setWidth 32) &&& 0xFFFFFF#32) = [a, b, c] := by
    intro a b c
    simp only [blockBytes, List.cons.injEq, and_true]
    refine ⟨?_, ?_, ?_⟩ <;>
    · apply BitVec.eq_of_getLsbD_eq
      intro i hi
      interval_cases i <;> simp
  match g, h1, h3 with
  | [a, b, c], _, _ =>
    have : packBlock [a, b, c] = ((((0#32 <<< 8 ||| a.setWidth 32) <<< 8) |||
      b.setWidth 32) <<< 8 ||| c.setWidth 32) := rfl
    rw [this, key]
    simp at hn
    apply List.take_of_length_le; simp; omega
  | [a, b], _, _ =>
    have : packBlock [a, b] = ((((0#32 <<< 8 ||| a.setWidth 32) <<< 8) |||
      b.setWidth 32) <<< 8 ||| (1#8).setWidth 32) := rfl
    rw [this, key]
    simp at hn; subst hn; rfl
  | [a], _, _ =>
    have : packBlock [a] = ((0#32 <<< 8 ||| a.setWidth 32) <<< 16) ||| 0x101#32 := rfl
    rw [this]
    simp at hn; subst hn
    simp only [blockBytes, List.take_succ_cons, List.take_zero, List.cons.injEq, and_true]
    apply BitVec.eq_of_getLsbD_eq
    intro i hi
    interval_cases i <;> simp

/-- All characters for a run of bytes. -/
def chars (bs : Bytes) : Bytes :=
  if _h : bs = [] then [] else blockChars (packBlock (bs.take 3)) ++ chars (bs.drop 3)
termination_by bs.length
decreasing_by
  rcases bs with _ | ⟨x, xs⟩
  · exact absurd rfl _h
  · simp; omega

theorem chars_nil : chars [] = [] := by rw [chars]; simp

theorem chars_ne (bs : Bytes) (h : bs ≠ []) :
    chars bs = blockChars (packBlock (bs.take 3)) ++ chars (bs.drop 3) := by
  rw [chars]; simp [h]

theorem chars_length (bs : Bytes) : (chars bs).length = 4 * ((bs.length + 2) / 3) := by
  induction hn : bs.length using Nat.strongRecOn generalizing bs with
  | ind n ih =>
    by_cases h : bs = []
    · subst h; simp at hn; subst hn; simp [chars_nil]
    · rw [chars_ne bs h, List.length_append, ih (bs.drop 3).length ?_ _ rfl]
      · simp [blockChars]
        have : 0 < bs.length := List.length_pos_iff.mpr h
        omega
      · have : 0 < bs.length := List.length_pos_iff.mpr h
        simp; omega

/-- Decoding one line. -/
theorem decLine_chars (bs tail : Bytes) (stop cap : Nat) (hs : stop ≤ tail.length)
    (hc : bs.length ≤ cap) :
    decLine bs.length (chars bs ++ tail) stop cap = .ok (bs, tail) := by
  induction hn : bs.length using Nat.strongRecOn generalizing bs cap with
  | ind n ih =>
    by_cases h : bs = []
    · subst h; simp at hn; subst hn; rw [chars_nil]
      cases tail with
      | nil => rw [decLine] <;> simp
      | cons x xs =>
        unfold decLine; rw [if_pos (by simp)]; rfl
    · have hpos : 0 < bs.length := List.length_pos_iff.mpr h
      rw [chars_ne bs h]
      obtain ⟨a, b, c, d, hbc, hasm⟩ := assemble_blockChars (packBlock (bs.take 3))
      rw [hbc]
      have htk : (blockBytes (packBlock (bs.take 3) &&& 0xFFFFFF#32)).take n = bs.take 3 := by
        apply blockBytes_pack
        · rcases bs with _ | ⟨x, xs⟩ <;> simp_all
        · simp
        · simp; omega
      have hih := ih (bs.drop 3).length (by simp; omega) (bs.drop 3) (cap - (bs.take 3).length)
        (by simp; omega) rfl
      simp only [List.cons_append, List.nil_append, List.append_assoc]
      rw [decLine]
      rw [if_neg (by simp; omega)]
      have hasm' : (a.setWidth 32 - 32#32) <<< 18 ||| (b.setWidth 32 - 32#32) <<< 12 |||
          (c.setWidth 32 - 32#32) <<< 6 ||| (d.setWidth 32 - 32#32)
          = packBlock (bs.take 3) &&& 0xFFFFFF#32 := hasm
      simp only [hasm', htk]
      rw [if_neg (by simp; omega)]
      have : n - (bs.take 3).length = (bs.drop 3).length := by simp; omega
      rw [this, hih]
      simp

/-- The text emitted before the trailer, line by line. -/
def lines (bs : Bytes) : Bytes :=
  if _h : bs = [] then []
  else (32#8 + BitVec.ofNat 8 (bs.take 45).length) :: chars (bs.take 45) ++
    (if (chars (bs.take 45)).length = bytesPerLine then [0x0A#8] else []) ++ lines (bs.drop 45)
termination_by bs.length
decreasing_by
  rcases bs with _ | ⟨x, xs⟩
  · exact absurd rfl _h
  · simp; omega

theorem lines_ne (bs : Bytes) (h : bs ≠ []) : lines bs =
    (32#8 + BitVec.ofNat 8 (bs.take 45).length) :: chars (bs.take 45) ++
    (if (chars (bs.take 45)).length = bytesPerLine then [0x0A#8] else []) ++ lines (bs.drop 45) := by
  rw [lines]; simp [h]

theorem lines_nil : lines [] = [] := by rw [lines]; simp

theorem blockChars_length (b : W32) : (blockChars b).length = 4 := rfl

theorem encLoop_line (k : Nat) : ∀ (bs line : Bytes) (hb : bs ≠ []) (j : Nat) (hk : k + j = 14)
    (hl : line.length = 4 * j),
    encLoop bs line (3 * j) = (encLoop (bs.drop (45 - 3 * j)) [] 0 >>= fun rest =>
      .ok ((32#8 + BitVec.ofNat 8 (3 * j + (bs.take (45 - 3 * j)).length)) ::
        (line ++ chars (bs.take (45 - 3 * j))) ++
        (if (line ++ chars (bs.take (45 - 3 * j))).length = bytesPerLine then [0x0A#8] else [])
        ++ rest)) := by
  induction k with
  | zero =>
    intro bs line hb j hk hl
    have hj : j = 14 := by omega
    subst hj
    rw [encLoop]
    have hne : bs.take 3 ≠ [] := by rcases bs with _ | ⟨x, xs⟩ <;> simp_all
    have hch : chars (bs.take 3) = blockChars (packBlock (bs.take 3)) := by
      rw [chars_ne _ hne]; simp [chars_nil, List.take_take]
    have h45 : 45 - 3 * 14 = 3 := rfl
    rw [dif_neg hb, if_neg (by simp [bytesPerLine, hl])]
    simp only [h45, hch]
    rw [if_pos (by left; simp [bytesPerLine, hl, blockChars_length])]
    simp
  | succ k ih =>
    intro bs line hb j hk hl
    rw [encLoop]
    have hne : bs.take 3 ≠ [] := by rcases bs with _ | ⟨x, xs⟩ <;> simp_all
    have hch : chars (bs.take (45 - 3 * j)) =
        blockChars (packBlock (bs.take 3)) ++ chars ((bs.drop 3).take (45 - 3 * (j + 1))) := by
      have hlt : bs.take (45 - 3 * j) ≠ [] := by
        intro h0
        have h1 := congrArg List.length h0
        have h2 : 0 < bs.length := List.length_pos_iff.mpr hb
        rw [List.length_take, List.length_nil] at h1; omega
      rw [chars_ne _ hlt, List.take_take, List.drop_take, show min 3 (45 - 3 * j) = 3 by omega,
        show 45 - 3 * j - 3 = 45 - 3 * (j + 1) by omega]
    have e45 : 45 - 3 * j = 3 + (45 - 3 * (j + 1)) := by omega
    have hdd : bs.drop (45 - 3 * j) = (bs.drop 3).drop (45 - 3 * (j + 1)) := by
      rw [List.drop_drop, ← e45]
    rw [dif_neg hb, if_neg (by simp [bytesPerLine, hl]; omega)]
    simp only
    by_cases hd : bs.drop 3 = []
    · rw [if_pos (Or.inr hd), hd, hdd, hd, hch, hd]
      have h3 : bs.length ≤ 3 := by simpa using hd
      have ht : bs.take (45 - 3 * j) = bs.take 3 := by
        rw [List.take_of_length_le (by omega), List.take_of_length_le (by omega)]
      rw [ht]
      simp [chars_nil]
    · rw [if_neg (by
        rintro (h | h)
        · simp [bytesPerLine, hl, blockChars_length] at h; omega
        · exact hd h)]
      have htl : (bs.take 3).length = 3 := by
        simp
        have : 0 < (bs.drop 3).length := List.length_pos_iff.mpr hd
        simp at this; omega
      have := ih (bs.drop 3) (line ++ blockChars (packBlock (bs.take 3))) hd (j + 1) (by omega)
        (by simp [hl, blockChars_length]; omega)
      rw [htl, show 3 * j + 3 = 3 * (j + 1) by omega, this, hdd, hch]
      simp only [List.append_assoc]
      have hlen : 3 * (j + 1) + ((bs.drop 3).take (45 - 3 * (j + 1))).length =
          3 * j + (bs.take (45 - 3 * j)).length := by
        have : 0 < (bs.drop 3).length := List.length_pos_iff.mpr hd
        simp at this ⊢; omega
      rw [hlen]

theorem encLoop_eq (bs : Bytes) : encLoop bs [] 0 = .ok (lines bs) := by
  induction hn : bs.length using Nat.strongRecOn generalizing bs with
  | ind n ih =>
    by_cases h : bs = []
    · subst h; rw [lines_nil, encLoop]; simp
    · have hpos : 0 < bs.length := List.length_pos_iff.mpr h
      have := encLoop_line 14 bs [] h 0 rfl rfl
      simp only [Nat.mul_zero, Nat.sub_zero, Nat.zero_add, List.nil_append] at this
      rw [this, ih (bs.drop 45).length (by simp; omega) _ rfl, lines_ne bs h]
      simp

theorem lines_length (bs : Bytes) :
    (4 * bs.length + (if bs.length = 0 then 0 else 3)) ≤ 3 * (lines bs).length ∧
    (lines bs).length ≤ 10 * bs.length := by
  induction hn : bs.length using Nat.strongRecOn generalizing bs with
  | ind n ih =>
    by_cases h : bs = []
    · subst h; simp at hn; subst hn; simp [lines_nil]
    · have hpos : 0 < bs.length := List.length_pos_iff.mpr h
      have := ih (bs.drop 45).length (by simp; omega) _ rfl
      rw [lines_ne bs h]
      simp only [List.length_append, List.length_cons, chars_length]
      have h1 : (if 4 * (((List.take 45 bs).length + 2) / 3) = bytesPerLine then [0x0A#8]
          else ([] : Bytes)).length ≤ 1 := by split <;> simp
      simp at this ⊢
      simp at h1
      split at this <;> split <;> omega

theorem lineHead (n : Nat) (h : n ≤ 45) : sizeMinus32 (32#8 + BitVec.ofNat 8 n) = n := by
  unfold sizeMinus32
  have : (32#8 + BitVec.ofNat 8 n).toNat = 32 + n := by
    simp [BitVec.toNat_add]; omega
  rw [this, if_pos (by omega)]; omega

/-- Every data character is a printable character, in particular neither CR nor LF. -/
theorem chars_ge (bs : Bytes) : ∀ c ∈ chars bs, 32 ≤ c.toNat ∧ c.toNat < 96 := by
  induction hn : bs.length using Nat.strongRecOn generalizing bs with
  | ind n ih =>
    by_cases h : bs = []
    · subst h; simp [chars_nil]
    · have hpos : 0 < bs.length := List.length_pos_iff.mpr h
      have hih := ih (bs.drop 3).length (by simp; omega) _ rfl
      rw [chars_ne bs h]
      intro c hc
      rcases List.mem_append.mp hc with hc | hc
      · have key : ∀ x : W32, x.toNat < 64 → 32 ≤ ((32#32 + x).setWidth 8).toNat ∧
            ((32#32 + x).setWidth 8).toNat < 96 := by
          intro x hx
          simp only [BitVec.toNat_setWidth, BitVec.toNat_add, BitVec.toNat_ofNat]
          omega
        simp only [blockChars, List.mem_cons, List.not_mem_nil, or_false] at hc
        rcases hc with rfl | rfl | rfl | rfl
        · exact key _ (field_lt _ _ _ (by decide))
        · exact key _ (field_lt _ _ _ (by decide))
        · exact key _ (field_lt _ _ _ (by decide))
        · exact key _ (field0_lt _)
      · exact hih c hc

theorem decLoop_cons (lc : Byte) (body : Bytes) (stop cap : Nat) (os r r' : Bytes)
    (h : stop < body.length + 1)
    (h1 : decLine (sizeMinus32 lc) body stop cap = .ok (os, r)) (h2 : skipEol r stop = .ok r') :
    decLoop (lc :: body) stop cap =
      (decLoop r' stop (cap - os.length) >>= fun more => .ok (os ++ more)) := by
  rw [decLoop, dif_pos (by simpa using h)]
  simp only
  split
  · rename_i heq; rw [h1] at heq; cases heq
  · rename_i heq; rw [h1] at heq; injection heq with heq; injection heq with e1 e2; subst e1 e2
    split
    · rename_i heq; rw [h2] at heq; cases heq
    · rename_i heq; rw [h2] at heq; injection heq with heq; subst heq
      rfl

theorem decLoop_done (rest : Bytes) (stop cap : Nat) (h : rest.length ≤ stop) :
    decLoop rest stop cap = .ok [] := by
  rw [decLoop, dif_neg (by omega)]

/-- Shape of the emitted text: it starts with a length character and a data character. -/
theorem lines_head (bs : Bytes) (h : bs ≠ []) : ∃ x y t, lines bs = x :: y :: t ∧
    x ≠ 0x0D#8 ∧ y ≠ 0x0A#8 := by
  have hpos : 0 < bs.length := List.length_pos_iff.mpr h
  have hne : bs.take 45 ≠ [] := by rcases bs with _ | ⟨x, xs⟩ <;> simp_all
  rw [lines_ne bs h]
  have hcl := chars_length (bs.take 45)
  cases hc : chars (bs.take 45) with
  | nil => rw [hc] at hcl; simp at hcl; omega
  | cons y t =>
    refine ⟨_, y, _, rfl, ?_, ?_⟩
    · intro he
      have := congrArg BitVec.toNat he
      simp [BitVec.toNat_add] at this
      omega
    · intro he
      have := (chars_ge (bs.take 45) y (by rw [hc]; simp)).1
      rw [he] at this
      simp at this

theorem decLoop_lines (bs : Bytes) (cap : Nat) (hc : bs.length ≤ cap) :
    decLoop (lines bs ++ [0x0A#8, 0x60#8, 0x0A#8]) 3 cap = .ok bs := by
  induction hn : bs.length using Nat.strongRecOn generalizing bs cap with
  | ind n ih =>
    by_cases h : bs = []
    · subst h; rw [lines_nil]; exact decLoop_done _ _ _ (by simp)
    · have hpos : 0 < bs.length := List.length_pos_iff.mpr h
      have hih := ih (bs.drop 45).length (by simp; omega) (bs.drop 45) (cap - (bs.take 45).length)
        (by simp; omega) rfl
      rw [lines_ne bs h]
      have htl : (bs.take 45).length ≤ 45 := by simp
      by_cases hfull : (chars (bs.take 45)).length = bytesPerLine
      · rw [if_pos hfull]
        have h1 := decLine_chars (bs.take 45)
          (0x0A#8 :: (lines (bs.drop 45) ++ [0x0A#8, 0x60#8, 0x0A#8])) 3 cap (by simp)
          (by simp; omega)
        have h2 : skipEol (0x0A#8 :: (lines (bs.drop 45) ++ [0x0A#8, 0x60#8, 0x0A#8])) 3 =
            .ok (lines (bs.drop 45) ++ [0x0A#8, 0x60#8, 0x0A#8]) := by
          simp only [skipEol, skipEol1, if_true, List.drop_succ_cons, List.drop_zero, skipEol2]
          split
          · by_cases hd : bs.drop 45 = []
            · rename_i hh
              rw [hd, lines_nil] at hh
              simp at hh
            · obtain ⟨x, y, t, he, hx, hy⟩ := lines_head _ hd
              rw [he]
              simp [hx, hy]
          · rfl
        have hln : 3 < (chars (bs.take 45) ++
            (0x0A#8 :: (lines (bs.drop 45) ++ [0x0A#8, 0x60#8, 0x0A#8]))).length + 1 := by
          simp; omega
        have := decLoop_cons (32#8 + BitVec.ofNat 8 (bs.take 45).length) _ 3 cap _ _ _
          hln (by rw [lineHead _ htl]; exact h1) h2
        simp only [List.cons_append, List.append_assoc, List.nil_append] at this ⊢
        rw [this, hih]
        simp
      · rw [if_neg hfull]
        have hshort : bs.length < 45 := by
          by_contra hge
          apply hfull
          rw [chars_length]
          simp [bytesPerLine]; omega
        have hd : bs.drop 45 = [] := by simp; omega
        have ht : bs.take 45 = bs := List.take_of_length_le (by omega)
        rw [hd, lines_nil, ht]
        have h1 := decLine_chars bs [0x0A#8, 0x60#8, 0x0A#8] 3 cap (by simp) (by omega)
        have h2 : skipEol [0x0A#8, 0x60#8, 0x0A#8] 3 = .ok [0x60#8, 0x0A#8] := by decide
        have hln : 3 < (chars bs ++ [0x0A#8, 0x60#8, 0x0A#8]).length + 1 := by simp
        have := decLoop_cons (32#8 + BitVec.ofNat 8 bs.length) _ 3 cap _ _ _
          hln (by rw [lineHead _ (by omega)]; exact h1) h2
        simp only [List.cons_append, List.append_assoc, List.nil_append, List.append_nil] at this ⊢
        rw [this, decLoop_done _ _ _ (by simp)]
        simp

/-- C05.  For every non-empty buffer (of a size the address space can hold) the encoder
succeeds within its buffers, and the decoder applied to its output succeeds within its buffers
and gives the buffer back. -/
theorem uuencode_roundtrip (m : Bytes) (hm : m ≠ []) (hbig : m.length < 2 ^ 56) :
    ∃ t, encodeBuffer m = .ok (some t) ∧ decodeBuffer t = .ok (some m) := by
  have hpos : 0 < m.length := List.length_pos_iff.mpr hm
  have hl := lines_length m
  rw [if_neg (by omega)] at hl
  refine ⟨lines m ++ [0x0A#8, 0x60#8, 0x0A#8], ?_, ?_⟩
  · unfold encodeBuffer
    rw [if_neg (by omega), encLoop_eq]
    simp only [Out.bind_ok]
    rw [if_pos]
    simp only [Nat.shiftLeft_eq, bytesPerLine]; omega
  · have htr : trailer (lines m ++ [0x0A#8, 0x60#8, 0x0A#8]) = 3 := by
      unfold trailer
      simp only [List.reverse_append, List.reverse_cons, List.reverse_nil, List.nil_append,
        List.cons_append]
      cases hr : (lines m).reverse with
      | nil =>
        exfalso
        have hr' := congrArg List.length hr
        rw [List.length_reverse, List.length_nil] at hr'
        omega
      | cons x xs => simp
    cases ht : lines m with
    | nil => rw [ht] at hl; simp only [List.length_nil] at hl; omega
    | cons b0 t =>
      have hb0 : sizeMinus32 b0 ≤ 45 := by
        rw [lines_ne m hm] at ht
        injection ht with h1 h2
        rw [← h1, lineHead _ (by simp)]; simp
      unfold decodeBuffer
      simp only [List.cons_append]
      have htr' := htr
      rw [ht, List.cons_append] at htr'
      rw [htr']
      have key := decLoop_lines m
        (((if (((b0 :: (t ++ [0x0A#8, 0x60#8, 0x0A#8])).length * 6) / 8 + (2 ^ 64 - 4)) % 2 ^ 64
            < sizeMinus32 b0 then sizeMinus32 b0
          else ((((b0 :: (t ++ [0x0A#8, 0x60#8, 0x0A#8])).length * 6) / 8 + (2 ^ 64 - 4)) % 2 ^ 64))
          + bytesPerLine) % 2 ^ 64) ?_
      · rw [ht, List.cons_append] at key
        rw [key]; rfl
      · rw [ht] at hl
        simp only [List.length_cons, List.length_append, List.length_nil, bytesPerLine] at hl ⊢
        have hm64 : ((t.length + (0 + 1 + 1 + 1) + 1) * 6 / 8 + (2 ^ 64 - 4)) % 2 ^ 64 =
            (t.length + (0 + 1 + 1 + 1) + 1) * 6 / 8 - 4 := by
          rw [show (t.length + (0 + 1 + 1 + 1) + 1) * 6 / 8 + (2 ^ 64 - 4) =
            (t.length + (0 + 1 + 1 + 1) + 1) * 6 / 8 - 4 + 2 ^ 64 by omega, Nat.add_mod_right]
          exact Nat.mod_eq_of_lt (by omega)
        rw [hm64]
        split
        · rw [Nat.mod_eq_of_lt (by omega)]; omega
        · rw [Nat.mod_eq_of_lt (by omega)]; omega

/-- The hypotheses of `uuencode_roundtrip` are met, e.g. by a buffer that needs two lines. -/
example : (List.replicate 50 0x41#8 : Bytes) ≠ [] ∧ (List.replicate 50 0x41#8).length < 2 ^ 56 := by
  simp

/-- Test vector: "cat" is encoded as `#8V%T`. -/
example : encodeBuffer (ascii "cat") = .ok (some (ascii "#8V%T\n`\n")) := by decide +kernel

/-- The decoder reads past the text for a truncated line: the single character '#' announces
three bytes but nothing follows. -/
theorem uuencode_decode_unsafe : decodeBuffer (ascii "#8") = .ub := by decide +kernel

end Kryptos.Uuencode
