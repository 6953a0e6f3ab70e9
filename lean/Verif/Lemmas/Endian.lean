import Verif.Model.Endian
import Verif.Spec.MerkleDamgard
import Mathlib.Tactic.IntervalCases
/-
  The conversions between words and bytes are inverse to each other and have the positional values.
-/
namespace Kryptos

theorem rev32_rev32 (v : W32) : rev32 (rev32 v) = v := by
  apply BitVec.eq_of_getLsbD_eq; intro i hi
  unfold rev32
  interval_cases i <;> simp

theorem rev64_rev64 (v : W64) : rev64 (rev64 v) = v := by
  apply BitVec.eq_of_getLsbD_eq; intro i hi
  unfold rev64
  interval_cases i <;> simp

/-- The value of a big-endian word. -/
theorem be16_toNat (a b : Byte) : (be16 a b).toNat = 256 * a.toNat + b.toNat := by
  have ha := a.isLt; have hb := b.isLt
  unfold be16
  rw [BitVec.toNat_or, BitVec.toNat_shiftLeft, BitVec.toNat_setWidth, BitVec.toNat_setWidth,
    Nat.mod_eq_of_lt (a := a.toNat) (by omega), Nat.mod_eq_of_lt (a := b.toNat) (by omega), Nat.shiftLeft_eq,
    Nat.mod_eq_of_lt (by omega), Nat.mul_comm, ← Nat.two_pow_add_eq_or_of_lt (by omega)]

theorem be32_split (a b c d : Byte) :
    be32 a b c d = (be16 a b).setWidth 32 <<< 16 ||| (be16 c d).setWidth 32 := by
  apply BitVec.eq_of_getLsbD_eq; intro i hi
  unfold be32 be16
  interval_cases i <;> simp

theorem be32_toNat (a b c d : Byte) :
    (be32 a b c d).toNat = 256 ^ 3 * a.toNat + 256 ^ 2 * b.toNat + 256 * c.toNat + d.toNat := by
  have h1 := be16_toNat a b
  have h2 := be16_toNat c d
  have l1 := (be16 a b).isLt
  have l2 := (be16 c d).isLt
  rw [be32_split, BitVec.toNat_or, BitVec.toNat_shiftLeft, BitVec.toNat_setWidth, BitVec.toNat_setWidth,
    Nat.mod_eq_of_lt (a := (be16 a b).toNat) (by omega), Nat.mod_eq_of_lt (a := (be16 c d).toNat) (by omega),
    Nat.shiftLeft_eq, Nat.mod_eq_of_lt (by omega), Nat.mul_comm, ← Nat.two_pow_add_eq_or_of_lt (by omega)]
  omega

theorem be64_split (a b c d e f g h : Byte) :
    be64 a b c d e f g h = (be32 a b c d).setWidth 64 <<< 32 ||| (be32 e f g h).setWidth 64 := by
  apply BitVec.eq_of_getLsbD_eq; intro i hi
  unfold be32 be64
  interval_cases i <;> simp

theorem be64_toNat (a b c d e f g h : Byte) :
    (be64 a b c d e f g h).toNat = 2 ^ 32 * (be32 a b c d).toNat + (be32 e f g h).toNat := by
  have l1 := (be32 a b c d).isLt
  have l2 := (be32 e f g h).isLt
  rw [be64_split, BitVec.toNat_or, BitVec.toNat_shiftLeft, BitVec.toNat_setWidth, BitVec.toNat_setWidth,
    Nat.mod_eq_of_lt (a := (be32 a b c d).toNat) (by omega), Nat.mod_eq_of_lt (a := (be32 e f g h).toNat) (by omega),
    Nat.shiftLeft_eq, Nat.mod_eq_of_lt (by omega), Nat.mul_comm, ← Nat.two_pow_add_eq_or_of_lt (by omega)]

theorem be16_putBe16 (v : W16) : ∃ a b, putBe16 v = [a, b] ∧ be16 a b = v := by
  refine ⟨_, _, rfl, ?_⟩
  apply BitVec.eq_of_getLsbD_eq; intro i hi
  unfold be16
  interval_cases i <;> simp

theorem be32_putBe32 (v : W32) : ∃ a b c d, putBe32 v = [a, b, c, d] ∧ be32 a b c d = v := by
  refine ⟨_, _, _, _, rfl, ?_⟩
  apply BitVec.eq_of_getLsbD_eq; intro i hi
  unfold be32
  interval_cases i <;> simp

theorem be64_putBe64 (v : W64) :
    ∃ a b c d e f g h, putBe64 v = [a, b, c, d, e, f, g, h] ∧ be64 a b c d e f g h = v := by
  refine ⟨_, _, _, _, _, _, _, _, rfl, ?_⟩
  apply BitVec.eq_of_getLsbD_eq; intro i hi
  unfold be64
  interval_cases i <;> simp

theorem putBe16_be16 (a b : Byte) : putBe16 (be16 a b) = [a, b] := by
  obtain ⟨a', b', h1, h2⟩ := be16_putBe16 (be16 a b)
  have h3 := congrArg BitVec.toNat h2
  rw [be16_toNat, be16_toNat] at h3
  have := a.isLt; have := b.isLt; have := a'.isLt; have := b'.isLt
  rw [h1, BitVec.eq_of_toNat_eq (x := a') (y := a) (by omega), BitVec.eq_of_toNat_eq (x := b') (y := b) (by omega)]

theorem putBe32_be32 (a b c d : Byte) : putBe32 (be32 a b c d) = [a, b, c, d] := by
  obtain ⟨a', b', c', d', h1, h2⟩ := be32_putBe32 (be32 a b c d)
  have h3 := congrArg BitVec.toNat h2
  rw [be32_toNat, be32_toNat] at h3
  have := a.isLt; have := b.isLt; have := c.isLt; have := d.isLt
  have := a'.isLt; have := b'.isLt; have := c'.isLt; have := d'.isLt
  rw [h1, BitVec.eq_of_toNat_eq (x := a') (y := a) (by omega), BitVec.eq_of_toNat_eq (x := b') (y := b) (by omega),
    BitVec.eq_of_toNat_eq (x := c') (y := c) (by omega), BitVec.eq_of_toNat_eq (x := d') (y := d) (by omega)]

theorem putBe64_be64 (a b c d e f g h : Byte) :
    putBe64 (be64 a b c d e f g h) = [a, b, c, d, e, f, g, h] := by
  obtain ⟨a', b', c', d', e', f', g', h', h1, h2⟩ := be64_putBe64 (be64 a b c d e f g h)
  have h3 := congrArg BitVec.toNat h2
  rw [be64_toNat, be64_toNat] at h3
  have l1 := (be32 a b c d).isLt
  have l2 := (be32 e f g h).isLt
  have l3 := (be32 a' b' c' d').isLt
  have l4 := (be32 e' f' g' h').isLt
  have e1 : be32 a' b' c' d' = be32 a b c d := BitVec.eq_of_toNat_eq (by omega)
  have e2 : be32 e' f' g' h' = be32 e f g h := BitVec.eq_of_toNat_eq (by omega)
  have p1 := putBe32_be32 a b c d
  have p2 := putBe32_be32 e f g h
  rw [← e1, putBe32_be32] at p1
  rw [← e2, putBe32_be32] at p2
  simp only [List.cons.injEq, and_true] at p1 p2
  rw [h1, p1.1, p1.2.1, p1.2.2.1, p1.2.2.2, p2.1, p2.2.1, p2.2.2.1, p2.2.2.2]

theorem putBe16_length (v : W16) : (putBe16 v).length = 2 := rfl
theorem putBe32_length (v : W32) : (putBe32 v).length = 4 := rfl
theorem putLe32_length (v : W32) : (putLe32 v).length = 4 := rfl
theorem putBe64_length (v : W64) : (putBe64 v).length = 8 := rfl
theorem putLe64_length (v : W64) : (putLe64 v).length = 8 := rfl

/-- Reading back a stored word. -/
theorem getBe16_at (x y : Bytes) (v : W16) : getBe16 (x ++ (putBe16 v ++ y)) x.length = .ok v := by
  obtain ⟨a, b, h1, h2⟩ := be16_putBe16 v
  rw [h1]
  simp [getBe16, rd, h2]

theorem getBe32_at (x y : Bytes) (v : W32) : getBe32 (x ++ (putBe32 v ++ y)) x.length = .ok v := by
  obtain ⟨a, b, c, d, h1, h2⟩ := be32_putBe32 v
  rw [h1]
  simp [getBe32, rd, h2]

theorem getLe32_at (x y : Bytes) (v : W32) : getLe32 (x ++ (putLe32 v ++ y)) x.length = .ok v := by
  unfold getLe32 putLe32
  rw [getBe32_at]
  simp [rev32_rev32]

theorem getBe64_at (x y : Bytes) (v : W64) : getBe64 (x ++ (putBe64 v ++ y)) x.length = .ok v := by
  obtain ⟨a, b, c, d, e, f, g, h, h1, h2⟩ := be64_putBe64 v
  rw [h1]
  simp [getBe64, rd, h2]

theorem getLe64_at (x y : Bytes) (v : W64) : getLe64 (x ++ (putLe64 v ++ y)) x.length = .ok v := by
  unfold getLe64 putLe64
  rw [getBe64_at]
  simp [rev64_rev64]

/-- Every buffer starts with a stored word. -/
theorem split_be16 (b : Bytes) (h : 2 ≤ b.length) : ∃ v, b = putBe16 v ++ b.drop 2 := by
  match b, h with
  | x :: y :: t, _ => exact ⟨be16 x y, by rw [putBe16_be16]; rfl⟩

theorem split_be32 (b : Bytes) (h : 4 ≤ b.length) : ∃ v, b = putBe32 v ++ b.drop 4 := by
  match b, h with
  | x :: y :: z :: u :: t, _ => exact ⟨be32 x y z u, by rw [putBe32_be32]; rfl⟩

theorem split_le32 (b : Bytes) (h : 4 ≤ b.length) : ∃ v, b = putLe32 v ++ b.drop 4 := by
  obtain ⟨v, hv⟩ := split_be32 b h
  exact ⟨rev32 v, by rw [putLe32, rev32_rev32]; exact hv⟩

theorem split_be64 (b : Bytes) (h : 8 ≤ b.length) : ∃ v, b = putBe64 v ++ b.drop 8 := by
  match b, h with
  | a :: b :: c :: d :: e :: f :: g :: h :: t, _ => exact ⟨be64 a b c d e f g h, by rw [putBe64_be64]; rfl⟩

theorem split_le64 (b : Bytes) (h : 8 ≤ b.length) : ∃ v, b = putLe64 v ++ b.drop 8 := by
  obtain ⟨v, hv⟩ := split_be64 b h
  exact ⟨rev64 v, by rw [putLe64, rev64_rev64]; exact hv⟩

/-- A buffer of four bytes per word is the concatenation of its words. -/
theorem words_be32 : ∀ (n : Nat) (b : Bytes), b.length = 4 * n → ∃ ws : List W32, ws.length = n ∧ b = ws.flatMap putBe32
  | 0, b, h => ⟨[], rfl, List.length_eq_zero_iff.mp h⟩
  | n + 1, b, h => by
    obtain ⟨v, hv⟩ := split_be32 b (by omega)
    obtain ⟨ws, h1, h2⟩ := words_be32 n (b.drop 4) (by rw [List.length_drop]; omega)
    exact ⟨v :: ws, by rw [List.length_cons, h1], by rw [List.flatMap_cons, ← h2]; exact hv⟩

theorem words_le32 : ∀ (n : Nat) (b : Bytes), b.length = 4 * n → ∃ ws : List W32, ws.length = n ∧ b = ws.flatMap putLe32
  | 0, b, h => ⟨[], rfl, List.length_eq_zero_iff.mp h⟩
  | n + 1, b, h => by
    obtain ⟨v, hv⟩ := split_le32 b (by omega)
    obtain ⟨ws, h1, h2⟩ := words_le32 n (b.drop 4) (by rw [List.length_drop]; omega)
    exact ⟨v :: ws, by rw [List.length_cons, h1], by rw [List.flatMap_cons, ← h2]; exact hv⟩

theorem flatMap_putBe32_length (ws : List W32) : (ws.flatMap putBe32).length = 4 * ws.length := by
  induction ws with
  | nil => rfl
  | cons v ws ih => rw [List.flatMap_cons, List.length_append, ih, putBe32_length, List.length_cons]; omega

theorem flatMap_putLe32_length (ws : List W32) : (ws.flatMap putLe32).length = 4 * ws.length := by
  induction ws with
  | nil => rfl
  | cons v ws ih => rw [List.flatMap_cons, List.length_append, ih, putLe32_length, List.length_cons]; omega

/-- Reading the `i`-th word of such a buffer. -/
theorem getBe32_words (ws : List W32) (i : Nat) (hi : i < ws.length) :
    getBe32 (ws.flatMap putBe32) (4 * i) = .ok ws[i] := by
  conv => lhs; rw [← List.take_append_drop i ws, List.flatMap_append, List.drop_eq_getElem_cons hi,
    List.flatMap_cons]
  have := getBe32_at ((ws.take i).flatMap putBe32) ((ws.drop (i + 1)).flatMap putBe32) ws[i]
  rwa [flatMap_putBe32_length, List.length_take, Nat.min_eq_left (by omega)] at this

theorem getLe32_words (ws : List W32) (i : Nat) (hi : i < ws.length) :
    getLe32 (ws.flatMap putLe32) (4 * i) = .ok ws[i] := by
  conv => lhs; rw [← List.take_append_drop i ws, List.flatMap_append, List.drop_eq_getElem_cons hi,
    List.flatMap_cons]
  have := getLe32_at ((ws.take i).flatMap putLe32) ((ws.drop (i + 1)).flatMap putLe32) ws[i]
  rwa [flatMap_putLe32_length, List.length_take, Nat.min_eq_left (by omega)] at this

/-- Blocks of two and four big-endian words. -/
theorem block2_be32 (b : Bytes) (h : b.length = 8) : ∃ x y, b = putBe32 x ++ putBe32 y := by
  obtain ⟨ws, h1, h2⟩ := words_be32 2 b h
  match ws, h1 with
  | [x, y], _ => exact ⟨x, y, by simpa using h2⟩

theorem block4_be32 (b : Bytes) (h : b.length = 16) :
    ∃ x y z u, b = putBe32 x ++ (putBe32 y ++ (putBe32 z ++ putBe32 u)) := by
  obtain ⟨ws, h1, h2⟩ := words_be32 4 b h
  match ws, h1 with
  | [x, y, z, u], _ => exact ⟨x, y, z, u, by simpa using h2⟩

theorem getBe32_0 (x : W32) (t : Bytes) : getBe32 (putBe32 x ++ t) 0 = .ok x := getBe32_at [] t x
theorem getBe32_4 (x y : W32) (t : Bytes) : getBe32 (putBe32 x ++ (putBe32 y ++ t)) 4 = .ok y :=
  getBe32_at (putBe32 x) t y
theorem getBe32_4' (x y : W32) : getBe32 (putBe32 x ++ putBe32 y) 4 = .ok y := by
  simpa [putBe32_length, putLe32_length] using getBe32_at (putBe32 x) [] y
theorem getBe32_8 (x y z : W32) (t : Bytes) :
    getBe32 (putBe32 x ++ (putBe32 y ++ (putBe32 z ++ t))) 8 = .ok z :=
  getBe32_at (putBe32 x ++ putBe32 y) t z
theorem getBe32_12 (x y z u : W32) :
    getBe32 (putBe32 x ++ (putBe32 y ++ (putBe32 z ++ putBe32 u))) 12 = .ok u := by
  simpa [putBe32_length, putLe32_length] using getBe32_at (putBe32 x ++ (putBe32 y ++ putBe32 z)) [] u

theorem block4_le32 (b : Bytes) (h : b.length = 16) :
    ∃ x y z u, b = putLe32 x ++ (putLe32 y ++ (putLe32 z ++ putLe32 u)) := by
  obtain ⟨ws, h1, h2⟩ := words_le32 4 b h
  match ws, h1 with
  | [x, y, z, u], _ => exact ⟨x, y, z, u, by simpa using h2⟩

theorem getLe32_0 (x : W32) (t : Bytes) : getLe32 (putLe32 x ++ t) 0 = .ok x := getLe32_at [] t x
theorem getLe32_4 (x y : W32) (t : Bytes) : getLe32 (putLe32 x ++ (putLe32 y ++ t)) 4 = .ok y :=
  getLe32_at (putLe32 x) t y
theorem getLe32_8 (x y z : W32) (t : Bytes) :
    getLe32 (putLe32 x ++ (putLe32 y ++ (putLe32 z ++ t))) 8 = .ok z :=
  getLe32_at (putLe32 x ++ putLe32 y) t z
theorem getLe32_12 (x y z u : W32) :
    getLe32 (putLe32 x ++ (putLe32 y ++ (putLe32 z ++ putLe32 u))) 12 = .ok u := by
  simpa [putBe32_length, putLe32_length] using getLe32_at (putLe32 x ++ (putLe32 y ++ putLe32 z)) [] u

end Kryptos
