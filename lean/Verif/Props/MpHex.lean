import Verif.Lemmas.MpHex
import Verif.Props.Memory
/-
  Conversion of big numbers to and from text and bytes (C40), and what is left of a released big number (C62).
  The digits have `8 * k` bits: `k = 8` for 64-bit digits and `k = 4` for 32-bit digits.
-/
namespace Kryptos.Mp
open Spec.Mp

/-! ### C40 -/

/-- Reading a numeral gives its number, in as few digits as its length needs. -/
theorem hex_read (k : Nat) (hk : 0 < k) (s : Bytes) (n : Nat) (hs : s ≠ []) (h : IsHex s n) :
    ∃ d : Digits (8 * k), hexValue (8 * k) s = some ⟨d, false⟩ ∧ val d = n ∧
      d.length = (s.length + 2 * k - 1) / (2 * k) := by
  obtain ⟨ds, h1, rfl⟩ := h
  obtain ⟨hh, rfl⟩ := (mapM_hex s ds).1 h1
  obtain ⟨c, cs, rfl⟩ := List.exists_cons_of_ne_nil hs
  have hc : c ≠ 45 := by
    obtain ⟨v, hv⟩ := hh c (by simp)
    rintro rfl
    rw [show hexDigit? 45 = none by decide] at hv
    cases hv
  refine ⟨_, by simp only [hexValue, hc, if_false]; rfl, hex_body k hk _ hh, ?_⟩
  rw [List.length_reverse, length_hexLoop, hexSize_digits _ _ hk, Nat.max_eq_left]
  exact Nat.div_pos (by rw [List.length_cons]; omega) (by omega)

/-- Reading a numeral with a minus sign. -/
theorem hex_read_negative (k : Nat) (hk : 0 < k) (s : Bytes) (n : Nat) (hs : s ≠ []) (h : IsHex s n) :
    ∃ d : Digits (8 * k), hexValue (8 * k) (45 :: s) = some ⟨d, true⟩ ∧ val d = n ∧
      d.length = (s.length + 2 * k - 1) / (2 * k) := by
  obtain ⟨ds, h1, rfl⟩ := h
  obtain ⟨hh, rfl⟩ := (mapM_hex s ds).1 h1
  refine ⟨_, by simp only [hexValue, if_true]; rfl, hex_body k hk _ hh, ?_⟩
  rw [List.length_reverse, length_hexLoop, hexSize_digits _ _ hk, Nat.max_eq_left]
  have := List.length_pos_iff.2 hs
  exact Nat.div_pos (by omega) (by omega)

/-- The text of the digits. -/
theorem hex_text (k : Nat) (n : Num (8 * k)) :
    ∃ hex, IsHex hex (val n.data) ∧ hex.length = n.data.length * (2 * k) ∧
      valueAsHex n = .ok ((if n.neg then [some 45] else []) ++ hex.map some ++ (if n.neg then [none] else [some 0]),
        hex.length) := by
  obtain ⟨cs, h1, h2, h3, h4⟩ := digits_hex k n.data
  refine ⟨cs.flatten, ⟨cs.flatten.map hv, (mapM_hex _ _).2 ⟨h3, rfl⟩, h4.symm⟩, h2, ?_⟩
  have hs : n.data.length * (8 * k / 8) * 2 = cs.flatten.length := by
    rw [h2, Nat.mul_div_cancel_left _ (by omega)]; ring
  simp only [valueAsHex, h1, Out.bind_ok, hs]
  cases n.neg <;> simp

/-- Printing a number that is not negative gives a numeral of it, terminated by a NUL, and reading the numeral gives back
the same digits. -/
theorem hex_print_read (k : Nat) (hk : 0 < k) (n : Num (8 * k)) (hn : n.data ≠ []) (hneg : n.neg = false) :
    ∃ hex, valueAsHex n = .ok (hex.map some ++ [some 0], hex.length) ∧ IsHex hex (val n.data) ∧
      hexValue (8 * k) hex = some n := by
  obtain ⟨hex, h1, h2, h3⟩ := hex_text k n
  rw [hneg] at h3
  refine ⟨hex, by simpa using h3, h1, ?_⟩
  have hl := List.length_pos_iff.2 hn
  have hne : hex ≠ [] := List.ne_nil_of_length_pos (by rw [h2]; exact Nat.mul_pos hl (by omega))
  obtain ⟨d, e1, e2, e3⟩ := hex_read k hk hex _ hne h1
  rw [e1]
  have hdl : d.length = n.data.length := by
    rw [e3, h2, Nat.add_sub_assoc (by omega), Nat.mul_comm, Nat.mul_add_div (by omega), Nat.div_eq_of_lt (by omega)]; rfl
  rw [(val_inj d n.data hdl).1 e2, ← hneg]

/-- Reading a numeral and printing the result gives a numeral of the same number. -/
theorem hex_read_print (k : Nat) (hk : 0 < k) (s : Bytes) (n : Nat) (hs : s ≠ []) (h : IsHex s n) :
    ∃ m hex, hexValue (8 * k) s = some m ∧ valueAsHex m = .ok (hex.map some ++ [some 0], hex.length) ∧ IsHex hex n := by
  obtain ⟨d, h1, h2, h3⟩ := hex_read k hk s n hs h
  have hd : d ≠ [] := by
    apply List.ne_nil_of_length_pos
    rw [h3]
    have := List.length_pos_iff.2 hs
    exact Nat.div_pos (by omega) (by omega)
  obtain ⟨hex, e1, e2, -⟩ := hex_print_read k hk ⟨d, false⟩ hd rfl
  exact ⟨_, hex, h1, e1, h2 ▸ e2⟩

/-- For negative numbers the size the code reports does not count the sign, and the byte after the text is never written.
Reading as many characters as reported gives the number divided by 16. -/
theorem hex_negative_wrong (k : Nat) (hk : 0 < k) (n : Num (8 * k)) (hn : n.data ≠ []) (hneg : n.neg = true) :
    ∃ hex m, valueAsHex n = .ok ((45 :: hex).map some ++ [none], hex.length) ∧ IsHex hex (val n.data) ∧
      hexValue (8 * k) (45 :: hex) = some n ∧
      hexValue (8 * k) ((45 :: hex).take hex.length) = some m ∧ val m.data = val n.data / 16 := by
  obtain ⟨hex, h1, h2, h3⟩ := hex_text k n
  rw [hneg] at h3
  have hl := List.length_pos_iff.2 hn
  have hx2 : 2 ≤ hex.length := by
    rw [h2]
    calc 2 ≤ 1 * (2 * k) := by omega
      _ ≤ _ := Nat.mul_le_mul_right _ hl
  obtain ⟨d, e1, e2, e3⟩ := hex_read_negative k hk hex _ (List.ne_nil_of_length_pos (by omega)) h1
  have hdl : d.length = n.data.length := by
    rw [e3, h2, Nat.add_sub_assoc (by omega), Nat.mul_comm, Nat.mul_add_div (by omega), Nat.div_eq_of_lt (by omega)]; rfl
  obtain ⟨ds, g1, g2⟩ := h1
  obtain ⟨hh, rfl⟩ := (mapM_hex hex ds).1 g1
  have hsplit : hex = hex.take (hex.length - 1) ++ [hex.getLast (List.ne_nil_of_length_pos (by omega))] := by
    rw [← List.dropLast_eq_take, List.dropLast_concat_getLast]
  obtain ⟨d', f1, f2, -⟩ := hex_read_negative k hk (hex.take (hex.length - 1)) _
    (List.ne_nil_of_length_pos (by rw [List.length_take]; omega))
    ⟨_, (mapM_hex _ _).2 ⟨fun c hc => hh c (List.mem_of_mem_take hc), rfl⟩, rfl⟩
  refine ⟨hex, ⟨d', true⟩, by simpa using h3, ⟨_, g1, g2⟩, ?_, ?_, ?_⟩
  · rw [e1, (val_inj d n.data hdl).1 e2, ← hneg]
  · rw [show (45 :: hex).take hex.length = 45 :: hex.take (hex.length - 1) by
      obtain ⟨m, hm⟩ : ∃ m, hex.length = m + 1 := ⟨hex.length - 1, by omega⟩
      rw [hm, List.take_succ_cons]; rfl]
    exact f1
  · rw [f2, g2]
    conv_rhs => rw [hsplit]
    rw [List.map_append, ofBE_append]
    have hlast := hv_lt hex hh (hv (hex.getLast (List.ne_nil_of_length_pos (by omega))))
      (List.mem_map.2 ⟨_, List.getLast_mem _, rfl⟩)
    simp only [List.map_cons, List.map_nil, List.length_singleton, pow_one, ofBE_cons, List.length_nil, pow_zero,
      Nat.mul_one]
    rw [show ofDigitsBE 16 [] = 0 from rfl, Nat.add_zero, Nat.mul_comm, Nat.mul_add_div (by omega), Nat.div_eq_of_lt hlast]
    rfl

example : hexValue 64 (ascii "-1fFfffFFFfFfFfFf0") = some ⟨[0xFFFFFFFFFFFFFFF0, 1], true⟩ := by decide +kernel
example : valueAsHex (⟨[255, 1], true⟩ : Num 32) = .ok ((ascii "-00000001000000FF").map some ++ [none], 16) := by
  decide +kernel

/-! ### Bytes -/

/-- The bytes of a big number are its numeral in radix 256. -/
theorem task_out_value (k : Nat) (n : Num (8 * k)) :
    ofDigitsBE 256 ((asTaskOut n).map BitVec.toNat) = val n.data ∧ (asTaskOut n).length = n.data.length * k := by
  obtain ⟨d, neg⟩ := n
  simp only [asTaskOut, Nat.mul_div_cancel_left k (show 0 < 8 by omega)]
  induction d with
  | nil => simp [ofDigitsBE, val]
  | cons x d ih =>
    rw [List.reverse_cons, List.flatMap_append, List.map_append, ofBE_append, ih.1, List.length_append, ih.2]
    constructor
    · simp only [List.flatMap_cons, List.flatMap_nil, List.append_nil, List.length_map, List.length_reverse,
        List.length_range, List.map_map, val]
      have : (BitVec.toNat ∘ fun i => (x >>> (8 * i)).setWidth 8) = fun i => x.toNat / 256 ^ i % 256 := by
        funext i
        simp only [Function.comp, BitVec.toNat_setWidth, BitVec.toNat_ushiftRight, Nat.shiftRight_eq_div_pow]
        rw [show (256 : Nat) = 2 ^ 8 by norm_num, ← pow_mul]
      rw [this, ofBE_range, show 256 ^ k = 2 ^ (8 * k) by rw [show (256 : Nat) = 2 ^ 8 by norm_num, ← pow_mul],
        Nat.mod_eq_of_lt x.isLt]
      ring
    · simp; ring

/-- A buffer of bytes read as a number. -/
theorem raw_buffer_value (k : Nat) (hk : 0 < k) (buf : Bytes) (hb : buf ≠ []) :
    ∃ d : Digits (8 * k), rawBuffer (8 * k) buf = .ok (some ⟨d, false⟩) ∧
      val d = ofDigitsBE 256 (buf.map BitVec.toNat) ∧ d.length = (buf.length + k - 1) / k := by
  have hmap : buf.mapM (fun (b : Byte) => do
      let h ← rd nbxlt (b >>> 4).toNat
      let l ← rd nbxlt (b &&& 15).toNat
      Out.ok [h, l]) = .ok (buf.map fun b => [nb (b.toNat / 16), nb (b.toNat % 16)]) := by
    apply mapM_ok
    intro b _
    have hb := b.isLt
    rw [BitVec.toNat_ushiftRight, Nat.shiftRight_eq_div_pow, BitVec.toNat_and, show (15 : Byte).toNat = 2 ^ 4 - 1 by decide,
      Nat.and_two_pow_sub_one_eq_mod, show (2 : Nat) ^ 4 = 16 by norm_num, (nb_spec (b.toNat / 16) (by omega)).1, Out.bind_ok,
      (nb_spec (b.toNat % 16) (by omega)).1, Out.bind_ok]
  have hval : ∀ l : Bytes, AllHex (l.map fun b => [nb (b.toNat / 16), nb (b.toNat % 16)]).flatten ∧
      (l.map fun b => [nb (b.toNat / 16), nb (b.toNat % 16)]).flatten.length = 2 * l.length ∧
      ofDigitsBE 16 ((l.map fun b => [nb (b.toNat / 16), nb (b.toNat % 16)]).flatten.map hv) =
        ofDigitsBE 256 (l.map BitVec.toNat) := by
    intro l
    induction l with
    | nil => exact ⟨by simp [AllHex], rfl, rfl⟩
    | cons b l ih =>
      obtain ⟨i1, i2, i3⟩ := ih
      have hb := b.isLt
      obtain ⟨-, a2, a3⟩ := nb_spec (b.toNat / 16) (by omega)
      obtain ⟨-, b2, b3⟩ := nb_spec (b.toNat % 16) (by omega)
      refine ⟨?_, ?_, ?_⟩
      · intro c hc
        rw [List.map_cons, List.flatten_cons, List.mem_append] at hc
        rcases hc with hc | hc
        · simp only [List.mem_cons, List.not_mem_nil, or_false] at hc
          rcases hc with rfl | rfl
          · exact ⟨_, a2⟩
          · exact ⟨_, b2⟩
        · exact i1 c hc
      · rw [List.map_cons, List.flatten_cons, List.length_append, i2]; simp; omega
      · rw [List.map_cons, List.flatten_cons, List.map_append, ofBE_append, i3, List.length_map, i2, List.map_cons, ofBE_cons,
          List.length_map]
        simp only [List.map_cons, List.map_nil, ofBE_cons, List.length_cons, List.length_nil, a3, b3]
        rw [show ofDigitsBE 16 [] = 0 from rfl, pow_mul, show (16 : Nat) ^ 2 = 256 by norm_num]
        congr 2
        · simp only [Nat.zero_add, pow_one, pow_zero]
          omega
        · rw [List.length_map]
  obtain ⟨v1, v2, v3⟩ := hval buf
  have hl := List.length_pos_iff.2 hb
  obtain ⟨d, e1, e2, e3⟩ := hex_read k hk _ _ (List.ne_nil_of_length_pos (by rw [v2]; omega)) ⟨_, (mapM_hex _ _).2 ⟨v1, rfl⟩, rfl⟩
  refine ⟨d, ?_, e2.trans v3, ?_⟩
  · rw [rawBuffer, if_neg hb, hmap, Out.bind_ok, e1]
  · rw [e3, v2]
    obtain ⟨m, hm⟩ : ∃ m, buf.length = m + 1 := ⟨buf.length - 1, by omega⟩
    rw [hm, show 2 * (m + 1) + 2 * k - 1 = 2 * (m + k) + 1 by omega, show m + 1 + k - 1 = m + k by omega,
      ← Nat.div_div_eq_div_mul]
    congr 1
    omega

/-- Writing back a buffer that was read as a number gives the buffer with zeros in front, up to whole digits. -/
theorem raw_buffer_task_out (k : Nat) (hk : 0 < k) (buf : Bytes) (hb : buf ≠ []) :
    ∃ n : Num (8 * k), rawBuffer (8 * k) buf = .ok (some n) ∧
      asTaskOut n = List.replicate ((buf.length + k - 1) / k * k - buf.length) 0 ++ buf := by
  obtain ⟨d, h1, h2, h3⟩ := raw_buffer_value k hk buf hb
  refine ⟨_, h1, ?_⟩
  obtain ⟨t1, t2⟩ := task_out_value k (⟨d, false⟩ : Num (8 * k))
  have hge : buf.length ≤ (buf.length + k - 1) / k * k := by
    have := Nat.div_add_mod (buf.length + k - 1) k
    have h2 := Nat.mod_lt (buf.length + k - 1) hk
    rw [Nat.mul_comm] at this
    omega
  have hlt : ∀ (l : Bytes) (d : Nat), d ∈ l.map BitVec.toNat → d < 256 := by
    intro l d hd
    obtain ⟨b, -, rfl⟩ := List.mem_map.1 hd
    exact b.isLt
  have key : (asTaskOut (⟨d, false⟩ : Num (8 * k))).map BitVec.toNat =
      (List.replicate ((buf.length + k - 1) / k * k - buf.length) (0 : Byte) ++ buf).map BitVec.toNat := by
    apply ofBE_inj 256
    · rw [List.length_map, List.length_map, t2, List.length_append, List.length_replicate]
      simp only [h3]
      omega
    · exact hlt _
    · exact hlt _
    · rw [t1, h2, List.map_append, List.map_replicate, show (0 : Byte).toNat = 0 by decide, ofBE_append, ofBE_replicate]
      simp
  exact (List.map_inj_right fun a b h => BitVec.eq_of_toNat_eq h).1 key

example : (do let n ← rawBuffer 64 [0, 7]; .ok (n.map asTaskOut)) = .ok (some [0, 0, 0, 0, 0, 0, 0, 7]) := by decide +kernel

/-! ### C62: released numbers -/

theorem length_leBytes (k : Nat) (d : Digits (8 * k)) : (leBytes d).length = d.length * k := by
  induction d with
  | nil => simp [leBytes]
  | cons x d ih =>
    rw [leBytes, List.flatMap_cons, List.length_append]
    rw [leBytes] at ih
    rw [ih]; simp; ring

/-- `kryptos_del_mp_value` passes the number of digits to `kryptos_freeseg` as the number of bytes.  Only that many bytes are
wiped; all others still hold the number when the memory is handed to the allocator. -/
theorem del_leaves (k : Nat) (hk : 0 < k) (wp : Memory.Wipe) (hwp : ∀ r, wp ≠ .paranoid r) (n : Num (8 * k)) :
    delMp wp n = .ok (List.replicate n.data.length 0 ++ (leBytes n.data).drop n.data.length) := by
  have hle : n.data.length ≤ (leBytes n.data).length := by
    rw [length_leBytes]; exact Nat.le_mul_of_pos_right _ hk
  unfold delMp Memory.freeseg
  by_cases h : 0 < n.data.length
  · rw [if_pos h]
    cases wp with
    | plain => simp only; rw [Memory.memset_eq _ _ _ hle]
    | twice =>
      simp only
      rw [Memory.memset_eq _ _ _ hle, Out.bind_ok, Memory.memset_eq _ _ _ (by rw [List.length_append]; simp)]
      simp
    | paranoid r => exact absurd rfl (hwp r)
  · have : n.data = [] := List.length_eq_zero_iff.1 (by omega)
    simp [this, leBytes]

/-- The highest digit of a number with two or more digits is handed to the allocator unchanged: the property is violated for
all of them. -/
theorem del_keeps_top (k : Nat) (hk : 1 < k) (wp : Memory.Wipe) (hwp : ∀ r, wp ≠ .paranoid r) (lo : Digits (8 * k))
    (top : BitVec (8 * k)) (neg : Bool) (hlo : lo ≠ []) :
    ∃ m, delMp wp ⟨lo ++ [top], neg⟩ = .ok (m ++ leBytes [top]) := by
  rw [del_leaves k (by omega) wp hwp]
  have hl := List.length_pos_iff.2 hlo
  have e : leBytes (lo ++ [top]) = leBytes lo ++ leBytes [top] := by simp [leBytes]
  refine ⟨List.replicate (lo.length + 1) 0 ++ (leBytes lo).drop (lo.length + 1), ?_⟩
  simp only [e, List.length_append, List.length_singleton]
  rw [List.drop_append_of_le_length, List.append_assoc]
  rw [length_leBytes]
  calc lo.length + 1 ≤ lo.length * 2 := by omega
    _ ≤ _ := Nat.mul_le_mul_left _ hk

/-- A number of one digit keeps all its bytes but the lowest. -/
theorem del_keeps_single (k : Nat) (hk : 0 < k) (wp : Memory.Wipe) (hwp : ∀ r, wp ≠ .paranoid r) (d : BitVec (8 * k))
    (neg : Bool) : delMp wp ⟨[d], neg⟩ = .ok (0 :: (leBytes [d]).drop 1) := by
  rw [del_leaves k hk wp hwp]; rfl

example : delMp .plain (⟨[0x1122334455667788, 0x99AABBCCDDEEFF00], false⟩ : Num 64) =
    .ok [0, 0, 0x66, 0x55, 0x44, 0x33, 0x22, 0x11, 0, 0xFF, 0xEE, 0xDD, 0xCC, 0xBB, 0xAA, 0x99] := by decide +kernel

/-! ### C63: assigning a numeral to an existing number -/

theorem ne_below (a : Byte) (v : Nat) (h : hexDigit? a = some v) : ¬ a < 48 := by
  intro hlt
  have : a.toNat < 48 := hlt
  simp only [hexDigit?] at h
  split at h <;> [omega; skip]
  split at h <;> [omega; skip]
  split at h <;> [omega; cases h]

theorem assignHex_digit (k : Nat) (hk : 1 < k) (rest : Bytes) (d : Nat) : ∀ (j : Nat) (cs : Bytes) (data : Digits (8 * k)),
    0 < j → j ≤ k → cs.length = 2 * j → AllHex cs → (hd : d < data.length) →
    assignHexLoop (cs ++ rest) (d + 1) (k - j) data =
      assignHexLoop rest d 0 (data.set d (hexDigitLoop data[d] cs))
  | 0, _, _, h, _, _, _, _ => by omega
  | j + 1, a :: b :: cs, data, _, hj, hl, hh, hd => by
    obtain ⟨va, ha⟩ := hh a (by simp)
    have hna := ne_below a va ha
    have hb := hv_lt _ hh (hv b) (by simp)
    have ha' := hv_lt _ hh (hv a) (by simp)
    have hval : (data[d] <<< 8) ||| (((xnb a).setWidth (8 * k) <<< 4) ||| (xnb b).setWidth (8 * k)) =
        ((data[d] <<< 4) <<< 4) ||| ((xnb a <<< 4) ||| xnb b).setWidth (8 * k) := by
      rw [← BitVec.shiftLeft_add]
      congr 1
      apply BitVec.eq_of_toNat_eq
      have h256 : 256 ≤ 2 ^ (8 * k) := Nat.pow_le_pow_right (n := 2) (i := 8) (by omega) (by omega)
      simp only [hv] at ha' hb
      simp only [BitVec.toNat_or, BitVec.toNat_setWidth, BitVec.toNat_shiftLeft, Nat.shiftLeft_eq]
      rw [Nat.mod_eq_of_lt (a := (xnb a).toNat) (by omega), Nat.mod_eq_of_lt (a := (xnb b).toNat) (by omega),
        Nat.mod_eq_of_lt (a := (xnb a).toNat * 2 ^ 4) (b := 2 ^ (8 * k)) (by omega),
        Nat.mod_eq_of_lt (a := (xnb a).toNat * 2 ^ 4) (b := 2 ^ 8) (by omega), Nat.mod_eq_of_lt]
      refine lt_of_lt_of_le (Nat.or_lt_two_pow (n := 8) (by omega) (by omega)) h256
    have hk8 : 8 * k / 8 = k := Nat.mul_div_cancel_left _ (by omega)
    simp only [List.cons_append, assignHexLoop]
    rw [if_neg hna, rd_eq_ok hd, Out.bind_ok, wr, if_pos hd, Out.bind_ok, hk8, List.drop_one, List.tail_cons]
    simp only [hval]
    by_cases hj0 : j = 0
    · subst hj0
      have : cs = [] := List.length_eq_zero_iff.1 (by simpa using hl)
      subst this
      rw [show k - (0 + 1) + 1 = k by omega, Nat.mod_self, if_pos rfl]
      simp only [hexDigitLoop, List.nil_append]
    · rw [show k - (j + 1) + 1 = k - j by omega, Nat.mod_eq_of_lt (by omega), if_neg (by omega),
        assignHex_digit k hk rest d j cs _ (by omega) (by omega) (by simp at hl; omega) (fun c hc => hh c (by simp [hc]))
          (by simpa using hd)]
      simp only [List.getElem_set_self, List.set_set, hexDigitLoop]
  | _ + 1, [], _, _, _, hl, _, _ => by simp at hl
  | _ + 1, [_], _, _, _, hl, _, _ => by simp at hl; omega

theorem assignHex_loop (k : Nat) (hk : 1 < k) : ∀ (n : Nat) (cs : Bytes) (data : Digits (8 * k)), n ≤ data.length →
    cs.length = n * (2 * k) → AllHex cs →
    assignHexLoop cs n 0 data = .ok ((hexLoop n cs).reverse ++ data.drop n)
  | 0, cs, data, _, hl, _ => by
    have : cs = [] := List.length_eq_zero_iff.1 (by omega)
    subst this
    simp [assignHexLoop, hexLoop]
  | n + 1, cs, data, hn, hl, hh => by
    have hd4 : 8 * k / 4 = 2 * k := by omega
    have hlen : 2 * k ≤ cs.length := by rw [hl, Nat.add_mul]; omega
    have hdl : (cs.drop (2 * k)).length = n * (2 * k) := by rw [List.length_drop, hl, Nat.add_mul]; omega
    have htl : (cs.take (2 * k)).length = 2 * k := by rw [List.length_take]; omega
    have hht : AllHex (cs.take (2 * k)) := fun c hc => hh c (List.mem_of_mem_take hc)
    have hhd : AllHex (cs.drop (2 * k)) := fun c hc => hh c (List.mem_of_mem_drop hc)
    have h1 := assignHex_digit k hk (cs.drop (2 * k)) n k (cs.take (2 * k)) data (by omega) (Nat.le_refl _) htl hht (by omega)
    rw [List.take_append_drop, Nat.sub_self] at h1
    rw [h1, assignHex_loop k hk n _ _ (by rw [List.length_set]; omega) hdl hhd, hexLoop, hd4, List.reverse_cons,
      List.append_assoc]
    have hfix : hexDigitLoop data[n] (cs.take (2 * k)) = hexDigitLoop 0 (cs.take (2 * k)) := by
      apply BitVec.eq_of_toNat_eq
      rw [hexDigitLoop_spec (by omega) k _ _ htl hht, hexDigitLoop_spec (by omega) k _ _ htl hht, htl,
        show 16 ^ (2 * k) = 2 ^ (8 * k) by
          rw [show (16 : Nat) = 2 ^ 4 by norm_num, ← pow_mul]; congr 1; omega]
      simp
    rw [hfix, List.drop_eq_getElem_cons (l := data.set n _) (by rw [List.length_set]; omega), List.getElem_set_self,
      List.drop_set_of_lt (by omega)]
    rfl

/-- Assigning a numeral that fills all digits of the destination gives its number; the sign of the destination stays.
Missing for the full property: shorter and longer numerals, where the result is wrong (`assignHex_wrong`). -/
theorem assignHex_partial (k : Nat) (hk : 1 < k) (n : Num (8 * k)) (s : Bytes) (x : Nat) (hn : n.data ≠ [])
    (hs : s.length = n.data.length * (2 * k)) (h : IsHex s x) :
    ∃ d : Digits (8 * k), assignHex (some n) s = .ok (some ⟨d, n.neg⟩) ∧ val d = x ∧ d.length = n.data.length := by
  obtain ⟨ds, h1, rfl⟩ := h
  obtain ⟨hh, rfl⟩ := (mapM_hex s ds).1 h1
  have hl := List.length_pos_iff.2 hn
  have hs0 : s ≠ [] := List.ne_nil_of_length_pos (by rw [hs]; exact Nat.mul_pos hl (by omega))
  have hd1 : n.data.length < s.length / 2 := by
    rw [hs, show n.data.length * (2 * k) = n.data.length * k * 2 by ring, Nat.mul_div_cancel _ (by omega)]
    calc n.data.length < n.data.length * 2 := by omega
      _ ≤ _ := Nat.mul_le_mul_left _ hk
  refine ⟨(hexLoop n.data.length s).reverse, ?_, hexLoop_spec k (by omega) _ s hs hh, by simp [length_hexLoop]⟩
  rw [assignHex, if_neg hs0]
  simp only [if_pos hd1]
  rw [assignHex_loop k hk _ _ _ (by simp) hs hh, Out.bind_ok, List.drop_eq_nil_of_le (by simp), List.append_nil]

/-- A short numeral leaves bits of the old number: assigning 5 to `0x1122334400` gives `0x112233440005`. -/
theorem assignHex_wrong : assignHex (some (⟨[0x1122334400], false⟩ : Num 64)) (ascii "05") =
    .ok (some ⟨[0x112233440005], false⟩) := by decide +kernel

/-- Even a cleared destination gets the digits at wrong places. -/
theorem assignHex_wrong_place : assignHex (some (⟨[0, 0, 0, 0], false⟩ : Num 64)) (ascii "0102030405060708090A") =
    .ok (some ⟨[0, 0, 0x090A, 0x0102030405060708], false⟩) := by decide +kernel

example : assignHex (some (⟨[7, 9], true⟩ : Num 64)) (ascii "000000000000000100000000000000Ff") =
    .ok (some ⟨[255, 1], true⟩) := by decide +kernel

end Kryptos.Mp
