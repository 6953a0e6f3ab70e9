import Verif.Model.Base16
import Verif.Spec.Rfc4648
/-
  C01, C04 (base16 part).
-/
namespace Kryptos.Base16
open Kryptos.Spec

/-- Every byte has two table characters, RFC 4648 ones, that decode to the byte. -/
private theorem byte_fact : ∀ b : Byte,
    (∃ hi lo : Byte, rd state (b >>> 4).toNat = .ok hi ∧ rd state (b &&& 0xF#8).toNat = .ok lo ∧
      base16Alphabet[bitsVal ((byteBits b).take 4)]? = some hi ∧
      base16Alphabet[bitsVal ((byteBits b).drop 4)]? = some lo ∧
      ((state1 hi <<< 4) ||| state1 lo) = b) := by
  have key : ∀ b : Byte,
    (match rd state (b >>> 4).toNat, rd state (b &&& 0xF#8).toNat with
     | .ok hi, .ok lo =>
      decide (base16Alphabet[bitsVal ((byteBits b).take 4)]? = some hi) &&
      decide (base16Alphabet[bitsVal ((byteBits b).drop 4)]? = some lo) &&
      decide (((state1 hi <<< 4) ||| state1 lo) = b)
     | _, _ => false) = true := by decide +kernel
  intro b
  have hb := key b
  split at hb
  · rename_i hi lo h1 h2
    simp only [Bool.and_eq_true, decide_eq_true_eq] at hb
    exact ⟨hi, lo, h1, h2, hb.1.1, hb.1.2, hb.2⟩
  · simp at hb

theorem bitGroups_cons4 (b : Byte) (m : Bytes) :
    bitGroups 4 (bits (b :: m)) = (byteBits b).take 4 :: (byteBits b).drop 4 :: bitGroups 4 (bits m) := by
  have e : bits (b :: m) = byteBits b ++ bits m := rfl
  rw [e, bitGroups, dif_neg (by simp [byteBits])]
  rw [bitGroups, dif_neg (by simp [byteBits])]
  simp [byteBits]

private theorem encLoop_spec : ∀ (m : Bytes),
    ∃ o, encLoop m (m.length <<< 1) = .ok o ∧ o.map some = rfcChars 4 base16Alphabet m ∧
      o.length = m.length <<< 1 ∧ decLoop o m.length = .ok m := by
  intro m
  induction m with
  | nil => exact ⟨[], by simp [encLoop, rfcChars, bits, bitGroups, decLoop]⟩
  | cons b bs ih =>
    obtain ⟨o, h1, h2, h3, h4⟩ := ih
    obtain ⟨hi, lo, g1, g2, g3, g4, g5⟩ := byte_fact b
    refine ⟨hi :: lo :: o, ?_, ?_, ?_, ?_⟩
    · have : (b :: bs).length <<< 1 = bs.length <<< 1 + 2 := by simp [Nat.shiftLeft_eq]; omega
      rw [this]
      simp only [encLoop, g1, g2, h1, Out.bind_ok, Out.pure_eq]
    · simp only [rfcChars, bitGroups_cons4, List.map_cons, g3, g4]
      rw [h2]; rfl
    · simp [h3, Nat.shiftLeft_eq]; omega
    · simp [decLoop, h4, g5]

/-- C01.  For every non-empty buffer the encoder produces the RFC 4648 base16 text
(twice as long, upper-case alphabet) and the decoder maps it back to the buffer. -/
theorem base16_roundtrip (m : Bytes) (hm : m ≠ []) :
    ∃ text, encodeBuffer m = .ok (some text) ∧
      text.map some = rfc4648 4 base16Alphabet 2 m ∧
      text.length = 2 * m.length ∧
      decodeBuffer text = .ok (some m) := by
  obtain ⟨o, h1, h2, h3, h4⟩ := encLoop_spec m
  have hl : m.length ≠ 0 := by simpa using hm
  have ho : o.length ≠ 0 := by rw [h3, Nat.shiftLeft_eq]; omega
  have hlen : (rfcChars 4 base16Alphabet m).length = m.length <<< 1 := by rw [← h2]; simp [h3]
  refine ⟨o, ?_, ?_, ?_, ?_⟩
  · simp [encodeBuffer, hl, h1, h3]
  · simp only [rfc4648, hlen, h2]
    rw [Nat.shiftLeft_eq]; simp
  · rw [h3, Nat.shiftLeft_eq]; omega
  · have hs : o.length >>> 1 = m.length := by
      rw [h3, Nat.shiftLeft_eq, Nat.shiftRight_eq_div_pow]; simp
    have hne : o ≠ [] := by intro hc; simp [hc] at ho
    simp [decodeBuffer, hne, hs, h4]

example : (ascii "foobar") ≠ [] := by decide
example : encodeBuffer (ascii "foobar") = .ok (some (ascii "666F6F626172")) := by decide +kernel

private theorem decLoop_safe : ∀ (n : Nat) (t : Bytes), n ≤ t.length / 2 →
    ∃ o, decLoop t n = .ok o ∧ o.length = n := by
  intro n
  induction n with
  | zero => intro t _; exact ⟨[], by cases t <;> simp [decLoop]⟩
  | succ n ih =>
    intro t h
    match t, h with
    | [], h => simp at h
    | [a], h => simp at h
    | a :: b :: bs, h =>
      obtain ⟨o, h1, h2⟩ := ih bs (by simp at h; omega)
      exact ⟨((state1 a <<< 4) ||| state1 b) :: o, by simp [decLoop, h1], by simp [h2]⟩

/-- C04, base16 part.  Decoding arbitrary (also malformed) text never leaves the
buffers: there is no undefined outcome, and the output has half the text's length. -/
theorem base16_decode_safe (t : Bytes) :
    ∃ r, decodeBuffer t = .ok r ∧ (∀ o, r = some o → o.length = t.length / 2) := by
  by_cases h : t.length = 0
  · exact ⟨none, by simp [decodeBuffer, h]⟩
  · have hne : t ≠ [] := by intro hc; simp [hc] at h
    obtain ⟨o, h1, h2⟩ := decLoop_safe (t.length / 2) t (Nat.le_refl _)
    refine ⟨some o, ?_, by rintro o' ho; cases ho; exact h2⟩
    have : t.length >>> 1 = t.length / 2 := by simp [Nat.shiftRight_eq_div_pow]
    simp [decodeBuffer, hne, this, h1, h2]

/-- Encoding never leaves the buffers either. -/
theorem base16_encode_safe (m : Bytes) : ∃ r, encodeBuffer m = .ok r := by
  by_cases h : m = []
  · exact ⟨none, by simp [encodeBuffer, h]⟩
  · obtain ⟨t, ht, _⟩ := base16_roundtrip m h
    exact ⟨_, ht⟩

end Kryptos.Base16
