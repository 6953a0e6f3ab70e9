import Verif.Model.Padding
import Verif.Spec.Modes
/-
  ANSI X9.23 padding (C06).
-/
namespace Kryptos.Padding

theorem padLoop_spec (bs : Nat) (hbs : 0 < bs) (n : Nat) :
    n ≤ padLoop bs hbs n ∧ padLoop bs hbs n % bs = 0 ∧ padLoop bs hbs n < n + bs := by
  fun_induction padLoop bs hbs n with
  | case1 n hn ih =>
    refine ⟨by omega, ih.2.1, ?_⟩
    -- otherwise `n + bs` would be the value reached, and `n % bs = 0`
    have h1 := ih.2.2
    rcases Nat.lt_or_ge (padLoop bs hbs (n+1)) (n + bs) with hc | hc
    · exact hc
    exfalso
    have : padLoop bs hbs (n + 1) = n + bs := by omega
    rw [this, Nat.add_mod_right] at ih
    exact hn ih.2.1
  | case2 n hn => exact ⟨Nat.le_refl _, by simpa using hn, by omega⟩

theorem paddedSize_spec (n bs : Nat) (hbs : 0 < bs) :
    n < paddedSize n bs hbs ∧ paddedSize n bs hbs % bs = 0 ∧ paddedSize n bs hbs ≤ n + bs := by
  unfold paddedSize
  have h := padLoop_spec bs hbs (if n % bs = 0 then n + 1 else n)
  refine ⟨?_, h.2.1, ?_⟩
  · split at h
    · rw [if_pos (by assumption)]; omega
    · rw [if_neg (by assumption)]
      have h2 := h.2.1
      rcases Nat.lt_or_ge n (padLoop bs hbs n) with hlt | hge
      · exact hlt
      · exfalso
        have : padLoop bs hbs n = n := by omega
        rw [this] at h2
        contradiction
  · split at h
    · rw [if_pos (by assumption)]; omega
    · rw [if_neg (by assumption)]; omega

/-- C06.  Padding a non-empty buffer for any positive block size succeeds, and the result is an
ANSI X9.23 padding of the buffer, whatever random bytes were drawn and in both filler modes.
(For block sizes up to 255 the last byte is the real count, see `ansiX923_reversible`.) -/
theorem ansiX923_spec (m : Bytes) (bs : Nat) (r : Bool) (rnd : Nat → Byte)
    (hm : m ≠ []) (hbs : 0 < bs) :
    ∃ p, ansiX923 m bs r rnd = some p ∧ Spec.X923 bs m p := by
  have hpos := List.length_pos_iff.mpr hm
  have hp := paddedSize_spec m.length bs hbs
  unfold ansiX923
  rw [dif_neg (by omega), if_neg (by omega)]
  refine ⟨_, rfl, paddedSize m.length bs hbs - m.length, _, by omega, by omega, ?_, rfl, ?_⟩
  · split <;> simp
  · have : (m ++ (if r = true then
        (List.range (paddedSize m.length bs hbs - m.length - 1)).map rnd
        else List.replicate (paddedSize m.length bs hbs - m.length - 1) 0#8) ++
        [BitVec.ofNat 8 (paddedSize m.length bs hbs - m.length)]).length
        = paddedSize m.length bs hbs := by
      split <;> simp <;> omega
    rw [this]; exact hp.2.1

/-- C06.  The padding can be undone: dropping as many bytes as the last byte says gives the
original buffer; and the length is the next strict multiple of the block size. -/
theorem ansiX923_reversible (m p : Bytes) (bs : Nat) (r : Bool) (rnd : Nat → Byte)
    (hbs : bs ≤ 255) (h : ansiX923 m bs r rnd = some p) :
    p.length % bs = 0 ∧ m.length < p.length ∧ p.length ≤ m.length + bs ∧
    ∃ last, p.getLast? = some last ∧ p.take (p.length - last.toNat) = m := by
  have hm : m ≠ [] := by
    intro h0; subst h0; unfold ansiX923 at h
    split at h <;> simp at h
  have hb0 : 0 < bs := by
    rcases Nat.eq_zero_or_pos bs with h0 | h0
    · subst h0; simp [ansiX923] at h
    · exact h0
  obtain ⟨p', hp', k, filler, hk1, hk2, hfl, hpe, hmod⟩ := ansiX923_spec m bs r rnd hm hb0
  rw [h] at hp'
  injection hp' with hp'
  subst hp'
  have hlen : p.length = m.length + k := by rw [hpe]; simp; omega
  refine ⟨hmod, by omega, by omega, BitVec.ofNat 8 k, ?_, ?_⟩
  · rw [hpe]; simp
  · have hk : (BitVec.ofNat 8 k).toNat = k := by simp; omega
    rw [hk, hlen, hpe]
    simp

/-- The deterministic variant fills with zero bytes. -/
theorem ansiX923_zero_filler (m p : Bytes) (bs : Nat) (rnd : Nat → Byte)
    (h : ansiX923 m bs false rnd = some p) :
    ∃ k, p = m ++ List.replicate (k - 1) 0#8 ++ [BitVec.ofNat 8 k] := by
  unfold ansiX923 at h
  split at h
  · cases h
  · split at h
    · cases h
    · injection h with h
      exact ⟨_, h.symm⟩

/-- The hypotheses are met by a real case: five bytes, block size eight. -/
example : ansiX923 [1, 2, 3, 4, 5] 8 false (fun _ => 0xAA) = some [1, 2, 3, 4, 5, 0, 0, 3] := by
  decide +kernel

/-- For block sizes above 255 (not used by any cipher of the library) the statement fails: the
count does not fit in the last byte. -/
theorem ansiX923_large_block :
    ∃ p last, ansiX923 [7] 300 false (fun _ => 0) = some p ∧ p.getLast? = some last ∧
      p.take (p.length - last.toNat) ≠ [7] := by
  refine ⟨_, _, rfl, rfl, ?_⟩
  decide +kernel

end Kryptos.Padding
