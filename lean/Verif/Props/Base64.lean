import Verif.Model.Base64
import Verif.Lemmas.Bits
import Mathlib.Tactic.IntervalCases
/-
  C02, C04 (base64 part).
-/
namespace Kryptos.Base64
open Kryptos.Spec

/-- Value of the character with a given 6-bit value in the decoding table. -/
private theorem table_fact : ∀ v : BitVec 6, ∀ c, state[v.toNat]? = some c →
    look c = .ok (v.setWidth 32) ∧ c ≠ 0x3D#8 := by
  have key : ∀ v : BitVec 6, (match state[v.toNat]? with
    | some c => decide (look c = .ok (v.setWidth 32)) && decide (c ≠ 0x3D#8)
    | none => false) = true := by decide +kernel
  intro v c h
  have := key v
  simp only [h, Bool.and_eq_true, decide_eq_true_eq] at this
  exact this

private theorem look_pad : look 0x3D#8 = .ok 255#32 := by decide

private theorem state_len : state.length = 64 := by decide

/-- One table lookup of the encoder. -/
private theorem rd_state (v : W32) (h : v.toNat < 64) :
    ∃ c, rd state v.toNat = .ok c ∧ base64Alphabet[v.toNat]? = some c ∧ look c = .ok v ∧ c ≠ 0x3D#8 := by
  obtain ⟨c, h1, h2⟩ := rd_table state v.toNat (by rw [state_len]; exact h)
  refine ⟨c, h1, h2, ?_⟩
  have e : (v.setWidth 6).toNat = v.toNat := by
    rw [BitVec.toNat_setWidth]; exact Nat.mod_eq_of_lt h
  have := table_fact (v.setWidth 6) c (by rw [e]; exact h2)
  refine ⟨?_, this.2⟩
  rw [this.1]
  congr 1
  apply BitVec.eq_of_toNat_eq
  rw [BitVec.toNat_setWidth, e]
  exact Nat.mod_eq_of_lt (by omega)

private def i0 (blk : W32) : W32 := (blk &&& 0x00FC0000#32) >>> 18
private def i1 (blk : W32) : W32 := (blk &&& 0x0003F000#32) >>> 12
private def i2 (blk : W32) : W32 := (blk &&& 0x00000FC0#32) >>> 6
private def i3 (blk : W32) : W32 := blk &&& 0x0000003F#32

private theorem i0_lt (b : W32) : (i0 b).toNat < 64 := and_shr_lt _ _ _ _ (by decide)
private theorem i1_lt (b : W32) : (i1 b).toNat < 64 := and_shr_lt _ _ _ _ (by decide)
private theorem i2_lt (b : W32) : (i2 b).toNat < 64 := and_shr_lt _ _ _ _ (by decide)
private theorem i3_lt (b : W32) : (i3 b).toNat < 64 := and_lt _ _ _ (by decide)

/-- The four sextets of a 24-bit group, as bit strings. -/
private theorem sextets (a b c : Byte) :
    (i0 (accBlock [a, b, c])).toNat = bitsVal [a.getLsbD 7, a.getLsbD 6, a.getLsbD 5, a.getLsbD 4, a.getLsbD 3, a.getLsbD 2] ∧
    (i1 (accBlock [a, b, c])).toNat = bitsVal [a.getLsbD 1, a.getLsbD 0, b.getLsbD 7, b.getLsbD 6, b.getLsbD 5, b.getLsbD 4] ∧
    (i2 (accBlock [a, b, c])).toNat = bitsVal [b.getLsbD 3, b.getLsbD 2, b.getLsbD 1, b.getLsbD 0, c.getLsbD 7, c.getLsbD 6] ∧
    (i3 (accBlock [a, b, c])).toNat = bitsVal [c.getLsbD 5, c.getLsbD 4, c.getLsbD 3, c.getLsbD 2, c.getLsbD 1, c.getLsbD 0] := by
  refine ⟨?_, ?_, ?_, ?_⟩
  · rw [bitsVal_bv6 _ (i0_lt _)]; simp [i0, accBlock]
  · rw [bitsVal_bv6 _ (i1_lt _)]; simp [i1, accBlock]
  · rw [bitsVal_bv6 _ (i2_lt _)]; simp [i2, accBlock]
  · rw [bitsVal_bv6 _ (i3_lt _)]; simp [i3, accBlock]

private def pk (va vb vc vd : W32) : W32 := va <<< 18 ||| vb <<< 12 ||| vc <<< 6 ||| vd
private def o0 (block : W32) : Byte := (((block &&& 0x00FF0000#32) >>> 16) &&& 0xFF#32).setWidth 8
private def o1 (block : W32) : Byte := (((block &&& 0x0000FF00#32) >>> 8) &&& 0xFF#32).setWidth 8
private def o2 (block : W32) : Byte := (block &&& 0x000000FF#32).setWidth 8

private theorem dec3 (a b c : Byte) (blk : W32) (hb : blk = accBlock [a, b, c]) :
    o0 (pk (i0 blk) (i1 blk) (i2 blk) (i3 blk)) = a ∧
    o1 (pk (i0 blk) (i1 blk) (i2 blk) (i3 blk)) = b ∧
    o2 (pk (i0 blk) (i1 blk) (i2 blk) (i3 blk)) = c := by
  subst hb
  refine ⟨?_, ?_, ?_⟩
  all_goals
    apply BitVec.eq_of_getLsbD_eq
    intro i hi
    interval_cases i <;> simp [o0, o1, o2, i0, i1, i2, i3, pk, accBlock]

private theorem dec2 (a b : Byte) (blk : W32) (hb : blk = accBlock [a, b] <<< 8) :
    o0 (pk (i0 blk) (i1 blk) (i2 blk) 255#32) = a ∧
    o1 (pk (i0 blk) (i1 blk) (i2 blk) 255#32) = b := by
  subst hb
  refine ⟨?_, ?_⟩
  all_goals
    apply BitVec.eq_of_getLsbD_eq
    intro i hi
    interval_cases i <;> simp [o0, o1, i0, i1, i2, pk, accBlock]

private theorem dec1 (a : Byte) (blk : W32) (hb : blk = accBlock [a] <<< 16) :
    o0 (pk (i0 blk) (i1 blk) 255#32 255#32) = a := by
  subst hb
  apply BitVec.eq_of_getLsbD_eq
  intro i hi
  interval_cases i <;> simp [o0, i0, i1, pk, accBlock]

private theorem acc2 (a b : Byte) : accBlock [a, b] <<< 8 = accBlock [a, b, 0#8] := by
  simp [accBlock]

private theorem acc1 (a : Byte) : accBlock [a] <<< 16 = accBlock [a, 0#8, 0#8] := by
  simp only [accBlock, List.foldl_cons, List.foldl_nil]
  apply BitVec.eq_of_getLsbD_eq
  intro i hi
  interval_cases i <;> simp

private theorem rdi0 (blk : W32) : ∃ c, rd state (((blk &&& 0x00FC0000#32) >>> 18).toNat) = .ok c ∧
    base64Alphabet[(i0 blk).toNat]? = some c ∧ look c = .ok (i0 blk) ∧ c ≠ 0x3D#8 := rd_state _ (i0_lt blk)
private theorem rdi1 (blk : W32) : ∃ c, rd state (((blk &&& 0x0003F000#32) >>> 12).toNat) = .ok c ∧
    base64Alphabet[(i1 blk).toNat]? = some c ∧ look c = .ok (i1 blk) ∧ c ≠ 0x3D#8 := rd_state _ (i1_lt blk)
private theorem rdi2 (blk : W32) : ∃ c, rd state (((blk &&& 0x00000FC0#32) >>> 6).toNat) = .ok c ∧
    base64Alphabet[(i2 blk).toNat]? = some c ∧ look c = .ok (i2 blk) ∧ c ≠ 0x3D#8 := rd_state _ (i2_lt blk)
private theorem rdi3 (blk : W32) : ∃ c, rd state ((blk &&& 0x0000003F#32).toNat) = .ok c ∧
    base64Alphabet[(i3 blk).toNat]? = some c ∧ look c = .ok (i3 blk) ∧ c ≠ 0x3D#8 := rd_state _ (i3_lt blk)

/-- What the induction over groups establishes about the text of `m`. -/
private def Good (m : Bytes) : Prop :=
  ∀ avail, 4 * ((m.length + 2) / 3) ≤ avail →
    ∃ cs pad, encGroups m avail = .ok (cs, pad) ∧
      cs.map some = rfcChars 6 base64Alphabet m ∧
      cs.length + pad = 4 * ((m.length + 2) / 3) ∧
      pad = (3 - m.length % 3) % 3 ∧
      (∀ c ∈ cs, c ≠ 0x3D#8) ∧
      decLoop (cs ++ List.replicate pad 0x3D#8) m.length = .ok m

private theorem good_nil : Good [] := by
  intro avail _
  exact ⟨[], 0, by rw [encGroups]; simp, by simp [rfcChars, bits, bitGroups_nil], by simp, by simp, by simp,
    by simp [decLoop]⟩

private theorem bits3 (a b c : Byte) (l : List Bool) : bitGroups 6 (byteBits a ++ (byteBits b ++ (byteBits c ++ l))) =
    [a.getLsbD 7, a.getLsbD 6, a.getLsbD 5, a.getLsbD 4, a.getLsbD 3, a.getLsbD 2] ::
    [a.getLsbD 1, a.getLsbD 0, b.getLsbD 7, b.getLsbD 6, b.getLsbD 5, b.getLsbD 4] ::
    [b.getLsbD 3, b.getLsbD 2, b.getLsbD 1, b.getLsbD 0, c.getLsbD 7, c.getLsbD 6] ::
    [c.getLsbD 5, c.getLsbD 4, c.getLsbD 3, c.getLsbD 2, c.getLsbD 1, c.getLsbD 0] :: bitGroups 6 l := by
  rw [← bitGroups_append 6 (by decide) _ l (by rfl), ← bitGroups_append 6 (by decide) _ _ (by rfl),
    ← bitGroups_append 6 (by decide) _ _ (by rfl), ← bitGroups_append 6 (by decide) _ _ (by rfl)]
  rfl

private theorem good_one (a : Byte) : Good [a] := by
  intro avail hav
  have hav4 : ¬ avail < 4 := by simp at hav; omega
  obtain ⟨c0, p0, q0, r0, s0⟩ := rdi0 (accBlock [a] <<< 16)
  obtain ⟨c1, p1, q1, r1, s1⟩ := rdi1 (accBlock [a] <<< 16)
  obtain ⟨c2, p2, q2, r2, s2⟩ := rdi2 (accBlock [a] <<< 16)
  obtain ⟨c3, p3, q3, r3, s3⟩ := rdi3 (accBlock [a] <<< 16)
  refine ⟨[c0, c1], 2, ?_, ?_, by simp, by simp, by simp [s0, s1], ?_⟩
  · rw [encGroups, dif_neg (by simp)]
    have : encGroups [] (avail - 2) = .ok ([], 0) := by rw [encGroups]; simp
    have e : (3 - [a].length) <<< 3 = 16 := rfl
    simp only [if_neg hav4, List.take_succ_cons, List.take_nil, e, p0, p1, p2, p3, Out.bind_ok]
    simp [this]
  · have hg : bitGroups 6 (bits [a]) =
        [[a.getLsbD 7, a.getLsbD 6, a.getLsbD 5, a.getLsbD 4, a.getLsbD 3, a.getLsbD 2],
         [a.getLsbD 1, a.getLsbD 0, false, false, false, false]] := by
      have : bits [a] = [a.getLsbD 7, a.getLsbD 6, a.getLsbD 5, a.getLsbD 4, a.getLsbD 3, a.getLsbD 2] ++
        [a.getLsbD 1, a.getLsbD 0] := by simp [bits, byteBits]
      rw [this, bitGroups_append 6 (by decide) _ _ (by rfl), bitGroups_short _ _ (by simp) (by simp)]
      simp
    obtain ⟨t0, t1, _, _⟩ := sextets a 0#8 0#8
    rw [acc1, t0] at q0
    rw [acc1, t1] at q1
    replace q1 : base64Alphabet[bitsVal [a.getLsbD 1, a.getLsbD 0, false, false, false, false]]? = some c1 := q1
    simp only [rfcChars, hg, List.map_cons, List.map_nil, q0, q1]
  · have := dec1 a _ rfl
    simp only [decLoop, List.replicate, List.cons_append, List.nil_append, r0, r1, look_pad, Out.bind_ok,
      List.length_cons, List.length_nil]
    simp only [o0, pk] at this
    rw [this]; rfl

private theorem good_two (a b : Byte) : Good [a, b] := by
  intro avail hav
  have hav4 : ¬ avail < 4 := by simp at hav; omega
  obtain ⟨c0, p0, q0, r0, s0⟩ := rdi0 (accBlock [a, b] <<< 8)
  obtain ⟨c1, p1, q1, r1, s1⟩ := rdi1 (accBlock [a, b] <<< 8)
  obtain ⟨c2, p2, q2, r2, s2⟩ := rdi2 (accBlock [a, b] <<< 8)
  obtain ⟨c3, p3, q3, r3, s3⟩ := rdi3 (accBlock [a, b] <<< 8)
  refine ⟨[c0, c1, c2], 1, ?_, ?_, by simp, by simp, by simp [s0, s1, s2], ?_⟩
  · rw [encGroups, dif_neg (by simp)]
    have : encGroups [] (avail - 3) = .ok ([], 0) := by rw [encGroups]; simp
    have e : (3 - [a, b].length) <<< 3 = 8 := rfl
    simp only [if_neg hav4, List.take_succ_cons, List.take_nil, e, p0, p1, p2, p3, Out.bind_ok]
    simp [this]
  · have hg : bitGroups 6 (bits [a, b]) =
        [[a.getLsbD 7, a.getLsbD 6, a.getLsbD 5, a.getLsbD 4, a.getLsbD 3, a.getLsbD 2],
         [a.getLsbD 1, a.getLsbD 0, b.getLsbD 7, b.getLsbD 6, b.getLsbD 5, b.getLsbD 4],
         [b.getLsbD 3, b.getLsbD 2, b.getLsbD 1, b.getLsbD 0, false, false]] := by
      have : bits [a, b] = [a.getLsbD 7, a.getLsbD 6, a.getLsbD 5, a.getLsbD 4, a.getLsbD 3, a.getLsbD 2] ++
        ([a.getLsbD 1, a.getLsbD 0, b.getLsbD 7, b.getLsbD 6, b.getLsbD 5, b.getLsbD 4] ++
         [b.getLsbD 3, b.getLsbD 2, b.getLsbD 1, b.getLsbD 0]) := by simp [bits, byteBits]
      rw [this, bitGroups_append 6 (by decide) _ _ (by rfl), bitGroups_append 6 (by decide) _ _ (by rfl),
        bitGroups_short _ _ (by simp) (by simp)]
      simp
    obtain ⟨t0, t1, t2, _⟩ := sextets a b 0#8
    rw [acc2, t0] at q0
    rw [acc2, t1] at q1
    rw [acc2, t2] at q2
    replace q2 : base64Alphabet[bitsVal [b.getLsbD 3, b.getLsbD 2, b.getLsbD 1, b.getLsbD 0, false, false]]? = some c2 := q2
    simp only [rfcChars, hg, List.map_cons, List.map_nil, q0, q1, q2]
  · obtain ⟨d0, d1⟩ := dec2 a b _ rfl
    simp only [decLoop, List.replicate, List.cons_append, List.nil_append, r0, r1, r2, look_pad, Out.bind_ok,
      List.length_cons, List.length_nil]
    simp only [o0, o1, pk] at d0 d1
    rw [d0, d1]; rfl

private theorem good_three (a b c : Byte) (rest : Bytes) (ih : Good rest) : Good (a :: b :: c :: rest) := by
  intro avail hav
  have hav4 : ¬ avail < 4 := by simp at hav; omega
  obtain ⟨c0, p0, q0, r0, s0⟩ := rdi0 (accBlock [a, b, c])
  obtain ⟨c1, p1, q1, r1, s1⟩ := rdi1 (accBlock [a, b, c])
  obtain ⟨c2, p2, q2, r2, s2⟩ := rdi2 (accBlock [a, b, c])
  obtain ⟨c3, p3, q3, r3, s3⟩ := rdi3 (accBlock [a, b, c])
  obtain ⟨cs, pad, e1, e2, e3, e4, e5, e6⟩ := ih (avail - 4) (by simp at hav; omega)
  refine ⟨c0 :: c1 :: c2 :: c3 :: cs, pad, ?_, ?_, by simp; omega, by rw [e4]; simp; omega, ?_, ?_⟩
  · rw [encGroups, dif_neg (by simp)]
    have e : (3 - [a, b, c].length) <<< 3 = 0 := rfl
    simp only [if_neg hav4, List.take_succ_cons, List.take_zero, e, BitVec.shiftLeft_zero, p0, p1, p2, p3, Out.bind_ok]
    simp only [List.drop_succ_cons, List.drop_zero, List.length_cons, List.length_nil]
    simp only [Nat.sub_self, Nat.sub_zero, Nat.zero_add, Nat.reduceAdd, e1, Out.bind_ok]
    by_cases hr : rest = []
    · subst hr; simp [e4]
    · simp [hr]
  · obtain ⟨t0, t1, t2, t3⟩ := sextets a b c
    rw [t0] at q0
    rw [t1] at q1
    rw [t2] at q2
    rw [t3] at q3
    have hg : bits (a :: b :: c :: rest) = byteBits a ++ (byteBits b ++ (byteBits c ++ bits rest)) := rfl
    simp only [rfcChars, hg, bits3, List.map_cons, q0, q1, q2, q3]
    rw [e2]; rfl
  · intro x hx
    simp only [List.mem_cons] at hx
    rcases hx with h | h | h | h | h
    · rw [h]; exact s0
    · rw [h]; exact s1
    · rw [h]; exact s2
    · rw [h]; exact s3
    · exact e5 x h
  · obtain ⟨d0, d1, d2⟩ := dec3 a b c _ rfl
    simp only [decLoop, List.cons_append, r0, r1, r2, r3, Out.bind_ok, List.length_cons]
    simp only [o0, o1, o2, pk] at d0 d1 d2
    rw [d0, d1, d2, e6]; rfl

private theorem good_all : ∀ m, Good m
  | [] => good_nil
  | [a] => good_one a
  | [a, b] => good_two a b
  | a :: b :: c :: rest => good_three a b c rest (good_all rest)

private theorem countPad_append : ∀ (pad : Nat) (cs : Bytes), (∀ c ∈ cs, c ≠ 0x3D#8) → cs ≠ [] →
    countPad (List.replicate pad 0x3D#8 ++ cs) = .ok pad := by
  intro pad
  induction pad with
  | zero =>
    intro cs h hne
    cases cs with
    | nil => exact absurd rfl hne
    | cons c cs => simp [countPad]; intro hc; exact absurd hc (h c (by simp))
  | succ n ih =>
    intro cs h hne
    simp [List.replicate_succ, countPad, ih cs h hne]

private theorem outSize_eq (n : Nat) : roundUp4 ((n * 8) / 6) = 4 * ((n + 2) / 3) := by
  unfold roundUp4; split <;> omega

/-- C02.  For every non-empty buffer the encoder emits exactly the RFC 4648 base64 text, of
length 4*ceil(n/3), and the decoder applied to that text returns the buffer. -/
theorem base64_roundtrip (m : Bytes) (hm : m ≠ []) :
    ∃ text, encodeBuffer m = .ok (some text) ∧
      text.map some = rfc4648 6 base64Alphabet 4 m ∧
      text.length = 4 * ((m.length + 2) / 3) ∧
      decodeBuffer text = .ok (some m) := by
  have hl : m.length ≠ 0 := by simpa using hm
  obtain ⟨cs, pad, e1, e2, e3, e4, e5, e6⟩ := good_all m _ (Nat.le_refl _)
  have hcs : cs.length = (rfcChars 6 base64Alphabet m).length := by rw [← e2]; simp
  have hpad4 : (4 - cs.length % 4) % 4 = pad := by omega
  have hcsne : cs ≠ [] := by
    intro hc; subst hc; simp at e3; omega
  refine ⟨cs ++ List.replicate pad 0x3D#8, ?_, ?_, ?_, ?_⟩
  · simp [encodeBuffer, hm, outSize_eq, e1, e3]
  · simp only [rfc4648, ← hcs, hpad4, e2, List.map_append, List.map_replicate]
  · simpa using e3
  · have hrev : (cs ++ List.replicate pad 0x3D#8).reverse = List.replicate pad 0x3D#8 ++ cs.reverse := by simp
    have hne2 : ¬ (cs ++ List.replicate pad 0x3D#8).length = 0 := by simp [hcsne]
    have hfull : (cs ++ List.replicate pad 0x3D#8).length * 6 / 8 - pad = m.length := by
      simp [e3]; omega
    have hlt : ¬ ((cs ++ List.replicate pad 0x3D#8).length * 6 / 8 < pad) := by
      simp [e3]; omega
    unfold decodeBuffer
    rw [if_neg hne2, hrev, countPad_append pad cs.reverse (by simpa using e5) (by simpa using hcsne)]
    simp only [Out.bind_ok, if_neg hlt, hfull, e6]
    simp

example : (ascii "foobar!") ≠ [] := by decide
example : encodeBuffer (ascii "fooba") = .ok (some (ascii "Zm9vYmE=")) := by decide +kernel

/-- Encoding never leaves its buffers. -/
theorem base64_encode_safe (m : Bytes) : ∃ r, encodeBuffer m = .ok r := by
  by_cases h : m = []
  · exact ⟨none, by simp [encodeBuffer, h]⟩
  · obtain ⟨t, ht, _⟩ := base64_roundtrip m h
    exact ⟨_, ht⟩

/-- C04 is false for the base64 decoder: text made of '=' only makes the backward scan
leave the buffer, a text whose length is no multiple of four is read past its end, and
the byte 0xFF indexes past the 255-entry decoding table. -/
theorem base64_decode_unsafe :
    decodeBuffer (ascii "====") = .ub ∧ decodeBuffer (ascii "QUJDRA") = .ub ∧
    decodeBuffer [0xFF#8, 0x41#8, 0x41#8, 0x41#8] = .ub := by
  decide +kernel

private theorem look_safe (c : Byte) (h : c ≠ 0xFF#8) : ∃ v, look c = .ok v := by
  have key : ∀ c : Byte, c = 0xFF#8 ∨ (match look c with | .ok _ => true | .ub => false) = true := by
    decide +kernel
  rcases key c with h1 | h1
  · exact absurd h1 h
  · cases h2 : look c with
    | ok v => exact ⟨v, rfl⟩
    | ub => simp [h2] at h1

private theorem decLoop_safe : ∀ (n : Nat) (t : Bytes), t.length % 4 = 0 → (∀ c ∈ t, c ≠ 0xFF#8) →
    ∃ o, decLoop t n = .ok o ∧ o.length ≤ n := by
  intro n
  induction n using Nat.strongRecOn with
  | ind n ih =>
    intro t ht hff
    match n, t, ht, hff, ih with
    | 0, t, _, _, _ => exact ⟨[], by simp [decLoop]⟩
    | n + 1, [], _, _, _ => exact ⟨[], by simp [decLoop]⟩
    | n + 1, [_], ht, _, _ => simp at ht
    | n + 1, [_, _], ht, _, _ => simp at ht
    | n + 1, [_, _, _], ht, _, _ => simp at ht
    | n + 1, a :: b :: c :: d :: rest, ht, hff, ih =>
      obtain ⟨va, h1⟩ := look_safe a (hff a (by simp))
      obtain ⟨vb, h2⟩ := look_safe b (hff b (by simp))
      obtain ⟨vc, h3⟩ := look_safe c (hff c (by simp))
      obtain ⟨vd, h4⟩ := look_safe d (hff d (by simp))
      simp only [decLoop, h1, h2, h3, h4, Out.bind_ok]
      match n, ih with
      | 0, _ => exact ⟨_, rfl, by simp⟩
      | 1, _ => exact ⟨_, rfl, by simp⟩
      | m + 2, ih =>
        obtain ⟨o, ho, hlen⟩ := ih m (by omega) rest (by simp at ht; omega) (fun x hx => hff x (by simp [hx]))
        simp only [ho, Out.bind_ok, Out.pure_eq]
        exact ⟨_, rfl, by simp; omega⟩

/-- C04, base64 part, what does hold: text whose length is a multiple of four, without
byte 0xFF and not ending in more than two `'='`, is decoded inside the buffers.
(Missing for the full property: the three classes of text of `base64_decode_unsafe`.) -/
theorem base64_decode_safe_partial (t body : Bytes) (pad : Nat) (ht : t = body ++ List.replicate pad 0x3D#8)
    (h4 : t.length % 4 = 0) (hpad : pad ≤ 2) (hb : ∃ c init, body = init ++ [c] ∧ c ≠ 0x3D#8)
    (hff : ∀ c ∈ t, c ≠ 0xFF#8) :
    ∃ o, decodeBuffer t = .ok (some o) ∧ o.length = t.length * 6 / 8 - pad := by
  obtain ⟨c, init, hbody, hc⟩ := hb
  have hlen : t.length ≠ 0 := by rw [ht, hbody]; simp
  have hcp : countPad t.reverse = .ok pad := by
    have key : ∀ (n : Nat) (l : Bytes), countPad (List.replicate n 0x3D#8 ++ c :: l) = .ok n := by
      intro n l
      induction n with
      | zero => simp [countPad, hc]
      | succ n ih => simp [List.replicate_succ, countPad, ih]
    rw [ht, hbody]; simpa using key pad init.reverse
  obtain ⟨o, ho, hol⟩ := decLoop_safe (t.length * 6 / 8 - pad) t h4 hff
  have hlt : ¬ (t.length * 6 / 8 < pad) := by omega
  refine ⟨o ++ List.replicate (t.length * 6 / 8 - pad - o.length) 0#8, ?_, by simp; omega⟩
  unfold decodeBuffer
  rw [if_neg hlen, hcp]
  simp only [Out.bind_ok, if_neg hlt, ho, Out.pure_eq]

example : ascii "!!!!QQ==" = ascii "!!!!QQ" ++ List.replicate 2 0x3D#8 ∧ (ascii "!!!!QQ==").length % 4 = 0 ∧
    (∀ c ∈ ascii "!!!!QQ==", c ≠ 0xFF#8) := by decide

end Kryptos.Base64
