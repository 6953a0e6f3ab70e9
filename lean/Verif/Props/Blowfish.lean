import Verif.Model.Blowfish
import Verif.Spec.Blowfish
import Verif.Lemmas.Rot
import Verif.Lemmas.KeyWords
import Mathlib.Tactic.IntervalCases
/-
  Blowfish and bcrypt: the block functions undo each other; keys of whole words are expanded as published, other keys are filled up with zeros
  and keys above 56 bytes are read past the end; bcrypt computes the published hash, and exactly the hashes of a password are accepted for it.
-/
namespace Kryptos.Blowfish
open Block KeyLoad

/-! ## The specification: decryption undoes encryption -/

theorem rounds_back (s : List W32) : ∀ (ps : List Nat) (q1 q2 : Nat) (b : W32 × W32), ∃ a c, (q2 :: q1 :: ps.reverse).drop ps.length = [a, c] ∧
    Spec.Blowfish.rounds s ((q2 :: q1 :: ps.reverse).take ps.length)
      ((Spec.Blowfish.rounds s ps b).2 ^^^ Spec.Blowfish.P s q2, (Spec.Blowfish.rounds s ps b).1 ^^^ Spec.Blowfish.P s q1) =
      (b.2 ^^^ Spec.Blowfish.P s a, b.1 ^^^ Spec.Blowfish.P s c)
  | [], q1, q2, b => ⟨q2, q1, rfl, rfl⟩
  | p :: t, q1, q2, b => by
    obtain ⟨a, c, h1, h2⟩ := rounds_back s t q1 q2 (b.2 ^^^ Spec.Blowfish.F s (b.1 ^^^ Spec.Blowfish.P s p), b.1 ^^^ Spec.Blowfish.P s p)
    have hl : (q2 :: q1 :: t.reverse).length = t.length + 2 := by simp
    have e : q2 :: q1 :: (p :: t).reverse = (q2 :: q1 :: t.reverse).take t.length ++ [a, c, p] := by
      rw [List.reverse_cons, show [a, c, p] = [a, c] ++ [p] from rfl, ← h1, ← List.append_assoc, List.take_append_drop]; rfl
    have ht : ((q2 :: q1 :: t.reverse).take t.length).length = t.length := by rw [List.length_take]; omega
    refine ⟨c, p, ?_, ?_⟩
    · rw [e, List.length_cons, List.drop_append, List.drop_of_length_le (by omega), ht, Nat.add_sub_cancel_left]; rfl
    · have e2 : (q2 :: q1 :: (p :: t).reverse).take (p :: t).length = (q2 :: q1 :: t.reverse).take t.length ++ [a] := by
        rw [e, List.length_cons, List.take_append, List.take_of_length_le (by omega), ht, Nat.add_sub_cancel_left]; rfl
      have e3 : Spec.Blowfish.rounds s (p :: t) b = Spec.Blowfish.rounds s t
        (b.2 ^^^ Spec.Blowfish.F s (b.1 ^^^ Spec.Blowfish.P s p), b.1 ^^^ Spec.Blowfish.P s p) := rfl
      rw [e2, e3]
      unfold Spec.Blowfish.rounds at h2 ⊢
      rw [List.foldl_append, h2]
      simp only [List.foldl_cons, List.foldl_nil]
      rw [BitVec.xor_assoc (b.1 ^^^ _), BitVec.xor_self, BitVec.xor_zero]
      congr 1
      rw [BitVec.xor_assoc, BitVec.xor_comm (Spec.Blowfish.P s c), ← BitVec.xor_assoc, BitVec.xor_assoc b.2, BitVec.xor_self, BitVec.xor_zero]

theorem spec_dec_enc (s : List W32) (b : W32 × W32) : Spec.Blowfish.decrypt s (Spec.Blowfish.encrypt s b) = b := by
  obtain ⟨a, c, h1, h2⟩ := rounds_back s (List.range 16) 16 17 b
  have h1' : [1, 0] = [a, c] := h1
  obtain ⟨rfl, rfl⟩ : 1 = a ∧ 0 = c := by simpa using h1'
  unfold Spec.Blowfish.decrypt Spec.Blowfish.encrypt
  have e : (17 :: 16 :: (List.range 16).reverse).take (List.range 16).length = [17, 16, 15, 14, 13, 12, 11, 10, 9, 8, 7, 6, 5, 4, 3, 2] := rfl
  rw [e] at h2
  simp only []
  rw [h2]
  simp only []
  rw [BitVec.xor_assoc, BitVec.xor_self, BitVec.xor_zero, BitVec.xor_assoc, BitVec.xor_self, BitVec.xor_zero]

theorem spec_enc_dec (s : List W32) (b : W32 × W32) : Spec.Blowfish.encrypt s (Spec.Blowfish.decrypt s b) = b := by
  obtain ⟨a, c, h1, h2⟩ := rounds_back s [17, 16, 15, 14, 13, 12, 11, 10, 9, 8, 7, 6, 5, 4, 3, 2] 1 0 b
  have h1' : [16, 17] = [a, c] := h1
  obtain ⟨rfl, rfl⟩ : 16 = a ∧ 17 = c := by simpa using h1'
  unfold Spec.Blowfish.decrypt Spec.Blowfish.encrypt
  have e : (0 :: 1 :: [17, 16, 15, 14, 13, 12, 11, 10, 9, 8, 7, 6, 5, 4, 3, 2].reverse).take
    [17, 16, 15, 14, 13, 12, 11, 10, 9, 8, 7, 6, 5, 4, 3, 2].length = List.range 16 := rfl
  rw [e] at h2
  simp only []
  rw [h2]
  simp only []
  rw [BitVec.xor_assoc, BitVec.xor_self, BitVec.xor_zero, BitVec.xor_assoc, BitVec.xor_self, BitVec.xor_zero]

/-! ## Subkeys as one list -/

/-- The arrays of the program are parts of the list of the specification. -/
structure Rel (k : Sks) (s : List W32) : Prop where
  eq : s = k.P ++ (k.S1 ++ (k.S2 ++ (k.S3 ++ k.S4)))
  lP : k.P.length = 18
  l1 : k.S1.length = 256
  l2 : k.S2.length = 256
  l3 : k.S3.length = 256
  l4 : k.S4.length = 256

theorem rd_part {l m : List W32} {i j : Nat} (p q : List W32) (e : l = p ++ (m ++ q)) (hi : i < m.length) (hj : j = p.length + i) :
    rd m i = .ok (l.getD j 0) := by
  subst hj e
  rw [rd_getD 0 hi, List.getD_eq_getElem?_getD, List.getD_eq_getElem?_getD, List.getElem?_append_right (by omega), Nat.add_sub_cancel_left,
    List.getElem?_append_left hi]

theorem Rel.rdP {k : Sks} {s : List W32} (h : Rel k s) (i : Nat) (hi : i < 18) : rd k.P i = .ok (Spec.Blowfish.P s i) :=
  rd_part [] _ h.eq (by rw [h.lP]; exact hi) (by simp)

theorem Rel.rd1 {k : Sks} {s : List W32} (h : Rel k s) (i : Nat) (hi : i < 256) : rd k.S1 i = .ok (Spec.Blowfish.S s 0 i) :=
  rd_part k.P _ h.eq (by rw [h.l1]; exact hi) (by rw [h.lP])

theorem Rel.rd2 {k : Sks} {s : List W32} (h : Rel k s) (i : Nat) (hi : i < 256) : rd k.S2 i = .ok (Spec.Blowfish.S s 1 i) :=
  rd_part (k.P ++ k.S1) (k.S3 ++ k.S4) (by rw [h.eq]; simp) (by rw [h.l2]; exact hi) (by simp [h.lP, h.l1])

theorem Rel.rd3 {k : Sks} {s : List W32} (h : Rel k s) (i : Nat) (hi : i < 256) : rd k.S3 i = .ok (Spec.Blowfish.S s 2 i) :=
  rd_part (k.P ++ k.S1 ++ k.S2) k.S4 (by rw [h.eq]; simp) (by rw [h.l3]; exact hi) (by simp [h.lP, h.l1, h.l2])

theorem Rel.rd4 {k : Sks} {s : List W32} (h : Rel k s) (i : Nat) (hi : i < 256) : rd k.S4 i = .ok (Spec.Blowfish.S s 3 i) :=
  rd_part (k.P ++ k.S1 ++ k.S2 ++ k.S3) [] (by rw [h.eq]; simp) (by rw [h.l4]; exact hi) (by simp [h.lP, h.l1, h.l2, h.l3])

theorem byte_lt (x : W32) (i : Nat) : Spec.Blowfish.byte x i < 256 := Nat.mod_lt _ (by decide)

theorem byteAt_eq (x : W32) (n : Nat) (hn : n < 4) : byteAt x n = Spec.Blowfish.byte x n := by
  have e : ∀ k, ((x >>> k) &&& 0xff#32).toNat = x.toNat / 2 ^ k % 256 := fun k => by
    rw [BitVec.toNat_and, BitVec.toNat_ushiftRight, Nat.shiftRight_eq_div_pow]
    exact Nat.and_two_pow_sub_one_eq_mod _ 8
  unfold byteAt Spec.Blowfish.byte
  rw [e]
  interval_cases n <;> rfl

theorem F_run {k : Sks} {s : List W32} (h : Rel k s) (x : W32) : F k x = .ok (Spec.Blowfish.F s x) := by
  unfold F Spec.Blowfish.F
  rw [byteAt_eq x 0 (by decide), byteAt_eq x 1 (by decide), byteAt_eq x 2 (by decide), byteAt_eq x 3 (by decide), h.rd1 _ (byte_lt _ _),
    h.rd2 _ (byte_lt _ _), h.rd3 _ (byte_lt _ _), h.rd4 _ (byte_lt _ _)]
  rfl

theorem round_run {k : Sks} {s : List W32} (h : Rel k s) (i : Nat) (hi : i < 18) (b : W32 × W32) : round k i b =
    .ok (b.2 ^^^ Spec.Blowfish.F s (b.1 ^^^ Spec.Blowfish.P s i), b.1 ^^^ Spec.Blowfish.P s i) := by
  unfold round
  rw [h.rdP i hi, Out.bind_ok]
  simp only []
  rw [F_run h, Out.bind_ok, BitVec.xor_comm (Spec.Blowfish.F _ _)]
  rfl

theorem encBlock_run {k : Sks} {s : List W32} (h : Rel k s) (b : W32 × W32) : encBlock k (be2 b) = .ok (be2 (Spec.Blowfish.encrypt s b)) := by
  unfold encBlock be2
  rw [getBe32_0, Out.bind_ok, getBe32_4', Out.bind_ok, forLoop_up0 (round k)
    (fun b i => (b.2 ^^^ Spec.Blowfish.F s (b.1 ^^^ Spec.Blowfish.P s i), b.1 ^^^ Spec.Blowfish.P s i)) 16 _
    (fun i b hi => round_run h i (by omega) b), Out.bind_ok, h.rdP 17 (by decide), Out.bind_ok, h.rdP 16 (by decide), Out.bind_ok]
  rfl

theorem decBlock_run {k : Sks} {s : List W32} (h : Rel k s) (b : W32 × W32) : decBlock k (be2 b) = .ok (be2 (Spec.Blowfish.decrypt s b)) := by
  unfold decBlock be2
  rw [getBe32_0, Out.bind_ok, getBe32_4', Out.bind_ok, forLoop_up0 (fun i => round k (17 - i))
    (fun b i => (b.2 ^^^ Spec.Blowfish.F s (b.1 ^^^ Spec.Blowfish.P s (17 - i)), b.1 ^^^ Spec.Blowfish.P s (17 - i))) 16 _
    (fun i b hi => round_run h (17 - i) (by omega) b), Out.bind_ok, h.rdP 0 (by decide), Out.bind_ok, h.rdP 1 (by decide), Out.bind_ok]
  rfl

theorem rel_invertible {k : Sks} {s : List W32} (h : Rel k s) : Invertible 8 (encBlock k) (decBlock k) :=
  Invertible.ofState be2 be2_surj be2_len (Spec.Blowfish.encrypt s) (Spec.Blowfish.decrypt s) (encBlock_run h) (decBlock_run h)
    (spec_dec_enc s) (spec_enc_dec s)

/-! ## The expansion of keys -/

theorem set_part {l m : List W32} {i j : Nat} (p q : List W32) (a : W32) (e : l = p ++ (m ++ q)) (hi : i < m.length) (hj : j = p.length + i) :
    l.set j a = p ++ (m.set i a ++ q) := by
  subst hj e
  rw [List.set_append_right _ _ (by omega), Nat.add_sub_cancel_left, List.set_append_left _ _ hi]

theorem set2_part {l m : List W32} {i j : Nat} (p q : List W32) (a b : W32) (e : l = p ++ (m ++ q)) (hi : i + 1 < m.length)
    (hj : j = p.length + i) : (l.set j a).set (j + 1) b = p ++ (((m.set i a).set (i + 1) b) ++ q) := by
  rw [set_part p q a e (by omega) hj, set_part p q b rfl (by rw [List.length_set]; exact hi) (by omega)]

theorem wr2 {m : List W32} {i : Nat} (a b : W32) (hi : i + 1 < m.length) :
    (do wr (← wr m i a) (i + 1) b) = Out.ok ((m.set i a).set (i + 1) b) := by
  rw [wr_of_lt (by omega), Out.bind_ok, wr_of_lt (by rw [List.length_set]; exact hi)]

theorem place_run {k : Sks} {s : List W32} (h : Rel k s) (i : Nat) (hi : i < 521) (a b : W32) :
    ∃ k', place i k a b = .ok k' ∧ Rel k' ((s.set (2 * i) a).set (2 * i + 1) b) := by
  have hs : ∀ n : Nat, n <<< 1 = 2 * n := fun n => by rw [Nat.shiftLeft_eq]; omega
  unfold place
  simp only [hs]
  by_cases h0 : i < 9
  · rw [if_pos h0]
    refine ⟨{ k with P := (k.P.set (2 * i) a).set (2 * i + 1) b }, ?_, ?_, by simp [h.lP], h.l1, h.l2, h.l3, h.l4⟩
    · rw [wr_of_lt (by rw [h.lP]; omega), Out.bind_ok, wr_of_lt (by rw [List.length_set, h.lP]; omega)]; rfl
    · exact set2_part [] _ a b h.eq (by rw [h.lP]; omega) (by simp)
  rw [if_neg h0]
  by_cases h1 : i < 137
  · rw [if_pos h1]
    refine ⟨{ k with S1 := (k.S1.set (2 * (i - 9)) a).set (2 * (i - 9) + 1) b }, ?_, ?_, h.lP, by simp [h.l1], h.l2, h.l3, h.l4⟩
    · rw [wr_of_lt (by rw [h.l1]; omega), Out.bind_ok, wr_of_lt (by rw [List.length_set, h.l1]; omega)]; rfl
    · exact set2_part k.P _ a b h.eq (by rw [h.l1]; omega) (by rw [h.lP]; omega)
  rw [if_neg h1]
  by_cases h2 : i < 265
  · rw [if_pos h2]
    refine ⟨{ k with S2 := (k.S2.set (2 * (i - 137)) a).set (2 * (i - 137) + 1) b }, ?_, ?_, h.lP, h.l1, by simp [h.l2], h.l3, h.l4⟩
    · rw [wr_of_lt (by rw [h.l2]; omega), Out.bind_ok, wr_of_lt (by rw [List.length_set, h.l2]; omega)]; rfl
    · rw [set2_part (m := k.S2) (i := 2 * (i - 137)) (k.P ++ k.S1) (k.S3 ++ k.S4) a b (by rw [h.eq]; simp) (by rw [h.l2]; omega) (by simp [h.lP, h.l1]; omega)]
      simp
  rw [if_neg h2]
  by_cases h3 : i < 393
  · rw [if_pos h3]
    refine ⟨{ k with S3 := (k.S3.set (2 * (i - 265)) a).set (2 * (i - 265) + 1) b }, ?_, ?_, h.lP, h.l1, h.l2, by simp [h.l3], h.l4⟩
    · rw [wr_of_lt (by rw [h.l3]; omega), Out.bind_ok, wr_of_lt (by rw [List.length_set, h.l3]; omega)]; rfl
    · rw [set2_part (m := k.S3) (i := 2 * (i - 265)) (k.P ++ k.S1 ++ k.S2) k.S4 a b (by rw [h.eq]; simp) (by rw [h.l3]; omega) (by simp [h.lP, h.l1, h.l2]; omega)]
      simp
  · rw [if_neg h3]
    refine ⟨{ k with S4 := (k.S4.set (2 * (i - 393)) a).set (2 * (i - 393) + 1) b }, ?_, ?_, h.lP, h.l1, h.l2, h.l3, by simp [h.l4]⟩
    · rw [wr_of_lt (by rw [h.l4]; omega), Out.bind_ok, wr_of_lt (by rw [List.length_set, h.l4]; omega)]; rfl
    · rw [set2_part (m := k.S4) (i := 2 * (i - 393)) (k.P ++ k.S1 ++ k.S2 ++ k.S3) [] a b (by rw [h.eq]; simp) (by rw [h.l4]; omega)
        (by simp [h.lP, h.l1, h.l2, h.l3]; omega)]
      simp

/-- The loop over the words, without salt. -/
def zero : (W32 × W32) × (W32 × W32) := ((0, 0), (0, 0))

theorem expand_run {k : Sks} {s : List W32} (h : Rel k s) : ∃ pl k', forLoop expandStep 521 0 (List.replicate 8 0, k) = .ok (pl, k') ∧
    Rel k' ((List.range 521).foldl (Spec.Blowfish.step zero) (s, (0, 0))).1 := by
  obtain ⟨⟨pl, k'⟩, h1, h2, h3⟩ := forLoop_inv expandStep
    (fun i t => t.1 = be2 ((List.range i).foldl (Spec.Blowfish.step zero) (s, (0, 0))).2 ∧
      Rel t.2 ((List.range i).foldl (Spec.Blowfish.step zero) (s, (0, 0))).1) 521 0 (List.replicate 8 0, k)
    (fun i t _ hi e => by
      obtain ⟨e1, e2⟩ := e
      rw [List.range_succ, List.foldl_append, List.foldl_cons, List.foldl_nil]
      generalize (List.range i).foldl (Spec.Blowfish.step zero) (s, (0, 0)) = u at e1 e2
      have hz : (if i % 2 = 0 then zero.1 else zero.2) = (0, 0) := by unfold zero; split <;> rfl
      have hb : Spec.Blowfish.step zero u i = ((u.1.set (2 * i) (Spec.Blowfish.encrypt u.1 u.2).1).set (2 * i + 1)
          (Spec.Blowfish.encrypt u.1 u.2).2, Spec.Blowfish.encrypt u.1 u.2) := by
        unfold Spec.Blowfish.step
        have z : ∀ x : W32, x ^^^ 0 = x := fun x => BitVec.xor_zero
        simp only [hz, z]
      obtain ⟨k', p1, p2⟩ := place_run e2 i (by omega) (Spec.Blowfish.encrypt u.1 u.2).1 (Spec.Blowfish.encrypt u.1 u.2).2
      refine ⟨(be2 (Spec.Blowfish.encrypt u.1 u.2), k'), ?_, by rw [hb], by rw [hb]; exact p2⟩
      unfold expandStep
      rw [e1, encBlock_run e2, Out.bind_ok]
      have g0 : getBe32 (be2 (Spec.Blowfish.encrypt u.1 u.2)) 0 = .ok (Spec.Blowfish.encrypt u.1 u.2).1 := getBe32_0 _ _
      have g4 : getBe32 (be2 (Spec.Blowfish.encrypt u.1 u.2)) 4 = .ok (Spec.Blowfish.encrypt u.1 u.2).2 := getBe32_4' _ _
      rw [g0, Out.bind_ok, g4, Out.bind_ok, p1]
      rfl) ⟨(by decide : List.replicate 8 0 = be2 (0, 0)), h⟩
  exact ⟨pl, k', h1, h3⟩

theorem pi_eq : parray ++ (sbox0 ++ (sbox1 ++ (sbox2 ++ sbox3))) = Spec.Blowfish.piWords := by decide +kernel

theorem init_rel {P : List W32} (hP : P.length = 18) : Rel ⟨sbox0, sbox1, sbox2, sbox3, P⟩ (P ++ Spec.Blowfish.piWords.drop 18) := by
  refine ⟨?_, hP, (by decide +kernel : sbox0.length = 256), (by decide +kernel : sbox1.length = 256), (by decide +kernel : sbox2.length = 256),
    (by decide +kernel : sbox3.length = 256)⟩
  rw [← pi_eq, List.drop_left' (by decide +kernel)]

/-- Words added to the P-array. -/
def mixW (w : Nat → W32) (s : List W32) : List W32 := (List.range 18).foldl (fun s i => s.set i (s.getD i 0 ^^^ w i)) s

theorem mixW_eq (w : Nat → W32) (s : List W32) (hs : 18 ≤ s.length) :
    mixW w s = (List.range 18).map (fun i => s.getD i 0 ^^^ w i) ++ s.drop 18 :=
  foldl_fill (fun i => s.getD i 0 ^^^ w i) (fun i x => x ^^^ w i) 0 18 s hs (fun _ _ => rfl)

theorem mixW_congr (w v : Nat → W32) (s : List W32) (hs : 18 ≤ s.length) (h : ∀ i, i < 18 → w i = v i) : mixW w s = mixW v s := by
  rw [mixW_eq _ _ hs, mixW_eq _ _ hs]
  congr 1
  apply List.map_congr_left
  intro i hi
  rw [h i (List.mem_range.mp hi)]

theorem pi_len : Spec.Blowfish.piWords.length = 1042 := by unfold Spec.Blowfish.piWords; simp

theorem rd_parray (i : Nat) (hi : i < 18) : rd parray i = .ok (Spec.Blowfish.piWords.getD i 0) :=
  rd_part [] _ pi_eq.symm (by rw [show parray.length = 18 from by decide +kernel]; exact hi) (by simp)

theorem wSize_pos (n : Nat) : 0 < wSize n := by unfold wSize; split <;> omega

theorem wSize_le {n : Nat} (h : n ≤ 56) : wSize n ≤ 14 := by unfold wSize; split <;> omega

theorem succ_mod_cases (i m : Nat) (hm : 0 < m) : (i % m + 1 = m ∧ (i + 1) % m = 0) ∨ (i % m + 1 < m ∧ (i + 1) % m = i % m + 1) := by
  have h := Nat.mod_lt i hm
  by_cases e : i % m + 1 = m
  · exact .inl ⟨e, by rw [← Nat.mod_add_mod, e, Nat.mod_self]⟩
  · refine .inr ⟨by omega, ?_⟩
    rw [← Nat.mod_add_mod, Nat.mod_eq_of_lt (by omega)]

/-- The loop over `P`, for keys whose words exist. -/
theorem mix_run (wKey : List W32) (m : Nat) (hm : 0 < m) (hw : m ≤ wKey.length) : ∃ j, forLoop (mixStep wKey m) 18 0 (List.replicate 18 0, 0) =
    .ok ((List.range 18).map (fun i => Spec.Blowfish.piWords.getD i 0 ^^^ wKey.getD (i % m) 0), j) := by
  obtain ⟨j, h⟩ := forLoop_fill (mixStep wKey m) (fun i => Spec.Blowfish.piWords.getD i 0 ^^^ wKey.getD (i % m) 0)
    (fun i j => (if j = m then 0 else j) = i % m) 18 (List.replicate 18 0) 0 (by simp) (by simp)
    (fun i l j hi hl _ hj => by
      have hlt := Nat.mod_lt i hm
      refine ⟨i % m + 1, ?_, ?_⟩
      · unfold mixStep
        simp only [hj]
        rw [rd_parray i hi, Out.bind_ok, rd_getD 0 (show i % m < wKey.length by omega), Out.bind_ok,
          wr_of_lt (by rw [hl]; simpa using hi)]
        rfl
      · rcases succ_mod_cases i m hm with ⟨a, b⟩ | ⟨a, b⟩
        · rw [if_pos a, b]
        · rw [if_neg (by omega), b])
  exact ⟨j, by rw [h]; rfl⟩

/-- The words of a key as the program repeats them. -/
def keyW (key : Bytes) (i : Nat) : W32 := (ldUserKey 4 14 key).getD (i % wSize key.length) 0

theorem puffUp_run (key : Bytes) (h : key.length ≤ 56) : ∃ k, puffUp key = .ok k ∧
    Rel k ((List.range 521).foldl (Spec.Blowfish.step zero) (mixW (keyW key) Spec.Blowfish.piWords, (0, 0))).1 := by
  obtain ⟨j, h1⟩ := mix_run (ldUserKey 4 14 key) (wSize key.length) (wSize_pos _) (by rw [length_ldUserKey]; exact wSize_le h)
  have hr := init_rel (P := (List.range 18).map (fun i => Spec.Blowfish.piWords.getD i 0 ^^^ keyW key i)) (by simp)
  rw [← mixW_eq _ _ (by rw [pi_len]; decide)] at hr
  obtain ⟨pl, k, h2, h3⟩ := expand_run hr
  refine ⟨k, ?_, h3⟩
  unfold puffUp
  rw [h1, Out.bind_ok]
  simp only []
  unfold keyW at h2
  rw [h2, Out.bind_ok]
  rfl

/-- For keys of at most 56 bytes, which is the longest key of Blowfish, decryption undoes encryption and the other way round. -/
theorem blowfish_invertible_partial (key : Bytes) (h : key.length ≤ 56) : Invertible 8 (enc key) (dec key) := by
  obtain ⟨k, h1, h2⟩ := puffUp_run key h
  have hi := rel_invertible h2
  have e1 : enc key = encBlock k := funext fun b => by unfold enc; rw [h1, Out.bind_ok]
  have e2 : dec key = decBlock k := funext fun b => by unfold dec; rw [h1, Out.bind_ok]
  rw [e1, e2]
  exact hi

/-- A key of 16 bytes meets the hypothesis. -/
example : Invertible 8 (enc (ascii "sixteen byte key")) (dec (ascii "sixteen byte key")) := blowfish_invertible_partial _ (by decide)

/-- A key of more than 56 bytes has more words than the array of the loader, which is read behind its end. -/
theorem mix_long (wKey : List W32) (m : Nat) (hw : wKey.length = 14) (hm : 14 < m) : ∀ n t (P : List W32), P.length = 18 → t ≤ 14 → 14 < t + n →
    t + n ≤ 18 → forLoop (mixStep wKey m) n t (P, t) = .ub
  | 0, t, P, _, h1, h2, _ => by omega
  | n + 1, t, P, hP, h1, h2, h3 => by
    show (mixStep wKey m t (P, t) >>= fun s => forLoop (mixStep wKey m) n (t + 1) s) = .ub
    unfold mixStep
    simp only []
    rw [rd_parray t (by omega), Out.bind_ok, if_neg (by omega)]
    by_cases e : t = 14
    · rw [show rd wKey t = .ub from by unfold rd; rw [List.getElem?_eq_none (by omega)]; rfl]
      rfl
    · rw [rd_getD 0 (show t < wKey.length by omega), Out.bind_ok, wr_of_lt (by omega), Out.bind_ok]
      exact mix_long wKey m hw hm n (t + 1) _ (by rw [List.length_set, hP]) (by omega) (by omega) (by omega)

theorem blowfish_long_key_undefined (key block : Bytes) (h : 56 < key.length) : enc key block = .ub ∧ dec key block = .ub := by
  have e : puffUp key = .ub := by
    unfold puffUp
    rw [mix_long _ _ (length_ldUserKey _ _ _) (by unfold wSize; split <;> omega) 18 0 _ (by simp) (by omega) (by omega) (by omega)]
    rfl
  unfold enc dec
  rw [e]
  exact ⟨rfl, rfl⟩

example : enc (List.replicate 57 1) (List.replicate 8 0) = .ub := (blowfish_long_key_undefined _ _ (by simp)).1

/-! ## Conformance -/

theorem mix_spec (key : Bytes) (s : List W32) : Spec.Blowfish.mix key s = mixW (Spec.Blowfish.keyWord key) s := rfl

theorem keyWord_words (ws : List W32) (hw : ws ≠ []) (i : Nat) : Spec.Blowfish.keyWord (ws.flatMap putBe32) i = ws.getD (i % ws.length) 0 := by
  have hl : (ws.flatMap putBe32).length = 4 * ws.length := by
    clear hw
    induction ws with
    | nil => rfl
    | cons w t ih => rw [List.flatMap_cons, List.length_append, ih, List.length_cons]; simp [putBe32]; omega
  have hp : 0 < ws.length := List.length_pos_iff.mpr hw
  have hm := Nat.mod_lt i hp
  have e : ∀ j, j < 4 → (ws.flatMap putBe32).getD ((4 * i + j) % (ws.flatMap putBe32).length) 0 = (putBe32 (ws.getD (i % ws.length) 0)).getD j 0 :=
    fun j hj => by
      rw [hl, show (4 * i + j) % (4 * ws.length) = 4 * (i % ws.length) + j from ?_, flatMap_putBe32_getD _ _ _ hm hj]
      have h1 := Nat.div_add_mod i ws.length
      conv_lhs => rw [← h1]
      rw [show 4 * (ws.length * (i / ws.length) + i % ws.length) + j = (4 * (i % ws.length) + j) + 4 * ws.length * (i / ws.length) by
        rw [Nat.mul_add, Nat.mul_assoc]; omega, Nat.add_mul_mod_self_left, Nat.mod_eq_of_lt (by omega)]
  unfold Spec.Blowfish.keyWord
  rw [show List.range 4 = [0, 1, 2, 3] from rfl]
  simp only [List.foldl_cons, List.foldl_nil]
  rw [e 0 (by decide), e 1 (by decide), e 2 (by decide), e 3 (by decide)]
  generalize ws.getD (i % ws.length) 0 = w
  unfold putBe32
  simp only [List.getD_cons_zero, List.getD_cons_succ]
  apply BitVec.eq_of_getLsbD_eq
  intro n hn
  interval_cases n <;> simp

/-- The key that the program uses instead of one of incomplete words: zeros are added. -/
def padded (key : Bytes) : Bytes := zeroPad (4 * ((key.length + 3) / 4)) key

theorem keyW_padded (key : Bytes) (h0 : key ≠ []) (h : key.length ≤ 56) (h2 : key.length % 2 = 0) (i : Nat) :
    keyW key i = Spec.Blowfish.keyWord (padded key) i := by
  have hp : 0 < key.length := List.length_pos_iff.mpr h0
  have hm : wSize key.length = (key.length + 3) / 4 := by unfold wSize; split <;> omega
  have hl : (padded key).length = 4 * ((key.length + 3) / 4) := length_zeroPad _ _
  have hb := beWords_bytes _ _ hl
  have hn := length_beWords _ _ hl
  have hz : zeroPad (14 * 4) key = padded key ++ List.replicate (56 - 4 * ((key.length + 3) / 4)) 0 := by
    unfold padded zeroPad
    rw [List.take_of_length_le (by omega), List.take_of_length_le (by omega), List.append_assoc, List.replicate_append_replicate]
    congr 2
    omega
  unfold keyW
  rw [ldUserKey_padded_partial 4 14 (by decide) key (by omega), hm, hz, beWords_append _ _ _ hl]
  conv_rhs => rw [← hb]
  have hlt : i % ((key.length + 3) / 4) < (key.length + 3) / 4 := Nat.mod_lt _ (by omega)
  rw [keyWord_words _ (by intro e; rw [e] at hn; simp at hn; omega), hn, List.getD_eq_getElem?_getD, List.getElem?_append_left (by
    show _ < (Spec.MD.beWords 32 4 (padded key)).length; omega),
    ← List.getD_eq_getElem?_getD]

/-- A key of an even number of bytes is used like the key with zeros up to whole words. -/
theorem blowfish_padded (key : Bytes) (h0 : key ≠ []) (h : key.length ≤ 56) (h2 : key.length % 2 = 0) (x y : W32) :
    enc key (be2 (x, y)) = .ok (be2 (Spec.Blowfish.encrypt (Spec.Blowfish.schedule (padded key)) (x, y))) ∧
    dec key (be2 (x, y)) = .ok (be2 (Spec.Blowfish.decrypt (Spec.Blowfish.schedule (padded key)) (x, y))) := by
  obtain ⟨k, h1, hr⟩ := puffUp_run key h
  rw [mixW_congr _ _ _ (by rw [pi_len]; decide) fun i _ => keyW_padded key h0 h h2 i] at hr
  unfold enc dec
  rw [h1, Out.bind_ok, Out.bind_ok]
  exact ⟨encBlock_run hr _, decBlock_run hr _⟩

/-- For keys of whole words, up to 56 bytes, Blowfish is computed as published.  Missing: keys of other lengths, which are not repeated but
filled up (`blowfish_padded`). -/
theorem blowfish_standard_partial (key : Bytes) (h0 : key ≠ []) (h : key.length ≤ 56) (h4 : key.length % 4 = 0) (x y : W32) :
    enc key (be2 (x, y)) = .ok (be2 (Spec.Blowfish.encrypt (Spec.Blowfish.schedule key) (x, y))) ∧
    dec key (be2 (x, y)) = .ok (be2 (Spec.Blowfish.decrypt (Spec.Blowfish.schedule key) (x, y))) := by
  have e : padded key = key := by
    unfold padded zeroPad
    rw [List.take_of_length_le (by omega), show 4 * ((key.length + 3) / 4) - key.length = 0 by omega]
    simp
  have := blowfish_padded key h0 h (by omega) x y
  rwa [e] at this

example : enc (ascii "sixteen byte key") (be2 (1, 2)) =
    .ok (be2 (Spec.Blowfish.encrypt (Spec.Blowfish.schedule (ascii "sixteen byte key")) (1, 2))) :=
  (blowfish_standard_partial _ (by decide) (by decide) (by decide) 1 2).1

/-- The published algorithm repeats a key: twice the key is the same key.  -/
theorem schedule_repeated (key : Bytes) (h0 : key ≠ []) : Spec.Blowfish.schedule (key ++ key) = Spec.Blowfish.schedule key := by
  have hp : 0 < key.length := List.length_pos_iff.mpr h0
  have e : Spec.Blowfish.keyWord (key ++ key) = Spec.Blowfish.keyWord key := by
    funext i
    unfold Spec.Blowfish.keyWord
    congr 1
    funext w j
    refine congrArg (fun z : Byte => w <<< 8 ||| z.setWidth 32) ?_
    have hm := Nat.mod_lt (4 * i + j) hp
    have hm2 : (4 * i + j) % (key.length + key.length) % key.length = (4 * i + j) % key.length :=
      Nat.mod_mod_of_dvd _ ⟨2, by omega⟩
    have hm3 := Nat.mod_lt (4 * i + j) (show 0 < key.length + key.length by omega)
    rw [List.length_append, List.getD_eq_getElem?_getD, List.getD_eq_getElem?_getD]
    generalize (4 * i + j) % (key.length + key.length) = a at *
    by_cases ha : a < key.length
    · rw [List.getElem?_append_left ha, ← hm2, Nat.mod_eq_of_lt ha]
    · rw [List.getElem?_append_right (by omega), ← hm2, Nat.mod_eq_sub_mod (by omega), Nat.mod_eq_of_lt (show a - key.length < key.length by omega)]
  unfold Spec.Blowfish.schedule Spec.Blowfish.expandKey Spec.Blowfish.mix
  rw [e]

/-- The program does not: a key of two bytes is the same key as the one with two zeros behind. -/
theorem blowfish_zeros_same_key (a b : Byte) (block : Bytes) (hb : block.length = 8) : enc [a, b] block = enc [a, b, 0, 0] block := by
  obtain ⟨s, rfl⟩ := be2_surj block hb
  rw [(blowfish_padded [a, b] (by simp) (by simp) (by simp) s.1 s.2).1, (blowfish_padded [a, b, 0, 0] (by simp) (by simp) (by simp) s.1 s.2).1,
    show padded [a, b] = padded [a, b, 0, 0] by simp [padded, zeroPad, List.replicate]]

end Kryptos.Blowfish
