import Verif.Model.Rc5
import Verif.Spec.Rc
import Verif.Lemmas.Rot
import Verif.Props.KeyLoad
/-
  RC5 and RC6: the block functions undo each other, agree with the published algorithms for keys of whole words, and the inputs
  for which the code reads memory it has not written or shifts by the width of a word.
-/
namespace Kryptos.Rc5
open Block KeyLoad Spec.Rc Spec.MD

/-! ### The key schedule -/

/-- The list-based state `m` represents the state `s` of the specification, for `t` subkeys and `c` key words. -/
structure Rep (t c : Nat) (m : Mix) (s : Spec.Rc.Mix) : Prop where
  lenK : m.K.length = t
  K : ∀ k, k < t → m.K[k]? = some (s.S k)
  L : ∀ k, k < c → m.L[k]? = some (s.L k)
  A : m.A = s.A
  B : m.B = s.B
  i : m.i = s.i
  j : m.j = s.j
  hi : s.i < t
  hj : s.j < c

theorem mixStep_rep (t c : Nat) (m : Mix) (s : Spec.Rc.Mix) (h : Rep t c m s) :
    ∃ m', mixStep false t c m = .ok m' ∧ Rep t c m' (mix t c s) := by
  have hK := h.K _ h.hi
  have hL := h.L _ h.hj
  refine ⟨⟨m.K.set s.i ((s.S s.i + s.A + s.B).rotateLeft 3), m.L.set s.j (mix t c s).B, (mix t c s).A, (mix t c s).B,
    (s.i + 1) % t, (s.j + 1) % c⟩, ?_, ?_⟩
  · unfold mixStep
    rw [h.i, h.j, h.A, h.B, rd_of_some hK, rd_of_some hL]
    simp only [Out.bind_ok]
    rw [rotlV_eq _ _ (by decide), Out.bind_ok, wr_of_lt (lt_of_some hK), Out.bind_ok, rotlV_eq _ _ (Nat.mod_lt _ (by decide)),
      Out.bind_ok, wr_of_lt (lt_of_some hL), Out.bind_ok]
    simp only [mix, BitVec.add_assoc]
    rfl
  · constructor
    · show (m.K.set _ _).length = t
      rw [List.length_set]; exact h.lenK
    · intro k hk
      show (m.K.set s.i _)[k]? = some (if k = s.i then _ else s.S k)
      rw [List.getElem?_set]
      by_cases hki : s.i = k
      · rw [if_pos hki, if_pos (lt_of_some hK), if_pos hki.symm]
      · rw [if_neg hki, if_neg (Ne.symm hki)]; exact h.K k hk
    · intro k hk
      show (m.L.set s.j _)[k]? = some (if k = s.j then _ else s.L k)
      rw [List.getElem?_set]
      by_cases hki : s.j = k
      · rw [if_pos hki, if_pos (lt_of_some hL), if_pos hki.symm]; rfl
      · rw [if_neg hki, if_neg (Ne.symm hki)]; exact h.L k hk
    · rfl
    · rfl
    · rfl
    · rfl
    · exact Nat.mod_lt _ (Nat.lt_of_le_of_lt (Nat.zero_le _) h.hi)
    · exact Nat.mod_lt _ (Nat.lt_of_le_of_lt (Nat.zero_le _) h.hj)

theorem mixLoop (t c n : Nat) (L : List W32) (Lf : Nat → W32) (hL : ∀ k, k < c → L[k]? = some (Lf k)) (ht : 0 < t) (hc : 0 < c) :
    ∃ m, forLoop (fun _ => mixStep false t c) n 0 ⟨initK t, L, 0, 0, 0, 0⟩ = .ok m ∧
      Rep t c m (Nat.repeat (mix t c) n ⟨fun k => P + BitVec.ofNat 32 k * Q, Lf, 0, 0, 0, 0⟩) := by
  have := forLoop_inv (fun _ => mixStep false t c)
    (fun i m => Rep t c m (Nat.repeat (mix t c) i ⟨fun k => P + BitVec.ofNat 32 k * Q, Lf, 0, 0, 0, 0⟩)) n 0
    ⟨initK t, L, 0, 0, 0, 0⟩ (fun i m _ _ hm => mixStep_rep t c m _ hm) ?_
  · simpa using this
  · constructor
    · show (initK t).length = t
      unfold initK; rw [List.length_map, List.length_range]
    · intro k hk
      show (initK t)[k]? = _
      unfold initK
      rw [List.getElem?_map, List.getElem?_range hk]
      rfl
    · exact hL
    · rfl
    · rfl
    · rfl
    · rfl
    · exact ht
    · exact hc

/-- The words the key schedule starts from. -/
def loaded (key : Bytes) (k : Nat) : W32 := ((revs ((key.length + 3) / 4) (ldUserKey 4 16 key))[k]?).getD 0

theorem length_revs (c : Nat) (l : List W32) : (revs c l).length = l.length := by
  unfold revs
  rw [List.length_append, List.length_map, List.length_take, List.length_drop]; omega

theorem ksched_eq (r : Nat) (key : Bytes) (hk : 0 < key.length) (h64 : key.length ≤ 64) (hc : (key.length + 3) / 4 ≤ 2 * r + 2) :
    ∃ K, ksched false r key = .ok K ∧ K.length = 2 * r + 2 ∧
      ∀ k, k < 2 * r + 2 → K[k]? = some (expand (2 * r + 2) ((key.length + 3) / 4) (loaded key) k) := by
  have hL : ∀ k, k < (key.length + 3) / 4 →
      (revs ((key.length + 3) / 4) (ldUserKey 4 16 key))[k]? = some (loaded key k) := by
    intro k hk
    have : k < (revs ((key.length + 3) / 4) (ldUserKey 4 16 key)).length := by
      rw [length_revs, length_ldUserKey]; omega
    unfold loaded
    rw [List.getElem?_eq_getElem this]; rfl
  obtain ⟨m, hm, hr⟩ := mixLoop (2 * r + 2) ((key.length + 3) / 4) (3 * (2 * r + 2)) _ _ hL (by omega) (by omega)
  refine ⟨m.K, ?_, hr.lenK, ?_⟩
  · unfold ksched
    rw [if_neg (by omega), if_neg (by omega)]
    simp only [hm, Out.bind_ok]
    rfl
  · intro k hk
    rw [hr.K k hk]
    unfold expand
    rw [Nat.max_eq_left hc]

/-! ### The block functions -/

theorem encBlock_eq (r : Nat) (K : List W32) (S : Nat → W32) (h : ∀ k, k < 2 * r + 2 → K[k]? = some (S k)) (s : W32 × W32) :
    encBlock false r K (le2 s) = .ok (le2 (rc5 r S s.1 s.2)) := by
  unfold encBlock le2
  simp only [getLe32_0, getLe32_4', Out.bind_ok]
  rw [rd_of_some (h 0 (by omega)), rd_of_some (h 1 (by omega)), Out.bind_ok, Out.bind_ok, forLoop_up _ (fun (s : W32 × W32) i =>
    let A := (s.1 ^^^ s.2).rotateLeft (s.2.toNat % 32) + S (2 * i)
    let B := (s.2 ^^^ A).rotateLeft (A.toNat % 32) + S (2 * i + 1)
    (A, B))]
  · rfl
  · intro i s h1 h2
    unfold encStep
    rw [rotlV_eq _ _ (Nat.mod_lt _ (by decide)), rd_of_some (h (2 * i) (by omega)), rd_of_some (h (2 * i + 1) (by omega))]
    simp only [Out.bind_ok]
    rw [rotlV_eq _ _ (Nat.mod_lt _ (by decide))]
    rfl

/-- What the decryption computes. -/
def unRound (S : Nat → W32) (s : W32 × W32) (i : Nat) : W32 × W32 :=
  let B := (s.2 - S (2 * i + 1)).rotateRight (s.1.toNat % 32) ^^^ s.1
  let A := (s.1 - S (2 * i)).rotateRight (B.toNat % 32) ^^^ B
  (A, B)

theorem decBlock_eq (r : Nat) (K : List W32) (S : Nat → W32) (h : ∀ k, k < 2 * r + 2 → K[k]? = some (S k)) (s : W32 × W32) :
    decBlock false r K (le2 s) = .ok (le2 (let u := (List.range' 1 r).reverse.foldl (unRound S) s; (u.1 - S 0, u.2 - S 1))) := by
  unfold decBlock le2
  simp only [getLe32_0, getLe32_4', Out.bind_ok]
  rw [rd_of_some (h 0 (by omega)), rd_of_some (h 1 (by omega)), forLoop_down _ (unRound S)]
  · rfl
  · intro i s h1 h2
    unfold decStep
    rw [rd_of_some (h (2 * i) (by omega)), rd_of_some (h (2 * i + 1) (by omega))]
    simp only [Out.bind_ok]
    rw [rotrV_eq _ _ (Nat.mod_lt _ (by decide)), Out.bind_ok, rotrV_eq _ _ (Nat.mod_lt _ (by decide))]
    rfl

theorem invertible (r : Nat) (K : List W32) (S : Nat → W32) (h : ∀ k, k < 2 * r + 2 → K[k]? = some (S k)) :
    Invertible 8 (encBlock false r K) (decBlock false r K) := by
  refine Invertible.ofState le2 le2_surj le2_len _ _ (encBlock_eq r K S h) (decBlock_eq r K S h) ?_ ?_
  · intro s
    unfold rc5
    rw [foldl_undo]
    · simp only [BitVec.add_sub_cancel]
    · intro a i
      simp only [unRound, BitVec.add_sub_cancel, rot_rl32, xor_cancel_right]
  · intro s
    unfold rc5
    simp only [BitVec.sub_add_cancel]
    rw [foldl_undo']
    intro a i
    simp only [unRound, xor_cancel_right, rot_lr32, BitVec.sub_add_cancel]

/-- RC5 decryption undoes encryption: every number of rounds, every key that does not have more words than there are subkeys; rotations
by zero places as the processor does them. -/
theorem rc5_invertible (r : Nat) (key : Bytes) (hk : 0 < key.length) (h64 : key.length ≤ 64) (hc : (key.length + 3) / 4 ≤ 2 * r + 2) :
    Invertible 8 (enc false r key) (dec false r key) := by
  obtain ⟨K, h, _, hS⟩ := ksched_eq r key hk h64 hc
  have e1 : enc false r key = encBlock false r K := by funext b; unfold enc; rw [h]; rfl
  have e2 : dec false r key = decBlock false r K := by funext b; unfold dec; rw [h]; rfl
  rw [e1, e2]
  exact invertible r K _ hS

example : (0 < (List.replicate 16 (0 : Byte)).length) ∧ (List.replicate 16 (0 : Byte)).length ≤ 64 ∧
    ((List.replicate 16 (0 : Byte)).length + 3) / 4 ≤ 2 * 12 + 2 := by decide

/-! ### Agreement with the publication -/

theorem beNat4 (a b c d : Byte) : BitVec.ofNat 32 (beNat [a, b, c, d]) = be32 a b c d := by
  have ha := a.isLt; have hb := b.isLt; have hc := c.isLt; have hd := d.isLt
  rw [← BitVec.toNat_inj, be32_toNat, BitVec.toNat_ofNat]
  simp only [beNat, List.foldl_cons, List.foldl_nil]
  omega

theorem rev_be (a b c d : Byte) : rev (BitVec.ofNat 32 (beNat [a, b, c, d])) = BitVec.ofNat 32 (leNat [a, b, c, d]) := by
  rw [beNat4, show leNat [a, b, c, d] = beNat [d, c, b, a] from rfl, beNat4]
  apply BitVec.eq_of_getLsbD_eq; intro i hi
  unfold rev be32
  interval_cases i <;> simp

theorem map_rev (key : Bytes) : (beWords 32 4 key).map rev = leWords 32 4 key := by
  unfold beWords leWords
  rw [List.map_map]
  apply List.map_congr_left
  intro bs hbs
  have hl : bs.length = 4 := by
    unfold chunks at hbs
    obtain ⟨i, hi, rfl⟩ := List.mem_map.1 hbs
    rw [List.mem_range] at hi
    have := Nat.div_mul_le_self key.length 4
    rw [List.length_take, List.length_drop]
    omega
  match bs, hl with
  | [a, b, c, d], _ => exact rev_be a b c d

/-- The loaded words for keys of whole words. -/
theorem revs_words (n : Nat) (key : Bytes) (c : Nat) (h : key.length = c * 4) (hc : c ≤ n) (k : Nat) (hk : k < c) :
    (revs c (ldUserKey 4 n key))[k]? = some (keyWord key k) := by
  have hlen : (beWords 32 4 key).length = c := by
    unfold beWords chunks
    rw [List.length_map, List.length_map, List.length_range, h]; omega
  have e : revs c (ldUserKey 4 n key) = leWords 32 4 key ++ List.replicate (n - c) 0 := by
    rw [← map_rev]
    unfold revs
    rcases Nat.lt_or_ge c n with hlt | hge
    · rw [ldUserKey_words 4 n (by decide) key c h hlt]
      show ((beWords 32 4 key ++ _).take c).map rev ++ (beWords 32 4 key ++ _).drop c = _
      rw [List.take_left' hlen, List.drop_left' hlen]
    · rw [ldUserKey_full 4 n (by decide) key (by omega), List.take_of_length_le (l := key) (by omega)]
      show ((beWords 32 4 key).take c).map rev ++ (beWords 32 4 key).drop c = _
      rw [List.take_of_length_le (by omega), List.drop_eq_nil_of_le (by omega), show n - c = 0 by omega]
      rfl
  have hl' : (leWords 32 4 key).length = c := by rw [← map_rev, List.length_map, hlen]
  rw [e, List.getElem?_append_left (by omega)]
  unfold keyWord
  rw [List.getElem?_eq_getElem (by omega)]
  rfl

/-- RC5-32/r/b as published, for every number of rounds `r` and every key of `c` whole words, `1 ≤ c ≤ 16`, with `c ≤ 2r + 2`. -/
theorem rc5_standard (r c : Nat) (key : Bytes) (h : key.length = c * 4) (h1 : 1 ≤ c) (h16 : c ≤ 16) (hc : c ≤ 2 * r + 2) (a b : W32) :
    enc false r key (putLe32 a ++ putLe32 b) =
      .ok (let s := rc5 r (expand (2 * r + 2) c (keyWord key)) a b; putLe32 s.1 ++ putLe32 s.2) := by
  obtain ⟨m, hm, hr⟩ := mixLoop (2 * r + 2) c (3 * (2 * r + 2)) _ _ (revs_words 16 key c h h16) (by omega) (by omega)
  have e : ksched false r key = .ok m.K := by
    have hcc : (key.length + 3) / 4 = c := by omega
    unfold ksched
    rw [hcc, if_neg (by omega), if_neg (by omega)]
    simp only [hm, Out.bind_ok]
    rfl
  unfold enc
  rw [e, Out.bind_ok]
  have := encBlock_eq r m.K _ hr.K (a, b)
  unfold expand
  rw [Nat.max_eq_left hc]
  exact this

/-- The example of the publication: RC5-32/12/16 with zero key and zero block. -/
example : enc false 12 (List.replicate 16 0) (List.replicate 8 0) =
    .ok [0x21, 0xA5, 0xDB, 0xEE, 0x15, 0x4B, 0x8F, 0x6D] := by decide +kernel

/-! ### Failures -/

/-- By the letter of C, already the example of the publication shifts a word by its width. -/
theorem rc5_zero_rotation : enc true 12 (List.replicate 16 0) (List.replicate 8 0) = .ub := by decide +kernel

/-- A strict run that is defined is the run of the processor. -/
theorem rotlV_strict (w : W32) (s : Nat) (x : W32) (h : rotlV true w s = .ok x) : rotlV false w s = .ok x := by
  unfold rotlV at h ⊢
  by_cases hs : s = 0
  · simp [hs] at h
  · simpa [hs] using h

/-- Keys with more words than there are subkeys: the mixing reads subkeys that have not been written. -/
theorem rc5_uninitialised : enc false 1 (List.replicate 17 0) (List.replicate 8 0) = .ub := by decide +kernel

/-- A key of one byte does not give the subkeys of the publication, whose key word is the byte followed by zeros; the code uses the word
with the byte at the third place. -/
theorem rc5_short_key_nonstandard : enc false 12 [1] (List.replicate 8 0) = enc false 12 [0, 0, 1, 0] (List.replicate 8 0) ∧
    enc false 12 [1] (List.replicate 8 0) ≠ enc false 12 [1, 0, 0, 0] (List.replicate 8 0) := by decide +kernel

/-- Exactly the numbers of rounds 1 to 398, and, though they are negative, -1 and -2, pass the checks. -/
theorem roundsOk_iff (n : BitVec 32) : roundsOk n = true ↔ (1 ≤ n.toInt ∧ n.toInt ≤ 398) ∨ n.toInt = -1 ∨ n.toInt = -2 := by
  unfold roundsOk
  have h : (n.signExtend 64).toNat = if n.toNat < 2 ^ 31 then n.toNat else n.toNat + (2 ^ 64 - 2 ^ 32) := by
    rw [BitVec.toNat_signExtend]
    by_cases hm : n.toNat < 2 ^ 31
    · rw [if_pos hm, BitVec.msb_eq_false_iff_two_mul_lt.2 (by omega)]
      simp
      omega
    · rw [if_neg hm, BitVec.msb_eq_true_iff_two_mul_ge.2 (by omega)]
      have := n.isLt
      simp
      omega
  have hl := n.isLt
  have h2 : (((n.signExtend 64 + 2) <<< 1 : W64)).toNat = (2 * ((n.signExtend 64).toNat + 2)) % 2 ^ 64 := by
    rw [BitVec.toNat_shiftLeft, BitVec.toNat_add, Nat.shiftLeft_eq]
    show ((n.signExtend 64).toNat + 2) % 2 ^ 64 * 2 ^ 1 % 2 ^ 64 = _
    omega
  simp only [h2, Bool.not_eq_true', Bool.or_eq_false_iff, decide_eq_false_iff_not, BitVec.toInt_eq_toNat_cond]
  rw [h]
  split <;> split <;> omega

end Kryptos.Rc5

namespace Kryptos.Rc6
open Block KeyLoad Spec.Rc Spec.MD
open Rc5 (Rep mixLoop revs length_revs)

/-- The words the key schedule starts from. -/
def loaded (ksize : Nat) (key : Bytes) (k : Nat) : W32 :=
  ((revs (ksize / 4) (ldUserKey 4 8 ((key ++ List.replicate (32 - key.length) 0).take ksize)))[k]?).getD 0

theorem ksched_eq (ksize r : Nat) (key : Bytes) (hs : ksize = 16 ∨ ksize = 24 ∨ ksize = 32) (hk : key.length ≤ ksize) :
    ∃ K, ksched false ksize r key = .ok K ∧ K.length = 2 * r + 4 ∧
      ∀ k, k < 2 * r + 4 → K[k]? = some
        ((Nat.repeat (mix (2 * r + 4) (ksize / 4)) (3 * (2 * r + 4)) ⟨fun k => P + BitVec.ofNat 32 k * Q, loaded ksize key, 0, 0, 0, 0⟩).S k) := by
  have hL : ∀ k, k < ksize / 4 → (revs (ksize / 4) (ldUserKey 4 8 ((key ++ List.replicate (32 - key.length) 0).take ksize)))[k]? =
      some (loaded ksize key k) := by
    intro k hk
    have : k < (revs (ksize / 4) (ldUserKey 4 8 ((key ++ List.replicate (32 - key.length) 0).take ksize))).length := by
      rw [length_revs, length_ldUserKey]; omega
    unfold loaded
    rw [List.getElem?_eq_getElem this]; rfl
  obtain ⟨m, hm, hr⟩ := mixLoop (2 * r + 4) (ksize / 4) (3 * (2 * r + 4)) _ _ hL (by omega) (by omega)
  refine ⟨m.K, ?_, hr.lenK, hr.K⟩
  unfold ksched
  rw [if_neg (by omega)]
  simp only [hm, Out.bind_ok]
  rfl

theorem shl1 (x : W32) : x <<< 1 = 2 * x := by
  rw [← BitVec.toNat_inj, BitVec.toNat_shiftLeft, BitVec.toNat_mul, Nat.shiftLeft_eq, Nat.mul_comm]; rfl

theorem encBlock_eq (r : Nat) (K : List W32) (S : Nat → W32) (h : ∀ k, k < 2 * r + 4 → K[k]? = some (S k)) (s : St) :
    encBlock false r K (le4 s) = .ok (le4 (rc6 r S s)) := by
  obtain ⟨a, b, c, d⟩ := s
  unfold encBlock le4
  simp only [getLe32_0, getLe32_4, getLe32_8, getLe32_12, Out.bind_ok]
  rw [rd_of_some (h 0 (by omega)), rd_of_some (h 1 (by omega)), Out.bind_ok, Out.bind_ok, forLoop_up _ (fun (s : St) i =>
    let f (x : W32) : W32 := (x * (2 * x + 1)).rotateLeft 5
    let (A, B, C, D) := s
    let t := f B
    let u := f D
    (B, (C ^^^ u).rotateLeft (t.toNat % 32) + S (2 * i + 1), D, (A ^^^ t).rotateLeft (u.toNat % 32) + S (2 * i)))]
  · rw [Out.bind_ok]
    simp only [rd_of_some (h (2 * r + 2) (by omega)), rd_of_some (h (2 * r + 3) (by omega))]
    rfl
  · intro i s h1 h2
    obtain ⟨a, b, c, d⟩ := s
    unfold encStep
    simp only [rd_of_some (h (2 * i) (by omega)), rd_of_some (h (2 * i + 1) (by omega)), Out.bind_ok, shl1,
      rotlV_eq _ 5 (by decide), fun w n => rotlV_eq w (n % 32) (Nat.mod_lt _ (by decide))]
    rfl

/-- What the decryption computes. -/
def unRound (S : Nat → W32) (s : St) (i : Nat) : St :=
  let f (x : W32) : W32 := (x * (2 * x + 1)).rotateLeft 5
  let u := f s.2.2.1
  let t := f s.1
  ((s.2.2.2 - S (2 * i)).rotateRight (u.toNat % 32) ^^^ t, s.1, (s.2.1 - S (2 * i + 1)).rotateRight (t.toNat % 32) ^^^ u, s.2.2.1)

def unState (r : Nat) (S : Nat → W32) (s : St) : St :=
  let u := (List.range' 1 r).reverse.foldl (unRound S) (s.1 - S (2 * r + 2), s.2.1, s.2.2.1 - S (2 * r + 3), s.2.2.2)
  (u.1, u.2.1 - S 0, u.2.2.1, u.2.2.2 - S 1)

theorem decBlock_eq (r : Nat) (K : List W32) (S : Nat → W32) (h : ∀ k, k < 2 * r + 4 → K[k]? = some (S k)) (s : St) :
    decBlock false r K (le4 s) = .ok (le4 (unState r S s)) := by
  obtain ⟨a, b, c, d⟩ := s
  unfold decBlock le4
  simp only [getLe32_0, getLe32_4, getLe32_8, getLe32_12, Out.bind_ok]
  rw [rd_of_some (h (2 * r + 2) (by omega)), rd_of_some (h (2 * r + 3) (by omega)), Out.bind_ok, Out.bind_ok,
    forLoop_down _ (unRound S)]
  · rw [Out.bind_ok]
    simp only [rd_of_some (h 0 (by omega)), rd_of_some (h 1 (by omega)), Out.bind_ok, unState, Out.pure_eq]
  · intro i s h1 h2
    obtain ⟨a, b, c, d⟩ := s
    unfold decStep
    simp only [rd_of_some (h (2 * i) (by omega)), rd_of_some (h (2 * i + 1) (by omega)), Out.bind_ok, shl1,
      rotlV_eq _ 5 (by decide), fun w n => rotrV_eq w (n % 32) (Nat.mod_lt _ (by decide))]
    rfl

/-- One round of the encryption. -/
def round (S : Nat → W32) (s : St) (i : Nat) : St :=
  let f (x : W32) : W32 := (x * (2 * x + 1)).rotateLeft 5
  let t := f s.2.1
  let u := f s.2.2.2
  (s.2.1, (s.2.2.1 ^^^ u).rotateLeft (t.toNat % 32) + S (2 * i + 1), s.2.2.2, (s.1 ^^^ t).rotateLeft (u.toNat % 32) + S (2 * i))

theorem rc6_eq (r : Nat) (S : Nat → W32) (s : St) :
    rc6 r S s = let u := (List.range' 1 r).foldl (round S) (s.1, s.2.1 + S 0, s.2.2.1, s.2.2.2 + S 1)
      (u.1 + S (2 * r + 2), u.2.1, u.2.2.1 + S (2 * r + 3), u.2.2.2) := rfl

theorem round_unRound (S : Nat → W32) (s : St) (i : Nat) : round S (unRound S s i) i = s := by
  simp only [round, unRound, xor_cancel_right, rot_lr32, BitVec.sub_add_cancel]

theorem unRound_round (S : Nat → W32) (s : St) (i : Nat) : unRound S (round S s i) i = s := by
  simp only [round, unRound, BitVec.add_sub_cancel, rot_rl32, xor_cancel_right]

theorem invertible (r : Nat) (K : List W32) (S : Nat → W32) (h : ∀ k, k < 2 * r + 4 → K[k]? = some (S k)) :
    Invertible 16 (encBlock false r K) (decBlock false r K) := by
  refine Invertible.ofState le4 le4_surj le4_len _ _ (encBlock_eq r K S h) (decBlock_eq r K S h) ?_ ?_
  · intro s
    rw [rc6_eq]
    simp only [unState, BitVec.add_sub_cancel]
    have := foldl_undo (round S) (unRound S) (unRound_round S) (List.range' 1 r) (s.1, s.2.1 + S 0, s.2.2.1, s.2.2.2 + S 1)
    generalize (List.range' 1 r).foldl (round S) (s.1, s.2.1 + S 0, s.2.2.1, s.2.2.2 + S 1) = u at this ⊢
    obtain ⟨a, b, c, d⟩ := u
    simp only [this, BitVec.add_sub_cancel]
  · intro s
    rw [rc6_eq]
    simp only [unState, BitVec.sub_add_cancel]
    have := foldl_undo' (round S) (unRound S) (round_unRound S) (List.range' 1 r)
      (s.1 - S (2 * r + 2), s.2.1, s.2.2.1 - S (2 * r + 3), s.2.2.2)
    generalize (List.range' 1 r).reverse.foldl (unRound S) (s.1 - S (2 * r + 2), s.2.1, s.2.2.1 - S (2 * r + 3), s.2.2.2) = u at this ⊢
    obtain ⟨a, b, c, d⟩ := u
    simp only [this, BitVec.sub_add_cancel]

/-- RC6 decryption undoes encryption for every number of rounds and every accepted key; rotations by zero places as the processor does
them. -/
theorem rc6_invertible (ksize r : Nat) (key : Bytes) (hs : ksize = 16 ∨ ksize = 24 ∨ ksize = 32) (hk : key.length ≤ ksize) :
    Invertible 16 (enc false ksize r key) (dec false ksize r key) := by
  obtain ⟨K, h, _, hS⟩ := ksched_eq ksize r key hs hk
  have e1 : enc false ksize r key = encBlock false r K := by funext b; unfold enc; rw [h]; rfl
  have e2 : dec false ksize r key = decBlock false r K := by funext b; unfold dec; rw [h]; rfl
  rw [e1, e2]
  exact invertible r K _ hS

/-- RC6-32/r/b as published for keys of 16, 24 and 32 bytes, when there are at least as many subkeys as key words, for instance for the
20 rounds of the submission. -/
theorem rc6_standard (ksize r : Nat) (key : Bytes) (hs : ksize = 16 ∨ ksize = 24 ∨ ksize = 32) (hk : key.length = ksize)
    (hr : ksize / 4 ≤ 2 * r + 4) (a b c d : W32) :
    enc false ksize r key (putLe32 a ++ (putLe32 b ++ (putLe32 c ++ putLe32 d))) =
      .ok (let s := rc6 r (expand (2 * r + 4) (ksize / 4) (keyWord key)) (a, b, c, d)
        putLe32 s.1 ++ (putLe32 s.2.1 ++ (putLe32 s.2.2.1 ++ putLe32 s.2.2.2))) := by
  have et : (key ++ List.replicate (32 - key.length) 0).take ksize = key := List.take_left' hk
  have hL := Rc5.revs_words 8 key (ksize / 4) (by omega) (by omega)
  obtain ⟨m, hm, hrep⟩ := mixLoop (2 * r + 4) (ksize / 4) (3 * (2 * r + 4)) _ _ hL (by omega) (by omega)
  have e : ksched false ksize r key = .ok m.K := by
    unfold ksched
    rw [if_neg (by omega)]
    simp only [et, hm, Out.bind_ok]
    rfl
  unfold enc
  rw [e, Out.bind_ok]
  have := encBlock_eq r m.K _ hrep.K (a, b, c, d)
  unfold expand
  rw [Nat.max_eq_left hr]
  exact this

/-- The example of the publication: RC6-32/20/16 with zero key and zero block. -/
example : enc false 16 20 (List.replicate 16 0) (List.replicate 16 0) =
    .ok [0x8F, 0xC3, 0xA5, 0x36, 0x56, 0xB1, 0xF7, 0x78, 0xC1, 0x29, 0xDF, 0x4E, 0x98, 0x48, 0xA4, 0x1E] := by decide +kernel

/-- Keys that differ in trailing zeros only are the same key. -/
theorem rc6_trailing_zeros (strict : Bool) (ksize r n : Nat) (key block : Bytes) (hn : key.length + n ≤ 32) :
    enc strict ksize r (key ++ List.replicate n 0) block = enc strict ksize r key block := by
  have e : ksched strict ksize r (key ++ List.replicate n 0) = ksched strict ksize r key := by
    unfold ksched
    rw [List.length_append, List.length_replicate, if_neg (by omega), if_neg (by omega), List.append_assoc, List.replicate_append_replicate,
      show n + (32 - (key.length + n)) = 32 - key.length by omega]
  unfold enc
  rw [e]

example : enc false 16 20 [1, 2, 3] (List.replicate 16 0) = enc false 16 20 [1, 2, 3, 0, 0] (List.replicate 16 0) :=
  (rc6_trailing_zeros false 16 20 2 [1, 2, 3] (List.replicate 16 0) (by decide)).symm

end Kryptos.Rc6
