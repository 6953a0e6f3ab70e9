import Verif.Model.Safer
import Verif.Spec.Safer
import Verif.Lemmas.Rot
import Verif.Lemmas.Aes
import Verif.Props.KeyLoad
import Verif.Props.Feal
import Mathlib.Tactic.IntervalCases
/-
  SAFER K-64: for up to 13 rounds the block functions are defined for every key, undo each other, and encryption is the published one; for
  14 rounds and more, which are accepted, the key schedule reads past the end of a table.
-/
namespace Kryptos.Safer
open Block KeyLoad Spec.Safer
open Aes (forall_byte)

/-! ## The tables -/

/-- The tables as functions. -/
def ex (b : Byte) : Byte := eLt.getD b.toNat 0
def lg (b : Byte) : Byte := lLt.getD b.toNat 0

theorem eLt_eq : eLt = (List.range 256).map fun n => BitVec.ofNat 8 (45 ^ n % 257) := by decide +kernel
theorem lLt_len : lLt.length = 256 := by decide +kernel
theorem eLt_len : eLt.length = 256 := by decide +kernel

theorem ex_eq (b : Byte) : ex b = exp b := by
  unfold ex exp
  rw [eLt_eq, List.getD_eq_getElem?_getD, List.getElem?_map, List.getElem?_range b.isLt]
  rfl

theorem tabs : ∀ i : Fin 256, lLt.getD (BitVec.ofNat 8 (45 ^ i.val % 257)).toNat 0 = BitVec.ofNat 8 i.val := by decide +kernel
theorem tabs' : ∀ i : Fin 256, BitVec.ofNat 8 (45 ^ (lLt.getD i.val 0).toNat % 257) = BitVec.ofNat 8 i.val := by decide +kernel

theorem lg_ex (b : Byte) : lg (ex b) = b := by
  rw [ex_eq]
  have := tabs b.toFin
  simpa [lg, exp] using this
theorem ex_lg (b : Byte) : ex (lg b) = b := by
  rw [ex_eq]
  have := tabs' b.toFin
  simpa [lg, exp] using this

theorem rd_e (b : Byte) : rd eLt b.toNat = .ok (ex b) := rd_getD 0 (by rw [eLt_len]; exact b.isLt)
theorem rd_l (b : Byte) : rd lLt b.toNat = .ok (lg b) := rd_getD 0 (by rw [lLt_len]; exact b.isLt)

/-- The second table is the logarithm. -/
theorem log_eq (y : Byte) : log y = some (lg y) := by
  unfold log
  have h : ∃ x, ((List.range 256).map (BitVec.ofNat 8)).find? (fun x => exp x = y) = some x := by
    rw [← Option.isSome_iff_exists, List.find?_isSome]
    refine ⟨lg y, ?_, by rw [← ex_eq, ex_lg]; simp⟩
    rw [List.mem_map]
    exact ⟨(lg y).toNat, List.mem_range.2 (lg y).isLt, by simp⟩
  obtain ⟨x, h⟩ := h
  rw [h]
  have := List.find?_some h
  simp only [decide_eq_true_eq] at this
  rw [← this, ← ex_eq, lg_ex]

/-! ## Rounds -/

def bx (c : Eight 8) : Eight 8 := ⟨ex c.a, lg c.b, lg c.c, ex c.d, ex c.e, lg c.f, lg c.g, ex c.h⟩
def ubx (c : Eight 8) : Eight 8 := ⟨lg c.a, ex c.b, ex c.c, lg c.d, lg c.e, ex c.f, ex c.g, lg c.h⟩
theorem boxes_eq (c : Eight 8) : boxes c = .ok (bx c) := by
  unfold boxes
  simp only [rd_e, rd_l, Out.bind_ok, Out.pure_eq]
  rfl
theorem unBoxes_eq (c : Eight 8) : unBoxes c = .ok (ubx c) := by
  unfold unBoxes
  simp only [rd_e, rd_l, Out.bind_ok, Out.pure_eq]
  rfl
theorem ubx_bx (c : Eight 8) : ubx (bx c) = c := by simp only [ubx, bx, lg_ex, ex_lg]
theorem bx_ubx (c : Eight 8) : bx (ubx c) = c := by simp only [ubx, bx, lg_ex, ex_lg]

theorem unMixA_mixA (k c : Eight 8) : unMixA k (mixA k c) = c := by
  simp only [unMixA, mixA, BitVec.add_sub_cancel, xor_cancel_right]
theorem mixA_unMixA (k c : Eight 8) : mixA k (unMixA k c) = c := by
  simp only [unMixA, mixA, BitVec.sub_add_cancel, xor_cancel_right]
theorem unMixB_mixB (k c : Eight 8) : unMixB k (mixB k c) = c := by
  simp only [unMixB, mixB, BitVec.add_sub_cancel, xor_cancel_right]
theorem mixB_unMixB (k c : Eight 8) : mixB k (unMixB k c) = c := by
  simp only [unMixB, mixB, BitVec.sub_add_cancel, xor_cancel_right]

theorem two (a : Byte) : 2 * a = a + a := by
  apply BitVec.eq_of_toNat_eq
  rw [BitVec.toNat_mul, BitVec.toNat_add, show (2 : Byte).toNat = 2 from rfl, Nat.two_mul]

theorem iht2_ht2 (a b : Byte) : iht2 (2 * a + b) (a + b) = (a, b) := by
  unfold iht2
  have h1 : 2 * a + b - (a + b) = a := by
    apply BitVec.eq_of_toNat_eq; simp only [two, BitVec.toNat_sub, BitVec.toNat_add]; omega
  have h2 : -(2 * a + b) + 2 * (a + b) = b := by
    apply BitVec.eq_of_toNat_eq; simp only [two, BitVec.toNat_neg, BitVec.toNat_add]; omega
  rw [h1, h2]
theorem ht2_iht2 (a b : Byte) : ht2 (a - b) (-a + 2 * b) = (a, b) := by
  unfold ht2
  have h1 : 2 * (a - b) + (-a + 2 * b) = a := by
    apply BitVec.eq_of_toNat_eq
    simp only [two, BitVec.toNat_sub, BitVec.toNat_neg, BitVec.toNat_add]; omega
  have h2 : a - b + (-a + 2 * b) = b := by
    apply BitVec.eq_of_toNat_eq
    simp only [two, BitVec.toNat_sub, BitVec.toNat_neg, BitVec.toNat_add]; omega
  rw [h1, h2]

theorem unMix_mix (c : Eight 8) : unMix (mix c) = c := by
  have h := iht2_ht2
  simp only [unMix, mix, ht2, h]
theorem mix_unMix (c : Eight 8) : mix (unMix c) = c := by
  have h := ht2_iht2
  simp only [unMix, mix, iht2, h]

/-! ## Blocks -/

theorem load_words (x : Eight 8) : load x.words = .ok x := rfl
theorem words_surj (b : Bytes) (h : b.length = 8) : ∃ x : Eight 8, x.words = b := by
  match b, h with
  | [a, b, c, d, e, f, g, h], _ => exact ⟨⟨a, b, c, d, e, f, g, h⟩, rfl⟩

def kk (K : List (W32 × W32)) (i : Nat) : Eight 8 := bytesOf (K.getD i (0, 0))
def stepE (K : List (W32 × W32)) (c : Eight 8) (r : Nat) : Eight 8 := mix (mixB (kk K (2 * r + 1)) (bx (mixA (kk K (2 * r)) c)))
def stepD (K : List (W32 × W32)) (c : Eight 8) (r : Nat) : Eight 8 :=
  unMixA (kk K (2 * r)) (ubx (unMixB (kk K (2 * r + 1)) (unMix c)))

theorem stepD_stepE (K : List (W32 × W32)) (c : Eight 8) (r : Nat) : stepD K (stepE K c r) r = c := by
  unfold stepD stepE
  rw [unMix_mix, unMixB_mixB, ubx_bx, unMixA_mixA]
theorem stepE_stepD (K : List (W32 × W32)) (c : Eight 8) (r : Nat) : stepE K (stepD K c r) r = c := by
  unfold stepD stepE
  rw [mixA_unMixA, bx_ubx, mixB_unMixB, mix_unMix]

theorem encBlock_eq (r : Nat) (K : List (W32 × W32)) (h : 2 * r < K.length) (x : Eight 8) :
    encBlock r K x.words = .ok (mixA (kk K (2 * r)) ((List.range' 0 r).foldl (stepE K) x)).words := by
  unfold encBlock
  rw [load_words, Out.bind_ok, forLoop_up0 (encStep K) (stepE K) r x (fun i s hi => by
    unfold encStep
    simp (disch := omega) only [rd_getD ((0, 0) : W32 × W32), Out.bind_ok, boxes_eq]
    rfl), Out.bind_ok, rd_getD (0, 0) h, Out.bind_ok]
  rfl

theorem decBlock_eq (r : Nat) (K : List (W32 × W32)) (h : 2 * r < K.length) (x : Eight 8) :
    decBlock r K x.words = .ok ((List.range' 0 r).reverse.foldl (stepD K) (unMixA (kk K (2 * r)) x)).words := by
  unfold decBlock
  rw [load_words, Out.bind_ok, rd_getD (0, 0) h, Out.bind_ok]
  have e : (fun j => decStep K (r - j)) = fun j => decStep K (r - j) := rfl
  have := forLoop_eq (fun j => decStep K (r - j)) (fun j s => stepD K s (r - 1 - j)) r 0 (unMixA (kk K (2 * r)) x) (fun i s _ hi => by
    unfold decStep
    rw [show 2 * (r - i) - 1 = 2 * (r - 1 - i) + 1 by omega, show 2 * (r - i) - 2 = 2 * (r - 1 - i) by omega]
    simp (disch := omega) only [rd_getD ((0, 0) : W32 × W32), Out.bind_ok, unBoxes_eq]
    rfl)
  rw [foldl_down0] at this
  show ((forLoop (fun j => decStep K (r - j)) r 0 (unMixA (kk K (2 * r)) x)).bind fun c => _) = _
  rw [this]
  rfl

/-! ## The key schedule -/

theorem rol3_rot (x : Byte) (n : Nat) : rol3 (x.rotateLeft n) = x.rotateLeft (n + 3) := by
  have h : ∀ n : Fin 8, ∀ x : Byte, rol3 (x.rotateLeft n.val) = x.rotateLeft (n.val + 3) := by
    intro n
    refine forall_byte ?_
    revert n
    decide +kernel
  have e : ∀ m, x.rotateLeft m = x.rotateLeft (m % 8) := fun m => by
    simp only [BitVec.rotateLeft, Nat.mod_mod]
  have := h ⟨n % 8, Nat.mod_lt _ (by decide)⟩ x
  simp only at this
  rw [e n, this, e (n % 8 + 3), e (n + 3), Nat.mod_add_mod]

theorem byteOf_word (a b c d : Byte) :
    byteOf (word a b c d) 0 = a ∧ byteOf (word a b c d) 1 = b ∧ byteOf (word a b c d) 2 = c ∧ byteOf (word a b c d) 3 = d := by
  unfold byteOf word
  refine ⟨?_, ?_, ?_, ?_⟩ <;>
    (apply BitVec.eq_of_getLsbD_eq; intro i hi; interval_cases i <;> simp)

theorem bytesOf_word (x : Eight 8) : bytesOf (word x.a x.b x.c x.d, word x.e x.f x.g x.h) = x := by
  obtain ⟨h0, h1, h2, h3⟩ := byteOf_word x.a x.b x.c x.d
  obtain ⟨h4, h5, h6, h7⟩ := byteOf_word x.e x.f x.g x.h
  unfold bytesOf
  simp only [h0, h1, h2, h3, h4, h5, h6, h7]

theorem cByte_eq : ∀ i : Fin 26, ∀ k : Fin 9, cByte i.val k.val = .ok ((bias (i.val + 2) k.val).setWidth 32) := by decide +kernel
theorem cByte_eq' (i k : Nat) (hi : i < 26) (hk : k < 9) : cByte i k = .ok ((bias (i + 2) k).setWidth 32) := cByte_eq ⟨i, hi⟩ ⟨k, hk⟩

/-- The eight biases. -/
def biases (i : Nat) : Eight 8 := ⟨bias i 1, bias i 2, bias i 3, bias i 4, bias i 5, bias i 6, bias i 7, bias i 8⟩

theorem cword (a b c d : Byte) :
    ((a.setWidth 32 <<< 8 ||| b.setWidth 32) <<< 8 ||| c.setWidth 32) <<< 8 ||| d.setWidth 32 = word a b c d := by
  unfold word
  apply BitVec.eq_of_getLsbD_eq; intro i hi; interval_cases i <;> simp

theorem cStep_eq (i : Nat) (hi : i < 26) (c : List (W32 × W32)) (hc : c.length = 1600) :
    cStep i c = .ok (c.set i (word (bias (i + 2) 1) (bias (i + 2) 2) (bias (i + 2) 3) (bias (i + 2) 4),
      word (bias (i + 2) 5) (bias (i + 2) 6) (bias (i + 2) 7) (bias (i + 2) 8))) := by
  unfold cStep
  simp (disch := omega) only [cByte_eq', Out.bind_ok, cword]
  exact wr_of_lt (by omega)

theorem getD_set {α : Type} (l : List α) (i j : Nat) (x d : α) (h : i < l.length) : (l.set i x).getD j d = if i = j then x else l.getD j d := by
  rw [List.getD_eq_getElem?_getD, List.getD_eq_getElem?_getD, List.getElem?_set]
  split
  · rename_i hij
    subst hij
    simp
  · rfl

theorem c_run (n : Nat) (hn : n ≤ 26) (c : List (W32 × W32)) (hc : c.length = 1600) :
    ∃ c', forLoop cStep n 0 c = .ok c' ∧ c'.length = 1600 ∧ ∀ j, j < n → kk c' j = biases (j + 2) := by
  obtain ⟨c', h1, h2, h3⟩ := forLoop_inv cStep (fun i c => c.length = 1600 ∧ ∀ j, j < i → kk c j = biases (j + 2)) n 0 c
    (fun i c _ hi ⟨hl, hv⟩ => by
      refine ⟨_, cStep_eq i (by omega) c hl, by rw [List.length_set]; exact hl, fun j hj => ?_⟩
      unfold kk
      rw [getD_set _ _ _ _ _ (by omega)]
      split
      · rename_i hij
        subst hij
        exact bytesOf_word (biases (i + 2))
      · exact hv j (by omega)) ⟨hc, fun j hj => absurd hj (Nat.not_lt_zero _)⟩
  rw [Nat.zero_add] at h3
  exact ⟨c', h1, h2, h3⟩

/-- The bytes of the key, rotated. -/
def rot (k : Eight 8) (n : Nat) : Eight 8 :=
  ⟨k.a.rotateLeft n, k.b.rotateLeft n, k.c.rotateLeft n, k.d.rotateLeft n, k.e.rotateLeft n, k.f.rotateLeft n, k.g.rotateLeft n,
    k.h.rotateLeft n⟩

theorem kStep_eq (c : List (W32 × W32)) (i : Nat) (k : Eight 8) (s : List (W32 × W32) × (W32 × W32)) (hi : 1 ≤ i) (hc : i ≤ c.length)
    (hs : i < s.1.length) (h2 : bytesOf s.2 = rot k (3 * (i - 1))) (hb : kk c (i - 1) = biases (i + 1)) :
    ∃ s', kStep c i s = .ok s' ∧ bytesOf s'.2 = rot k (3 * i) ∧ ∃ v, s'.1 = s.1.set i v ∧ bytesOf v = subkey k i := by
  obtain ⟨i, rfl⟩ : ∃ j, i = j + 1 := ⟨i - 1, by omega⟩
  rw [Nat.add_sub_cancel] at h2 hb
  unfold kStep
  rw [Nat.add_sub_cancel, rd_getD (0, 0) (by omega), Out.bind_ok]
  change bytesOf (c.getD i (0, 0)) = _ at hb
  simp only [h2, hb]
  rw [wr_of_lt hs, Out.bind_ok]
  refine ⟨_, rfl, ?_, _, rfl, ?_⟩
  · simp only [rot, rol3_rot, show 3 * i + 3 = 3 * (i + 1) by omega]
    exact bytesOf_word (rot k (3 * (i + 1)))
  · simp only [rot, rol3_rot, show 3 * i + 3 = 3 * (i + 1) by omega, biases]
    have := bytesOf_word (subkey k (i + 1))
    simp only [subkey] at this ⊢
    simp only [BitVec.add_comm (bias _ _)]
    exact this

theorem makeKey_run (r : Nat) (hr : r ≤ 13) (key : Bytes) (k : Eight 8)
    (hk : bytesOf ((ldUserKey 4 2 key).getD 0 0, (ldUserKey 4 2 key).getD 1 0) = k) :
    ∃ K, makeKey r key = .ok K ∧ K.length = 1600 ∧ ∀ i, i ≤ 2 * r → kk K i = subkey k i := by
  have hl : (ldUserKey 4 2 key).length = 2 := length_ldUserKey 4 2 key
  unfold makeKey
  simp only [rd_getD (0 : W32) (show 0 < (ldUserKey 4 2 key).length by omega), rd_getD (0 : W32) (show 1 < (ldUserKey 4 2 key).length by omega),
    Out.bind_ok]
  have hz : (List.replicate 1600 ((0, 0) : W32 × W32)).length = 1600 := List.length_replicate
  generalize List.replicate 1600 ((0, 0) : W32 × W32) = z at hz
  rw [wr_of_lt (by omega), Out.bind_ok]
  obtain ⟨c, e1, hc, hv⟩ := c_run (2 * r) (by omega) z hz
  rw [e1, Out.bind_ok]
  obtain ⟨s, e2, h1, h2, h3⟩ := forLoop_inv (kStep c)
    (fun i s => s.1.length = 1600 ∧ bytesOf s.2 = rot k (3 * (i - 1)) ∧ ∀ j, j < i → kk s.1 j = subkey k j) (2 * r) 1
    (z.set 0 ((ldUserKey 4 2 key).getD 0 0, (ldUserKey 4 2 key).getD 1 0), ((ldUserKey 4 2 key).getD 0 0, (ldUserKey 4 2 key).getD 1 0))
    (fun i s hi hi2 ⟨hl, h2, hv2⟩ => by
      obtain ⟨s', e, hs, v, hv', hb⟩ := kStep_eq c i k s hi (by omega) (by omega) h2 (by rw [hv _ (by omega)]; congr 1; omega)
      refine ⟨s', e, by rw [hv', List.length_set]; exact hl, by rw [hs, Nat.add_sub_cancel], fun j hj => ?_⟩
      rw [hv']
      unfold kk
      rw [getD_set _ _ _ _ _ (by omega)]
      split
      · rename_i hij
        rw [hb, hij]
      · exact hv2 j (by omega))
    ⟨by rw [List.length_set]; exact hz, by
      rw [hk]
      simp only [rot, show ∀ x : Byte, x.rotateLeft (3 * (1 - 1)) = x from fun x => by
        apply BitVec.eq_of_getLsbD_eq; intro i hi; rw [BitVec.getLsbD_rotateLeft]; simp [hi]], fun j hj => by
      obtain rfl : j = 0 := by omega
      unfold kk
      rw [getD_set _ _ _ _ _ (by omega), if_pos rfl, hk]
      rfl⟩
  exact ⟨s.1, by rw [e2]; rfl, h1, fun i hi => h3 i (by omega)⟩

/-- C29 for SAFER K-64, up to 13 rounds. -/
theorem saferk64_invertible_partial (r : Nat) (hr : r ≤ 13) (key : Bytes) : Invertible 8 (enc r key) (dec r key) := by
  obtain ⟨K, e, l, _⟩ := makeKey_run r hr key _ rfl
  refine Invertible.ofState Eight.words words_surj (fun x => rfl) (fun x => mixA (kk K (2 * r)) ((List.range' 0 r).foldl (stepE K) x))
    (fun x => (List.range' 0 r).reverse.foldl (stepD K) (unMixA (kk K (2 * r)) x)) (fun x => ?_) (fun x => ?_) (fun x => ?_) (fun x => ?_)
  · unfold enc; rw [e, Out.bind_ok, encBlock_eq r K (by omega)]
  · unfold dec; rw [e, Out.bind_ok, decBlock_eq r K (by omega)]
  · simp only [unMixA_mixA]
    exact foldl_undo _ _ (stepD_stepE K) _ _
  · simp only [foldl_undo' _ _ (stepE_stepD K), mixA_unMixA]

/-- The publication. -/
theorem rounds_eq (K : List (W32 × W32)) (k : Eight 8) : ∀ (r : Nat) (x : Eight 8), (∀ i, i ≤ 2 * r → kk K i = subkey k i) →
    rounds k r x = some ((List.range' 0 r).foldl (stepE K) x)
  | 0, _, _ => rfl
  | r + 1, x, h => by
    rw [rounds, rounds_eq K k r x (fun i hi => h i (by omega)), List.range'_1_concat, List.foldl_append]
    show round k r _ = some (stepE K _ (0 + r))
    rw [Nat.zero_add]
    unfold round nonlinear stepE
    simp only [log_eq, ← ex_eq, ← h (2 * r) (by omega), ← h (2 * r + 1) (by omega)]
    rfl

/-- C79: encryption is the published one, with the first eight bytes of the key, filled up with zeros when the last word is complete or half
full. -/
theorem saferk64_standard_partial (r : Nat) (hr : r ≤ 13) (key : Bytes) (h : 8 ≤ key.length ∨ key.length % 2 = 0) (k x : Eight 8)
    (hk : zeroPad 8 key = k.words) : ∃ y, Spec.Safer.encrypt r k x = some y ∧ enc r key x.words = .ok y.words := by
  have hw : ldUserKey 4 2 key = Spec.MD.beWords 32 4 (zeroPad 8 key) := ldUserKey_padded_partial 4 2 (by decide) key (by omega)
  obtain ⟨K, e, l, hK⟩ := makeKey_run r hr key k (by
    have hb : ∀ a b c d : Byte, BitVec.ofNat 32 (Spec.MD.beNat [a, b, c, d]) = word a b c d := by
      intro a b c d
      have : Spec.MD.beNat [a, b, c, d] = (be32 a b c d).toNat := by
        rw [be32_toNat]
        simp only [Spec.MD.beNat, List.foldl_cons, List.foldl_nil]
        omega
      rw [this, BitVec.ofNat_toNat, BitVec.setWidth_eq]
      rfl
    have hq : Spec.MD.beWords 32 4 k.words = [word k.a k.b k.c k.d, word k.e k.f k.g k.h] := by
      rw [show k.words = [k.a, k.b, k.c, k.d] ++ ([k.e, k.f, k.g, k.h] ++ []) from rfl, Spec.MD.beWords,
        Hash.chunks_append 4 (by decide) _ _ rfl, Hash.chunks_append 4 (by decide) _ _ rfl, Hash.chunks_nil]
      simp only [List.map_cons, List.map_nil, hb]
    rw [hw, hk, hq]
    exact bytesOf_word k)
  refine ⟨mixA (kk K (2 * r)) ((List.range' 0 r).foldl (stepE K) x), ?_, ?_⟩
  · unfold encrypt
    rw [rounds_eq K k r x hK, hK _ (Nat.le_refl _)]
    rfl
  · unfold enc; rw [e, Out.bind_ok, encBlock_eq r K (by omega)]

/-! ## More rounds -/

/-- The accepted numbers of rounds are 1 to 800. -/
theorem roundsOk_iff (r : BitVec 32) : roundsOk r = true ↔ 1 ≤ r.toInt ∧ r.toInt ≤ 800 := by
  unfold roundsOk
  have h1 := BitVec.toInt_eq_toNat_bmod r
  have hr := r.isLt
  have h2 : (r.signExtend 64).toNat = if r.toNat < 2 ^ 31 then r.toNat else r.toNat + (2 ^ 64 - 2 ^ 32) := by
    rw [BitVec.toNat_signExtend]
    by_cases h : r.toNat < 2 ^ 31
    · have : r.msb = false := by rw [BitVec.msb_eq_false_iff_two_mul_lt]; omega
      rw [this, if_pos h]; simp [BitVec.toNat_setWidth]; omega
    · have : r.msb = true := by rw [BitVec.msb_eq_true_iff_two_mul_ge]; omega
      rw [this, if_neg h]; simp [BitVec.toNat_setWidth]; omega
  simp only [h2, Bool.not_eq_true', Bool.or_eq_false_iff, decide_eq_false_iff_not, BitVec.toInt_eq_toNat_cond]
  split <;> split <;> omega

theorem forLoop_ub {σ : Type} (body : Nat → σ → Out σ) (k : Nat) (h : ∀ s, body k s = .ub) : ∀ (n t : Nat) (s : σ), t ≤ k → k < t + n →
    forLoop body n t s = .ub
  | 0, t, s, h1, h2 => by omega
  | n + 1, t, s, h1, h2 => by
    rw [forLoop]
    rcases Nat.eq_or_lt_of_le h1 with rfl | h3
    · rw [h]; rfl
    · cases body t s with
      | ub => rfl
      | ok s' => exact forLoop_ub body k h n (t + 1) s' (by omega) (by omega)

theorem cStep_26 (c : List (W32 × W32)) : cStep 26 c = .ub := by
  have h4 : cByte 26 4 = .ub := by decide +kernel
  have h1 : ∃ v, cByte 26 1 = .ok v := ⟨_, (by decide +kernel : cByte 26 1 = .ok ((bias 28 1).setWidth 32))⟩
  have h2 : ∃ v, cByte 26 2 = .ok v := ⟨_, (by decide +kernel : cByte 26 2 = .ok ((bias 28 2).setWidth 32))⟩
  have h3 : ∃ v, cByte 26 3 = .ok v := ⟨_, (by decide +kernel : cByte 26 3 = .ok ((bias 28 3).setWidth 32))⟩
  obtain ⟨v1, h1⟩ := h1
  obtain ⟨v2, h2⟩ := h2
  obtain ⟨v3, h3⟩ := h3
  unfold cStep
  rw [h1, Out.bind_ok, h2, Out.bind_ok, h3, Out.bind_ok, h4]
  rfl

/-- C29 fails for 14 and more rounds, which are accepted: whatever the key and the block, the schedule reads past the end of the table of
powers. -/
theorem saferk64_undefined (r : Nat) (hr : 14 ≤ r) (key block : Bytes) : enc r key block = .ub ∧ dec r key block = .ub := by
  have h : makeKey r key = .ub := by
    have hl : (ldUserKey 4 2 key).length = 2 := length_ldUserKey 4 2 key
    unfold makeKey
    simp only [rd_getD (0 : W32) (show 0 < (ldUserKey 4 2 key).length by omega),
      rd_getD (0 : W32) (show 1 < (ldUserKey 4 2 key).length by omega), Out.bind_ok]
    have hz : (List.replicate 1600 ((0, 0) : W32 × W32)).length = 1600 := List.length_replicate
    generalize List.replicate 1600 ((0, 0) : W32 × W32) = z at hz
    rw [wr_of_lt (by omega), Out.bind_ok, forLoop_ub cStep 26 cStep_26 _ _ _ (by omega) (by omega)]
    rfl
  unfold enc dec
  rw [h]
  exact ⟨rfl, rfl⟩

/-- A published vector with six rounds (src/tests/saferk64_test_vector.h:25-30); the number of rounds is accepted, as is 14. -/
example : enc 6 [8, 7, 6, 5, 4, 3, 2, 1] [1, 2, 3, 4, 5, 6, 7, 8] = .ok [0xC8, 0xF2, 0x9C, 0xDD, 0x87, 0x78, 0x3E, 0xD9] ∧
    dec 6 [8, 7, 6, 5, 4, 3, 2, 1] [0xC8, 0xF2, 0x9C, 0xDD, 0x87, 0x78, 0x3E, 0xD9] = .ok [1, 2, 3, 4, 5, 6, 7, 8] ∧
    zeroPad 8 [8, 7, 6, 5, 4, 3, 2, 1] = Eight.words ⟨8, 7, 6, 5, 4, 3, 2, 1⟩ ∧ roundsOk 6#32 = true ∧ roundsOk 14#32 = true := by
  decide +kernel

end Kryptos.Safer
