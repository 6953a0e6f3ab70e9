import Verif.Props.Misty1
import Verif.Props.Rc2Rfc
import Verif.Spec.Misty1
/-
  MISTY1 is the cipher of RFC 2994.
-/
namespace Kryptos.Misty1
open Block KeyLoad Spec.MD

/-- The tables. -/
theorem rd_S9 (x : BitVec 9) : rd S9 x.toNat = .ok ((Spec.Misty1.S9 x).setWidth 16) := by
  have ht : S9 = Spec.Misty1.T9.map (fun v => v.setWidth 16) := by decide +kernel
  have hl : Spec.Misty1.T9.length = 512 := by decide +kernel
  have hx : x.toNat < Spec.Misty1.T9.length := by have := x.isLt; omega
  unfold Spec.Misty1.S9
  rw [ht, rd_getD 0 (by rw [List.length_map]; exact hx), List.getD_eq_getElem?_getD, List.getElem?_map, List.getElem?_eq_getElem hx,
    List.getD_eq_getElem?_getD, List.getElem?_eq_getElem hx]
  rfl
theorem rd_S7 (x : BitVec 7) : rd S7 x.toNat = .ok ((Spec.Misty1.S7 x).setWidth 8) := by
  have ht : S7 = Spec.Misty1.T7.map (fun v => v.setWidth 8) := by decide +kernel
  have hl : Spec.Misty1.T7.length = 128 := by decide +kernel
  have hx : x.toNat < Spec.Misty1.T7.length := by have := x.isLt; omega
  unfold Spec.Misty1.S7
  rw [ht, rd_getD 0 (by rw [List.length_map]; exact hx), List.getD_eq_getElem?_getD, List.getElem?_map, List.getElem?_eq_getElem hx,
    List.getD_eq_getElem?_getD, List.getElem?_eq_getElem hx]
  rfl

theorem low9 (x : W16) : x &&& 0x1FF#16 = (x.extractLsb' 0 9).setWidth 16 := by
  apply BitVec.eq_of_getLsbD_eq; intro i hi; interval_cases i <;> simp
theorem low7 (x : W16) : (x &&& 0x7F#16).setWidth 8 = (x.extractLsb' 0 7).setWidth 8 := by
  apply BitVec.eq_of_getLsbD_eq; intro i hi; interval_cases i <;> simp
theorem high9 (x : W16) : (x >>> 7) &&& 0x1FF#16 = (x.extractLsb' 7 9).setWidth 16 := by
  apply BitVec.eq_of_getLsbD_eq; intro i hi; interval_cases i <;> simp
theorem wide9 (x : BitVec 9) : (x.setWidth 16).toNat = x.toNat := by
  rw [BitVec.toNat_setWidth]; have := x.isLt; omega
theorem wide7 (x : BitVec 7) : (x.setWidth 8).toNat = x.toNat := by
  rw [BitVec.toNat_setWidth]; have := x.isLt; omega
theorem mixA (a : BitVec 9) (b : BitVec 7) : a.setWidth 16 ^^^ (b.setWidth 8).setWidth 16 = (a ^^^ b.setWidth 9).setWidth 16 := by
  apply BitVec.eq_of_getLsbD_eq; intro i hi; interval_cases i <;> simp
theorem mixB (a : BitVec 9) (b : BitVec 7) :
    (((b.setWidth 8).setWidth 16 ^^^ a.setWidth 16) &&& 0x7F#16).setWidth 8 = (b ^^^ a.setWidth 7).setWidth 8 := by
  apply BitVec.eq_of_getLsbD_eq; intro i hi; interval_cases i <;> simp
theorem mixC (b : BitVec 7) (k : W16) : ((b.setWidth 8).setWidth 16 ^^^ (k >>> 9)).setWidth 8 = (b ^^^ k.extractLsb' 9 7).setWidth 8 := by
  apply BitVec.eq_of_getLsbD_eq; intro i hi; interval_cases i <;> simp
theorem mixD (a b : BitVec 9) : a.setWidth 16 ^^^ b.setWidth 16 = (a ^^^ b).setWidth 16 := by
  apply BitVec.eq_of_getLsbD_eq; intro i hi; interval_cases i <;> simp
theorem mixE (a : BitVec 9) (b : BitVec 7) : ((b.setWidth 8).setWidth 16 <<< 9) ||| a.setWidth 16 = (b ++ a : W16) := by
  apply BitVec.eq_of_getLsbD_eq; intro i hi; 
  rw [show (b ++ a : W16).getLsbD i = (b ++ a : BitVec (7 + 9)).getLsbD i from rfl, BitVec.getLsbD_append]
  interval_cases i <;> simp

theorem FI_eq (i k : W16) : FI i k = .ok (Spec.Misty1.FI i k) := by
  unfold FI Spec.Misty1.FI
  simp only [high9 i, low7 i, low9 k, wide9, wide7, rd_S9, rd_S7, Out.bind_ok, mixA, mixB, mixC, mixD, mixE, Out.pure_eq]

/-- The subkeys: `EK` holds the words of the key and their images. -/
structure Keys (EK : List W16) (key : Bytes) : Prop where
  len : EK.length = 32
  k : ∀ j, EK.getD (j % 8) 0 = Spec.Misty1.K key (j + 1)
  k' : ∀ j, EK.getD (j % 8 + 8) 0 = Spec.Misty1.K' key (j + 1)

theorem K_mod (key : Bytes) (j : Nat) : Spec.Misty1.K key (j % 8 + 1) = Spec.Misty1.K key (j + 1) := by
  unfold Spec.Misty1.K; rw [Nat.add_sub_cancel, Nat.add_sub_cancel, Nat.mod_mod]
theorem K'_mod (key : Bytes) (j : Nat) : Spec.Misty1.K' key (j % 8 + 1) = Spec.Misty1.K' key (j + 1) := by
  unfold Spec.Misty1.K'
  rw [K_mod, ← K_mod key (j % 8 + 1), ← K_mod key (j + 1), Nat.mod_add_mod]

theorem getD_set (l : List W16) (i j : Nat) (x : W16) (h : i < l.length) : (l.set i x).getD j 0 = if j = i then x else l.getD j 0 := by
  rw [List.getD_eq_getElem?_getD, List.getElem?_set, List.getD_eq_getElem?_getD]
  by_cases e : j = i
  · subst e; simp [h]
  · rw [if_neg (Ne.symm e), if_neg e]

theorem sched_eq (key : Bytes) : ∃ EK, sched key = .ok EK ∧ Keys EK (zeroPad 16 key) := by
  have hw := ldUserKey_padded_partial 2 8 (by decide) key (by omega)
  have hl : (ldUserKey 2 8 key).length = 8 := length_ldUserKey 2 8 key
  unfold sched
  obtain ⟨s, e, h32, hk, hk'⟩ := forLoop_inv chunk (fun i s => s.length = 32 ∧
      (∀ j < 8, s.getD j 0 = Spec.Misty1.K (zeroPad 16 key) (j + 1)) ∧ ∀ j < i, s.getD (j + 8) 0 = Spec.Misty1.K' (zeroPad 16 key) (j + 1))
    8 0 (ldUserKey 2 8 key ++ List.replicate 24 0) (fun i s h1 h2 ⟨h32, hk, hk'⟩ => by
      unfold chunk
      rw [rd_getD 0 (by omega), rd_getD 0 (by omega), Out.bind_ok, Out.bind_ok, FI_eq, Out.bind_ok, wr_of_lt (by omega), Out.bind_ok,
        rd_getD 0 (by rw [List.length_set]; omega), Out.bind_ok, wr_of_lt (by rw [List.length_set]; omega), Out.bind_ok,
        rd_getD 0 (by simp only [List.length_set]; omega), Out.bind_ok, wr_of_lt (by simp only [List.length_set]; omega)]
      refine ⟨_, rfl, by simp only [List.length_set]; exact h32, fun j hj => ?_, fun j hj => ?_⟩
      · rw [getD_set _ _ _ _ (by simp only [List.length_set]; omega), if_neg (by omega),
          getD_set _ _ _ _ (by simp only [List.length_set]; omega), if_neg (by omega), getD_set _ _ _ _ (by omega), if_neg (by omega)]
        exact hk j hj
      · rw [getD_set _ _ _ _ (by simp only [List.length_set]; omega), if_neg (by omega),
          getD_set _ _ _ _ (by simp only [List.length_set]; omega), if_neg (by omega), getD_set _ _ _ _ (by omega)]
        by_cases c : j = i
        · subst c
          rw [if_pos rfl, hk j (by omega), hk ((j + 1) % 8) (Nat.mod_lt _ (by decide)), K_mod]
          rfl
        · rw [if_neg (by omega)]
          exact hk' j (by omega))
    ⟨by simp [hl], fun j hj => by
      rw [List.getD_eq_getElem?_getD, List.getElem?_append_left (by omega), hw]
      unfold Spec.Misty1.K
      rw [Nat.add_sub_cancel, Nat.mod_eq_of_lt hj, List.getD_eq_getElem?_getD], fun j hj => by omega⟩
  refine ⟨s, e, h32, fun j => ?_, fun j => ?_⟩
  · rw [hk _ (Nat.mod_lt _ (by decide)), K_mod]
  · rw [hk' _ (Nat.mod_lt _ (by decide)), K'_mod]

/-- A word as two halves. -/
def halves (w : W32) : W16 × W16 := (hi w, lo w)
theorem halves_join (a b : W16) : halves (join a b) = (a, b) := by unfold halves; rw [hi_join, lo_join]
theorem halves_xor (v w : W32) : halves (v ^^^ w) = Spec.Misty1.xor (halves v) (halves w) := by
  unfold halves Spec.Misty1.xor hi lo
  refine Prod.ext ?_ ?_ <;>
  · apply BitVec.eq_of_getLsbD_eq; intro i hi; interval_cases i <;> simp

theorem rdk {EK : List W16} {key : Bytes} (h : Keys EK key) (j : Nat) : rd EK (j % 8) = .ok (Spec.Misty1.K key (j + 1)) := by
  rw [rd_getD 0 (by rw [h.len]; omega), h.k]
theorem rdk' {EK : List W16} {key : Bytes} (h : Keys EK key) (j : Nat) : rd EK (j % 8 + 8) = .ok (Spec.Misty1.K' key (j + 1)) := by
  rw [rd_getD 0 (by rw [h.len]; omega), h.k']

theorem FO_eq {EK : List W16} {key : Bytes} (h : Keys EK key) (w : W32) (k : Nat) (hk : k < 8) :
    ∃ v, FO EK w k = .ok v ∧ halves v = Spec.Misty1.FO key (k + 1) (halves w) := by
  have e0 : rd EK k = .ok (Spec.Misty1.K key (k + 1)) := by have := rdk h k; rwa [Nat.mod_eq_of_lt hk] at this
  unfold FO
  simp only [e0, rdk h, rdk' h, FI_eq, Out.bind_ok, Out.pure_eq]
  refine ⟨_, rfl, ?_⟩
  rw [halves_join]
  unfold Spec.Misty1.FO halves
  simp only []

theorem kAnd_eq {EK : List W16} {key : Bytes} (h : Keys EK key) (k : Nat) (hk : k < 10) : kAnd EK k = .ok (Spec.Misty1.KL1 key (k + 1)) := by
  unfold kAnd Spec.Misty1.KL1
  by_cases c : k % 2 = 0
  · rw [if_pos c, if_pos (by omega)]
    have := rdk h (k / 2)
    rw [Nat.mod_eq_of_lt (by omega)] at this
    rw [this, show (k + 1 + 1) / 2 = k / 2 + 1 by omega]
  · rw [if_neg c, if_neg (by omega), rdk' h, show (k - 1) / 2 + 2 + 1 = (k + 1) / 2 + 2 by omega]
theorem kOr_eq {EK : List W16} {key : Bytes} (h : Keys EK key) (k : Nat) : kOr EK k = .ok (Spec.Misty1.KL2 key (k + 1)) := by
  unfold kOr Spec.Misty1.KL2
  by_cases c : k % 2 = 0
  · rw [if_pos c, if_pos (by omega), rdk' h, show k / 2 + 6 + 1 = (k + 1 + 1) / 2 + 6 by omega]
  · rw [if_neg c, if_neg (by omega), rdk h, show (k - 1) / 2 + 4 + 1 = (k + 1) / 2 + 4 by omega]

theorem FL_eq {EK : List W16} {key : Bytes} (h : Keys EK key) (w : W32) (k : Nat) (hk : k < 10) :
    ∃ v, FL EK w k = .ok v ∧ halves v = Spec.Misty1.FL key (k + 1) (halves w) := by
  unfold FL
  simp only [kAnd_eq h k hk, kOr_eq h, Out.bind_ok, Out.pure_eq]
  exact ⟨_, rfl, by rw [halves_join]; rfl⟩

def H (D : W32 × W32) : (W16 × W16) × (W16 × W16) := (halves D.1, halves D.2)

theorem encStep_spec {EK : List W16} {key : Bytes} (h : Keys EK key) (j : Nat) (hj : j < 4) (D : W32 × W32) :
    ∃ D', encStep EK j D = .ok D' ∧ H D' = Spec.Misty1.rounds key (H D) (2 * j + 1) := by
  obtain ⟨a, ea, ha⟩ := FL_eq h D.1 (2 * j) (by omega)
  obtain ⟨b, eb, hb⟩ := FL_eq h D.2 (2 * j + 1) (by omega)
  obtain ⟨c, ec, hc⟩ := FO_eq h a (2 * j) (by omega)
  obtain ⟨d, ed, hd⟩ := FO_eq h (b ^^^ c) (2 * j + 1) (by omega)
  unfold encStep
  simp only [ea, eb, ec, ed, Out.bind_ok, Out.pure_eq]
  refine ⟨_, rfl, ?_⟩
  unfold H Spec.Misty1.rounds
  simp only [halves_xor, hd, hc, hb, ha]

theorem beWords_halves (w : W32) (t : Bytes) : beWords 16 2 (putBe32 w ++ t) = hi w :: lo w :: beWords 16 2 t := by
  have e : putBe32 w ++ t = putBe16 (hi w) ++ (putBe16 (lo w) ++ t) := by
    have : putBe32 w = putBe16 (hi w) ++ putBe16 (lo w) := by
      unfold putBe32 putBe16 hi lo
      simp only [List.cons_append, List.nil_append, List.cons.injEq, and_true]
      refine ⟨?_, ?_, ?_, ?_⟩ <;>
      · apply BitVec.eq_of_getLsbD_eq; intro i hi; interval_cases i <;> simp
    rw [this, List.append_assoc]
  rw [e, Rc2.beWords_putBe16, Rc2.beWords_putBe16]

theorem be2_eq (v : W16) : be 2 v.toNat = putBe16 v := by
  obtain ⟨a, b, h1, h2⟩ := be16_putBe16 v
  rw [h1, ← h2, be16_toNat]
  have := a.isLt; have := b.isLt
  unfold be
  refine congrArg₂ (fun a b => [a, b]) ?_ ?_ <;>
  · apply BitVec.eq_of_toNat_eq
    rw [BitVec.toNat_ofNat]
    simp only [Nat.pow_zero, Nat.pow_one]
    omega

theorem putBe32_halves (w : W32) : putBe32 w = be 2 (halves w).1.toNat ++ be 2 (halves w).2.toNat := by
  rw [be2_eq, be2_eq]
  unfold putBe32 putBe16 halves hi lo
  simp only [List.cons_append, List.nil_append, List.cons.injEq, and_true]
  refine ⟨?_, ?_, ?_, ?_⟩ <;>
  · apply BitVec.eq_of_getLsbD_eq; intro i hi; interval_cases i <;> simp

/-- C112: with every key of up to 16 bytes, completed by zeros (of a longer one the first 16 bytes), the block function is the
encryption of RFC 2994. -/
theorem misty1_rfc2994 (key block : Bytes) (hb : block.length = 8) :
    enc key block = .ok (Spec.Misty1.encrypt (zeroPad 16 key) block) := by
  obtain ⟨EK, e, h⟩ := sched_eq key
  obtain ⟨D, rfl⟩ := be2_surj block hb
  unfold enc
  rw [e, Out.bind_ok]
  unfold encBlock
  have g0 : getBe32 (be2 D) 0 = .ok D.1 := by unfold be2; rw [getBe32_0]
  have g4 : getBe32 (be2 D) 4 = .ok D.2 := by unfold be2; rw [getBe32_4']
  rw [g0, g4, Out.bind_ok, Out.bind_ok]
  obtain ⟨D0, e0, h0⟩ := encStep_spec h 0 (by decide) D
  obtain ⟨D1, e1, h1⟩ := encStep_spec h 1 (by decide) D0
  obtain ⟨D2, e2, h2⟩ := encStep_spec h 2 (by decide) D1
  obtain ⟨D3, e3, h3⟩ := encStep_spec h 3 (by decide) D2
  have hf : forLoop (encStep EK) 4 0 (D.1, D.2) = .ok D3 := by
    simp only [forLoop, e0, e1, e2, e3, Out.bind_ok]
  obtain ⟨a, ea, ha⟩ := FL_eq h D3.1 8 (by decide)
  obtain ⟨b, eb, hb'⟩ := FL_eq h D3.2 9 (by decide)
  rw [hf, Out.bind_ok, ea, Out.bind_ok, eb, Out.bind_ok, Out.pure_eq]
  refine congrArg Out.ok ?_
  have hw : beWords 16 2 (be2 D) = [hi D.1, lo D.1, hi D.2, lo D.2] := by
    unfold be2
    rw [beWords_halves, ← List.append_nil (putBe32 D.2), beWords_halves]
    rfl
  unfold Spec.Misty1.encrypt
  simp only [hw]
  have hr : [1, 3, 5, 7].foldl (Spec.Misty1.rounds (zeroPad 16 key)) ((hi D.1, lo D.1), (hi D.2, lo D.2)) = H D3 := by
    rw [h3, h2, h1, h0]; rfl
  simp only [List.getD_cons_zero, List.getD_cons_succ]
  rw [hr, putBe32_halves, putBe32_halves, ha, hb']
  simp only [List.flatMap_cons, List.flatMap_nil, List.append_nil, List.append_assoc]
  rfl

/-- Decryption is its inverse. -/
theorem misty1_rfc2994_decrypt (key block : Bytes) (hb : block.length = 8) :
    dec key (Spec.Misty1.encrypt (zeroPad 16 key) block) = .ok block := by
  obtain ⟨c, e, -, d⟩ := (misty1_invertible key).dec_enc block hb
  rw [misty1_rfc2994 key block hb] at e
  rw [Out.ok.inj e, d]

/-- The second block of the test vector of RFC 2994. -/
example : Spec.Misty1.encrypt [0x00, 0x11, 0x22, 0x33, 0x44, 0x55, 0x66, 0x77, 0x88, 0x99, 0xAA, 0xBB, 0xCC, 0xDD, 0xEE, 0xFF]
    [0xFE, 0xDC, 0xBA, 0x98, 0x76, 0x54, 0x32, 0x10] = [0x04, 0xB6, 0x82, 0x40, 0xB1, 0x3B, 0xE9, 0x5D] := by decide +kernel

end Kryptos.Misty1
