import Verif.Props.Feal
import Verif.Lemmas.KeyWords
import Verif.Spec.Feal
/-
  FEAL is the published cipher for every number of rounds.
-/
namespace Kryptos.Feal
open Block KeyLoad Spec.Feal

/-- The word of a row and of a subkey. -/
def wd (a : Four 8) : W32 := word a.a a.b a.c a.d
def w2 (b : Byte × Byte) : W16 := b.1.setWidth 16 <<< 8 ||| b.2.setWidth 16

theorem byte32_0 (a b c d : Byte) : byte32 (word a b c d) 0 = a := by
  unfold byte32 word; apply BitVec.eq_of_getLsbD_eq; intro i hi; interval_cases i <;> simp
theorem byte32_1 (a b c d : Byte) : byte32 (word a b c d) 1 = b := by
  unfold byte32 word; apply BitVec.eq_of_getLsbD_eq; intro i hi; interval_cases i <;> simp
theorem byte32_2 (a b c d : Byte) : byte32 (word a b c d) 2 = c := by
  unfold byte32 word; apply BitVec.eq_of_getLsbD_eq; intro i hi; interval_cases i <;> simp
theorem byte32_3 (a b c d : Byte) : byte32 (word a b c d) 3 = d := by
  unfold byte32 word; apply BitVec.eq_of_getLsbD_eq; intro i hi; interval_cases i <;> simp
theorem byte16_0 (p : Byte × Byte) : byte16 (w2 p) 0 = p.1 := by
  unfold byte16 w2; apply BitVec.eq_of_getLsbD_eq; intro i hi; interval_cases i <;> simp
theorem byte16_1 (p : Byte × Byte) : byte16 (w2 p) 1 = p.2 := by
  unfold byte16 w2; apply BitVec.eq_of_getLsbD_eq; intro i hi; interval_cases i <;> simp
theorem word_be32 (a b c d : Byte) : word a b c d = be32 a b c d := by
  unfold word be32; apply BitVec.eq_of_getLsbD_eq; intro i hi; interval_cases i <;> simp
theorem wd_xor (a b : Four 8) : wd a ^^^ wd b = wd (xor a b) := by
  unfold wd word Spec.Feal.xor; apply BitVec.eq_of_getLsbD_eq; intro i hi; interval_cases i <;> simp
theorem wd_pair (p q : Byte × Byte) : (w2 p).setWidth 32 <<< 16 ||| (w2 q).setWidth 32 = wd ⟨p.1, p.2, q.1, q.2⟩ := by
  unfold wd word w2; apply BitVec.eq_of_getLsbD_eq; intro i hi; interval_cases i <;> simp
theorem wd_zero : (0 : W32) = wd ⟨0, 0, 0, 0⟩ := by decide

theorem Sd_eq (x y : Byte) (d : Nat) : Sd x y d = S d x y := by
  unfold Sd S; rw [BitVec.rotateLeft_def]

theorem fK_eq (α β : Four 8) : Feal.fK (wd α) (wd β) = wd (Spec.Feal.fK α β) := by
  unfold Feal.fK Spec.Feal.fK wd
  simp only [byte32_0, byte32_1, byte32_2, byte32_3, Sd_eq, BitVec.xor_comm α.a α.b]

theorem f_eq (α : Four 8) (β : Byte × Byte) : Feal.f (wd α) (w2 β) = wd (Spec.Feal.f α β) := by
  unfold Feal.f Spec.Feal.f wd
  simp only [byte32_0, byte32_1, byte32_2, byte32_3, byte16_0, byte16_1, Sd_eq]
  rw [show α.a ^^^ α.b ^^^ β.1 = α.b ^^^ β.1 ^^^ α.a by ac_rfl, show α.c ^^^ α.d ^^^ β.2 = α.c ^^^ β.2 ^^^ α.d by ac_rfl]

theorem getD_set (l : List W16) (i j : Nat) (x : W16) (h : i < l.length) : (l.set i x).getD j 0 = if j = i then x else l.getD j 0 := by
  rw [List.getD_eq_getElem?_getD, List.getElem?_set, List.getD_eq_getElem?_getD]
  by_cases e : j = i
  · subst e; simp [h]
  · rw [if_neg (Ne.symm e), if_neg e]

theorem expandKey_eq (N : Nat) (h : N ≤ 792) (KL KR : Four 8) :
    ∃ K, expandKey N (row KL ++ row KR) = .ok K ∧ K.length = 801 ∧ ∀ i < N + 8, K.getD i 0 = w2 (subkey KL KR i) := by
  have hk : ldUserKey 4 2 (row KL ++ row KR) = [wd KL, wd KR] := by
    have e := ldUserKey_padded_partial 4 2 (by decide) (row KL ++ row KR) (Or.inl (by simp [row]))
    have e2 : row KL ++ row KR = putBe32 (wd KL) ++ (putBe32 (wd KR) ++ []) := by
      unfold wd
      rw [word_be32, word_be32, putBe32_be32, putBe32_be32]
      rfl
    have e3 : zeroPad (2 * 4) (row KL ++ row KR) = row KL ++ row KR := rfl
    rw [e, e3, e2]
    exact (beWords_putBe32 _ _).trans (congrArg (wd KL :: ·) (beWords_putBe32 _ _))
  unfold expandKey
  simp only [hk]
  show ∃ K, (forLoop exStep ((N + 8) / 2 + (N + 8) % 2) 1 ⟨List.replicate 801 0, wd KL, wd KR, 0⟩ >>= fun s => pure s.K) = .ok K ∧ _
  obtain ⟨s, e, hl, -, -, -, hs⟩ := forLoop_inv exStep (fun r s => s.K.length = 801 ∧ s.A = wd (schedule KL KR (r - 1)).1 ∧
      s.B = wd (schedule KL KR (r - 1)).2.1 ∧ s.D = wd (schedule KL KR (r - 1)).2.2 ∧
      ∀ i < 2 * (r - 1), s.K.getD i 0 = w2 (subkey KL KR i))
    ((N + 8) / 2 + (N + 8) % 2) 1 ⟨List.replicate 801 0, wd KL, wd KR, 0⟩ (fun r s h1 h2 ⟨hl, hA, hB, hD, hs⟩ => by
      obtain ⟨q, rfl⟩ : ∃ q, r = q + 1 := ⟨r - 1, by omega⟩
      simp only [Nat.add_sub_cancel] at hA hB hD hs ⊢
      unfold exStep
      simp only [Nat.add_sub_cancel, hA, hB, hD, wd_xor, fK_eq]
      rw [wr_of_lt (by omega), Out.bind_ok, wr_of_lt (by rw [List.length_set]; omega), Out.bind_ok]
      refine ⟨_, rfl, by simp only [List.length_set]; exact hl, rfl, rfl, rfl, fun i hi => ?_⟩
      rw [getD_set _ _ _ _ (by rw [List.length_set]; omega), getD_set _ _ _ _ (by omega)]
      have hB : (schedule KL KR (q + 1)).2.1 = Spec.Feal.fK (schedule KL KR q).1 (xor (schedule KL KR q).2.1 (schedule KL KR q).2.2) := rfl
      by_cases c1 : i = q * 2 + 1
      · rw [if_pos c1]
        unfold subkey
        simp only []
        rw [if_neg (by omega), show i / 2 = q by omega, hB]
        unfold wd
        rw [byte32_2, byte32_3]
        rfl
      · rw [if_neg c1]
        by_cases c2 : i = q * 2
        · rw [if_pos c2]
          unfold subkey
          simp only []
          rw [if_pos (by omega), show i / 2 = q by omega, hB]
          unfold wd
          rw [byte32_0, byte32_1]
          rfl
        · rw [if_neg c2]
          exact hs i (by omega))
    ⟨List.length_replicate, rfl, rfl, wd_zero, fun i hi => by omega⟩
  exact ⟨s.K, by rw [e]; rfl, hl, fun i hi => hs i (by omega)⟩

theorem rounds_eq (K : List W16) (KL KR L R : Four 8) (n : Nat) (h : ∀ i < n, K.getD i 0 = w2 (subkey KL KR i)) :
    (List.range' 1 n).foldl (rnd K) (wd L, wd R) = (wd (rounds KL KR L R n).1, wd (rounds KL KR L R n).2) := by
  induction n with
  | zero => rfl
  | succ n ih =>
    rw [List.range'_concat, List.foldl_append, ih (fun i hi => h i (by omega))]
    simp only [List.foldl_cons, List.foldl_nil, Nat.one_mul, rnd, show 1 + n - 1 = n by omega, h n (by omega), f_eq, wd_xor]
    rfl

/-- C114: with every key of 8 bytes and every number of rounds up to 792 the block function is the published FEAL-N. -/
theorem feal_n (N : Nat) (h : N ≤ 792) (KL KR L R : Four 8) :
    enc N (row KL ++ row KR) (row L ++ row R) =
      .ok (row (encrypt N KL KR L R).1 ++ row (encrypt N KL KR L R).2) := by
  obtain ⟨K, e, hl, hs⟩ := expandKey_eq N h KL KR
  have hr : ∀ a : Four 8, row a = putBe32 (wd a) := by
    intro a; unfold wd; rw [word_be32, putBe32_be32]; rfl
  have hp : ∀ i, i + 1 < N + 8 → pr K i = wd (four KL KR i) := by
    intro i hi
    unfold pr four
    rw [hs i (by omega), hs (i + 1) hi, wd_pair]
  unfold enc
  rw [e, Out.bind_ok, hr L, hr R]
  refine (encBlock_eq N K (by omega) (wd L, wd R)).trans ?_
  unfold E
  rw [hp N (by omega), hp (N + 2) (by omega), hp (N + 4) (by omega), hp (N + 6) (by omega)]
  unfold pre
  simp only [wd_xor]
  rw [rounds_eq K KL KR _ _ N (fun i hi => hs i (by omega))]
  unfold post be2
  simp only [wd_xor, ← hr]
  rfl

/-- Decryption is its inverse. -/
theorem feal_n_decrypt (N : Nat) (h0 : 1 ≤ N) (h : N ≤ 792) (KL KR L R : Four 8) :
    dec N (row KL ++ row KR) (row (encrypt N KL KR L R).1 ++ row (encrypt N KL KR L R).2) = .ok (row L ++ row R) := by
  have hn : (BitVec.ofNat 32 N).toNat = N := by rw [BitVec.toNat_ofNat]; omega
  have hi := feal_invertible (BitVec.ofNat 32 N) ((roundsOk_iff _).2 (by
    rw [BitVec.toInt_eq_toNat_cond, hn]; split <;> omega)) (row KL ++ row KR)
  rw [hn] at hi
  obtain ⟨c, e, -, d⟩ := hi.dec_enc (row L ++ row R) rfl
  rw [feal_n N h] at e
  rw [Out.ok.inj e, d]

/-- The published vector of FEAL-8. -/
example : Spec.Feal.encrypt 8 ⟨0x01, 0x23, 0x45, 0x67⟩ ⟨0x89, 0xAB, 0xCD, 0xEF⟩ ⟨0, 0, 0, 0⟩ ⟨0, 0, 0, 0⟩ =
    (⟨0xCE, 0xEF, 0x2C, 0x86⟩, ⟨0xF2, 0x49, 0x07, 0x52⟩) := by decide +kernel

end Kryptos.Feal
