import Verif.Props.Rc2
import Verif.Props.Present
import Verif.Spec.Rc2
/-
  RC2 is the cipher of RFC 2268.
-/
namespace Kryptos.Rc2
open Block KeyLoad Spec.MD

theorem getByte_eq (v : W16) : [getByte v 0, getByte v 1] = putBe16 v := by
  unfold getByte putBe16
  refine congrArg₂ (fun a b => [a, b]) ?_ ?_ <;>
  · apply BitVec.eq_of_getLsbD_eq; intro i hi
    interval_cases i <;> simp

theorem beWords_putBe16 (v : W16) (t : Bytes) : beWords 16 2 (putBe16 v ++ t) = v :: beWords 16 2 t := by
  rw [beWords, Hash.chunks_append 2 (by decide) _ _ rfl, List.map_cons, Present.beNat_putBe16, BitVec.ofNat_toNat, BitVec.setWidth_eq]
  rfl

theorem beWords_flatMap (ws : List W16) : beWords 16 2 (ws.flatMap putBe16) = ws := by
  induction ws with
  | nil => rfl
  | cons v ws ih => rw [List.flatMap_cons, beWords_putBe16, ih]

theorem rev_be16 (a b : Byte) : rev (be16 a b) = be16 b a := by
  unfold rev be16
  apply BitVec.eq_of_getLsbD_eq; intro i hi
  interval_cases i <;> simp

theorem leNat_be16 (a b : Byte) : BitVec.ofNat 16 (leNat [a, b]) = be16 b a := by
  apply BitVec.eq_of_toNat_eq
  rw [be16_toNat, BitVec.toNat_ofNat]
  simp only [leNat, beNat, List.reverse_cons, List.reverse_nil, List.nil_append, List.cons_append, List.foldl_cons, List.foldl_nil]
  have := a.isLt; have := b.isLt
  omega

theorem leWords_putBe16 (v : W16) (t : Bytes) : leWords 16 2 (putBe16 v ++ t) = rev v :: leWords 16 2 t := by
  obtain ⟨a, b, h1, h2⟩ := be16_putBe16 v
  rw [leWords, Hash.chunks_append 2 (by decide) _ _ rfl, List.map_cons, h1, leNat_be16, ← h2, rev_be16]
  rfl

theorem leWords_store (s : Four 16) : leWords 16 2 (store s) = [s.a, s.b, s.c, s.d] := by
  unfold store
  rw [List.flatMap_cons, leWords_putBe16, List.flatMap_cons, leWords_putBe16, List.flatMap_cons, leWords_putBe16, List.flatMap_cons,
    leWords_putBe16]
  simp only [rev_rev]
  rfl

theorem le_rev (v : W16) : le 2 v.toNat = putBe16 (rev v) := by
  obtain ⟨a, b, h1, h2⟩ := be16_putBe16 v
  rw [← h2, rev_be16, putBe16_be16, be16_toNat]
  have := a.isLt; have := b.isLt
  unfold le
  refine congrArg₂ (fun a b => [a, b]) ?_ ?_ <;>
  · apply BitVec.eq_of_toNat_eq
    rw [BitVec.toNat_ofNat]
    simp only [Nat.pow_zero, Nat.pow_one]
    omega

theorem store_le (s : Four 16) : [s.a, s.b, s.c, s.d].flatMap (fun x => le 2 x.toNat) = store s := by
  unfold store
  simp only [List.flatMap_cons, List.flatMap_nil, le_rev]

/-- The rounds. -/
def L4 (s : Four 16) : List W16 := [s.a, s.b, s.c, s.d]

theorem mixing_spec (K : List W16) (s : Four 16) (i : Nat) : Spec.Rc2.mixing K (L4 s) (4 * i) = L4 (mixP K s i) := by
  unfold mixP L4
  simp only [mix, rol_eq _ 1 (by decide), rol_eq _ 2 (by decide), rol_eq _ 3 (by decide), rol_eq _ 5 (by decide)]
  rfl

theorem and63 (x : W16) : (x &&& 63#16).toNat = x.toNat % 64 := by
  rw [BitVec.toNat_and, show (63#16).toNat = 2 ^ 6 - 1 from rfl, Nat.and_two_pow_sub_one_eq_mod]

theorem mashing_spec (K : List W16) (s : Four 16) : Spec.Rc2.mashing K (L4 s) = L4 (mashP K s) := by
  unfold mashP L4 at63
  simp only [and63]
  rfl

theorem words_spec (K : List W16) (s : Four 16) : Spec.Rc2.words K (L4 s) = L4 (E K s) := by
  have m : ∀ (l : List Nat) (s : Four 16), (l.map (4 * ·)).foldl (Spec.Rc2.mixing K) (L4 s) = L4 (l.foldl (mixP K) s) := by
    intro l
    induction l with
    | nil => intro s; rfl
    | cons a l ih => intro s; rw [List.map_cons, List.foldl_cons, List.foldl_cons, mixing_spec, ih]
  have m0 := m [0, 1, 2, 3, 4]
  have m1 := m [5, 6, 7, 8, 9, 10]
  have m2 := m [11, 12, 13, 14, 15]
  simp only [List.map_cons, List.map_nil, Nat.reduceMul] at m0 m1 m2
  unfold Spec.Rc2.words E
  simp only [m0, m1, m2, mashing_spec]
  rfl

/-- The key expansion. -/
theorem pitable_eq (x : Byte) : pitable x.toNat = .ok (Spec.Rc2.P x) := by
  have hl : PI.length = 256 := by decide +kernel
  unfold pitable
  rw [rd_getD 0 (by have := x.isLt; omega)]
  rfl

theorem load_key (key : Bytes) (h : key.length ≤ 128) :
    ((ldUserKey 2 64 key).flatMap fun x => [getByte x 0, getByte x 1]) = zeroPad 128 key := by
  rw [ldUserKey_padded_partial 2 64 (by decide) key (by omega)]
  have hl : (zeroPad 128 key).length = 2 * 64 := by
    unfold zeroPad; rw [List.length_append, List.length_take, List.length_replicate]; omega
  obtain ⟨ws, -, h2⟩ := words_be16 64 _ hl
  show (beWords 16 2 (zeroPad 128 key)).flatMap _ = _
  rw [h2, beWords_flatMap]
  exact congrArg (fun f => ws.flatMap f) (funext getByte_eq)

theorem getD_take (L : Bytes) (i j : Nat) (h : j < i) : (L.take i).getD j 0 = L.getD j 0 := by
  rw [List.getD_eq_getElem?_getD, List.getElem?_take_of_lt h, List.getD_eq_getElem?_getD]
theorem getD_drop (L : Bytes) (i j : Nat) : (L.drop i).getD j 0 = L.getD (i + j) 0 := by
  rw [List.getD_eq_getElem?_getD, List.getElem?_drop, List.getD_eq_getElem?_getD]

theorem take_set (L : Bytes) (i : Nat) (x : Byte) (h : i < L.length) : (L.set i x).take (i + 1) = L.take i ++ [x] := by
  rw [List.take_add_one, List.take_set_of_le (Nat.le_refl i), List.getElem?_set_self h]; rfl
theorem drop_set (L : Bytes) (i : Nat) (x : Byte) (h : i < L.length) : (L.set i x).drop i = x :: L.drop (i + 1) := by
  rw [List.drop_eq_getElem_cons (by rw [List.length_set]; exact h), List.getElem_set_self, List.drop_set_of_lt (by omega)]

theorem inflate_eq (T1 : Nat) (key : Bytes) (h1 : 1 ≤ T1) (h2 : T1 ≤ 1024) (h3 : 1 ≤ key.length) (h4 : key.length ≤ 128) :
    inflate T1 key = .ok (Spec.Rc2.expand T1 key) := by
  unfold inflate Spec.Rc2.expand
  simp only []
  rw [load_key key h4]
  have l0 : (zeroPad 128 key).length = 128 := by
    unfold zeroPad; rw [List.length_append, List.length_take, List.length_replicate]; omega
  have t0 : (zeroPad 128 key).take key.length = key := by
    unfold zeroPad; rw [List.take_of_length_le (show key.length ≤ 128 from h4), List.take_left]
  obtain ⟨L1, e1, l1, t1⟩ := forLoop_inv (grow key.length)
    (fun i L => L.length = 128 ∧ L.take i = Spec.Rc2.times (Spec.Rc2.next key.length) (i - key.length) key)
    (128 - key.length) key.length (zeroPad 128 key)
    (fun i L a b ⟨hL, ht⟩ => by
      unfold grow
      rw [rd_getD 0 (by omega), Out.bind_ok, rd_getD 0 (by omega), Out.bind_ok, ← BitVec.toNat_add, pitable_eq, Out.bind_ok,
        wr_of_lt (by omega)]
      refine ⟨_, rfl, by rw [List.length_set]; exact hL, ?_⟩
      rw [take_set _ _ _ (by omega), show i + 1 - key.length = (i - key.length) + 1 by omega, Spec.Rc2.times, ← ht, Spec.Rc2.next,
        List.length_take, Nat.min_eq_left (by omega), getD_take _ _ _ (by omega), getD_take _ _ _ (by omega)])
    ⟨l0, by rw [t0, Nat.sub_self]; rfl⟩
  rw [show key.length + (128 - key.length) = 128 by omega, List.take_of_length_le (by omega)] at t1
  rw [e1, Out.bind_ok, if_neg (by omega)]
  simp only [Out.pure_eq]
  rw [← t1]
  generalize hT : (T1 + 7) / 8 = T8
  have b1 : 1 ≤ T8 := by omega
  have b2 : T8 ≤ 128 := by omega
  rw [rd_getD 0 (by omega), Out.bind_ok]
  have em : ∀ x : Byte, x.toNat &&& 255 % 2 ^ (8 + T1 - 8 * T8) = (x &&& BitVec.ofNat 8 (255 % 2 ^ (8 + T1 - 8 * T8))).toNat := by
    intro x
    rw [BitVec.toNat_and, BitVec.toNat_ofNat, Nat.mod_eq_of_lt (Nat.lt_of_le_of_lt (Nat.mod_le _ _) (by decide))]
  rw [em, pitable_eq, Out.bind_ok, wr_of_lt (by omega), Out.bind_ok]
  generalize hx : Spec.Rc2.P (L1.getD (128 - T8) 0 &&& BitVec.ofNat 8 (255 % 2 ^ (8 + T1 - 8 * T8))) = x
  have l2 : (L1.set (128 - T8) x).length = 128 := by rw [List.length_set]; exact l1
  have d2 := drop_set L1 (128 - T8) x (by omega)
  generalize L1.set (128 - T8) x = L2 at l2 d2
  rw [← d2]
  obtain ⟨L3, e3, l3, d3⟩ := forLoop_inv (fun i => shrink T8 (128 - T8 - 1 - i))
    (fun i L => L.length = 128 ∧ L.drop (128 - T8 - i) = Spec.Rc2.times (Spec.Rc2.previous T8) i (L2.drop (128 - T8)))
    (128 - T8) 0 L2 (fun i L a b ⟨hL, ht⟩ => by
      show ∃ s', shrink T8 (128 - T8 - 1 - i) L = .ok s' ∧ _
      unfold shrink
      rw [rd_getD 0 (by omega), Out.bind_ok, rd_getD 0 (by omega), Out.bind_ok, pitable_eq, Out.bind_ok, wr_of_lt (by omega)]
      refine ⟨_, rfl, by rw [List.length_set]; exact hL, ?_⟩
      rw [show 128 - T8 - (i + 1) = 128 - T8 - 1 - i by omega, drop_set _ _ _ (by omega), Spec.Rc2.times, ← ht, Spec.Rc2.previous,
        getD_drop, getD_drop, show 128 - T8 - 1 - i + 1 = 128 - T8 - i by omega, Nat.add_zero,
        show 128 - T8 - 1 - i + T8 = 128 - T8 - i + (T8 - 1) by omega])
    ⟨l2, rfl⟩
  rw [show 128 - T8 - (0 + (128 - T8)) = 0 by omega, List.drop_zero, Nat.zero_add] at d3
  rw [← d3, e3, Out.bind_ok, mapM_ok _ (fun j => (L3.getD (2 * j + 1) 0).setWidth 16 <<< 8 ||| (L3.getD (2 * j) 0).setWidth 16) _ (fun j hj => by
    rw [List.mem_range] at hj
    rw [rd_getD 0 (by omega), Out.bind_ok, rd_getD 0 (by omega)]; rfl)]
  unfold leWords chunks
  rw [l3, List.map_map]
  refine congrArg Out.ok (List.map_congr_left fun j hj => ?_)
  rw [List.mem_range] at hj
  have hs : (L3.drop (j * 2)).take 2 = [L3.getD (2 * j) 0, L3.getD (2 * j + 1) 0] := by
    rw [List.drop_eq_getElem_cons (show j * 2 < L3.length by omega), List.drop_eq_getElem_cons (show j * 2 + 1 < L3.length by omega)]
    simp only [List.take_succ_cons, List.take_zero, Nat.mul_comm 2 j, List.getD_eq_getElem?_getD,
      List.getElem?_eq_getElem (show j * 2 < L3.length by omega), List.getElem?_eq_getElem (show j * 2 + 1 < L3.length by omega),
      Option.getD_some]
  simp only [Function.comp]
  rw [hs, leNat_be16]
  rfl

/-- C111: with every key of 1 to 128 bytes and every effective length of 1 to 1024 bits the block function is the encryption of
RFC 2268. -/
theorem rc2_rfc2268 (T1 : Nat) (key block : Bytes) (h1 : 1 ≤ T1) (h2 : T1 ≤ 1024) (h3 : 1 ≤ key.length) (h4 : key.length ≤ 128)
    (h5 : block.length = 8) : enc T1 key block = .ok (Spec.Rc2.encrypt T1 key block) := by
  obtain ⟨s, rfl⟩ := store_surj block h5
  obtain ⟨K, e, l⟩ := inflate_defined T1 key h1 h2 h3 h4
  rw [inflate_eq T1 key h1 h2 h3 h4] at e
  obtain rfl := Out.ok.inj e
  unfold enc Spec.Rc2.encrypt
  rw [inflate_eq T1 key h1 h2 h3 h4, Out.bind_ok, encBlock_eq _ l, leWords_store]
  refine congrArg Out.ok ?_
  refine Eq.trans ?_ (congrArg (fun l => l.flatMap fun x : W16 => le 2 x.toNat) (words_spec _ s).symm)
  exact (store_le _).symm

/-- Decryption is its inverse. -/
theorem rc2_rfc2268_decrypt (T1 : Nat) (key block : Bytes) (h1 : 1 ≤ T1) (h2 : T1 ≤ 1024) (h3 : 1 ≤ key.length) (h4 : key.length ≤ 128)
    (h5 : block.length = 8) : dec T1 key (Spec.Rc2.encrypt T1 key block) = .ok block := by
  have hp : paramsOk T1 key = true := by
    unfold paramsOk
    simp only [Bool.and_eq_true, Bool.not_eq_true', Bool.or_eq_false_iff, decide_eq_false_iff_not, decide_eq_true_eq]
    omega
  obtain ⟨c, e, -, d⟩ := (rc2_invertible T1 key hp h3 (by omega)).dec_enc block h5
  rw [rc2_rfc2268 T1 key block h1 h2 h3 h4 h5] at e
  rw [Out.ok.inj e, d]

/-- The last test vector of RFC 2268 (section 5): a key of 33 bytes with the effective length of 129 bits. -/
example : (Spec.Rc2.encrypt 129 [0x88, 0xBC, 0xA9, 0x0E, 0x90, 0x87, 0x5A, 0x7F, 0x0F, 0x79, 0xC3, 0x84, 0x62, 0x7B, 0xAF, 0xB2,
    0x16, 0xF8, 0x0A, 0x6F, 0x85, 0x92, 0x05, 0x84, 0xC4, 0x2F, 0xCE, 0xB0, 0xBE, 0x25, 0x5D, 0xAF, 0x1E] (List.replicate 8 0)) =
    [0x5B, 0x78, 0xD3, 0xA4, 0x3D, 0xFF, 0xF1, 0xF1] := by decide +kernel

end Kryptos.Rc2
