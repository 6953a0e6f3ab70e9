import Verif.Props.Blowfish
import Mathlib.Tactic.ByContra
/-
  bcrypt: the published hash is computed, and exactly the hashes of a password are accepted for it; texts that are too short are read past the end.
-/
namespace Kryptos.Blowfish
open Block KeyLoad

/-! ## The expensive setup -/

theorem next_run (b : Bytes) (i : Nat) (h : i < b.length) : next b i = .ok (b.getD i 0, (i + 1) % b.length) := by
  unfold next
  rw [rd_getD 0 h, Out.bind_ok]
  by_cases e : i + 1 = b.length
  · rw [if_pos e, e, Nat.mod_self]; rfl
  · rw [if_neg e, Nat.mod_eq_of_lt (by omega)]; rfl

/-- The bytes of a password, four for each word. -/
theorem word_run (pw : Bytes) (hp : 0 < pw.length) (i : Nat) : forLoop (fun _ (t : W32 × Nat) => do
    let (c, j) ← next pw t.2
    return (t.1 <<< 8 ||| c.setWidth 32, j)) 4 0 (0, 4 * i % pw.length) = .ok (Spec.Blowfish.keyWord pw i, 4 * (i + 1) % pw.length) := by
  obtain ⟨⟨w, j⟩, h1, h2⟩ := forLoop_inv (fun _ (t : W32 × Nat) => do
    let (c, j) ← next pw t.2
    return (t.1 <<< 8 ||| c.setWidth 32, j))
    (fun n t => t = ((List.range n).foldl (fun (w : W32) j => w <<< 8 ||| (pw.getD ((4 * i + j) % pw.length) 0).setWidth 32) 0, (4 * i + n) % pw.length))
    4 0 (0, 4 * i % pw.length)
    (fun n t _ _ e => by
      subst e
      refine ⟨_, ?_, rfl⟩
      simp only
      rw [next_run pw _ (Nat.mod_lt _ hp), Out.bind_ok, List.range_succ, List.foldl_append, List.foldl_cons, List.foldl_nil, Nat.mod_add_mod]
      rfl) rfl
  rw [h1, h2]
  rfl

theorem mixBcrypt_run (pw : Bytes) (hp : 0 < pw.length) (init : Bool) (l : List W32) (hl : l.length = 18) :
    ∃ j, forLoop (mixBcrypt pw init) 18 0 (l, 0) = .ok ((List.range 18).map (fun i =>
      (if init then Spec.Blowfish.piWords.getD i 0 else l.getD i 0) ^^^ Spec.Blowfish.keyWord pw i), j) := by
  obtain ⟨j, h⟩ := forLoop_fill (mixBcrypt pw init)
    (fun i => (if init then Spec.Blowfish.piWords.getD i 0 else l.getD i 0) ^^^ Spec.Blowfish.keyWord pw i)
    (fun i j => j = 4 * i % pw.length) 18 l 0 (by omega) (by simp)
    (fun i l' j hi hl' hd hj => by
      refine ⟨_, ?_, rfl⟩
      unfold mixBcrypt
      simp only
      rw [hj, word_run pw hp i, Out.bind_ok]
      simp only
      have e : (if init then rd parray i else rd l' i) = .ok (if init then Spec.Blowfish.piWords.getD i 0 else l.getD i 0) := by
        cases init
        · simp only [Bool.false_eq_true, if_false]
          rw [rd_getD 0 (show i < l'.length by omega)]
          have h0 := congrArg (fun l : List W32 => l.getD 0 0) hd
          simp only [List.getD_eq_getElem?_getD, List.getElem?_drop, Nat.add_zero] at h0 ⊢
          rw [h0]
        · simp only [if_true]
          exact rd_parray i hi
      have hb : ∀ f : W32 → Out (List W32 × Nat), (if init = true then rd parray i >>= f else rd l' i >>= f) =
          ((if init = true then rd parray i else rd l' i) >>= f) := fun f => by split <;> rfl
      rw [hb, e, Out.bind_ok, wr_of_lt (by omega)]
      rfl)
  refine ⟨j, ?_⟩
  rw [h, List.drop_of_length_le (by omega), List.append_nil]

theorem putBe32_xor (x y : W32) (j : Nat) (hj : j < 4) : (putBe32 x).getD j 0 ^^^ (putBe32 y).getD j 0 = (putBe32 (x ^^^ y)).getD j 0 := by
  unfold putBe32
  interval_cases j <;> simp only [List.getD_cons_zero, List.getD_cons_succ] <;> apply BitVec.eq_of_getLsbD_eq <;> intro n hn <;> simp <;> cases (255#8).getLsbD n <;> simp [hn]

/-- Half of the salt is added to a block. -/
theorem salt_run (a b c d x y : W32) (odd : Bool) : forLoop (fun n (t : Bytes × Nat) => do
    let (c, j) ← next ([a, b, c, d].flatMap putBe32) t.2
    return (← wr t.1 n ((← rd t.1 n) ^^^ c), j)) 8 0 (be2 (x, y), if odd then 0 else 8) =
    .ok (be2 (if odd then (x ^^^ a, y ^^^ b) else (x ^^^ c, y ^^^ d)), if odd then 8 else 0) := by
  have hl : ([a, b, c, d].flatMap putBe32).length = 16 := rfl
  generalize hp : (if odd then 0 else 8) = p
  have hp' : p ≤ 8 := by subst hp; split <;> omega
  obtain ⟨⟨l, j⟩, h, h2, h3⟩ := forLoop_inv (fun n (t : Bytes × Nat) => do
    let (c, j) ← next ([a, b, c, d].flatMap putBe32) t.2
    return (← wr t.1 n ((← rd t.1 n) ^^^ c), j))
    (fun n t => t.1 = (List.range n).map (fun i => (be2 (x, y)).getD i 0 ^^^ ([a, b, c, d].flatMap putBe32).getD (p + i) 0) ++ (be2 (x, y)).drop n ∧
      t.2 = (p + n) % 16) 8 0 (be2 (x, y), p)
    (fun n t _ hn e => by
      obtain ⟨t1, t2⟩ := t
      obtain ⟨e1, e2⟩ := e
      simp only at e1 e2
      have hb : (be2 (x, y)).length = 8 := rfl
      have hn' : n < 8 := by omega
      refine ⟨(_, (p + (n + 1)) % 16), ?_, rfl, rfl⟩
      simp only
      rw [e2, next_run _ _ (by rw [hl]; omega), Out.bind_ok, hl]
      simp only
      have hlt : t1.length = 8 := by rw [e1]; simp [hb]; omega
      have hg : t1.getD n 0 = (be2 (x, y)).getD n 0 := by
        rw [e1, List.getD_eq_getElem?_getD, List.getD_eq_getElem?_getD, List.getElem?_append_right (by simp), List.getElem?_drop]
        simp
      rw [rd_getD 0 (show n < t1.length by omega), Out.bind_ok, wr_of_lt (by omega), Out.bind_ok, hg, Nat.mod_add_mod,
        Nat.mod_eq_of_lt (show p + n < 16 by omega), Nat.add_assoc]
      have hd : (be2 (x, y)).drop n = (be2 (x, y)).getD n 0 :: (be2 (x, y)).drop (n + 1) := by
        rw [List.drop_eq_getElem_cons (by omega), List.getD_eq_getElem?_getD, List.getElem?_eq_getElem (by omega), Option.getD_some]
      rw [e1, List.range_succ, List.map_append, List.append_assoc, hd, List.set_append_right _ _ (by simp)]
      rw [List.length_map, List.length_range, Nat.sub_self, List.set_cons_zero]
      rfl) ⟨rfl, by rw [Nat.add_zero, Nat.mod_eq_of_lt (by omega)]⟩
  rw [h]
  simp only at h2 h3
  have q : ∀ u v w z : W32, be2 (u ^^^ w, v ^^^ z) = [(putBe32 u).getD 0 0 ^^^ (putBe32 w).getD 0 0, (putBe32 u).getD 1 0 ^^^ (putBe32 w).getD 1 0,
      (putBe32 u).getD 2 0 ^^^ (putBe32 w).getD 2 0, (putBe32 u).getD 3 0 ^^^ (putBe32 w).getD 3 0,
      (putBe32 v).getD 0 0 ^^^ (putBe32 z).getD 0 0, (putBe32 v).getD 1 0 ^^^ (putBe32 z).getD 1 0,
      (putBe32 v).getD 2 0 ^^^ (putBe32 z).getD 2 0, (putBe32 v).getD 3 0 ^^^ (putBe32 z).getD 3 0] := fun u v w z => by
    rw [putBe32_xor _ _ 0 (by decide), putBe32_xor _ _ 1 (by decide), putBe32_xor _ _ 2 (by decide), putBe32_xor _ _ 3 (by decide),
      putBe32_xor _ _ 0 (by decide), putBe32_xor _ _ 1 (by decide), putBe32_xor _ _ 2 (by decide), putBe32_xor _ _ 3 (by decide)]
    rfl
  rw [h2, h3]
  subst hp
  cases odd
  · simp only [Bool.false_eq_true, if_false]
    rw [q]
    rfl
  · simp only [if_true]
    rw [q]
    rfl

theorem expandBcrypt_run {k : Sks} {s : List W32} (h : Rel k s) (a b c d : W32) : ∃ pl j k',
    forLoop (expandBcrypt ([a, b, c, d].flatMap putBe32)) 521 0 (([a, b, c, d].flatMap putBe32).take 8, 8, k) = .ok (pl, j, k') ∧
    Rel k' ((List.range 521).foldl (Spec.Blowfish.step ((a, b), (c, d))) (s, (0, 0))).1 := by
  obtain ⟨⟨pl, j, k'⟩, h1, h2, h3, h4⟩ := forLoop_inv (expandBcrypt ([a, b, c, d].flatMap putBe32))
    (fun i t => t.1 = be2 (if i % 2 = 0 then
          (((List.range i).foldl (Spec.Blowfish.step ((a, b), (c, d))) (s, (0, 0))).2.1 ^^^ a,
            ((List.range i).foldl (Spec.Blowfish.step ((a, b), (c, d))) (s, (0, 0))).2.2 ^^^ b)
        else (((List.range i).foldl (Spec.Blowfish.step ((a, b), (c, d))) (s, (0, 0))).2.1 ^^^ c,
            ((List.range i).foldl (Spec.Blowfish.step ((a, b), (c, d))) (s, (0, 0))).2.2 ^^^ d)) ∧
      t.2.1 = (if i % 2 = 0 then 8 else 0) ∧
      Rel t.2.2 ((List.range i).foldl (Spec.Blowfish.step ((a, b), (c, d))) (s, (0, 0))).1) 521 0 (([a, b, c, d].flatMap putBe32).take 8, 8, k)
    (fun i t _ hi e => by
      obtain ⟨t1, t2, t3⟩ := t
      obtain ⟨e1, e2, e3⟩ := e
      rw [List.range_succ, List.foldl_append, List.foldl_cons, List.foldl_nil]
      generalize (List.range i).foldl (Spec.Blowfish.step ((a, b), (c, d))) (s, (0, 0)) = u at e1 e2 e3
      simp only at e1 e2 e3
      generalize hq : (if i % 2 = 0 then (u.2.1 ^^^ a, u.2.2 ^^^ b) else (u.2.1 ^^^ c, u.2.2 ^^^ d)) = q at e1
      have hb : Spec.Blowfish.step ((a, b), (c, d)) u i = ((u.1.set (2 * i) (Spec.Blowfish.encrypt u.1 q).1).set (2 * i + 1)
          (Spec.Blowfish.encrypt u.1 q).2, Spec.Blowfish.encrypt u.1 q) := by
        unfold Spec.Blowfish.step
        subst hq
        by_cases hi2 : i % 2 = 0
        · simp only [hi2, if_true]
        · simp only [hi2, if_false]
      generalize hE : Spec.Blowfish.encrypt u.1 q = E at hb
      obtain ⟨k', p1, p2⟩ := place_run e3 i (by omega) E.1 E.2
      have hs := salt_run a b c d E.1 E.2 (decide (i % 2 = 1))
      have hm : (if decide (i % 2 = 1) then 0 else 8) = t2 := by
        rw [e2]
        rcases Nat.mod_two_eq_zero_or_one i with e | e <;> simp [e]
      rw [hm] at hs
      refine ⟨(be2 (if decide (i % 2 = 1) then (E.1 ^^^ a, E.2 ^^^ b) else (E.1 ^^^ c, E.2 ^^^ d)), if decide (i % 2 = 1) then 8 else 0, k'),
        ?_, ?_, ?_, ?_⟩
      · unfold expandBcrypt
        simp only
        rw [e1, encBlock_run e3, hE, Out.bind_ok]
        have g0 : getBe32 (be2 E) 0 = .ok E.1 := getBe32_0 _ _
        have g4 : getBe32 (be2 E) 4 = .ok E.2 := getBe32_4' _ _
        rw [g0, Out.bind_ok, g4, Out.bind_ok, p1, Out.bind_ok, hs, Out.bind_ok]
        rfl
      · rw [hb]
        rcases Nat.mod_two_eq_zero_or_one i with e | e
        · rw [if_neg (by simp [e]), if_neg (show ¬ (i + 1) % 2 = 0 by omega)]
        · rw [if_pos (by simp [e]), if_pos (show (i + 1) % 2 = 0 by omega)]
      · rcases Nat.mod_two_eq_zero_or_one i with e | e
        · simp [e, show ¬ (i + 1) % 2 = 0 by omega]
        · simp [e, show (i + 1) % 2 = 0 by omega]
      · rw [hb]; exact p2) ⟨by
        have z : ∀ x : W32, 0 ^^^ x = x := fun x => BitVec.zero_xor
        simp only [Nat.zero_mod, if_true, List.range_zero, List.foldl_nil, z]
        rfl, rfl, h⟩
  exact ⟨pl, j, k', h1, h4⟩

theorem puffUpBcrypt_init (pw : Bytes) (hp : 0 < pw.length) (a b c d : W32) (k : Sks) (hk : k.P.length = 18) :
    ∃ k', puffUpBcrypt pw ([a, b, c, d].flatMap putBe32) k true = .ok k' ∧
      Rel k' (Spec.Blowfish.expandKey ((a, b), (c, d)) pw Spec.Blowfish.piWords) := by
  obtain ⟨j, h1⟩ := mixBcrypt_run pw hp true k.P hk
  simp only [if_true] at h1
  have hr := init_rel (P := (List.range 18).map (fun i => Spec.Blowfish.piWords.getD i 0 ^^^ Spec.Blowfish.keyWord pw i)) (by simp)
  rw [← mixW_eq _ _ (by rw [pi_len]; decide)] at hr
  obtain ⟨pl, j', k', h2, h3⟩ := expandBcrypt_run hr a b c d
  refine ⟨k', ?_, h3⟩
  unfold puffUpBcrypt
  rw [h1, Out.bind_ok]
  simp only [if_true]
  rw [h2, Out.bind_ok]
  rfl

theorem puffUpBcrypt_run (pw : Bytes) (hp : 0 < pw.length) (a b c d : W32) {k : Sks} {s : List W32} (h : Rel k s) :
    ∃ k', puffUpBcrypt pw ([a, b, c, d].flatMap putBe32) k false = .ok k' ∧ Rel k' (Spec.Blowfish.expandKey ((a, b), (c, d)) pw s) := by
  obtain ⟨j, h1⟩ := mixBcrypt_run pw hp false k.P h.lP
  simp only [Bool.false_eq_true, if_false] at h1
  have hs : 18 ≤ s.length := by rw [h.eq, List.length_append, h.lP]; omega
  have hd : s.drop 18 = k.S1 ++ (k.S2 ++ (k.S3 ++ k.S4)) := by rw [h.eq, List.drop_left' h.lP]
  have hr : Rel { k with P := (List.range 18).map (fun i => k.P.getD i 0 ^^^ Spec.Blowfish.keyWord pw i) }
      (mixW (Spec.Blowfish.keyWord pw) s) := by
    refine ⟨?_, by simp, h.l1, h.l2, h.l3, h.l4⟩
    rw [mixW_eq _ _ hs, hd]
    simp only
    congr 1
    apply List.map_congr_left
    intro i hi
    have hi' : i < 18 := List.mem_range.mp hi
    rw [h.eq, List.getD_eq_getElem?_getD, List.getElem?_append_left (by rw [h.lP]; exact hi'), ← List.getD_eq_getElem?_getD]
  obtain ⟨pl, j', k', h2, h3⟩ := expandBcrypt_run hr a b c d
  refine ⟨k', ?_, h3⟩
  unfold puffUpBcrypt
  rw [h1, Out.bind_ok]
  simp only [Bool.false_eq_true, if_false]
  rw [h2, Out.bind_ok]
  rfl

theorem forLoop_times {σ τ : Type} (R : σ → τ → Prop) (f : σ → Out σ) (g : τ → τ) (h : ∀ k s, R k s → ∃ k', f k = .ok k' ∧ R k' (g s)) :
    ∀ n t k s, R k s → ∃ k', forLoop (fun _ => f) n t k = .ok k' ∧ R k' (Spec.Blowfish.times g n s)
  | 0, _, k, s, hr => ⟨k, rfl, hr⟩
  | n + 1, t, k, s, hr => by
    obtain ⟨k1, h1, h2⟩ := h k s hr
    obtain ⟨k2, h3, h4⟩ := forLoop_times R f g h n (t + 1) k1 (g s) h2
    refine ⟨k2, ?_, h4⟩
    rw [forLoop, h1, Out.bind_ok, h3]

theorem setup_run (cost : Nat) (salt pw : Bytes) (hs : salt.length = 16) (hp : 0 < pw.length) :
    ∃ k, setup cost salt pw = .ok k ∧ Rel k (Spec.Blowfish.setup cost salt pw) := by
  obtain ⟨a, b, c, d, rfl⟩ : ∃ a b c d, [a, b, c, d].flatMap putBe32 = salt := by
    obtain ⟨s, hs⟩ := be4_surj salt hs
    exact ⟨s.1, s.2.1, s.2.2.1, s.2.2.2, by rw [← hs]; simp [be4]⟩
  have hw : Spec.Blowfish.saltWords ([a, b, c, d].flatMap putBe32) = ((a, b), (c, d)) := by
    unfold Spec.Blowfish.saltWords
    rw [keyWord_words _ (by simp), keyWord_words _ (by simp), keyWord_words _ (by simp), keyWord_words _ (by simp)]
    rfl
  have hz : List.replicate 16 (0 : Byte) = [(0 : W32), 0, 0, 0].flatMap putBe32 := by decide
  obtain ⟨k, h1, h2⟩ := puffUpBcrypt_init pw hp a b c d ⟨[], [], [], [], List.replicate 18 0⟩ (by simp)
  obtain ⟨k', h3, h4⟩ := forLoop_times Rel (fun k => do
      let k ← puffUpBcrypt pw (List.replicate 16 0) k false
      puffUpBcrypt ([a, b, c, d].flatMap putBe32) (List.replicate 16 0) k false)
    (fun s => Spec.Blowfish.expandKey ((0, 0), (0, 0)) ([a, b, c, d].flatMap putBe32) (Spec.Blowfish.expandKey ((0, 0), (0, 0)) pw s))
    (fun k s hr => by
      rw [hz]
      obtain ⟨k1, q1, q2⟩ := puffUpBcrypt_run pw hp 0 0 0 0 hr
      obtain ⟨k2, q3, q4⟩ := puffUpBcrypt_run ([a, b, c, d].flatMap putBe32) (by simp [putBe32]) 0 0 0 0 q2
      exact ⟨k2, by rw [q1, Out.bind_ok, q3], q4⟩) (2 ^ cost) 0 k _ h2
  refine ⟨k', ?_, ?_⟩
  · unfold setup
    simp only
    rw [h1, Out.bind_ok]
    exact h3
  · unfold Spec.Blowfish.setup
    rw [hw]
    exact h4

theorem enc64_run {k : Sks} {s : List W32} (h : Rel k s) (b : W32 × W32) :
    enc64 k (be2 b) = .ok (be2 (Spec.Blowfish.times (Spec.Blowfish.encrypt s) 64 b)) := by
  obtain ⟨c, h1, h2⟩ := forLoop_times (fun (x : Bytes) (b : W32 × W32) => x = be2 b) (encBlock k) (Spec.Blowfish.encrypt s)
    (fun x b e => ⟨_, by rw [e]; exact encBlock_run h b, rfl⟩) 64 0 (be2 b) b rfl
  unfold enc64
  rw [h1, h2]

/-! ## Texts -/

theorem rd_state (w : W32) (v : BitVec 6) (h : w = v.setWidth 32) : rd state w.toNat = .ok (Spec.Blowfish.char v) := by
  subst h
  have hv := v.isLt
  rw [BitVec.toNat_setWidth, Nat.mod_eq_of_lt (by omega), show state = Spec.Blowfish.alphabet from rfl,
    rd_getD 0 (by rw [show Spec.Blowfish.alphabet.length = 64 from by decide]; omega)]
  rfl

theorem app24 (x y z : Byte) (i : Nat) : (x ++ y ++ z : BitVec 24).getLsbD i =
    if i < 8 then z.getLsbD i else if i - 8 < 8 then y.getLsbD (i - 8) else x.getLsbD (i - 8 - 8) :=
  (BitVec.getLsbD_append (x := x ++ y) (y := z)).trans (by rw [BitVec.getLsbD_append])

theorem app18 (x y : Byte) (i : Nat) : (x ++ y ++ 0#2 : BitVec 18).getLsbD i =
    if i < 2 then false else if i - 2 < 8 then y.getLsbD (i - 2) else x.getLsbD (i - 2 - 8) :=
  (BitVec.getLsbD_append (x := x ++ y) (y := 0#2)).trans (by rw [BitVec.getLsbD_append]; simp)

theorem app12 (x : Byte) (i : Nat) : (x ++ 0#4 : BitVec 12).getLsbD i = if i < 4 then false else x.getLsbD (i - 4) :=
  (BitVec.getLsbD_append (x := x) (y := 0#4)).trans (by simp)

theorem sextets3 (x y z : Byte) (B : W32) (hB : B = Base64.accBlock [x, y, z] <<< (0 <<< 3)) :
    rd state ((B &&& 0x00FC0000#32) >>> 18).toNat = .ok (Spec.Blowfish.char ((x ++ y ++ z : BitVec 24).extractLsb' 18 6)) ∧
    rd state ((B &&& 0x0003F000#32) >>> 12).toNat = .ok (Spec.Blowfish.char ((x ++ y ++ z : BitVec 24).extractLsb' 12 6)) ∧
    rd state ((B &&& 0x00000FC0#32) >>> 6).toNat = .ok (Spec.Blowfish.char ((x ++ y ++ z : BitVec 24).extractLsb' 6 6)) ∧
    rd state (B &&& 0x0000003F#32).toNat = .ok (Spec.Blowfish.char ((x ++ y ++ z : BitVec 24).extractLsb' 0 6)) := by
  subst hB
  refine ⟨rd_state _ _ ?_, rd_state _ _ ?_, rd_state _ _ ?_, rd_state _ _ ?_⟩ <;> apply BitVec.eq_of_getLsbD_eq <;> intro n hn <;>
    rw [BitVec.getLsbD_setWidth, BitVec.getLsbD_extractLsb', app24] <;> interval_cases n <;> simp [Base64.accBlock]

theorem acc2 (x y : Byte) : Base64.accBlock [x, y] <<< (1 <<< 3) = Base64.accBlock [x, y, 0] <<< (0 <<< 3) := by
  apply BitVec.eq_of_getLsbD_eq
  intro n hn
  interval_cases n <;> simp [Base64.accBlock]

theorem acc1 (x : Byte) : Base64.accBlock [x] <<< (2 <<< 3) = Base64.accBlock [x, 0, 0] <<< (0 <<< 3) := by
  apply BitVec.eq_of_getLsbD_eq
  intro n hn
  interval_cases n <;> simp [Base64.accBlock]

theorem encGroups_run (b : Bytes) (avail : Nat) (h : 4 * ((b.length + 2) / 3) ≤ avail) :
    encGroups b avail = .ok (Spec.Blowfish.radix64 b, (3 - b.length % 3) % 3) := by
  match b with
  | [] => rw [encGroups]; rfl
  | [x] =>
    obtain ⟨s0, s1, s2, s3⟩ := sextets3 x 0 0 _ (acc1 x)
    rw [encGroups]
    simp only [List.take, List.length_cons, List.length_nil, Nat.reduceAdd, Nat.reduceSub, List.drop] at h ⊢
    rw [if_neg (by omega), s0, Out.bind_ok, s1, Out.bind_ok, s2, Out.bind_ok, s3, Out.bind_ok, encGroups, Out.bind_ok, Spec.Blowfish.radix64]
    simp only [List.append_nil, if_true]
    have e0 : (x ++ 0#8 ++ 0#8 : BitVec 24).extractLsb' 18 6 = (x ++ 0#4 : BitVec 12).extractLsb' 6 6 := by
      apply BitVec.eq_of_getLsbD_eq
      intro n hn
      rw [BitVec.getLsbD_extractLsb', BitVec.getLsbD_extractLsb', app24, app12]
      interval_cases n <;> simp
    have e1 : (x ++ 0#8 ++ 0#8 : BitVec 24).extractLsb' 12 6 = (x ++ 0#4 : BitVec 12).extractLsb' 0 6 := by
      apply BitVec.eq_of_getLsbD_eq
      intro n hn
      rw [BitVec.getLsbD_extractLsb', BitVec.getLsbD_extractLsb', app24, app12]
      interval_cases n <;> simp
    show Out.ok ([Spec.Blowfish.char ((x ++ 0#8 ++ 0#8 : BitVec 24).extractLsb' 18 6), Spec.Blowfish.char ((x ++ 0#8 ++ 0#8 : BitVec 24).extractLsb' 12 6)], 2) = _
    rw [e0, e1]
  | [x, y] =>
    obtain ⟨s0, s1, s2, s3⟩ := sextets3 x y 0 _ (acc2 x y)
    rw [encGroups]
    simp only [List.take, List.length_cons, List.length_nil, Nat.reduceAdd, Nat.reduceSub, List.drop] at h ⊢
    rw [if_neg (by omega), s0, Out.bind_ok, s1, Out.bind_ok, s2, Out.bind_ok, s3, Out.bind_ok, encGroups, Out.bind_ok, Spec.Blowfish.radix64]
    simp only [List.append_nil, if_true]
    have e : ∀ k, k < 3 → (x ++ y ++ 0#8 : BitVec 24).extractLsb' (6 * k + 6) 6 = (x ++ y ++ 0#2 : BitVec 18).extractLsb' (6 * k) 6 := fun k hk => by
      apply BitVec.eq_of_getLsbD_eq
      intro n hn
      rw [BitVec.getLsbD_extractLsb', BitVec.getLsbD_extractLsb', app24, app18]
      interval_cases k <;> interval_cases n <;> simp
    show Out.ok ([Spec.Blowfish.char ((x ++ y ++ 0#8 : BitVec 24).extractLsb' (6 * 2 + 6) 6),
      Spec.Blowfish.char ((x ++ y ++ 0#8 : BitVec 24).extractLsb' (6 * 1 + 6) 6), Spec.Blowfish.char ((x ++ y ++ 0#8 : BitVec 24).extractLsb' (6 * 0 + 6) 6)], 1) = _
    rw [e 2 (by decide), e 1 (by decide), e 0 (by decide)]
  | x :: y :: z :: t =>
    obtain ⟨s0, s1, s2, s3⟩ := sextets3 x y z _ rfl
    have ih := encGroups_run t (avail - 4) (by simp at h ⊢; omega)
    rw [encGroups]
    simp only [List.take, List.length_cons, List.length_nil, Nat.reduceAdd, Nat.reduceSub, List.drop] at h ⊢
    rw [if_neg (by omega), s0, Out.bind_ok, s1, Out.bind_ok, s2, Out.bind_ok, s3, Out.bind_ok, ih, Out.bind_ok, Spec.Blowfish.radix64]
    simp only
    refine congrArg Out.ok (Prod.ext rfl ?_)
    simp only
    rw [show (t.length + 1 + 1 + 1) % 3 = t.length % 3 by omega]
    rcases t with _ | ⟨w, t⟩ <;> rfl
termination_by b.length

theorem radix64_length (b : Bytes) : (Spec.Blowfish.radix64 b).length = (4 * b.length + 2) / 3 := by
  match b with
  | [] => rfl
  | [x] => rw [Spec.Blowfish.radix64]; simp
  | [x, y] => rw [Spec.Blowfish.radix64]; simp
  | x :: y :: z :: t =>
    have ih := radix64_length t
    rw [Spec.Blowfish.radix64, List.length_append, ih]
    simp only [List.length_cons, List.length_nil]
    omega
termination_by b.length

theorem encodeBuffer_run (b : Bytes) (hb : b.length = 16 ∨ b.length = 23) :
    encodeBuffer b = .ok (Spec.Blowfish.radix64 b ++ List.replicate ((3 - b.length % 3) % 3) 0x3D#8) := by
  have hl := radix64_length b
  have ho : Base64.roundUp4 ((b.length * 8) / 6) = 4 * ((b.length + 2) / 3) := by
    rcases hb with e | e <;> rw [e] <;> rfl
  unfold encodeBuffer
  simp only
  rw [ho, encGroups_run b _ (Nat.le_refl _), Out.bind_ok]
  simp only
  rw [if_pos (by rw [List.length_append, List.length_replicate, hl]; rcases hb with e | e <;> rw [e])]

theorem bytes_put (x : W32) : putBe32 x = Spec.Blowfish.bytes x := by
  have e : ∀ n k : Nat, 256 ^ k = 2 ^ n → ((x >>> n) &&& 0xFF#32).setWidth 8 = BitVec.ofNat 8 (x.toNat / 256 ^ k % 256) := fun n k h => by
    apply BitVec.eq_of_toNat_eq
    rw [BitVec.toNat_setWidth, BitVec.toNat_and, BitVec.toNat_ushiftRight, Nat.shiftRight_eq_div_pow, h]
    show (x.toNat / 2 ^ n &&& (2 ^ 8 - 1)) % 2 ^ 8 = x.toNat / 2 ^ n % 256 % 2 ^ 8
    rw [Nat.and_two_pow_sub_one_eq_mod]
  unfold putBe32 Spec.Blowfish.bytes Spec.Blowfish.byte
  rw [e 24 3 rfl, e 16 2 rfl, e 8 1 rfl, show x &&& 0xFF#32 = (x >>> 0) &&& 0xFF#32 by simp, e 0 0 rfl]
  rfl

/-- `kryptos_bcrypt` computes bcrypt for the costs, salts and passwords that it accepts. -/
theorem bcrypt_standard (cost : Int) (salt pw : Bytes) : bcrypt cost salt pw =
    .ok (if 4 ≤ cost ∧ cost ≤ 31 ∧ salt.length = 16 ∧ pw.length ≤ 72 then some (Spec.Blowfish.hash cost.toNat salt pw) else none) := by
  unfold bcrypt
  by_cases h : 4 ≤ cost ∧ cost ≤ 31 ∧ salt.length = 16 ∧ pw.length ≤ 72
  · obtain ⟨h1, h2, h3, h4⟩ := h
    rw [if_neg (by simp; omega), if_pos ⟨h1, h2, h3, h4⟩]
    obtain ⟨k, hk, hr⟩ := setup_run cost.toNat salt (pw ++ [0]) h3 (by simp)
    rw [hk, Out.bind_ok]
    rw [show magic.take 8 = be2 (0x4F727068, 0x65616E42) by decide, show (magic.drop 8).take 8 = be2 (0x65686F6C, 0x64657253) by decide,
      show magic.drop 16 = be2 (0x63727944, 0x6F756274) by decide, enc64_run hr, Out.bind_ok, enc64_run hr, Out.bind_ok, enc64_run hr, Out.bind_ok]
    rw [encodeBuffer_run salt (.inl h3), Out.bind_ok]
    have hc : ∀ c d e : W32 × W32, ((be2 c ++ be2 d ++ be2 e).take 23).length = 23 := fun c d e => rfl
    rw [encodeBuffer_run _ (.inr (hc _ _ _)), Out.bind_ok, hc, h3]
    have hl := radix64_length salt
    have hl2 : ∀ c d e : W32 × W32, (Spec.Blowfish.radix64 ((be2 c ++ be2 d ++ be2 e).take 23)).length = 31 := fun c d e => by
      rw [radix64_length, hc]
    rw [h3] at hl
    show Out.ok (some (_ ++ _ ++ _)) = _
    rw [List.length_append, List.length_append, hl, hl2, List.length_replicate, List.length_replicate, List.take_left' (by rw [hl]), List.take_left' (by rw [hl2])]
    unfold Spec.Blowfish.hash Spec.Blowfish.raw pfx be2
    simp only [bytes_put, List.map_cons, List.map_nil, List.flatMap_cons, List.flatMap_nil, List.append_assoc, List.append_nil]
  · rw [if_neg h, if_pos (by simp; omega)]

/-- Cost 5, a salt of 16 bytes and a short password meet the conditions. -/
example : bcrypt 5 (ascii "salt of 16 bytes") (ascii "password") = .ok (some (Spec.Blowfish.hash 5 (ascii "salt of 16 bytes") (ascii "password"))) := by
  rw [bcrypt_standard, if_pos (by decide)]; rfl

/-! ## The verification of passwords -/

theorem look_char : ∀ v : BitVec 6, look (Spec.Blowfish.char v) = .ok (v.setWidth 32) := by decide +kernel

theorem char_ne : ∀ v : BitVec 6, Spec.Blowfish.char v ≠ 0x3D#8 := by decide +kernel

theorem radix64_char (b : Bytes) : ∀ c ∈ Spec.Blowfish.radix64 b, ∃ v, c = Spec.Blowfish.char v := by
  match b with
  | [] => intro c hc; simp [Spec.Blowfish.radix64] at hc
  | [x] =>
    intro c hc
    rw [Spec.Blowfish.radix64] at hc
    simp only [List.mem_cons, List.not_mem_nil, or_false] at hc
    rcases hc with e | e <;> exact ⟨_, e⟩
  | [x, y] =>
    intro c hc
    rw [Spec.Blowfish.radix64] at hc
    simp only [List.mem_cons, List.not_mem_nil, or_false] at hc
    rcases hc with e | e | e <;> exact ⟨_, e⟩
  | x :: y :: z :: t =>
    intro c hc
    rw [Spec.Blowfish.radix64] at hc
    simp only [List.cons_append, List.nil_append, List.mem_cons] at hc
    rcases hc with e | e | e | e | e
    · exact ⟨_, e⟩
    · exact ⟨_, e⟩
    · exact ⟨_, e⟩
    · exact ⟨_, e⟩
    · exact radix64_char t c e
termination_by b.length

/-- The bytes of a text of whole groups and one more byte. -/
theorem decLoop_run (b : Bytes) (u v : BitVec 6) (rest : Bytes) (hb : b.length % 3 = 1) :
    decLoop (Spec.Blowfish.radix64 b ++ Spec.Blowfish.char u :: Spec.Blowfish.char v :: rest) b.length = .ok b := by
  match b with
  | [] => simp at hb
  | [x, y] => simp at hb
  | [x] =>
    rw [Spec.Blowfish.radix64]
    show decLoop (Spec.Blowfish.char _ :: Spec.Blowfish.char _ :: Spec.Blowfish.char u :: Spec.Blowfish.char v :: rest) (0 + 1) = _
    rw [decLoop, look_char, Out.bind_ok, look_char, Out.bind_ok, look_char, Out.bind_ok, look_char, Out.bind_ok]
    refine congrArg Out.ok (congrArg (fun c => [c]) ?_)
    apply BitVec.eq_of_getLsbD_eq
    intro n hn
    have e : ∀ (k i : Nat), ((x ++ 0#4 : BitVec 12).extractLsb' k 6).getLsbD i = (decide (i < 6) && if k + i < 4 then false else x.getLsbD (k + i - 4)) :=
      fun k i => by rw [BitVec.getLsbD_extractLsb', app12]
    simp only [BitVec.getLsbD_setWidth, BitVec.getLsbD_and, BitVec.getLsbD_ushiftRight, BitVec.getLsbD_or, BitVec.getLsbD_shiftLeft, e]
    interval_cases n <;> simp
  | x :: y :: z :: t =>
    have ih := decLoop_run t u v rest (by simp only [List.length_cons] at hb; omega)
    rw [Spec.Blowfish.radix64]
    show decLoop (Spec.Blowfish.char _ :: Spec.Blowfish.char _ :: Spec.Blowfish.char _ :: Spec.Blowfish.char _ ::
      (Spec.Blowfish.radix64 t ++ Spec.Blowfish.char u :: Spec.Blowfish.char v :: rest)) (t.length + 2 + 1) = _
    rw [decLoop, look_char, Out.bind_ok, look_char, Out.bind_ok, look_char, Out.bind_ok, look_char, Out.bind_ok]
    simp only
    rw [ih, Out.bind_ok]
    have e : ∀ (k i : Nat), ((x ++ y ++ z : BitVec 24).extractLsb' k 6).getLsbD i = (decide (i < 6) &&
        if k + i < 8 then z.getLsbD (k + i) else if k + i - 8 < 8 then y.getLsbD (k + i - 8) else x.getLsbD (k + i - 8 - 8)) :=
      fun k i => by rw [BitVec.getLsbD_extractLsb', app24]
    refine congrArg Out.ok (List.cons_eq_cons.mpr ⟨?_, List.cons_eq_cons.mpr ⟨?_, List.cons_eq_cons.mpr ⟨?_, rfl⟩⟩⟩) <;>
      apply BitVec.eq_of_getLsbD_eq <;> intro n hn <;>
      simp only [BitVec.getLsbD_setWidth, BitVec.getLsbD_and, BitVec.getLsbD_ushiftRight, BitVec.getLsbD_or, BitVec.getLsbD_shiftLeft, e] <;>
      interval_cases n <;> simp
termination_by b.length

theorem digits : ∀ n : Nat, n < 32 → isDigit (BitVec.ofNat 8 (48 + n / 10)) = true ∧ isDigit (BitVec.ofNat 8 (48 + n % 10)) = true ∧
    10 * ((BitVec.ofNat 8 (48 + n / 10)).toNat - 48 : Int) + ((BitVec.ofNat 8 (48 + n % 10)).toNat - 48 : Int) = n := by decide +kernel

/-- The parts of `verify` for a text that begins like a hash. -/
theorem verify_pfx (pw rest : Bytes) (cost : Nat) (h1 : 4 ≤ cost) (h2 : cost ≤ 31) (hl : 16 ≤ rest.length) : verify pw (pfx cost ++ rest) = (do
    let salt ← decodeSalt (pfx cost ++ rest)
    match ← bcrypt cost salt pw with
    | none => return false
    | some h => return h.length = (pfx cost ++ rest).length && h = pfx cost ++ rest) := by
  obtain ⟨d1, d2, d3⟩ := digits cost (by omega)
  have e : pfx cost ++ rest = 0x24 :: 0x32 :: 0x61 :: 0x24 :: BitVec.ofNat 8 (48 + cost / 10) :: BitVec.ofNat 8 (48 + cost % 10) :: 0x24 :: rest := rfl
  rw [e]
  unfold verify
  rw [if_neg (by simp only [List.length_cons]; omega)]
  show (if _ then _ else _) = _
  rw [d1, d2, if_neg (by decide)]
  simp only [d3]
  rw [if_neg (by simp; omega)]
  rfl

theorem hash_eq (cost : Nat) (salt pw : Bytes) : ∃ ct : Bytes, ct.length = 23 ∧
    Spec.Blowfish.hash cost salt pw = pfx cost ++ (Spec.Blowfish.radix64 salt ++ Spec.Blowfish.radix64 ct) := by
  refine ⟨_, ?_, by unfold Spec.Blowfish.hash pfx; simp only [List.append_assoc]; rfl⟩
  unfold Spec.Blowfish.raw
  simp [Spec.Blowfish.bytes]

theorem decodeSalt_hash (cost : Nat) (salt ct : Bytes) (hs : salt.length = 16) (hc : ct.length = 23) :
    decodeSalt (pfx cost ++ (Spec.Blowfish.radix64 salt ++ Spec.Blowfish.radix64 ct)) = .ok salt := by
  have hl := radix64_length salt
  rw [hs] at hl
  have hl2 := radix64_length ct
  rw [hc] at hl2
  have hp : (pfx cost).length = 7 := rfl
  unfold decodeSalt
  rw [rd_getD 0 (by simp only [List.length_append, hl, hl2, hp]; omega), Out.bind_ok]
  rw [← List.append_assoc, List.take_left' (by simp only [List.length_append, hl, hp]), List.reverse_append]
  have hcp : ∀ t, Base64.countPad ((Spec.Blowfish.radix64 salt).reverse ++ t) = .ok 0 := fun t => by
    rcases hr : (Spec.Blowfish.radix64 salt).reverse with _ | ⟨c, l⟩
    · have := congrArg List.length hr
      rw [List.length_reverse, hl] at this
      simp at this
    · obtain ⟨v, rfl⟩ := radix64_char salt c (by rw [← List.mem_reverse, hr]; exact List.mem_cons_self)
      rw [List.cons_append, Base64.countPad, if_neg (char_ne v)]
  rw [hcp, Out.bind_ok, if_neg (by decide), List.append_assoc, List.drop_left' hp]
  obtain ⟨x, y, z, t, rfl⟩ : ∃ x y z t, ct = x :: y :: z :: t := by
    rcases ct with _ | ⟨x, _ | ⟨y, _ | ⟨z, t⟩⟩⟩ <;> simp at hc
    exact ⟨x, y, z, t, rfl⟩
  rw [show Spec.Blowfish.radix64 (x :: y :: z :: t) = _ from Spec.Blowfish.radix64.eq_1 x y z t]
  have := decLoop_run salt ((x ++ y ++ z : BitVec 24).extractLsb' 18 6) ((x ++ y ++ z : BitVec 24).extractLsb' 12 6)
    (Spec.Blowfish.char ((x ++ y ++ z : BitVec 24).extractLsb' 6 6) :: Spec.Blowfish.char ((x ++ y ++ z : BitVec 24).extractLsb' 0 6) ::
      Spec.Blowfish.radix64 t) (by rw [hs])
  rw [hs] at this
  exact this

/-- A hash is accepted exactly for the passwords that it can be computed from. -/
theorem bcrypt_verify_iff (pw h : Bytes) : verify pw h = .ok true ↔ ∃ cost salt, bcrypt cost salt pw = .ok (some h) := by
  constructor
  · intro hv
    by_cases hl : h.length ≤ 22
    · unfold verify at hv
      rw [if_pos hl] at hv
      simp [Out.pure_eq] at hv
    · obtain ⟨c0, c1, c2, c3, c4, c5, c6, rest, rfl⟩ : ∃ c0 c1 c2 c3 c4 c5 c6 rest, h = c0 :: c1 :: c2 :: c3 :: c4 :: c5 :: c6 :: rest := by
        rcases h with _ | ⟨c0, _ | ⟨c1, _ | ⟨c2, _ | ⟨c3, _ | ⟨c4, _ | ⟨c5, _ | ⟨c6, rest⟩⟩⟩⟩⟩⟩⟩ <;> simp at hl
        exact ⟨_, _, _, _, _, _, _, _, rfl⟩
      unfold verify at hv
      rw [if_neg hl] at hv
      simp only [rd, List.getElem?_cons_zero, List.getElem?_cons_succ, Out.ofOption, Out.bind_ok] at hv
      split at hv
      · simp [Out.pure_eq] at hv
      split at hv
      · simp [Out.pure_eq] at hv
      split at hv
      · simp [Out.pure_eq] at hv
      generalize 10 * (c4.toNat - 48 : Int) + (c5.toNat - 48 : Int) = cost at hv
      cases hs : decodeSalt (c0 :: c1 :: c2 :: c3 :: c4 :: c5 :: c6 :: rest) with
      | ub => rw [hs] at hv; cases hv
      | ok salt =>
        rw [hs, Out.bind_ok] at hv
        cases hb : bcrypt cost salt pw with
        | ub => rw [hb] at hv; cases hv
        | ok r =>
          rw [hb, Out.bind_ok] at hv
          cases r with
          | none => simp [Out.pure_eq] at hv
          | some h' =>
            simp only [Out.pure_eq, Out.ok.injEq, Bool.and_eq_true, decide_eq_true_eq] at hv
            exact ⟨cost, salt, by rw [hb, hv.2]⟩
  · rintro ⟨cost, salt, hb⟩
    rw [bcrypt_standard] at hb
    split at hb
    · next hc =>
      obtain ⟨h1, h2, h3, h4⟩ := hc
      obtain ⟨n, rfl⟩ : ∃ n : Nat, cost = n := ⟨cost.toNat, by omega⟩
      obtain ⟨ct, hct, he⟩ := hash_eq n salt pw
      have hh : h = Spec.Blowfish.hash n salt pw := by simpa using hb.symm
      have hl := radix64_length salt
      rw [hh, he, verify_pfx _ _ n (by omega) (by omega) (by rw [List.length_append, hl]; omega), decodeSalt_hash n salt ct h3 hct, Out.bind_ok,
        bcrypt_standard, if_pos ⟨h1, h2, h3, h4⟩, Out.bind_ok]
      simp only [Int.toNat_natCast, he]
      simp [Out.pure_eq]
    · simp at hb

/-- The hashes that are computed are accepted for their password. -/
theorem bcrypt_verify_own (cost : Int) (salt pw h : Bytes) (hb : bcrypt cost salt pw = .ok (some h)) : verify pw h = .ok true :=
  (bcrypt_verify_iff pw h).mpr ⟨cost, salt, hb⟩

example : verify (ascii "password") (Spec.Blowfish.hash 5 (ascii "salt of 16 bytes") (ascii "password")) = .ok true :=
  bcrypt_verify_own 5 (ascii "salt of 16 bytes") _ _ (by rw [bcrypt_standard, if_pos (by decide)]; rfl)

/-- A text with the beginning of a hash that has between 23 and 28 bytes is read past its end. -/
theorem bcrypt_verify_short_undefined (pw rest : Bytes) (cost : Nat) (h1 : 4 ≤ cost) (h2 : cost ≤ 31) (hl : 16 ≤ rest.length) (hr : rest.length ≤ 21) :
    verify pw (pfx cost ++ rest) = .ub := by
  rw [verify_pfx pw rest cost h1 h2 hl]
  unfold decodeSalt
  have : rd (pfx cost ++ rest) 28 = .ub := by
    unfold rd
    rw [List.getElem?_eq_none (by rw [List.length_append, show (pfx cost).length = 7 from rfl]; omega)]
    rfl
  rw [this]
  rfl

example : verify (ascii "password") (ascii "$2a$10$0123456789012345") = .ub :=
  bcrypt_verify_short_undefined _ (ascii "0123456789012345") 10 (by decide) (by decide) (by decide) (by decide)

/-- A byte 0xFF at the beginning of the salt is looked up behind the end of the table. -/
theorem bcrypt_verify_ff_undefined (pw rest : Bytes) (cost : Nat) (h1 : 4 ≤ cost) (h2 : cost ≤ 31) (hl : 23 ≤ rest.length)
    (he : rest.getD 20 0 ≠ 0x3D#8) : verify pw (pfx cost ++ 0xFF#8 :: rest) = .ub := by
  rw [verify_pfx pw _ cost h1 h2 (by simp; omega)]
  have hp : (pfx cost).length = 7 := rfl
  have hd : decodeSalt (pfx cost ++ 0xFF#8 :: rest) = .ub := by
    unfold decodeSalt
    rw [rd_getD 0 (by rw [List.length_append, hp, List.length_cons]; omega), Out.bind_ok]
    have hc : Base64.countPad ((pfx cost ++ 0xFF#8 :: rest).take 29).reverse = .ok 0 := by
      rcases hr : ((pfx cost ++ 0xFF#8 :: rest).take 29).reverse with _ | ⟨c, l⟩
      · have := congrArg List.length hr
        simp [hp] at this
      · have h0 : ((pfx cost ++ 0xFF#8 :: rest).take 29).reverse[0]? = (c :: l)[0]? := by rw [hr]
        have hlen : ((pfx cost ++ 0xFF#8 :: rest).take 29).length = 29 := by
          rw [List.length_take, List.length_append, hp, List.length_cons]; omega
        rw [List.getElem?_reverse (by omega), hlen, List.getElem?_take_of_lt (by omega), List.getElem?_append_right (by omega), hp] at h0
        rw [Base64.countPad, if_neg]
        intro e
        rw [e] at h0
        apply he
        rw [List.getD_eq_getElem?_getD]
        simp only [Nat.reduceSub, List.getElem?_cons_succ, List.getElem?_cons_zero] at h0
        rw [h0]; rfl
    rw [hc, Out.bind_ok, if_neg (by decide), List.drop_left' hp]
    rcases rest with _ | ⟨b, _ | ⟨c, _ | ⟨d, t⟩⟩⟩
    · simp at hl
    · simp at hl
    · simp at hl
    · show decLoop (0xFF#8 :: b :: c :: d :: t) (15 + 1) = _
      rw [decLoop, show look 0xFF#8 = .ub by decide]
      rfl
  rw [hd]
  rfl

example : verify (ascii "password") (pfx 10 ++ 0xFF#8 :: List.replicate 52 0x41) = .ub :=
  bcrypt_verify_ff_undefined _ _ 10 (by decide) (by decide) (by decide) (by decide)

theorem look_safe : ∀ c : Byte, c ≠ 0xFF#8 → ∃ v, look c = .ok v := by
  intro c hc
  unfold look
  have hl : state1.length = 255 := by decide +kernel
  have hn : (Base64.encodedByte c).toNat < 255 := by
    unfold Base64.encodedByte
    split
    · have := c.isLt
      have : c.toNat ≠ 255 := fun e => hc (BitVec.eq_of_toNat_eq e)
      omega
    · decide
  rw [rd_getD 0 (by rw [hl]; exact hn)]
  exact ⟨_, rfl⟩

theorem decLoop_safe : ∀ (n : Nat) (t : Bytes), 4 * ((n + 2) / 3) ≤ t.length → (∀ c ∈ t.take (4 * ((n + 2) / 3)), c ≠ 0xFF#8) →
    ∃ o, decLoop t n = .ok o ∧ o.length = n := by
  intro n
  induction n using Nat.strongRecOn with
  | _ n ih =>
    intro t hl hc
    rcases n with _ | n
    · exact ⟨[], by rw [decLoop], rfl⟩
    · rcases t with _ | ⟨a, _ | ⟨b, _ | ⟨c, _ | ⟨d, t⟩⟩⟩⟩
      · simp at hl; omega
      · simp at hl; omega
      · simp at hl; omega
      · simp at hl; omega
      · have e4 : 4 * ((n + 1 + 2) / 3) = (4 * (n / 3)) + 4 := by omega
        rw [e4] at hc
        simp only [List.take_succ_cons, List.mem_cons] at hc
        obtain ⟨va, ea⟩ := look_safe a (hc a (.inl rfl))
        obtain ⟨vb, eb⟩ := look_safe b (hc b (.inr (.inl rfl)))
        obtain ⟨vc, ec⟩ := look_safe c (hc c (.inr (.inr (.inl rfl))))
        obtain ⟨vd, ed⟩ := look_safe d (hc d (.inr (.inr (.inr (.inl rfl)))))
        rw [decLoop, ea, Out.bind_ok, eb, Out.bind_ok, ec, Out.bind_ok, ed, Out.bind_ok]
        match n, ih, hl, hc with
        | 0, _, _, _ => exact ⟨_, rfl, rfl⟩
        | 1, _, _, _ => exact ⟨_, rfl, rfl⟩
        | m + 2, ih, hl, hc =>
          obtain ⟨o, ho, hol⟩ := ih m (by omega) t (by simp only [List.length_cons] at hl; omega)
            (fun c h => hc c (.inr (.inr (.inr (.inr (by rw [show (m + 2) / 3 = (m + 2) / 3 from rfl]; exact h))))))
          simp only
          rw [ho, Out.bind_ok]
          exact ⟨_, rfl, by simp [hol]⟩

theorem countPad_le : ∀ (l : Bytes) (k : Nat) (c : Byte), l[k]? = some c → c ≠ 0x3D#8 → ∃ n, n ≤ k ∧ Base64.countPad l = .ok n
  | [], k, c, h, _ => by simp at h
  | a :: l, 0, c, h, hc => by
    obtain rfl : a = c := by simpa using h
    exact ⟨0, Nat.le_refl _, by rw [Base64.countPad, if_neg hc]⟩
  | a :: l, k + 1, c, h, hc => by
    rw [Base64.countPad]
    split
    · obtain ⟨n, h1, h2⟩ := countPad_le l k c (by simpa using h) hc
      exact ⟨n + 1, by omega, by rw [h2]; rfl⟩
    · exact ⟨0, by omega, rfl⟩

/-- Texts of at most 22 or at least 31 bytes are looked at safely when the 24 characters from position 7 on do not contain the byte 0xFF and one of
the 17 before position 29 is not the sign `=`.  Missing: other texts, for which bytes outside of the text or the table may be read. -/
theorem bcrypt_verify_defined_partial (pw h : Bytes) (hl : h.length ≤ 22 ∨ 31 ≤ h.length) (hf : ∀ c ∈ (h.drop 7).take 24, c ≠ 0xFF#8)
    (he : ∃ i c, 12 ≤ i ∧ i ≤ 28 ∧ h[i]? = some c ∧ c ≠ 0x3D#8) : ∃ b, verify pw h = .ok b := by
  by_cases hl' : h.length ≤ 22
  · exact ⟨false, by unfold verify; rw [if_pos hl']; rfl⟩
  · have hs : ∃ salt, decodeSalt h = .ok salt := by
      unfold decodeSalt
      rw [rd_getD 0 (by omega), Out.bind_ok]
      obtain ⟨i, c, h12, h28, hi, hc⟩ := he
      obtain ⟨n, hn, hp⟩ := countPad_le (h.take 29).reverse (28 - i) c (by
        rw [List.getElem?_reverse (by rw [List.length_take]; omega), List.length_take, Nat.min_eq_left (by omega),
          List.getElem?_take_of_lt (by omega), show 29 - 1 - (28 - i) = i by omega, hi]) hc
      rw [hp, Out.bind_ok, if_neg (by omega)]
      obtain ⟨o, ho, _⟩ := decLoop_safe (16 - n) (h.drop 7) (by rw [List.length_drop]; omega) (fun c hc => hf c (by
        refine List.mem_of_mem_take (i := 4 * ((16 - n + 2) / 3)) ?_
        rw [List.take_take, Nat.min_eq_left (by omega)]
        exact hc))
      exact ⟨o, ho⟩
    obtain ⟨salt, hs⟩ := hs
    obtain ⟨c0, c1, c2, c3, c4, c5, c6, rest, rfl⟩ : ∃ c0 c1 c2 c3 c4 c5 c6 rest, h = c0 :: c1 :: c2 :: c3 :: c4 :: c5 :: c6 :: rest := by
      rcases h with _ | ⟨c0, _ | ⟨c1, _ | ⟨c2, _ | ⟨c3, _ | ⟨c4, _ | ⟨c5, _ | ⟨c6, rest⟩⟩⟩⟩⟩⟩⟩ <;> simp at hl'
      exact ⟨_, _, _, _, _, _, _, _, rfl⟩
    unfold verify
    rw [if_neg hl']
    simp only [rd, List.getElem?_cons_zero, List.getElem?_cons_succ, Out.ofOption, Out.bind_ok]
    split
    · exact ⟨_, rfl⟩
    split
    · exact ⟨_, rfl⟩
    split
    · exact ⟨_, rfl⟩
    rw [hs, Out.bind_ok, bcrypt_standard, Out.bind_ok]
    split <;> exact ⟨_, rfl⟩

/-- A text of 60 characters that is no hash at all. -/
example : ∃ b, verify (ascii "password") (List.replicate 60 0x41) = .ok b :=
  bcrypt_verify_defined_partial _ _ (by simp) (by decide) ⟨12, 0x41, by decide⟩

end Kryptos.Blowfish
