import Verif.Lemmas.Argon2Fill
/- The variable-length hash function of Argon2 and the whole. -/
namespace Kryptos.Argon2
open Spec.MD (leNat le beNat be)
open Spec.Argon2 (Memory Params Way V)

/-- Each group of eight bytes reversed. -/
def rev8 (d : Bytes) : Bytes := (List.range (d.length / 8)).flatMap fun k => ((d.drop (8 * k)).take 8).reverse

theorem rev8_append (a b : Bytes) (h : a.length % 8 = 0) : rev8 (a ++ b) = rev8 a ++ rev8 b := by
  unfold rev8
  rw [List.length_append, show (a.length + b.length) / 8 = a.length / 8 + b.length / 8 by omega, List.range_add, List.flatMap_append, List.flatMap_map]
  congr 1
  · refine List.flatMap_congr fun k hk => ?_
    rw [List.mem_range] at hk
    rw [List.drop_append_of_le_length (by omega), List.take_append_of_le_length (by rw [List.length_drop]; omega)]
  · refine List.flatMap_congr fun k hk => ?_
    rw [show 8 * (a.length / 8 + k) = a.length + 8 * k by omega, List.drop_append]
    rw [List.drop_of_length_le (by omega), List.nil_append, show a.length + 8 * k - a.length = 8 * k by omega]

theorem rev8_one (g : Bytes) (h : g.length = 8) : rev8 g = g.reverse := by
  unfold rev8
  rw [h]
  show ((g.drop 0).take 8).reverse ++ [] = _
  rw [List.append_nil, List.drop_zero, List.take_of_length_le (by omega)]

theorem rev8_length (d : Bytes) (h : d.length % 8 = 0) : (rev8 d).length = d.length := by
  unfold rev8
  rw [List.length_flatMap]
  have : (List.range (d.length / 8)).map (fun k => ((d.drop (8 * k)).take 8).reverse.length) = (List.range (d.length / 8)).map fun _ => 8 :=
    List.map_congr_left fun k hk => by
      rw [List.mem_range] at hk
      rw [List.length_reverse, List.length_take, List.length_drop]
      omega
  rw [this, List.map_const', List.length_range, List.sum_replicate_nat]
  omega

/-! BLAKE2b. -/

theorem hash64 (x : Bytes) (h : x.length + 128 < 2 ^ 64) : Blake2.blake2b512 [] (some x) false = .ok ⟨.success, Spec.Argon2.H 64 x⟩ := by
  obtain ⟨out, e, s⟩ := (Blake2.blake2b_task [] x 64 false h).1 (by decide)
  have s' : out = Spec.Blake2.digest Spec.Blake2.b [] x 64 := s
  rw [e, s']
  rfl

theorem hashN (x : Bytes) (n : Nat) (h : x.length + 128 < 2 ^ 64) (h0 : 0 < n) (hn : n ≤ 64) :
    Blake2.blake2bN [] (some x) n false = .ok ⟨.success, Spec.Argon2.H n x⟩ := by
  obtain ⟨out, e, s⟩ := (Blake2.blake2b_task [] x n false h).2.1 (by decide) h0 hn
  have s' : out = Spec.Blake2.digest Spec.Blake2.b [] x n := s
  rw [e, s']
  rfl

theorem H_length (n : Nat) (x : Bytes) (h : n ≤ 64) : (Spec.Argon2.H n x).length = n := Blake2.digest_length Spec.Blake2.b [] x n h

theorem V_length (T : Nat) (A : Bytes) (i : Nat) : (V T A i).length = 64 := by cases i <;> exact H_length _ _ (by decide)

theorem put32_eq (n : Nat) (h : n < 2 ^ 32) : put32 (BitVec.ofNat 32 n) = le 4 n := by
  unfold put32 le
  simp only [List.range, List.range.loop, List.map_cons, List.map_nil]
  congr 1
  · apply BitVec.eq_of_toNat_eq
    simp only [BitVec.toNat_setWidth, BitVec.toNat_ofNat]
    omega
  congr 1
  · apply BitVec.eq_of_toNat_eq
    simp only [BitVec.toNat_setWidth, BitVec.toNat_ushiftRight, BitVec.toNat_ofNat, Nat.shiftRight_eq_div_pow]
    omega
  congr 1
  · apply BitVec.eq_of_toNat_eq
    simp only [BitVec.toNat_setWidth, BitVec.toNat_ushiftRight, BitVec.toNat_ofNat, Nat.shiftRight_eq_div_pow]
    omega
  congr 1
  · apply BitVec.eq_of_toNat_eq
    simp only [BitVec.toNat_setWidth, BitVec.toNat_ushiftRight, BitVec.toNat_ofNat, Nat.shiftRight_eq_div_pow]
    omega

theorem copyGroup_eq (out : Bytes) (o room : Nat) (hr : 8 ≤ room) (ho : o + 8 ≤ out.length) :
    copyGroup out o room = .ok ((out.drop o).take 8).reverse := by
  unfold copyGroup
  rw [Nat.min_eq_left hr]
  have e : (List.range 8).mapM (fun k => rd out (o + 7 - k)) = .ok ((List.range 8).map fun k => out.getD (o + 7 - k) 0) :=
    mapM_ok _ _ _ fun k hk => by
      rw [List.mem_range] at hk
      exact Keccak.rd_getD _ _ (by omega)
  rw [e]
  congr 1
  apply List.ext_getElem
  · rw [List.length_map, List.length_range, List.length_reverse, List.length_take, List.length_drop]
    omega
  · intro i h1 h2
    rw [List.length_map, List.length_range] at h1
    rw [List.getElem_map, List.getElem_range, List.getElem_reverse, List.getElem_take, List.getElem_drop, List.getD_eq_getElem?_getD,
      List.getElem?_eq_getElem (by omega)]
    simp only [Option.getD_some]
    congr 1
    rw [List.length_take, List.length_drop]
    omega

theorem copyLoop_eq (out : Bytes) (oEnd T : Nat) (hE : oEnd ≤ out.length) : ∀ n fuel o a, o + 8 * n = oEnd → a.length + 8 * n ≤ T → n < fuel →
    copyLoop out oEnd T fuel o a = .ok (a ++ rev8 ((out.drop o).take (8 * n)))
  | 0, 0, _, _, _, _, hf => by omega
  | 0, fuel + 1, o, a, ho, _, _ => by
    rw [copyLoop, if_neg (by omega), Nat.mul_zero, List.take_zero]
    show Out.ok a = .ok (a ++ [])
    rw [List.append_nil]
  | n + 1, 0, _, _, _, _, hf => by omega
  | n + 1, fuel + 1, o, a, ho, ha, hf => by
    rw [copyLoop, if_pos ⟨by omega, by omega⟩, copyGroup_eq out o _ (by omega) (by omega), Out.bind_ok]
    have hl : ((out.drop o).take 8).length = 8 := by
      rw [List.length_take, List.length_drop]
      omega
    rw [copyLoop_eq out oEnd T hE n fuel (o + 8) _ (by omega) (by rw [List.length_append, List.length_reverse, hl]; omega) (by omega), List.append_assoc,
      show 8 * (n + 1) = 8 + 8 * n by omega, List.take_add, rev8_append _ _ (by rw [hl]), rev8_one _ hl, List.drop_drop]

/-- A group that is not whole cannot be copied. -/
theorem copyLoop_ub (out : Bytes) (T : Nat) : ∀ n fuel o a, o + 8 * n = out.length / 8 * 8 → out.length % 8 ≠ 0 → a.length + (out.length - o) = T →
    copyLoop out out.length T fuel o a = .ub
  | _, 0, _, _, _, _, _ => rfl
  | 0, fuel + 1, o, a, ho, h8, ha => by
    rw [copyLoop, if_pos ⟨by omega, by omega⟩]
    have : copyGroup out o (T - a.length) = .ub := by
      unfold copyGroup
      have : ∃ k, min 8 (T - a.length) = k + 1 := ⟨min 8 (T - a.length) - 1, by omega⟩
      obtain ⟨k, hk⟩ := this
      rw [hk, List.range_succ_eq_map, List.mapM_cons, rd, List.getElem?_eq_none (by omega)]
      rfl
    rw [this]
    rfl
  | n + 1, fuel + 1, o, a, ho, h8, ha => by
    rw [copyLoop, if_pos ⟨by omega, by omega⟩, copyGroup_eq out o _ (by omega) (by omega), Out.bind_ok]
    have hl : ((out.drop o).take 8).length = 8 := by
      rw [List.length_take, List.length_drop]
      omega
    exact copyLoop_ub out T n fuel (o + 8) _ (by omega) h8 (by rw [List.length_append, List.length_reverse, hl]; omega)

/-! The loop of the hash function. -/

/-- The first parts. -/
def pre (T : Nat) (A : Bytes) (i : Nat) : Bytes := (List.range i).flatMap fun i => (V T A i).take 32

theorem pre_succ (T : Nat) (A : Bytes) (i : Nat) : pre T A (i + 1) = pre T A i ++ (V T A i).take 32 := by
  unfold pre
  rw [List.range_succ, List.flatMap_append, List.flatMap_singleton]

theorem pre_length (T : Nat) (A : Bytes) (i : Nat) : (pre T A i).length = 32 * i := by
  induction i with
  | zero => rfl
  | succ i ih => rw [pre_succ, List.length_append, ih, List.length_take, V_length]; omega

theorem rev_pre (T : Nat) (A : Bytes) (i : Nat) : rev8 (pre T A (i + 1)) = rev8 (pre T A i) ++ rev8 ((V T A i).take 32) := by
  rw [pre_succ, rev8_append _ _ (by rw [pre_length]; omega)]

theorem rev_pre_length (T : Nat) (A : Bytes) (i : Nat) : (rev8 (pre T A i)).length = 32 * i := by
  rw [rev8_length _ (by rw [pre_length]; omega), pre_length]

theorem copy32 (T : Nat) (A : Bytes) (i : Nat) (h : 64 < T - 32 * i) :
    copyLoop (V T A i) (if T - 32 * i > 64 then (V T A i).length >>> 1 else (V T A i).length) T (T + 1) 0 (rev8 (pre T A i)) = .ok (rev8 (pre T A (i + 1))) := by
  rw [if_pos h, V_length, rev_pre]
  exact copyLoop_eq (V T A i) 32 T (by rw [V_length]; omega) 4 (T + 1) 0 _ rfl (by rw [rev_pre_length]; omega) (by omega)

theorem Hloop_more (T : Nat) (A : Bytes) (f i : Nat) (h : 64 < T - 32 * (i + 1)) :
    Hloop T (f + 1) (V T A i) (T - 32 * i) (rev8 (pre T A i)) = Hloop T f (V T A (i + 1)) (T - 32 * (i + 1)) (rev8 (pre T A (i + 1))) := by
  rw [Hloop, if_neg (by rw [rev_pre_length]; omega), copy32 T A i (by omega), Out.bind_ok]
  rw [if_neg (by rw [rev_pre_length]; omega), show T - 32 * i - 32 = T - 32 * (i + 1) by omega, if_pos h, hash64 _ (by rw [V_length]; decide), Out.bind_ok]
  rfl

theorem Hloop_last (T : Nat) (A : Bytes) (f i : Nat) (h : 64 < T - 32 * i) (h' : T - 32 * (i + 1) ≤ 64) :
    Hloop T (f + 1) (V T A i) (T - 32 * i) (rev8 (pre T A i)) =
      Hloop T f (Spec.Argon2.H (T - 32 * (i + 1)) (V T A i)) (T - 32 * (i + 1)) (rev8 (pre T A (i + 1))) := by
  rw [Hloop, if_neg (by rw [rev_pre_length]; omega), copy32 T A i (by omega), Out.bind_ok]
  rw [if_neg (by rw [rev_pre_length]; omega), show T - 32 * i - 32 = T - 32 * (i + 1) by omega, if_neg (by omega),
    hashN _ _ (by rw [V_length]; decide) (by omega) h', Out.bind_ok]
  rfl

theorem Hloop_run (T : Nat) (A : Bytes) (f : Nat) : ∀ n i, i + n + 1 = (T + 31) / 32 - 2 →
    Hloop T (f + n + 1) (V T A i) (T - 32 * i) (rev8 (pre T A i)) =
      Hloop T f (Spec.Argon2.H (T - 32 * ((T + 31) / 32 - 2)) (V T A ((T + 31) / 32 - 2 - 1))) (T - 32 * ((T + 31) / 32 - 2)) (rev8 (pre T A ((T + 31) / 32 - 2)))
  | 0, i, h => by
    rw [Nat.add_zero, Hloop_last T A f i (by omega) (by omega), show (T + 31) / 32 - 2 = i + 1 by omega]
    rfl
  | n + 1, i, h => by
    rw [show f + (n + 1) + 1 = (f + n + 1) + 1 by omega, Hloop_more T A _ i (by omega)]
    exact Hloop_run T A f n (i + 1) (by omega)

/-- C110: **the hash function of variable size**: at most 64 bytes are those of section 3.3 of RFC 9106; of more bytes, a multiple of eight, each group of eight
is reversed; with any other size the code reads beyond what it has hashed. -/
theorem H_eq (A : Bytes) (T : Nat) (hA : A.length + 132 < 2 ^ 64) (hT : T < 2 ^ 32) :
    (0 < T → T ≤ 64 → H A T = .ok (some (Spec.Argon2.H' T A))) ∧
    (64 < T → T % 8 = 0 → H A T = .ok (some (rev8 (Spec.Argon2.H' T A)))) ∧
    (64 < T → T % 8 ≠ 0 → H A T = .ub) ∧
    (T = 0 → H A T = .ok none) := by
  have hin : (le 4 T ++ A).length + 128 < 2 ^ 64 := by rw [List.length_append, Md.le_length]; omega
  have run : 64 < T → H A T = Hloop T (T + 1 - ((T + 31) / 32 - 2)) (Spec.Argon2.H (T - 32 * ((T + 31) / 32 - 2)) (V T A ((T + 31) / 32 - 2 - 1))) (T - 32 * ((T + 31) / 32 - 2))
      (rev8 (pre T A ((T + 31) / 32 - 2))) := fun h => by
    unfold H
    rw [put32_eq T hT]
    dsimp only
    rw [if_pos h, hash64 _ hin, Out.bind_ok]
    have e := Hloop_run T A (T + 1 - ((T + 31) / 32 - 2)) ((T + 31) / 32 - 2 - 1) 0 (by omega)
    rw [show T + 1 - ((T + 31) / 32 - 2) + ((T + 31) / 32 - 2 - 1) + 1 = T + 1 by omega] at e
    rw [← e]
    dsimp only
    rw [if_neg (by simp), if_neg (by omega), Nat.mul_zero, Nat.sub_zero]
    have e0 : rev8 (pre T A 0) = [] := by simp [rev8, pre]
    rw [e0]
    rfl
  refine ⟨fun h0 h1 => ?_, fun h1 h8 => ?_, fun h1 h8 => ?_, fun h0 => ?_⟩
  · unfold H Spec.Argon2.H'
    rw [put32_eq T hT]
    dsimp only
    rw [if_neg (by omega), hashN _ _ hin h0 h1, Out.bind_ok]
    dsimp only
    rw [if_neg (by simp), if_pos h1, if_pos h1]
    rfl
  · rw [run h1]
    unfold Spec.Argon2.H'
    rw [if_neg (by omega)]
    dsimp only
    show _ = Out.ok (some (rev8 (pre T A ((T + 31) / 32 - 2) ++ _)))
    rw [rev8_append _ _ (by rw [pre_length]; omega), show T + 1 - ((T + 31) / 32 - 2) = (T - ((T + 31) / 32 - 2)) + 1 by omega]
    have hl := H_length (T - 32 * ((T + 31) / 32 - 2)) (V T A ((T + 31) / 32 - 2 - 1)) (by omega)
    have hp := rev_pre_length T A ((T + 31) / 32 - 2)
    generalize Spec.Argon2.H (T - 32 * ((T + 31) / 32 - 2)) (V T A ((T + 31) / 32 - 2 - 1)) = out at *
    generalize rev8 (pre T A ((T + 31) / 32 - 2)) = a at *
    rw [Hloop, if_neg (by omega), if_neg (by omega), copyLoop_eq out out.length T (Nat.le_refl _) (out.length / 8) (T + 1) 0 a (by omega) (by omega) (by omega), Out.bind_ok,
      List.drop_zero, List.take_of_length_le (by omega)]
    rw [if_pos (by rw [List.length_append, rev8_length _ (by omega)]; omega)]
    rfl
  · rw [run h1, show T + 1 - ((T + 31) / 32 - 2) = (T - ((T + 31) / 32 - 2)) + 1 by omega]
    have hl := H_length (T - 32 * ((T + 31) / 32 - 2)) (V T A ((T + 31) / 32 - 2 - 1)) (by omega)
    have hp := rev_pre_length T A ((T + 31) / 32 - 2)
    generalize Spec.Argon2.H (T - 32 * ((T + 31) / 32 - 2)) (V T A ((T + 31) / 32 - 2 - 1)) = out at *
    generalize rev8 (pre T A ((T + 31) / 32 - 2)) = a at *
    rw [Hloop, if_neg (by omega), if_neg (by omega), copyLoop_ub out T (out.length / 8) (T + 1) 0 a (by omega) (by omega) (by omega)]
    rfl
  · subst h0
    unfold H
    dsimp only
    rw [if_neg (by omega), (Blake2.blake2b_task [] _ 0 false (by rw [put32_eq 0 (by decide)]; exact hin)).2.2.2 (by decide) (Or.inl rfl), Out.bind_ok]
    rfl

/-! The first blocks. -/

theorem getBe64_mid (x g y : Bytes) (h : g.length = 8) : getBe64 (x ++ (g.reverse ++ y)) x.length = .ok (BitVec.ofNat 64 (leNat g)) := by
  match g, h with
  | [a, b, c, d, e, f, g, h], _ =>
    have : BitVec.ofNat 64 (leNat [a, b, c, d, e, f, g, h]) = be64 h g f e d c b a := Tiger.ofNat_beNat8 h g f e d c b a
    rw [this]
    simp [getBe64, rd]

theorem words_eq (d : Bytes) (h : d.length = 1024) : words (rev8 d) = .ok (vec 128 (Spec.Argon2.ofBytes d)) := by
  refine mapM_vec 128 _ _ fun k hk => ?_
  have e : d = d.take (8 * k) ++ ((d.drop (8 * k)).take 8 ++ d.drop (8 * k + 8)) := by
    rw [← List.drop_drop, List.take_append_drop, List.take_append_drop]
  have l1 : (d.take (8 * k)).length = 8 * k := by rw [List.length_take]; omega
  have l2 : ((d.drop (8 * k)).take 8).length = 8 := by rw [List.length_take, List.length_drop]; omega
  have e2 : rev8 d = rev8 (d.take (8 * k)) ++ (((d.drop (8 * k)).take 8).reverse ++ rev8 (d.drop (8 * k + 8))) := by
    conv => lhs; rw [e]
    rw [rev8_append _ _ (by omega), rev8_append _ _ (by omega), rev8_one _ l2]
  rw [e2]
  have := getBe64_mid (rev8 (d.take (8 * k))) ((d.drop (8 * k)).take 8) (rev8 (d.drop (8 * k + 8))) l2
  rw [rev8_length _ (by omega), l1] at this
  exact this

theorem H'_length (T : Nat) (A : Bytes) : (Spec.Argon2.H' T A).length = T := by
  unfold Spec.Argon2.H'
  split
  · exact H_length _ _ (by assumption)
  · dsimp only
    rw [List.length_append, H_length _ _ (by omega)]
    have := pre_length T A ((T + 31) / 32 - 2)
    unfold pre at this
    rw [this]
    omega

theorem firstBlock_eq (c : Params) (B : Mem) (M : Memory) (D : Nat → Nat → Prop) (i j : Nat) (hi : i < c.p) (hp : c.p < 2 ^ 24) (hj : j < 2) (hq : 2 ≤ c.q)
    (hM : ∀ a b, M a b = Spec.Argon2.start c a b) (h : Rep c.p c.q B M D) :
    ∃ B', firstBlock (Spec.Argon2.H0 c) B i j = .ok B' ∧ Rep c.p c.q B' (Spec.Argon2.start c) fun a b => D a b ∨ (a = i ∧ b = j) := by
  unfold firstBlock
  rw [put32_eq j (by omega), put32_eq i (by omega)]
  have hl : (Spec.Argon2.H0 c).length = 64 := H_length _ _ (by decide)
  generalize hA : Spec.Argon2.H0 c ++ le 4 j ++ le 4 i = A
  have hA2 : A.length + 132 < 2 ^ 64 := by
    rw [← hA, List.length_append, List.length_append, hl, Md.le_length, Md.le_length]
    decide
  have e := (H_eq A 1024 hA2 (by decide)).2.1 (by decide) (by decide)
  rw [e, Out.bind_ok]
  dsimp only
  rw [words_eq _ (H'_length _ _), Out.bind_ok]
  obtain ⟨B', e1, e2⟩ := h.set i j hi (by omega) (Spec.Argon2.ofBytes (Spec.Argon2.H' 1024 A))
  refine ⟨B', e1, ?_⟩
  have hM2 : (fun a b => if a = i ∧ b = j then Spec.Argon2.ofBytes (Spec.Argon2.H' 1024 A) else M a b) = Spec.Argon2.start c := by
    funext a b
    split
    · rename_i q
      obtain ⟨rfl, rfl⟩ := q
      unfold Spec.Argon2.start
      rw [if_pos hj, hA]
    · exact hM a b
  rw [hM2] at e2
  exact e2

theorem firstBlocks_eq (c : Params) (hc : Sizes c) :
    ∃ B', firstBlocks (Spec.Argon2.H0 c) c.p (List.replicate c.p (List.replicate c.q none)) = .ok B' ∧ Rep c.p c.q B' (Spec.Argon2.start c) (done c 0 0 0 0) := by
  have hq : c.q = 4 * c.seg := rfl
  have seg0 := hc.seg0
  have p1 := hc.p1
  obtain ⟨B, e1, e2⟩ := foldlM_range (fun B i => do firstBlock (Spec.Argon2.H0 c) (← firstBlock (Spec.Argon2.H0 c) B i 0) i 1)
    (fun i B => Rep c.p c.q B (Spec.Argon2.start c) fun a b => a < i ∧ b < 2) c.p (by
      intro i hi B h
      obtain ⟨B1, a1, a2⟩ := firstBlock_eq c B _ _ i 0 hi p1 (by decide) (by omega) (fun _ _ => rfl) h
      obtain ⟨B2, b1, b2⟩ := firstBlock_eq c B1 _ _ i 1 hi p1 (by decide) (by omega) (fun _ _ => rfl) a2
      refine ⟨B2, ?_, b2.mono fun a b _ _ d => ?_⟩
      · rw [a1, Out.bind_ok, b1]
      · omega) (List.replicate c.p (List.replicate c.q none)) (by
      refine ⟨List.length_replicate, fun i h => ?_, fun i h j h' d => absurd d.1 (by omega)⟩
      rw [List.getElem_replicate, List.length_replicate])
  refine ⟨B, e1, e2.mono fun a b ha hb d => ⟨ha, ?_⟩⟩
  unfold done at d
  omega

/-! The end. -/

theorem cpyBe_rev (w : W64) : (Hash.cpyBe 8 w).reverse = le 8 w.toNat := by rw [Hash.cpyBe_eq, Md.le_eq]

theorem foldl_xor_vec (M : Memory) (q : Nat) (n : Nat) :
    (fun k => ((List.range (n + 1)).map fun i => M i q k).foldl (· ^^^ ·) (0 : W64)) =
      fun k => ((List.range n).map fun i => M i q k).foldl (· ^^^ ·) (0 : W64) ^^^ M n q k := by
  funext k
  rw [List.range_succ, List.map_append, List.foldl_append]
  rfl

theorem lastColumn_eq (c : Params) (hc : Sizes c) (B : Mem) (h : Rep c.p c.q B (Spec.Argon2.memory code c) fun _ _ => True) :
    lastColumn (ctx c) B = .ok (Spec.Argon2.toBytes (Spec.Argon2.final code c)) := by
  have hq : c.q = 4 * c.seg := rfl
  have seg0 := hc.seg0
  have p0 := hc.p0
  unfold lastColumn
  have e1 : (ctx c).q = c.q := rfl
  have e2 : (ctx c).p = c.p := rfl
  rw [e1, e2, h.get 0 (c.q - 1) p0 (by omega) trivial, Out.bind_ok]
  obtain ⟨b, e3, e4⟩ := foldlM_range (fun b i => do
    let y ← get B (i + 1) (c.q - 1)
    (List.range 128).mapM fun k => do return (← rd b k) ^^^ (← rd y k))
    (fun n b => b = vec 128 fun k => ((List.range (n + 1)).map fun i => Spec.Argon2.memory code c i (c.q - 1) k).foldl (· ^^^ ·) 0) (c.p - 1) (by
      intro n hn b hb
      subst hb
      refine ⟨_, ?_, rfl⟩
      rw [h.get (n + 1) (c.q - 1) (by omega) (by omega) trivial, Out.bind_ok, foldl_xor_vec _ _ (n + 1), xor_vec]) (vec 128 (Spec.Argon2.memory code c 0 (c.q - 1))) (by
      refine vec_congr _ _ _ fun k hk => ?_
      show _ = 0 ^^^ Spec.Argon2.memory code c 0 (c.q - 1) k
      exact BitVec.zero_xor.symm)
  rw [e3, Out.bind_ok, e4, show c.p - 1 + 1 = c.p by omega]
  show Out.ok ((vec 128 (Spec.Argon2.final code c)).flatMap _) = _
  unfold vec Spec.Argon2.toBytes
  rw [List.flatMap_map]
  congr 1
  exact List.flatMap_congr fun k _ => cpyBe_rev _

end Kryptos.Argon2
