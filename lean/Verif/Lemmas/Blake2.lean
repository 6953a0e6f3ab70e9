import Verif.Model.Blake2
import Verif.Spec.Blake2
import Verif.Lemmas.Md
import Verif.Lemmas.Tiger
/- The compression function of the code and that of RFC 7693. -/
namespace Kryptos.Blake2
open Spec.Blake2 (Param Vec put SIGMA IV)
open Spec.MD (leNat le)

variable {P : Param}

/-- The first `n` words of a vector. -/
def vec (n : Nat) (A : Vec P) : List (BitVec P.w) := (List.range n).map A

theorem vec_length (n : Nat) (A : Vec P) : (vec n A).length = n := by simp [vec]

theorem rd_vec (n : Nat) (A : Vec P) (i : Nat) (h : i < n) : rd (vec n A) i = .ok (A i) := by
  rw [rd_eq_ok (by rw [vec_length]; exact h)]
  simp [vec]

theorem wr_vec (n : Nat) (A : Vec P) (i : Nat) (x : BitVec P.w) (h : i < n) : wr (vec n A) i x = .ok (vec n (put A i x)) := by
  unfold wr
  rw [if_pos (by rw [vec_length]; exact h)]
  congr 1
  apply List.ext_getElem
  · simp [vec]
  · intro j h1 h2
    simp only [vec, put, List.getElem_set, List.getElem_map, List.getElem_range]
    by_cases e : i = j
    · rw [if_pos e, if_pos e.symm]
    · rw [if_neg e, if_neg (Ne.symm e)]

theorem set_same (A : Vec P) (i : Nat) (x : BitVec P.w) : put A i x i = x := by simp [put]
theorem set_set (A : Vec P) (i : Nat) (x y : BitVec P.w) : put (put A i x) i y = put A i y := by
  funext j; unfold put; split <;> rfl

theorem rot_eq (x : BitVec P.w) (y : Nat) (h0 : 0 < y) (h : y < P.w) : rot x y = .ok (x.rotateRight y) := by
  unfold rot
  rw [if_pos ⟨h0, h⟩, BitVec.rotateRight_def, Nat.mod_eq_of_lt h]

/-- The constants of the code are those of the parameters. -/
structure Fits (P : Param) (V : Var P.w) : Prop where
  wb : V.wb = P.wb
  w8 : P.w = 8 * P.wb
  wb0 : 0 < P.wb
  bb : V.bb = P.bb
  big : P.bb < 2 ^ P.w
  r : V.r = [P.R1, P.R2, P.R3, P.R4]
  rp : 0 < P.R1 ∧ 0 < P.R2 ∧ 0 < P.R3 ∧ 0 < P.R4
  rw : P.R1 < P.w ∧ P.R2 < P.w ∧ P.R3 < P.w ∧ P.R4 < P.w
  iv : V.iv = vec 8 (IV P)
  rows : V.rows = (List.range P.rounds).map (· % 10)
  get : ∀ x : Bytes, P.wb ≤ x.length → V.get x 0 = .ok (BitVec.ofNat _ (leNat (x.take P.wb)))
  put : ∀ x : BitVec P.w, Hash.cpyBe V.wb (V.rev x) = le P.wb x.toNat

section
variable {V : Var P.w} (hF : Fits P V)
include hF

theorem G_eq (v : Vec P) (a b c d : Nat) (x y : BitVec P.w) (ha : a < 16) (hb : b < 16) (hc : c < 16) (hd : d < 16) :
    G V.r (vec 16 v) a b c d x y = .ok (vec 16 (Spec.Blake2.G P v a b c d x y)) := by
  obtain ⟨p1, p2, p3, p4⟩ := hF.rp
  obtain ⟨q1, q2, q3, q4⟩ := hF.rw
  have r0 : rd V.r 0 = .ok P.R1 := by rw [hF.r]; rfl
  have r1 : rd V.r 1 = .ok P.R2 := by rw [hF.r]; rfl
  have r2 : rd V.r 2 = .ok P.R3 := by rw [hF.r]; rfl
  have r3 : rd V.r 3 = .ok P.R4 := by rw [hF.r]; rfl
  unfold G Spec.Blake2.G
  simp only [rd_vec 16 _ _ ha, rd_vec 16 _ _ hb, rd_vec 16 _ _ hc, rd_vec 16 _ _ hd, wr_vec 16 _ _ _ ha, wr_vec 16 _ _ _ hb,
    wr_vec 16 _ _ _ hc, wr_vec 16 _ _ _ hd, Out.bind_ok, r0, r1, r2, r3, rot_eq _ _ p1 q1, rot_eq _ _ p2 q2, rot_eq _ _ p3 q3,
    rot_eq _ _ p4 q4, set_set, set_same, BitVec.add_assoc]

omit hF in
theorem sigma_row (r : Nat) (hr : r < 10) : ∃ row, rd sigma r = .ok row ∧ ∀ k, k < 16 → rd row k = .ok (SIGMA r k) ∧ SIGMA r k < 16 := by
  have H : ∀ r < 10, ∀ k < 16, (rd sigma r >>= fun row => rd row k) = .ok (SIGMA r k) ∧ SIGMA r k < 16 := by decide +kernel
  have L : r < sigma.length := hr
  refine ⟨_, rd_eq_ok L, ?_⟩
  intro k hk
  have := H r hr k hk
  rw [rd_eq_ok L, Out.bind_ok] at this
  exact this

theorem round_eq (m v : Vec P) (i : Nat) :
    roundOf V.r (vec 16 m) (vec 16 v) (i % 10) = .ok (vec 16 (Spec.Blake2.round P m v i)) := by
  obtain ⟨row, e, h⟩ := sigma_row (i % 10) (Nat.mod_lt _ (by decide))
  unfold roundOf
  rw [e, Out.bind_ok]
  have g : ∀ (v : Vec P) (a b c d k : Nat), a < 16 → b < 16 → c < 16 → d < 16 → k + 1 < 16 →
      Gs V.r (vec 16 m) row (vec 16 v) a b c d k =
        .ok (vec 16 (Spec.Blake2.G P v a b c d (m (SIGMA (i % 10) k)) (m (SIGMA (i % 10) (k + 1))))) := by
    intro v a b c d k ha hb hc hd hk
    unfold Gs
    rw [(h k (by omega)).1, Out.bind_ok, rd_vec 16 _ _ (h k (by omega)).2, Out.bind_ok, (h (k + 1) hk).1, Out.bind_ok,
      rd_vec 16 _ _ (h (k + 1) hk).2, Out.bind_ok, G_eq hF v a b c d _ _ ha hb hc hd]
  simp only [g _ 0 4 8 12 0 (by decide) (by decide) (by decide) (by decide) (by decide),
    g _ 1 5 9 13 2 (by decide) (by decide) (by decide) (by decide) (by decide),
    g _ 2 6 10 14 4 (by decide) (by decide) (by decide) (by decide) (by decide),
    g _ 3 7 11 15 6 (by decide) (by decide) (by decide) (by decide) (by decide),
    g _ 0 5 10 15 8 (by decide) (by decide) (by decide) (by decide) (by decide),
    g _ 1 6 11 12 10 (by decide) (by decide) (by decide) (by decide) (by decide),
    g _ 2 7 8 13 12 (by decide) (by decide) (by decide) (by decide) (by decide),
    g _ 3 4 9 14 14 (by decide) (by decide) (by decide) (by decide) (by decide), Out.bind_ok, Nat.reduceAdd]
  rfl

theorem rounds_eq (m : Vec P) : ∀ (l : List Nat) (v : Vec P),
    (l.map (· % 10)).foldlM (roundOf V.r (vec 16 m)) (vec 16 v) = .ok (vec 16 (l.foldl (Spec.Blake2.round P m) v))
  | [], v => rfl
  | i :: l, v => by
    rw [List.map_cons, List.foldlM_cons, round_eq hF, Out.bind_ok, rounds_eq m l, List.foldl_cons]

theorem F_eq (h m : Vec P) (t0 t1 : BitVec P.w) (t : Nat) (f : Bool) (h0 : t0 = BitVec.ofNat _ (t % 2 ^ P.w))
    (h1 : t1 = BitVec.ofNat _ (t / 2 ^ P.w)) :
    F V (vec 8 h) (vec 16 m) t0 t1 f = .ok (vec 8 (Spec.Blake2.F P h m t f)) := by
  have c : ∀ A : Vec P, (List.range 8).mapM (fun i => rd (vec 8 A) i) = .ok (vec 8 A) := by
    intro A
    rw [mapM_ok _ A]
    · rfl
    · intro i hi; exact rd_vec 8 A i (by simpa using hi)
  unfold F
  rw [hF.iv, c, Out.bind_ok, c, Out.bind_ok]
  have j : vec 8 h ++ vec 8 (IV P) = vec 16 (fun i => if i < 8 then h i else IV P (i - 8)) := rfl
  dsimp only
  rw [j, rd_vec 16 _ _ (by decide), Out.bind_ok, wr_vec 16 _ _ _ (by decide), Out.bind_ok, rd_vec 16 _ _ (by decide), Out.bind_ok,
    wr_vec 16 _ _ _ (by decide), Out.bind_ok]
  have q : ∀ v : Vec P, (do
      let v ← V.rows.foldlM (roundOf V.r (vec 16 m)) (vec 16 v)
      (List.range 8).mapM fun i => do return (← rd (vec 8 h) i) ^^^ ((← rd v i) ^^^ (← rd v (i + 8)))) =
      .ok (vec 8 fun i => h i ^^^ (List.range P.rounds).foldl (Spec.Blake2.round P m) v i ^^^
        (List.range P.rounds).foldl (Spec.Blake2.round P m) v (i + 8)) := by
    intro v
    rw [hF.rows, rounds_eq hF, Out.bind_ok]
    apply mapM_ok
    intro i hi
    have hi : i < 8 := by simpa using hi
    rw [rd_vec 8 _ _ hi, Out.bind_ok, rd_vec 16 _ _ (by omega), Out.bind_ok, rd_vec 16 _ _ (by omega), Out.bind_ok, Out.pure_eq,
      ← BitVec.xor_assoc]
  subst h0 h1
  cases f
  · exact q _
  · simp only [if_true]
    rw [rd_vec 16 _ _ (by decide), Out.bind_ok, wr_vec 16 _ _ _ (by decide), Out.bind_ok, ← BitVec.xor_allOnes]
    exact q _

theorem chunk_eq (rest : Bytes) (h : P.wb ≤ rest.length) :
    nextChunk V rest = .ok (BitVec.ofNat _ (leNat (rest.take P.wb)), rest.drop P.wb) := by
  have := hF.wb0
  unfold nextChunk
  rw [if_pos (by omega), if_pos (by rw [hF.wb]; exact h), hF.get rest h, Out.bind_ok, hF.wb]
  rfl

theorem block_eq : ∀ (n : Nat) (rest : Bytes), P.wb * n ≤ rest.length →
    nextBlock V n rest = .ok (vec n (Spec.Blake2.words P rest), rest.drop (P.wb * n))
  | 0, rest, _ => by simp [nextBlock, vec]
  | n + 1, rest, h => by
    rw [Nat.mul_succ] at h
    rw [nextBlock, chunk_eq hF rest (by omega), Out.bind_ok]
    dsimp only
    rw [block_eq n _ (by rw [List.length_drop]; omega), Out.bind_ok, List.drop_drop]
    dsimp only
    rw [Out.pure_eq, Nat.mul_succ, Nat.add_comm P.wb]
    unfold vec
    rw [List.range_succ_eq_map, List.map_cons, List.map_map]
    congr 3
    apply List.map_congr_left
    intro i _
    simp only [Function.comp, Spec.Blake2.words, List.drop_drop, Nat.succ_eq_add_one, Nat.mul_add, Nat.mul_one, Nat.add_comm P.wb]

omit hF in
theorem loop_succ (n : Nat) (st : St P.w) : loop V (n + 1) st = loop V n st >>= body V := by
  induction n generalizing st with
  | zero =>
    rw [loop, loop, Out.pure_eq, Out.bind_ok]
    cases body V st <;> rfl
  | succ n ih =>
    rw [loop]
    rw [loop]
    cases body V st with
    | ub => rfl
    | ok a => rw [Out.bind_ok, Out.bind_ok, ih]

theorem loop_eq (h0 : Vec P) (d : Bytes) : ∀ n, (n + 1) * P.bb ≤ d.length →
    loop V n ⟨vec 8 h0, vec 16 (Spec.Blake2.words P d), BitVec.ofNat _ V.bb, 0, d.drop P.bb⟩ =
      .ok ⟨vec 8 (Spec.Blake2.chain P h0 d n), vec 16 (Spec.Blake2.words P (d.drop (n * P.bb))), BitVec.ofNat _ ((n + 1) * P.bb),
        BitVec.ofNat _ ((n + 1) * P.bb / 2 ^ P.w), d.drop ((n + 1) * P.bb)⟩
  | 0, _ => by
    rw [loop, hF.bb, Nat.zero_mul, Nat.zero_add, Nat.one_mul, Nat.div_eq_of_lt hF.big]
    rfl
  | n + 1, h => by
    have hb := hF.bb
    have big := hF.big
    have bb16 : P.bb = P.wb * 16 := Nat.mul_comm _ _
    have hs : (n + 1 + 1) * P.bb = (n + 1) * P.bb + P.bb := Nat.succ_mul _ _
    rw [hs] at h
    rw [loop_succ, loop_eq h0 d n (by omega), Out.bind_ok]
    unfold body
    dsimp only
    rw [F_eq hF _ _ _ _ ((n + 1) * P.bb) false (by apply BitVec.eq_of_toNat_eq; simp) rfl, Out.bind_ok,
      block_eq hF 16 _ (by rw [List.length_drop]; omega), Out.bind_ok]
    dsimp only
    rw [Out.pure_eq, List.drop_drop, ← bb16, ← hs, hb, ← BitVec.ofNat_add, ← hs]
    congr 2
    have pos : 0 < 2 ^ P.w := Nat.two_pow_pos _
    rw [hs]
    generalize (n + 1) * P.bb = T
    generalize hB : P.bb = B at big
    have hm := Nat.div_add_mod T (2 ^ P.w)
    have hl := Nat.mod_lt T pos
    have e : (T + B) / 2 ^ P.w = T / 2 ^ P.w + (T % 2 ^ P.w + B) / 2 ^ P.w := by
      conv_lhs => rw [← hm, Nat.add_assoc, Nat.mul_add_div pos]
    have e' : (T + B) % 2 ^ P.w = (T % 2 ^ P.w + B) % 2 ^ P.w := by rw [Nat.mod_add_mod]
    rw [e]
    by_cases c : T % 2 ^ P.w + B < 2 ^ P.w
    · rw [if_neg, Nat.div_eq_of_lt c, Nat.add_zero]
      rw [BitVec.lt_def, BitVec.toNat_ofNat, BitVec.toNat_ofNat, e', Nat.mod_eq_of_lt c, Nat.mod_eq_of_lt big]
      omega
    · have q : (T % 2 ^ P.w + B) / 2 ^ P.w = 1 := by
        rw [Nat.div_eq_iff pos]; omega
      have q' : (T % 2 ^ P.w + B) % 2 ^ P.w = T % 2 ^ P.w + B - 2 ^ P.w := by
        rw [Nat.mod_eq_sub_mod (by omega), Nat.mod_eq_of_lt (by omega)]
      rw [if_pos, q, BitVec.ofNat_add]
      · rfl
      rw [BitVec.lt_def, BitVec.toNat_ofNat, BitVec.toNat_ofNat, e', q', Nat.mod_eq_of_lt big]
      omega

theorem output_eq (nn : Nat) : ∀ (l : List (BitVec P.w)) (out : Bytes), out.length ≤ nn →
    output V nn l out = (out ++ l.flatMap fun x => le P.wb x.toNat).take nn
  | [], out, h => by rw [output, List.flatMap_nil, List.append_nil, List.take_of_length_le h]
  | x :: l, out, h => by
    rw [output]
    split
    · rw [output_eq nn l _ (by simp only [List.length_append, List.length_take]; omega), hF.put, List.flatMap_cons, ← List.append_assoc]
      generalize le P.wb x.toNat = y
      generalize (l.flatMap fun x => le P.wb x.toNat) = z
      by_cases c : y.length ≤ nn - out.length
      · rw [List.take_of_length_le c]
      · have e : (out ++ y.take (nn - out.length)).length = nn := by
          simp only [List.length_append, List.length_take]; omega
        have e2 : nn ≤ (out ++ y).length := by simp only [List.length_append]; omega
        rw [List.take_append_of_le_length (by omega), List.take_append_of_le_length e2, List.take_of_length_le (l := out ++ y.take _) (by omega),
          List.take_append, List.take_of_length_le h]
    · have : out.length = nn := by omega
      rw [List.take_append_of_le_length (by omega), List.take_of_length_le (by omega)]

end

/-- Rounding up to a multiple of a block. -/
theorem round_up (x B : Nat) (hB : 0 < B) : (x + B - 1) / B * B = x + (B - x % B) % B := by
  have hm := Nat.div_add_mod x B
  have hl := Nat.mod_lt x hB
  have e : (x + B - 1) / B = x / B + (x % B + B - 1) / B := by
    conv_lhs => rw [← hm, show B * (x / B) + x % B + B - 1 = B * (x / B) + (x % B + B - 1) by omega, Nat.mul_add_div hB]
  rw [e, Nat.add_mul, Nat.mul_comm (x / B)]
  rcases Nat.eq_zero_or_pos (x % B) with c | c
  · have z : (B - 1) / B = 0 := Nat.div_eq_of_lt (by omega)
    rw [c, Nat.zero_add, z, Nat.sub_zero, Nat.mod_self]; omega
  · have : (x % B + B - 1) / B = 1 := by rw [Nat.div_eq_iff hB]; omega
    rw [this, Nat.mod_eq_of_lt (a := B - x % B) (by omega)]; omega

end Kryptos.Blake2
