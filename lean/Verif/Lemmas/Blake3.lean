import Verif.Model.Blake3
import Verif.Spec.Blake3
import Verif.Props.Blake2
/- The compression function, the blocks and the chunks of the code and those of BLAKE3. -/
namespace Kryptos.Blake3
open Spec.Blake3 (Vec put IV Node)
open Spec.MD (leNat le)

/-- The first `n` words of a vector. -/
def vec (n : Nat) (A : Vec) : List W32 := (List.range n).map A

theorem vec_length (n : Nat) (A : Vec) : (vec n A).length = n := by simp [vec]

theorem rd_vec (n : Nat) (A : Vec) (i : Nat) (h : i < n) : rd (vec n A) i = .ok (A i) := by
  rw [rd_eq_ok (by rw [vec_length]; exact h)]
  simp [vec]

theorem wr_vec (n : Nat) (A : Vec) (i : Nat) (x : W32) (h : i < n) : wr (vec n A) i x = .ok (vec n (put A i x)) := by
  unfold wr
  rw [if_pos (by rw [vec_length]; exact h)]
  congr 1
  apply List.ext_getElem
  · simp [vec]
  · intro j h1 h2
    simp only [vec, put, List.getElem_set, List.getElem_map, List.getElem_range]
    by_cases e : i = j
    · rw [if_pos e, if_pos e.symm]
    · rw [if_neg e, if_neg (Ne.symm e)]

theorem put_same (A : Vec) (i : Nat) (x : W32) : put A i x i = x := by simp [put]
theorem put_put (A : Vec) (i : Nat) (x y : W32) : put (put A i x) i y = put A i y := by
  funext j; unfold put; split <;> rfl

theorem vec_congr {n : Nat} {A B : Vec} (h : ∀ i < n, A i = B i) : vec n A = vec n B :=
  List.map_congr_left fun i hi => h i (by simpa using hi)

theorem mapM_rd (n : Nat) (A : Vec) (m : Nat) (h : m ≤ n) : (List.range m).mapM (fun i => rd (vec n A) i) = .ok (vec m A) := by
  rw [mapM_ok _ A]
  · rfl
  · intro i hi; exact rd_vec n A i (Nat.lt_of_lt_of_le (by simpa using hi) h)

theorem mapM_vec {n : Nat} {f : Nat → Out W32} (A : Vec) (h : ∀ i < n, f i = .ok (A i)) : (List.range n).mapM f = .ok (vec n A) := by
  rw [mapM_ok _ A]
  · rfl
  · intro i hi; exact h i (by simpa using hi)

/-- The initialization vector is made of square roots. -/
theorem iv_eq : iv = vec 8 IV := by
  have r : ∀ i q, q * q ≤ 2 ^ 64 * Spec.Blake3.prime i → 2 ^ 64 * Spec.Blake3.prime i < (q + 1) * (q + 1) → IV i = BitVec.ofNat 32 q := by
    intro i q h1 h2
    show BitVec.ofNat 32 (Nat.sqrt (2 ^ 64 * Spec.Blake3.prime i)) = _
    rw [Blake2.sqrt_of _ q h1 h2]
  show _ = [IV 0, IV 1, IV 2, IV 3, IV 4, IV 5, IV 6, IV 7]
  rw [r 0 0x16A09E667 (by decide) (by decide), r 1 0x1BB67AE85 (by decide) (by decide),
    r 2 0x23C6EF372 (by decide) (by decide), r 3 0x2A54FF53A (by decide) (by decide),
    r 4 0x3510E527F (by decide) (by decide), r 5 0x39B05688C (by decide) (by decide),
    r 6 0x41F83D9AB (by decide) (by decide), r 7 0x45BE0CD19 (by decide) (by decide)]
  rfl

theorem rsh_eq (x : W32) (y : Nat) (h : y < 32) : rsh x y = x.rotateRight y := by
  unfold rsh
  rw [BitVec.rotateRight_def, Nat.mod_eq_of_lt h, BitVec.or_comm]

theorem G_eq (m v : Vec) (a b c d j : Nat) (ha : a < 16) (hb : b < 16) (hc : c < 16) (hd : d < 16) (hj : j + 1 < 16) :
    G (vec 16 m) (vec 16 v) a b c d j = .ok (vec 16 (Spec.Blake3.G v a b c d (m j) (m (j + 1)))) := by
  have hj' : j < 16 := by omega
  unfold G Spec.Blake3.G
  simp only [rd_vec 16 _ _ ha, rd_vec 16 _ _ hb, rd_vec 16 _ _ hc, rd_vec 16 _ _ hd, rd_vec 16 _ _ hj, rd_vec 16 _ _ hj', wr_vec 16 _ _ _ ha,
    wr_vec 16 _ _ _ hb, wr_vec 16 _ _ _ hc, wr_vec 16 _ _ _ hd, Out.bind_ok, rsh_eq _ 16 (by decide), rsh_eq _ 12 (by decide),
    rsh_eq _ 8 (by decide), rsh_eq _ 7 (by decide), put_same]

section
attribute [local irreducible] Spec.Blake3.G G

theorem round_eq (v m : Vec) : round (vec 16 v) (vec 16 m) = .ok (vec 16 (Spec.Blake3.round v m)) := by
  unfold round Spec.Blake3.round
  dsimp only
  rw [G_eq m _ 0 4 8 12 0 (by decide) (by decide) (by decide) (by decide) (by decide), Out.bind_ok,
    G_eq m _ 1 5 9 13 2 (by decide) (by decide) (by decide) (by decide) (by decide), Out.bind_ok,
    G_eq m _ 2 6 10 14 4 (by decide) (by decide) (by decide) (by decide) (by decide), Out.bind_ok,
    G_eq m _ 3 7 11 15 6 (by decide) (by decide) (by decide) (by decide) (by decide), Out.bind_ok,
    G_eq m _ 0 5 10 15 8 (by decide) (by decide) (by decide) (by decide) (by decide), Out.bind_ok,
    G_eq m _ 1 6 11 12 10 (by decide) (by decide) (by decide) (by decide) (by decide), Out.bind_ok,
    G_eq m _ 2 7 8 13 12 (by decide) (by decide) (by decide) (by decide) (by decide), Out.bind_ok,
    G_eq m _ 3 4 9 14 14 (by decide) (by decide) (by decide) (by decide) (by decide)]

end

theorem perm_eq (m : Vec) : perm (vec 16 m) = .ok (vec 16 fun i => m (Spec.Blake3.sigma i)) := by
  unfold perm
  rw [mapM_ok _ m]
  · rfl
  · intro i hi
    refine rd_vec 16 m i ?_
    revert i; decide

section
attribute [local irreducible] Spec.Blake3.round round

theorem rounds_eq (v m : Vec) : rounds (vec 16 v) (vec 16 m) = .ok (vec 16 (Spec.Blake3.rounds 7 v m)) := by
  unfold rounds
  rw [round_eq, Out.bind_ok, perm_eq, Out.bind_ok, round_eq, Out.bind_ok, perm_eq, Out.bind_ok, round_eq, Out.bind_ok, perm_eq, Out.bind_ok,
    round_eq, Out.bind_ok, perm_eq, Out.bind_ok, round_eq, Out.bind_ok, perm_eq, Out.bind_ok, round_eq, Out.bind_ok, perm_eq, Out.bind_ok, round_eq]
  rfl

end

theorem vec_add (A : Vec) (a b : Nat) : vec (a + b) A = vec a A ++ vec b fun i => A (a + i) := by
  unfold vec
  rw [List.range_add, List.map_append, List.map_map]
  rfl

/-- The sixteen words with which a compression begins. -/
def start (n : Node) : List W32 :=
  vec 8 n.h ++ vec 4 IV ++ [(n.t &&& 0xFFFFFFFF#64).setWidth 32, (n.t >>> 32).setWidth 32, n.b, n.d]

theorem low32 (t : W64) : (t &&& 0xFFFFFFFF#64).setWidth 32 = t.setWidth 32 := by
  apply BitVec.eq_of_getLsbD_eq; intro i hi
  interval_cases i <;> simp

theorem compress_eq (n : Node) : compress (start n) (vec 16 n.m) (vec 8 n.h) = .ok (vec 16 (Spec.Blake3.compress n)) := by
  unfold compress start
  have e : vec 8 n.h ++ vec 4 IV ++ [(n.t &&& 0xFFFFFFFF#64).setWidth 32, (n.t >>> 32).setWidth 32, n.b, n.d] =
      vec 16 (fun i => if i < 8 then n.h i else
        match i with
        | 12 => n.t.setWidth 32
        | 13 => (n.t >>> 32).setWidth 32
        | 14 => n.b
        | 15 => n.d
        | _ => IV (i - 8)) := by rw [low32]; rfl
  rw [e, rounds_eq, Out.bind_ok]
  have hc : Spec.Blake3.compress n = fun i => if i < 8 then Spec.Blake3.rounds 7 _ n.m i ^^^ Spec.Blake3.rounds 7 _ n.m (i + 8)
    else Spec.Blake3.rounds 7 _ n.m i ^^^ n.h (i - 8) := rfl
  rw [hc]
  generalize Spec.Blake3.rounds 7 _ n.m = v
  rw [mapM_vec (fun i => v i ^^^ v (i + 8)), Out.bind_ok, mapM_vec (fun i => v (i + 8) ^^^ n.h i), Out.bind_ok, Out.pure_eq]
  · rfl
  · intro i hi
    rw [rd_vec 16 _ _ (by omega), Out.bind_ok, rd_vec 8 _ _ hi, Out.bind_ok]; rfl
  · intro i hi
    rw [rd_vec 16 _ _ (by omega), Out.bind_ok, rd_vec 16 _ _ (by omega), Out.bind_ok]; rfl

theorem take_vec (A : Vec) (a b : Nat) (h : a ≤ b) : (vec b A).take a = vec a A := by
  unfold vec
  rw [← List.map_take, List.take_range, Nat.min_eq_left h]

/-- A compression in a context that holds the inputs of `n`. -/
theorem ctx_compress (c : Ctx) (n : Node) (hv : c.v = start n) (hm : c.m = vec 16 n.m) (hh : c.h = vec 8 n.h) :
    c.compress = .ok { c with v := vec 16 (Spec.Blake3.compress n), h := vec 8 (Spec.Blake3.compress n) } := by
  unfold Ctx.compress
  rw [hv, hm, hh, compress_eq, Out.bind_ok, take_vec _ 8 16 (by decide)]
  rfl

theorem tail1 (a : Byte) : ((0 : W32) <<< 8 ||| a.setWidth 32) <<< 24 = be32 a 0 0 0 := by
  unfold be32
  apply BitVec.eq_of_getLsbD_eq; intro i hi
  interval_cases i <;> simp

theorem tail2 (a b : Byte) : (((0 : W32) <<< 8 ||| a.setWidth 32) <<< 8 ||| b.setWidth 32) <<< 16 = be32 a b 0 0 := by
  unfold be32
  apply BitVec.eq_of_getLsbD_eq; intro i hi
  interval_cases i <;> simp

theorem tail3 (a b c : Byte) :
    ((((0 : W32) <<< 8 ||| a.setWidth 32) <<< 8 ||| b.setWidth 32) <<< 8 ||| c.setWidth 32) <<< 8 = be32 a b c 0 := by
  unfold be32
  apply BitVec.eq_of_getLsbD_eq; intro i hi
  interval_cases i <;> simp

theorem tail_word (strict : Bool) (r : Bytes) (h : r.length < 4) (hs : strict = false ∨ r ≠ []) :
    ∃ x, shiftUp strict (r.foldl (fun (x : W32) (y : Byte) => (x <<< 8) ||| y.setWidth 32) 0) r.length = .ok x ∧
      rev32 x = BitVec.ofNat 32 (leNat r) := by
  match r, h with
  | [], _ =>
    have : strict = false := by simpa using hs
    subst this
    exact ⟨0, rfl, by decide⟩
  | [a], _ =>
    refine ⟨be32 a 0 0 0, ?_, ?_⟩
    · unfold shiftUp
      rw [if_neg (by simp)]
      simp only [List.foldl_cons, List.foldl_nil, List.length_cons, List.length_nil, Nat.reduceAdd, Nat.reduceSub, Nat.reduceShiftLeft, Out.pure_eq]
      exact congrArg Out.ok (tail1 a)
    · rw [Blake2.rev32_be32, ← Md.ofNat_beNat4]; rfl
  | [a, b], _ =>
    refine ⟨be32 a b 0 0, ?_, ?_⟩
    · unfold shiftUp
      rw [if_neg (by simp)]
      simp only [List.foldl_cons, List.foldl_nil, List.length_cons, List.length_nil, Nat.reduceAdd, Nat.reduceSub, Nat.reduceShiftLeft, Out.pure_eq]
      exact congrArg Out.ok (tail2 a b)
    · rw [Blake2.rev32_be32, ← Md.ofNat_beNat4]; rfl
  | [a, b, c], _ =>
    refine ⟨be32 a b c 0, ?_, ?_⟩
    · unfold shiftUp
      rw [if_neg (by simp)]
      simp only [List.foldl_cons, List.foldl_nil, List.length_cons, List.length_nil, Nat.reduceAdd, Nat.reduceSub, Nat.reduceShiftLeft, Out.pure_eq]
      exact congrArg Out.ok (tail3 a b c)
    · rw [Blake2.rev32_be32, ← Md.ofNat_beNat4]; rfl

/-- The message words after the first `j` have been read. -/
def filled (d : Bytes) (j : Nat) : Vec := fun i => if i < j then Spec.Blake3.words d i else 0

theorem words_take (d : Bytes) (i : Nat) (h : i < 16) : Spec.Blake3.words (d.take 64) i = Spec.Blake3.words d i := by
  unfold Spec.Blake3.words
  rw [List.drop_take, List.take_take, Nat.min_eq_left (by omega)]

theorem words_behind (d : Bytes) (i : Nat) (h : d.length ≤ 4 * i) : Spec.Blake3.words d i = 0 := by
  unfold Spec.Blake3.words
  rw [List.drop_eq_nil_of_le h]
  rfl

theorem filled_all (d : Bytes) (j : Nat) (h : j = 16 ∨ d.length ≤ 4 * j) : vec 16 (filled d j) = vec 16 (Spec.Blake3.words (d.take 64)) := by
  apply vec_congr
  intro i hi
  rw [words_take d i hi]
  unfold filled
  split
  · rfl
  · rw [words_behind d i (by omega)]

/-- What follows the last word of a block. -/
def blockEnd (strict small direct : Bool) (fuel : Nat) (s : St) : Out St := do
  let s ← compressBlock small s
  let s ← afterBlock direct s
  if isDone direct s then return s else chunkLoop strict small direct fuel s

/-- The state with `j` words of a block read. -/
def atWord (s : St) (d : Bytes) (j : Nat) : St :=
  { s with c := { s.c with m := vec 16 (filled d j), b := BitVec.ofNat 32 (4 * j) }, ip := d.drop (4 * j), mi := j }

/-- The state with a block read. -/
def atBlock (s : St) (d : Bytes) (mi bn : Nat) : St :=
  { s with
    c := { s.c with m := vec 16 (Spec.Blake3.words (d.take 64)), b := BitVec.ofNat 32 (min 64 d.length) }
    ip := d.drop 64
    mi := mi
    blockNr := bn }

theorem readWord_full (strict : Bool) (s : St) (d : Bytes) (j : Nat) (hj : j < 16) (h : 4 * j + 4 ≤ d.length) :
    readWord strict (atWord s d j) = .ok (atWord s d (j + 1)) := by
  unfold readWord atWord
  dsimp only
  rw [if_pos (by rw [List.length_drop]; omega), Blake2.getLe32_eq _ (by rw [List.length_drop]; omega), Out.bind_ok, wr_vec 16 _ _ _ hj, Out.bind_ok,
    Out.pure_eq]
  have e1 : vec 16 (put (filled d j) j (BitVec.ofNat 32 (leNat ((d.drop (4 * j)).take 4)))) = vec 16 (filled d (j + 1)) := by
    apply vec_congr
    intro i _
    unfold put filled
    by_cases c : i = j
    · rw [if_pos c, if_pos (by omega), c]; rfl
    · rw [if_neg c]
      by_cases q : i < j
      · rw [if_pos q, if_pos (by omega)]
      · rw [if_neg q, if_neg (by omega)]
  have e2 : BitVec.ofNat 32 (4 * j) + 4 = BitVec.ofNat 32 (4 * (j + 1)) := by
    rw [Nat.mul_add, BitVec.ofNat_add]; rfl
  rw [e1, e2, List.drop_drop]
  rfl

theorem readWord_tail (strict : Bool) (s : St) (d : Bytes) (j : Nat) (hj : j < 16) (h : d.length < 4 * j + 4) (h' : 4 * j ≤ d.length)
    (hs : strict = false ∨ 4 * j < d.length) :
    readWord strict (atWord s d j) = .ok (atBlock s d 16 15) := by
  have hl : (d.drop (4 * j)).length = d.length - 4 * j := List.length_drop
  have hf : filled d j j = 0 := by unfold filled; rw [if_neg (Nat.lt_irrefl j)]
  obtain ⟨x, e, q⟩ := tail_word strict (d.drop (4 * j)) (by omega) (hs.imp id fun hs c => by rw [c] at hl; simp at hl; omega)
  unfold readWord atWord
  dsimp only
  rw [if_neg (by omega), rd_vec 16 _ _ hj, Out.bind_ok, hf, e, Out.bind_ok, wr_vec 16 _ _ _ hj, Out.bind_ok, Out.pure_eq, q]
  have e1 : vec 16 (put (filled d j) j (BitVec.ofNat 32 (leNat (d.drop (4 * j))))) = vec 16 (Spec.Blake3.words (d.take 64)) := by
    rw [← filled_all d (j + 1) (by omega)]
    apply vec_congr
    intro i _
    unfold put filled
    by_cases c : i = j
    · rw [if_pos c, if_pos (by omega), c]
      unfold Spec.Blake3.words
      rw [List.take_of_length_le (by omega)]
    · rw [if_neg c]
      by_cases q : i < j
      · rw [if_pos q, if_pos (by omega)]
      · rw [if_neg q, if_neg (by omega)]
  rw [e1, hl, ← BitVec.ofNat_add, show 4 * j + (d.length - 4 * j) = min 64 d.length by omega]
  unfold atBlock
  rw [List.drop_eq_nil_of_le (by omega)]

theorem step_end (strict small direct : Bool) (fuel : Nat) (s : St) (h : s.mi = 16 ∨ s.ip = []) :
    (do
      let s ← blockStep small direct s
      if isDone direct s then return s else chunkLoop strict small direct fuel s) = blockEnd strict small direct fuel s := by
  unfold blockStep blockEnd
  rw [if_pos h, bind_assoc]

theorem word_run (strict small direct : Bool) (s : St) (d : Bytes) (hs : strict = false ∨ d ≠ [])
    (hd : direct = true → s.c.cur < s.c.wanted) : ∀ r j, j + r = 16 → 0 < r →
    (j = 0 ∨ 4 * j < d.length) → ∀ fuel, d.length - 4 * j < fuel →
    ∃ fuel' mi bn, (d.drop 64 ≠ [] → (d.drop 64).length < fuel' ∧ bn = s.blockNr) ∧
      chunkLoop strict small direct fuel (atWord s d j) = blockEnd strict small direct fuel' (atBlock s d mi bn) := by
  intro r
  induction r with
  | zero => intro j _ h; omega
  | succ r ih =>
    intro j hj _ hlt fuel hf
    obtain ⟨fuel, rfl⟩ : ∃ f, fuel = f + 1 := ⟨fuel - 1, by omega⟩
    rw [chunkLoop]
    rcases Nat.lt_or_ge d.length (4 * j + 4) with c | c
    · rw [readWord_tail strict s d j (by omega) c (by omega)
        (hs.imp id fun h => by have := List.length_pos_iff.mpr h; omega), Out.bind_ok]
      refine ⟨fuel, 16, 15, fun h => absurd (List.drop_eq_nil_of_le (by omega)) h, ?_⟩
      exact step_end _ _ _ _ _ (Or.inl rfl)
    · rw [readWord_full strict s d j (by omega) c, Out.bind_ok]
      by_cases q : j + 1 = 16 ∨ d.length ≤ 4 * (j + 1)
      · refine ⟨fuel, j + 1, s.blockNr, fun h => ⟨?_, rfl⟩, ?_⟩
        · have : 64 < d.length := by
            rcases Nat.lt_or_ge 64 d.length with x | x
            · exact x
            · exact absurd (List.drop_eq_nil_of_le x) h
          rw [List.length_drop]; omega
        · have ed : d.drop (4 * (j + 1)) = d.drop 64 := by
            rcases q with q | q
            · rw [q]
            · rw [List.drop_eq_nil_of_le q, List.drop_eq_nil_of_le (by omega)]
          have es : atWord s d (j + 1) = atBlock s d (j + 1) s.blockNr := by
            unfold atWord atBlock
            rw [filled_all d (j + 1) q, ed, show min 64 d.length = 4 * (j + 1) by omega]
          rw [es]
          refine step_end _ _ _ _ _ ?_
          rcases q with q | q
          · exact Or.inl q
          · exact Or.inr (List.drop_eq_nil_of_le (by omega))
      · obtain ⟨f', mi, bn, h1, h2⟩ := ih (j + 1) (by omega) (by omega) (by omega) fuel (by omega)
        refine ⟨f', mi, bn, h1, ?_⟩
        rw [← h2]
        have hip : (atWord s d (j + 1)).ip ≠ [] := by
          intro c
          have := congrArg List.length c
          simp only [atWord, List.length_drop, List.length_nil] at this
          omega
        unfold blockStep
        rw [if_neg (by rintro (c | c); exacts [q (Or.inl c), hip c]), Out.pure_eq, Out.bind_ok, if_neg]
        unfold isDone
        cases direct
        · simpa using hip
        · have := hd rfl
          simpa [atWord] using this

end Kryptos.Blake3
