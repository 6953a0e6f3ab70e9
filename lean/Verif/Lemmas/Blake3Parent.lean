import Verif.Lemmas.Blake3Sum
/- The parents of the code and those of BLAKE3. -/
namespace Kryptos.Blake3
open Spec.Blake3 (Vec put IV Node outBlock output parent)

/-- The chaining value of a tree. -/
def ev (k : Vec) (flags : W32) : BT Vec → Vec
  | .leaf v => v
  | .node l r => Spec.Blake3.compress (parent k flags (ev k flags l) (ev k flags r))

/-- The eight words on the stack for a tree. -/
def val (k : Vec) (flags : W32) (t : BT Vec) : List W32 := vec 8 (ev k flags t)

/-- What stays as it is while parents are compressed. -/
structure Same' (a b : Ctx) : Prop where
  mode : b.mode = a.mode
  wanted : b.wanted = a.wanted
  cur : b.cur = a.cur
  k : b.k = a.k
  t : b.t = a.t

theorem Same'.rfl' (a : Ctx) : Same' a a := ⟨rfl, rfl, rfl, rfl, rfl⟩

theorem Same'.trans {a b c : Ctx} (h : Same' a b) (g : Same' b c) : Same' a c :=
  ⟨g.mode.trans h.mode, g.wanted.trans h.wanted, g.cur.trans h.cur, g.k.trans h.k, g.t.trans h.t⟩

theorem parent_words (A B : Vec) : vec 8 A ++ vec 8 B = vec 16 fun i => if i < 8 then A i else B (i - 8) := rfl

theorem pc_eq (c : Ctx) (isEnd : Bool) (k l r : Vec) (s : List (List W32)) (hs : c.stack = vec 8 r :: vec 8 l :: s) (hk : c.k = vec 8 k) :
    let root := decide (isEnd = true ∧ s = [])
    let n := withRoot root (parent k (modeFlag c.mode) l r)
    ∃ c', pcCompress c isEnd = .ok (some c') ∧ c'.stack = vec 8 (Spec.Blake3.compress n) :: s ∧ Done c' n ∧ (root = true → Kept c' n) ∧ Same' c c' ∧
      c'.getR = c.getR ∧ c'.chunkNr = c.chunkNr := by
  intro root n
  unfold pcCompress
  rw [hs]
  dsimp only
  rw [iv4, Out.bind_ok]
  have nh : n.h = k := by simp only [n]; unfold withRoot; cases root <;> rfl
  have nm : vec 16 n.m = vec 8 l ++ vec 8 r := by
    rw [parent_words]; simp only [n]; unfold withRoot; cases root <;> rfl
  have nt : n.t = 0 := by simp only [n]; unfold withRoot; cases root <;> rfl
  have nb : n.b = 64 := by simp only [n]; unfold withRoot; cases root <;> rfl
  have nd : n.d = if root = true then modeFlag c.mode ||| Spec.Blake3.PARENT ||| Spec.Blake3.ROOT else modeFlag c.mode ||| Spec.Blake3.PARENT := by
    simp only [n]; unfold withRoot; cases root <;> rfl
  have ed : parentFlags c.mode root = n.d := by
    rw [nd]
    generalize root = q
    cases c.mode <;> cases q <;> decide
  have nr : n.d &&& ROOT ≠ 0 ↔ root = true := by
    rw [nd]
    generalize root = q
    cases c.mode <;> cases q <;> decide
  have sv : c.k ++ vec 4 IV ++ [0, 0, 64, n.d] = start n := by
    unfold start; rw [nh, nt, nb, hk]; rfl
  have ed' : parentFlags c.mode (decide (isEnd = true ∧ s = [])) = n.d := ed
  rw [ed', sv]
  clear_value n root
  by_cases q : n.d &&& ROOT ≠ 0
  · rw [if_pos q]
    unfold Ctx.save
    dsimp only
    rw [ctx_compress _ n rfl (by rw [nm]) (by rw [nh]; exact hk), Out.bind_ok, Out.pure_eq]
    refine ⟨_, rfl, rfl, ⟨rfl, rfl⟩, fun _ => ⟨?_, rfl, by rw [nm]⟩, ⟨rfl, rfl, rfl, rfl, rfl⟩, rfl, rfl⟩
    rw [nh]; exact hk
  · rw [if_neg q]
    rw [ctx_compress _ n rfl (by rw [nm]) (by rw [nh]; exact hk), Out.bind_ok, Out.pure_eq]
    exact ⟨_, rfl, rfl, ⟨rfl, rfl⟩, fun hr => absurd (nr.mpr hr) q, ⟨rfl, rfl, rfl, rfl, rfl⟩, rfl, rfl⟩

/-! Merging before the end of the input. -/

theorem merge_mid (c : Ctx) (k : Vec) (S : List (BT Vec)) (h2 : 2 ≤ S.length) (hs : c.stack = S.map (val k (modeFlag c.mode))) (hk : c.k = vec 8 k)
    : ∃ c', pcCompress c false = .ok (some c') ∧ c'.stack = (merge1 S).map (val k (modeFlag c.mode)) ∧ Same' c c' ∧
      c'.getR = c.getR ∧ c'.chunkNr = c.chunkNr := by
  match S, h2 with
  | r :: l :: S, _ =>
    obtain ⟨c', e1, e2, -, -, e3, e4⟩ := pc_eq c false k _ _ _ hs hk
    exact ⟨c', e1, e2, e3, e4⟩

theorem loop_mid : ∀ (fuel temp : Nat) (c : Ctx) (k : Vec) (S : List (BT Vec)), c.stack = S.map (val k (modeFlag c.mode)) → c.k = vec 8 k →
    ∃ c', pcLoop false fuel temp c = .ok (some c') ∧ c'.stack = (carry fuel temp S).map (val k (modeFlag c.mode)) ∧ Same' c c' ∧
      c'.getR = c.getR ∧ c'.chunkNr = c.chunkNr
  | 0, temp, c, k, S, hs, hk => ⟨c, rfl, hs, Same'.rfl' c, rfl, rfl⟩
  | fuel + 1, temp, c, k, S, hs, hk => by
    have hl : c.stack.length = S.length := by rw [hs, List.length_map]
    rw [pcLoop, carry, Nat.and_one_is_mod]
    by_cases q : temp % 2 = 0
    · rw [if_pos q]
      by_cases q2 : 2 ≤ S.length
      · rw [if_pos ⟨q, by omega⟩]
        obtain ⟨c1, e1, e2, e3, e4, e5⟩ := merge_mid c k S q2 hs hk
        rw [e1, Out.bind_ok]
        obtain ⟨c2, g1, g2, g3, g4, g5⟩ := loop_mid fuel (temp >>> 1) c1 k (merge1 S) (by rw [e2, e3.mode]) (by rw [e3.k, hk])
        rw [Nat.shiftRight_one, e3.mode] at g2
        exact ⟨c2, g1, g2, e3.trans g3, g4.trans e4, g5.trans e5⟩
      · rw [if_neg (by omega), merge1_short S (by omega), carry_short _ _ S (by omega)]
        exact ⟨c, rfl, hs, Same'.rfl' c, rfl, rfl⟩
    · rw [if_neg q, if_neg (fun h => q h.1)]
      exact ⟨c, rfl, hs, Same'.rfl' c, rfl, rfl⟩

/-- The stack after some chunks. -/
structure Stk (c : Ctx) (k : Vec) (l : List (BT Vec)) : Prop where
  ek : c.k = vec 8 k
  stack : c.stack = (stk l).map (val k (modeFlag c.mode))
  nr : c.chunkNr = l.length
  getR : c.getR = decide (l.length % 2 = 1)

theorem stk_ne (l : List (BT Vec)) (h : l.length % 2 = 1) : ∃ x s, stk l = x :: s := by
  obtain ⟨l, y, rfl⟩ : ∃ m y, l = m ++ [y] := by
    rcases List.eq_nil_or_concat l with q | ⟨m, y, q⟩
    · subst q; simp at h
    · exact ⟨m, y, by rw [q, List.concat_eq_append]⟩
  rw [List.length_append, List.length_singleton] at h
  exact ⟨_, _, stk_odd l y (by omega)⟩

/-- A chunk that is not the last one. -/
theorem flush_mid (c : Ctx) (k x : Vec) (l : List (BT Vec)) (hS : Stk c k l) (hx : c.h = vec 8 x) :
    ∃ c', flush c false = .ok c' ∧ Stk c' k (l ++ [.leaf x]) ∧ Same' c c' := by
  unfold flush
  dsimp only
  rw [hx, hS.stack, hS.getR]
  rcases Nat.mod_two_eq_zero_or_one l.length with e | e
  · rw [decide_eq_false (by omega), if_neg (by decide), Out.pure_eq]
    refine ⟨_, rfl, ⟨hS.ek, ?_, ?_, ?_⟩, ⟨rfl, rfl, rfl, rfl, rfl⟩⟩
    · show vec 8 x :: (stk l).map (val k (modeFlag c.mode)) = (stk (l ++ [.leaf x])).map (val k (modeFlag c.mode))
      rw [stk_odd l _ e, ← stk_even l e]
      rfl
    · show c.chunkNr + 1 = _
      rw [hS.nr, List.length_append, List.length_singleton]
    · show true = _
      rw [List.length_append, List.length_singleton, decide_eq_true (by omega)]
  · rw [decide_eq_true e, if_pos rfl]
    unfold pcDoCompress
    dsimp only
    obtain ⟨y, s, es⟩ := stk_ne l e
    obtain ⟨c1, e1, e2, e3, e4, e5⟩ := merge_mid
      { c with h := vec 8 x, stack := vec 8 x :: (stk l).map (val k (modeFlag c.mode)), getR := true, chunkNr := c.chunkNr + 1 } k
      (.leaf x :: stk l) (by rw [es]; simp) rfl hS.ek
    rw [e1, Out.bind_ok]
    dsimp only
    obtain ⟨c2, g1, g2, g3, g4, g5⟩ := loop_mid c1.stack.length ((c.chunkNr + 1) >>> 1) c1 k (merge1 (.leaf x :: stk l)) (by rw [e2, e3.mode])
      (by rw [e3.k]; exact hS.ek)
    have em : c1.mode = c.mode := e3.mode
    rw [g1, Out.bind_ok, Out.pure_eq]
    have hc : carry c1.stack.length ((c.chunkNr + 1) / 2) (merge1 (.leaf x :: stk l)) = stk (l ++ [.leaf x]) := by
      rw [← carry_stk l.length l (.leaf x) (l.length + 1 + c1.stack.length + 1) rfl (by omega), carry, if_pos (by omega), hS.nr]
      apply carry_fuel
      · rw [e2, List.length_map]; omega
      · rw [e2, List.length_map]; omega
    refine ⟨_, rfl, ⟨?_, ?_, ?_, ?_⟩, ⟨?_, ?_, ?_, ?_, ?_⟩⟩
    · show c2.k = _
      rw [g3.k, e3.k]; exact hS.ek
    · show c2.stack = List.map (val k (modeFlag c2.mode)) _
      rw [g2, g3.mode, Nat.shiftRight_one, hc]
    · show c2.chunkNr = _
      rw [g5, e5, List.length_append, List.length_singleton, ← hS.nr]
    · show false = _
      rw [List.length_append, List.length_singleton, decide_eq_false (by omega)]
    · show c2.mode = _; rw [g3.mode, em]
    · show c2.wanted = _; rw [g3.wanted, e3.wanted]
    · show c2.cur = _; rw [g3.cur, e3.cur]
    · show c2.k = _; rw [g3.k, e3.k]
    · show c2.t = _; rw [g3.t, e3.t]

/-! Merging at the end of the input. -/

/-- Everything has been merged into the tree with the children `l` and `r`. -/
structure Final (c : Ctx) (k : Vec) (l r : BT Vec) : Prop where
  one : c.stack.length = 1
  done : Done c (withRoot true (parent k (modeFlag c.mode) (ev k (modeFlag c.mode) l) (ev k (modeFlag c.mode) r)))
  kept : Kept c (withRoot true (parent k (modeFlag c.mode) (ev k (modeFlag c.mode) l) (ev k (modeFlag c.mode) r)))

/-- What is on the stack is to be merged into the tree with the children `l` and `r`. -/
def Pending (c : Ctx) (k : Vec) (l r : BT Vec) : Prop :=
  ∃ x S, S ≠ [] ∧ c.stack = (x :: S).map (val k (modeFlag c.mode)) ∧ fold x S = .node l r

theorem pc_end (c : Ctx) (k : Vec) (l r : BT Vec) (h : Pending c k l r) (hk : c.k = vec 8 k) :
    ∃ c', pcCompress c true = .ok (some c') ∧ (Pending c' k l r ∨ Final c' k l r) ∧ c'.stack.length + 1 = c.stack.length ∧ 2 ≤ c.stack.length ∧
      Same' c c' := by
  obtain ⟨x, S, h0, h1, h2⟩ := h
  match S, h0 with
  | y :: S, _ =>
    obtain ⟨c', e1, e2, e3, e4, e5, -, -⟩ := pc_eq c true k _ _ _ h1 hk
    refine ⟨c', e1, ?_, ?_, ?_, e5⟩
    · by_cases q : S = []
      · right
        subst q
        have : BT.node y x = BT.node l r := h2
        injection this with a b
        subst a b
        refine ⟨by rw [e2]; rfl, ?_, ?_⟩
        · rw [e5.mode]; exact e3
        · rw [e5.mode]; exact e4 rfl
      · left
        refine ⟨.node y x, S, q, ?_, h2⟩
        have : ¬ (true = true ∧ S.map (val k (modeFlag c.mode)) = []) := fun z => q (List.map_eq_nil_iff.mp z.2)
        rw [e2, e5.mode, decide_eq_false this]
        rfl
    · rw [e2, h1]; simp
    · rw [h1]; simp

theorem loop_end : ∀ (fuel temp : Nat) (c : Ctx) (k : Vec) (l r : BT Vec) (T : List (BT Vec)), (Pending c k l r ∨ Final c k l r) → c.k = vec 8 k →
    T.length = c.stack.length →
    ∃ c', pcLoop true fuel temp c = .ok (some c') ∧ (Pending c' k l r ∨ Final c' k l r) ∧ c'.stack.length = (carry fuel temp T).length ∧ Same' c c' ∧
      c'.stack.length ≤ c.stack.length
  | 0, temp, c, k, l, r, T, h, hk, hT => ⟨c, rfl, h, hT.symm, Same'.rfl' c, Nat.le_refl _⟩
  | fuel + 1, temp, c, k, l, r, T, h, hk, hT => by
    rw [pcLoop, carry, Nat.and_one_is_mod]
    by_cases q : temp % 2 = 0
    · rw [if_pos q]
      rcases h with h | h
      · obtain ⟨c1, e1, e2, e3, e4, e5⟩ := pc_end c k l r h hk
        rw [if_pos ⟨q, e4⟩, e1, Out.bind_ok]
        have ht : (merge1 T).length = c1.stack.length := by rw [merge1_length, if_pos (by omega)]; omega
        obtain ⟨c2, g1, g2, g3, g4, g5⟩ := loop_end fuel (temp >>> 1) c1 k l r (merge1 T) e2 (by rw [e5.k, hk]) ht
        rw [Nat.shiftRight_one] at g3
        exact ⟨c2, g1, g2, g3, e5.trans g4, by omega⟩
      · have := h.one
        rw [if_neg (by omega), merge1_short T (by omega), carry_short _ _ T (by omega)]
        exact ⟨c, rfl, Or.inr h, hT.symm, Same'.rfl' c, Nat.le_refl _⟩
    · rw [if_neg q, if_neg (fun h => q h.1)]
      exact ⟨c, rfl, h, hT.symm, Same'.rfl' c, Nat.le_refl _⟩

theorem do_end (c : Ctx) (k : Vec) (l r : BT Vec) (h : Pending c k l r) (hk : c.k = vec 8 k) (T : List (BT Vec)) (hT : T.length = c.stack.length) :
    ∃ c', pcDoCompress c true = .ok (some c') ∧ (Pending c' k l r ∨ Final c' k l r) ∧ c'.stack.length < c.stack.length ∧ Same' c c' ∧
      c'.stack.length = (carry (c.stack.length - 1) (c.chunkNr / 2) (merge1 T)).length := by
  unfold pcDoCompress
  obtain ⟨c1, e1, e2, e3, e4, e5⟩ := pc_end c k l r h hk
  dsimp only
  rw [e1, Out.bind_ok]
  have ht : (merge1 T).length = c1.stack.length := by rw [merge1_length, if_pos (by omega)]; omega
  obtain ⟨c2, g1, g2, g3, g4, g5⟩ := loop_end c1.stack.length (c.chunkNr >>> 1) c1 k l r (merge1 T) e2 (by rw [e5.k, hk]) ht
  refine ⟨c2, g1, g2, by omega, e5.trans g4, ?_⟩
  rw [g3, Nat.shiftRight_one, show c.stack.length - 1 = c1.stack.length by omega]

theorem mergeLoop_end : ∀ (fuel : Nat) (c : Ctx) (k : Vec) (l r : BT Vec), (Pending c k l r ∨ Final c k l r) → c.k = vec 8 k → c.stack.length ≤ fuel →
    ∃ c', mergeLoop fuel c = .ok (some c') ∧ Final c' k l r ∧ Same' c c'
  | 0, c, k, l, r, h, hk, hf => by
    exfalso
    rcases h with ⟨x, S, -, h, -⟩ | h
    · rw [h] at hf; simp at hf
    · have := h.one; omega
  | fuel + 1, c, k, l, r, h, hk, hf => by
    rw [mergeLoop]
    rcases h with h | h
    · obtain ⟨-, -, -, -, e4, -⟩ := pc_end c k l r h hk
      rw [if_pos e4]
      obtain ⟨c1, g1, g2, g3, g4, -⟩ := do_end c k l r h hk (List.replicate c.stack.length (.leaf k)) (by simp)
      rw [g1, Out.bind_ok]
      obtain ⟨c2, k1, k2, k3⟩ := mergeLoop_end fuel c1 k l r g2 (by rw [g4.k, hk]) (by omega)
      exact ⟨c2, k1, k2, g4.trans k3⟩
    · have := h.one
      rw [if_neg (by omega)]
      exact ⟨c, rfl, h, Same'.rfl' c⟩

theorem top_node (L : List (BT Vec)) (h : 2 ≤ L.length) (T : BT Vec) (hT : BT.top L = some T) : ∃ l r, T = .node l r ∧
    BT.top (L.take (2 ^ Nat.log2 (L.length - 1))) = some l ∧ BT.top (L.drop (2 ^ Nat.log2 (L.length - 1))) = some r := by
  rw [top_split L h] at hT
  generalize BT.top (L.take (2 ^ Nat.log2 (L.length - 1))) = a at hT
  generalize BT.top (L.drop (2 ^ Nat.log2 (L.length - 1))) = b at hT
  match a, b, hT with
  | some a, some b, hT =>
    injection hT with hT
    exact ⟨a, b, hT.symm, rfl, rfl⟩

/-- The last chunk of several: the tree is that of BLAKE3. -/
theorem flush_end (c : Ctx) (k x : Vec) (L : List (BT Vec)) (hS : Stk c k L) (hx : c.h = vec 8 x) (h0 : 0 < L.length) :
    ∃ c' l r, flush c true = .ok c' ∧ BT.top (L ++ [.leaf x]) = some (.node l r) ∧ (Pending c' k l r ∨ Final c' k l r) ∧ Same' c c' ∧
      c'.stack.length = (stk (L ++ [.leaf x])).length ∧ (L.length % 2 = 0 → c'.h = vec 8 x) := by
  have hf := fold_stk L.length L (.leaf x) rfl
  obtain ⟨l, r, e, -, -⟩ := top_node _ (by simp; omega) _ hf.symm
  rw [e] at hf
  have hne : stk L ≠ [] := by
    intro q
    rw [q] at e
    cases e
  have hP : ∀ g n, Pending { c with h := vec 8 x, stack := vec 8 x :: (stk L).map (val k (modeFlag c.mode)), getR := g, chunkNr := n } k l r :=
    fun g n => ⟨.leaf x, stk L, hne, rfl, e⟩
  unfold flush
  dsimp only
  rw [hx, hS.stack, hS.getR]
  rcases Nat.mod_two_eq_zero_or_one L.length with p | p
  · rw [decide_eq_false (by omega), if_neg (by decide), Out.pure_eq]
    refine ⟨_, l, r, rfl, hf.symm, Or.inl (hP _ _), ⟨rfl, rfl, rfl, rfl, rfl⟩, ?_, fun _ => rfl⟩
    rw [stk_odd L _ p, ← stk_even L p]
    simp
  · rw [decide_eq_true p, if_pos rfl]
    obtain ⟨c1, g1, g2, g3, g4, g5⟩ := do_end _ k l r (hP true (c.chunkNr + 1)) hS.ek (.leaf x :: stk L) (by simp)
    rw [g1, Out.bind_ok]
    refine ⟨_, l, r, rfl, hf.symm, ?_, ⟨g4.mode, g4.wanted, g4.cur, g4.k, g4.t⟩, ?_, fun q => by omega⟩
    · exact g2.imp id fun f => ⟨f.one, ⟨f.done.h, f.done.v⟩, ⟨f.kept.hh, f.kept.vv, f.kept.mm⟩⟩
    · show c1.stack.length = _
      rw [g5, ← carry_stk L.length L (.leaf x) (L.length + 1 + ((stk L).length + 1) + 1) rfl (by omega), carry, if_pos (by omega)]
      dsimp only
      rw [hS.nr]
      congr 1
      have : (merge1 (BT.leaf x :: stk L)).length ≤ (stk L).length + 1 := by rw [merge1_length]; split <;> simp
      apply carry_fuel
      · simpa using this
      · omega

end Kryptos.Blake3
