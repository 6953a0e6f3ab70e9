import Verif.Lemmas.Blake3Parent
/- The loop over the chunks. -/
namespace Kryptos.Blake3
open Spec.Blake3 (Vec put IV Node outBlock output parent chunk tree)

/-- The chaining values of the chunks. -/
def leaves (k : Vec) (flags : W32) (t : Nat) (d : Bytes) : List (BT Vec) :=
  if 1024 < d.length then .leaf (Spec.Blake3.compress (chunk k flags (BitVec.ofNat _ t) (d.take 1024))) :: leaves k flags (t + 1) (d.drop 1024)
  else [.leaf (Spec.Blake3.compress (chunk k flags (BitVec.ofNat _ t) d))]
termination_by d.length
decreasing_by rw [List.length_drop]; omega

theorem leaves_long (k : Vec) (flags : W32) (t : Nat) (d : Bytes) (h : 1024 < d.length) :
    leaves k flags t d = .leaf (Spec.Blake3.compress (chunk k flags (BitVec.ofNat _ t) (d.take 1024))) :: leaves k flags (t + 1) (d.drop 1024) := by
  rw [leaves, if_pos h]

theorem leaves_short (k : Vec) (flags : W32) (t : Nat) (d : Bytes) (h : d.length ≤ 1024) :
    leaves k flags t d = [.leaf (Spec.Blake3.compress (chunk k flags (BitVec.ofNat _ t) d))] := by
  rw [leaves, if_neg (by omega)]

theorem leaves_length (k : Vec) (flags : W32) : ∀ (n t : Nat) (d : Bytes), d.length = n → (leaves k flags t d).length = (n - 1) / 1024 + 1 := by
  intro n
  induction n using Nat.strongRecOn with
  | _ n ih =>
    intro t d h
    rcases Nat.lt_or_ge 1024 d.length with c | c
    · rw [leaves_long _ _ _ _ c, List.length_cons, ih (n - 1024) (by omega) _ _ (by rw [List.length_drop, h])]
      omega
    · rw [leaves_short _ _ _ _ c, List.length_singleton]
      omega

theorem leaves_split (k : Vec) (flags : W32) (p : Nat) : ∀ (t : Nat) (d : Bytes), p * 1024 < d.length → 0 < p →
    (leaves k flags t d).take p = leaves k flags t (d.take (p * 1024)) ∧ (leaves k flags t d).drop p = leaves k flags (t + p) (d.drop (p * 1024)) := by
  induction p with
  | zero => intro _ _ _ h; exact absurd h (Nat.lt_irrefl 0)
  | succ p ih =>
    intro t d h _
    by_cases hp : p = 0
    · subst hp
      rw [Nat.zero_add, Nat.one_mul] at *
      have hs : (d.take 1024).length ≤ 1024 := by rw [List.length_take]; omega
      rw [leaves_long _ _ _ d h, leaves_short _ _ _ _ hs,
        List.take_succ_cons, List.take_zero, List.drop_succ_cons, List.drop_zero]
      exact ⟨rfl, rfl⟩
    · have hl : 1024 < (d.take ((p + 1) * 1024)).length := by rw [List.length_take]; omega
      have hd : (d.drop 1024).length = d.length - 1024 := List.length_drop
      have h' : p * 1024 + 1024 < d.length := by rw [← Nat.succ_mul]; exact h
      have hd' : p * 1024 < (d.drop 1024).length := by rw [hd]; exact Nat.lt_sub_of_add_lt h'
      obtain ⟨h1, h2⟩ := ih (t + 1) (d.drop 1024) hd' (Nat.pos_of_ne_zero hp)
      rw [leaves_long _ _ _ d (by omega), leaves_long _ _ _ _ hl, List.take_succ_cons, List.drop_succ_cons, h1, h2, List.take_take, List.drop_take,
        List.drop_drop, Nat.min_eq_left (by omega), show (p + 1) * 1024 - 1024 = p * 1024 by omega, show 1024 + p * 1024 = (p + 1) * 1024 by omega,
        show t + 1 + p = t + (p + 1) by omega]
      exact ⟨rfl, rfl⟩

/-- The tree of BLAKE3 in terms of the chaining values of the chunks. -/
theorem tree_eq (k : Vec) (flags : W32) : ∀ (n t : Nat) (d : Bytes), d.length = n →
    ∃ T, BT.top (leaves k flags t d) = some T ∧ Spec.Blake3.compress (tree k flags t d) = ev k flags T := by
  intro n
  induction n using Nat.strongRecOn with
  | _ n ih =>
    intro t d h
    rcases Nat.lt_or_ge 1024 d.length with c | c
    · have hq : (d.length - 1) / 1024 ≠ 0 := by omega
      have hp : 2 ^ Nat.log2 ((d.length - 1) / 1024) ≤ (d.length - 1) / 1024 := Nat.log2_self_le hq
      have hp0 : 0 < 2 ^ Nat.log2 ((d.length - 1) / 1024) := Nat.two_pow_pos _
      rw [tree, if_pos c]
      dsimp only
      have hl : (leaves k flags t d).length - 1 = (d.length - 1) / 1024 := by rw [leaves_length k flags _ _ _ rfl]; omega
      rw [top_split _ (by omega), hl]
      generalize 2 ^ Nat.log2 ((d.length - 1) / 1024) = p at hp hp0
      obtain ⟨s1, s2⟩ := leaves_split k flags p t d (by omega) hp0
      obtain ⟨A, a1, a2⟩ := ih (d.take (p * 1024)).length (by rw [List.length_take]; omega) t _ rfl
      obtain ⟨B, b1, b2⟩ := ih (d.drop (p * 1024)).length (by rw [List.length_drop]; omega) (t + p) _ rfl
      rw [s1, s2, a1, b1]
      refine ⟨.node A B, rfl, ?_⟩
      rw [a2, b2]
      rfl
    · rw [leaves_short _ _ _ _ c, tree, if_neg (by omega)]
      exact ⟨_, by rw [BT.top], rfl⟩

/-- The root of the tree over several chunks. -/
theorem root_eq (k : Vec) (flags : W32) (d : Bytes) (h : 1024 < d.length) (t : Nat) (l r : BT Vec) (hT : BT.top (leaves k flags t d) = some (.node l r)) :
    tree k flags t d = parent k flags (ev k flags l) (ev k flags r) := by
  have hq : (d.length - 1) / 1024 ≠ 0 := by omega
  have hp : 2 ^ Nat.log2 ((d.length - 1) / 1024) ≤ (d.length - 1) / 1024 := Nat.log2_self_le hq
  have hp0 : 0 < 2 ^ Nat.log2 ((d.length - 1) / 1024) := Nat.two_pow_pos _
  have hl : (leaves k flags t d).length - 1 = (d.length - 1) / 1024 := by rw [leaves_length k flags _ _ _ rfl]; omega
  rw [top_split _ (by omega), hl] at hT
  rw [tree, if_pos h]
  dsimp only
  generalize 2 ^ Nat.log2 ((d.length - 1) / 1024) = p at hp hp0 hT
  obtain ⟨s1, s2⟩ := leaves_split k flags p t d (by omega) hp0
  obtain ⟨A, a1, a2⟩ := tree_eq k flags _ t (d.take (p * 1024)) rfl
  obtain ⟨B, b1, b2⟩ := tree_eq k flags _ (t + p) (d.drop (p * 1024)) rfl
  rw [s1, s2, a1, b1] at hT
  injection hT with hT
  injection hT with e1 e2
  rw [a2, b2, e1, e2]

/-- The state at the beginning of a chunk. -/
structure AtChunk (s : St) (k : Vec) (L : List (BT Vec)) : Prop where
  inc : InChunk s k 0
  stk : Stk s.c k L
  t : s.c.t = BitVec.ofNat 64 L.length
  out : s.out = none
  cur : s.c.cur = 0

theorem root_bits (m : BMode) (n : Node) (h : n.d = modeFlag m ||| Spec.Blake3.CHUNK_END ∨ n.d = modeFlag m ||| Spec.Blake3.CHUNK_START ||| Spec.Blake3.CHUNK_END) :
    n.d &&& ROOT = 0 := by
  rcases h with h | h <;> rw [h] <;> cases m <;> decide

/-- The end of a chunk that is not the last one. -/
theorem chunk_next (s1 : St) (k x : Vec) (L : List (BT Vec)) (hS : Stk s1.c k L) (hx : s1.c.h = vec 8 x) (ht : s1.c.t = BitVec.ofNat 64 L.length)
    (hc : s1.c.cur = 0) (hb : s1.blockNr = 16) (hip : s1.ip ≠ []) :
    ∃ s2, afterBlock false s1 = .ok s2 ∧ AtChunk s2 k (L ++ [.leaf x]) ∧ s2.ip = s1.ip ∧ s2.c.mode = s1.c.mode ∧ s2.c.wanted = s1.c.wanted := by
  obtain ⟨c', e1, e2, e3⟩ := flush_mid s1.c k x L hS hx
  unfold afterBlock sumStep
  rw [if_neg (fun h => by cases h.1), Out.pure_eq, Out.bind_ok]
  unfold chunkStep
  rw [if_pos (Or.inl hb)]
  unfold parentStep
  rw [if_neg (by decide), decide_eq_false hip]
  unfold doParents
  rw [e1, Out.bind_ok, if_neg (fun h => by cases h.1), Out.pure_eq, Out.bind_ok]
  dsimp only
  rw [if_neg (by decide), Out.pure_eq, Out.bind_ok, if_pos hip, Out.pure_eq, Out.bind_ok]
  dsimp only
  rw [if_neg (by decide)]
  refine ⟨_, rfl, ⟨⟨e2.ek, ?_, rfl, rfl, ?_, rfl, rfl⟩, ⟨e2.ek, e2.stack, e2.nr, e2.getR⟩, ?_, rfl, ?_⟩, rfl, e3.mode, e3.wanted⟩
  · show (c'.k ++ c'.v.drop 8).take 8 = _
    rw [e2.ek, List.take_left' (vec_length 8 k)]
  · show CHUNK_START ||| modeFlag c'.mode = modeFlag c'.mode ||| _
    rw [BitVec.or_comm]; rfl
  · show c'.t + 1 = _
    rw [e3.t, ht, List.length_append, List.length_singleton, BitVec.ofNat_add]
    rfl
  · show c'.cur = 0
    rw [e3.cur, hc]

/-- The end of the last of several chunks. -/
theorem chunk_last (s1 : St) (k x : Vec) (L : List (BT Vec)) (hS : Stk s1.c k L) (hx : s1.c.h = vec 8 x) (hc : s1.c.cur = 0) (hip : s1.ip = [])
    (hL : 0 < L.length) (hw : 0 < s1.c.wanted) :
    ∃ s2 l r, afterBlock false s1 = .ok s2 ∧ BT.top (L ++ [.leaf x]) = some (.node l r) ∧ s2.ip = [] ∧ s2.c.wanted = s1.c.wanted ∧
      (s1.c.mode ≠ .derive1 → ∃ out, s2.out = some out ∧ out.length = outSizeOf s1.c.wanted ∧ out.take s1.c.wanted =
        output (parent k (modeFlag s1.c.mode) (ev k (modeFlag s1.c.mode) l) (ev k (modeFlag s1.c.mode) r)) s1.c.wanted) ∧
      (s1.c.mode = .derive1 → s2.out = none ∧ s2.c.cur = 0 ∧ ((stk (L ++ [.leaf x])).length = 1 →
        s2.c.h = vec 8 (Spec.Blake3.compress (withRoot true (parent k (modeFlag s1.c.mode) (ev k (modeFlag s1.c.mode) l) (ev k (modeFlag s1.c.mode) r))))) ∧
        (L.length % 2 = 0 → s2.c.h = vec 8 x)) := by
  obtain ⟨c', l, r, e1, e2, e3, e4, e5, e6⟩ := flush_end s1.c k x L hS hx hL
  unfold afterBlock sumStep
  rw [if_neg (fun h => by cases h.1), Out.pure_eq, Out.bind_ok]
  unfold chunkStep
  rw [if_pos (Or.inr hip)]
  unfold parentStep
  rw [if_neg (by decide), decide_eq_true hip]
  unfold doParents
  rw [e1, Out.bind_ok]
  by_cases hm : s1.c.mode = .derive1
  · have hm' : ¬ (true = true ∧ c'.mode ≠ .derive1) := fun h => h.2 (by rw [e4.mode, hm])
    rw [if_neg hm', if_pos rfl, Out.pure_eq, Out.bind_ok]
    dsimp only
    rw [Out.pure_eq, Out.bind_ok, if_neg (fun h => h hip), Out.pure_eq, Out.bind_ok]
    dsimp only
    refine ⟨_, l, r, rfl, e2, hip, e4.wanted, fun h => absurd hm h, fun _ => ⟨rfl, by show c'.cur = 0; rw [e4.cur, hc], fun h1 => ?_, fun h2 => e6 h2⟩⟩
    show c'.h = _
    rcases e3 with ⟨y, S, q1, q2, q3⟩ | f
    · rw [h1, q2] at e5
      simp at e5
      exact absurd e5 q1
    · rw [f.done.h, e4.mode]
  · rw [if_pos ⟨rfl, by rw [e4.mode]; exact hm⟩]
    obtain ⟨c2, g1, g2, g3⟩ := mergeLoop_end _ c' k l r e3 (by rw [e4.k, hS.ek]) (Nat.le_refl _)
    rw [g1, Out.bind_ok]
    dsimp only
    have g4 := e4.trans g3
    have hD := g2.done
    have hK := g2.kept
    obtain ⟨c3, out, k1, k2, k3, k4, k5⟩ := getSum_eq (parent k (modeFlag c2.mode) (ev k (modeFlag c2.mode) l) (ev k (modeFlag c2.mode) r)) c2
      (by rw [g4.wanted]; exact hw) hD.v hK (by rw [g4.cur, hc])
    rw [k1, Out.bind_ok]
    dsimp only
    rw [Out.pure_eq, Out.bind_ok]
    dsimp only
    rw [Out.pure_eq, Out.bind_ok, if_neg (fun h => h hip), Out.pure_eq, Out.bind_ok]
    dsimp only
    rw [g4.wanted] at k2 k3 k4
    rw [g4.mode] at k3
    exact ⟨_, l, r, rfl, e2, hip, k4, fun _ => ⟨out, rfl, k2, k3⟩, fun h => absurd h hm⟩

/-- What the loop leaves behind for an input of several chunks. -/
def Result (s2 : St) (mode : BMode) (wanted : Nat) (k : Vec) (all : List (BT Vec)) (last : Node) (l r : BT Vec) : Prop :=
  s2.c.wanted = wanted ∧
  (mode ≠ .derive1 → ∃ out, s2.out = some out ∧ out.length = outSizeOf wanted ∧ out.take wanted =
    output (parent k (modeFlag mode) (ev k (modeFlag mode) l) (ev k (modeFlag mode) r)) wanted) ∧
  (mode = .derive1 → s2.out = none ∧ s2.c.cur = 0 ∧ ((stk all).length = 1 →
    s2.c.h = vec 8 (Spec.Blake3.compress (withRoot true (parent k (modeFlag mode) (ev k (modeFlag mode) l) (ev k (modeFlag mode) r))))) ∧
    (all.length % 2 = 1 → s2.c.h = vec 8 (Spec.Blake3.compress last)))

theorem many_run (strict : Bool) : ∀ (n : Nat) (s : St) (k : Vec) (L : List (BT Vec)) (fuel : Nat), s.ip.length = n → AtChunk s k L → s.ip ≠ [] →
    0 < s.c.wanted → 0 < L.length ∨ 1024 < s.ip.length → n < fuel →
    ∃ s2 l r, chunkLoop strict false false fuel s = .ok s2 ∧ BT.top (L ++ leaves k (modeFlag s.c.mode) L.length s.ip) = some (.node l r) ∧
      Result s2 s.c.mode s.c.wanted k (L ++ leaves k (modeFlag s.c.mode) L.length s.ip)
        (chunk k (modeFlag s.c.mode) (BitVec.ofNat _ (L.length + (n - 1) / 1024)) (s.ip.drop ((n - 1) / 1024 * 1024))) l r := by
  intro n
  induction n using Nat.strongRecOn with
  | _ n ih =>
    intro s k L fuel hn hA hip hw hL hf
    obtain ⟨fuel', s1, f1, f2, f3, f4, f5, f6, f7, f8, f9⟩ := chunk_run strict false false 16 0 rfl (by decide) s k hA.inc (Or.inr hip)
      (fun h => by cases h) fuel (by rw [hn]; exact hf)
    rw [show 1024 - 64 * 0 = 1024 from rfl] at f1 f3 f4 f7 f8
    rw [show decide (s.ip.drop 1024 = [] ∧ false = true) = false from decide_eq_false (fun h => by cases h.2)] at f8
    have hx : s1.c.h = vec 8 (Spec.Blake3.compress (chunk k (modeFlag s.c.mode) (BitVec.ofNat _ L.length) (s.ip.take 1024))) := by
      rw [f8.h, hA.t]; rfl
    have hS : Stk s1.c k L := ⟨by rw [f6.k]; exact hA.stk.ek, by rw [f6.stack, f6.mode]; exact hA.stk.stack, by rw [f6.chunkNr]; exact hA.stk.nr, by rw [f6.getR]; exact hA.stk.getR⟩
    have hc : s1.c.cur = 0 := by rw [f6.cur]; exact hA.cur
    have ht : s1.c.t = BitVec.ofNat 64 L.length := by rw [f6.t]; exact hA.t
    rw [f2]
    unfold loopTail
    rcases Nat.lt_or_ge 1024 s.ip.length with g | g
    · have hd : (s.ip.drop 1024).length = s.ip.length - 1024 := List.length_drop
      have hr : s.ip.drop 1024 ≠ [] := List.ne_nil_of_length_pos (by omega)
      obtain ⟨s2, e1, e2, e3, e4, e5⟩ := chunk_next s1 k _ L hS hx ht hc (f4.resolve_right hr) (by rw [f3]; exact hr)
      rw [f3] at e3
      rw [e1, Out.bind_ok]
      have hD : isDone false s2 = false := by
        unfold isDone
        rw [if_neg (by decide), e3]
        exact List.isEmpty_eq_false_iff.mpr hr
      rw [hD, if_neg (by decide)]
      have hm : s2.c.mode = s.c.mode := by rw [e4, f6.mode]
      have hw2 : s2.c.wanted = s.c.wanted := by rw [e5, f6.wanted]
      obtain ⟨s3, l, r, q1, q2, q3⟩ := ih (n - 1024) (by omega) s2 k _ fuel' (by rw [e3, hd, hn]) e2 (by rw [e3]; exact hr) (by rw [hw2]; exact hw)
        (Or.inl (by rw [List.length_append, List.length_singleton]; omega)) (by have := f1 hr; omega)
      rw [hm, hw2, e3, List.length_append, List.length_singleton, List.append_assoc, List.singleton_append] at q3
      rw [hm, e3, List.length_append, List.length_singleton, List.append_assoc, List.singleton_append] at q2
      rw [← leaves_long _ _ _ _ g] at q2 q3
      have e : (n - 1) / 1024 = (n - 1024 - 1) / 1024 + 1 := by omega
      rw [List.drop_drop, show L.length + 1 + (n - 1024 - 1) / 1024 = L.length + (n - 1) / 1024 by omega,
        show 1024 + (n - 1024 - 1) / 1024 * 1024 = (n - 1) / 1024 * 1024 by omega] at q3
      exact ⟨s3, l, r, q1, q2, q3⟩
    · have hr : s.ip.drop 1024 = [] := List.drop_eq_nil_of_le g
      rw [hr] at f3
      obtain ⟨s2, l, r, e1, e2, e3, e4, e5, e6⟩ := chunk_last s1 k _ L hS hx hc f3 (by omega) (by rw [f6.wanted]; exact hw)
      rw [e1, Out.bind_ok]
      have hD : isDone false s2 = true := by
        unfold isDone
        rw [if_neg (by decide), e3]
        rfl
      rw [hD, if_pos rfl, leaves_short _ _ _ _ g]
      rw [f6.mode, f6.wanted] at e5
      rw [f6.mode] at e6
      rw [f6.wanted] at e4
      have hz : (n - 1) / 1024 = 0 := by omega
      rw [List.take_of_length_le g] at e2 e6
      refine ⟨s2, l, r, rfl, e2, e4, e5, fun hm => ⟨(e6 hm).1, (e6 hm).2.1, (e6 hm).2.2.1, fun ho => ?_⟩⟩
      rw [hz, Nat.add_zero, Nat.zero_mul, List.drop_zero]
      refine (e6 hm).2.2.2 ?_
      rw [List.length_append, List.length_singleton] at ho
      omega

theorem chunkFrom_t (f : W32) (t : W64) : ∀ (n : Nat) (h : Vec) (st : W32) (d : Bytes), d.length = n → (Spec.Blake3.chunkFrom f t h st d).t = t := by
  intro n
  induction n using Nat.strongRecOn with
  | _ n ih =>
    intro h st d e
    rw [Spec.Blake3.chunkFrom]
    by_cases c : d.length ≤ 64
    · rw [if_pos c]
    · rw [if_neg c]
      exact ih (d.drop 64).length (by rw [List.length_drop]; omega) _ _ _ rfl

theorem with_root (n : Node) (h : n.t = 0) : withRoot true n = outNode n 0 := by
  unfold withRoot outNode
  rw [if_pos rfl, show BitVec.ofNat 64 0 = n.t from h.symm]

theorem has_root (x : W32) : (x ||| Spec.Blake3.ROOT) &&& ROOT ≠ 0 := by
  intro h
  have e := congrArg (fun y : W32 => y.getLsbD 3) h
  revert e
  show ((x ||| Spec.Blake3.ROOT) &&& ROOT).getLsbD 3 = (0 : W32).getLsbD 3 → False
  rw [BitVec.getLsbD_and, BitVec.getLsbD_or, show (Spec.Blake3.ROOT).getLsbD 3 = true by decide, show (ROOT).getLsbD 3 = true by decide, Bool.or_true]
  decide

theorem withRoot_d (n : Node) : (withRoot true n).d = n.d ||| Spec.Blake3.ROOT := rfl

/-- A single chunk, the output of which is taken at once. -/
theorem single_run (strict : Bool) (s : St) (k : Vec) (fuel : Nat) (hA : AtChunk s k []) (hs : strict = false ∨ s.ip ≠ []) (hw : 0 < s.c.wanted)
    (hl : s.ip.length ≤ 1024) (hf : s.ip.length < fuel) :
    ∃ s2 out, chunkLoop strict true true fuel s = .ok s2 ∧ s2.c.wanted = s.c.wanted ∧ s2.out = some out ∧ out.length = outSizeOf s.c.wanted ∧
      out.take s.c.wanted = output (chunk k (modeFlag s.c.mode) 0 s.ip) s.c.wanted := by
  obtain ⟨fuel', s1, f1, f2, f3, f4, f5, f6, f7, f8, f9⟩ := chunk_run strict true true 16 0 rfl (by decide) s k hA.inc hs
    (fun _ => by rw [hA.cur]; exact hw) fuel hf
  rw [show 1024 - 64 * 0 = 1024 from rfl] at f1 f3 f4 f7 f8 f9
  have hr : s.ip.drop 1024 = [] := List.drop_eq_nil_of_le hl
  rw [decide_eq_true (show s.ip.drop 1024 = [] ∧ true = true from ⟨hr, rfl⟩), List.take_of_length_le hl, if_pos rfl] at f7 f8 f9
  rw [hr] at f3
  have ht : s.c.t = 0 := hA.t
  rw [ht] at f7 f8 f9
  have hn : (chunk k (modeFlag s.c.mode) 0 s.ip).t = 0 := chunkFrom_t _ _ _ _ _ _ rfl
  have hwr := with_root _ hn
  unfold chunk at hwr
  rw [withRoot_d] at f7
  have f9 := f9 rfl
  rw [hwr] at f8 f9
  obtain ⟨c', out, q1, q2, q3, q4, q5⟩ := getSum_eq _ s1.c (by rw [f6.wanted]; exact hw) f8.v f9 (by rw [f6.cur, hA.cur])
  rw [f2]
  unfold loopTail afterBlock sumStep
  rw [if_pos ⟨rfl, by rw [f7]; exact has_root _⟩, q1, Out.bind_ok]
  dsimp only
  rw [Out.pure_eq, Out.bind_ok]
  unfold chunkStep
  rw [if_pos (Or.inr f3)]
  unfold parentStep
  rw [if_pos rfl, Out.pure_eq, Out.bind_ok]
  dsimp only
  rw [if_neg (fun h => h f3), Out.pure_eq, Out.bind_ok]
  dsimp only
  rw [Out.pure_eq, Out.bind_ok]
  unfold isDone
  rw [if_pos rfl]
  dsimp only
  rw [decide_eq_true (by rw [q4]; exact q5), if_pos rfl]
  rw [f6.wanted] at q2 q3 q4
  exact ⟨_, out, rfl, q4, rfl, q2, q3⟩

/-- A context of a single chunk. -/
theorem context_run (strict : Bool) (s : St) (k : Vec) (fuel : Nat) (hA : AtChunk s k []) (hs : strict = false ∨ s.ip ≠ [])
    (hl : s.ip.length ≤ 1024) (hf : s.ip.length < fuel) (hm : s.c.mode = .derive1) :
    ∃ s2, chunkLoop strict true false fuel s = .ok s2 ∧ s2.c.wanted = s.c.wanted ∧ s2.c.cur = 0 ∧ s2.out = none ∧
      s2.c.h = vec 8 (Spec.Blake3.compress (outNode (chunk k (modeFlag s.c.mode) 0 s.ip) 0)) := by
  obtain ⟨fuel', s1, f1, f2, f3, f4, f5, f6, f7, f8, f9⟩ := chunk_run strict true false 16 0 rfl (by decide) s k hA.inc hs
    (fun h => by cases h) fuel hf
  rw [show 1024 - 64 * 0 = 1024 from rfl] at f1 f3 f4 f7 f8 f9
  have hr : s.ip.drop 1024 = [] := List.drop_eq_nil_of_le hl
  rw [decide_eq_true (show s.ip.drop 1024 = [] ∧ true = true from ⟨hr, rfl⟩), List.take_of_length_le hl, if_pos rfl] at f7 f8 f9
  rw [hr] at f3
  have ht : s.c.t = 0 := hA.t
  rw [ht] at f7 f8 f9
  have hn : (chunk k (modeFlag s.c.mode) 0 s.ip).t = 0 := chunkFrom_t _ _ _ _ _ _ rfl
  have hwr := with_root _ hn
  unfold chunk at hwr
  rw [hwr] at f8
  have hg : s1.c.getR = false := by rw [f6.getR, hA.stk.getR]; rfl
  rw [f2]
  unfold loopTail afterBlock sumStep
  rw [if_neg (fun h => by cases h.1), Out.pure_eq, Out.bind_ok]
  unfold chunkStep
  rw [if_pos (Or.inr f3)]
  unfold parentStep
  rw [if_neg (by decide), decide_eq_true f3]
  unfold doParents flush
  dsimp only
  rw [hg, if_neg (by decide), Out.pure_eq, Out.bind_ok]
  dsimp only
  rw [if_neg (fun h => h.2 (by rw [f6.mode, hm])), if_pos rfl, Out.pure_eq, Out.bind_ok]
  dsimp only
  rw [Out.pure_eq, Out.bind_ok, if_neg (fun h => h f3), Out.pure_eq, Out.bind_ok]
  dsimp only
  rw [Out.pure_eq, Out.bind_ok]
  unfold isDone
  rw [if_neg (show ¬ (false = true) by decide)]
  dsimp only
  rw [f3, if_pos (show List.isEmpty ([] : Bytes) = true from rfl)]
  exact ⟨_, rfl, f6.wanted, by show s1.c.cur = 0; rw [f6.cur, hA.cur], rfl, f8.h⟩

end Kryptos.Blake3
