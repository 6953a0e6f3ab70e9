import Verif.Base
/- The stack of BLAKE3 as a binary counter, and the tree it makes. -/
namespace Kryptos.Blake3

/-- Binary trees with values at the leaves. -/
inductive BT (α : Type) where
  | leaf : α → BT α
  | node : BT α → BT α → BT α

variable {α : Type}

/-- The tree over at least one tree: the left part is as large a power of two as leaves something to the right. -/
def BT.top : List (BT α) → Option (BT α)
  | [] => none
  | [x] => some x
  | a :: b :: l =>
    let p := 2 ^ Nat.log2 (l.length + 1)
    match BT.top ((a :: b :: l).take p), BT.top ((a :: b :: l).drop p) with
    | some x, some y => some (.node x y)
    | _, _ => none
termination_by l => l.length
decreasing_by
  · rw [List.length_take]
    have : 2 ^ Nat.log2 (l.length + 1) ≤ l.length + 1 := Nat.log2_self_le (by omega)
    simp only [List.length_cons]; omega
  · rw [List.length_drop]
    have : 0 < 2 ^ Nat.log2 (l.length + 1) := Nat.two_pow_pos _
    simp only [List.length_cons]; omega

/-- Joining neighbours; an odd one at the end stays alone. -/
def pairs : List (BT α) → List (BT α)
  | a :: b :: l => .node a b :: pairs l
  | l => l

theorem pairs_length : ∀ l : List (BT α), (pairs l).length = (l.length + 1) / 2
  | [] => by simp [pairs]
  | [_] => by simp [pairs]
  | a :: b :: l => by rw [pairs, List.length_cons, pairs_length l]; simp only [List.length_cons]; omega

theorem pairs_append : ∀ (l : List (BT α)) (r : List (BT α)), l.length % 2 = 0 → pairs (l ++ r) = pairs l ++ pairs r
  | [], r, _ => by simp [pairs]
  | [_], _, h => by simp at h
  | a :: b :: l, r, h => by
    rw [List.cons_append, List.cons_append, pairs, pairs, List.cons_append, pairs_append l r (by simp only [List.length_cons] at h; omega)]

theorem log2_eq (n e : Nat) (h0 : 2 ^ e ≤ n) (h1 : n < 2 ^ (e + 1)) : Nat.log2 n = e := by
  have hn : n ≠ 0 := by have := Nat.two_pow_pos e; omega
  refine Nat.le_antisymm ?_ ((Nat.le_log2 hn).mpr h0)
  have := (Nat.log2_lt hn).mpr h1
  omega

theorem top_split (l : List (BT α)) (h : 2 ≤ l.length) :
    BT.top l = match BT.top (l.take (2 ^ Nat.log2 (l.length - 1))), BT.top (l.drop (2 ^ Nat.log2 (l.length - 1))) with
      | some x, some y => some (.node x y)
      | _, _ => none := by
  match l, h with
  | a :: b :: l, _ =>
    rw [BT.top]
    rfl

theorem top_pairs : ∀ (n : Nat) (l : List (BT α)), l.length = n → 2 ≤ n → BT.top (pairs l) = BT.top l := by
  intro n
  induction n using Nat.strongRecOn with
  | _ n ih =>
    intro l hl hn
    rcases Nat.lt_or_ge 2 n with c | c
    · have he : n - 1 ≠ 0 := by omega
      have e0 := Nat.log2_self_le he
      have e1 : n - 1 < 2 ^ (Nat.log2 (n - 1) + 1) := Nat.lt_log2_self
      have e2 : 1 ≤ Nat.log2 (n - 1) := (Nat.le_log2 he).mpr (by omega)
      rw [top_split l (by omega), hl]
      generalize Nat.log2 (n - 1) = e at e0 e1 e2
      obtain ⟨f, rfl⟩ : ∃ f, e = f + 1 := ⟨e - 1, by omega⟩
      rw [Nat.pow_succ] at e0 e1
      rw [Nat.pow_succ] at e1 ⊢
      have hf := Nat.two_pow_pos f
      have hp : pairs l = pairs (l.take (2 ^ f * 2)) ++ pairs (l.drop (2 ^ f * 2)) := by
        rw [← pairs_append _ _ (by rw [List.length_take, Nat.min_eq_left (by omega)]; omega), List.take_append_drop]
      have hlen : (pairs (l.take (2 ^ f * 2))).length = 2 ^ f := by
        rw [pairs_length, List.length_take, Nat.min_eq_left (by omega)]; omega
      rw [top_split (pairs l) (by rw [pairs_length]; omega), pairs_length, hl]
      rw [log2_eq ((n + 1) / 2 - 1) f (by omega) (by rw [Nat.pow_succ]; omega), hp, List.take_left' hlen, List.drop_left' hlen]
      rw [ih (2 ^ f * 2) (by omega) (l.take _) (by rw [List.length_take]; omega) (by omega)]
      have hd : BT.top (pairs (l.drop (2 ^ f * 2))) = BT.top (l.drop (2 ^ f * 2)) := by
        rcases Nat.lt_or_ge (l.drop (2 ^ f * 2)).length 2 with q | q
        · congr 1
          match l.drop (2 ^ f * 2), q with
          | [], _ => rfl
          | [_], _ => rfl
        · exact ih _ (by rw [List.length_drop]; omega) _ rfl q
      rw [hd]
    · have : l.length = 2 := by omega
      match l, this with
      | [a, b], _ =>
        rw [top_split [a, b] (by simp), show Nat.log2 ([a, b].length - 1) = 0 from log2_eq 1 0 (by decide) (by decide)]
        simp [pairs, BT.top]

/-- The stack, top first, after some leaves: one tree for every one in the binary number of the leaves. -/
def stk (l : List (BT α)) : List (BT α) :=
  match l with
  | [] => []
  | a :: l => 
    if (a :: l).length % 2 = 0 then stk (pairs (a :: l))
    else ((a :: l).drop ((a :: l).length - 1)) ++ stk (pairs ((a :: l).take ((a :: l).length - 1)))
termination_by l.length
decreasing_by
  · rw [pairs_length]; simp only [List.length_cons] at *; omega
  · rw [pairs_length, List.length_take]; simp only [List.length_cons] at *; omega

theorem stk_even (l : List (BT α)) (h : l.length % 2 = 0) : stk l = stk (pairs l) := by
  match l with
  | [] => rfl
  | a :: l => rw [stk, if_pos h]

theorem stk_odd (l : List (BT α)) (x : BT α) (h : l.length % 2 = 0) : stk (l ++ [x]) = x :: stk (pairs l) := by
  match l, h with
  | [], _ => rw [List.nil_append, stk]; simp
  | a :: l, h =>
    rw [List.cons_append, stk, ← List.cons_append]
    rw [if_neg (by rw [List.length_append]; simp only [List.length_singleton]; omega)]
    rw [List.length_append, List.length_singleton, Nat.add_sub_cancel, List.drop_left, List.take_left]
    rfl

/-- Merging the top two. -/
def merge1 : List (BT α) → List (BT α)
  | r :: l :: s => .node l r :: s
  | s => s

/-- Merging the top two while the count is even. -/
def carry : Nat → Nat → List (BT α) → List (BT α)
  | 0, _, s => s
  | fuel + 1, n, s => if n % 2 = 0 then carry fuel (n / 2) (merge1 s) else s

theorem carry_stk : ∀ (n : Nat) (l : List (BT α)) (x : BT α) (fuel : Nat), l.length = n → n < fuel →
    carry fuel (n + 1) (x :: stk l) = stk (l ++ [x]) := by
  intro n
  induction n using Nat.strongRecOn with
  | _ n ih =>
    intro l x fuel hl hf
    obtain ⟨fuel, rfl⟩ : ∃ f, fuel = f + 1 := ⟨fuel - 1, by omega⟩
    rcases Nat.mod_two_eq_zero_or_one n with e | e
    · rw [carry, if_neg (by omega), stk_odd l x (by omega), stk_even l (by omega)]
    · obtain ⟨l, y, rfl⟩ : ∃ m y, l = m ++ [y] := by
        rcases List.eq_nil_or_concat l with q | ⟨m, y, q⟩
        · subst q; simp at hl; omega
        · exact ⟨m, y, by rw [q, List.concat_eq_append]⟩
      rw [List.length_append, List.length_singleton] at hl
      rw [carry, if_pos (by omega), stk_odd l y (by omega), merge1]
      rw [show (n + 1) / 2 = l.length / 2 + 1 by omega]
      rw [ih (l.length / 2) (by omega) (pairs l) (.node y x) fuel (by rw [pairs_length]; omega) (by omega)]
      rw [stk_even (l ++ [y] ++ [x]) (by simp; omega), List.append_assoc, pairs_append l _ (by omega)]
      rfl

/-- Merging everything. -/
def fold (x : BT α) (s : List (BT α)) : BT α := s.foldl (fun r l => .node l r) x

theorem fold_stk : ∀ (n : Nat) (l : List (BT α)) (x : BT α), l.length = n → some (fold x (stk l)) = BT.top (l ++ [x]) := by
  intro n
  induction n using Nat.strongRecOn with
  | _ n ih =>
    intro l x hl
    rcases Nat.eq_zero_or_pos n with z | z
    · subst z
      rw [List.length_eq_zero_iff.mp hl, stk, List.nil_append, BT.top]
      rfl
    · rw [← top_pairs (n + 1) (l ++ [x]) (by simp [hl]) (by omega)]
      rcases Nat.mod_two_eq_zero_or_one n with e | e
      · rw [stk_even l (by omega), ih ((n + 1) / 2) (by omega) (pairs l) x (by rw [pairs_length, hl]), pairs_append l _ (by omega)]
        rfl
      · obtain ⟨l, y, rfl⟩ : ∃ m y, l = m ++ [y] := by
          rcases List.eq_nil_or_concat l with q | ⟨m, y, q⟩
          · subst q; simp at hl; omega
          · exact ⟨m, y, by rw [q, List.concat_eq_append]⟩
        rw [List.length_append, List.length_singleton] at hl
        rw [stk_odd l y (by omega), fold, List.foldl_cons, ← fold,
          ih ((l.length + 1) / 2) (by omega) (pairs l) (.node y x) (by rw [pairs_length]), List.append_assoc, pairs_append l _ (by omega)]
        rfl

/-- Merging the whole stack after the last leaf makes the tree of BLAKE3. -/
theorem fold_top : ∀ (n : Nat) (l : List (BT α)) (x : BT α) (s : List (BT α)), l.length = n → stk l = x :: s →
    some (fold x s) = BT.top l := by
  intro n
  induction n using Nat.strongRecOn with
  | _ n ih =>
    intro l x s hl hs
    rcases Nat.mod_two_eq_zero_or_one n with e | e
    · rcases Nat.eq_zero_or_pos n with z | z
      · subst z
        rw [List.length_eq_zero_iff.mp hl, stk] at hs
        cases hs
      · rw [← top_pairs n l hl (by omega)]
        rw [stk_even l (by omega)] at hs
        exact ih ((n + 1) / 2) (by omega) _ x s (by rw [pairs_length, hl]) hs
    · obtain ⟨l, y, rfl⟩ : ∃ m y, l = m ++ [y] := by
        rcases List.eq_nil_or_concat l with q | ⟨m, y, q⟩
        · subst q; simp at hl; omega
        · exact ⟨m, y, by rw [q, List.concat_eq_append]⟩
      rw [List.length_append, List.length_singleton] at hl
      rw [stk_odd l y (by omega)] at hs
      obtain ⟨h1, h2⟩ := List.cons.inj hs
      rw [← h1, ← h2, fold_stk _ (pairs l) y rfl]
      rcases Nat.eq_zero_or_pos l.length with z | z
      · rw [List.length_eq_zero_iff.mp z]; rfl
      · rw [← top_pairs n (l ++ [y]) (by simp [hl]) (by omega), pairs_append l _ (by omega)]
        rfl

theorem merge1_length (s : List (BT α)) : (merge1 s).length = if 2 ≤ s.length then s.length - 1 else s.length := by
  match s with
  | [] => rfl
  | [_] => rfl
  | _ :: _ :: _ => rw [merge1, if_pos (by simp)]; rfl

theorem merge1_short (s : List (BT α)) (h : s.length < 2) : merge1 s = s := by
  match s, h with
  | [], _ => rfl
  | [_], _ => rfl

theorem carry_short : ∀ (fuel n : Nat) (s : List (BT α)), s.length < 2 → carry fuel n s = s
  | 0, _, _, _ => rfl
  | fuel + 1, n, s, h => by
    rw [carry]
    split
    · rw [merge1_short s h, carry_short fuel _ s h]
    · rfl

theorem carry_fuel : ∀ (f f' n : Nat) (s : List (BT α)), s.length ≤ f + 1 → s.length ≤ f' + 1 → carry f n s = carry f' n s
  | 0, f', n, s, h, _ => by rw [carry_short 0 n s (by omega), carry_short f' n s (by omega)]
  | f + 1, 0, n, s, _, h => by rw [carry_short _ n s (by omega), carry_short 0 n s (by omega)]
  | f + 1, f' + 1, n, s, h, h' => by
    rw [carry, carry]
    have := merge1_length s
    split
    · apply carry_fuel f f'
      · split at this <;> omega
      · split at this <;> omega
    · rfl

theorem carry_length : ∀ (f n : Nat) (s s' : List (BT α)), s.length = s'.length → (carry f n s).length = (carry f n s').length
  | 0, _, _, _, h => h
  | f + 1, n, s, s', h => by
    rw [carry, carry]
    split
    · exact carry_length f _ _ _ (by rw [merge1_length, merge1_length, h])
    · exact h

theorem stk_pow : ∀ (e : Nat) (l : List (BT α)), l.length = 2 ^ e → (stk l).length = 1
  | 0, l, h => by
    obtain ⟨x, rfl⟩ := List.length_eq_one_iff.mp h
    rw [show [x] = [] ++ [x] from rfl, stk_odd [] x rfl]
    simp [pairs, stk]
  | e + 1, l, h => by
    rw [Nat.pow_succ] at h
    rw [stk_even l (by omega)]
    exact stk_pow e _ (by rw [pairs_length]; omega)

end Kryptos.Blake3
