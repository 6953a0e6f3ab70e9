import Verif.Lemmas.Argon2
/- Filling the memory of Argon2. -/
namespace Kryptos.Argon2
open Spec.MD (leNat le)
open Spec.Argon2 (Memory Params Way)

/-- The blocks `D` of `B` are those of `M`. -/
structure Rep (p q : Nat) (B : Mem) (M : Memory) (D : Nat → Nat → Prop) : Prop where
  len : B.length = p
  row : ∀ i (h : i < B.length), B[i].length = q
  val : ∀ i (h : i < B.length) j (h' : j < B[i].length), D i j → B[i][j] = some (vec 128 (M i j))

theorem Rep.get {p q : Nat} {B : Mem} {M : Memory} {D : Nat → Nat → Prop} (h : Rep p q B M D) (i j : Nat) (hi : i < p) (hj : j < q) (hd : D i j) :
    get B i j = .ok (vec 128 (M i j)) := by
  have h1 : i < B.length := by rw [h.len]; exact hi
  have h2 : j < B[i].length := by rw [h.row i h1]; exact hj
  unfold Argon2.get
  rw [rd_eq_ok h1, Out.bind_ok, rd_eq_ok h2, Out.bind_ok, h.val i h1 j h2 hd]
  rfl

theorem Rep.set {p q : Nat} {B : Mem} {M : Memory} {D : Nat → Nat → Prop} (h : Rep p q B M D) (i j : Nat) (hi : i < p) (hj : j < q) (X : Nat → W64) :
    ∃ B', Argon2.set B i j (vec 128 X) = .ok B' ∧ Rep p q B' (fun a b => if a = i ∧ b = j then X else M a b) (fun a b => D a b ∨ (a = i ∧ b = j)) := by
  have h1 : i < B.length := by rw [h.len]; exact hi
  have h2 : j < B[i].length := by rw [h.row i h1]; exact hj
  refine ⟨B.set i (B[i].set j (some (vec 128 X))), ?_, ?_, ?_, ?_⟩
  · unfold Argon2.set
    rw [rd_eq_ok h1, Out.bind_ok]
    unfold wr
    rw [if_pos h2, Out.bind_ok, if_pos h1]
  · rw [List.length_set, h.len]
  · intro a ha
    rw [List.getElem_set]
    split
    · rw [List.length_set, h.row]
    · exact h.row _ _
  · intro a ha b hb d
    by_cases e : i = a
    · subst e
      simp only [List.getElem_set_self] at hb ⊢
      rw [List.getElem_set]
      by_cases e : j = b
      · subst e; simp
      · rw [if_neg e, if_neg (fun q => e q.2.symm)]
        refine h.val i h1 b (by rw [List.length_set] at hb; exact hb) ?_
        rcases d with d | d
        · exact d
        · exact absurd d.2.symm e
    · simp only [List.getElem_set_ne e] at hb ⊢
      rw [if_neg (fun q => e q.1.symm)]
      refine h.val a (by rw [List.length_set] at ha; exact ha) b hb ?_
      rcases d with d | d
      · exact d
      · exact absurd d.1.symm e

theorem Rep.mono {p q : Nat} {B : Mem} {M : Memory} {D D' : Nat → Nat → Prop} (h : Rep p q B M D) (hd : ∀ a b, a < p → b < q → D' a b → D a b) : Rep p q B M D' :=
  ⟨h.len, h.row, fun i hi j hj d => h.val i hi j hj (hd i j (h.len ▸ hi) (by rw [← h.row i hi]; exact hj) d)⟩

/-- What the code does: `(j - 1) % col_count` in `size_t`, and two columns without an address. -/
def code : Way := ⟨fun q j => (j + (2 ^ 64 - 1)) % 2 ^ 64 % q, 2⟩

theorem column_mem (W : List Nat) (J : W64) (h : W ≠ []) : Spec.Argon2.column W J ∈ W := by
  unfold Spec.Argon2.column
  dsimp only
  have hl : 0 < W.length := List.length_pos_iff.mpr h
  rw [List.getD_eq_getElem?_getD, List.getElem?_eq_getElem (by omega)]
  exact List.getElem_mem _

/-- The blocks that are there when column `idx` of the segment `sl` of lane `l` is to be computed. -/
def done (c : Params) (r sl l idx : Nat) (a b : Nat) : Prop :=
  r ≠ 0 ∨ b < 2 ∨ b < sl * c.seg ∨ (a < l ∧ b < (sl + 1) * c.seg) ∨ (a = l ∧ b < sl * c.seg + idx)

theorem ref_done (c : Params) (hc : Sizes c) (J : W64) (r sl l i : Nat) (hl : l < c.p) (hsl : sl < 4) (hi : i < c.seg) (h2 : ¬ (r = 0 ∧ sl * c.seg + i < 2)) :
    Spec.Argon2.lane c r sl l J < c.p ∧
      Spec.Argon2.column (Spec.Argon2.W c r sl i (Spec.Argon2.lane c r sl l J = l)) J < c.q ∧
        done c r sl l i (Spec.Argon2.lane c r sl l J) (Spec.Argon2.column (Spec.Argon2.W c r sl i (Spec.Argon2.lane c r sl l J = l)) J) := by
  have seg0 := hc.seg0
  have hq : c.q = 4 * c.seg := rfl
  have hS : sl * c.seg ≤ 3 * c.seg := Nat.mul_le_mul_right _ (by omega)
  have hL : Spec.Argon2.lane c r sl l J < c.p := by
    unfold Spec.Argon2.lane
    split
    · exact hl
    · exact Nat.mod_lt _ hc.p0
  have hL0 : r = 0 → Spec.Argon2.lane c r sl l J ≠ l → sl ≠ 0 := fun r0 n s0 => n (by unfold Spec.Argon2.lane; rw [if_pos ⟨r0, s0⟩])
  refine ⟨hL, ?_⟩
  generalize Spec.Argon2.lane c r sl l J = L at *
  by_cases r0 : r = 0
  · subst r0
    by_cases same : L = l
    · have hW : Spec.Argon2.W c 0 sl i (decide (L = l)) = (List.range (sl * c.seg + i - 1)).map fun k => k := by
        unfold Spec.Argon2.W
        rw [decide_eq_true same, if_pos rfl, finished_first, dropLast_map]
      rw [hW, List.map_id']
      have := column_mem (List.range (sl * c.seg + i - 1)) J (by rw [ne_eq, List.range_eq_nil]; omega)
      rw [List.mem_range] at this
      exact ⟨by omega, Or.inr (Or.inr (Or.inr (Or.inr ⟨same, by omega⟩)))⟩
    · have s0 := hL0 rfl same
      have hS0 : c.seg ≤ sl * c.seg := Nat.le_mul_of_pos_left _ (by omega)
      have key : ∀ n, 0 < n → n ≤ sl * c.seg → Spec.Argon2.column (List.range n) J < c.q ∧
          done c 0 sl l i L (Spec.Argon2.column (List.range n) J) := fun n h1 h2 => by
        have := column_mem (List.range n) J (by rw [ne_eq, List.range_eq_nil]; omega)
        rw [List.mem_range] at this
        exact ⟨by omega, Or.inr (Or.inr (Or.inl (by omega)))⟩
      have hf : Spec.Argon2.finished c 0 sl = (List.range (sl * c.seg)).map fun k => k := by
        unfold Spec.Argon2.finished
        rw [if_pos rfl, List.map_id']
      unfold Spec.Argon2.W
      rw [decide_eq_false same, if_neg (show ¬ (false = true) by decide), hf]
      split
      · rw [dropLast_map, List.map_id']
        exact key _ (by omega) (by omega)
      · rw [List.map_id']
        exact key _ (by omega) (by omega)
  · refine ⟨?_, Or.inl r0⟩
    have key : ∀ n, 0 < n → Spec.Argon2.column ((List.range n).map fun k => ((sl + 1) * c.seg + k) % c.q) J < c.q := fun n h1 => by
      have := column_mem ((List.range n).map fun k => ((sl + 1) * c.seg + k) % c.q) J (by rw [ne_eq, List.map_eq_nil_iff, List.range_eq_nil]; omega)
      rw [List.mem_map] at this
      obtain ⟨k, _, e⟩ := this
      rw [← e]
      exact Nat.mod_lt _ (by omega)
    have hf : Spec.Argon2.finished c r sl = (List.range (3 * c.seg)).map fun k => ((sl + 1) * c.seg + k) % c.q := by
      unfold Spec.Argon2.finished
      rw [if_neg r0]
    unfold Spec.Argon2.W
    split
    · rw [finished_later c r sl i r0 hsl (by omega), dropLast_map]
      exact key _ (by omega)
    · split
      · rw [hf, dropLast_map]
        exact key _ (by omega)
      · rw [hf]
        exact key _ (by omega)

/-- The index of `next_pr_chunk`. -/
def nextOf (r sl idx : Nat) : Nat := if r = 0 ∧ sl = 0 then idx - 2 else idx

theorem word_eq (c : Params) (hc : Sizes c) (B : Mem) (M : Memory) (r sl l i : Nat) (hl : l < c.p) (hsl : sl < 4) (hi : i < c.seg) (h2 : ¬ (r = 0 ∧ sl * c.seg + i < 2))
    (h : Rep c.p c.q B M (done c r sl l i)) :
    (chunk (if Spec.Argon2.independent c r sl then some (vec c.seg fun i => Spec.Argon2.address c r l sl i) else none) (nextOf r sl i) >>= fun x =>
      word (ctx c) B x l (sl * c.seg + i)) = .ok (Spec.Argon2.J code c M r sl l i) := by
  have seg0 := hc.seg0
  have seg1 := hc.seg1
  have hq : c.q = 4 * c.seg := rfl
  have hS : sl * c.seg ≤ 3 * c.seg := Nat.mul_le_mul_right _ (by omega)
  unfold Spec.Argon2.J
  cases Spec.Argon2.independent c r sl with
  | true =>
    rw [if_pos rfl, if_pos rfl]
    unfold chunk
    dsimp only
    rw [rd_vec _ _ _ (by unfold nextOf; split <;> omega)]
    rfl
  | false =>
    rw [if_neg (show ¬ (false = true) by decide), if_neg (show ¬ (false = true) by decide)]
    show word (ctx c) B none l (sl * c.seg + i) = _
    unfold word
    dsimp only
    have e : sub64 (sl * c.seg + i) 1 % (ctx c).q = code.before c.q (sl * c.seg + i) := rfl
    have hb : code.before c.q (sl * c.seg + i) < c.q := Nat.mod_lt _ (by omega)
    rw [e, h.get l _ hl hb, Out.bind_ok, rd_vec _ _ _ (by decide)]
    by_cases r0 : r = 0
    · refine Or.inr (Or.inr (Or.inr (Or.inr ⟨rfl, ?_⟩)))
      rw [← e, sub64_eq _ _ (by omega) (by omega)]
      exact Nat.lt_of_le_of_lt (Nat.mod_le _ _) (by omega)
    · exact Or.inl r0

theorem oldOf_eq (c : Params) (B : Mem) (M : Memory) (r sl l i j : Nat) (hl : l < c.p) (hj : j < c.q) (h : Rep c.p c.q B M (done c r sl l i)) :
    oldOf B r l j = .ok ((if r = 0 then none else some (M l j)).map (vec 128)) := by
  unfold oldOf
  by_cases r0 : r = 0
  · rw [if_neg (by simpa using r0), if_pos r0]
    rfl
  · rw [if_pos r0, if_neg r0, h.get l j hl hj (Or.inl r0)]
    rfl

theorem bind_split {α β : Type} {x : Out α} {f : α → Out β} {b : β} (h : (x >>= f) = .ok b) : ∃ a, x = .ok a ∧ f a = .ok b := by
  cases x with
  | ok a => exact ⟨a, rfl, h⟩
  | ub => exact absurd h (by intro q; cases q)

theorem body_eq (c : Params) (hc : Sizes c) (B : Mem) (M : Memory) (r sl l i : Nat) (hl : l < c.p) (hsl : sl < 4) (hi : i < c.seg)
    (h : Rep c.p c.q B M (done c r sl l i)) :
    ∃ B', body (ctx c) r sl l (if Spec.Argon2.independent c r sl then some (vec c.seg fun i => Spec.Argon2.address c r l sl i) else none) (B, nextOf r sl i) i =
      .ok (B', nextOf r sl (i + 1)) ∧ Rep c.p c.q B' (Spec.Argon2.step code c r sl l M i) (done c r sl l (i + 1)) := by
  have seg0 := hc.seg0
  have seg1 := hc.seg1
  have hq : c.q = 4 * c.seg := rfl
  have hS : sl * c.seg ≤ 3 * c.seg := Nat.mul_le_mul_right _ (by omega)
  have hs0 : r = 0 ∧ sl * c.seg + i < 2 → sl = 0 := fun q => by
    by_contra hn
    have hS0 : c.seg ≤ sl * c.seg := Nat.le_mul_of_pos_left _ (by omega)
    omega
  unfold body Spec.Argon2.step
  have hseg : (ctx c).seg = c.seg := rfl
  dsimp only
  rw [hseg]
  by_cases h2 : r = 0 ∧ sl * c.seg + i < 2
  · rw [if_pos h2, if_pos h2]
    have s0 := hs0 h2
    refine ⟨B, ?_, ?_⟩
    · show Out.ok (B, nextOf r sl i) = _
      unfold nextOf
      rw [if_pos ⟨h2.1, s0⟩, if_pos ⟨h2.1, s0⟩, show i + 1 - 2 = i - 2 by subst s0; omega]
    · refine h.mono fun a b ha hb d => ?_
      unfold done at *
      subst s0
      omega
  · rw [if_neg h2, if_neg h2]
    have hw := word_eq c hc B M r sl l i hl hsl hi h2 h
    generalize (if Spec.Argon2.independent c r sl then some (vec c.seg fun i => Spec.Argon2.address c r l sl i) else none) = pr at hw ⊢
    generalize hJ : Spec.Argon2.J code c M r sl l i = J at *
    obtain ⟨r1, r2, r3⟩ := ref_done c hc J r sl l i hl hsl hi h2
    have hx := indexes_eq c hc J r sl l i hsl hi h2
    have hlj : (if r = 0 ∨ sl * c.seg + i ≠ 0 then sl * c.seg + i - 1 else (ctx c).q - 1) = (sl * c.seg + i + c.q - 1) % c.q := by
      show (if r = 0 ∨ sl * c.seg + i ≠ 0 then sl * c.seg + i - 1 else c.q - 1) = _
      by_cases j0 : sl * c.seg + i = 0
      · rw [if_neg (by omega), j0, Nat.zero_add, Nat.mod_eq_of_lt (by omega)]
      · rw [if_pos (Or.inr j0), show sl * c.seg + i + c.q - 1 = sl * c.seg + i - 1 + c.q by omega, Nat.add_mod_right, Nat.mod_eq_of_lt (by omega)]
    have hld : done c r sl l i l ((sl * c.seg + i + c.q - 1) % c.q) := by
      by_cases r0 : r = 0
      · refine Or.inr (Or.inr (Or.inr (Or.inr ⟨rfl, ?_⟩)))
        rw [show sl * c.seg + i + c.q - 1 = sl * c.seg + i - 1 + c.q by omega, Nat.add_mod_right, Nat.mod_eq_of_lt (by omega)]
        omega
      · exact Or.inl r0
    generalize Spec.Argon2.lane c r sl l J = L at *
    generalize Spec.Argon2.column (Spec.Argon2.W c r sl i (decide (L = l))) J = C at *
    generalize hnew : (if r = 0 then Spec.Argon2.G (M l ((sl * c.seg + i + c.q - 1) % c.q)) (M L C) else
      fun k => Spec.Argon2.G (M l ((sl * c.seg + i + c.q - 1) % c.q)) (M L C) k ^^^ M l (sl * c.seg + i) k) = new
    have hz : compress ((if r = 0 then none else some (M l (sl * c.seg + i))).map (vec 128)) (vec 128 (M l ((sl * c.seg + i + c.q - 1) % c.q))) (vec 128 (M L C)) =
        .ok (vec 128 new) := by
      rw [compress_eq, ← hnew]
      by_cases r0 : r = 0
      · rw [if_pos r0, if_pos r0]
      · rw [if_neg r0, if_neg r0]
    obtain ⟨B', e1, e2⟩ := h.set l (sl * c.seg + i) hl (by omega) new
    refine ⟨B', ?_, ?_⟩
    · obtain ⟨x, ex, ew⟩ := bind_split hw
      rw [ex, Out.bind_ok, ew, Out.bind_ok, hx]
      dsimp only
      rw [hlj, h.get l _ hl (Nat.mod_lt _ (by omega)) hld, Out.bind_ok, h.get L C r1 r2 r3, Out.bind_ok, oldOf_eq c B M r sl l i _ hl (by omega) h, Out.bind_ok, hz, Out.bind_ok,
        e1, Out.bind_ok]
      show Out.ok (B', nextOf r sl i + 1) = _
      have : nextOf r sl i + 1 = nextOf r sl (i + 1) := by
        unfold nextOf
        by_cases q : r = 0 ∧ sl = 0
        · rw [if_pos q, if_pos q]
          obtain ⟨q1, q2⟩ := q
          subst q2
          omega
        · rw [if_neg q, if_neg q]
      rw [this]
    · refine e2.mono fun a b ha hb d => ?_
      unfold done at *
      omega

theorem segment_eq (c : Params) (hc : Sizes c) (B : Mem) (M : Memory) (r sl l : Nat) (hl : l < c.p) (hsl : sl < 4)
    (h : Rep c.p c.q B M (done c r sl l 0)) :
    ∃ B', segment (ctx c) r sl B l = .ok B' ∧ Rep c.p c.q B' (Spec.Argon2.segment code c r sl M l) (done c r sl (l + 1) 0) := by
  unfold segment
  rw [prOf_eq, Out.bind_ok]
  generalize hpr : (if Spec.Argon2.independent c r sl then some (vec c.seg fun i => Spec.Argon2.address c r l sl i) else none) = pr
  obtain ⟨s, e, e1, e2⟩ := foldlM_range (body (ctx c) r sl l pr)
    (fun i s => s.2 = nextOf r sl i ∧ Rep c.p c.q s.1 ((List.range i).foldl (Spec.Argon2.step code c r sl l) M) (done c r sl l i)) c.seg (by
      rintro i hi ⟨B, n⟩ ⟨h1, h2⟩
      dsimp only at h1 h2
      subst h1
      obtain ⟨B', b1, b2⟩ := body_eq c hc B _ r sl l i hl hsl hi h2
      rw [hpr] at b1
      exact ⟨_, b1, rfl, by rw [foldl_range_succ]; exact b2⟩) (B, 0) ⟨by unfold nextOf; simp, h⟩
  refine ⟨s.1, ?_, ?_⟩
  · have hseg : (ctx c).seg = c.seg := rfl
    rw [hseg, e, Out.bind_ok]
    rfl
  · refine Rep.mono e2 fun a b ha hb d => ?_
    unfold done at *
    rw [Nat.add_mul] at *
    omega

theorem slice_eq (c : Params) (hc : Sizes c) (B : Mem) (M : Memory) (r sl : Nat) (hsl : sl < 4)
    (h : Rep c.p c.q B M (done c r sl 0 0)) :
    ∃ B', (List.range c.p).foldlM (segment (ctx c) r sl) B = .ok B' ∧ Rep c.p c.q B' (Spec.Argon2.slice code c r M sl) (done c r (sl + 1) 0 0) := by
  obtain ⟨s, e, e1⟩ := foldlM_range (segment (ctx c) r sl)
    (fun l s => Rep c.p c.q s ((List.range l).foldl (Spec.Argon2.segment code c r sl) M) (done c r sl l 0)) c.p (by
      rintro l hl B h2
      obtain ⟨B', b1, b2⟩ := segment_eq c hc B _ r sl l hl hsl h2
      exact ⟨_, b1, by rw [foldl_range_succ]; exact b2⟩) B h
  refine ⟨s, e, Rep.mono e1 fun a b ha hb d => ?_⟩
  unfold done at *
  rw [Nat.add_mul] at *
  omega

theorem pass_eq (c : Params) (hc : Sizes c) (B : Mem) (M : Memory) (r : Nat) (h : Rep c.p c.q B M (done c r 0 0 0)) :
    ∃ B', (List.range 4).foldlM (fun B sl => (List.range c.p).foldlM (segment (ctx c) r sl) B) B = .ok B' ∧
      Rep c.p c.q B' (Spec.Argon2.pass code c M r) fun _ _ => True := by
  obtain ⟨s, e, e1⟩ := foldlM_range (fun B sl => (List.range c.p).foldlM (segment (ctx c) r sl) B)
    (fun sl s => Rep c.p c.q s ((List.range sl).foldl (Spec.Argon2.slice code c r) M) (done c r sl 0 0)) 4 (by
      rintro sl hsl B h2
      obtain ⟨B', b1, b2⟩ := slice_eq c hc B _ r sl hsl h2
      exact ⟨_, b1, by rw [foldl_range_succ]; exact b2⟩) B h
  refine ⟨s, e, Rep.mono e1 fun a b ha hb d => ?_⟩
  have hq : c.q = 4 * c.seg := rfl
  exact Or.inr (Or.inr (Or.inl (by omega)))

/-- All passes: the memory is that of RFC 9106 in the way of the code. -/
theorem fillAll_eq (c : Params) (hc : Sizes c) (ht : 0 < c.t) (B : Mem) (h : Rep c.p c.q B (Spec.Argon2.start c) (done c 0 0 0 0)) :
    ∃ B', fillAll (ctx c) B = .ok B' ∧ Rep c.p c.q B' (Spec.Argon2.memory code c) fun _ _ => True := by
  obtain ⟨s, e, e1⟩ := foldlM_range (fun B r => (List.range 4).foldlM (fun B sl => (List.range c.p).foldlM (segment (ctx c) r sl) B) B)
    (fun r s => Rep c.p c.q s ((List.range r).foldl (Spec.Argon2.pass code c) (Spec.Argon2.start c)) (done c r 0 0 0)) c.t (by
      rintro r hr B h2
      obtain ⟨B', b1, b2⟩ := pass_eq c hc B _ r h2
      exact ⟨_, b1, by rw [foldl_range_succ]; exact b2.mono fun _ _ _ _ _ => trivial⟩) B h
  exact ⟨s, e, Rep.mono e1 fun a b ha hb _ => Or.inl (by omega)⟩

end Kryptos.Argon2
