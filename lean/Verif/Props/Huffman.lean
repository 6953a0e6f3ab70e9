import Verif.Lemmas.Huffman
import Mathlib.Data.Nat.Fib.Basic
import Mathlib.Data.List.Perm.Basic
import Mathlib.Tactic.NormNum
/-
  Huffman coding (C48).
-/
namespace Kryptos.Huffman

/-! ## Sorting -/

/-- The number of pairs in the wrong order. -/
def inversions : List Freq → Nat
  | [] => 0
  | a :: l => l.countP (fun b => b.freq < a.freq) + inversions l

theorem inversions_le : ∀ l : List Freq, 2 * inversions l + l.length ≤ l.length * l.length
  | [] => by simp [inversions]
  | a :: l => by
    have h1 := inversions_le l
    have h2 : l.countP (fun b => b.freq < a.freq) ≤ l.length := List.countP_le_length
    simp only [inversions, List.length_cons]
    have : (l.length + 1) * (l.length + 1) = l.length * l.length + 2 * l.length + 1 := by ring
    omega

theorem sortPass_some : ∀ (l l' : List Freq), sortPass l = some l' → l'.Perm l ∧ inversions l = inversions l' + 1
  | [], l', h => by simp [sortPass] at h
  | [a], l', h => by simp [sortPass] at h
  | a :: b :: l, l', h => by
    rw [sortPass] at h
    split at h
    · rename_i hab
      rw [Option.some.injEq] at h
      subst h
      refine ⟨.swap a b l, ?_⟩
      simp only [inversions, List.countP_cons, decide_eq_true hab, show ¬ a.freq < b.freq by omega, decide_false, if_true]
      simp
      omega
    · rw [Option.map_eq_some_iff] at h
      obtain ⟨m, hm, rfl⟩ := h
      obtain ⟨h1, h2⟩ := sortPass_some (b :: l) m hm
      refine ⟨h1.cons a, ?_⟩
      have e1 : inversions (a :: b :: l) = (b :: l).countP (fun c => c.freq < a.freq) + inversions (b :: l) := rfl
      have e2 : inversions (a :: m) = m.countP (fun c => c.freq < a.freq) + inversions m := rfl
      rw [h1.countP_eq] at e2
      omega

theorem sortPass_none : ∀ l : List Freq, sortPass l = none → l.Pairwise fun a b => a.freq ≤ b.freq
  | [], _ => .nil
  | [a], _ => by simp
  | a :: b :: l, h => by
    rw [sortPass] at h
    split at h
    · simp at h
    · rename_i hab
      rw [Option.map_eq_none_iff] at h
      have ih := sortPass_none (b :: l) h
      rw [List.pairwise_cons] at ih ⊢
      refine ⟨fun x hx => ?_, List.pairwise_cons.2 ih⟩
      rw [List.mem_cons] at hx
      rcases hx with rfl | hx
      · omega
      · have := ih.1 x hx
        omega

theorem sortLoop_run : ∀ (fuel : Nat) (l : List Freq), inversions l < fuel →
    ∃ l', sortLoop fuel l = .ok l' ∧ l'.Perm l ∧ l'.Pairwise fun a b => a.freq ≤ b.freq
  | 0, l, h => by omega
  | fuel + 1, l, h => by
    rw [sortLoop]
    cases hp : sortPass l with
    | none => exact ⟨l, rfl, .refl _, sortPass_none l hp⟩
    | some m =>
      obtain ⟨h1, h2⟩ := sortPass_some l m hp
      obtain ⟨l', h3, h4, h5⟩ := sortLoop_run fuel m (by omega)
      exact ⟨l', h3, h4.trans h1, h5⟩

/-- The sorting of the library ends and sorts, for every table. -/
theorem sort_spec (t : List Freq) (h : t.length = 256) :
    ∃ t', sortNodes t = .ok t' ∧ t'.Perm t ∧ t'.Pairwise fun a b => a.freq ≤ b.freq := by
  have := inversions_le t
  rw [h] at this
  exact sortLoop_run _ t (by omega)

/-! ## Counting -/

/-- The table of the counts. -/
def cnt (l : Bytes) : List Freq := (List.range 256).map fun i =>
  ⟨l.count (BitVec.ofNat 8 i), .nil, if l.count (BitVec.ofNat 8 i) = 0 then 0 else BitVec.ofNat 8 i⟩

theorem countByte_run (l : Bytes) (b : Byte) : countByte (cnt l) b = .ok (cnt (l ++ [b])) := by
  have hb := b.isLt
  have hlen : (cnt l).length = 256 := by simp [cnt]
  have hbb : BitVec.ofNat 8 b.toNat = b := by simp
  rw [countByte, rd_eq_ok (by omega), Out.bind_ok, wr, if_pos (by omega)]
  congr 1
  apply List.ext_getElem
  · simp [cnt]
  intro i h1 h2
  have hi : i < 256 := by simpa [cnt] using h2
  rw [List.getElem_set]
  simp only [cnt, List.getElem_map, List.getElem_range, hbb, List.count_append, List.count_singleton]
  by_cases hib : b.toNat = i
  · subst hib
    simp only [if_true, hbb, beq_self_eq_true]
    by_cases h0 : List.count b l = 0
    · simp [h0]
    · simp only [h0, if_false, Nat.add_eq_zero_iff]
      by_cases hz : b = 0 <;> simp [hz]
  · have : b ≠ BitVec.ofNat 8 i := fun h => hib (by rw [h]; simp; omega)
    simp [hib, this]

theorem counts_run (inp : Bytes) : counts inp = .ok (cnt inp) := by
  have h : ∀ (l d : Bytes), l.foldlM countByte (cnt d) = .ok (cnt (d ++ l)) := by
    intro l
    induction l with
    | nil => intro d; simp
    | cons b l ih =>
      intro d
      rw [List.foldlM_cons, countByte_run, Out.bind_ok, ih]
      simp
  have h0 : List.replicate 256 (⟨0, .nil, 0⟩ : Freq) = cnt [] := by
    apply List.ext_getElem
    · simp only [cnt, List.length_replicate, List.length_map, List.length_range]
    · intro i h1 h2
      rw [List.getElem_replicate]
      simp only [cnt, List.getElem_map, List.count_nil, if_true]
  rw [counts, h0, h]
  simp

/-! ## The tree -/

/-- How a tree is kept in a table entry: a leaf is hung under a node. -/
def wrap : Tree → Tree
  | .node .nil .nil b => .node (.node .nil .nil b) .nil 0
  | t => t

/-- The tree of a table entry. -/
def unwrap : Tree → Tree
  | .node l .nil _ => l
  | t => t

/-- The bytes at the leaves. -/
def bytesOf (t : Tree) : List Byte := (paths t).map Prod.snd

theorem bytesOf_node {l r : Tree} (b : Byte) (hl : Full l) : bytesOf (.node l r b) = bytesOf l ++ bytesOf r := by
  rw [bytesOf, paths_node b hl]
  simp [bytesOf, Function.comp_def]

/-- Two entries with full trees are joined to one. -/
theorem join_run {a b : Freq} {s t : Tree} (hs : Full s) (ht : Full t) (ha : a.subtree = wrap s) (hb : b.subtree = wrap t) :
    ∃ a' b' u, join a b = .ok (a', b', u) ∧ Full u ∧ height u = max (height s) (height t) + 1 ∧ (bytesOf u).Perm (bytesOf s ++ bytesOf t) ∧
      wrap u = u ∧ unwrap u = u ∧
      (a'.freq = a.freq + b.freq ∧ a'.subtree = u ∧ b'.freq = 0 ∨ b'.freq = a.freq + b.freq ∧ b'.subtree = u ∧ a'.freq = 0) := by
  have key : ∀ {l r : Tree} (b : Byte), Full l → Full r → Full (.node l r b) ∧ height (.node l r b) = max (height l) (height r) + 1 ∧
      bytesOf (.node l r b) = bytesOf l ++ bytesOf r ∧ wrap (.node l r b) = .node l r b ∧ unwrap (.node l r b) = .node l r b := by
    intro l r b hl hr
    refine ⟨.node b hl hr, height_node b hl, bytesOf_node b hl, ?_, ?_⟩
    · cases hl <;> rfl
    · cases hr <;> rfl
  have leaf : ∀ c, rNull (wrap (.node .nil .nil c)) = .ok true := fun c => rfl
  have inner : ∀ {l r : Tree} (b : Byte), Full l → Full r → rNull (wrap (.node l r b)) = .ok false := by
    intro l r b hl hr
    rw [(key b hl hr).2.2.2.1]
    cases hr <;> rfl
  have jn : ∀ {t : Tree}, Full t → joined (wrap t) = .ok t := by
    intro t ht
    cases ht with
    | leaf c => rfl
    | node c hl hr =>
      rw [joined, inner c hl hr, Out.bind_ok]
      simp [(key c hl hr).2.2.2.1]
  rw [join, ha, hb]
  cases hs with
  | leaf c =>
    obtain ⟨k1, k2, k3, k4, k5⟩ := key (0 : Byte) (.leaf c) ht
    refine ⟨⟨a.freq + b.freq, .node (.node .nil .nil c) t 0, 0⟩, ⟨0, .nil, 0⟩, .node (.node .nil .nil c) t 0, ?_, k1, k2, by rw [k3], k4, k5,
      .inl ⟨rfl, rfl, rfl⟩⟩
    rw [leaf, Out.bind_ok, if_pos rfl, jn ht, Out.bind_ok]
    rfl
  | @node l r c hl hr =>
    have hst := Full.node c hl hr
    rw [inner c hl hr, Out.bind_ok]
    simp only [Bool.false_eq_true, if_false]
    cases ht with
    | leaf e =>
      obtain ⟨k1, k2, k3, k4, k5⟩ := key (0 : Byte) (.leaf e) hst
      refine ⟨⟨0, .nil, 0⟩, ⟨b.freq + a.freq, .node (.node .nil .nil e) (.node l r c) 0, 0⟩, .node (.node .nil .nil e) (.node l r c) 0, ?_, k1,
        by rw [k2, Nat.max_comm], by rw [k3]; exact List.perm_append_comm, k4, k5, .inr ⟨Nat.add_comm _ _, rfl, rfl⟩⟩
      rw [leaf, Out.bind_ok, if_pos rfl, jn hst, Out.bind_ok]
      rfl
    | @node l' r' e hl' hr' =>
      obtain ⟨k1, k2, k3, k4, k5⟩ := key (0 : Byte) hst (Full.node e hl' hr')
      refine ⟨⟨a.freq + b.freq, .node (.node l r c) (.node l' r' e) 0, a.byte⟩, ⟨0, .nil, b.byte⟩, .node (.node l r c) (.node l' r' e) 0, ?_,
        k1, k2, by rw [k3], k4, k5, .inl ⟨rfl, rfl, rfl⟩⟩
      rw [inner e hl' hr', Out.bind_ok]
      simp only [Bool.false_eq_true, if_false, (key c hl hr).2.2.2.1, (key e hl' hr').2.2.2.1, Out.pure_eq]

/-- The tree of an entry. -/
def Freq.tree (p : Freq) : Tree := unwrap p.subtree

/-- The forest while joining: entries with full trees, whose weights bound their heights; the leaves are the bytes of `U`. -/
structure Forest (U : List Byte) (N : Nat) (ps : List Freq) : Prop where
  pos : ∀ p ∈ ps, 0 < p.freq
  full : ∀ p ∈ ps, Full p.tree
  wrapped : ∀ p ∈ ps, p.subtree = wrap p.tree
  own : ∀ p ∈ ps, Nat.fib (height p.tree + 2) ≤ p.freq
  other : ∀ p ∈ ps, ∀ q ∈ ps, Nat.fib (height p.tree + 1) ≤ q.freq
  bytes : (ps.flatMap fun p => bytesOf p.tree).Perm U
  total : (ps.map Freq.freq).sum = N

theorem Forest.perm {U : List Byte} {N : Nat} {ps qs : List Freq} (h : Forest U N ps) (hp : qs.Perm ps) : Forest U N qs :=
  ⟨fun p hx => h.pos p (hp.mem_iff.1 hx), fun p hx => h.full p (hp.mem_iff.1 hx), fun p hx => h.wrapped p (hp.mem_iff.1 hx),
    fun p hx => h.own p (hp.mem_iff.1 hx), fun p hx q hy => h.other p (hp.mem_iff.1 hx) q (hp.mem_iff.1 hy),
    (hp.flatMap_right _).trans h.bytes, ((hp.map _).sum_eq).trans h.total⟩

/-- Joining the two entries of smallest weight. -/
theorem Forest.join {U : List Byte} {N : Nat} {a b : Freq} {ps : List Freq} (h : Forest U N (a :: b :: ps))
    (hs : (a :: b :: ps).Pairwise fun a b => a.freq ≤ b.freq) {m : Freq} {u : Tree} (hm : m.freq = a.freq + b.freq) (hu : m.subtree = u)
    (f : Full u) (hh : height u = max (height a.tree) (height b.tree) + 1) (hb : (bytesOf u).Perm (bytesOf a.tree ++ bytesOf b.tree))
    (w1 : wrap u = u) (w2 : unwrap u = u) : Forest U N (m :: ps) := by
  have ht : m.tree = u := by rw [Freq.tree, hu, w2]
  have ha : a ∈ a :: b :: ps := by simp
  have hbm : b ∈ a :: b :: ps := by simp
  rw [List.pairwise_cons, List.pairwise_cons] at hs
  have hab := hs.1 b (by simp)
  have hbp : ∀ q ∈ ps, b.freq ≤ q.freq := hs.2.1
  have o1 := h.own a ha
  have o2 := h.own b hbm
  have o3 := h.other a ha b hbm
  have o4 := h.other b hbm a ha
  have fibs : ∀ n, Nat.fib (n + 1 + 2) = Nat.fib (n + 2) + Nat.fib (n + 1) := by
    intro n
    rw [show n + 1 + 2 = (n + 1) + 2 from rfl, Nat.fib_add_two, Nat.add_comm]
  refine ⟨?_, ?_, ?_, ?_, ?_, ?_, ?_⟩
  · intro p hp
    rw [List.mem_cons] at hp
    rcases hp with rfl | hp
    · have := h.pos a ha
      omega
    · exact h.pos p (by simp [hp])
  · intro p hp
    rw [List.mem_cons] at hp
    rcases hp with rfl | hp
    · rw [ht]; exact f
    · exact h.full p (by simp [hp])
  · intro p hp
    rw [List.mem_cons] at hp
    rcases hp with rfl | hp
    · rw [ht, w1, hu]
    · exact h.wrapped p (by simp [hp])
  · intro p hp
    rw [List.mem_cons] at hp
    rcases hp with rfl | hp
    · rw [ht, hh, fibs, hm]
      rcases Nat.le_total (height a.tree) (height b.tree) with hl | hl
      · rw [Nat.max_eq_right hl]; omega
      · rw [Nat.max_eq_left hl]; omega
    · exact h.own p (by simp [hp])
  · have hnew : Nat.fib (height m.tree + 1) ≤ b.freq := by
      rw [ht, hh]
      rcases Nat.le_total (height a.tree) (height b.tree) with hl | hl
      · rw [Nat.max_eq_right hl]; exact o2
      · rw [Nat.max_eq_left hl]; exact le_trans o1 hab
    intro p hp q hq
    rw [List.mem_cons] at hp hq
    rcases hp with rfl | hp
    · rcases hq with rfl | hq
      · omega
      · exact le_trans hnew (hbp q hq)
    · rcases hq with rfl | hq
      · have := h.other p (by simp [hp]) a ha
        omega
      · exact h.other p (by simp [hp]) q (by simp [hq])
  · refine List.Perm.trans ?_ h.bytes
    rw [List.flatMap_cons, List.flatMap_cons, List.flatMap_cons, ← List.append_assoc, ht]
    exact hb.append_right _
  · rw [← h.total]
    simp only [List.map_cons, List.sum_cons, hm]
    omega

/-- In a sorted table the entries without weight come first. -/
theorem sorted_split : ∀ (t : List Freq), (t.Pairwise fun a b => a.freq ≤ b.freq) →
    t = t.filter (fun p => p.freq = 0) ++ t.filter (fun p => 0 < p.freq)
  | [], _ => rfl
  | p :: t, h => by
    rw [List.pairwise_cons] at h
    by_cases hp : p.freq = 0
    · rw [List.filter_cons_of_pos (by simpa using hp), List.filter_cons_of_neg (by simp [hp]), List.cons_append, ← sorted_split t h.2]
    · have : ∀ q ∈ t, ¬ q.freq = 0 := fun q hq => by have := h.1 q hq; omega
      rw [List.filter_cons_of_neg (by simpa using hp), List.filter_cons_of_pos (by simp; omega), List.filter_eq_nil_iff.2 (by simpa using this),
        List.nil_append, List.filter_eq_self.2]
      intro q hq
      have := this q hq
      simp
      omega

/-- Where the joining stands: `z` is the number of bytes not used. -/
structure Step (U : List Byte) (N z n : Nat) (s : List Freq × Tree) : Prop where
  ex : ∃ zs ps, s.1 = zs ++ ps ∧ zs.length = max n z ∧ s.1.length = 256 ∧ (∀ p ∈ zs, p.freq = 0) ∧ Forest U N ps ∧
    (ps.Pairwise fun a b => a.freq ≤ b.freq) ∧ (z < n → ∃ p ∈ ps, s.2 = p.tree) ∧ (n ≤ z → s.2 = .nil)

theorem mkStep_run {U : List Byte} {N z n : Nat} {s : List Freq × Tree} (h : Step U N z n s) (hn : n < 255) :
    ∃ s', mkStep n s = .ok s' ∧ Step U N z (n + 1) s' := by
  obtain ⟨t, hr⟩ := s
  obtain ⟨zs, ps, e1, e2, e3, e4, e5, e6, e7, e8⟩ := h.ex
  simp only at e1 e3 e7 e8
  subst e1
  have hl : zs.length + ps.length = 256 := by simpa using e3
  by_cases hz : n < z
  · -- an entry without weight
    have hn' : n < zs.length := by omega
    refine ⟨(zs ++ ps, hr), ?_, ⟨zs, ps, rfl, by omega, e3, e4, e5, e6, fun h' => by omega, fun _ => e8 (by omega)⟩⟩
    rw [mkStep, rd_eq_ok (by simp; omega), Out.bind_ok, rd_eq_ok (by simp; omega), Out.bind_ok, if_neg]
    · rfl
    · rw [List.getElem_append_left hn']
      have := e4 _ (List.getElem_mem hn')
      omega
  · have hzn : zs.length = n := by omega
    obtain ⟨a, b, ps, rfl⟩ : ∃ a b ps', ps = a :: b :: ps' := by
      match ps, hl with
      | [], hl => simp at hl; omega
      | [a], hl => simp at hl; omega
      | a :: b :: ps', _ => exact ⟨a, b, ps', rfl⟩
    obtain ⟨a', b', u, j1, j2, j3, j4, j5, j6, j7⟩ := join_run (e5.full a (by simp)) (e5.full b (by simp)) (e5.wrapped a (by simp))
      (e5.wrapped b (by simp))
    have hra : rd (zs ++ a :: b :: ps) n = .ok a := by rw [rd_eq_ok (by simp; omega)]; simp [← hzn]
    have hrb : rd (zs ++ a :: b :: ps) (n + 1) = .ok b := by
      rw [rd_eq_ok (by simp; omega)]
      rw [List.getElem_append_right (by omega)]
      simp [← hzn]
    have hwa : wr (zs ++ a :: b :: ps) n a' = .ok (zs ++ a' :: b :: ps) := by
      rw [wr, if_pos (by simp; omega), List.set_append_right _ _ (by omega)]
      simp [← hzn]
    have hwb : wr (zs ++ a' :: b :: ps) (n + 1) b' = .ok (zs ++ a' :: b' :: ps) := by
      rw [wr, if_pos (by simp; omega), List.set_append_right _ _ (by omega)]
      simp [← hzn]
    obtain ⟨t', s1, s2, s3⟩ := sort_spec (zs ++ a' :: b' :: ps) (by simp at e3 ⊢; omega)
    have hpa := e5.pos a (by simp)
    have hpb := e5.pos b (by simp)
    refine ⟨(t', u), ?_, ?_⟩
    · rw [mkStep, hra, Out.bind_ok, hrb, Out.bind_ok, if_pos ⟨hpa, hpb⟩, j1, Out.bind_ok]
      simp only
      rw [hwa, Out.bind_ok, hwb, Out.bind_ok, s1, Out.bind_ok]
      rfl
    · obtain ⟨m, o, m1, m2, m3, m4⟩ : ∃ m o : Freq, (zs ++ a' :: b' :: ps).Perm ((o :: zs) ++ (m :: ps)) ∧ m.freq = a.freq + b.freq ∧
          m.subtree = u ∧ o.freq = 0 := by
        rcases j7 with ⟨k1, k2, k3⟩ | ⟨k1, k2, k3⟩
        · refine ⟨a', b', ?_, k1, k2, k3⟩
          exact ((List.Perm.swap b' a' ps).append_left zs).trans List.perm_middle
        · exact ⟨b', a', List.perm_middle, k1, k2, k3⟩
      have hF := e5.join e6 m2 m3 j2 j3 j4 j5 j6
      have hfilt : ((o :: zs) ++ (m :: ps)).filter (fun p => 0 < p.freq) = m :: ps := by
        rw [List.filter_append, List.filter_eq_nil_iff.2, List.nil_append, List.filter_eq_self.2]
        · intro p hp
          simpa using hF.pos p hp
        · intro p hp
          rw [List.mem_cons] at hp
          rcases hp with rfl | hp
          · simp [m4]
          · simp [e4 p hp]
      have hps : (t'.filter fun p => 0 < p.freq).Perm (m :: ps) := hfilt ▸ ((s2.trans m1).filter _)
      have hsplit := sorted_split t' s3
      have hlen : t'.length = 256 := by rw [s2.length_eq]; simp at e3 ⊢; omega
      have hpl := hps.length_eq
      have htot := congrArg List.length hsplit
      rw [List.length_append, hlen, hpl] at htot
      refine ⟨_, _, hsplit, ?_, hlen, ?_, hF.perm hps, ?_, fun _ => ⟨m, hps.mem_iff.2 (by simp), ?_⟩, fun h' => by omega⟩
      · simp at htot hl ⊢
        omega
      · intro p hp
        simpa using (List.mem_filter.1 hp).2
      · exact s3.filter _
      · rw [Freq.tree, m3, j6]

theorem mkLoop_run {U : List Byte} {N z : Nat} : ∀ (m n : Nat) (s : List Freq × Tree), n + m = 255 → Step U N z n s →
    ∃ s', forLoop mkStep m n s = .ok s' ∧ Step U N z 255 s'
  | 0, n, s, h, hs => ⟨s, rfl, by rw [show n = 255 by omega] at hs; exact hs⟩
  | m + 1, n, s, h, hs => by
    obtain ⟨s1, h1, h2⟩ := mkStep_run hs (by omega)
    obtain ⟨s2, h3, h4⟩ := mkLoop_run m (n + 1) s1 (by omega) h2
    exact ⟨s2, by rw [forLoop, h1, Out.bind_ok, h3], h4⟩

/-- The bytes used in a buffer. -/
def used (inp : Bytes) : List Byte := ((List.range 256).map fun i => BitVec.ofNat 8 i).filter fun b => 0 < inp.count b

theorem mem_used {inp : Bytes} {b : Byte} : b ∈ used inp ↔ b ∈ inp := by
  rw [used, List.mem_filter, List.mem_map]
  simp only [List.mem_range, decide_eq_true_eq, List.count_pos_iff]
  exact ⟨fun h => h.2, fun h => ⟨⟨b.toNat, b.isLt, by simp⟩, h⟩⟩

theorem used_nodup (inp : Bytes) : (used inp).Nodup := by
  refine List.Nodup.filter _ (List.Nodup.map_on ?_ List.nodup_range)
  intro x hx y hy h
  rw [List.mem_range] at hx hy
  have := congrArg BitVec.toNat h
  simp at this
  omega

/-- The beginning of the joining. -/
theorem mkLeaf_step (inp : Bytes) (t : List Freq) (hp : t.Perm (cnt inp)) (hs : t.Pairwise fun a b => a.freq ≤ b.freq) :
    Step (used inp) inp.length (256 - (used inp).length) 0 (t.map mkLeaf, .nil) := by
  have hlen : t.length = 256 := by rw [hp.length_eq]; simp [cnt]
  have hfreq : ∀ p : Freq, (mkLeaf p).freq = p.freq := by intro p; rw [mkLeaf]; split <;> rfl
  have hs' : (t.map mkLeaf).Pairwise fun a b => a.freq ≤ b.freq := by
    rw [List.pairwise_map]
    exact hs.imp (by simp [hfreq])
  have htree : ∀ p : Freq, 0 < p.freq → (mkLeaf p).tree = .node .nil .nil p.byte ∧ (mkLeaf p).subtree = wrap (.node .nil .nil p.byte) := by
    intro p hp
    rw [Freq.tree, mkLeaf, if_pos hp]
    exact ⟨rfl, rfl⟩
  have hbytes : ((t.map mkLeaf).filter fun p => 0 < p.freq).flatMap (fun p => bytesOf p.tree) = (t.filter fun p => 0 < p.freq).map Freq.byte := by
    clear hp hs hs' hlen
    induction t with
    | nil => rfl
    | cons p t ih =>
      rw [List.map_cons]
      by_cases h0 : 0 < p.freq
      · rw [List.filter_cons_of_pos (by simpa [hfreq] using h0), List.filter_cons_of_pos (by simpa using h0), List.flatMap_cons, ih,
          (htree p h0).1]
        simp [bytesOf, paths]
      · rw [List.filter_cons_of_neg (by simpa [hfreq] using h0), List.filter_cons_of_neg (by simpa using h0), ih]
  have hused : ((cnt inp).filter fun p => 0 < p.freq).map Freq.byte = used inp := by
    rw [cnt, used]
    generalize List.range 256 = L
    induction L with
    | nil => rfl
    | cons i L ih =>
      rw [List.map_cons, List.map_cons]
      by_cases h0 : 0 < inp.count (BitVec.ofNat 8 i)
      · rw [List.filter_cons_of_pos (by simpa using h0), List.filter_cons_of_pos (by simpa using h0), List.map_cons, ih,
          if_neg (by omega)]
      · rw [List.filter_cons_of_neg (by simpa using h0), List.filter_cons_of_neg (by simpa using h0), ih]
  have hperm : (((t.map mkLeaf).filter fun p => 0 < p.freq).flatMap fun p => bytesOf p.tree).Perm (used inp) := by
    rw [hbytes, ← hused]
    exact (hp.filter _).map _
  have hcount : ((t.map mkLeaf).filter fun p => 0 < p.freq).length = (used inp).length := by
    have h1 : ((t.map mkLeaf).filter fun p => 0 < p.freq).length = (t.filter fun p => 0 < p.freq).length := by
      rw [List.filter_map, List.length_map]
      congr 2
      funext p
      simp [hfreq]
    rw [h1, ← hused, List.length_map, (hp.filter _).length_eq]
  have hsplit := sorted_split _ hs'
  have htot := congrArg List.length hsplit
  rw [List.length_append, List.length_map, hlen, hcount] at htot
  have mem : ∀ q ∈ (t.map mkLeaf).filter (fun p => 0 < p.freq), ∃ p, 0 < p.freq ∧ q = mkLeaf p := by
    intro q hq
    rw [List.mem_filter, List.mem_map] at hq
    obtain ⟨⟨p, -, rfl⟩, h0⟩ := hq
    exact ⟨p, by simpa [hfreq] using h0, rfl⟩
  refine ⟨_, _, hsplit, by omega, by simpa using hlen, ?_, ⟨?_, ?_, ?_, ?_, ?_, hperm, ?_⟩, hs'.filter _, by omega, fun _ => rfl⟩
  · intro p hp
    simpa using (List.mem_filter.1 hp).2
  · intro q hq
    obtain ⟨p, h0, rfl⟩ := mem q hq
    rw [hfreq]; exact h0
  · intro q hq
    obtain ⟨p, h0, rfl⟩ := mem q hq
    rw [(htree p h0).1]; exact .leaf _
  · intro q hq
    obtain ⟨p, h0, rfl⟩ := mem q hq
    rw [(htree p h0).1]; exact (htree p h0).2
  · intro q hq
    obtain ⟨p, h0, rfl⟩ := mem q hq
    rw [(htree p h0).1, hfreq]
    exact h0
  · intro q hq r hr
    obtain ⟨p, h0, rfl⟩ := mem q hq
    obtain ⟨p', h0', rfl⟩ := mem r hr
    rw [(htree p h0).1, hfreq]
    exact h0'
  · have h1 : ∀ l : List Freq, ((l.filter fun p => 0 < p.freq).map Freq.freq).sum = (l.map Freq.freq).sum := by
      intro l
      induction l with
      | nil => rfl
      | cons p l ih =>
        by_cases h0 : 0 < p.freq
        · rw [List.filter_cons_of_pos (by simpa using h0), List.map_cons, List.map_cons, List.sum_cons, List.sum_cons, ih]
        · rw [List.filter_cons_of_neg (by simpa using h0), List.map_cons, List.sum_cons, ih]
          omega
    rw [h1, List.map_map, show Freq.freq ∘ mkLeaf = Freq.freq from funext hfreq, (hp.map _).sum_eq]
    -- every byte is counted once
    have h2 : ∀ l : Bytes, ((cnt l).map Freq.freq).sum = l.length := by
      intro l
      have : (cnt l).map Freq.freq = ((List.range 256).map fun i => BitVec.ofNat 8 i).map fun b => l.count b := by
        simp [cnt, Function.comp_def]
      rw [this]
      clear this
      induction l with
      | nil =>
        generalize (List.range 256).map (fun i => BitVec.ofNat 8 i) = L
        induction L with
        | nil => rfl
        | cons x L ih => simp
      | cons b l ih =>
        have h3 : ∀ (L : List Byte), (L.map fun x => (b :: l).count x).sum = (L.map fun x => l.count x).sum + L.count b := by
          intro L
          induction L with
          | nil => rfl
          | cons x L ih' =>
            rw [List.map_cons, List.sum_cons, ih', List.map_cons, List.sum_cons, List.count_cons, List.count_cons]
            by_cases hxb : x = b
            · subst hxb; simp; omega
            · simp [hxb, Ne.symm hxb]; omega
        have hnd : ((List.range 256).map fun i => BitVec.ofNat 8 i).Nodup := by
          refine List.Nodup.map_on ?_ List.nodup_range
          intro x hx y hy h
          rw [List.mem_range] at hx hy
          have := congrArg BitVec.toNat h
          simp at this
          omega
        rw [h3, ih, List.length_cons, List.count_eq_one_of_mem hnd (List.mem_map.2 ⟨b.toNat, List.mem_range.2 b.isLt, by simp⟩)]
    exact h2 inp

theorem height_lt {N h : Nat} (hN : N < 2 ^ 64) (hf : Nat.fib (h + 2) ≤ N) : h < 92 := by
  by_contra hh
  have h1 : Nat.fib 94 ≤ Nat.fib (h + 2) := Nat.fib_mono (by omega)
  have h2 : Nat.fib 94 = 19740274219868223167 := by decide +kernel
  omega

/-- The tree which the library makes of a buffer with two different bytes: its leaves are the bytes of the buffer, and its height
is less than 92 when the size fits in 64 bits. -/
theorem mkTree_run (inp : Bytes) (h2 : 2 ≤ (used inp).length) (hN : inp.length < 2 ^ 64) :
    ∃ t0 t h, counts inp = .ok t0 ∧ sortNodes t0 = .ok t ∧ mkTree t = .ok h ∧ Full h ∧ (bytesOf h).Perm (used inp) ∧ height h ≠ 0 ∧
      height h < 92 := by
  obtain ⟨t, s1, s2, s3⟩ := sort_spec (cnt inp) (by simp [cnt])
  have hul : (used inp).length ≤ 256 := by
    rw [used]
    refine (List.length_filter_le _ _).trans ?_
    simp
  obtain ⟨⟨t', h⟩, l1, l2⟩ := mkLoop_run 255 0 _ rfl (mkLeaf_step inp t s2 s3)
  obtain ⟨zs, ps, e1, e2, e3, e4, e5, e6, e7, -⟩ := l2.ex
  obtain ⟨p, hp, hh⟩ := e7 (by omega)
  simp only at e1 e3 hh
  rw [e1, List.length_append, e2] at e3
  obtain ⟨q, rfl⟩ : ∃ q, ps = [q] := List.length_eq_one_iff.1 (by omega)
  rw [List.mem_singleton] at hp
  subst hp hh
  have hb := e5.bytes
  rw [List.flatMap_cons, List.flatMap_nil, List.append_nil] at hb
  have hf := e5.full p (by simp)
  have ho := e5.own p (by simp)
  have ht := e5.total
  simp only [List.map_cons, List.map_nil, List.sum_cons, List.sum_nil, Nat.add_zero] at ht
  refine ⟨_, t, p.tree, counts_run inp, s1, by rw [mkTree, l1]; rfl, hf, hb, ?_, height_lt hN (by omega)⟩
  intro h0
  have hl := hb.length_eq
  cases hf' : p.tree with
  | nil => exact hf.ne_nil hf'
  | node l r b =>
    rw [hf'] at hf h0 hl
    cases hf with
    | leaf b => simp [bytesOf, paths] at hl; omega
    | node b hl hr => rw [height_node b hl] at h0; omega

/-- No tree is made of fewer than two different bytes. -/
theorem mkTree_none (inp : Bytes) (h2 : (used inp).length ≤ 1) :
    ∃ t0 t, counts inp = .ok t0 ∧ sortNodes t0 = .ok t ∧ mkTree t = .ok .nil := by
  obtain ⟨t, s1, s2, s3⟩ := sort_spec (cnt inp) (by simp [cnt])
  obtain ⟨⟨t', h⟩, l1, l2⟩ := mkLoop_run 255 0 _ rfl (mkLeaf_step inp t s2 s3)
  obtain ⟨zs, ps, e1, e2, e3, e4, e5, e6, -, e8⟩ := l2.ex
  have := e8 (by omega)
  simp only at this
  subst this
  exact ⟨_, t, counts_run inp, s1, by rw [mkTree, l1]; rfl⟩

/-! ## Deflating -/

theorem used_two (inp : Bytes) : 2 ≤ (used inp).length ↔ ∃ a ∈ inp, ∃ b ∈ inp, a ≠ b := by
  constructor
  · intro h
    match hu : used inp, h with
    | a :: b :: l, _ =>
      have hn := used_nodup inp
      rw [hu] at hn
      refine ⟨a, mem_used.1 (by simp [hu]), b, mem_used.1 (by simp [hu]), ?_⟩
      intro hab
      simp [hab] at hn
  · rintro ⟨a, ha, b, hb, hab⟩
    have h1 := mem_used.2 ha
    have h2 := mem_used.2 hb
    match hu : used inp with
    | [] => simp [hu] at h1
    | [c] =>
      rw [hu, List.mem_singleton] at h1 h2
      exact absurd (h1.trans h2.symm) hab
    | _ :: _ :: l => simp

/-- A buffer of one byte repeated, or an empty one, is not compressed: `NULL` is returned. -/
theorem huffman_single_byte (inp : Bytes) (h : ¬ ∃ a ∈ inp, ∃ b ∈ inp, a ≠ b) : deflate inp = .ok none := by
  rw [deflate]
  by_cases h0 : inp.length = 0
  · rw [if_pos h0]; rfl
  · rw [if_neg h0]
    rw [← used_two] at h
    obtain ⟨t0, t, h1, h2, h3⟩ := mkTree_none inp (by omega)
    simp only [h1, h2, h3, Out.bind_ok, Out.pure_eq]

/-- The entries of the codes of a tree. -/
theorem entries_paths {h : Tree} (hf : Full h) (h0 : height h ≠ 0) (hn : ((paths h).map Prod.snd).Nodup) :
    ∀ e, e ∈ entries (codeIn (paths h)) ↔ e ∈ paths h := by
  have hne : ∀ e ∈ paths h, e.1 ≠ [] := by
    cases hf with
    | leaf b => simp [height] at h0
    | node b hl hr =>
      intro e he
      rw [paths_node b hl, List.mem_append, List.mem_map, List.mem_map] at he
      rcases he with ⟨f, -, rfl⟩ | ⟨f, -, rfl⟩ <;> simp
  intro e
  rw [mem_entries]
  constructor
  · rintro ⟨h1, h2⟩
    by_cases hm : e.2 ∈ (paths h).map Prod.snd
    · rw [List.mem_map] at hm
      obtain ⟨f, hf, hfe⟩ := hm
      have := codeIn_mem hn hf
      rw [hfe, ← h1] at this
      have : e = f := Prod.ext this hfe.symm
      rw [this]; exact hf
    · rw [codeIn_none hm] at h1
      exact absurd h1 h2
  · intro he
    exact ⟨(codeIn_mem hn he).symm, hne e he⟩

theorem entries_sorted (C : Byte → List Bool) : (entries C).Pairwise fun e f => e.2.toNat < f.2.toNat := by
  rw [entries]
  refine List.Pairwise.filter _ ?_
  rw [List.pairwise_map]
  refine List.Pairwise.imp_of_mem ?_ (List.pairwise_lt_range (n := 256))
  intro a b ha hb hab
  rw [List.mem_range] at ha hb
  simp
  omega

theorem entries_prefixFree {h : Tree} (hf : Full h) (h0 : height h ≠ 0) (hn : ((paths h).map Prod.snd).Nodup) :
    PrefixFree (entries (codeIn (paths h))) := by
  have hp := paths_prefixFree hf
  refine (entries_sorted _).imp_of_mem ?_
  intro e f he hf' hlt
  rw [entries_paths hf h0 hn] at he hf'
  have : Std.Symm fun e f : List Bool × Byte => ¬ e.1 <+: f.1 ∧ ¬ f.1 <+: e.1 := ⟨fun _ _ h => ⟨h.2, h.1⟩⟩
  refine List.Pairwise.forall hp he hf' ?_
  rintro rfl
  omega

/-- What deflating gives, for every buffer with two different bytes: the codes of a tree, ascending by the byte, two zeros, the size and the
packed codes. -/
theorem deflate_run (inp : Bytes) (h2 : ∃ a ∈ inp, ∃ b ∈ inp, a ≠ b) (hN : inp.length < 2 ^ 64) :
    ∃ (C : Byte → List Bool) (pl : Bytes) (pad : List Bool),
      deflate inp = .ok (some (dump (entries C) ++ 0 :: 0 :: (sizeBytes inp.length ++ pl))) ∧ pl.flatMap bitsOf = inp.flatMap C ++ pad ∧
      (∀ b, C b ≠ [] ↔ b ∈ inp) ∧ PrefixFree (entries C) := by
  rw [← used_two] at h2
  obtain ⟨t0, t, h, c1, c2, c3, hf, hb, h0, h92⟩ := mkTree_run inp h2 hN
  have hn : ((paths h).map Prod.snd).Nodup := hb.nodup_iff.2 (used_nodup inp)
  have hg := getCodes_run hf h0 (by omega) hn
  have hne : inp ≠ [] := by
    rintro rfl
    rw [used_two] at h2
    simp at h2
  have hmem : ∀ b, codeIn (paths h) b ≠ [] ↔ b ∈ inp := by
    intro b
    rw [← mem_used, ← hb.mem_iff]
    constructor
    · intro hc
      by_contra hm
      exact hc (codeIn_none hm)
    · intro hm
      rw [bytesOf, List.mem_map] at hm
      obtain ⟨e, he, rfl⟩ := hm
      have := (entries_paths hf h0 hn e).2 he
      rw [mem_entries] at this
      rw [← this.1]
      exact this.2
  have hlen : ∀ b, (codeIn (paths h) b).length < 255 := by
    intro b
    by_cases hm : b ∈ (paths h).map Prod.snd
    · rw [List.mem_map] at hm
      obtain ⟨e, he, rfl⟩ := hm
      rw [codeIn_mem hn he]
      have := height_path hf e he
      omega
    · rw [codeIn_none hm]; simp
  obtain ⟨pl, pad, d1, d2⟩ := deflateWith_run _ hlen h hg inp hne (fun b hb => (hmem b).2 hb)
  refine ⟨_, pl, pad, ?_, d2, hmem, entries_prefixFree hf h0 hn⟩
  rw [deflate, if_neg (by simpa using hne), c1, Out.bind_ok, c2, Out.bind_ok, c3, Out.bind_ok]
  cases h with
  | nil => exact absurd rfl hf.ne_nil
  | node l r b => simp only [d1, Out.bind_ok, Out.pure_eq]

/-- Deflating is defined for every buffer. -/
theorem deflate_defined (inp : Bytes) (hN : inp.length < 2 ^ 64) : ∃ r, deflate inp = .ok r := by
  by_cases h : ∃ a ∈ inp, ∃ b ∈ inp, a ≠ b
  · obtain ⟨C, pl, pad, h1, -⟩ := deflate_run inp h hN
    exact ⟨_, h1⟩
  · exact ⟨_, huffman_single_byte inp h⟩

/-! ## Inflating -/

theorem dump_length (es : List (List Bool × Byte)) : es.length ≤ (dump es).length := by
  induction es with
  | nil => simp
  | cons e es ih => simp only [dump, List.flatMap_cons, List.length_append, List.length_cons] at ih ⊢; simp; omega

theorem entries_two {C : Byte → List Bool} {a b : Byte} (ha : C a ≠ []) (hb : C b ≠ []) (hab : a ≠ b) {e : List Bool × Byte}
    (he : (entries C).getLast? = some e) : e.2 ≠ 0 := by
  have h1 : (C a, a) ∈ entries C := mem_entries.2 ⟨rfl, ha⟩
  have h2 : (C b, b) ∈ entries C := mem_entries.2 ⟨rfl, hb⟩
  have hs := entries_sorted C
  match hl : entries C with
  | [] => simp [hl] at h1
  | [f] =>
    rw [hl, List.mem_singleton] at h1 h2
    have := h1.trans h2.symm
    simp only [Prod.mk.injEq] at this
    exact absurd this.2 hab
  | f :: g :: l =>
    rw [hl] at he hs
    rw [List.getLast?_cons_cons] at he
    have hm : e ∈ g :: l := List.mem_of_getLast? he
    rw [List.pairwise_cons] at hs
    have := hs.1 e hm
    intro h0
    rw [h0] at this
    simp at this

/-- C48, the part that holds: a buffer with at least two different bytes, none of them `'0'` or `'1'`, comes back. -/
theorem huffman_roundtrip_partial (inp : Bytes) (h2 : ∃ a ∈ inp, ∃ b ∈ inp, a ≠ b) (hd0 : 0x30 ∉ inp) (hd1 : 0x31 ∉ inp)
    (hN : inp.length < 2 ^ 64 - 1) : ∃ d, deflate inp = .ok (some d) ∧ inflate d = .ok inp := by
  obtain ⟨C, pl, pad, h1, hpl, hC, hP⟩ := deflate_run inp h2 (by omega)
  refine ⟨_, h1, ?_⟩
  obtain ⟨a, ha, b, hb, hab⟩ := h2
  have hdl := dump_length (entries C)
  generalize hrest : sizeBytes inp.length ++ pl = rest at *
  have hk : ∃ k, (dump (entries C) ++ 0 :: 0 :: rest).length + 1 = (entries C).length + (k + 1) :=
    ⟨(dump (entries C) ++ 0 :: 0 :: rest).length - (entries C).length, by rw [List.length_append]; omega⟩
  obtain ⟨k, hk⟩ := hk
  obtain ⟨t', r1, r2⟩ := rebuildLoop_entries (0 :: 0 :: rest) (entries C) [] .nil (k + 1) _
    ⟨by simp, fun q hq => absurd (by cases q <;> rfl) hq⟩ (by simpa using hP)
    (by
      intro e he
      rw [mem_entries] at he
      refine ⟨he.2, ?_, ?_⟩
      · intro h; exact hd0 ((hC 0x30).1 (by rw [← h, ← he.1]; exact he.2))
      · intro h; exact hd1 ((hC 0x31).1 (by rw [← h, ← he.1]; exact he.2)))
    hk (fun e _ h0 => ⟨0, [], .inr fun hl => entries_two ((hC a).2 ha) ((hC b).2 hb) hab hl h0⟩)
  rw [rebuildLoop_zeros] at r1
  subst hrest
  have hinf := inflate_run C id (dump (entries C)) inp pl pad t' (by rw [rebuild, r1]; rfl) hN hpl
    (fun b hb => ⟨(hC b).2 hb, r2.has (C b, b) (by simpa using mem_entries.2 ⟨rfl, (hC b).2 hb⟩)⟩)
  simpa using hinf

/-- Neither `'0'` nor `'1'` is in the tree. -/
inductive NoDigit : Tree → Prop
  | nil : NoDigit .nil
  | node {l r : Tree} {b : Byte} : NoDigit l → NoDigit r → b ≠ 0x30 ∧ b ≠ 0x31 → NoDigit (.node l r b)

theorem addNode_noDigit : ∀ (s : Bytes) (t t' : Tree) (s' : Bytes), NoDigit t → addNode t s = .ok (t', s') → NoDigit t'
  | [], t, t', s', _, h => by simp [addNode] at h
  | b :: s, t, t', s', ht, h => by
    have hf : NoDigit (fresh t).1 ∧ NoDigit (fresh t).2.1 ∧ (fresh t).2.2 ≠ 0x30 ∧ (fresh t).2.2 ≠ 0x31 := by
      cases ht with
      | nil => exact ⟨.nil, .nil, by decide, by decide⟩
      | node h1 h2 h3 => exact ⟨h1, h2, h3⟩
    rcases hfr : fresh t with ⟨l, r, byte⟩
    rw [hfr] at hf
    obtain ⟨f1, f2, f3⟩ := hf
    rw [addNode, hfr] at h
    simp only at h
    split at h
    · cases s with
      | nil => simp at h
      | cons c s =>
        simp only at h
        split at h
        · simp only [Out.ok.injEq, Prod.mk.injEq] at h
          rw [← h.1]; exact ht
        · simp only [Out.ok.injEq, Prod.mk.injEq] at h
          rw [← h.1]; exact .node f1 f2 (by decide)
    · split at h
      · cases hr : addNode l s with
        | ub => rw [hr] at h; simp at h
        | ok o =>
          obtain ⟨l', s''⟩ := o
          rw [hr, Out.bind_ok] at h
          simp only [Out.pure_eq, Out.ok.injEq, Prod.mk.injEq] at h
          rw [← h.1]
          exact .node (addNode_noDigit s l l' s'' f1 hr) f2 f3
      · split at h
        · cases hr : addNode r s with
          | ub => rw [hr] at h; simp at h
          | ok o =>
            obtain ⟨r', s''⟩ := o
            rw [hr, Out.bind_ok] at h
            simp only [Out.pure_eq, Out.ok.injEq, Prod.mk.injEq] at h
            rw [← h.1]
            exact .node f1 (addNode_noDigit s r r' s'' f2 hr) f3
        · simp only [Out.ok.injEq, Prod.mk.injEq] at h
          rw [← h.1]
          exact .node f1 f2 ⟨by assumption, by assumption⟩

theorem rebuildLoop_noDigit : ∀ (fuel : Nat) (t : Tree) (s : Bytes) (t' : Tree) (s' : Bytes), NoDigit t → rebuildLoop fuel t s = .ok (t', s') →
    NoDigit t'
  | 0, t, s, t', s', _, h => by simp [rebuildLoop] at h
  | fuel + 1, t, s, t', s', ht, h => by
    have key : ∀ s, (do let (t, s) ← addNode t s; rebuildLoop fuel t s) = .ok (t', s') → NoDigit t' := by
      intro s h
      cases hr : addNode t s with
      | ub => rw [hr] at h; simp at h
      | ok o =>
        obtain ⟨t1, s1⟩ := o
        rw [hr, Out.bind_ok] at h
        exact rebuildLoop_noDigit fuel t1 s1 t' s' (addNode_noDigit s t t1 s1 ht hr) h
    match s, h with
    | [], h =>
      simp only [rebuildLoop, Out.ok.injEq, Prod.mk.injEq] at h
      rw [← h.1]; exact ht
    | [b], h =>
      rw [rebuildLoop] at h
      split at h
      · simp at h
      · exact key _ h
    | b :: c :: s, h =>
      rw [rebuildLoop] at h
      split at h
      · simp only [Out.ok.injEq, Prod.mk.injEq] at h
        rw [← h.1]; exact ht
      · exact key _ h

theorem decBits_noDigit (cap n : Nat) {h : Tree} (hh : NoDigit h) : ∀ (bs : List Bool) (tp : Tree) (out : Bytes) (tp' : Tree) (out' : Bytes),
    NoDigit tp → (∀ b ∈ out, b ≠ 0x30 ∧ b ≠ 0x31) → decBits cap n h bs tp out = .ok (tp', out') → ∀ b ∈ out', b ≠ 0x30 ∧ b ≠ 0x31
  | [], tp, out, tp', out', _, ho, hd => by
    simp only [decBits, Out.ok.injEq, Prod.mk.injEq] at hd
    rw [← hd.2]; exact ho
  | x :: bs, tp, out, tp', out', ht, ho, hd => by
    rw [decBits] at hd
    split at hd
    · simp only [Out.ok.injEq, Prod.mk.injEq] at hd
      rw [← hd.2]; exact ho
    cases hb : decBit h tp x with
    | ub => rw [hb] at hd; simp at hd
    | ok o =>
      obtain ⟨t1, w⟩ := o
      rw [hb, Out.bind_ok] at hd
      simp only at hd
      have h1 : NoDigit t1 ∧ ∀ b ∈ w, b ≠ 0x30 ∧ b ≠ 0x31 := by
        have key : ∀ u, NoDigit u → (if x then tp.right else tp.left) = .ok u → NoDigit t1 ∧ ∀ b ∈ w, b ≠ 0x30 ∧ b ≠ 0x31 := by
          intro u hu he
          rw [decBit] at hb
          cases x
          all_goals
            simp only [Bool.false_eq_true, if_true, if_false] at he hb
            rw [he, Out.bind_ok] at hb
            split at hb
            · simp at hb
            · simp only [Out.pure_eq, Out.ok.injEq, Prod.mk.injEq] at hb
              obtain ⟨rfl, rfl⟩ := hb
              cases hu with
              | node _ _ h3 => exact ⟨hh, by simpa using h3⟩
            · simp only [Out.pure_eq, Out.ok.injEq, Prod.mk.injEq] at hb
              obtain ⟨rfl, rfl⟩ := hb
              exact ⟨hu, by simp⟩
        cases ht with
        | nil => cases x <;> simp [decBit, Tree.left, Tree.right] at hb
        | @node l r c hl hr _ =>
          cases x
          · exact key l hl rfl
          · exact key r hr rfl
      cases hp : push cap out w with
      | ub => rw [hp] at hd; simp at hd
      | ok o2 =>
        rw [hp, Out.bind_ok] at hd
        refine decBits_noDigit cap n hh bs t1 o2 tp' out' h1.1 ?_ hd
        rw [push] at hp
        split at hp
        · simp only [Out.ok.injEq] at hp
          rw [← hp]
          intro b hb
          rw [List.mem_append] at hb
          rcases hb with hb | hb
          · exact ho b hb
          · exact h1.2 b hb
        · simp at hp

/-- Whatever bytes are inflated: neither `'0'` nor `'1'` is ever in the result. -/
theorem inflate_no_digit (d out : Bytes) (h : inflate d = .ok out) : 0x30 ∉ out ∧ 0x31 ∉ out := by
  rw [inflate, rebuild] at h
  cases hr : rebuildLoop (d.length + 1) .nil d with
  | ub => rw [hr] at h; simp at h
  | ok o =>
    obtain ⟨t, s⟩ := o
    have ht := rebuildLoop_noDigit _ _ _ _ _ .nil hr
    rw [hr, Out.bind_ok] at h
    match s, h with
    | [], h => simp at h
    | [_], h => simp at h
    | _ :: _ :: s, h =>
      simp only [Out.pure_eq, Out.bind_ok] at h
      split at h
      · simp at h
      · rw [decLoop_eq] at h
        cases hd : decBits ((sizeOfBytes (s.take 8) + 1) % 2 ^ 64) (sizeOfBytes (s.take 8)) t ((s.drop 8).flatMap bitsOf) t [] with
        | ub => rw [hd] at h; simp at h
        | ok o =>
          obtain ⟨tp, o⟩ := o
          rw [hd] at h
          simp only [Out.bind_ok, Out.pure_eq, Out.ok.injEq] at h
          have := decBits_noDigit _ _ ht _ _ _ _ _ ht (by simp) hd
          rw [← h]
          constructor
          · intro hm
            rw [List.mem_append] at hm
            rcases hm with hm | hm
            · exact (this _ hm).1 rfl
            · have := List.eq_of_mem_replicate hm
              simp at this
          · intro hm
            rw [List.mem_append] at hm
            rcases hm with hm | hm
            · exact (this _ hm).2 rfl
            · have := List.eq_of_mem_replicate hm
              simp at this

/-- C48 refuted in general: no buffer with a `'0'` or a `'1'` ever comes back, whatever its compressed form is. -/
theorem huffman_digit_lost (inp d : Bytes) (h : 0x30 ∈ inp ∨ 0x31 ∈ inp) : inflate d ≠ .ok inp := by
  intro hi
  have := inflate_no_digit d inp hi
  tauto

/-- Exactly which buffers survive compression. -/
theorem huffman_roundtrip_iff (inp : Bytes) (hN : inp.length < 2 ^ 64 - 1) :
    (∃ d, deflate inp = .ok (some d) ∧ inflate d = .ok inp) ↔ (∃ a ∈ inp, ∃ b ∈ inp, a ≠ b) ∧ 0x30 ∉ inp ∧ 0x31 ∉ inp := by
  constructor
  · rintro ⟨d, h1, h2⟩
    refine ⟨?_, inflate_no_digit d inp h2⟩
    by_contra hc
    rw [huffman_single_byte inp hc] at h1
    simp at h1
  · rintro ⟨h1, h2, h3⟩
    exact huffman_roundtrip_partial inp h1 h2 h3 hN

/-! ## The bound on the loop of `kryptos_huffman_rebuild_tree` -/

/-- `kryptos_huffman_add_node` moves on, unless two zeros are next. -/
theorem addNode_shorter : ∀ (s : Bytes) (t t' : Tree) (s' : Bytes), addNode t s = .ok (t', s') →
    s'.length < s.length ∨ s' = s ∧ ∃ r, s = 0 :: 0 :: r
  | [], t, t', s', h => by simp [addNode] at h
  | b :: s, t, t', s', h => by
    rw [addNode] at h
    simp only at h
    split at h
    · rename_i hb
      subst hb
      cases s with
      | nil => simp at h
      | cons c s =>
        simp only at h
        split at h
        · rename_i hc
          subst hc
          simp only [Out.ok.injEq, Prod.mk.injEq] at h
          exact .inr ⟨h.2.symm, s, rfl⟩
        · simp only [Out.ok.injEq, Prod.mk.injEq] at h
          rw [← h.2]; left; simp
    · have sub : ∀ u u' s'', addNode u s = .ok (u', s'') → s''.length < (b :: s).length := by
        intro u u' s'' hr
        rcases addNode_shorter s u u' s'' hr with h1 | ⟨h1, -⟩
        · simp; omega
        · simp [h1]
      split at h
      · cases hr : addNode (fresh t).1 s with
        | ub => rw [hr] at h; simp at h
        | ok o =>
          rw [hr, Out.bind_ok] at h
          simp only [Out.pure_eq, Out.ok.injEq, Prod.mk.injEq] at h
          rw [← h.2]
          exact .inl (sub _ _ _ hr)
      · split at h
        · cases hr : addNode (fresh t).2.1 s with
          | ub => rw [hr] at h; simp at h
          | ok o =>
            rw [hr, Out.bind_ok] at h
            simp only [Out.pure_eq, Out.ok.injEq, Prod.mk.injEq] at h
            rw [← h.2]
            exact .inl (sub _ _ _ hr)
        · simp only [Out.ok.injEq, Prod.mk.injEq] at h
          rw [← h.2]; left; simp

/-- The bound used for the loop does not matter: any larger one gives the same. -/
theorem rebuildLoop_fuel : ∀ (fuel fuel' : Nat) (t : Tree) (s : Bytes), s.length < fuel → s.length < fuel' →
    rebuildLoop fuel t s = rebuildLoop fuel' t s
  | 0, _, t, s, h, _ => by omega
  | _ + 1, 0, t, s, _, h => by omega
  | fuel + 1, fuel' + 1, t, s, h1, h2 => by
    have key : ∀ s : Bytes, s.length < fuel + 1 → s.length < fuel' + 1 → (¬ ∃ r, s = 0 :: 0 :: r) →
        (do let (t, s) ← addNode t s; rebuildLoop fuel t s) = (do let (t, s) ← addNode t s; rebuildLoop fuel' t s) := by
      intro s h1 h2 hz
      cases hr : addNode t s with
      | ub => rfl
      | ok o =>
        obtain ⟨t', s'⟩ := o
        rw [Out.bind_ok, Out.bind_ok]
        rcases addNode_shorter s t t' s' hr with h3 | h3
        · exact rebuildLoop_fuel fuel fuel' t' s' (by omega) (by omega)
        · exact absurd h3.2 hz
    match s, h1, h2 with
    | [], _, _ => rfl
    | [b], h1, h2 =>
      rw [rebuildLoop, rebuildLoop]
      split
      · rfl
      · exact key _ h1 h2 (by simp)
    | b :: c :: s, h1, h2 =>
      rw [rebuildLoop, rebuildLoop]
      split
      · rfl
      · rename_i hbc
        refine key _ h1 h2 ?_
        rintro ⟨r, hr⟩
        simp only [List.cons.injEq] at hr
        exact hbc ⟨hr.1, hr.2.1⟩

/-! ## Inflating arbitrary bytes -/

/-- Rebuilding the tree ends at the end of the input or at two zeros. -/
theorem rebuildLoop_end : ∀ (fuel : Nat) (t : Tree) (s : Bytes) (t' : Tree) (s' : Bytes), rebuildLoop fuel t s = .ok (t', s') →
    s' = [] ∨ (∃ r, s' = 0 :: 0 :: r) ∧ s' <:+ s
  | 0, t, s, t', s', h => by simp [rebuildLoop] at h
  | fuel + 1, t, s, t', s', h => by
    have suf : ∀ (s : Bytes) (t t' : Tree) (s' : Bytes), addNode t s = .ok (t', s') → s' <:+ s := by
      intro s
      induction s with
      | nil => intro t t' s' h; simp [addNode] at h
      | cons b s ih =>
        intro t t' s' h
        rw [addNode] at h
        simp only at h
        split at h
        · cases s with
          | nil => simp at h
          | cons c s =>
            simp only at h
            split at h
            · simp only [Out.ok.injEq, Prod.mk.injEq] at h
              rw [← h.2]
            · simp only [Out.ok.injEq, Prod.mk.injEq] at h
              rw [← h.2]
              exact List.suffix_cons _ _
        · split at h
          · cases hr : addNode (fresh t).1 s with
            | ub => rw [hr] at h; simp at h
            | ok o =>
              rw [hr, Out.bind_ok] at h
              simp only [Out.pure_eq, Out.ok.injEq, Prod.mk.injEq] at h
              rw [← h.2]
              exact (ih _ _ _ hr).trans (List.suffix_cons _ _)
          · split at h
            · cases hr : addNode (fresh t).2.1 s with
              | ub => rw [hr] at h; simp at h
              | ok o =>
                rw [hr, Out.bind_ok] at h
                simp only [Out.pure_eq, Out.ok.injEq, Prod.mk.injEq] at h
                rw [← h.2]
                exact (ih _ _ _ hr).trans (List.suffix_cons _ _)
            · simp only [Out.ok.injEq, Prod.mk.injEq] at h
              rw [← h.2]
              exact List.suffix_cons _ _
    have key : ∀ s : Bytes, (do let (t, s) ← addNode t s; rebuildLoop fuel t s) = .ok (t', s') →
        s' = [] ∨ (∃ r, s' = 0 :: 0 :: r) ∧ s' <:+ s := by
      intro s h
      cases hr : addNode t s with
      | ub => rw [hr] at h; simp at h
      | ok o =>
        obtain ⟨t1, s1⟩ := o
        rw [hr, Out.bind_ok] at h
        rcases rebuildLoop_end fuel t1 s1 t' s' h with h1 | ⟨h1, h2⟩
        · exact .inl h1
        · exact .inr ⟨h1, h2.trans (suf _ _ _ _ hr)⟩
    match s, h with
    | [], h =>
      simp only [rebuildLoop, Out.ok.injEq, Prod.mk.injEq] at h
      exact .inl h.2.symm
    | [b], h =>
      rw [rebuildLoop] at h
      split at h
      · simp at h
      · exact key _ h
    | b :: c :: s, h =>
      rw [rebuildLoop] at h
      split at h
      · rename_i hbc
        simp only [Out.ok.injEq, Prod.mk.injEq] at h
        refine .inr ⟨⟨s, by rw [← h.2, hbc.1, hbc.2]⟩, by rw [← h.2]⟩
      · exact key _ h

/-- Bytes which are inflated without undefined behaviour hold two zeros followed by at least eight bytes. -/
theorem inflate_needs_zeros (d out : Bytes) (h : inflate d = .ok out) : ∃ r, 0 :: 0 :: r <:+ d ∧ 8 ≤ r.length := by
  rw [inflate, rebuild] at h
  cases hr : rebuildLoop (d.length + 1) .nil d with
  | ub => rw [hr] at h; simp at h
  | ok o =>
    obtain ⟨t, s⟩ := o
    rw [hr, Out.bind_ok] at h
    rcases rebuildLoop_end _ _ _ _ _ hr with rfl | ⟨⟨r, rfl⟩, h2⟩
    · simp at h
    · simp only [Out.pure_eq, Out.bind_ok] at h
      split at h
      · simp at h
      · exact ⟨r, h2, by omega⟩

/-- Inflating fewer than ten bytes is undefined, whatever they are. -/
theorem inflate_short_undefined (d : Bytes) (h : d.length < 10) : inflate d = .ub := by
  cases hi : inflate d with
  | ub => rfl
  | ok out =>
    obtain ⟨r, h1, h2⟩ := inflate_needs_zeros d out hi
    have := h1.length_le
    simp at this
    omega

/-! ## Concrete cases -/

/-- "hello world" comes back. -/
example : ∃ d, deflate (ascii "hello world") = .ok (some d) ∧ inflate d = .ok (ascii "hello world") :=
  huffman_roundtrip_partial _ ⟨0x68, by decide +kernel, 0x65, by decide +kernel, by decide⟩ (by decide +kernel) (by decide +kernel)
    (by decide +kernel)

/-- A byte repeated and a zero come back. -/
example (n : Nat) (h0 : n ≠ 0) (hn : n < 2 ^ 32) :
    ∃ d, deflate (List.replicate n 0xff ++ [0]) = .ok (some d) ∧ inflate d = .ok (List.replicate n 0xff ++ [0]) :=
  huffman_roundtrip_partial _ ⟨0xff, by simp [h0], 0, by simp, by decide⟩ (by simp) (by simp) (by simp; omega)

/-- "aaa" is not compressed. -/
example : deflate (ascii "aaa") = .ok none := huffman_single_byte _ (by decide +kernel)

/-- The compressed form of "01", on which inflating is undefined. -/
theorem huffman_01_undefined : ∃ d, deflate (ascii "01") = .ok (some d) ∧ inflate d = .ub :=
  ⟨[0x30, 0x30, 0x31, 0x31, 0, 0, 2, 0, 0, 0, 0, 0, 0, 0, 0x40], by decide +kernel, by decide +kernel⟩

/-- The compressed form of " 0", which inflates to a blank and a zero. -/
theorem huffman_blank_0_wrong : ∃ d, deflate (ascii " 0") = .ok (some d) ∧ inflate d = .ok [0x20, 0] :=
  ⟨[0x30, 0x20, 0x31, 0x30, 0, 0, 2, 0, 0, 0, 0, 0, 0, 0, 0x40], by decide +kernel, by decide +kernel⟩

end Kryptos.Huffman
