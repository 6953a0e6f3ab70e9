import Verif.Lemmas.Md
import Verif.Model.Ripemd
import Verif.Props.Sha
/-
  C101: RIPEMD-128 and RIPEMD-160 are those of the publication.
-/
namespace Kryptos.Ripemd
open Spec Spec.MD Spec.Md Hash Kryptos.Md

def fn (r : Nat) : Fn := if r = 0 then .f0 else if r = 1 then .f1 else if r = 2 then .f2 else if r = 3 then .f3 else .f4

theorem fn_eq (r : Nat) (x y z : W32) : (fn r).ap x y z = ripF r x y z := by
  unfold fn ripF
  repeat' split
  all_goals rfl

/-- The constants of the code. -/
def KL (r : Nat) : Nat :=
  if r = 0 then 0 else if r = 1 then 0x5A827999 else if r = 2 then 0x6ED9EBA1 else if r = 3 then 0x8F1BBCDC else 0xA953FD4E
def KR (n r : Nat) : Nat :=
  if r = n - 1 then 0 else if r = 0 then 0x50A28BE6 else if r = 1 then 0x5C4DD124 else if r = 2 then 0x6D703EF3 else 0x7A6D76E9
def KK (n : Nat) (right : Bool) (r : Nat) : Nat := if right then KR n r else KL r

/-- There are such constants. -/
theorem isRipK4 : IsRipK 4 (KK 4) := by
  refine ⟨rfl, rfl, fun i p hi h => ?_⟩
  match i, h with
  | 0, _ | 1, _ | 2, _ => obtain rfl := Option.some.inj hi; unfold IsRoot; decide
theorem isRipK5 : IsRipK 5 (KK 5) := by
  refine ⟨rfl, rfl, fun i p hi h => ?_⟩
  match i, h with
  | 0, _ | 1, _ | 2, _ | 3, _ => obtain rfl := Option.some.inj hi; unfold IsRoot; decide

/-- There are no others. -/
theorem K_unique {n : Nat} (hn : n = 4 ∨ n = 5) {K K' : Bool → Nat → Nat} (h : IsRipK n K) (h' : IsRipK n K') (b : Bool) (r : Nat) (hr : r < n) :
    K b r = K' b r := by
  obtain ⟨h1, h2, h3⟩ := h
  obtain ⟨g1, g2, g3⟩ := h'
  have key : ∀ i p, [2, 3, 5, 7][i]? = some p → i < n - 1 → K false (i + 1) = K' false (i + 1) ∧ K true i = K' true i :=
    fun i p hi hlt => ⟨root_unique (h3 i p hi hlt).1 (g3 i p hi hlt).1, root_unique (h3 i p hi hlt).2 (g3 i p hi hlt).2⟩
  have some4 : ∀ i, i < 4 → ∃ p, [2, 3, 5, 7][i]? = some p := fun i hi => ⟨_, List.getElem?_eq_getElem (by simpa using hi)⟩
  cases b
  · cases r with
    | zero => rw [h1, g1]
    | succ r =>
      obtain ⟨p, hp⟩ := some4 r (by omega)
      exact (key r p hp (by omega)).1
  · by_cases e : r = n - 1
    · rw [e, h2, g2]
    · obtain ⟨p, hp⟩ := some4 r (by omega)
      exact (key r p hp (by omega)).2

/-! ### RIPEMD-128 -/

/-- The steps of a line in the order of the publication. -/
def line4 (right : Bool) : List (Step Fn) := (List.range 64).map fun j =>
  ⟨row j, fn (if right then 3 - j / 16 else j / 16), ripIdx right (j / 16) (j % 16), BitVec.ofNat 32 (KK 4 right (j / 16)),
    ripShift (j / 16) (ripIdx right (j / 16) (j % 16))⟩

def side128 (right : Bool) : List (Step Fn) := (steps128.filter (·.side = right)).map fun p => ⟨p.r, p.f, p.k, p.t, p.s⟩

theorem side128_eq : side128 false = line4 false ∧ side128 true = line4 true := by constructor <;> decide +kernel

/-- The lines do not interfere. -/
theorem fold128 (X : List W32) : ∀ (l : List Step2) (a b a' b' : Four 32),
    ((l.filter (·.side = false)).map fun p => (⟨p.r, p.f, p.k, p.t, p.s⟩ : Step Fn)).foldlM (step line128 X) a = .ok a' →
    ((l.filter (·.side = true)).map fun p => (⟨p.r, p.f, p.k, p.t, p.s⟩ : Step Fn)).foldlM (step line128 X) b = .ok b' →
    l.foldlM (step128 X) (a, b) = .ok (a', b')
  | [], a, b, a', b', h1, h2 => by
    cases h1; cases h2; rfl
  | p :: l, a, b, a', b', h1, h2 => by
    rw [List.foldlM_cons]
    unfold step128
    cases hp : p.side
    · rw [List.filter_cons, if_pos (by simp [hp]), List.map_cons, List.foldlM_cons] at h1
      rw [List.filter_cons, if_neg (by simp [hp])] at h2
      cases hs : step line128 X a ⟨p.r, p.f, p.k, p.t, p.s⟩ with
      | ub => rw [hs] at h1; cases h1
      | ok s =>
        rw [hs, Out.bind_ok] at h1
        simp only [Bool.false_eq_true, if_false, Out.bind_ok, Out.pure_eq]
        exact fold128 X l s b a' b' h1 h2
    · rw [List.filter_cons, if_neg (by simp [hp])] at h1
      rw [List.filter_cons, if_pos (by simp [hp]), List.map_cons, List.foldlM_cons] at h2
      cases hs : step line128 X b ⟨p.r, p.f, p.k, p.t, p.s⟩ with
      | ub => rw [hs] at h2; cases h2
      | ok s =>
        rw [hs, Out.bind_ok] at h2
        simp only [if_true, Out.bind_ok, Out.pure_eq]
        exact fold128 X l a s a' b' h1 h2

theorem idx_shift : ∀ right j, j < 80 → ripIdx right (j / 16) (j % 16) < 16 ∧ ripShift (j / 16) (ripIdx right (j / 16) (j % 16)) < 32 := by
  intro right
  cases right <;> decide +kernel

theorem side_run {K : Bool → Nat → Nat} (h : IsRipK 4 K) (right : Bool) (st : Four 32) (blk : Bytes) :
    (line4 right).foldlM (step line128 ((List.range 16).map (word blk))) st = .ok (steps4 (rip128Line K right blk) 64 st) := by
  obtain ⟨r, h1, h2⟩ := steps_view line128 ((List.range 16).map (word blk)) (fun j => fn (if right then 3 - j / 16 else j / 16))
    (fun j => ripIdx right (j / 16) (j % 16)) (fun j => BitVec.ofNat 32 (KK 4 right (j / 16)))
    (fun j => ripShift (j / 16) (ripIdx right (j / 16) (j % 16))) (rip128Line K right blk) st 64 (fun j hj => by
    have hk := idx_shift right j (by omega)
    refine ⟨_, rd_words blk _ hk.1, fun a b c d => ?_⟩
    rw [line128, rotl_rot _ _ hk.2, fn_eq, K_unique (.inl rfl) isRipK4 h right (j / 16) (by omega)]
    rfl)
  unfold line4
  rw [h1, ← h2]
  rfl

theorem compress128_eq {K : Bool → Nat → Nat} (h : IsRipK 4 K) (st : Four 32) (blk : Bytes) (hb : blk.length = 64) :
    compress128 st (ws 32 4 16 blk) = .ok (rip128Compress K st blk) := by
  unfold compress128
  have e := fold128 ((List.range 16).map (word blk)) steps128 st st _ _
    ((congrArg (fun l => List.foldlM _ st l) side128_eq.1).trans (side_run h false st blk))
    ((congrArg (fun l => List.foldlM _ st l) side128_eq.2).trans (side_run h true st blk))
  rw [revBlock_eq blk hb, Out.bind_ok, e, Out.bind_ok]
  unfold rip128Compress
  have c : ∀ x y z : W32, x + y + z = x + z + y := fun x y z => by rw [BitVec.add_assoc, BitVec.add_comm y, ← BitVec.add_assoc]
  simp only [Out.pure_eq]
  generalize steps4 (rip128Line K false blk) 64 st = l
  generalize steps4 (rip128Line K true blk) 64 st = r
  rw [c st.b, c st.c, c st.d, c st.a]

/-! ### RIPEMD-160 -/

def view5 (i : Nat) (s : Five 32) : Five 32 :=
  if i % 5 = 0 then s else if i % 5 = 1 then ⟨s.e, s.a, s.b, s.c, s.d⟩ else if i % 5 = 2 then ⟨s.d, s.e, s.a, s.b, s.c⟩
  else if i % 5 = 3 then ⟨s.c, s.d, s.e, s.a, s.b⟩ else ⟨s.b, s.c, s.d, s.e, s.a⟩

def row5 (i : Nat) : Row5 :=
  if i % 5 = 0 then .A else if i % 5 = 1 then .E else if i % 5 = 2 then .D else if i % 5 = 3 then .C else .B

theorem steps_view5 (X : List W32) (sd : Bool) (f : Nat → Fn) (k : Nat → Nat)
    (t : Nat → W32) (s : Nat → Nat) (L : Nat → W32 → W32 → W32 → W32 → W32 → W32) (st : Five 32) : ∀ n,
    (∀ i, i < n → ∃ x, rd X (k i) = .ok x ∧ ∀ a b c d e, line160 (f i) a b c d e x (t i) (s i) = L i a b c d e) →
    ∃ r, ((List.range n).map fun i => (⟨sd, row5 i, f i, k i, t i, s i⟩ : Step5)).foldlM (step5 X) st = .ok r ∧ view5 n r = steps5 L n st
  | 0, _ => ⟨st, rfl, rfl⟩
  | n + 1, h => by
    obtain ⟨r, h1, h2⟩ := steps_view5 X sd f k t s L st n fun i hi => h i (by omega)
    obtain ⟨x, hx, hl⟩ := h n (by omega)
    have e : steps5 L (n + 1) st = ⟨(steps5 L n st).e, L n (steps5 L n st).a (steps5 L n st).b (steps5 L n st).c (steps5 L n st).d
        (steps5 L n st).e, (steps5 L n st).b, (steps5 L n st).c.rotateLeft 10, (steps5 L n st).d⟩ := by
      unfold steps5
      rw [List.range_succ, List.foldl_append]
      rfl
    have rot : ∀ x : W32, rotl x 10 = x.rotateLeft 10 := fun x => rotl_rot x 10 (by decide)
    rw [e, ← h2, List.range_succ, List.map_append, List.foldlM_append, h1, Out.bind_ok, List.map_cons, List.map_nil, List.foldlM_cons]
    unfold step5
    simp only [hx, Out.bind_ok, Out.pure_eq, List.foldlM_nil, hl, rot]
    refine ⟨_, rfl, ?_⟩
    unfold view5 row5
    obtain h | h | h | h | h : n % 5 = 0 ∨ n % 5 = 1 ∨ n % 5 = 2 ∨ n % 5 = 3 ∨ n % 5 = 4 := by omega
    · simp [h, show (n + 1) % 5 = 1 by omega]
    · simp [h, show (n + 1) % 5 = 2 by omega]
    · simp [h, show (n + 1) % 5 = 3 by omega]
    · simp [h, show (n + 1) % 5 = 4 by omega]
    · simp [h, show (n + 1) % 5 = 0 by omega]

def line5 (right : Bool) : List Step5 := (List.range 80).map fun j =>
  ⟨right, row5 j, fn (if right then 4 - j / 16 else j / 16), ripIdx right (j / 16) (j % 16), BitVec.ofNat 32 (KK 5 right (j / 16)),
    ripShift (j / 16) (ripIdx right (j / 16) (j % 16))⟩

theorem side160_eq : steps160.filter (·.side = false) = line5 false ∧ steps160.filter (·.side = true) = line5 true := by
  constructor <;> decide +kernel

theorem fold160 (X : List W32) : ∀ (l : List Step5) (a b a' b' : Five 32),
    (l.filter (·.side = false)).foldlM (step5 X) a = .ok a' → (l.filter (·.side = true)).foldlM (step5 X) b = .ok b' →
    l.foldlM (step160 X) (a, b) = .ok (a', b')
  | [], a, b, a', b', h1, h2 => by
    cases h1; cases h2; rfl
  | p :: l, a, b, a', b', h1, h2 => by
    rw [List.foldlM_cons]
    unfold step160
    cases hp : p.side
    · rw [List.filter_cons, if_pos (by simp [hp]), List.foldlM_cons] at h1
      rw [List.filter_cons, if_neg (by simp [hp])] at h2
      cases hs : step5 X a p with
      | ub => rw [hs] at h1; cases h1
      | ok s =>
        rw [hs, Out.bind_ok] at h1
        simp only [Bool.false_eq_true, if_false, Out.bind_ok, Out.pure_eq]
        exact fold160 X l s b a' b' h1 h2
    · rw [List.filter_cons, if_neg (by simp [hp])] at h1
      rw [List.filter_cons, if_pos (by simp [hp]), List.foldlM_cons] at h2
      cases hs : step5 X b p with
      | ub => rw [hs] at h2; cases h2
      | ok s =>
        rw [hs, Out.bind_ok] at h2
        simp only [if_true, Out.bind_ok, Out.pure_eq]
        exact fold160 X l a s a' b' h1 h2

theorem side_run5 {K : Bool → Nat → Nat} (h : IsRipK 5 K) (right : Bool) (st : Five 32) (blk : Bytes) :
    (line5 right).foldlM (step5 ((List.range 16).map (word blk))) st = .ok (steps5 (rip160Line K right blk) 80 st) := by
  obtain ⟨r, h1, h2⟩ := steps_view5 ((List.range 16).map (word blk)) right (fun j => fn (if right then 4 - j / 16 else j / 16))
    (fun j => ripIdx right (j / 16) (j % 16)) (fun j => BitVec.ofNat 32 (KK 5 right (j / 16)))
    (fun j => ripShift (j / 16) (ripIdx right (j / 16) (j % 16))) (rip160Line K right blk) st 80 (fun j hj => by
    have hk := idx_shift right j (by omega)
    refine ⟨_, rd_words blk _ hk.1, fun a b c d e => ?_⟩
    rw [line160, rotl_rot _ _ hk.2, fn_eq, K_unique (.inr rfl) isRipK5 h right (j / 16) (by omega)]
    rfl)
  unfold line5
  rw [h1, ← h2]
  rfl

theorem compress160_eq {K : Bool → Nat → Nat} (h : IsRipK 5 K) (st : Five 32) (blk : Bytes) (hb : blk.length = 64) :
    compress160 st (ws 32 4 16 blk) = .ok (rip160Compress K st blk) := by
  unfold compress160
  have e := fold160 ((List.range 16).map (word blk)) steps160 st st _ _
    ((congrArg (fun l => List.foldlM _ st l) side160_eq.1).trans (side_run5 h false st blk))
    ((congrArg (fun l => List.foldlM _ st l) side160_eq.2).trans (side_run5 h true st blk))
  rw [revBlock_eq blk hb, Out.bind_ok, e, Out.bind_ok]
  unfold rip160Compress
  have c : ∀ x y z : W32, x + y + z = x + z + y := fun x y z => by rw [BitVec.add_assoc, BitVec.add_comm y, ← BitVec.add_assoc]
  simp only [Out.pure_eq]
  generalize steps5 (rip160Line K false blk) 80 st = l
  generalize steps5 (rip160Line K true blk) 80 st = r
  rw [c st.b, c st.c, c st.d, c st.e, c st.a]

/-! ### The digests -/

theorem init5_eq : init5 = init160 := by decide

/-- **C101** for RIPEMD-128: the digest is that of the publication for every message whose length is not a positive multiple of the block
size.  (Missing: positive multiples of 64 bytes, for which it is false, see `ripemd128_fails` and `ripemd128_aligned`.) -/
theorem ripemd128_partial (m : Bytes) (stale : List W32) (hm : m.length < 2 ^ 61) (ha : m.length % 64 ≠ 0 ∨ m = []) :
    ∃ d, hash128 stale m false = .ok d ∧ Ripemd128 m d := by
  refine ⟨_, ?_, _, isRipK4, rfl⟩
  unfold hash128 hashOf
  rw [(process _ alg128 init128 compress128 rfl _ (compress128_eq isRipK4) m stale hm).1 ha]
  simp only [Out.bind_ok, Out.pure_eq, Bool.false_eq_true, if_false]
  rw [raw_eq, init4_eq]
  rfl

/-- There is one digest only. -/
theorem ripemd128_functional {m d d' : Bytes} (h : Ripemd128 m d) (h' : Ripemd128 m d') : d = d' := by
  obtain ⟨K, hK, rfl⟩ := h
  obtain ⟨K', hK', rfl⟩ := h'
  have h1 := Md.iterate_run compress128 _ (compress128_eq hK) (padMd m) init4
  rw [Md.iterate_run compress128 _ (compress128_eq hK') (padMd m) init4] at h1
  rw [Out.ok.inj h1]

/-- The positive multiples of 64 bytes: nothing is appended to the message. -/
theorem ripemd128_aligned {K : Bool → Nat → Nat} (h : IsRipK 4 K) (m : Bytes) (stale : List W32) (hm : m.length < 2 ^ 61) (hne : m ≠ [])
    (ha : m.length % 64 = 0) : hash128 stale m false = .ok (output (iterate 64 (rip128Compress K) init4 m).words) := by
  unfold hash128 hashOf
  rw [(process _ alg128 init128 compress128 rfl _ (compress128_eq h) m stale hm).2 hne ha]
  simp only [Out.bind_ok, Out.pure_eq, Bool.false_eq_true, if_false]
  rw [raw_eq, init4_eq]
  rfl

def run128 (padded : Bytes) : Out Bytes := do
  let st ← (chunks 64 padded).foldlM (fun st blk => compress128 st (ws 32 4 16 blk)) init4
  return output st.words

theorem run128_spec {m d : Bytes} (h : Ripemd128 m d) : run128 (padMd m) = .ok d := by
  obtain ⟨K, hK, rfl⟩ := h
  unfold run128
  rw [Md.iterate_run compress128 _ (compress128_eq hK)]
  rfl

/-- **C101** is violated for 64 bytes. -/
theorem ripemd128_fails : ¬ ∀ m : Bytes, m.length < 2 ^ 61 → ∃ d, hash128 [] m false = .ok d ∧ Ripemd128 m d := by
  intro h
  obtain ⟨d, h1, h2⟩ := h (List.replicate 64 0x61#8) (by decide)
  rw [← run128_spec h2] at h1
  exact absurd h1 (by decide +kernel)

theorem ripemd128_hex (stale : List W32) (m raw hx : Bytes) (h1 : hash128 stale m false = .ok raw) (h2 : hash128 stale m true = .ok hx) :
    hx.map some = raw.flatMap fun b => [base16Alphabet[b.toNat / 16]?, base16Alphabet[b.toNat % 16]?] :=
  hashOf_hex (by decide) alg128 (fun s => s.words.map rev) 4 stale m raw hx
    (by simp only [List.flatMap_map]; exact h1) (by simp only [List.flatMap_map]; exact h2)

/-- **C101** for RIPEMD-160: the digest is that of the publication for every message whose length is not a positive multiple of the block
size.  (Missing: positive multiples of 64 bytes, for which it is false, see `ripemd160_fails` and `ripemd160_aligned`.) -/
theorem ripemd160_partial (m : Bytes) (stale : List W32) (hm : m.length < 2 ^ 61) (ha : m.length % 64 ≠ 0 ∨ m = []) :
    ∃ d, hash160 stale m false = .ok d ∧ Ripemd160 m d := by
  refine ⟨_, ?_, _, isRipK5, rfl⟩
  unfold hash160 hashOf
  rw [(process _ alg160 init160 compress160 rfl _ (compress160_eq isRipK5) m stale hm).1 ha]
  simp only [Out.bind_ok, Out.pure_eq, Bool.false_eq_true, if_false]
  rw [raw_eq, init5_eq]

/-- There is one digest only. -/
theorem ripemd160_functional {m d d' : Bytes} (h : Ripemd160 m d) (h' : Ripemd160 m d') : d = d' := by
  obtain ⟨K, hK, rfl⟩ := h
  obtain ⟨K', hK', rfl⟩ := h'
  have h1 := Md.iterate_run compress160 _ (compress160_eq hK) (padMd m) init5
  rw [Md.iterate_run compress160 _ (compress160_eq hK') (padMd m) init5] at h1
  rw [Out.ok.inj h1]

/-- The positive multiples of 64 bytes: nothing is appended to the message. -/
theorem ripemd160_aligned {K : Bool → Nat → Nat} (h : IsRipK 5 K) (m : Bytes) (stale : List W32) (hm : m.length < 2 ^ 61) (hne : m ≠ [])
    (ha : m.length % 64 = 0) : hash160 stale m false = .ok (output (iterate 64 (rip160Compress K) init5 m).words) := by
  unfold hash160 hashOf
  rw [(process _ alg160 init160 compress160 rfl _ (compress160_eq h) m stale hm).2 hne ha]
  simp only [Out.bind_ok, Out.pure_eq, Bool.false_eq_true, if_false]
  rw [raw_eq, init5_eq]

def run160 (padded : Bytes) : Out Bytes := do
  let st ← (chunks 64 padded).foldlM (fun st blk => compress160 st (ws 32 4 16 blk)) init5
  return output st.words

theorem run160_spec {m d : Bytes} (h : Ripemd160 m d) : run160 (padMd m) = .ok d := by
  obtain ⟨K, hK, rfl⟩ := h
  unfold run160
  rw [Md.iterate_run compress160 _ (compress160_eq hK)]
  rfl

/-- **C101** is violated for 64 bytes. -/
theorem ripemd160_fails : ¬ ∀ m : Bytes, m.length < 2 ^ 61 → ∃ d, hash160 [] m false = .ok d ∧ Ripemd160 m d := by
  intro h
  obtain ⟨d, h1, h2⟩ := h (List.replicate 64 0x61#8) (by decide)
  rw [← run160_spec h2] at h1
  exact absurd h1 (by decide +kernel)

theorem ripemd160_hex (stale : List W32) (m raw hx : Bytes) (h1 : hash160 stale m false = .ok raw) (h2 : hash160 stale m true = .ok hx) :
    hx.map some = raw.flatMap fun b => [base16Alphabet[b.toNat / 16]?, base16Alphabet[b.toNat % 16]?] :=
  hashOf_hex (by decide) alg160 (fun s => s.words.map rev) 4 stale m raw hx
    (by simp only [List.flatMap_map]; exact h1) (by simp only [List.flatMap_map]; exact h2)

/-! The vectors of the publication, which are also cases of the theorems. -/
example : (ascii "abc").length < 2 ^ 61 ∧ (ascii "abc").length % 64 ≠ 0 := by decide
example : hash128 [] [] true = .ok (ascii "CDF26213A150DC3ECB610F18F6B38B46") := by decide +kernel
example : hash128 [] (ascii "abc") true = .ok (ascii "C14A12199C66E4BA84636B0F69144C77") := by decide +kernel
example : hash160 [] [] true = .ok (ascii "9C1185A5C5E9FC54612808977EE8F548B2258D31") := by decide +kernel
example : hash160 [] (ascii "abc") true = .ok (ascii "8EB208F7E05D987A9B044A8E98C6B087F15A0BFC") := by decide +kernel

end Kryptos.Ripemd
