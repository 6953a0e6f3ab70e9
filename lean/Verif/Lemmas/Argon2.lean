import Verif.Model.Argon2
import Verif.Spec.Argon2
import Verif.Props.Blake2
/- The compression function and the indexes of Argon2. -/
namespace Kryptos.Argon2
open Spec.MD (leNat le)
open Spec.Argon2 (put)

/-- A loop keeps what each of its runs keeps. -/
theorem foldlM_range {α : Type} (f : α → Nat → Out α) (I : Nat → α → Prop) (n : Nat) (h : ∀ k, k < n → ∀ s, I k s → ∃ s', f s k = .ok s' ∧ I (k + 1) s')
    (s : α) (h0 : I 0 s) : ∃ s', (List.range n).foldlM f s = .ok s' ∧ I n s' := by
  induction n with
  | zero => exact ⟨s, rfl, h0⟩
  | succ n ih =>
    obtain ⟨s1, e1, i1⟩ := ih (fun k hk => h k (by omega))
    obtain ⟨s2, e2, i2⟩ := h n (by omega) s1 i1
    refine ⟨s2, ?_, i2⟩
    rw [List.range_succ, List.foldlM_append, e1, Out.bind_ok]
    show (f s1 n >>= fun x => pure x) = _
    rw [e2, Out.bind_ok]
    rfl

theorem foldl_range_succ {α : Type} (f : α → Nat → α) (n : Nat) (s : α) : (List.range (n + 1)).foldl f s = f ((List.range n).foldl f s) n := by
  rw [List.range_succ, List.foldl_append]
  rfl

/-! Vectors. -/

def vec (n : Nat) (A : Nat → W64) : List W64 := (List.range n).map A

theorem vec_length (n : Nat) (A : Nat → W64) : (vec n A).length = n := by simp [vec]

theorem vec_congr (n : Nat) (A B : Nat → W64) (h : ∀ k, k < n → A k = B k) : vec n A = vec n B :=
  List.map_congr_left fun k hk => h k (by simpa using hk)

theorem vec_inj (n : Nat) (A B : Nat → W64) (h : vec n A = vec n B) (k : Nat) (hk : k < n) : A k = B k := by
  have := congrArg (·[k]?) h
  simpa [vec, hk] using this

theorem rd_vec (n : Nat) (A : Nat → W64) (i : Nat) (h : i < n) : rd (vec n A) i = .ok (A i) := by
  rw [rd_eq_ok (by rw [vec_length]; exact h)]
  simp [vec]

theorem wr_vec (n : Nat) (A : Nat → W64) (i : Nat) (x : W64) (h : i < n) : wr (vec n A) i x = .ok (vec n (put A i x)) := by
  unfold wr
  rw [if_pos (by rw [vec_length]; exact h)]
  congr 1
  apply List.ext_getElem
  · simp [vec]
  · intro j h1 h2
    simp only [vec, put, List.getElem_set, List.getElem_map, List.getElem_range]
    by_cases e : i = j
    · simp [e]
    · simp only [e, if_false]
      rw [if_neg (fun q => e q.symm)]

theorem mapM_vec (n : Nat) (f : Nat → Out W64) (A : Nat → W64) (h : ∀ k, k < n → f k = .ok (A k)) : (List.range n).mapM f = .ok (vec n A) :=
  mapM_ok f A _ fun k hk => h k (by simpa using hk)

/-! The permutation. -/

theorem mul_eq (a b : W64) : mul a b = Spec.Argon2.mul a b := by
  have m : ∀ x : W64, (x &&& 0xFFFFFFFF#64).toNat = x.toNat % 2 ^ 32 := fun x => by
    rw [BitVec.toNat_and]
    exact Nat.and_two_pow_sub_one_eq_mod _ 32
  unfold mul Spec.Argon2.mul
  apply BitVec.eq_of_toNat_eq
  rw [BitVec.toNat_add, BitVec.toNat_add, BitVec.toNat_shiftLeft, BitVec.toNat_mul, m, m, BitVec.toNat_ofNat, Nat.shiftLeft_eq, Nat.mul_assoc 2]
  generalize a.toNat % 2 ^ 32 * (b.toNat % 2 ^ 32) = z
  omega

theorem rr_eq (x : W64) (n : Nat) (h : n < 64) : rr x n = x.rotateRight n := by
  unfold rr
  rw [BitVec.rotateRight_def, Nat.mod_eq_of_lt h]

theorem mix_eq (v : Nat → W64) (a b c d : Nat) (ha : a < 16) (hb : b < 16) (hc : c < 16) (hd : d < 16) :
    mix (vec 16 v) a b c d = .ok (vec 16 (Spec.Argon2.GB v a b c d)) := by
  unfold mix Spec.Argon2.GB
  simp only [rd_vec 16 _ _ ha, rd_vec 16 _ _ hb, rd_vec 16 _ _ hc, rd_vec 16 _ _ hd, wr_vec 16 _ _ _ ha, wr_vec 16 _ _ _ hb,
    wr_vec 16 _ _ _ hc, wr_vec 16 _ _ _ hd, Out.bind_ok, mul_eq, rr_eq _ 32 (by decide), rr_eq _ 24 (by decide), rr_eq _ 16 (by decide),
    rr_eq _ 63 (by decide)]

theorem mixes_eq (v : Nat → W64) : mixes (vec 16 v) = .ok (vec 16 (Spec.Argon2.P v)) := by
  unfold mixes
  rw [mix_eq v 0 4 8 12 (by decide) (by decide) (by decide) (by decide), Out.bind_ok,
    mix_eq _ 1 5 9 13 (by decide) (by decide) (by decide) (by decide), Out.bind_ok,
    mix_eq _ 2 6 10 14 (by decide) (by decide) (by decide) (by decide), Out.bind_ok,
    mix_eq _ 3 7 11 15 (by decide) (by decide) (by decide) (by decide), Out.bind_ok,
    mix_eq _ 0 5 10 15 (by decide) (by decide) (by decide) (by decide), Out.bind_ok,
    mix_eq _ 1 6 11 12 (by decide) (by decide) (by decide) (by decide), Out.bind_ok,
    mix_eq _ 2 7 8 13 (by decide) (by decide) (by decide) (by decide), Out.bind_ok,
    mix_eq _ 3 4 9 14 (by decide) (by decide) (by decide) (by decide)]
  rfl

/-- `P` has regard only to the sixteen words. -/
theorem P_congr (u v : Nat → W64) (h : ∀ i, i < 16 → u i = v i) (k : Nat) (hk : k < 16) : Spec.Argon2.P u k = Spec.Argon2.P v k := by
  have e : vec 16 u = vec 16 v := vec_congr 16 u v h
  have h1 := mixes_eq u
  rw [e, mixes_eq v] at h1
  exact (vec_inj 16 _ _ (Out.ok.inj h1) k hk).symm

theorem permute_eq (s : Nat → Nat) (A : Nat → W64) (hs : ∀ i, i < 16 → 2 * s (i / 2) + i % 2 < 128)
    (hinj : ∀ i k, i < 16 → k < 16 → 2 * s (i / 2) + i % 2 = 2 * s (k / 2) + k % 2 → i = k) :
    ∃ A', permute s (vec 128 A) = .ok (vec 128 A') ∧
      (∀ i, i < 16 → A' (2 * s (i / 2) + i % 2) = Spec.Argon2.P (fun i => A (2 * s (i / 2) + i % 2)) i) ∧
      (∀ k, (∀ i, i < 16 → 2 * s (i / 2) + i % 2 ≠ k) → A' k = A k) := by
  unfold permute
  rw [mapM_vec 16 _ (fun i => A (2 * s (i / 2) + i % 2)) fun k hk => rd_vec 128 A _ (hs k hk), Out.bind_ok, mixes_eq, Out.bind_ok]
  generalize Spec.Argon2.P (fun i => A (2 * s (i / 2) + i % 2)) = p
  obtain ⟨R, e, A', hA, h1, h2⟩ := foldlM_range (fun R i => do wr R (2 * s (i / 2) + i % 2) (← rd (vec 16 p) i))
    (fun n R => ∃ A', R = vec 128 A' ∧ (∀ i, i < n → A' (2 * s (i / 2) + i % 2) = p i) ∧
      (∀ k, (∀ i, i < 16 → 2 * s (i / 2) + i % 2 ≠ k) → A' k = A k)) 16
    (by
      rintro k hk R ⟨A', rfl, h1, h2⟩
      rw [rd_vec 16 p k hk, Out.bind_ok, wr_vec 128 _ _ _ (hs k hk)]
      refine ⟨_, rfl, _, rfl, fun i hi => ?_, fun m hm => ?_⟩
      · unfold put
        by_cases c : i = k
        · rw [c, if_pos rfl]
        · rw [if_neg (fun q => c (hinj i k (by omega) hk q)), h1 i (by omega)]
      · unfold put
        rw [if_neg (fun q => hm k hk q.symm), h2 m hm])
    (vec 128 A) ⟨A, rfl, fun i hi => absurd hi (Nat.not_lt_zero _), fun _ _ => rfl⟩
  refine ⟨A', ?_, h1, h2⟩
  rw [← hA]
  exact e

theorem rows_eq (A : Nat → W64) : (List.range 8).foldlM (fun R r => permute (fun i => 8 * r + i) R) (vec 128 A) = .ok (vec 128 (Spec.Argon2.rows A)) := by
  obtain ⟨R, e, A', rfl, h⟩ := foldlM_range (fun R r => permute (fun i => 8 * r + i) R)
    (fun n R => ∃ A', R = vec 128 A' ∧ ∀ k, k < 128 → A' k = if k / 16 < n then Spec.Argon2.rows A k else A k) 8
    (by
      rintro r hr R ⟨A', rfl, h⟩
      obtain ⟨A'', e, h1, h2⟩ := permute_eq (fun i => 8 * r + i) A' (fun i hi => by omega) (fun i k hi hk q => by omega)
      refine ⟨_, e, A'', rfl, fun k hk => ?_⟩
      by_cases c : k / 16 = r
      · have := h1 (k % 16) (by omega)
        rw [show 2 * (8 * r + k % 16 / 2) + k % 16 % 2 = k by omega] at this
        rw [this, if_pos (by omega)]
        unfold Spec.Argon2.rows
        refine P_congr _ _ (fun i hi => ?_) _ (by omega)
        rw [h _ (by omega), if_neg (by omega)]
        congr 1
        omega
      · rw [h2 k (fun i hi => by omega), h k hk]
        by_cases c2 : k / 16 < r
        · rw [if_pos c2, if_pos (by omega)]
        · rw [if_neg c2, if_neg (by omega)])
    (vec 128 A) ⟨A, rfl, fun k _ => by rw [if_neg (Nat.not_lt_zero _)]⟩
  rw [e, vec_congr 128 A' (Spec.Argon2.rows A) fun k hk => by rw [h k hk, if_pos (by omega)]]

theorem columns_eq (A : Nat → W64) : (List.range 8).foldlM (fun R c => permute (fun i => 8 * i + c) R) (vec 128 A) = .ok (vec 128 (Spec.Argon2.columns A)) := by
  obtain ⟨R, e, A', rfl, h⟩ := foldlM_range (fun R c => permute (fun i => 8 * i + c) R)
    (fun n R => ∃ A', R = vec 128 A' ∧ ∀ k, k < 128 → A' k = if k % 16 / 2 < n then Spec.Argon2.columns A k else A k) 8
    (by
      rintro r hr R ⟨A', rfl, h⟩
      obtain ⟨A'', e, h1, h2⟩ := permute_eq (fun i => 8 * i + r) A' (fun i hi => by omega) (fun i k hi hk q => by omega)
      refine ⟨_, e, A'', rfl, fun k hk => ?_⟩
      by_cases c : k % 16 / 2 = r
      · have := h1 (2 * (k / 16) + k % 2) (by omega)
        rw [show 2 * (8 * ((2 * (k / 16) + k % 2) / 2) + r) + (2 * (k / 16) + k % 2) % 2 = k by omega] at this
        rw [this, if_pos (by omega)]
        unfold Spec.Argon2.columns
        refine P_congr _ _ (fun i hi => ?_) _ (by omega)
        rw [h _ (by omega), if_neg (by omega)]
        congr 1
        omega
      · rw [h2 k (fun i hi => by omega), h k hk]
        by_cases c2 : k % 16 / 2 < r
        · rw [if_pos c2, if_pos (by omega)]
        · rw [if_neg c2, if_neg (by omega)])
    (vec 128 A) ⟨A, rfl, fun k _ => by rw [if_neg (Nat.not_lt_zero _)]⟩
  rw [e, vec_congr 128 A' (Spec.Argon2.columns A) fun k hk => by rw [h k hk, if_pos (by omega)]]

theorem xor_vec (X Y : Nat → W64) : ((List.range 128).mapM fun k => do return (← rd (vec 128 X) k) ^^^ (← rd (vec 128 Y) k)) =
    .ok (vec 128 fun k => X k ^^^ Y k) :=
  mapM_vec 128 _ _ fun k hk => by
    rw [rd_vec 128 X k hk, Out.bind_ok, rd_vec 128 Y k hk, Out.bind_ok]
    rfl

theorem compress_eq (old : Option (Nat → W64)) (X Y : Nat → W64) :
    compress (old.map (vec 128)) (vec 128 X) (vec 128 Y) = .ok (vec 128 (match old with
      | none => Spec.Argon2.G X Y
      | some t => fun k => Spec.Argon2.G X Y k ^^^ t k)) := by
  unfold compress
  rw [xor_vec, Out.bind_ok, rows_eq, Out.bind_ok, columns_eq, Out.bind_ok, xor_vec, Out.bind_ok]
  have e : (vec 128 fun k => (X k ^^^ Y k) ^^^ Spec.Argon2.columns (Spec.Argon2.rows fun k => X k ^^^ Y k) k) = vec 128 (Spec.Argon2.G X Y) :=
    vec_congr 128 _ _ fun k _ => BitVec.xor_comm _ _
  rw [e]
  cases old with
  | none => rfl
  | some t => exact xor_vec _ _

theorem G_comm (X Y : Nat → W64) : Spec.Argon2.G X Y = Spec.Argon2.G Y X := by
  unfold Spec.Argon2.G
  have : (fun k => X k ^^^ Y k) = fun k => Y k ^^^ X k := funext fun k => BitVec.xor_comm _ _
  dsimp only
  rw [this]
  funext k
  rw [BitVec.xor_comm (X k)]

/-! The indexes. -/

theorem sub64_eq (a b : Nat) (h : b ≤ a) (ha : a < 2 ^ 64) : sub64 a b = a - b := by
  unfold sub64
  omega

/-- The list whose elements are given by `f`, up to the last. -/
theorem column_map (n : Nat) (f : Nat → Nat) (J : W64) (hn : 0 < n) :
    Spec.Argon2.column ((List.range n).map f) J = f (n - 1 - n * (J.toNat % 2 ^ 32 * (J.toNat % 2 ^ 32) / 2 ^ 32) / 2 ^ 32) := by
  unfold Spec.Argon2.column
  dsimp only
  rw [List.length_map, List.length_range, List.getD_eq_getElem?_getD, List.getElem?_map, List.getElem?_range (by omega)]
  rfl

theorem x_lt (a : Nat) (h : a < 2 ^ 32) : a * a / 2 ^ 32 < 2 ^ 32 := by
  refine Nat.div_lt_of_lt_mul ?_
  have : a * a ≤ (2 ^ 32 - 1) * (2 ^ 32 - 1) := Nat.mul_le_mul (by omega) (by omega)
  exact Nat.lt_of_le_of_lt this (by decide)

/-- The last element left out. -/
theorem dropLast_map (n : Nat) (f : Nat → Nat) : ((List.range n).map f).dropLast = (List.range (n - 1)).map f := by
  cases n with
  | zero => rfl
  | succ n => rw [List.range_succ, List.map_append, List.map_singleton, List.dropLast_concat, Nat.add_sub_cancel]

/-- The position computed with the sizes of the code. -/
theorem rel_eq (n q start : Nat) (J : W64) (hn : 0 < n) (hn2 : n < 2 ^ 32) (hs : start < 2 ^ 32) :
    (start + sub64 (sub64 n 1) (n * ((J &&& 0xFFFFFFFF#64).toNat * (J &&& 0xFFFFFFFF#64).toNat % 2 ^ 64 / 2 ^ 32) % 2 ^ 64 / 2 ^ 32)) % 2 ^ 64 % q =
      (start + (n - 1 - n * (J.toNat % 2 ^ 32 * (J.toNat % 2 ^ 32) / 2 ^ 32) / 2 ^ 32)) % q := by
  have m : (J &&& 0xFFFFFFFF#64).toNat = J.toNat % 2 ^ 32 := by
    rw [BitVec.toNat_and]
    exact Nat.and_two_pow_sub_one_eq_mod _ 32
  rw [m]
  have h1 : J.toNat % 2 ^ 32 < 2 ^ 32 := Nat.mod_lt _ (by decide)
  generalize J.toNat % 2 ^ 32 = a at *
  have h2 : a * a < 2 ^ 64 := by
    have : a * a ≤ (2 ^ 32 - 1) * (2 ^ 32 - 1) := Nat.mul_le_mul (by omega) (by omega)
    exact Nat.lt_of_le_of_lt this (by decide)
  rw [Nat.mod_eq_of_lt h2]
  have h3 := x_lt a h1
  generalize a * a / 2 ^ 32 = x at *
  have h4 : n * x < 2 ^ 64 := by
    have : n * x ≤ (2 ^ 32 - 1) * (2 ^ 32 - 1) := Nat.mul_le_mul (by omega) (by omega)
    exact Nat.lt_of_le_of_lt this (by decide)
  rw [Nat.mod_eq_of_lt h4]
  have h5 : n * x / 2 ^ 32 ≤ n - 1 := by
    have : n * x / 2 ^ 32 < n := Nat.div_lt_of_lt_mul (by rw [Nat.mul_comm]; exact Nat.mul_lt_mul_of_pos_right h3 hn)
    omega
  rw [sub64_eq n 1 (by omega) (by omega), sub64_eq _ _ h5 (by omega), Nat.mod_eq_of_lt (show start + (n - 1 - n * x / 2 ^ 32) < 2 ^ 64 by omega)]

/-- The parameters of the code for those of RFC 9106. -/
def ctx (c : Spec.Argon2.Params) : Ctx := ⟨c.p, c.t, c.y, c.m', c.q, c.seg⟩

/-- The sizes that are met. -/
structure Sizes (c : Spec.Argon2.Params) : Prop where
  p0 : 0 < c.p
  p1 : c.p < 2 ^ 24
  seg0 : 2 ≤ c.seg
  seg1 : c.seg < 2 ^ 28
  m1 : c.m' < 2 ^ 32
  t1 : c.t < 2 ^ 32

theorem finished_later (c : Spec.Argon2.Params) (r sl i : Nat) (hr : r ≠ 0) (hsl : sl < 4) (hi : i ≤ c.seg) :
    Spec.Argon2.finished c r sl ++ (List.range i).map (fun k => sl * c.seg + k) = (List.range (3 * c.seg + i)).map fun k => ((sl + 1) * c.seg + k) % c.q := by
  unfold Spec.Argon2.finished Spec.Argon2.Params.q
  rw [if_neg hr, List.range_add, List.map_append, List.map_map]
  congr 1
  refine List.map_congr_left fun k hk => ?_
  rw [List.mem_range] at hk
  have e : (sl + 1) * c.seg + (3 * c.seg + k) = sl * c.seg + k + 4 * c.seg := by rw [Nat.add_mul]; omega
  have l : sl * c.seg + k < 4 * c.seg := by
    have : sl * c.seg ≤ 3 * c.seg := Nat.mul_le_mul_right _ (by omega)
    omega
  show sl * c.seg + k = ((sl + 1) * c.seg + (3 * c.seg + k)) % (4 * c.seg)
  rw [e, Nat.add_mod_right, Nat.mod_eq_of_lt l]

theorem finished_first (c : Spec.Argon2.Params) (sl i : Nat) :
    Spec.Argon2.finished c 0 sl ++ (List.range i).map (fun k => sl * c.seg + k) = (List.range (sl * c.seg + i)).map fun k => k := by
  unfold Spec.Argon2.finished
  rw [if_pos rfl, List.range_add, List.map_append, List.map_map, List.map_id']
  rfl

theorem indexes_eq (c : Spec.Argon2.Params) (hc : Sizes c) (J : W64) (r sl l i : Nat) (hsl : sl < 4) (hi : i < c.seg) (h2 : ¬ (r = 0 ∧ sl * c.seg + i < 2)) :
    indexes (ctx c) J r sl l (sl * c.seg + i) i = (Spec.Argon2.lane c r sl l J,
      Spec.Argon2.column (Spec.Argon2.W c r sl i (Spec.Argon2.lane c r sl l J = l)) J) := by
  have seg0 := hc.seg0
  have seg1 := hc.seg1
  have hq : c.q = 4 * c.seg := rfl
  have hS : sl * c.seg ≤ 3 * c.seg := Nat.mul_le_mul_right _ (by omega)
  have hJ2 : (J >>> 32).toNat = J.toNat / 2 ^ 32 := by
    rw [BitVec.toNat_ushiftRight, Nat.shiftRight_eq_div_pow]
  unfold indexes
  dsimp only [ctx]
  rw [hJ2]
  have hl : (if r = 0 ∧ sl = 0 then l else J.toNat / 2 ^ 32 % c.p) = Spec.Argon2.lane c r sl l J := rfl
  rw [hl]
  generalize hL : Spec.Argon2.lane c r sl l J = L
  congr 1
  unfold Spec.Argon2.W
  by_cases r0 : r = 0
  · subst r0
    rw [if_pos rfl, if_neg (show ¬ ((0 : Nat) ≠ 0 ∧ sl ≠ 3) by omega)]
    by_cases same : L = l
    · rw [if_pos (Or.inr same.symm), decide_eq_true same, if_pos rfl, finished_first, dropLast_map, sub64_eq (sl * c.seg + i) 1 (by omega) (by omega),
        column_map _ _ _ (by omega), rel_eq _ _ _ _ (by omega) (by omega) (by decide), Nat.zero_add, Nat.mod_eq_of_lt (by omega)]
    · have s0 : sl ≠ 0 := fun q => same (by rw [← hL]; unfold Spec.Argon2.lane; rw [if_pos ⟨rfl, q⟩])
      have hS0 : c.seg ≤ sl * c.seg := Nat.le_mul_of_pos_left _ (by omega)
      have hf : Spec.Argon2.finished c 0 sl = (List.range (sl * c.seg)).map fun k => k := by
        unfold Spec.Argon2.finished
        rw [if_pos rfl, List.map_id']
      rw [if_neg (show ¬ (sl = 0 ∨ l = L) by rintro (q | q); exacts [s0 q, same q.symm]), decide_eq_false same, if_neg (show ¬ (false = true) by decide), hf]
      by_cases i0 : i = 0
      · rw [if_pos i0, if_pos i0, dropLast_map, sub64_eq (sl * c.seg) 1 (by omega) (by omega),
          column_map _ _ _ (by omega), rel_eq _ _ _ _ (by omega) (by omega) (by decide), Nat.zero_add, Nat.mod_eq_of_lt (by omega)]
      · rw [if_neg i0, if_neg i0, column_map _ _ _ (by omega), rel_eq _ _ _ _ (by omega) (by omega) (by decide), Nat.zero_add,
          Nat.mod_eq_of_lt (by omega)]
  · rw [if_neg r0]
    have hst : ∀ x, ((if r ≠ 0 ∧ sl ≠ 3 then (sl + 1) * c.seg else 0) + x) % c.q = ((sl + 1) * c.seg + x) % c.q := fun x => by
      by_cases s3 : sl = 3
      · rw [if_neg (show ¬ (r ≠ 0 ∧ sl ≠ 3) by omega), s3, hq, Nat.zero_add, Nat.add_comm, Nat.add_mod_right]
      · rw [if_pos ⟨r0, s3⟩]
    have hst2 : (if r ≠ 0 ∧ sl ≠ 3 then (sl + 1) * c.seg else 0) < 2 ^ 32 := by
      have : (sl + 1) * c.seg = sl * c.seg + c.seg := by rw [Nat.add_mul, Nat.one_mul]
      split <;> omega
    have e3 : c.q - c.seg = 3 * c.seg := by omega
    rw [e3]
    by_cases same : L = l
    · rw [if_pos same.symm, decide_eq_true same, if_pos rfl, finished_later c r sl i r0 hsl (by omega), dropLast_map, sub64_eq (3 * c.seg + i) 1 (by omega) (by omega),
        column_map _ _ _ (by omega), rel_eq _ _ _ _ (by omega) (by omega) hst2, hst]
    · have hf : Spec.Argon2.finished c r sl = (List.range (3 * c.seg)).map fun k => ((sl + 1) * c.seg + k) % c.q := by
        have h := finished_later c r sl 0 r0 hsl (by omega)
        rw [List.range_zero, List.map_nil, List.append_nil] at h
        exact h
      rw [if_neg (show ¬ (l = L) from fun q => same q.symm), decide_eq_false same, if_neg (show ¬ (false = true) by decide), hf]
      by_cases i0 : i = 0
      · rw [if_pos i0, if_pos i0, dropLast_map, sub64_eq (3 * c.seg) 1 (by omega) (by omega),
          column_map _ _ _ (by omega), rel_eq _ _ _ _ (by omega) (by omega) hst2, hst]
      · rw [if_neg i0, if_neg i0, column_map _ _ _ (by omega), rel_eq _ _ _ _ (by omega) (by omega) hst2, hst]

/-! The addresses. -/

theorem input_eq (c : Spec.Argon2.Params) (r sl l n : Nat) :
    [r, l, sl, c.m', c.t, c.y, n].map (BitVec.ofNat 64) ++ List.replicate 121 0 = vec 128 (Spec.Argon2.input c r l sl n) := by
  apply List.ext_getElem?
  intro k
  unfold vec
  rw [List.getElem?_map]
  match k with
  | 0 => rfl
  | 1 => rfl
  | 2 => rfl
  | 3 => rfl
  | 4 => rfl
  | 5 => rfl
  | 6 => rfl
  | k + 7 =>
    rw [List.getElem?_append_right (by simp), List.getElem?_replicate]
    by_cases h : k < 121
    · rw [if_pos (by simpa using h), List.getElem?_range (by omega)]
      rfl
    · rw [if_neg (by simpa using h), List.getElem?_eq_none (by rw [List.length_range]; omega)]
      rfl

theorem zero_eq : List.replicate 128 (0 : W64) = vec 128 fun _ => 0 := by
  unfold vec
  rw [List.map_const', List.length_range]

theorem addresses_eq (c : Spec.Argon2.Params) (r sl l n : Nat) :
    addresses (ctx c) r sl l n = .ok (vec 128 fun k => Spec.Argon2.G (fun _ => 0) (Spec.Argon2.G (fun _ => 0) (Spec.Argon2.input c r l sl n)) k) := by
  unfold addresses
  dsimp only [ctx]
  rw [input_eq, zero_eq]
  have e1 := compress_eq none (Spec.Argon2.input c r l sl n) (fun _ => 0)
  have e2 := compress_eq none (Spec.Argon2.G (fun _ => 0) (Spec.Argon2.input c r l sl n)) (fun _ => 0)
  dsimp only [Option.map_none] at e1 e2
  rw [e1, Out.bind_ok, G_comm, e2, G_comm]

theorem prFill_eq (c : Spec.Argon2.Params) (r sl l : Nat) : ∀ fuel n, c.seg ≤ 128 * (n + fuel) →
    prFill (ctx c) r sl l fuel (n + 1) (vec (min (128 * n) c.seg) fun i => Spec.Argon2.address c r l sl i) =
      .ok (vec c.seg fun i => Spec.Argon2.address c r l sl i)
  | 0, n, h => by
    rw [prFill, if_neg (by rw [vec_length]; show ¬ (_ < c.seg); omega), Nat.min_eq_right (by omega)]
    rfl
  | fuel + 1, n, h => by
    rw [prFill, vec_length]
    show (if min (128 * n) c.seg < c.seg then _ else _) = _
    by_cases d : min (128 * n) c.seg < c.seg
    · rw [if_pos d, addresses_eq, Out.bind_ok]
      have e : (vec (min (128 * n) c.seg) fun i => Spec.Argon2.address c r l sl i) ++
          (vec 128 fun k => Spec.Argon2.G (fun _ => 0) (Spec.Argon2.G (fun _ => 0) (Spec.Argon2.input c r l sl (n + 1))) k).take (c.seg - min (128 * n) c.seg) =
          vec (min (128 * (n + 1)) c.seg) fun i => Spec.Argon2.address c r l sl i := by
        have hn : min (128 * n) c.seg = 128 * n := by omega
        have hm : min (128 * (n + 1)) c.seg = 128 * n + min (c.seg - 128 * n) 128 := by omega
        unfold vec
        rw [hn, hm, ← List.map_take, List.take_range, List.range_add, List.map_append, List.map_map]
        refine congrArg (List.map (fun i => Spec.Argon2.address c r l sl i) (List.range (128 * n)) ++ ·) ?_
        refine List.map_congr_left fun k hk => ?_
        rw [List.mem_range] at hk
        show _ = Spec.Argon2.address c r l sl (128 * n + k)
        unfold Spec.Argon2.address
        rw [show (128 * n + k) / 128 + 1 = n + 1 by omega, show (128 * n + k) % 128 = k by omega]
      have hseg : (ctx c).seg = c.seg := rfl
      rw [hseg, e]
      exact prFill_eq c r sl l fuel (n + 1) (by omega)
    · rw [if_neg d, Nat.min_eq_right (by omega)]
      rfl

theorem prOf_eq (c : Spec.Argon2.Params) (r sl l : Nat) :
    prOf (ctx c) r sl l = .ok (if Spec.Argon2.independent c r sl then some (vec c.seg fun i => Spec.Argon2.address c r l sl i) else none) := by
  have e : isDi (ctx c) r sl = Spec.Argon2.independent c r sl := by
    unfold isDi Spec.Argon2.independent
    rw [decide_eq_decide, show (sl < 2) = (sl ≤ 1) from propext Nat.lt_succ_iff]
    exact Iff.rfl
  unfold prOf
  rw [e]
  cases Spec.Argon2.independent c r sl with
  | false => rfl
  | true =>
    have := prFill_eq c r sl l c.seg 0 (by omega)
    rw [if_pos rfl, if_pos rfl]
    refine Eq.trans (congrArg (· >>= _) (Eq.trans ?_ this)) ?_
    · rw [Nat.mul_zero, Nat.zero_min]
      rfl
    · rfl

end Kryptos.Argon2
