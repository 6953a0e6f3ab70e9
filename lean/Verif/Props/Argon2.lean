import Verif.Lemmas.Argon2Hash
/- C110: Argon2. -/
namespace Kryptos.Argon2
open Spec.MD (leNat le)
open Spec.Argon2 (Memory Params Way tag rfc)

/-- The parameters that RFC 9106 allows (and a tag without bytes), with the upper bounds of the code. -/
structure Valid (c : Params) : Prop where
  p0 : 1 ≤ c.p
  p1 : c.p ≤ 0x00FFFFFF
  T1 : c.T ≤ 0x1FFFFFFF
  m0 : 8 * c.p ≤ c.m
  m1 : c.m ≤ 0x1FFFFFFF
  t0 : 1 ≤ c.t
  t1 : c.t ≤ 0x1FFFFFFF
  y1 : c.y < 2 ^ 32
  password : c.password.length ≤ 0x1FFFFFFF
  salt : c.salt.length ≤ 0x1FFFFFFF
  secret : c.secret.length ≤ 0x1FFFFFFF
  ad : c.ad.length ≤ 0x1FFFFFFF

theorem Valid.sizes {c : Params} (h : Valid c) : Sizes c := by
  have := h.p0
  have := h.p1
  have := h.m0
  have := h.m1
  have := h.t1
  refine ⟨by omega, by omega, ?_, ?_, ?_, by omega⟩
  · show 2 ≤ c.m / (4 * c.p)
    rw [Nat.le_div_iff_mul_le (by omega)]
    omega
  · show c.m / (4 * c.p) < 2 ^ 28
    have : c.m / (4 * c.p) ≤ c.m / 4 := Nat.div_le_div_left (by omega) (by decide)
    omega
  · show 4 * c.p * (c.m / (4 * c.p)) < 2 ^ 32
    have := Nat.mul_div_le c.m (4 * c.p)
    omega

theorem checks_valid {c : Params} (h : Valid c) : checks c.password c.salt c.secret c.ad c.p c.T c.m c.t = true := by
  have hp0 := h.p0
  have hp1 := h.p1
  have hT1 := h.T1
  have hm0 := h.m0
  have hm1 := h.m1
  have ht0 := h.t0
  have ht1 := h.t1
  unfold checks inBounds
  simp only [Bool.and_eq_true, decide_eq_true_eq]
  exact ⟨⟨⟨⟨⟨⟨⟨Or.inr ⟨Nat.zero_le _, h.password⟩, Or.inr ⟨Nat.zero_le _, h.salt⟩⟩, by omega⟩, by omega⟩, by omega⟩, by omega⟩,
    Or.inr ⟨Nat.zero_le _, h.secret⟩⟩, Or.inr ⟨Nat.zero_le _, h.ad⟩⟩

theorem h0Input_eq {c : Params} (h : Valid c) : h0Input c.password c.salt c.secret c.ad c.p c.T c.m c.t c.y =
    le 4 c.p ++ le 4 c.T ++ le 4 c.m ++ le 4 c.t ++ le 4 0x13 ++ le 4 c.y ++ le 4 c.password.length ++ c.password ++ le 4 c.salt.length ++ c.salt ++
      le 4 c.secret.length ++ c.secret ++ le 4 c.ad.length ++ c.ad := by
  have := h.p1
  have := h.T1
  have := h.m1
  have := h.t1
  have := h.y1
  have := h.password
  have := h.salt
  have := h.secret
  have := h.ad
  unfold h0Input
  dsimp only
  rw [put32_eq c.p (by omega), put32_eq c.T (by omega), put32_eq c.m (by omega), put32_eq c.t (by omega), put32_eq 0x13 (by omega), put32_eq c.y (by omega),
    put32_eq c.password.length (by omega), put32_eq c.salt.length (by omega), put32_eq c.secret.length (by omega), put32_eq c.ad.length (by omega)]

theorem ctx_eq {c : Params} (h : Valid c) : (⟨c.p, c.t, c.y, c.m / (c.p * 4) * (c.p * 4), c.m / (c.p * 4) * (c.p * 4) / c.p, c.m / (c.p * 4) * (c.p * 4) / c.p / 4⟩ : Ctx) = ctx c := by
  have := h.p0
  have e1 : c.m / (c.p * 4) * (c.p * 4) = c.m' := by
    unfold Spec.Argon2.Params.m'
    rw [Nat.mul_comm c.p 4, Nat.mul_comm]
  have e2 : c.m' / c.p = c.q := by
    unfold Spec.Argon2.Params.m' Spec.Argon2.Params.q Spec.Argon2.Params.seg
    rw [Nat.mul_comm 4 c.p, Nat.mul_assoc, Nat.mul_div_cancel_left _ (by omega)]
  have e3 : c.q / 4 = c.seg := by
    unfold Spec.Argon2.Params.q
    omega
  rw [e1, e2, e3]
  rfl

theorem toBytes_length (b : Spec.Argon2.Block) : (Spec.Argon2.toBytes b).length = 1024 := by
  unfold Spec.Argon2.toBytes
  rw [List.length_flatMap]
  have : (List.range 128).map (fun k => (le 8 (b k).toNat).length) = (List.range 128).map fun _ => 8 := List.map_congr_left fun k _ => Md.le_length _ _
  rw [this, List.map_const', List.length_range, List.sum_replicate_nat]

theorem argon2_H {c : Params} (h : Valid c) :
    argon2 c.password c.salt c.secret c.ad c.p c.T c.m c.t c.y = H (Spec.Argon2.toBytes (Spec.Argon2.final code c)) c.T := by
  have hc := h.sizes
  unfold argon2
  rw [if_pos (checks_valid h), h0Input_eq h, hash64, Out.bind_ok]
  · dsimp only
    rw [if_neg (by simp), if_neg (by have := h.p0; omega), ctx_eq h]
    have hq : c.m / (c.p * 4) * (c.p * 4) / c.p = c.q := congrArg Ctx.q (ctx_eq h)
    rw [hq]
    obtain ⟨B, b1, b2⟩ := firstBlocks_eq c hc
    have e0 : Spec.Argon2.H 64 (le 4 c.p ++ le 4 c.T ++ le 4 c.m ++ le 4 c.t ++ le 4 0x13 ++ le 4 c.y ++ le 4 c.password.length ++ c.password ++ le 4 c.salt.length ++ c.salt ++
      le 4 c.secret.length ++ c.secret ++ le 4 c.ad.length ++ c.ad) = Spec.Argon2.H0 c := rfl
    obtain ⟨B', f1, f2⟩ := fillAll_eq c hc h.t0 B b2
    rw [e0, b1, Out.bind_ok, f1, Out.bind_ok, lastColumn_eq c hc B' f2, Out.bind_ok]
  · have := h.password
    have := h.salt
    have := h.secret
    have := h.ad
    simp only [List.length_append, Md.le_length]
    omega

/-- C110: **what the code computes, for every password, salt, key and associated data and all allowed parameters**: the tag of RFC 9106, but for two
places: the word that tells the reference block is that of the column `(j - 1) % q` computed in `size_t`, and in the first segment of the memory the address
of column `j` is that of `j - 2` (`code`).  A tag of more than 64 bytes comes out with groups of eight bytes reversed, or is not defined at all. -/
theorem argon2_code {c : Params} (h : Valid c) :
    (1 ≤ c.T → c.T ≤ 64 → argon2 c.password c.salt c.secret c.ad c.p c.T c.m c.t c.y = .ok (some (tag code c))) ∧
    (64 < c.T → c.T % 8 = 0 → argon2 c.password c.salt c.secret c.ad c.p c.T c.m c.t c.y = .ok (some (rev8 (tag code c)))) ∧
    (64 < c.T → c.T % 8 ≠ 0 → argon2 c.password c.salt c.secret c.ad c.p c.T c.m c.t c.y = .ub) ∧
    (c.T = 0 → argon2 c.password c.salt c.secret c.ad c.p c.T c.m c.t c.y = .ok none) := by
  have e := H_eq (Spec.Argon2.toBytes (Spec.Argon2.final code c)) c.T (by rw [toBytes_length]; decide) (by have := h.T1; omega)
  rw [argon2_H h]
  exact e

/-- The two places are of no consequence. -/
structure Same (c : Params) : Prop where
  before : c.t = 1 ∨ c.y = 1 ∨ c.q ∣ 2 ^ 64
  skip : (c.y ≠ 1 ∧ c.y ≠ 2) ∨ c.seg ≤ 3

theorem before_pos (q j : Nat) (h0 : 0 < j) (h : j < 2 ^ 64) : (j + (2 ^ 64 - 1)) % 2 ^ 64 % q = (j + q - 1) % q := by
  rw [show j + (2 ^ 64 - 1) = j - 1 + 2 ^ 64 by omega, Nat.add_mod_right, Nat.mod_eq_of_lt (show j - 1 < 2 ^ 64 by omega), show j + q - 1 = j - 1 + q by omega, Nat.add_mod_right]

theorem before_zero (q : Nat) (h : q ∣ 2 ^ 64) (h0 : 0 < q) : (0 + (2 ^ 64 - 1)) % 2 ^ 64 % q = (0 + q - 1) % q := by
  obtain ⟨k, hk⟩ := h
  have hk0 : 0 < k := by
    rcases Nat.eq_zero_or_pos k with q | q
    · rw [q, Nat.mul_zero] at hk; exact absurd hk (by decide)
    · exact q
  obtain ⟨k, rfl⟩ : ∃ n, k = n + 1 := ⟨k - 1, by omega⟩
  rw [Nat.mul_add, Nat.mul_one] at hk
  rw [Nat.zero_add, Nat.zero_add, Nat.mod_eq_of_lt (show 2 ^ 64 - 1 < 2 ^ 64 by decide), Nat.mod_eq_of_lt (show q - 1 < q by omega),
    show 2 ^ 64 - 1 = q - 1 + q * k by omega, Nat.add_mul_mod_self_left, Nat.mod_eq_of_lt (by omega)]

theorem step_same (c : Params) (hc : Sizes c) (hs : Same c) (r sl l i : Nat) (hr : r < c.t) (hsl : sl < 4) (hi : i < c.seg) (M : Memory) :
    Spec.Argon2.step code c r sl l M i = Spec.Argon2.step rfc c r sl l M i := by
  have seg0 := hc.seg0
  have seg1 := hc.seg1
  have hq : c.q = 4 * c.seg := rfl
  have hS : sl * c.seg ≤ 3 * c.seg := Nat.mul_le_mul_right _ (by omega)
  unfold Spec.Argon2.step
  dsimp only
  by_cases h2 : r = 0 ∧ sl * c.seg + i < 2
  · rw [if_pos h2, if_pos h2]
  · rw [if_neg h2, if_neg h2]
    by_cases first : Spec.Argon2.independent c r sl = true ∧ r = 0 ∧ sl = 0
    · obtain ⟨h3, rfl, rfl⟩ := first
      have hy : c.y = 1 ∨ c.y = 2 := by
        unfold Spec.Argon2.independent at h3
        simp only [decide_eq_true_eq] at h3
        rcases h3 with h | h
        · exact Or.inl h
        · exact Or.inr h.1
      have hseg : c.seg ≤ 3 := by
        rcases hs.skip with h | h
        · omega
        · exact h
      have i2 : i = 2 := by omega
      subst i2
      have hl : ∀ J, Spec.Argon2.lane c 0 0 l J = l := fun J => by unfold Spec.Argon2.lane; rw [if_pos ⟨rfl, rfl⟩]
      have hcol : ∀ J, Spec.Argon2.column (Spec.Argon2.W c 0 0 2 (decide True)) J = 0 := fun J => by
        have hW : Spec.Argon2.W c 0 0 2 (decide True) = [0] := by
          unfold Spec.Argon2.W
          rw [decide_eq_true trivial, if_pos rfl, finished_first, dropLast_map, Nat.zero_mul]
          rfl
        rw [hW]
        have := column_mem [0] J (by simp)
        simpa using this
      simp only [hl, hcol]
    · have hJ : Spec.Argon2.J code c M r sl l i = Spec.Argon2.J rfc c M r sl l i := by
        unfold Spec.Argon2.J
        by_cases h3 : Spec.Argon2.independent c r sl = true
        · rw [if_pos h3, if_pos h3, if_neg (fun q => first ⟨h3, q⟩), if_neg (fun q => first ⟨h3, q⟩)]
        · rw [if_neg h3, if_neg h3]
          have hb : code.before c.q (sl * c.seg + i) = rfc.before c.q (sl * c.seg + i) := by
            show (sl * c.seg + i + (2 ^ 64 - 1)) % 2 ^ 64 % c.q = (sl * c.seg + i + c.q - 1) % c.q
            by_cases j0 : sl * c.seg + i = 0
            · rw [j0]
              refine before_zero _ ?_ (by omega)
              rcases hs.before with h | h | h
              · omega
              · refine absurd ?_ h3
                unfold Spec.Argon2.independent
                exact decide_eq_true (Or.inl h)
              · exact h
            · exact before_pos _ _ (by omega) (by omega)
          rw [hb]
      rw [hJ]

theorem foldl_same {α : Type} (f g : α → Nat → α) (n : Nat) (h : ∀ k, k < n → ∀ s, f s k = g s k) (s : α) : (List.range n).foldl f s = (List.range n).foldl g s := by
  induction n with
  | zero => rfl
  | succ n ih => rw [foldl_range_succ, foldl_range_succ, ih (fun k hk => h k (by omega)), h n (by omega)]

theorem tag_same {c : Params} (h : Valid c) (hs : Same c) : tag code c = tag rfc c := by
  have hc := h.sizes
  have hm : Spec.Argon2.memory code c = Spec.Argon2.memory rfc c := by
    unfold Spec.Argon2.memory
    refine foldl_same _ _ _ (fun r hr M => ?_) _
    unfold Spec.Argon2.pass
    refine foldl_same _ _ _ (fun sl hsl M => ?_) _
    unfold Spec.Argon2.slice
    refine foldl_same _ _ _ (fun l hl M => ?_) _
    unfold Spec.Argon2.segment
    exact foldl_same _ _ _ (fun i hi M => step_same c hc hs r sl l i hr hsl hi M) _
  unfold tag Spec.Argon2.final
  rw [hm]

/-- C110: **Argon2 is the function of RFC 9106** for tags of at most 64 bytes if the two places are of no consequence.  What is missing are tags of more than 64
bytes (see `argon2_code`), Argon2d and Argon2id with more than one pass when the columns of a lane are no power of two (see `argon2_wrong_column`), and
Argon2i and Argon2id with segments of more than three columns (see `argon2_wrong_address`). -/
theorem argon2_rfc9106_partial {c : Params} (h : Valid c) (h1 : 1 ≤ c.T) (hT : c.T ≤ 64) (hs : Same c) :
    argon2 c.password c.salt c.secret c.ad c.p c.T c.m c.t c.y = .ok (some (tag rfc c)) := by
  rw [(argon2_code h).1 h1 hT, tag_same h hs]

/-- C110: Argon2d is the function of RFC 9106 for every memory and parallelism that are powers of two. -/
theorem argon2d_powers {c : Params} (h : Valid c) (h1 : 1 ≤ c.T) (hT : c.T ≤ 64) (hy : c.y = 0) (a b : Nat) (hm : c.m = 2 ^ a) (hp : c.p = 2 ^ b) :
    argon2 c.password c.salt c.secret c.ad c.p c.T c.m c.t c.y = .ok (some (tag rfc c)) := by
  refine argon2_rfc9106_partial h h1 hT ⟨Or.inr (Or.inr ?_), Or.inl (by omega)⟩
  have h0 := h.m0
  have hm1 := h.m1
  rw [hm, hp] at h0
  rw [hm] at hm1
  have hab : b + 3 ≤ a := by
    by_contra hn
    have : 2 ^ a < 2 ^ (b + 3) := Nat.pow_lt_pow_right (by decide) (by omega)
    rw [Nat.pow_add] at this
    omega
  have ha : a < 29 := by
    by_contra hn
    have : 2 ^ 29 ≤ 2 ^ a := Nat.pow_le_pow_right (by decide) (by omega)
    omega
  unfold Spec.Argon2.Params.q Spec.Argon2.Params.seg
  rw [hm, hp, show 4 * 2 ^ b = 2 ^ (b + 2) by rw [Nat.pow_add]; omega, Nat.pow_div (by omega) (by decide), show 4 * 2 ^ (a - (b + 2)) = 2 ^ (a - (b + 2) + 2) by rw [Nat.pow_add]; omega]
  exact Nat.pow_dvd_pow 2 (by omega)

/-- C110: **a wrong column**: from the second pass on Argon2d (and Argon2id) takes the reference of the first block of a lane from the column
`(2^64 - 1) mod q`, which is not the column before it, unless `q` divides `2^64`. -/
theorem argon2_wrong_column (c : Params) (hc : Sizes c) (hq : ¬ c.q ∣ 2 ^ 64) (hy : c.y ≠ 1) (r l : Nat) (hr : 0 < r) (M : Memory) :
    Spec.Argon2.J code c M r 0 l 0 = M l ((2 ^ 64 - 1) % c.q) 0 ∧ Spec.Argon2.J rfc c M r 0 l 0 = M l (c.q - 1) 0 ∧ (2 ^ 64 - 1) % c.q ≠ c.q - 1 := by
  have seg0 := hc.seg0
  have hq4 : c.q = 4 * c.seg := rfl
  have hi : ¬ Spec.Argon2.independent c r 0 = true := by
    unfold Spec.Argon2.independent
    simp only [decide_eq_true_eq]
    omega
  refine ⟨?_, ?_, fun e => hq ?_⟩
  · unfold Spec.Argon2.J
    rw [if_neg hi, Nat.zero_mul]
    show M l ((0 + 0 + (2 ^ 64 - 1)) % 2 ^ 64 % c.q) 0 = _
    rw [Nat.zero_add, Nat.mod_eq_of_lt (show 2 ^ 64 - 1 < 2 ^ 64 by decide)]
  · unfold Spec.Argon2.J
    rw [if_neg hi, Nat.zero_mul]
    show M l ((0 + 0 + c.q - 1) % c.q) 0 = _
    rw [Nat.zero_add, Nat.mod_eq_of_lt (by omega)]
  · have := Nat.div_add_mod (2 ^ 64 - 1) c.q
    rw [e] at this
    refine ⟨(2 ^ 64 - 1) / c.q + 1, ?_⟩
    rw [Nat.mul_add, Nat.mul_one]
    omega

/-- Argon2i with 16 blocks, one lane and two passes. -/
def witness : Params := ⟨1, 32, 16, 2, 1, List.replicate 32 1, List.replicate 16 2, [], []⟩

theorem witness_addresses : (addresses (ctx witness) 0 0 0 1 >>= fun b => rd b 1 >>= fun x => rd b 3 >>= fun y => .ok (x.toNat, y.toNat)) = .ok (4911461131397773491, 7860239898779391109) := by
  decide +kernel

theorem witness_address : (Spec.Argon2.address witness 0 0 0 1).toNat = 4911461131397773491 ∧ (Spec.Argon2.address witness 0 0 0 3).toNat = 7860239898779391109 := by
  have h := witness_addresses
  rw [addresses_eq, Out.bind_ok, rd_vec _ _ _ (by decide), Out.bind_ok, rd_vec _ _ _ (by decide), Out.bind_ok] at h
  have h' := Prod.mk.inj (Out.ok.inj h)
  exact h'

/-- C110: **a wrong address**: Argon2i with 16 blocks, one lane and two passes computes column 3 of the first segment from column 1, RFC 9106 from column 0. -/
theorem argon2_wrong_address (M : Memory) :
    Spec.Argon2.column (Spec.Argon2.W witness 0 0 3 true) (Spec.Argon2.J code witness M 0 0 0 3) = 1 ∧
      Spec.Argon2.column (Spec.Argon2.W witness 0 0 3 true) (Spec.Argon2.J rfc witness M 0 0 0 3) = 0 := by
  have hi : Spec.Argon2.independent witness 0 0 = true := rfl
  have hW : Spec.Argon2.W witness 0 0 3 true = [0, 1] := rfl
  have e1 : Spec.Argon2.J code witness M 0 0 0 3 = Spec.Argon2.address witness 0 0 0 1 := by
    unfold Spec.Argon2.J
    rw [if_pos hi, if_pos ⟨rfl, rfl⟩]
    rfl
  have e2 : Spec.Argon2.J rfc witness M 0 0 0 3 = Spec.Argon2.address witness 0 0 0 3 := by
    unfold Spec.Argon2.J
    rw [if_pos hi, if_pos ⟨rfl, rfl⟩]
    rfl
  rw [hW, e1, e2]
  unfold Spec.Argon2.column
  dsimp only
  rw [witness_address.1, witness_address.2]
  decide

theorem checked_hash {password salt key ad : Bytes} {p T m t : Nat} (y : Nat) (hc : checks password salt key ad p T m t = true) :
    Blake2.blake2b512 [] (some (h0Input password salt key ad p T m t y)) false = .ok ⟨.success, Spec.Argon2.H 64 (h0Input password salt key ad p T m t y)⟩ := by
  refine hash64 _ ?_
  unfold checks inBounds at hc
  simp only [Bool.and_eq_true, decide_eq_true_eq] at hc
  obtain ⟨⟨⟨⟨⟨⟨⟨h1, h2⟩, -⟩, -⟩, -⟩, -⟩, h3⟩, h4⟩ := hc
  unfold h0Input put32
  simp only [List.length_append, List.length_cons, List.length_nil]
  omega

/-- C110: parameters that are 0 pass the checks: without parallelism the code divides by zero. -/
theorem argon2_no_lanes {password salt key ad : Bytes} (T m t y : Nat) (hc : checks password salt key ad 0 T m t = true) :
    argon2 password salt key ad 0 T m t y = .ub := by
  unfold argon2
  rw [if_pos hc, checked_hash y hc, Out.bind_ok]
  rfl

/-- C110: without memory, the first block is written where there is none. -/
theorem argon2_no_memory {password salt key ad : Bytes} (p T t y : Nat) (hp : 0 < p) (hc : checks password salt key ad p T 0 t = true) :
    argon2 password salt key ad p T 0 t y = .ub := by
  have hp1 : p < 2 ^ 24 := by
    unfold checks inBounds at hc
    simp only [Bool.and_eq_true, decide_eq_true_eq] at hc
    omega
  unfold argon2
  rw [if_pos hc, checked_hash y hc, Out.bind_ok]
  have hl : (Spec.Argon2.H 64 (h0Input password salt key ad p T 0 t y)).length = 64 := H_length _ _ (by decide)
  dsimp only
  rw [if_neg (by simp), if_neg (by omega), Nat.zero_div, Nat.zero_mul, Nat.zero_div]
  generalize Spec.Argon2.H 64 (h0Input password salt key ad p T 0 t y) = h0 at *
  obtain ⟨k, rfl⟩ : ∃ k, p = k + 1 := ⟨p - 1, by omega⟩
  have : firstBlocks h0 (k + 1) (List.replicate (k + 1) (List.replicate 0 none)) = .ub := by
    unfold firstBlocks
    rw [List.range_succ_eq_map, List.foldlM_cons]
    have : firstBlock h0 (List.replicate (k + 1) (List.replicate 0 none)) 0 0 = .ub := by
      unfold firstBlock
      rw [(H_eq _ 1024 (by rw [List.length_append, List.length_append, hl, put32_eq 0 (by decide), Md.le_length]; decide) (by decide)).2.1 (by decide) (by decide), Out.bind_ok]
      dsimp only
      rw [words_eq _ (H'_length _ _), Out.bind_ok]
      rfl
    rw [this]
    rfl
  rw [this]
  rfl

/-- The last block of the first lane is not there. -/
def NoLast (q : Nat) (B : Mem) : Prop := ∃ row, B[0]? = some row ∧ row[q - 1]? = some none

theorem set_keeps {q i j : Nat} {B B' : Mem} {b : List W64} (hj : j ≠ q - 1) (h : NoLast q B) (e : set B i j b = .ok B') : NoLast q B' := by
  obtain ⟨row, h1, h2⟩ := h
  unfold Argon2.set at e
  obtain ⟨r, e1, e⟩ := bind_split e
  obtain ⟨r', e2, e⟩ := bind_split e
  unfold wr at e e2
  split at e
  · split at e2
    · have e := Out.ok.inj e
      have e2 := Out.ok.inj e2
      subst e
      subst e2
      by_cases i0 : i = 0
      · subst i0
        have hr : r = row := by
          unfold rd at e1
          rw [h1] at e1
          exact (Out.ok.inj e1).symm
        subst hr
        refine ⟨_, by rw [List.getElem?_set_self (by assumption)], ?_⟩
        rw [List.getElem?_set_ne hj]
        exact h2
      · exact ⟨row, by rw [List.getElem?_set_ne i0]; exact h1, h2⟩
    · cases e2
  · cases e

theorem firstBlock_keeps {q i j : Nat} {h0 : Bytes} {B B' : Mem} (hj : j ≠ q - 1) (h : NoLast q B) (e : firstBlock h0 B i j = .ok B') : NoLast q B' := by
  unfold firstBlock at e
  obtain ⟨a, -, e⟩ := bind_split e
  cases a with
  | none => cases e
  | some a =>
    obtain ⟨w, -, e⟩ := bind_split e
    exact set_keeps hj h e

/-- C110: without a pass, what is hashed are blocks that were never computed. -/
theorem argon2_no_passes {c : Params} (h : Valid c) (y : Nat) : argon2 c.password c.salt c.secret c.ad c.p c.T c.m 0 y = .ub := by
  have hc := h.sizes
  have hp := hc.p0
  have hp1 := hc.p1
  have seg0 := hc.seg0
  have hq : c.q = 4 * c.seg := rfl
  have hch : checks c.password c.salt c.secret c.ad c.p c.T c.m 0 = true := by
    have := checks_valid h
    unfold checks inBounds at this ⊢
    simp only [Bool.and_eq_true, decide_eq_true_eq] at this ⊢
    exact ⟨⟨⟨this.1.1.1, Or.inl trivial⟩, this.1.2⟩, this.2⟩
  unfold argon2
  rw [if_pos hch, checked_hash y hch, Out.bind_ok]
  dsimp only
  have e2 : c.m / (c.p * 4) * (c.p * 4) / c.p = c.q := congrArg Ctx.q (ctx_eq h)
  rw [if_neg (by simp), if_neg (by omega), e2]
  generalize Spec.Argon2.H 64 (h0Input c.password c.salt c.secret c.ad c.p c.T c.m 0 y) = h0
  have hf : ∀ B', firstBlocks h0 c.p (List.replicate c.p (List.replicate c.q none)) = .ok B' → NoLast c.q B' := by
    have key : ∀ n B B', NoLast c.q B → (List.range n).foldlM (fun B i => do firstBlock h0 (← firstBlock h0 B i 0) i 1) B = .ok B' → NoLast c.q B' := by
      intro n
      induction n with
      | zero =>
        intro B B' hB e
        have e : Out.ok B = .ok B' := e
        rw [← Out.ok.inj e]
        exact hB
      | succ n ih =>
        intro B B' hB e
        rw [List.range_succ, List.foldlM_append] at e
        obtain ⟨B1, e1, e⟩ := bind_split e
        rw [List.foldlM_cons] at e
        obtain ⟨B2, e2, e⟩ := bind_split e
        obtain ⟨B3, e3, e2⟩ := bind_split e2
        have e : Out.ok B2 = .ok B' := e
        rw [← Out.ok.inj e]
        exact firstBlock_keeps (by omega) (firstBlock_keeps (by omega) (ih B B1 hB e1) e3) e2
    intro B' e
    refine key c.p _ B' ⟨List.replicate c.q none, ?_, ?_⟩ e
    · rw [List.getElem?_replicate, if_pos hp]
    · rw [List.getElem?_replicate, if_pos (by omega)]
  cases hB : firstBlocks h0 c.p (List.replicate c.p (List.replicate c.q none)) with
  | ub => rfl
  | ok B' =>
    obtain ⟨row, r1, r2⟩ := hf B' hB
    rw [Out.bind_ok]
    have hfill : fillAll ⟨c.p, 0, y, c.m / (c.p * 4) * (c.p * 4), c.q, c.q / 4⟩ B' = .ok B' := rfl
    rw [hfill, Out.bind_ok]
    have : lastColumn ⟨c.p, 0, y, c.m / (c.p * 4) * (c.p * 4), c.q, c.q / 4⟩ B' = .ub := by
      have hg : get B' 0 (c.q - 1) = .ub := by
        unfold Argon2.get rd
        rw [r1]
        show (Out.ofOption row[c.q - 1]? >>= _) = _
        rw [r2]
        rfl
      unfold lastColumn
      rw [hg]
      rfl
    rw [this]
    rfl

/-! Instances. -/

/-- The parameters of section 5.3 of RFC 9106 (Argon2id with 32 blocks, four lanes and three passes) are of those for which the tag is that of the RFC. -/
example : Valid ⟨4, 32, 32, 3, 2, List.replicate 32 1, List.replicate 16 2, List.replicate 8 3, List.replicate 12 4⟩ ∧
    Same ⟨4, 32, 32, 3, 2, List.replicate 32 1, List.replicate 16 2, List.replicate 8 3, List.replicate 12 4⟩ :=
  ⟨by constructor <;> decide, by constructor <;> decide⟩

/-- Argon2d with 64 MiB, four lanes and three passes. -/
example : Valid ⟨4, 32, 2 ^ 16, 3, 0, [1], List.replicate 16 2, [], []⟩ := by constructor <;> decide

/-- Argon2d with 24 blocks, one lane and two passes: 24 does not divide 2^64. -/
example : Valid ⟨1, 32, 24, 2, 0, [1], List.replicate 16 2, [], []⟩ ∧ ¬ (⟨1, 32, 24, 2, 0, [1], List.replicate 16 2, [], []⟩ : Params).q ∣ 2 ^ 64 :=
  ⟨by constructor <;> decide, by decide⟩

example : Valid witness := by constructor <;> decide

example : checks [1] [2] [] [] 0 32 16 1 = true ∧ checks [1] [2] [] [] 1 32 0 1 = true := by decide

/-- The size of a tag that is not defined. -/
example : Valid ⟨1, 65, 8, 1, 1, [1], [2], [], []⟩ := by constructor <;> decide

end Kryptos.Argon2
