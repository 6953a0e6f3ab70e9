import Verif.Props.EcUniform
import Mathlib.Data.Set.Card
import Mathlib.Data.Fintype.BigOperators
/-
  How many secrets on curves there are (C129): with digits of 64 bits only about the square root of the order.
-/
namespace Kryptos.Ecdh
open Mp Spec.Mp

variable {w : Nat}

theorem draw_count (m : BitVec w) (small : Num w → Bool) (q : Num w) (n : Nat) :
    {s : Num w | ∃ rnd fuel, draw rnd m small q n fuel 0 = some s}.Finite ∧
    {s : Num w | ∃ rnd fuel, draw rnd m small q n fuel 0 = some s}.ncard ≤ 2 ^ (32 * n) := by
  let F : (Fin n → Fin (2 ^ 32)) → Num w := fun f => ⟨List.ofFn fun i => BitVec.ofNat w (f i).val, false⟩
  have hsub : {s : Num w | ∃ rnd fuel, draw rnd m small q n fuel 0 = some s} ⊆ F '' Set.univ := by
    rintro s ⟨rnd, fuel, h⟩
    obtain ⟨j, -, h2, -, -⟩ := (draw_iff rnd m small q n s fuel 0).1 h
    have hl : (digits rnd m (0 + j * (4 * n)) n).length = n := by simp [digits]
    refine ⟨fun i => ⟨((digits rnd m (0 + j * (4 * n)) n)[i.val]'(by rw [hl]; exact i.isLt)).toNat,
      digits_small rnd m _ n _ (List.getElem_mem _)⟩, Set.mem_univ _, ?_⟩
    rw [h2]
    simp only [F, Num.mk.injEq, and_true, BitVec.ofNat_toNat, BitVec.setWidth_eq]
    apply List.ext_getElem
    · rw [List.length_ofFn, hl]
    · intro i h1 h3
      rw [List.getElem_ofFn]
  have hfin : (F '' Set.univ).Finite := Set.Finite.image _ Set.finite_univ
  refine ⟨hfin.subset hsub, le_trans (Set.ncard_le_ncard hsub hfin) (le_trans (Set.ncard_image_le Set.finite_univ) ?_)⟩
  rw [Set.ncard_univ, Nat.card_eq_fintype_card, Fintype.card_fun, Fintype.card_fin, Fintype.card_fin, ← pow_mul]

/-- C129 is violated for ECDSA: there are at most 2^32 private numbers for each digit, whatever the size of a digit. -/
theorem secretD_count (q : Num w) (bits : Nat) : {s : Num w | ∃ rnd fuel, getRandomD rnd fuel q bits = .ok (some s)}.Finite ∧
    {s : Num w | ∃ rnd fuel, getRandomD rnd fuel q bits = .ok (some s)}.ncard ≤ 2 ^ (32 * secretDigits w bits q.data.length) := by
  cases hm : mask w bits with
  | ub =>
    have : {s : Num w | ∃ rnd fuel, getRandomD rnd fuel q bits = .ok (some s)} = ∅ := by
      ext s
      simp only [Set.mem_ofPred_eq, Set.mem_empty_iff_false, iff_false]
      rintro ⟨r, f, h⟩
      rw [getRandomD, hm] at h
      cases h
    rw [this]
    simp
  | ok m =>
    have hd : ∀ rnd f, getRandomD rnd f q bits = .ok (draw rnd m isZero q (secretDigits w bits q.data.length) f 0) := by
      intro rnd f; rw [getRandomD, hm]; rfl
    simp only [hd, Out.ok.injEq]
    exact draw_count m _ q _

/-- The same for the secrets of ECDH. -/
theorem secretK_count (q : Num w) (bits : Nat) : {s : Num w | ∃ rnd fuel, getRandomK rnd fuel q bits = .ok (some s)}.Finite ∧
    {s : Num w | ∃ rnd fuel, getRandomK rnd fuel q bits = .ok (some s)}.ncard ≤ 2 ^ (32 * secretDigits w bits q.data.length) := by
  cases hm : mask w bits with
  | ub =>
    have : {s : Num w | ∃ rnd fuel, getRandomK rnd fuel q bits = .ok (some s)} = ∅ := by
      ext s
      simp only [Set.mem_ofPred_eq, Set.mem_empty_iff_false, iff_false]
      rintro ⟨r, f, h⟩
      rw [getRandomK, hm] at h
      cases h
    rw [this]
    simp
  | ok m =>
    have hd : ∀ rnd f, getRandomK rnd f q bits = .ok (draw rnd m (fun k => lt k two) q (secretDigits w bits q.data.length) f 0) := by
      intro rnd f; rw [getRandomK, hm]; rfl
    simp only [hd, Out.ok.injEq]
    exact draw_count m _ q _

/-- With digits of 64 bits, an order of `n` digits with a highest digit that is not zero, and as many bits as it has: the square of the
number of private numbers is at most 2^64 times the order. -/
theorem secretD_sqrt {q : Num 64} {Q : Nat} (hq : Is q Q) (hs : sig q.data = q.data.length) (bits : Nat) (hb : bits ≤ 64 * q.data.length) :
    {s : Num 64 | ∃ rnd fuel, getRandomD rnd fuel q bits = .ok (some s)}.ncard ^ 2 ≤ 2 ^ 64 * Q := by
  have h1 := (secretD_count q bits).2
  have hp := sig_pos_le q.data (by rw [hs]; exact hq.1)
  rw [hs, hq.2.2] at hp
  have hl := hq.1
  have hn : secretDigits 64 bits q.data.length ≤ q.data.length := by
    rw [secretDigits, newSize]
    split
    · rename_i hc; rcases hc with hc | hc <;> omega
    · omega
  calc _ ≤ (2 ^ (32 * secretDigits 64 bits q.data.length)) ^ 2 := Nat.pow_le_pow_left h1 2
    _ = 2 ^ (64 * secretDigits 64 bits q.data.length) := by rw [← pow_mul]; congr 1; ring
    _ ≤ 2 ^ (64 + 64 * (q.data.length - 1)) := Nat.pow_le_pow_right (by decide) (by omega)
    _ ≤ 2 ^ 64 * Q := by rw [pow_add]; exact Nat.mul_le_mul_left _ hp

/-- The same for the secrets of ECDH. -/
theorem secretK_sqrt {q : Num 64} {Q : Nat} (hq : Is q Q) (hs : sig q.data = q.data.length) (bits : Nat) (hb : bits ≤ 64 * q.data.length) :
    {s : Num 64 | ∃ rnd fuel, getRandomK rnd fuel q bits = .ok (some s)}.ncard ^ 2 ≤ 2 ^ 64 * Q := by
  have h1 := (secretK_count q bits).2
  have hp := sig_pos_le q.data (by rw [hs]; exact hq.1)
  rw [hs, hq.2.2] at hp
  have hl := hq.1
  have hn : secretDigits 64 bits q.data.length ≤ q.data.length := by
    rw [secretDigits, newSize]
    split
    · rename_i hc; rcases hc with hc | hc <;> omega
    · omega
  calc _ ≤ (2 ^ (32 * secretDigits 64 bits q.data.length)) ^ 2 := Nat.pow_le_pow_left h1 2
    _ = 2 ^ (64 * secretDigits 64 bits q.data.length) := by rw [← pow_mul]; congr 1; ring
    _ ≤ 2 ^ (64 + 64 * (q.data.length - 1)) := Nat.pow_le_pow_right (by decide) (by omega)
    _ ≤ 2 ^ 64 * Q := by rw [pow_add]; exact Nat.mul_le_mul_left _ hp

/-- An order of two digits. -/
example : {s : Num 64 | ∃ rnd fuel, getRandomD rnd fuel (⟨[1, 3], false⟩ : Num 64) 128 = .ok (some s)}.ncard ^ 2 ≤ 2 ^ 64 * (1 + 2 ^ 64 * 3) :=
  secretD_sqrt (Q := 1 + 2 ^ 64 * 3) ⟨by decide, rfl, by decide +kernel⟩ (by decide) 128 (by decide)

example : {s : Num 64 | ∃ rnd fuel, getRandomK rnd fuel (⟨[1, 3], false⟩ : Num 64) 128 = .ok (some s)}.ncard ^ 2 ≤ 2 ^ 64 * (1 + 2 ^ 64 * 3) :=
  secretK_sqrt (Q := 1 + 2 ^ 64 * 3) ⟨by decide, rfl, by decide +kernel⟩ (by decide) 128 (by decide)

/-- An order of 256 bits: at most 2^128 private numbers. -/
example : {s : Num 64 | ∃ rnd fuel, getRandomD rnd fuel (⟨[1, 2, 3, 0xFFFFFFFFFFFFFFFF], false⟩ : Num 64) 256 = .ok (some s)}.ncard ≤ 2 ^ 128 :=
  (secretD_count _ 256).2

/-- **C129**, the part that holds, for ECDSA with digits of 32 bits, at least as many bits as a digit and enough digits: the number of
private numbers is the order less one. -/
theorem secretD_count_partial (bits : Nat) (hb : 32 ≤ bits) {q : Num 32} {Q : Nat} (hq : Is q Q)
    (hs : Q ≤ 2 ^ (32 * secretDigits 32 bits q.data.length)) :
    {s : Num 32 | ∃ rnd fuel, getRandomD rnd fuel q bits = .ok (some s)}.ncard = Q - 1 := by
  have hm : mask 32 bits = .ok (0xFFFFFFFF#32) := by
    rw [mask, if_neg (by omega)]; rfl
  have key : ∀ s : Num 32, (∃ rnd fuel, getRandomD rnd fuel q bits = .ok (some s)) →
      s.data.length = secretDigits 32 bits q.data.length ∧ s.neg = false ∧ 1 ≤ val s.data ∧ val s.data < Q := by
    rintro s ⟨rnd, fuel, h⟩
    rw [getRandomD, hm, Out.bind_ok] at h
    obtain ⟨j, -, h2, h3, -⟩ := (draw_iff rnd _ isZero q _ s fuel 0).1 (Out.ok.inj h)
    have hl : s.data.length = secretDigits 32 bits q.data.length := by rw [h2]; simp [digits]
    have hi : Is s (val s.data) := ⟨by rw [hl]; exact secretDigits_pos (by omega) _ _, by rw [h2], rfl⟩
    rw [hi.isZero, hi.ge hq, Bool.or_eq_false_iff, decide_eq_false_iff_not, decide_eq_false_iff_not] at h3
    exact ⟨hl, hi.2.1, by omega, by omega⟩
  have hinj : Set.InjOn (fun s : Num 32 => val s.data) {s : Num 32 | ∃ rnd fuel, getRandomD rnd fuel q bits = .ok (some s)} := by
    intro a ha b hb' he
    obtain ⟨a1, a2, -⟩ := key a ha
    obtain ⟨b1, b2, -⟩ := key b hb'
    have hd := (val_inj a.data b.data (by rw [a1, b1])).1 he
    cases a; cases b
    simp_all
  have himg : (fun s : Num 32 => val s.data) '' {s : Num 32 | ∃ rnd fuel, getRandomD rnd fuel q bits = .ok (some s)} =
      ((Finset.Ico 1 Q : Finset Nat) : Set Nat) := by
    ext N
    rw [Finset.mem_coe, Finset.mem_Ico]
    constructor
    · rintro ⟨s, h, rfl⟩
      exact (key s h).2.2
    · rintro ⟨h1, h2⟩
      obtain ⟨rnd, k, hk, hi⟩ := (secrets_all_partial bits hb hq hs N h2).2 h1
      exact ⟨k, ⟨rnd, 1, hk⟩, hi.2.2⟩
  rw [← Set.InjOn.ncard_image hinj, himg, Set.ncard_coe_finset, Nat.card_Ico]

/-- The same for ECDH: the order less two. -/
theorem secretK_count_partial (bits : Nat) (hb : 32 ≤ bits) {q : Num 32} {Q : Nat} (hq : Is q Q)
    (hs : Q ≤ 2 ^ (32 * secretDigits 32 bits q.data.length)) :
    {s : Num 32 | ∃ rnd fuel, getRandomK rnd fuel q bits = .ok (some s)}.ncard = Q - 2 := by
  have hm : mask 32 bits = .ok (0xFFFFFFFF#32) := by
    rw [mask, if_neg (by omega)]; rfl
  have key : ∀ s : Num 32, (∃ rnd fuel, getRandomK rnd fuel q bits = .ok (some s)) →
      s.data.length = secretDigits 32 bits q.data.length ∧ s.neg = false ∧ 2 ≤ val s.data ∧ val s.data < Q := by
    rintro s ⟨rnd, fuel, h⟩
    rw [getRandomK, hm, Out.bind_ok] at h
    obtain ⟨j, -, h2, h3, -⟩ := (draw_iff rnd _ (fun k => lt k two) q _ s fuel 0).1 (Out.ok.inj h)
    have hl : s.data.length = secretDigits 32 bits q.data.length := by rw [h2]; simp [digits]
    have hi : Is s (val s.data) := ⟨by rw [hl]; exact secretDigits_pos (by omega) _ _, by rw [h2], rfl⟩
    rw [hi.lt (is_two (by omega)), hi.ge hq, Bool.or_eq_false_iff, decide_eq_false_iff_not, decide_eq_false_iff_not] at h3
    exact ⟨hl, hi.2.1, by omega, by omega⟩
  have hinj : Set.InjOn (fun s : Num 32 => val s.data) {s : Num 32 | ∃ rnd fuel, getRandomK rnd fuel q bits = .ok (some s)} := by
    intro a ha b hb' he
    obtain ⟨a1, a2, -⟩ := key a ha
    obtain ⟨b1, b2, -⟩ := key b hb'
    have hd := (val_inj a.data b.data (by rw [a1, b1])).1 he
    cases a; cases b
    simp_all
  have himg : (fun s : Num 32 => val s.data) '' {s : Num 32 | ∃ rnd fuel, getRandomK rnd fuel q bits = .ok (some s)} =
      ((Finset.Ico 2 Q : Finset Nat) : Set Nat) := by
    ext N
    rw [Finset.mem_coe, Finset.mem_Ico]
    constructor
    · rintro ⟨s, h, rfl⟩
      exact (key s h).2.2
    · rintro ⟨h1, h2⟩
      obtain ⟨rnd, k, hk, hi⟩ := (secrets_all_partial bits hb hq hs N h2).1 h1
      exact ⟨k, ⟨rnd, 1, hk⟩, hi.2.2⟩
  rw [← Set.InjOn.ncard_image hinj, himg, Set.ncard_coe_finset, Nat.card_Ico]

/-- The order 2^32 + 1 with digits of 32 bits: 2^32 - 1 secrets of ECDH and 2^32 private numbers of ECDSA. -/
example : {s : Num 32 | ∃ rnd fuel, getRandomK rnd fuel (⟨[1, 1], false⟩ : Num 32) 64 = .ok (some s)}.ncard = 2 ^ 32 - 1 :=
  secretK_count_partial 64 (by decide) (Q := 2 ^ 32 + 1) ⟨by decide, rfl, by decide +kernel⟩ (by decide +kernel)

example : {s : Num 32 | ∃ rnd fuel, getRandomD rnd fuel (⟨[1, 1], false⟩ : Num 32) 64 = .ok (some s)}.ncard = 2 ^ 32 :=
  secretD_count_partial 64 (by decide) (Q := 2 ^ 32 + 1) ⟨by decide, rfl, by decide +kernel⟩ (by decide +kernel)

end Kryptos.Ecdh
