import Verif.Props.DrawUniform
import Verif.Props.Ecdh
/-
  The secrets of ECDH and the private numbers and nonces of ECDSA: those that can be drawn at all are equally likely (C126).
-/
namespace Kryptos.Ecdh
open Mp Spec.Mp

variable {w : Nat}

theorem word_xor (a b : Nat → Byte) (i : Nat) : word (fun t => a t ^^^ b t) i = word a i ^^^ word b i := by
  apply BitVec.eq_of_getLsbD_eq
  intro t ht
  simp only [word, BitVec.getLsbD_or, BitVec.getLsbD_xor, BitVec.getLsbD_shiftLeft, BitVec.getLsbD_setWidth, ht, decide_true, Bool.true_and]
  have hz : ∀ (x : Byte) (n : Nat), 8 ≤ n → x.getLsbD n = false := fun x n h => BitVec.getLsbD_of_ge _ _ h
  by_cases h8 : t < 8
  · simp [h8, show t < 16 by omega, show t < 24 by omega]
  · by_cases h16 : t < 16
    · simp [h8, h16, show t < 24 by omega, show t - 8 < 32 by omega, hz _ t (by omega)]
    · by_cases h24 : t < 24
      · simp [h8, h16, h24, show t - 8 < 32 by omega, show t - 16 < 32 by omega, hz _ t (by omega), hz _ (t - 8) (by omega)]
      · simp [h8, h16, h24, show t - 8 < 32 by omega, show t - 16 < 32 by omega, show t - 24 < 32 by omega, hz _ t (by omega),
          hz _ (t - 8) (by omega), hz _ (t - 16) (by omega)]

theorem digits_xor (m : BitVec w) (a b : Nat → Byte) (i n : Nat) :
    digits (fun t => a t ^^^ b t) m i n = xorD (digits a m i n) (digits b m i n) := by
  rw [xorD, digits, digits, digits, List.zipWith_map, List.zipWith_self]
  apply List.map_congr_left
  intro d _
  rw [word_xor]
  apply BitVec.eq_of_getLsbD_eq
  intro t ht
  simp only [BitVec.getLsbD_and, BitVec.getLsbD_xor, BitVec.getLsbD_setWidth, ht, decide_true, Bool.true_and]
  cases (word a (i + 4 * d)).getLsbD t <;> cases (word b (i + 4 * d)).getLsbD t <;> cases m.getLsbD t <;> rfl

theorem digits_congr (m : BitVec w) (a b : Nat → Byte) (i i' n : Nat) (h : ∀ t, t < 4 * n → a (i + t) = b (i' + t)) :
    digits a m i n = digits b m i' n := by
  rw [digits, digits]
  apply List.map_congr_left
  intro d hd
  have hd := List.mem_range.1 hd
  have e : ∀ c, c < 4 → a (i + 4 * d + c) = b (i' + 4 * d + c) := by
    intro c hc
    rw [Nat.add_assoc, Nat.add_assoc]
    exact h _ (by omega)
  have e0 := e 0 (by decide)
  simp only [Nat.add_zero] at e0
  simp only [word, e0, e 1 (by decide), e 2 (by decide), e 3 (by decide)]

/-- The loop ends with the first number that is in the range. -/
theorem draw_iff (rnd : Nat → Byte) (m : BitVec w) (small : Num w → Bool) (q : Num w) (n : Nat) (s : Num w) :
    ∀ f i, draw rnd m small q n f i = some s ↔ ∃ j, j < f ∧ s = ⟨digits rnd m (i + j * (4 * n)) n, false⟩ ∧ (small s || ge s q) = false ∧
      ∀ l, l < j → (small (⟨digits rnd m (i + l * (4 * n)) n, false⟩ : Num w) || ge (⟨digits rnd m (i + l * (4 * n)) n, false⟩ : Num w) q) = true := by
  intro f
  induction f with
  | zero => intro i; simp [draw]
  | succ f ih =>
    intro i
    have hs : ∀ j, i + 4 * n + j * (4 * n) = i + (j + 1) * (4 * n) := by intro j; ring
    simp only [draw]
    split
    · rename_i hc
      rw [ih]
      constructor
      · rintro ⟨j, h1, h2, h3, h4⟩
        refine ⟨j + 1, by omega, by rw [← hs]; exact h2, h3, fun l hl => ?_⟩
        cases l with
        | zero => simpa using hc
        | succ l => rw [← hs]; exact h4 l (by omega)
      · rintro ⟨j, h1, h2, h3, h4⟩
        cases j with
        | zero =>
          rw [Nat.zero_mul, Nat.add_zero] at h2
          rw [h2, hc] at h3
          simp at h3
        | succ j =>
          refine ⟨j, by omega, by rw [hs]; exact h2, h3, fun l hl => ?_⟩
          rw [hs]
          exact h4 (l + 1) (by omega)
    · rename_i hc
      rw [Option.some.injEq]
      constructor
      · rintro rfl
        exact ⟨0, by omega, by simp, by simpa using hc, fun l hl => by omega⟩
      · rintro ⟨j, -, h2, -, h4⟩
        cases j with
        | zero => rw [h2]; simp
        | succ j =>
          have := h4 0 (by omega)
          rw [Nat.zero_mul, Nat.add_zero] at this
          exact absurd this hc

/-- C126, for every mask, every lower end and every number of digits. -/
theorem draw_uniform (m : BitVec w) (small : Num w → Bool) (q : Num w) (n : Nat) {s s' : Num w}
    (hs : ∃ rnd fuel, draw rnd m small q n fuel 0 = some s) (hs' : ∃ rnd fuel, draw rnd m small q n fuel 0 = some s') (j : Nat) :
    ∃ δ : Nat → Byte, ∀ rnd : Nat → Byte, (draw rnd m small q n (j + 1) 0 = some s ∧ draw rnd m small q n j 0 = none) ↔
      (draw (fun i => rnd i ^^^ δ i) m small q n (j + 1) 0 = some s' ∧ draw (fun i => rnd i ^^^ δ i) m small q n j 0 = none) := by
  have hat : ∀ (rnd : Nat → Byte) (z : Num w), (small z || ge z q) = false →
      ((draw rnd m small q n (j + 1) 0 = some z ∧ draw rnd m small q n j 0 = none) ↔ z = ⟨digits rnd m (j * (4 * n)) n, false⟩ ∧
        ∀ l, l < j → (small (⟨digits rnd m (l * (4 * n)) n, false⟩ : Num w) || ge (⟨digits rnd m (l * (4 * n)) n, false⟩ : Num w) q) = true) := by
    intro rnd z hz
    rw [draw_iff]
    simp only [Nat.zero_add]
    constructor
    · rintro ⟨⟨i, h1, h2, h3, h4⟩, h5⟩
      have : i = j := by
        by_contra hc
        have := (draw_iff rnd m small q n z j 0).2 ⟨i, by omega, by simpa using h2, h3, by simpa using h4⟩
        rw [h5] at this
        simp at this
      subst this
      exact ⟨h2, h4⟩
    · rintro ⟨h2, h4⟩
      refine ⟨⟨j, by omega, h2, hz, h4⟩, ?_⟩
      cases ho : draw rnd m small q n j 0 with
      | none => rfl
      | some y =>
        obtain ⟨i, i1, i2, i3, -⟩ := (draw_iff rnd m small q n y j 0).1 ho
        have := h4 i i1
        rw [Nat.zero_add] at i2
        rw [← i2, i3] at this
        simp at this
  obtain ⟨r0, f0, e0⟩ := hs
  obtain ⟨r1, f1, e1⟩ := hs'
  obtain ⟨a, -, a2, a3, -⟩ := (draw_iff r0 m small q n s f0 0).1 e0
  obtain ⟨b, -, b2, b3, -⟩ := (draw_iff r1 m small q n s' f1 0).1 e1
  have hlen : ∀ rnd i, (digits rnd m i n).length = n := by intro rnd i; simp [digits]
  obtain ⟨u, hu⟩ : ∃ u, digits u m 0 n = s.data :=
    ⟨fun t => r0 (0 + a * (4 * n) + t), by rw [a2]; exact digits_congr _ _ _ _ _ _ fun t _ => by rw [Nat.zero_add t]⟩
  obtain ⟨v, hv⟩ : ∃ v, digits v m 0 n = s'.data :=
    ⟨fun t => r1 (0 + b * (4 * n) + t), by rw [b2]; exact digits_congr _ _ _ _ _ _ fun t _ => by rw [Nat.zero_add t]⟩
  obtain ⟨δ, hδ1, hδ2⟩ : ∃ δ : Nat → Byte, (∀ i, i < j * (4 * n) → δ i = 0#8) ∧ ∀ t, δ (j * (4 * n) + t) = u t ^^^ v t :=
    ⟨fun i => if i < j * (4 * n) then 0#8 else u (i - j * (4 * n)) ^^^ v (i - j * (4 * n)), fun i hi => if_pos hi, fun t => by
      simp only [Nat.add_sub_cancel_left]
      exact if_neg (by omega)⟩
  refine ⟨δ, fun rnd => ?_⟩
  rw [hat rnd s a3, hat _ s' b3]
  have hlow : ∀ l, l < j → digits (fun i => rnd i ^^^ δ i) m (l * (4 * n)) n = digits rnd m (l * (4 * n)) n := by
    intro l hlj
    apply digits_congr
    intro t ht
    have h3 : (l + 1) * (4 * n) ≤ j * (4 * n) := Nat.mul_le_mul_right _ hlj
    have h4 : (l + 1) * (4 * n) = l * (4 * n) + 4 * n := by ring
    rw [hδ1 _ (by omega), BitVec.xor_zero]
  have hj : digits (fun i => rnd i ^^^ δ i) m (j * (4 * n)) n = xorD (digits rnd m (j * (4 * n)) n) (xorD s.data s'.data) := by
    rw [← hu, ← hv, ← digits_xor m u v, digits_xor m rnd δ]
    refine congrArg (xorD _) (digits_congr _ _ _ _ _ _ fun t _ => ?_)
    rw [hδ2, Nat.zero_add]
  have h1 : s.data.length = n := by rw [a2]; exact hlen _ _
  have h1' : s'.data.length = n := by rw [b2]; exact hlen _ _
  have n1 : s.neg = false := by rw [a2]
  have n2 : s'.neg = false := by rw [b2]
  have hss : (xorD s.data s'.data).length = n := by rw [xorD_length _ _ (by omega), h1']
  rw [hj]
  clear hat a2 b2 a3 b3 e0 e1 hj hu hv hδ2
  obtain ⟨sd, sn⟩ := s
  obtain ⟨sd', sn'⟩ := s'
  simp only at n1 n2 h1 h1' hss
  subst n1 n2
  simp only [Num.mk.injEq, and_true]
  refine and_congr ⟨fun h => ?_, fun h => ?_⟩ ⟨fun h l hlj => ?_, fun h l hlj => ?_⟩
  · rw [← h, xorD_cancel_left _ _ (by omega)]
  · have e := congrArg (fun z => xorD z (xorD sd sd')) h
    rw [xorD_cancel _ _ (by rw [hlen, hss])] at e
    rw [← e]
    have hc : xorD sd sd' = xorD sd' sd := by
      simp only [xorD]; exact List.zipWith_comm_of_comm (fun x y => BitVec.xor_comm x y)
    rw [hc, xorD_cancel_left sd' sd (by omega)]
  · rw [hlow l hlj]; exact h l hlj
  · have := h l hlj
    rwa [hlow l hlj] at this

/-- C126 for the secrets of ECDH. -/
theorem secretK_uniform (q : Num w) (bits : Nat) {s s' : Num w} (hs : ∃ rnd fuel, getRandomK rnd fuel q bits = .ok (some s))
    (hs' : ∃ rnd fuel, getRandomK rnd fuel q bits = .ok (some s')) (j : Nat) : ∃ δ : Nat → Byte, ∀ rnd : Nat → Byte,
      (getRandomK rnd (j + 1) q bits = .ok (some s) ∧ getRandomK rnd j q bits = .ok none) ↔
      (getRandomK (fun i => rnd i ^^^ δ i) (j + 1) q bits = .ok (some s') ∧ getRandomK (fun i => rnd i ^^^ δ i) j q bits = .ok none) := by
  cases hm : mask w bits with
  | ub => obtain ⟨r, f, h⟩ := hs; rw [getRandomK, hm] at h; cases h
  | ok m =>
    have hd : ∀ rnd f, getRandomK rnd f q bits = .ok (draw rnd m (fun k => lt k two) q (secretDigits w bits q.data.length) f 0) := by
      intro rnd f; rw [getRandomK, hm]; rfl
    simp only [hd, Out.ok.injEq] at hs hs' ⊢
    exact draw_uniform m _ q _ hs hs' j

/-- C126 for the private numbers and the nonces of ECDSA. -/
theorem secretD_uniform (q : Num w) (bits : Nat) {s s' : Num w} (hs : ∃ rnd fuel, getRandomD rnd fuel q bits = .ok (some s))
    (hs' : ∃ rnd fuel, getRandomD rnd fuel q bits = .ok (some s')) (j : Nat) : ∃ δ : Nat → Byte, ∀ rnd : Nat → Byte,
      (getRandomD rnd (j + 1) q bits = .ok (some s) ∧ getRandomD rnd j q bits = .ok none) ↔
      (getRandomD (fun i => rnd i ^^^ δ i) (j + 1) q bits = .ok (some s') ∧ getRandomD (fun i => rnd i ^^^ δ i) j q bits = .ok none) := by
  cases hm : mask w bits with
  | ub => obtain ⟨r, f, h⟩ := hs; rw [getRandomD, hm] at h; cases h
  | ok m =>
    have hd : ∀ rnd f, getRandomD rnd f q bits = .ok (draw rnd m isZero q (secretDigits w bits q.data.length) f 0) := by
      intro rnd f; rw [getRandomD, hm]; rfl
    simp only [hd, Out.ok.injEq] at hs hs' ⊢
    exact draw_uniform m _ q _ hs hs' j

/-- With digits of 32 bits and enough of them, the first pass gives every number from 1 up to the order with the same number of
sources: the private numbers of ECDSA have no bias. -/
theorem secretD_full_partial (bits : Nat) (hb : 32 ≤ bits) {q : Num 32} {Q : Nat} (hq : Is q Q)
    (hs : Q ≤ 2 ^ (32 * secretDigits 32 bits q.data.length)) (N N' : Nat) (h1 : 1 ≤ N) (hN : N < Q) (h1' : 1 ≤ N') (hN' : N' < Q) (j : Nat) :
    ∃ s s' : Num 32, Is s N ∧ Is s' N' ∧ ∃ δ : Nat → Byte, ∀ rnd : Nat → Byte,
      (getRandomD rnd (j + 1) q bits = .ok (some s) ∧ getRandomD rnd j q bits = .ok none) ↔
      (getRandomD (fun i => rnd i ^^^ δ i) (j + 1) q bits = .ok (some s') ∧ getRandomD (fun i => rnd i ^^^ δ i) j q bits = .ok none) := by
  obtain ⟨r, s, e1, e2⟩ := (secrets_all_partial bits hb hq hs N hN).2 h1
  obtain ⟨r', s', e1', e2'⟩ := (secrets_all_partial bits hb hq hs N' hN').2 h1'
  exact ⟨s, s', e2, e2', secretD_uniform q bits ⟨r, 1, e1⟩ ⟨r', 1, e1'⟩ j⟩

/-- The order 2^32 + 1, with the numbers 1 and 2^32, in the fourth pass. -/
example : ∃ s s' : Num 32, Is s 1 ∧ Is s' (2 ^ 32) ∧ ∃ δ : Nat → Byte, ∀ rnd : Nat → Byte,
    (getRandomD rnd 4 (⟨[1, 1], false⟩ : Num 32) 64 = .ok (some s) ∧ getRandomD rnd 3 (⟨[1, 1], false⟩ : Num 32) 64 = .ok none) ↔
    (getRandomD (fun i => rnd i ^^^ δ i) 4 (⟨[1, 1], false⟩ : Num 32) 64 = .ok (some s') ∧
      getRandomD (fun i => rnd i ^^^ δ i) 3 (⟨[1, 1], false⟩ : Num 32) 64 = .ok none) :=
  secretD_full_partial 64 (by decide) (Q := 2 ^ 32 + 1) ⟨by decide, rfl, by decide +kernel⟩ (by decide +kernel) 1 (2 ^ 32) (by decide)
    (by decide) (by decide) (by decide) 3

end Kryptos.Ecdh
