import Verif.Props.DrawUniform
/-
  How often the loop of DSA and ElGamal has to be repeated (C127): changing one fixed bit of the random bytes of a pass turns every
  number above the range into one that is not above it, so that at most half of the sources fail in this way.
-/
namespace Kryptos.Dl
open Mp Spec.Mp

variable {w : Nat}

theorem mask_toNat (x : BitVec w) (hx : x.toNat ≠ 0) : (BitVec.allOnes w >>> (w - 1 - Nat.log2 x.toNat)).toNat = 2 ^ (Nat.log2 x.toNat + 1) - 1 := by
  have hlog : Nat.log2 x.toNat < w := (Nat.log2_lt hx).2 x.isLt
  rw [BitVec.toNat_ushiftRight, BitVec.toNat_allOnes, Nat.shiftRight_eq_div_pow]
  have hp : (2 : Nat) ^ w = 2 ^ (Nat.log2 x.toNat + 1) * 2 ^ (w - 1 - Nat.log2 x.toNat) := by rw [← pow_add]; congr 1; omega
  have h1 := Nat.two_pow_pos (Nat.log2 x.toNat + 1)
  have h2 := Nat.two_pow_pos (w - 1 - Nat.log2 x.toNat)
  rw [hp]
  generalize 2 ^ (Nat.log2 x.toNat + 1) = A at *
  generalize 2 ^ (w - 1 - Nat.log2 x.toNat) = B at *
  obtain ⟨a, rfl⟩ : ∃ a, A = a + 1 := ⟨A - 1, by omega⟩
  rw [Nat.add_sub_cancel, Nat.div_eq_iff h2, Nat.succ_mul]
  omega

theorem xorD_append (a b : Digits w) (x y : BitVec w) (h : a.length = b.length) : xorD (a ++ [x]) (b ++ [y]) = xorD a b ++ [x ^^^ y] := by
  simp only [xorD, List.zipWith_append h, List.zipWith_cons_cons, List.zipWith_nil_left]

theorem xorD_zero : ∀ a : Digits w, xorD a (List.replicate a.length 0) = a
  | [] => rfl
  | x :: a => by
    have := xorD_zero a
    simp only [xorD, List.length_cons, List.replicate_succ, List.zipWith_cons_cons] at this ⊢
    rw [this]
    congr 1
    exact BitVec.xor_zero

/-- A number with the mask applied that is greater than `d` falls below `d` when the highest bit of the mask is changed. -/
theorem flip_top (l : Digits w) (x : BitVec w) (hx : x.toNat ≠ 0) (r : Digits w) (hr : r.length = l.length + 1)
    (hgt : val (l ++ [x]) < val (andLast (BitVec.allOnes w >>> (w - 1 - Nat.log2 x.toNat)) r)) :
    val (andLast (BitVec.allOnes w >>> (w - 1 - Nat.log2 x.toNat))
      (xorD r (List.replicate l.length 0 ++ [BitVec.ofNat w (2 ^ Nat.log2 x.toNat)]))) < val (l ++ [x]) := by
  obtain ⟨k, z, rfl⟩ : ∃ k z, r = k ++ [z] :=
    ⟨r.dropLast, r.getLast (List.length_pos_iff.1 (by omega)), (List.dropLast_append_getLast _).symm⟩
  simp only [List.length_append, List.length_singleton, Nat.add_right_cancel_iff] at hr
  have hlog : Nat.log2 x.toNat < w := (Nat.log2_lt hx).2 x.isLt
  have hlo : 2 ^ Nat.log2 x.toNat ≤ x.toNat := Nat.log2_self_le hx
  rw [← hr, xorD_append _ _ _ _ (by simp), xorD_zero, andLast_append]
  rw [andLast_append] at hgt
  set m := BitVec.allOnes w >>> (w - 1 - Nat.log2 x.toNat) with hm
  rw [val_append, val_append] at hgt ⊢
  rw [hr] at hgt ⊢
  simp only [val, Nat.mul_zero, Nat.add_zero] at hgt ⊢
  have hk := val_lt k
  rw [hr] at hk
  have hl := val_lt l
  have hB := Nat.two_pow_pos (w * l.length)
  have hm2 : m.toNat = 2 ^ (Nat.log2 x.toNat + 1) - 1 := mask_toNat x hx
  -- the masked digit is at least `x`
  have hzx : x.toNat ≤ (z &&& m).toNat := by
    by_contra hc
    have := Nat.mul_le_mul_left (2 ^ (w * l.length)) (show (z &&& m).toNat + 1 ≤ x.toNat by omega)
    rw [Nat.mul_add, Nat.mul_one] at this
    omega
  -- and the other one is below the highest bit
  have hsm : ((z ^^^ BitVec.ofNat w (2 ^ Nat.log2 x.toNat)) &&& m).toNat < 2 ^ Nat.log2 x.toNat := by
    have hzb : z.toNat.testBit (Nat.log2 x.toNat) = true := by
      rw [BitVec.toNat_and, hm2, Nat.and_two_pow_sub_one_eq_mod, Nat.mod_pow_succ] at hzx
      rw [Nat.testBit_eq_decide_div_mod_eq, decide_eq_true_eq]
      by_contra hc
      have h1 := Nat.mod_lt z.toNat (Nat.two_pow_pos (Nat.log2 x.toNat))
      rw [show z.toNat / 2 ^ Nat.log2 x.toNat % 2 = 0 by omega] at hzx
      omega
    have hb : (z.toNat ^^^ 2 ^ Nat.log2 x.toNat).testBit (Nat.log2 x.toNat) = false := by
      rw [Nat.testBit_xor, hzb, Nat.testBit_two_pow_self]; rfl
    rw [Nat.testBit_eq_decide_div_mod_eq, decide_eq_false_iff_not] at hb
    rw [BitVec.toNat_and, hm2, Nat.and_two_pow_sub_one_eq_mod, BitVec.toNat_xor, BitVec.toNat_ofNat,
      Nat.mod_eq_of_lt (Nat.pow_lt_pow_right (by decide) hlog), Nat.mod_pow_succ,
      show (z.toNat ^^^ 2 ^ Nat.log2 x.toNat) / 2 ^ Nat.log2 x.toNat % 2 = 0 by omega, Nat.mul_zero, Nat.add_zero]
    exact Nat.mod_lt _ (Nat.two_pow_pos _)
  have h4 := Nat.mul_le_mul_left (2 ^ (w * l.length))
    (show ((z ^^^ BitVec.ofNat w (2 ^ Nat.log2 x.toNat)) &&& m).toNat + 1 ≤ x.toNat by omega)
  rw [Nat.mul_add, Nat.mul_one] at h4
  omega

/-- C127: when the order and the upper end of the range have the same number of digits, there is a fixed string that turns every source
for which a pass makes a number above the range (`cand`, see `drawLoop_iff`) into one for which it makes a number that is not above it,
so that at most half of the sources fail in this way.  The numbers below the range are 0 for DSA, and 0 and 1 for ElGamal. -/
theorem draw_half (k : Nat) (hk : 0 < k) {lo n : Num (8 * k)} {L N : Nat} (hl : Is lo L) (h0 : 0 < L) (hn : Is n N) (hLN : L < N)
    (hd : 2 ^ (8 * k * (n.data.length - 1)) ≤ N - L) : ∃ (hi : Num (8 * k)) (m : BitVec (8 * k)) (δ : Nat → Byte),
      sub (assign none n) lo = .ok hi ∧ topMask hi.data = .ok m ∧
      (∀ rnd fuel, draw rnd fuel lo n = drawLoop rnd m lo hi n.data.length fuel 0) ∧ Is hi (N - L) ∧
      ∀ rnd, N - L < val (cand rnd m n.data.length 0 0).data → val (cand (fun i => rnd i ^^^ δ i) m n.data.length 0 0).data < N - L := by
  obtain ⟨hi, e1, e2, e3⟩ := (hn.assignOpt (show 8 ≤ 8 * k by omega) none).subNorm (by omega) hl h0 hLN
  have hnp := hn.1
  have hip := e2.1
  have hlen : hi.data.length = n.data.length := by
    have u1 := val_lt hi.data
    have u2 := val_lt n.data
    have u3 := sig_pos_le hi.data (by rw [e3]; exact e2.1)
    rw [e3, e2.2.2] at u3
    rw [e2.2.2] at u1
    rw [hn.2.2] at u2
    have v1 := (Nat.pow_lt_pow_iff_right (by decide : 1 < 2)).1 (lt_of_le_of_lt hd u1)
    have v2 := (Nat.pow_lt_pow_iff_right (by decide : 1 < 2)).1 (lt_of_le_of_lt u3 (show N - L < 2 ^ (8 * k * n.data.length) by omega))
    have w1 := Nat.lt_of_mul_lt_mul_left v1
    have w2 := Nat.lt_of_mul_lt_mul_left v2
    omega
  obtain ⟨l, x, hlx⟩ : ∃ l x, hi.data = l ++ [x] :=
    ⟨hi.data.dropLast, hi.data.getLast (List.length_pos_iff.1 e2.1), (List.dropLast_append_getLast _).symm⟩
  have hll : l.length + 1 = n.data.length := by rw [← hlen, hlx]; simp
  have hx : x.toNat ≠ 0 := by
    intro hx
    have := sig_pos_le hi.data (by rw [e3]; exact e2.1)
    rw [e3, hlx, val_append] at this
    have hv := val_lt l
    simp [val, hx] at this
    omega
  have hm : topMask hi.data = .ok (BitVec.allOnes (8 * k) >>> (8 * k - 1 - Nat.log2 x.toNat)) := by
    rw [hlx, topMask, rd_eq_ok (by simp), Out.bind_ok]
    simp
    intro h
    exact hx (by rw [h]; simp)
  set m := BitVec.allOnes (8 * k) >>> (8 * k - 1 - Nat.log2 x.toNat) with hmd
  obtain ⟨δ, hδ⟩ := rand_covers k hk (n.data.length * (8 * k)) (List.replicate l.length 0 ++ [BitVec.ofNat (8 * k) (2 ^ Nat.log2 x.toNat)])
    (by rw [Nat.mul_div_cancel _ (by omega)]; simp; omega)
  have hr : ∀ r, rand (8 * k) r 0 (n.data.length * (8 * k)) = ⟨randDigits (8 * k) r 0 n.data.length, false⟩ := by
    intro r
    rw [rand, Nat.mul_div_cancel _ (by omega), newSize_mul (by omega), Nat.max_eq_left (by omega)]
  rw [hr, Num.mk.injEq] at hδ
  have hc : ∀ rnd, cand rnd m n.data.length 0 0 = ⟨andLast m (randDigits (8 * k) rnd 0 n.data.length), false⟩ := by
    intro rnd
    rw [cand, Nat.zero_mul, Nat.add_zero, hr]
  refine ⟨hi, m, δ, e1, hm, fun rnd f => by rw [draw, e1, Out.bind_ok, hm, Out.bind_ok], e2, fun rnd h => ?_⟩
  rw [hc] at h ⊢
  show val (andLast m _) < _
  rw [randDigits_xor, hδ.1, ← e2.2.2, hlx]
  refine flip_top l x hx _ (by simp [randDigits, hll]) ?_
  rw [← hlx, e2.2.2]
  exact h

/-- One pass in numbers: a source for which it fails is changed into one for which it does not fail, unless a number below the range
comes out. -/
theorem draw_half_pass (k : Nat) (hk : 0 < k) {lo n : Num (8 * k)} {L N : Nat} (hl : Is lo L) (h0 : 0 < L) (hn : Is n N) (hLN : L < N)
    (hd : 2 ^ (8 * k * (n.data.length - 1)) ≤ N - L) : ∃ (hi : Num (8 * k)) (m : BitVec (8 * k)) (δ : Nat → Byte),
      sub (assign none n) lo = .ok hi ∧ topMask hi.data = .ok m ∧ ∀ rnd, draw rnd 1 lo n = .ok none →
      (∃ s, draw (fun i => rnd i ^^^ δ i) 1 lo n = .ok (some s)) ∨ val (cand rnd m n.data.length 0 0).data < L ∨
      val (cand (fun i => rnd i ^^^ δ i) m n.data.length 0 0).data < L := by
  obtain ⟨hi, m, δ, g1, g2, h1, h2, h3⟩ := draw_half k hk hl h0 hn hLN hd
  refine ⟨hi, m, δ, g1, g2, fun rnd h => ?_⟩
  by_cases c1 : val (cand rnd m n.data.length 0 0).data < L
  · exact .inr (.inl c1)
  by_cases c2 : val (cand (fun i => rnd i ^^^ δ i) m n.data.length 0 0).data < L
  · exact .inr (.inr c2)
  left
  have h4 : N - L < val (cand rnd m n.data.length 0 0).data := by
    by_contra hc
    have := (drawLoop_iff (by omega) rnd m hl h2 n.data.length _ 1 0).2 ⟨0, by omega, rfl, by omega, by omega, fun l hl => by omega⟩
    rw [← h1, h] at this
    simp at this
  have h5 := h3 rnd h4
  exact ⟨_, (h1 _ 1).trans ((drawLoop_iff (by omega) _ m hl h2 n.data.length _ 1 0).2
    ⟨0, by omega, rfl, by omega, by omega, fun l hl => by omega⟩)⟩

/-- The bound on the passes does not matter: a number that is drawn stays the same with a larger one. -/
theorem draw_le (hw : 8 ≤ w) (rnd : Nat → Byte) {lo n s : Num w} {L N : Nat} (hl : Is lo L) (hn : Is n N) (hle : L ≤ N) {f g : Nat} (h : f ≤ g)
    (hs : draw rnd f lo n = .ok (some s)) : draw rnd g lo n = .ok (some s) := by
  obtain ⟨hi, h1, h2⟩ := (hn.assignOpt hw none).sub hw hl hle
  rw [draw, h1, Out.bind_ok] at hs ⊢
  cases hm : topMask hi.data with
  | ub => rw [hm] at hs; cases hs
  | ok m =>
    rw [hm] at hs; rw [Out.bind_ok] at hs ⊢
    obtain ⟨j, j1, j2⟩ := (drawLoop_iff hw rnd m hl h2 _ s f 0).1 hs
    exact (drawLoop_iff hw rnd m hl h2 _ s g 0).2 ⟨j, by omega, j2⟩

/-- The order 11 for DSA. -/
example : ∃ (hi : Num (8 * 4)) (m : BitVec (8 * 4)) (δ : Nat → Byte),
    sub (assign none (⟨[11], false⟩ : Num (8 * 4))) one = .ok hi ∧ topMask hi.data = .ok m ∧
    (∀ rnd fuel, draw rnd fuel one (⟨[11], false⟩ : Num (8 * 4)) = drawLoop rnd m one hi 1 fuel 0) ∧ Is hi 10 ∧
      ∀ rnd, 10 < val (cand rnd m 1 0 0).data → val (cand (fun i => rnd i ^^^ δ i) m 1 0 0).data < 10 :=
  draw_half 4 (by decide) (is_one (by decide)) (by decide) (N := 11) ⟨by decide, rfl, rfl⟩ (by decide) (by decide)

end Kryptos.Dl

namespace Kryptos.Dh
open Mp Spec.Mp

variable {w : Nat}

/-- The same for Diffie-Hellman. -/
theorem secret_le (hw : 8 ≤ w) (rnd : Nat → Byte) {p s : Num w} {P : Nat} (hp : Is p P) (h2 : 2 ≤ P) {bits f g : Nat} (h : f ≤ g)
    (hs : getRandomS rnd f p bits = .ok (some s)) : getRandomS rnd g p bits = .ok (some s) := by
  cases hm : sMask w bits with
  | ub =>
    obtain ⟨p2, h1, -⟩ := (hp.assignOpt hw none).sub hw (is_two (by omega)) h2
    rw [getRandomS, h1, Out.bind_ok, hm] at hs
    cases hs
  | ok m =>
    obtain ⟨j, j1, j2⟩ := (secret_drawn_iff hw rnd f hp h2 hm s).1 hs
    exact (secret_drawn_iff hw rnd g hp h2 hm s).2 ⟨j, by omega, j2⟩

end Kryptos.Dh
