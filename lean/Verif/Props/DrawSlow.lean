import Verif.Props.DrawHalf
/-
  The mask of Diffie-Hellman does not fit the order (C128): what holds for DSA and ElGamal (C127) is violated for every order that is
  shorter than its digits by two bits.
-/
namespace Kryptos.Dh
open Mp Spec.Mp

variable {w : Nat}

theorem val_last (l : Digits w) (x : BitVec w) (i : Nat) (h : x.getLsbD i = true) : 2 ^ (w * l.length + i) ≤ val (l ++ [x]) := by
  have hx : 2 ^ i ≤ x.toNat := Nat.ge_two_pow_of_testBit h
  rw [val_append, pow_add]
  simp only [val, Nat.mul_zero, Nat.add_zero]
  exact le_trans (Nat.mul_le_mul_left _ hx) (Nat.le_add_left _ _)

/-- C128 is violated: with as many bits as a digit or more, and an order at least two bits shorter than its digits, no fixed string
turns the sources that fail into ones that do not; for each string there is a source that fails before and after. -/
theorem secret_no_half (k : Nat) (hk : 0 < k) {p : Num (8 * k)} {P : Nat} (hp : Is p P) (h2 : 2 ≤ P) {bits : Nat} (hb : 8 * k ≤ bits)
    (hP : P ≤ 2 ^ (8 * k * sDigits (8 * k) bits p.data.length - 2)) (δ : Nat → Byte) : ∃ rnd : Nat → Byte,
      getRandomS rnd 1 p bits = .ok none ∧ getRandomS (fun i => rnd i ^^^ δ i) 1 p bits = .ok none := by
  have hm : sMask (8 * k) bits = .ok (BitVec.allOnes (8 * k)) := by rw [sMask, if_neg (by omega)]
  have hn := sDigits_pos (w := 8 * k) (by omega) bits p.data.length
  generalize hN : sDigits (8 * k) bits p.data.length = n at *
  obtain ⟨t, rfl⟩ : ∃ t, n = t + 1 := ⟨n - 1, by omega⟩
  -- a source fails when its number is at least the order
  have hfail : ∀ rnd : Nat → Byte, P ≤ val (randDigits (8 * k) rnd 0 (t + 1)) → getRandomS rnd 1 p bits = .ok none := by
    intro rnd h
    obtain ⟨p2, e1, -⟩ := (hp.assignOpt (show 8 ≤ 8 * k by omega) none).sub (by omega) (is_two (by omega)) h2
    obtain ⟨o, ho⟩ := drawS_ok rnd (BitVec.allOnes (8 * k)) p2 (sDigits (8 * k) bits p.data.length) 1 0
    have hd : getRandomS rnd 1 p bits = .ok o := by rw [getRandomS, e1, Out.bind_ok, hm, Out.bind_ok, ho]
    cases o with
    | none => exact hd
    | some s =>
      obtain ⟨j, j1, j2, -, j4, -⟩ := (secret_drawn_iff (by omega) rnd 1 hp h2 hm s).1 hd
      obtain rfl : j = 0 := by omega
      rw [j2, hN] at j4
      simp only [cand, Nat.zero_mul, Nat.add_zero, BitVec.and_allOnes, List.map_id'] at j4
      omega
  -- the digits of the string
  have hdl : (randDigits (8 * k) δ 0 (t + 1)).length = t + 1 := by simp [randDigits]
  obtain ⟨l, y, hly⟩ : ∃ l y, randDigits (8 * k) δ 0 (t + 1) = l ++ [y] :=
    ⟨_, _, (List.dropLast_append_getLast (List.length_pos_iff.1 (by omega))).symm⟩
  have hll : l.length = t := by
    have := congrArg List.length hly
    rw [hdl] at this
    simpa using this.symm
  have main : ∀ (x : BitVec (8 * k)) (i i' : Nat), 8 * k - 2 ≤ i → 8 * k - 2 ≤ i' → x.getLsbD i = true → (x ^^^ y).getLsbD i' = true →
      ∃ rnd : Nat → Byte, getRandomS rnd 1 p bits = .ok none ∧ getRandomS (fun i => rnd i ^^^ δ i) 1 p bits = .ok none := by
    intro x i i' hi hi' h3 h4
    obtain ⟨rnd, hr⟩ := rand_covers k hk ((t + 1) * (8 * k)) (List.replicate t 0 ++ [x]) (by rw [Nat.mul_div_cancel _ (by omega)]; simp)
    have hr : randDigits (8 * k) rnd 0 (t + 1) = List.replicate t 0 ++ [x] := by
      have := congrArg Num.data hr
      rwa [rand, Nat.mul_div_cancel _ (by omega), newSize_mul (by omega), Nat.max_eq_left (by omega)] at this
    have hle : ∀ c, 8 * k - 2 ≤ c → P ≤ 2 ^ (8 * k * t + c) := fun c hc => le_trans hP (Nat.pow_le_pow_right (by decide) (by
      rw [Nat.mul_succ]; omega))
    refine ⟨rnd, hfail _ ?_, hfail _ ?_⟩
    · rw [hr]
      have := val_last (List.replicate t 0) x i h3
      rw [List.length_replicate] at this
      exact le_trans (hle i hi) this
    · rw [randDigits_xor, hr, hly, Dl.xorD_append _ _ _ _ (by simp [hll])]
      have := val_last (xorD (List.replicate t 0) l) (x ^^^ y) i' h4
      rw [xorD_length _ _ (by simp [hll]), hll] at this
      exact le_trans (hle i' hi') this
  have hbit : ∀ c c', c < 8 * k → (BitVec.twoPow (8 * k) c).getLsbD c' = (decide (c = c') && decide (c < 8 * k)) := by
    intro c c' hc
    rw [BitVec.getLsbD_twoPow]
    by_cases h : c = c' <;> simp [h, hc]
  -- the highest bit or the one below it
  by_cases hy : y.getLsbD (8 * k - 1) = true
  · refine main (BitVec.twoPow (8 * k) (8 * k - 2)) (8 * k - 2) (8 * k - 1) (by omega) (by omega) ?_ ?_
    · rw [hbit _ _ (by omega)]; simp; omega
    · rw [BitVec.getLsbD_xor, hbit _ _ (by omega), hy]; simp; omega
  · refine main (BitVec.twoPow (8 * k) (8 * k - 1)) (8 * k - 1) (8 * k - 1) (by omega) (by omega) ?_ ?_
    · rw [hbit _ _ (by omega)]; simp; omega
    · rw [BitVec.getLsbD_xor, hbit _ _ (by omega)]
      simp only [Bool.not_eq_true] at hy
      rw [hy]; simp; omega

/-- The order 5 and 160 bits, with digits of 32 bits: one digit is drawn, and only 2 and 3 are taken. -/
example (δ : Nat → Byte) : ∃ rnd : Nat → Byte, getRandomS rnd 1 (⟨[5], false⟩ : Num (8 * 4)) 160 = .ok none ∧
    getRandomS (fun i => rnd i ^^^ δ i) 1 (⟨[5], false⟩ : Num (8 * 4)) 160 = .ok none :=
  secret_no_half 4 (by decide) (P := 5) ⟨by decide, rfl, rfl⟩ (by decide) (by decide) (by decide) δ

end Kryptos.Dh
