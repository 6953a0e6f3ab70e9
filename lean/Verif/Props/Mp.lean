import Verif.Lemmas.Mp
/-
  Big numbers: addition, subtraction and multiplication (C35), signed arithmetic (C36), comparison (C37) and shifts (C39).

  Every value made by the library has at least one digit; this is the only assumption on the size of operands.  `w` is 32
  or 64 in the code and any width from 8 on here.
-/
namespace Kryptos.Mp
open Spec.Mp

variable {w : Nat}

/-! ### C35 -/

/-- `kryptos_mp_add` returns the exact sum of the magnitudes, unless that sum is zero.  (The sign of the result is the one
of the destination.)  Missing for the full property: sums that are zero, see `add_zero_indeterminate`. -/
theorem add_exact_partial (hw : 8 ≤ w) (dest src : Num w) (hd : dest.data ≠ []) (hs : src.data ≠ [])
    (h : val dest.data + val src.data ≠ 0) :
    ∃ r, add dest src = .ok r ∧ val r.data = val dest.data + val src.data ∧ r.neg = dest.neg := by
  obtain ⟨r, h1, h2, -⟩ := add_ok hw dest src (List.length_pos_iff.2 hd) (List.length_pos_iff.2 hs) h
  exact ⟨_, h1, h2, rfl⟩

/-- Adding zero to zero leaves the digits of the destination uninitialised, for operands of every size. -/
theorem add_zero_indeterminate (hw : 8 ≤ w) (dest src : Num w) (hd : dest.data ≠ []) (hs : src.data ≠ [])
    (h : val dest.data + val src.data = 0) : add dest src = .ub := by
  have := add_spec hw dest src (List.length_pos_iff.2 hd) (List.length_pos_iff.2 hs)
  rwa [if_pos h] at this

/-- `kryptos_mp_sub` returns the exact difference as a sign and a magnitude, unless the destination is zero. -/
theorem sub_exact_partial (hw : 8 ≤ w) (dest src : Num w) (hd : val dest.data ≠ 0) (hn : dest.neg = false) :
    ∃ r, sub dest src = .ok r ∧ signed r.neg (val r.data) = (val dest.data : Int) - val src.data := by
  by_cases hs : val src.data = 0
  · exact ⟨dest, sub_src_zero _ _ hs, by simp [signed, hn, hs]⟩
  · obtain ⟨r, h1, h2, -⟩ := sub_spec hw dest src hd hs
    refine ⟨_, h1, ?_⟩
    simp only [h2, signed]
    by_cases hlt : val dest.data < val src.data
    · simp [hlt]; omega
    · simp [hlt]; omega

/-- Zero minus a positive number gives the positive number: for every number which is not zero the sign is wrong. -/
theorem sub_from_zero_wrong (hw : 8 ≤ w) (dest src : Num w) (hd : val dest.data = 0) (hs : val src.data ≠ 0)
    (hn : src.neg = false) : sub dest src = .ok src ∧
      signed src.neg (val src.data) ≠ (val dest.data : Int) - val src.data := by
  have hl : 0 < src.data.length := by
    rcases h : src.data with _ | ⟨_, _⟩
    · simp [h, val] at hs
    · simp
  refine ⟨by rw [sub_dest_zero _ _ hd hs, assign_none_eq hw _ hl], ?_⟩
  simp [signed, hn, hd]; omega

/-- `kryptos_mp_mul` returns the exact product of the magnitudes. -/
theorem mul_exact (hw : 8 ≤ w) (dest src : Num w) :
    ∃ r, mul dest src = .ok r ∧ val r.data = val dest.data * val src.data ∧ r.neg = false := by
  obtain ⟨r, h1, h2, -⟩ := mul_spec hw dest src
  exact ⟨_, h1, h2, rfl⟩

/-- `kryptos_mp_mul_digit` returns the exact product. -/
theorem mulDigit_exact (hw : 8 ≤ w) (x : Num w) (y : BitVec w) (hx : x.data ≠ []) :
    ∃ r, mulDigit x y = .ok r ∧ val r.data = val x.data * y.toNat := by
  obtain ⟨r, h1, h2, -⟩ := mulDigit_spec hw x y (List.length_pos_iff.2 hx)
  exact ⟨r, h1, h2⟩

/-- With a `NULL` destination addition and multiplication copy as many *bytes* as there are digits: the copy of the number
2^8 with one digit is zero. -/
theorem copyNull_loses : val (copyNull (⟨[256], false⟩ : Num 64)).data = 0 := by decide +kernel

/-- A carry through three digits, and a borrow. -/
example : add (⟨[0xFFFFFFFFFFFFFFFF, 0xFFFFFFFFFFFFFFFF, 0xFFFFFFFFFFFFFFFF], false⟩ : Num 64) ⟨[1], false⟩ =
    .ok ⟨[0, 0, 0, 1], false⟩ := by decide +kernel
example : sub (⟨[0, 0, 1], false⟩ : Num 64) ⟨[1], false⟩ =
    .ok ⟨[0xFFFFFFFFFFFFFFFF, 0xFFFFFFFFFFFFFFFF], false⟩ := by decide +kernel
example : sub (⟨[1], false⟩ : Num 64) ⟨[0, 0, 1], false⟩ =
    .ok ⟨[0xFFFFFFFFFFFFFFFF, 0xFFFFFFFFFFFFFFFF], true⟩ := by decide +kernel
example : mul (⟨[0xFFFFFFFFFFFFFFFF, 0xFFFFFFFFFFFFFFFF], false⟩ : Num 64) ⟨[0xFFFFFFFFFFFFFFFF, 0xFFFFFFFFFFFFFFFF], false⟩ =
    .ok ⟨[1, 0, 0xFFFFFFFFFFFFFFFE, 0xFFFFFFFFFFFFFFFF], false⟩ := by decide +kernel
example : sub (zero : Num 64) ⟨[7], false⟩ = .ok ⟨[7], false⟩ := by decide +kernel

/-! ### C37 -/

/-- On operands of the same sign the comparison macros decide the order of the magnitudes, whatever the numbers of
digits. -/
theorem compare_exact (a b : Num w) (h : a.neg = b.neg) :
    (eq a b = true ↔ val a.data = val b.data) ∧ (ne a b = true ↔ val a.data ≠ val b.data) ∧
      (gt a b = true ↔ val b.data < val a.data) ∧ (lt a b = true ↔ val a.data < val b.data) ∧
      (ge a b = true ↔ val b.data ≤ val a.data) ∧ (le a b = true ↔ val a.data ≤ val b.data) := by
  refine ⟨?_, ?_, gt_spec a b h, lt_spec a b h, ge_spec a b h, le_spec a b h⟩
  · simp [eq_spec, h]
  · simp only [ne, Bool.not_eq_true', ← Bool.not_eq_true, eq_spec, h, true_and]

/-- The larger of two operands of the same sign, `NULL` (`none`) when they are equal. -/
theorem getGt_exact (a b : Num w) (h : a.neg = b.neg) :
    (getGt a b = some true ↔ val b.data < val a.data) ∧ (getGt a b = some false ↔ val a.data < val b.data) ∧
      (getGt a b = none ↔ val a.data = val b.data) := by
  rw [getGt_spec a b h]
  refine ⟨cmp3_true, cmp3_false, ?_⟩
  unfold cmp3
  split <;> simp_all

/-- `kryptos_mp_eq` is right for all signs (negative zero is not equal to zero). -/
theorem eq_exact (a b : Num w) : eq a b = true ↔ a.neg = b.neg ∧ val a.data = val b.data := eq_spec a b

/-- Between numbers of different signs the magnitudes decide, for instance `-2 > 1`. -/
theorem signed_compare_wrong : gt (⟨[2], true⟩ : Num 64) one = true ∧ lt (one : Num 64) ⟨[2], true⟩ = true := by
  decide +kernel

/-- The first test compares only one byte per digit, so that `256 > -(2 ^ 16)` although the comparison of magnitudes which
follows would say otherwise. -/
example : gt (⟨[256], false⟩ : Num 64) ⟨[65536], true⟩ = true ∧ gt (⟨[257], false⟩ : Num 64) ⟨[65536], true⟩ = false := by
  decide +kernel

example : gt (⟨[0, 1], false⟩ : Num 64) ⟨[0xFFFFFFFFFFFFFFFF, 0, 0, 0], false⟩ = true := by decide +kernel

/-! ### C39 -/

/-- `kryptos_mp_lsh` multiplies by a power of two and keeps the sign. -/
theorem lsh_exact (hw : 8 ≤ w) (a : Num w) (k : Nat) (ha : a.data ≠ []) :
    signed (lsh a k).neg (val (lsh a k).data) = signed a.neg (val a.data) * 2 ^ k := by
  obtain ⟨h1, h2, -⟩ := lsh_spec hw a k (List.length_pos_iff.2 ha)
  rw [h1, h2]
  unfold signed
  split <;> push_cast <;> ring

/-- `kryptos_mp_rsh` divides by a power of two, rounding down. -/
theorem rsh_exact (hw : 8 ≤ w) (a : Num w) (k : Nat) (ha : a.data ≠ []) :
    val (rsh a k).data = val a.data / 2 ^ k ∧ (rsh a k).neg = false := by
  obtain ⟨h1, h2, -⟩ := rsh_spec hw a k (List.length_pos_iff.2 ha)
  exact ⟨h2, h1⟩

/-- Shifting there and back is the identity on magnitudes. -/
theorem rsh_lsh (hw : 8 ≤ w) (a : Num w) (k : Nat) (ha : a.data ≠ []) : val (rsh (lsh a k) k).data = val a.data := by
  obtain ⟨-, h2, h3⟩ := lsh_spec hw a k (List.length_pos_iff.2 ha)
  have hl := List.length_pos_iff.2 ha
  rw [(rsh_exact hw (lsh a k) k (List.ne_nil_of_length_pos (h3 ▸ Nat.add_pos_left hl _))).1, h2,
    Nat.mul_div_cancel_left _ (Nat.two_pow_pos k)]

example : lsh (⟨[0x8000000000000001], false⟩ : Num 64) 65 = ⟨[0, 2, 1], false⟩ := by decide +kernel
example : rsh (⟨[0, 2, 1], false⟩ : Num 64) 65 = ⟨[0x8000000000000001, 0, 0], false⟩ := by decide +kernel
/-- The sign is lost by a shift to the right. -/
example : rsh (⟨[4], true⟩ : Num 64) 1 = ⟨[2], false⟩ := by decide +kernel

/-! ### C36 -/

/-- Signed numbers other than minus zero. -/
def Canonical (a : Num w) : Prop := a.data ≠ [] ∧ (a.neg = true → val a.data ≠ 0)

theorem eq_zero_iff (a : Num w) (h : Canonical a) : eq a zero = true ↔ val a.data = 0 := by
  have hz : val (zero : Num w).data = 0 := by simp [zero, val]
  rw [eq_spec, hz]
  constructor
  · exact fun h => h.2
  · intro h0
    refine ⟨?_, h0⟩
    cases hn : a.neg
    · rfl
    · exact absurd h0 (h.2 hn)

theorem canonical_assign (hw : 8 ≤ w) (a : Num w) (h : Canonical a) : assign none a = a :=
  assign_none_eq hw a (List.length_pos_iff.2 h.1)

theorem canonical_of_length {a : Num w} (h : 0 < a.data.length) (h' : a.neg = true → val a.data ≠ 0) : Canonical a :=
  ⟨List.ne_nil_of_length_pos h, h'⟩

/-- `kryptos_mp_add_s` is the addition of integers. -/
theorem addS_exact (hw : 8 ≤ w) (a b : Num w) (ha : Canonical a) (hb : Canonical b) :
    ∃ r, addS a b = .ok r ∧ Canonical r ∧
      signed r.neg (val r.data) = signed a.neg (val a.data) + signed b.neg (val b.data) := by
  have hz : val (zero : Num w).data = 0 := by simp [zero, val]
  have hzc : Canonical (zero : Num w) := ⟨by simp [zero], by simp [zero]⟩
  simp only [addS, canonical_assign hw a ha, canonical_assign hw b hb]
  by_cases hb0 : val b.data = 0
  · have hbn : b.neg = false := by cases h : b.neg <;> [rfl; exact absurd hb0 (hb.2 h)]
    rw [(eq_zero_iff b hb).2 hb0]
    by_cases ha0 : val a.data = 0
    · have han : a.neg = false := by cases h : a.neg <;> [rfl; exact absurd ha0 (ha.2 h)]
      rw [(eq_zero_iff a ha).2 ha0]
      exact ⟨zero, rfl, hzc, by simp [zero, val, signed, ha0, hb0, han, hbn]⟩
    · have : eq a zero = false := by rw [← Bool.not_eq_true, eq_zero_iff a ha]; exact ha0
      rw [this]
      exact ⟨a, rfl, ha, by simp [signed, hb0, hbn]⟩
  · have hbz : eq b zero = false := by rw [← Bool.not_eq_true, eq_zero_iff b hb]; exact hb0
    rw [hbz]
    by_cases ha0 : val a.data = 0
    · have han : a.neg = false := by cases h : a.neg <;> [rfl; exact absurd ha0 (ha.2 h)]
      rw [(eq_zero_iff a ha).2 ha0]
      exact ⟨b, rfl, hb, by simp [signed, ha0, han]⟩
    · have haz : eq a zero = false := by rw [← Bool.not_eq_true, eq_zero_iff a ha]; exact ha0
      rw [haz]
      simp only [Bool.false_and, Bool.false_eq_true, if_false]
      by_cases hsgn : a.neg = b.neg
      · rw [if_neg (by simp [hsgn])]
        obtain ⟨r, h1, h2, h3⟩ := add_ok hw ⟨a.data, false⟩ ⟨b.data, false⟩ (List.length_pos_iff.2 ha.1)
          (List.length_pos_iff.2 hb.1) (by simp only []; omega)
        simp only [] at h1 h2
        rw [h1]
        have hrl : 0 < r.length := by
          rcases r with _ | ⟨_, _⟩
          · simp [val] at h2; omega
          · simp
        refine ⟨⟨r, a.neg && true⟩, rfl, canonical_of_length hrl (by simp only []; omega), ?_⟩
        simp only [Bool.and_true, h2, signed, ← hsgn]
        split <;> push_cast <;> omega
      · rw [if_pos (by simpa using hsgn)]
        by_cases hgt : val b.data < val a.data
        · rw [if_pos ((gt_spec ⟨a.data, false⟩ ⟨b.data, false⟩ rfl).2 hgt)]
          obtain ⟨r, h1, h2, h3⟩ := sub_spec hw ⟨a.data, false⟩ ⟨b.data, false⟩ ha0 hb0
          simp only [] at h1 h2
          rw [h1]
          refine ⟨⟨r, a.neg && true⟩, rfl, canonical_of_length h3 (by simp only []; omega), ?_⟩
          simp only [Bool.and_true, h2, signed]
          cases han : a.neg <;> cases hbn : b.neg <;> simp_all <;> omega
        · rw [if_neg (by rw [gt_spec ⟨a.data, false⟩ ⟨b.data, false⟩ rfl]; exact hgt)]
          obtain ⟨r, h1, h2, h3⟩ := sub_spec hw ⟨b.data, false⟩ ⟨a.data, false⟩ hb0 ha0
          simp only [] at h1 h2
          rw [h1]
          have hg : gt ⟨b.data, false⟩ ⟨a.data, false⟩ = decide (val a.data < val b.data) := by
            rw [Bool.eq_iff_iff, gt_spec ⟨b.data, false⟩ ⟨a.data, false⟩ rfl]; simp
          refine ⟨⟨r, b.neg && gt ⟨b.data, false⟩ ⟨a.data, false⟩⟩, rfl, canonical_of_length h3 ?_, ?_⟩
          · rw [hg]
            simp only [Bool.and_eq_true, decide_eq_true_eq]; omega
          · rw [hg]
            simp only [h2, signed]
            by_cases hlt : val a.data < val b.data
            · cases han : a.neg <;> cases hbn : b.neg <;> simp_all <;> omega
            · cases han : a.neg <;> cases hbn : b.neg <;> simp_all <;> omega

/-- `kryptos_mp_sub_s` is the subtraction of integers. -/
theorem subS_exact (hw : 8 ≤ w) (a b : Num w) (ha : Canonical a) (hb : Canonical b) :
    ∃ r, subS a b = .ok r ∧ Canonical r ∧
      signed r.neg (val r.data) = signed a.neg (val a.data) - signed b.neg (val b.data) := by
  have hz : val (zero : Num w).data = 0 := by simp [zero, val]
  have hzc : Canonical (zero : Num w) := ⟨by simp [zero], by simp [zero]⟩
  simp only [subS, canonical_assign hw a ha, canonical_assign hw b hb]
  by_cases hb0 : val b.data = 0
  · have hbn : b.neg = false := by cases h : b.neg <;> [rfl; exact absurd hb0 (hb.2 h)]
    rw [(eq_zero_iff b hb).2 hb0]
    by_cases ha0 : val a.data = 0
    · have han : a.neg = false := by cases h : a.neg <;> [rfl; exact absurd ha0 (ha.2 h)]
      rw [(eq_zero_iff a ha).2 ha0]
      exact ⟨zero, rfl, hzc, by simp [zero, val, signed, ha0, hb0, han, hbn]⟩
    · have : eq a zero = false := by rw [← Bool.not_eq_true, eq_zero_iff a ha]; exact ha0
      rw [this]
      exact ⟨a, rfl, ha, by simp [signed, hb0, hbn]⟩
  · have hbz : eq b zero = false := by rw [← Bool.not_eq_true, eq_zero_iff b hb]; exact hb0
    rw [hbz]
    by_cases ha0 : val a.data = 0
    · have han : a.neg = false := by cases h : a.neg <;> [rfl; exact absurd ha0 (ha.2 h)]
      rw [(eq_zero_iff a ha).2 ha0]
      refine ⟨inv b, rfl, ⟨hb.1, fun _ => hb0⟩, ?_⟩
      cases hbn : b.neg <;> simp [inv, signed, ha0, han, hbn]
    · have haz : eq a zero = false := by rw [← Bool.not_eq_true, eq_zero_iff a ha]; exact ha0
      rw [haz]
      simp only [Bool.false_and, Bool.not_false, Bool.false_eq_true, if_false, Bool.and_false]
      have hge1 : ge ⟨a.data, false⟩ ⟨b.data, false⟩ = decide (val b.data ≤ val a.data) := by
        rw [Bool.eq_iff_iff, ge_spec ⟨a.data, false⟩ ⟨b.data, false⟩ rfl]; simp
      have hge2 : ge ⟨b.data, false⟩ ⟨a.data, false⟩ = decide (val a.data ≤ val b.data) := by
        rw [Bool.eq_iff_iff, ge_spec ⟨b.data, false⟩ ⟨a.data, false⟩ rfl]; simp
      have heq : eq ⟨a.data, false⟩ ⟨b.data, false⟩ = decide (val a.data = val b.data) := by
        rw [Bool.eq_iff_iff, eq_spec]; simp
      by_cases hsgn : a.neg = b.neg
      · by_cases hab : val a.data = val b.data
        · rw [if_pos (by simp [hsgn, heq, hab])]
          exact ⟨zero, rfl, hzc, by simp [zero, val, signed, hsgn, hab]⟩
        · rw [if_neg (by simp [heq, hab])]
          obtain ⟨r, h1, h2, h3⟩ := sub_spec hw ⟨a.data, false⟩ ⟨b.data, false⟩ ha0 hb0
          simp only [] at h1 h2
          have hr0 : val r ≠ 0 := by omega
          rw [if_pos (by simp [hsgn]), h1]
          simp only [Out.bind_ok, hge1, hge2]
          have hge3 : ge ⟨b.data, false⟩ ⟨r, false⟩ = decide (val r ≤ val b.data) := by
            rw [Bool.eq_iff_iff, ge_spec ⟨b.data, false⟩ ⟨r, false⟩ rfl]; simp
          cases han : a.neg
          · have hbn : b.neg = false := by rw [← hsgn, han]
            refine ⟨⟨r, decide (val a.data < val b.data)⟩, by simp [hbn], canonical_of_length h3 (fun _ => hr0), ?_⟩
            simp only [h2, signed, hbn]
            by_cases hlt : val a.data < val b.data
            · simp [hlt]; omega
            · simp [hlt]; omega
          · have hbn : b.neg = true := by rw [← hsgn, han]
            by_cases hlt : val a.data < val b.data
            · have h4 : ¬ val b.data ≤ val a.data := by omega
              have h5 : val a.data ≤ val b.data := by omega
              have h6 : val r ≤ val b.data := by omega
              refine ⟨⟨r, false⟩, by simp [hbn, inv, hlt, h4, h5, h6, hge3], canonical_of_length h3 (fun _ => hr0), ?_⟩
              simp [signed, hbn, h2]; omega
            · have h4 : val b.data ≤ val a.data := by omega
              have h5 : ¬ val a.data ≤ val b.data := by omega
              refine ⟨⟨r, true⟩, by simp [hbn, inv, h4, h5], canonical_of_length h3 (fun _ => hr0), ?_⟩
              simp [signed, hbn, h2]; omega
      · have hbe : (a.neg == b.neg) = false := by simpa using hsgn
        rw [hbe]
        simp only [Bool.false_and, Bool.false_eq_true, if_false, hge1, hge2]
        obtain ⟨r, h1, h2, h3⟩ := add_ok hw ⟨a.data, false⟩ ⟨b.data, false⟩ (List.length_pos_iff.2 ha.1)
          (List.length_pos_iff.2 hb.1) (by simp only []; omega)
        simp only [] at h1 h2
        have hrl : 0 < r.length := by
          rcases r with _ | ⟨_, _⟩
          · simp [val] at h2; omega
          · simp
        have hr0 : val r ≠ 0 := by omega
        rw [h1]
        simp only [Out.bind_ok]
        cases han : a.neg
        · have hbn : b.neg = true := by cases h : b.neg <;> simp_all
          rw [if_neg (by simp)]
          refine ⟨_, rfl, canonical_of_length hrl (fun _ => hr0), ?_⟩
          simp [signed, hbn, h2]
        · have hbn : b.neg = false := by cases h : b.neg <;> simp_all
          rw [if_pos (by simp [hbn]; omega)]
          have : inv (⟨r, false⟩ : Num w) = ⟨r, true⟩ := by simp [inv]
          rw [this]
          simp only [Bool.not_true, Bool.false_and, Bool.false_eq_true, if_false]
          refine ⟨_, rfl, canonical_of_length hrl (fun _ => hr0), ?_⟩
          simp [signed, hbn, h2]; omega

/-- `kryptos_mp_mul_s` is the multiplication of integers. -/
theorem mulS_exact (hw : 8 ≤ w) (a b : Num w) (ha : Canonical a) (hb : Canonical b) :
    ∃ r, mulS a b = .ok r ∧ Canonical r ∧
      signed r.neg (val r.data) = signed a.neg (val a.data) * signed b.neg (val b.data) := by
  have hz : val (zero : Num w).data = 0 := by simp [zero, val]
  have hzc : Canonical (zero : Num w) := ⟨by simp [zero], by simp [zero]⟩
  simp only [mulS, canonical_assign hw a ha, canonical_assign hw b hb]
  by_cases h0 : val b.data = 0 ∨ val a.data = 0
  · rw [if_pos (by rw [Bool.or_eq_true, eq_zero_iff b hb, eq_zero_iff a ha]; exact h0)]
    refine ⟨zero, rfl, hzc, ?_⟩
    rcases h0 with h | h <;> simp [signed, zero, val, h]
  · rw [if_neg (by rw [Bool.or_eq_true, eq_zero_iff b hb, eq_zero_iff a ha]; exact h0)]
    obtain ⟨r, h1, h2, h3⟩ := mul_spec hw ⟨a.data, false⟩ ⟨b.data, false⟩
    simp only [] at h1 h2
    rw [h1]
    have hr0 : val r ≠ 0 := by rw [h2]; simp only [ne_eq, Nat.mul_eq_zero]; omega
    refine ⟨⟨r, a.neg != b.neg⟩, rfl, canonical_of_length (by simp only []; omega) (fun _ => hr0), ?_⟩
    simp only [signed, h2]
    cases a.neg <;> cases b.neg <;> simp

/-- Minus zero is the exception: adding it to itself leaves uninitialised digits. -/
theorem addS_negative_zero : addS (⟨[0], true⟩ : Num 64) ⟨[0], true⟩ = .ub := by decide +kernel

example : Canonical (⟨[5, 1], true⟩ : Num 64) ∧ Canonical (⟨[7], false⟩ : Num 64) := by
  constructor <;> exact ⟨by simp, by decide⟩
example : addS (⟨[5, 1], true⟩ : Num 64) ⟨[7], false⟩ = .ok ⟨[0xFFFFFFFFFFFFFFFE], true⟩ := by decide +kernel
example : subS (⟨[7], false⟩ : Num 64) ⟨[5, 1], true⟩ = .ok ⟨[12, 1], false⟩ := by decide +kernel
example : subS (⟨[7], true⟩ : Num 64) ⟨[5, 1], true⟩ = .ok ⟨[0xFFFFFFFFFFFFFFFE], false⟩ := by decide +kernel
example : mulS (⟨[7], true⟩ : Num 64) ⟨[5, 1], true⟩ = .ok ⟨[35, 7], false⟩ := by decide +kernel

end Kryptos.Mp
