import Verif.Model.Mp
import Verif.Spec.Mp
import Mathlib.Tactic.Ring
import Mathlib.Tactic.Linarith
/-
  What the loops of src/kryptos_mp.c compute, in terms of the value of the digits.
-/
namespace Kryptos.Mp
open Spec.Mp

variable {w : Nat}

theorem val_append (a b : Digits w) : val (a ++ b) = val a + 2 ^ (w * a.length) * val b := by
  induction a with
  | nil => simp [val]
  | cons d l ih =>
    simp only [List.cons_append, val, ih, List.length_cons]
    rw [show w * (l.length + 1) = w + w * l.length by ring, pow_add]
    ring

theorem val_replicate (n : Nat) : val (List.replicate n (0 : BitVec w)) = 0 := by
  induction n with
  | zero => rfl
  | succ n ih => rw [List.replicate_succ, val, ih]; simp

theorem val_lt (d : Digits w) : val d < 2 ^ (w * d.length) := by
  induction d with
  | nil => simp [val]
  | cons x l ih =>
    simp only [val, List.length_cons]
    rw [show w * (l.length + 1) = w + w * l.length by ring, pow_add]
    have h := x.isLt
    have : 2 ^ w * (val l + 1) ≤ 2 ^ w * 2 ^ (w * l.length) := Nat.mul_le_mul_left _ ih
    rw [Nat.mul_add] at this
    omega

theorem val_padTo (n : Nat) (d : Digits w) : val (padTo n d) = val d := by
  rw [padTo, val_append, val_replicate, Nat.mul_zero, Nat.add_zero]

theorem length_padTo (n : Nat) (d : Digits w) : (padTo n d).length = max n d.length := by
  simp only [padTo, List.length_append, List.length_replicate]; omega

theorem val_eq_zero (d : Digits w) : val d = 0 ↔ ∀ x ∈ d, x = 0 := by
  induction d with
  | nil => simp [val]
  | cons x l ih =>
    have := Nat.two_pow_pos w
    simp only [val, Nat.add_eq_zero_iff, Nat.mul_eq_zero, List.mem_cons, forall_eq_or_imp, ← ih]
    constructor
    · rintro ⟨h, h'⟩
      exact ⟨by apply BitVec.eq_of_toNat_eq; simpa using h, by omega⟩
    · rintro ⟨rfl, h⟩
      exact ⟨by simp, .inr h⟩

theorem isZeroD_iff (d : Digits w) : isZeroD d = true ↔ val d = 0 := by
  simp [isZeroD, val_eq_zero]

theorem sig_le (d : Digits w) : sig d ≤ d.length := by
  induction d with
  | nil => simp [sig]
  | cons x l ih => simp only [sig, List.length_cons]; split <;> [split; skip] <;> omega

theorem sig_zero (d : Digits w) : sig d = 0 ↔ val d = 0 := by
  induction d with
  | nil => simp [sig, val]
  | cons x l ih =>
    have := Nat.two_pow_pos w
    simp only [sig, val]
    by_cases h : sig l = 0
    · rw [if_pos h, ih.1 h]
      by_cases hx : x = 0
      · simp [hx]
      · rw [if_neg hx]
        have : x.toNat ≠ 0 := fun h => hx (by apply BitVec.eq_of_toNat_eq; simpa using h)
        simp [this]
    · rw [if_neg h]
      have : val l ≠ 0 := fun h' => h (ih.2 h')
      simp only [Nat.add_eq_zero_iff, Nat.mul_eq_zero]
      omega

theorem val_take_sig (d : Digits w) : val (d.take (sig d)) = val d := by
  induction d with
  | nil => simp [val]
  | cons x l ih =>
    simp only [sig]
    by_cases h : sig l = 0
    · rw [if_pos h]
      have hl := (sig_zero l).1 h
      split
      · subst x; simp [val, hl]
      · simp [val, hl]
    · rw [if_neg h]
      simp [val, ih]

/-- The digit at the top of the significant ones is not zero. -/
theorem sig_pos_le (d : Digits w) (h : 0 < sig d) : 2 ^ (w * (sig d - 1)) ≤ val d := by
  induction d with
  | nil => simp [sig] at h
  | cons x l ih =>
    simp only [sig, val] at h ⊢
    by_cases hl : sig l = 0
    · rw [if_pos hl] at h ⊢
      split at h
      · omega
      · rename_i hx
        have : x.toNat ≠ 0 := fun h => hx (by apply BitVec.eq_of_toNat_eq; simpa using h)
        rw [if_neg hx]; simp; omega
    · rw [if_neg hl]
      have := ih (by omega)
      rw [show w * (sig l + 1 - 1) = w + w * (sig l - 1) by
        obtain ⟨k, hk⟩ : ∃ k, sig l = k + 1 := ⟨sig l - 1, by omega⟩
        rw [hk]; simp; ring, pow_add]
      have := Nat.mul_le_mul_left (2 ^ w) this
      omega

theorem val_lt_sig (d : Digits w) : val d < 2 ^ (w * sig d) := by
  have := val_lt (d.take (sig d))
  rwa [val_take_sig, List.length_take, Nat.min_eq_left (sig_le d)] at this

theorem sig_take_sig (d : Digits w) : sig (d.take (sig d)) = (d.take (sig d)).length := by
  have h1 := sig_le (d.take (sig d))
  have hl : (d.take (sig d)).length = sig d := by rw [List.length_take, Nat.min_eq_left (sig_le d)]
  rw [hl] at h1 ⊢
  rcases Nat.eq_zero_or_pos (sig d) with h | h
  · omega
  · by_contra hne
    have h2 := sig_pos_le d h
    have h3 := val_lt_sig (d.take (sig d))
    rw [val_take_sig] at h3
    have : 2 ^ (w * sig (d.take (sig d))) ≤ 2 ^ (w * (sig d - 1)) :=
      Nat.pow_le_pow_right (by omega) (Nat.mul_le_mul_left _ (by omega))
    omega

theorem newSize_mul (hw : 8 ≤ w) (n : Nat) : newSize w (n * w) = max n 1 := by
  unfold newSize
  rcases Nat.eq_zero_or_pos n with rfl | hn
  · rw [Nat.div_eq_iff (by omega)]; simp; omega
  · have : w ≤ n * w := Nat.le_mul_of_pos_left w hn
    rw [show max (n * w) 8 = n * w by omega, Nat.div_eq_iff (by omega), Nat.max_eq_left hn]
    have : (w : Nat) * n = n * w := Nat.mul_comm ..
    constructor
    · omega
    · omega

theorem val_norm (d : Digits w) : val (norm d) = val d := by simp [norm, val_padTo, val_take_sig]

theorem length_norm (hw : 8 ≤ w) (d : Digits w) : (norm d).length = max (sig d) 1 := by
  rw [norm, length_padTo, newSize_mul hw, List.length_take, Nat.min_eq_left (sig_le d)]; omega

theorem sig_norm (hw : 8 ≤ w) (r : Digits w) : sig (norm r) = sig r := by
  rcases Nat.eq_zero_or_pos (sig r) with h | h
  · rw [h, sig_zero, val_norm, (sig_zero r).1 h]
  · rw [norm, newSize_mul hw, padTo, List.length_take, Nat.min_eq_left (sig_le r),
      show max (sig r) 1 - sig r = 0 by omega]
    simp only [List.replicate_zero, List.append_nil]
    rw [sig_take_sig, List.length_take, Nat.min_eq_left (sig_le r)]

theorem assign_none_val (s : Num w) : val (assign none s).data = val s.data := by simp [assign, val_padTo]

theorem assign_none_length (hw : 8 ≤ w) (s : Num w) : (assign none s).data.length = max s.data.length 1 := by
  simp [assign, length_padTo, newSize_mul hw]

theorem assign_none_eq (hw : 8 ≤ w) (s : Num w) (h : 0 < s.data.length) : assign none s = s := by
  simp only [assign, padTo, newSize_mul hw, Nat.max_eq_left h, Nat.sub_self, List.replicate_zero, List.append_nil]

theorem val_take_add_drop (n : Nat) (d : Digits w) (h : n ≤ d.length) :
    val d = val (d.take n) + 2 ^ (w * n) * val (d.drop n) := by
  conv_lhs => rw [← List.take_append_drop n d]
  rw [val_append, List.length_take, Nat.min_eq_left h]

/-! ### Addition -/

theorem val_first (b : Digits w) : val b = (first b).toNat + 2 ^ w * val b.tail ∧ (first b).toNat < 2 ^ w := by
  cases b <;> simp [val, first, BitVec.isLt]

theorem addLoop_spec (a b : Digits w) (c : Nat) (h : b.length ≤ a.length) (hc : c ≤ 1) :
    (addLoop a b c).1.length = a.length ∧ (addLoop a b c).2 ≤ 1 ∧
      val (addLoop a b c).1 + 2 ^ (w * a.length) * (addLoop a b c).2 = val a + val b + c := by
  induction a generalizing b c with
  | nil =>
    have : b = [] := List.length_eq_zero_iff.1 (by simpa using h)
    subst this
    simp [addLoop, val, hc]
  | cons x a ih =>
    have hp := Nat.two_pow_pos w
    obtain ⟨hval, hy⟩ := val_first b
    set y := (first b).toNat with hyd
    simp only [addLoop, ← hyd, val, List.length_cons]
    set s := x.toNat + y + c with hs
    have hx := x.isLt
    obtain ⟨h1, h2, h3⟩ := ih b.tail (if 2 ^ w - 1 < s then 1 else 0)
      (by simp at h ⊢; omega) (by split <;> omega)
    refine ⟨by rw [h1], h2, ?_⟩
    rw [show w * (a.length + 1) = w + w * a.length by ring, pow_add, BitVec.toNat_ofNat]
    have e : 2 ^ w * (val (addLoop a b.tail (if 2 ^ w - 1 < s then 1 else 0)).1 +
      2 ^ (w * a.length) * (addLoop a b.tail (if 2 ^ w - 1 < s then 1 else 0)).2) =
      2 ^ w * (val a + val b.tail + (if 2 ^ w - 1 < s then 1 else 0)) := by rw [h3]
    have hs' : s % 2 ^ w + 2 ^ w * (if 2 ^ w - 1 < s then 1 else 0) = s := by
      split
      · rename_i hlt
        rw [Nat.mod_eq_sub_mod (by omega), Nat.mod_eq_of_lt (by omega)]; omega
      · rw [Nat.mod_eq_of_lt (by omega)]; omega
    rw [hval]
    simp only [Nat.mul_add, Nat.mul_assoc] at e ⊢
    omega

/-- `kryptos_mp_add` for operands with digits: the exact sum, unless it is zero. -/
theorem add_spec (hw : 8 ≤ w) (dest src : Num w) (hd : 0 < dest.data.length) (hs : 0 < src.data.length) :
    if val dest.data + val src.data = 0 then add dest src = .ub
    else ∃ r, add dest src = .ok ⟨r, dest.neg⟩ ∧ val r = val dest.data + val src.data ∧ sig r = r.length := by
  set ab := if src.data.length ≤ dest.data.length then (dest.data, src.data) else (src.data, dest.data) with hab
  have hab' : ab.2.length ≤ ab.1.length ∧ val ab.1 + val ab.2 = val dest.data + val src.data ∧
      ab.1.length < src.data.length + dest.data.length := by
    by_cases h : src.data.length ≤ dest.data.length
    · rw [if_pos h] at hab; rw [hab]; exact ⟨h, rfl, by simp only []; omega⟩
    · rw [if_neg h] at hab; rw [hab]; exact ⟨by simp only []; omega, Nat.add_comm .., by simp only []; omega⟩
  obtain ⟨h1, h2, h3⟩ := hab'
  obtain ⟨l1, l2, l3⟩ := addLoop_spec ab.1 ab.2 0 h1 (by omega)
  set size := newSize w ((src.data.length + dest.data.length) * w) with hsize
  rw [newSize_mul hw] at hsize
  set sum := padTo size ((addLoop ab.1 ab.2 0).1 ++
    if 0 < (addLoop ab.1 ab.2 0).2 ∧ ab.1.length < size then [BitVec.ofNat w (addLoop ab.1 ab.2 0).2] else [])
    with hsum
  have hv : val sum = val dest.data + val src.data := by
    rw [hsum, val_padTo, val_append, l1]
    by_cases hc : 0 < (addLoop ab.1 ab.2 0).2
    · rw [if_pos ⟨hc, by omega⟩]
      have : 1 < 2 ^ w := Nat.one_lt_two_pow (by omega)
      simp only [val, BitVec.toNat_ofNat, Nat.mul_zero, Nat.add_zero]
      rw [Nat.mod_eq_of_lt (by omega)]; omega
    · rw [if_neg (by omega)]
      have : (addLoop ab.1 ab.2 0).2 = 0 := by omega
      rw [this] at l3
      simp only [val]; omega
  have hadd : add dest src = if sig sum = 0 then .ub else .ok ⟨sum.take (sig sum), dest.neg⟩ := rfl
  split
  · rename_i h0
    rw [hadd, if_pos ((sig_zero sum).2 (by omega))]
  · rename_i h0
    have hs : sig sum ≠ 0 := fun h => h0 (by rw [← hv]; exact (sig_zero sum).1 h)
    refine ⟨sum.take (sig sum), by rw [hadd, if_neg hs], by rw [val_take_sig, hv], sig_take_sig sum⟩

theorem add_ok (hw : 8 ≤ w) (dest src : Num w) (hd : 0 < dest.data.length) (hs : 0 < src.data.length)
    (h : val dest.data + val src.data ≠ 0) :
    ∃ r, add dest src = .ok ⟨r, dest.neg⟩ ∧ val r = val dest.data + val src.data ∧ sig r = r.length := by
  have := add_spec hw dest src hd hs
  rwa [if_neg h] at this

/-! ### Subtraction -/

theorem subLoop_spec (hw : 0 < w) (n : Nat) (a b : Digits w) (c : BitVec w) (ha : a.length ≤ n) (hb : b.length ≤ n)
    (hc : c = 0 ∨ c = BitVec.allOnes w) :
    (subLoop n a b c).1.length = n ∧ ((subLoop n a b c).2 = 0 ∨ (subLoop n a b c).2 = BitVec.allOnes w) ∧
      val (subLoop n a b c).1 + val b + (if c = 0 then 0 else 1) =
        val a + 2 ^ (w * n) * (if (subLoop n a b c).2 = 0 then 0 else 1) := by
  induction n generalizing a b c with
  | zero =>
    have : a = [] := List.length_eq_zero_iff.1 (by omega)
    have : b = [] := List.length_eq_zero_iff.1 (by omega)
    subst a b
    exact ⟨rfl, hc, by simp only [subLoop, val, Nat.zero_add, Nat.mul_zero, pow_zero, Nat.one_mul]; rfl⟩
  | succ n ih =>
    have hp := Nat.two_pow_pos w
    have h1p : 1 < 2 ^ w := Nat.one_lt_two_pow (by omega)
    have hpp : 2 ^ (2 * w) = 2 ^ w * 2 ^ w := by rw [Nat.two_mul, pow_add]
    obtain ⟨ea, la⟩ := val_first a
    obtain ⟨eb, lb⟩ := val_first b
    set x := (first a).toNat with hx
    set y := (first b).toNat with hy
    set bsub : BitVec (2 * w) := (first a).setWidth (2 * w) - (first b).setWidth (2 * w) + c.setWidth (2 * w) with hbs
    set c' := c + (bsub >>> w).setWidth w with hc'
    have hne : (BitVec.allOnes w : BitVec w) ≠ 0 := by
      intro h
      have := congrArg BitVec.toNat h
      simp at this; omega
    have hbig : 2 ^ w * 2 ^ w ≥ 2 ^ w * 2 := Nat.mul_le_mul_left _ h1p
    have hbn : bsub.toNat = (2 ^ (2 * w) - y + x + c.toNat) % 2 ^ (2 * w) := by
      have hc := c.isLt
      rw [hbs]
      simp only [BitVec.toNat_add, BitVec.toNat_sub, BitVec.toNat_setWidth, ← hx, ← hy]
      rw [Nat.mod_eq_of_lt (show x < 2 ^ (2 * w) by omega), Nat.mod_eq_of_lt (show y < 2 ^ (2 * w) by omega),
        Nat.mod_eq_of_lt (show c.toNat < 2 ^ (2 * w) by omega), Nat.mod_add_mod]
    have hc'n : c'.toNat = (c.toNat + bsub.toNat / 2 ^ w) % 2 ^ w := by
      rw [hc']
      simp only [BitVec.toNat_add, BitVec.toNat_setWidth, BitVec.toNat_ushiftRight, Nat.shiftRight_eq_div_pow]
      rw [Nat.add_mod_mod]
    have key : (c' = 0 ∨ c' = BitVec.allOnes w) ∧ bsub.toNat % 2 ^ w + y + (if c = 0 then 0 else 1) =
        x + 2 ^ w * (if c' = 0 then 0 else 1) := by
      have d0 : ∀ v : Nat, v < 2 ^ w → (2 ^ w * 2 ^ w - 2 ^ w + v) / 2 ^ w = 2 ^ w - 1 := by
        intro v hv
        rw [show 2 ^ w * 2 ^ w - 2 ^ w + v = v + 2 ^ w * (2 ^ w - 1) by
          rw [Nat.mul_sub, Nat.mul_one]; omega, Nat.add_mul_div_left _ _ hp, Nat.div_eq_of_lt hv]; omega
      have m0 : ∀ v : Nat, v < 2 ^ w → (2 ^ w * 2 ^ w - 2 ^ w + v) % 2 ^ w = v := by
        intro v hv
        rw [show 2 ^ w * 2 ^ w - 2 ^ w + v = v + 2 ^ w * (2 ^ w - 1) by
          rw [Nat.mul_sub, Nat.mul_one]; omega, Nat.add_mul_mod_self_left, Nat.mod_eq_of_lt hv]
      have toZero : c'.toNat = 0 → c' = 0 := fun h => by apply BitVec.eq_of_toNat_eq; simpa using h
      have toOnes : c'.toNat = 2 ^ w - 1 → c' = BitVec.allOnes w := fun h => by
        apply BitVec.eq_of_toNat_eq; simpa using h
      rcases hc with rfl | rfl
      · rw [show (0 : BitVec w).toNat = 0 by simp] at hbn hc'n
        rw [Nat.add_zero] at hbn
        rw [Nat.zero_add] at hc'n
        rw [if_pos rfl, Nat.add_zero]
        by_cases hlt : x < y
        · have e : bsub.toNat = 2 ^ w * 2 ^ w - 2 ^ w + (2 ^ w - y + x) := by
            rw [hbn, hpp, Nat.mod_eq_of_lt (by omega)]; omega
          rw [e, d0 _ (by omega), Nat.mod_eq_of_lt (by omega)] at hc'n
          rw [e, m0 _ (by omega), toOnes hc'n]
          refine ⟨.inr rfl, ?_⟩
          rw [if_neg hne]; omega
        · have e : bsub.toNat = x - y := by
            rw [hbn, hpp, Nat.mod_eq_sub_mod (by omega), Nat.mod_eq_of_lt (by omega)]; omega
          rw [e, Nat.div_eq_of_lt (by omega), Nat.zero_mod] at hc'n
          rw [e, toZero hc'n, Nat.mod_eq_of_lt (by omega)]
          refine ⟨.inl rfl, ?_⟩
          rw [if_pos rfl]; omega
      · rw [if_neg hne]
        simp only [BitVec.toNat_allOnes] at hbn hc'n
        by_cases hlt : x < y + 1
        · have e : bsub.toNat = 2 ^ w - 1 - y + x := by
            rw [hbn, hpp, Nat.mod_eq_sub_mod (by omega), Nat.mod_eq_of_lt (by omega)]; omega
          rw [e, Nat.div_eq_of_lt (by omega), Nat.add_zero, Nat.mod_eq_of_lt (by omega)] at hc'n
          rw [e, toOnes hc'n, Nat.mod_eq_of_lt (by omega)]
          refine ⟨.inr rfl, ?_⟩
          rw [if_neg hne]; omega
        · have e : bsub.toNat = (x - y - 1) + 2 ^ w * 1 := by
            rw [hbn, hpp, Nat.mod_eq_sub_mod (by omega), Nat.mod_eq_of_lt (by omega)]; omega
          rw [e, Nat.add_mul_div_left _ _ hp, Nat.div_eq_of_lt (by omega),
            show 2 ^ w - 1 + (0 + 1) = 2 ^ w by omega, Nat.mod_self] at hc'n
          rw [e, toZero hc'n, Nat.add_mul_mod_self_left, Nat.mod_eq_of_lt (by omega)]
          refine ⟨.inl rfl, ?_⟩
          rw [if_pos rfl]; omega
    obtain ⟨k1, k2⟩ := key
    obtain ⟨i1, i2, i3⟩ := ih a.tail b.tail c' (by simp; omega) (by simp; omega) k1
    have hs : subLoop (n + 1) a b c = (bsub.setWidth w :: (subLoop n a.tail b.tail c').1,
      (subLoop n a.tail b.tail c').2) := rfl
    rw [hs]
    refine ⟨by simp [i1], i2, ?_⟩
    simp only [val, BitVec.toNat_setWidth]
    rw [show w * (n + 1) = w + w * n by ring, pow_add, ea, eb]
    have e := congrArg (2 ^ w * ·) i3
    simp only [Nat.mul_add, Nat.mul_assoc] at e ⊢
    omega

theorem val_not (d : Digits w) : val (d.map (~~~ ·)) + val d + 1 = 2 ^ (w * d.length) := by
  induction d with
  | nil => simp [val]
  | cons x l ih =>
    have hx := x.isLt
    simp only [List.map_cons, val, BitVec.toNat_not, List.length_cons]
    rw [show w * (l.length + 1) = w + w * l.length by ring, pow_add, ← ih]
    simp only [Nat.mul_add, Nat.mul_one]; omega

/-- `kryptos_mp_sub` for operands which are not zero. -/
theorem sub_spec (hw : 8 ≤ w) (dest src : Num w) (hd : val dest.data ≠ 0) (hs : val src.data ≠ 0) :
    ∃ r, sub dest src = .ok ⟨r, decide (val dest.data < val src.data)⟩ ∧
      val r = (val dest.data - val src.data) + (val src.data - val dest.data) ∧ 0 < r.length := by
  have hz : ∀ d : Digits w, val d ≠ 0 → isZeroD d = false := fun d h => by
    cases hd : isZeroD d
    · rfl
    · exact absurd ((isZeroD_iff d).1 hd) h
  have hpos : ∀ d : Digits w, val d ≠ 0 → 0 < d.length := fun d h => by
    cases d with
    | nil => simp [val] at h
    | cons => simp
  rw [sub, hz _ hd, hz _ hs]
  simp only [Bool.false_eq_true, if_false]
  set dn := if src.data.length < dest.data.length then dest.data.length else src.data.length with hdn
  have hdn1 : dest.data.length ≤ dn ∧ src.data.length ≤ dn := by rw [hdn]; split <;> omega
  have hdn0 := hpos _ hd
  obtain ⟨l1, l2, l3⟩ := subLoop_spec (by omega) dn dest.data src.data 0 hdn1.1 hdn1.2 (.inl rfl)
  set r := subLoop dn dest.data src.data 0 with hr
  have hpad : padTo (newSize w (dn * w)) r.1 = r.1 := by
    rw [newSize_mul hw, padTo, l1, show max dn 1 - dn = 0 by omega]; simp
  have hl := val_lt r.1
  have hld : val dest.data < 2 ^ (w * dn) := lt_of_lt_of_le (val_lt _)
    (Nat.pow_le_pow_right (by omega) (Nat.mul_le_mul_left _ hdn1.1))
  have hls : val src.data < 2 ^ (w * dn) := lt_of_lt_of_le (val_lt _)
    (Nat.pow_le_pow_right (by omega) (Nat.mul_le_mul_left _ hdn1.2))
  rw [l1] at hl
  have hne : (BitVec.allOnes w : BitVec w) ≠ 0 := by
    intro h
    have := congrArg BitVec.toNat h
    have h1p : 1 < 2 ^ w := Nat.one_lt_two_pow (by omega)
    simp at this; omega
  rw [hpad]
  have fin : ∀ (d : Digits w) (g : Bool), 0 < d.length → ∃ r, (Out.ok (if sig d = 0 then
      (⟨List.replicate d.length 0, g⟩ : Num w) else ⟨d.take (sig d), g⟩) : Out (Num w)) = .ok ⟨r, g⟩ ∧
      val r = val d ∧ 0 < r.length := by
    intro d g hd
    split
    · rename_i h
      exact ⟨_, rfl, by rw [val_replicate, (sig_zero d).1 h], by simpa using hd⟩
    · exact ⟨_, rfl, val_take_sig d, by rw [List.length_take]; omega⟩
  rcases l2 with l2 | l2
  · rw [l2, if_neg (Ne.symm hne)]
    rw [l2] at l3
    simp only [if_true] at l3
    obtain ⟨q, h1, h2, h3⟩ := fin r.1 false (by omega)
    refine ⟨q, ?_, by omega, h3⟩
    rw [show decide (val dest.data < val src.data) = false by simp; omega]
    exact h1
  · rw [l2, if_pos rfl]
    rw [l2, if_neg hne] at l3
    simp only [if_true] at l3
    have hnot := val_not r.1
    rw [l1] at hnot
    have hone : val (one : Num w).data = 1 := by
      have h1p : 1 < 2 ^ w := Nat.one_lt_two_pow (by omega)
      simp [one, val, Nat.mod_eq_of_lt h1p]
    obtain ⟨q, h1, h2, h3⟩ := add_ok hw (not ⟨r.1, false⟩) one (by simp [not]; omega) (by simp [one])
      (by rw [hone]; omega)
    rw [hone] at h2
    simp only [not] at h2
    have hq : val q ≠ 0 := by omega
    obtain ⟨q', h4, h5, h6⟩ := fin q true (hpos _ hq)
    refine ⟨q', ?_, by omega, h6⟩
    rw [show decide (val dest.data < val src.data) = true by simp; omega]
    rw [invCmplt, h1]
    exact h4

theorem sub_src_zero (dest src : Num w) (hs : val src.data = 0) : sub dest src = .ok dest := by
  rw [sub, (isZeroD_iff _).2 hs]; rfl

theorem sub_dest_zero (dest src : Num w) (hd : val dest.data = 0) (hs : val src.data ≠ 0) :
    sub dest src = .ok (assign none src) := by
  have : isZeroD src.data = false := by
    cases hd : isZeroD src.data
    · rfl
    · exact absurd ((isZeroD_iff _).1 hd) hs
  rw [sub, this, (isZeroD_iff _).2 hd]; rfl

/-- Subtracting a number which is not larger. -/
theorem sub_le (hw : 8 ≤ w) (dest src : Num w) (h : val src.data ≤ val dest.data) (hl : 0 < dest.data.length)
    (hn : dest.neg = false) :
    ∃ r, sub dest src = .ok ⟨r, false⟩ ∧ val r = val dest.data - val src.data ∧ 0 < r.length := by
  by_cases hs : val src.data = 0
  · refine ⟨dest.data, by rw [sub_src_zero _ _ hs, ← hn], by omega, hl⟩
  · obtain ⟨r, h1, h2, h3⟩ := sub_spec hw dest src (by omega) hs
    refine ⟨r, ?_, by omega, h3⟩
    rw [h1, show decide (val dest.data < val src.data) = false by simp; omega]

/-! ### Multiplication -/

theorem mulRow_spec (y : BitVec w) (xs m : Digits w) (mc : BitVec w) (ac : Nat) (hl : xs.length < m.length)
    (hac : ac ≤ 1) (h : val m + y.toNat * val xs + mc.toNat + ac < 2 ^ (w * (xs.length + 1))) :
    ∃ r, mulRow y xs m mc ac = .ok r ∧ r.length = m.length ∧ val r = val m + y.toNat * val xs + mc.toNat + ac := by
  induction xs generalizing m mc ac with
  | nil =>
    cases m with
    | nil => simp at hl
    | cons d m =>
      refine ⟨_, rfl, by simp, ?_⟩
      simp only [val, Nat.mul_zero, Nat.add_zero, List.length_nil, Nat.zero_add, Nat.mul_one] at h ⊢
      have h0 : val m = 0 := by
        by_contra h0
        have : 2 ^ w * 1 ≤ 2 ^ w * val m := Nat.mul_le_mul_left _ (by omega)
        omega
      rw [h0, Nat.mul_zero] at h ⊢
      simp only [BitVec.toNat_add, BitVec.toNat_ofNat]
      rw [Nat.add_mod_mod, Nat.mod_add_mod, Nat.mod_eq_of_lt (by omega)]; omega
  | cons x xs ih =>
    cases m with
    | nil => simp at hl
    | cons d m =>
      have hp := Nat.two_pow_pos w
      have hd := d.isLt
      have hx := x.isLt
      have hy := y.isLt
      have hmc := mc.isLt
      set bmul := y.toNat * x.toNat + mc.toNat with hbm
      have hbl : bmul < 2 ^ w * 2 ^ w := by
        have h1 : y.toNat * x.toNat ≤ (2 ^ w - 1) * (2 ^ w - 1) := Nat.mul_le_mul (by omega) (by omega)
        have h2 : (2 ^ w - 1) * (2 ^ w - 1) + (2 ^ w - 1) = (2 ^ w - 1) * 2 ^ w := by
          conv_rhs => rw [show (2 ^ w : Nat) = (2 ^ w - 1) + 1 by omega, Nat.mul_add, Nat.mul_one]
          rw [Nat.add_sub_cancel]
        have h3 : (2 ^ w - 1) * 2 ^ w < 2 ^ w * 2 ^ w := Nat.mul_lt_mul_of_pos_right (by omega) hp
        omega
      have hq : bmul / 2 ^ w < 2 ^ w := Nat.div_lt_of_lt_mul hbl
      have hbmod := Nat.mod_lt bmul hp
      have hbdiv := Nat.div_add_mod bmul (2 ^ w)
      set bsum := d.toNat + bmul % 2 ^ w + ac with hbs
      set ac' := if 2 ^ w - 1 < bsum then 1 else 0 with hac'
      have hac1 : ac' ≤ 1 := by rw [hac']; split <;> omega
      have hs' : bsum % 2 ^ w + 2 ^ w * ac' = bsum := by
        rw [hac']; split
        · rename_i hlt
          rw [Nat.mod_eq_sub_mod (by omega), Nat.mod_eq_of_lt (by omega)]; omega
        · rw [Nat.mod_eq_of_lt (by omega)]; omega
      have hqn : (BitVec.ofNat w (bmul / 2 ^ w)).toNat = bmul / 2 ^ w := by
        rw [BitVec.toNat_ofNat, Nat.mod_eq_of_lt hq]
      have htot : val (d :: m) + y.toNat * val (x :: xs) + mc.toNat + ac =
          bsum % 2 ^ w + 2 ^ w * (val m + y.toNat * val xs + bmul / 2 ^ w + ac') := by
        simp only [val, Nat.mul_add] at hbm hs' ⊢
        have : y.toNat * (2 ^ w * val xs) = 2 ^ w * (y.toNat * val xs) := by ring
        omega
      obtain ⟨r, h1, h2, h3⟩ := ih m (BitVec.ofNat w (bmul / 2 ^ w)) ac' (by simpa using hl) hac1 (by
        rw [hqn]
        rw [htot, List.length_cons, show w * (xs.length + 1 + 1) = w + w * (xs.length + 1) by ring, pow_add] at h
        exact Nat.lt_of_mul_lt_mul_left (a := 2 ^ w) (by omega))
      refine ⟨BitVec.ofNat w bsum :: r, ?_, by simp [h2], ?_⟩
      · simp only [mulRow]
        rw [show mulRow y xs m (BitVec.ofNat w ((y.toNat * x.toNat + mc.toNat) / 2 ^ w))
          (if 2 ^ w - 1 < d.toNat + (y.toNat * x.toNat + mc.toNat) % 2 ^ w + ac then 1 else 0) = .ok r from h1]
        rfl
      · rw [htot]
        simp only [val, BitVec.toNat_ofNat, h3, hqn]

theorem mulLoop_spec (ys x m : Digits w) (hl : ys.length + x.length ≤ m.length) (h : val m < 2 ^ (w * x.length)) :
    ∃ r, mulLoop ys x m = .ok r ∧ r.length = m.length ∧ val r = val m + val ys * val x := by
  induction ys generalizing m with
  | nil => exact ⟨m, rfl, rfl, by simp [val]⟩
  | cons y ys ih =>
    have hp := Nat.two_pow_pos w
    have hx := val_lt x
    have hy := y.isLt
    have hb : val m + y.toNat * val x < 2 ^ (w * (x.length + 1)) := by
      rw [show w * (x.length + 1) = w + w * x.length by ring, pow_add]
      set P := 2 ^ (w * x.length)
      have h1 : y.toNat * val x ≤ (2 ^ w - 1) * P := Nat.mul_le_mul (by omega) (by omega)
      have h2 : (2 ^ w - 1) * P + P = 2 ^ w * P := by
        conv_rhs => rw [show (2 ^ w : Nat) = (2 ^ w - 1) + 1 by omega, Nat.add_mul, Nat.one_mul]
      omega
    simp only [List.length_cons] at hl
    obtain ⟨r, h1, h2, h3⟩ := mulRow_spec y x m 0 0 (by omega) (by omega) (by simpa using hb)
    cases r with
    | nil => simp at h2; omega
    | cons d r =>
      have h3' : d.toNat + 2 ^ w * val r = val m + y.toNat * val x := by simpa [val] using h3
      obtain ⟨r', h4, h5, h6⟩ := ih r (by simp at h2; omega) (by
        rw [show w * (x.length + 1) = w + w * x.length by ring, pow_add] at hb
        exact Nat.lt_of_mul_lt_mul_left (a := 2 ^ w) (by omega))
      refine ⟨d :: r', ?_, by simp at h2 ⊢; omega, ?_⟩
      · show (mulRow y x m 0 0 >>= _) = _
        rw [h1]
        show (mulLoop ys x r >>= _) = _
        rw [h4]; rfl
      · simp only [val, h6, Nat.add_mul, Nat.mul_add]
        have : 2 ^ w * val ys * val x = 2 ^ w * (val ys * val x) := by ring
        omega

/-- `kryptos_mp_mul`: the exact product; the signs are dropped. -/
theorem mul_spec (hw : 8 ≤ w) (dest src : Num w) :
    ∃ r, mul dest src = .ok ⟨r, false⟩ ∧ val r = val dest.data * val src.data ∧ r.length = max (sig r) 1 := by
  set xy := if src.data.length ≤ dest.data.length then (dest.data, src.data) else (src.data, dest.data) with hxy
  have hxy' : val xy.2 * val xy.1 = val dest.data * val src.data ∧
      xy.2.length + xy.1.length = src.data.length + dest.data.length := by
    by_cases h : src.data.length ≤ dest.data.length
    · rw [if_pos h] at hxy; rw [hxy]; exact ⟨Nat.mul_comm .., rfl⟩
    · rw [if_neg h] at hxy; rw [hxy]; exact ⟨rfl, Nat.add_comm ..⟩
  obtain ⟨r, h1, h2, h3⟩ := mulLoop_spec xy.2 xy.1 (newMp w ((dest.data.length + src.data.length + 1) * w)).data
    (by rw [newMp, newSize_mul hw]; simp only [List.length_replicate]; omega)
    (by rw [newMp, val_replicate]; exact Nat.two_pow_pos _)
  refine ⟨norm r, ?_, ?_, ?_⟩
  · show (mulLoop xy.2 xy.1 _ >>= _) = _
    rw [h1]; rfl
  · rw [val_norm, h3, newMp, val_replicate, Nat.zero_add, hxy'.1]
  · rw [length_norm hw]
    rw [sig_norm hw]

/-! ### Shifts -/

theorem length_shl1 (d : Digits w) (lc : BitVec w) : (shl1 d lc).length = d.length := by
  induction d generalizing lc with
  | nil => rfl
  | cons x l ih => simp [shl1, ih]

theorem shl1_spec (hw : 0 < w) (d : Digits w) (lc : BitVec w) (hlc : lc.toNat ≤ 1) :
    val (shl1 d lc) = (2 * val d + lc.toNat) % 2 ^ (w * d.length) := by
  induction d generalizing lc with
  | nil => simp [shl1, val, Nat.mod_one]
  | cons x l ih =>
    have hp := Nat.two_pow_pos w
    have hx := x.isLt
    obtain ⟨k, rfl⟩ : ∃ k, w = k + 1 := ⟨w - 1, by omega⟩
    have hc : (x >>> (k + 1 - 1)).toNat = 2 * x.toNat / 2 ^ (k + 1) := by
      rw [BitVec.toNat_ushiftRight, Nat.shiftRight_eq_div_pow, Nat.add_sub_cancel, pow_succ, Nat.mul_comm (2 ^ k),
        Nat.mul_div_mul_left _ _ (by omega)]
    have hc1 : 2 * x.toNat / 2 ^ (k + 1) ≤ 1 := by
      rw [Nat.div_le_iff_le_mul_add_pred hp]; omega
    have hdig : ((x <<< 1) ||| lc).toNat = 2 * x.toNat % 2 ^ (k + 1) + lc.toNat := by
      rw [BitVec.toNat_or, BitVec.toNat_shiftLeft, Nat.shiftLeft_eq, pow_one, Nat.mul_comm x.toNat 2, pow_succ,
        Nat.mul_comm (2 ^ k), Nat.mul_mod_mul_left]
      have := Nat.two_pow_add_eq_or_of_lt (i := 1) (b := lc.toNat) (by omega) (x.toNat % 2 ^ k)
      rw [pow_one] at this
      exact this.symm
    simp only [shl1, val, List.length_cons]
    rw [ih _ (by rw [hc]; exact hc1), hc, hdig, show (k + 1) * (l.length + 1) = (k + 1) + (k + 1) * l.length by ring,
      pow_add 2 (k + 1) ((k + 1) * l.length), Nat.mod_mul]
    have e : 2 * (x.toNat + 2 ^ (k + 1) * val l) + lc.toNat =
        (2 * x.toNat % 2 ^ (k + 1) + lc.toNat) + 2 ^ (k + 1) * (2 * val l + 2 * x.toNat / 2 ^ (k + 1)) := by
      have := Nat.div_add_mod (2 * x.toNat) (2 ^ (k + 1))
      simp only [Nat.mul_add]
      have : 2 * (2 ^ (k + 1) * val l) = 2 ^ (k + 1) * (2 * val l) := by ring
      omega
    have hlow : 2 * x.toNat % 2 ^ (k + 1) + lc.toNat < 2 ^ (k + 1) := by
      rw [pow_succ, Nat.mul_comm (2 ^ k), Nat.mul_mod_mul_left]
      have := Nat.mod_lt x.toNat (Nat.two_pow_pos k)
      omega
    rw [e, Nat.add_mul_mod_self_left, Nat.mod_eq_of_lt hlow, Nat.add_mul_div_left _ _ hp, Nat.div_eq_of_lt hlow,
      Nat.zero_add]

theorem shlN_spec (hw : 0 < w) (n : Nat) (d : Digits w) :
    ((fun d : Digits w => shl1 d 0)^[n] d).length = d.length ∧
      val ((fun d : Digits w => shl1 d 0)^[n] d) = (2 ^ n * val d) % 2 ^ (w * d.length) := by
  induction n with
  | zero => exact ⟨rfl, by simp [Nat.mod_eq_of_lt (val_lt d)]⟩
  | succ n ih =>
    rw [Function.iterate_succ_apply']
    refine ⟨by rw [length_shl1, ih.1], ?_⟩
    rw [shl1_spec hw _ _ (by simp), ih.2, ih.1]
    simp only [BitVec.ofNat_eq_ofNat, BitVec.toNat_ofNat, Nat.zero_mod, Nat.add_zero, Nat.mul_mod_mod]
    congr 1; ring

theorem newSize_ge (hw : 0 < w) (b : Nat) : b ≤ newSize w b * w := by
  unfold newSize
  have h1 := Nat.div_add_mod (max b 8 + w - 1) w
  have h2 := Nat.mod_lt (max b 8 + w - 1) hw
  rw [Nat.mul_comm] at h1
  omega

theorem newSize_add (hw : 8 ≤ w) (n level : Nat) (hn : 0 < n) : newSize w (n * w + level) = n + (level + w - 1) / w := by
  unfold newSize
  have : w ≤ n * w := Nat.le_mul_of_pos_left w hn
  rw [show max (n * w + level) 8 + w - 1 = (level + w - 1) + n * w by omega, Nat.add_mul_div_right _ _ (by omega),
    Nat.add_comm]

/-- `kryptos_mp_lsh`: multiplication by a power of two. -/
theorem lsh_spec (hw : 8 ≤ w) (a : Num w) (level : Nat) (ha : 0 < a.data.length) :
    (lsh a level).neg = a.neg ∧ val (lsh a level).data = 2 ^ level * val a.data ∧
      (lsh a level).data.length = a.data.length + (level + w - 1) / w := by
  refine ⟨rfl, ?_⟩
  simp only [lsh, assign, newMp, List.length_replicate]
  obtain ⟨h1, h2⟩ := shlN_spec (by omega) level (padTo (newSize w (a.data.length * w + level)) a.data)
  rw [h1, h2, val_padTo, length_padTo, newSize_add hw _ _ ha]
  refine ⟨Nat.mod_eq_of_lt ?_, Nat.max_eq_left (Nat.le_add_right ..)⟩
  refine lt_of_lt_of_le (b := 2 ^ (a.data.length * w + level)) ?_ (Nat.pow_le_pow_right (by omega) ?_)
  · rw [pow_add, Nat.mul_comm (2 ^ _) (2 ^ level), Nat.mul_comm a.data.length]
    exact Nat.mul_lt_mul_of_pos_left (val_lt _) (Nat.two_pow_pos _)
  · rw [Nat.max_eq_left (Nat.le_add_right ..), Nat.mul_comm w, ← newSize_add hw _ _ ha]
    exact newSize_ge (by omega) _

theorem lsh_neg (a : Num w) (level : Nat) : (lsh a level).neg = a.neg := rfl

theorem shr1_spec (hw : 0 < w) (d : Digits w) :
    (shr1 d).1.length = d.length ∧ val (shr1 d).1 = val d / 2 ∧ (shr1 d).2.toNat = val d % 2 := by
  obtain ⟨k, rfl⟩ : ∃ k, w = k + 1 := ⟨w - 1, by omega⟩
  induction d with
  | nil => simp [shr1, val]
  | cons x l ih =>
    obtain ⟨h1, h2, h3⟩ := ih
    have hx := x.isLt
    have hk := Nat.two_pow_pos k
    have hb : (shr1 l).2.toNat < 2 := by rw [h3]; exact Nat.mod_lt _ (by omega)
    have hdig : ((x >>> 1) ||| ((shr1 l).2 <<< (k + 1 - 1))).toNat = x.toNat / 2 + 2 ^ k * (val l % 2) := by
      rw [BitVec.toNat_or, BitVec.toNat_ushiftRight, BitVec.toNat_shiftLeft, Nat.add_sub_cancel, Nat.shiftLeft_eq,
        Nat.shiftRight_eq_div_pow, pow_one, h3, Nat.mod_eq_of_lt, Nat.or_comm, Nat.mul_comm (val l % 2)]
      · rw [← Nat.two_pow_add_eq_or_of_lt (by rw [pow_succ] at hx; omega)]; omega
      · rw [pow_succ, Nat.mul_comm]
        exact Nat.mul_lt_mul_of_pos_left (by omega) hk
    refine ⟨by simp [shr1, h1], ?_, ?_⟩
    · simp only [shr1, val, hdig, h2]
      rw [pow_succ]
      have : 2 ^ k * 2 * val l = 2 * (2 ^ k * val l) := by ring
      rw [this, Nat.add_mul_div_left _ _ (by omega), Nat.add_assoc]
      congr 1
      conv_rhs => rw [← Nat.mod_add_div (val l) 2, Nat.mul_add]
      ring
    · simp only [shr1, val]
      rw [BitVec.toNat_and, show (1 : BitVec (k + 1)).toNat = 2 ^ 1 - 1 by
        simp [BitVec.toNat_ofNat, Nat.mod_eq_of_lt (Nat.one_lt_two_pow (Nat.succ_ne_zero k))],
        Nat.and_two_pow_sub_one_eq_mod, pow_one, pow_succ]
      have : 2 ^ k * 2 * val l = 2 * (2 ^ k * val l) := by ring
      omega

theorem orLast_zero (d : Digits w) : orLast 0 d = d := by
  induction d with
  | nil => rfl
  | cons x l ih => cases l with
    | nil => simp [orLast]
    | cons y l => rw [orLast, ih]

theorem shrN_spec (hw : 0 < w) (n : Nat) (d : Digits w) :
    ((fun d : Digits w => orLast 0 (shr1 d).1)^[n] d).length = d.length ∧
      val ((fun d : Digits w => orLast 0 (shr1 d).1)^[n] d) = val d / 2 ^ n := by
  induction n with
  | zero => simp
  | succ n ih =>
    rw [Function.iterate_succ_apply']
    simp only [orLast_zero] at ih ⊢
    obtain ⟨h1, h2, -⟩ := shr1_spec hw ((fun d : Digits w => (shr1 d).1)^[n] d)
    rw [h1, h2, ih.1, ih.2, Nat.div_div_eq_div_mul, pow_succ]
    exact ⟨rfl, rfl⟩

/-- `kryptos_mp_rsh`: division by a power of two; the sign is dropped. -/
theorem rsh_spec (hw : 8 ≤ w) (a : Num w) (level : Nat) (ha : 0 < a.data.length) :
    (rsh a level).neg = false ∧ val (rsh a level).data = val a.data / 2 ^ level ∧
      (rsh a level).data.length = a.data.length := by
  have e : rsh a level = ⟨padTo (newSize w (((fun d : Digits w => orLast 0 (shr1 d).1)^[level]
      (padTo (newSize w (a.data.length * w)) a.data)).length * w))
      ((fun d : Digits w => orLast 0 (shr1 d).1)^[level] (padTo (newSize w (a.data.length * w)) a.data)), false⟩ := by
    simp only [rsh, rshOp, assign, newMp, List.length_replicate, Bool.false_and, Bool.false_eq_true, if_false]
  obtain ⟨h1, h2⟩ := shrN_spec (by omega) level (padTo (newSize w (a.data.length * w)) a.data)
  rw [e]
  refine ⟨rfl, by rw [val_padTo, h2, val_padTo], ?_⟩
  rw [length_padTo, h1, newSize_mul hw, newSize_mul hw, length_padTo]; omega

/-! ### Multiplication by a digit -/

theorem mulDigitLoop_spec (y : BitVec w) (d : Digits w) (mc : BitVec w) :
    (mulDigitLoop y d mc).1.length = d.length ∧
      val (mulDigitLoop y d mc).1 + 2 ^ (w * d.length) * (mulDigitLoop y d mc).2.toNat = val d * y.toNat + mc.toNat := by
  induction d generalizing mc with
  | nil => simp [mulDigitLoop, val]
  | cons x l ih =>
    have hp := Nat.two_pow_pos w
    have hx := x.isLt
    have hy := y.isLt
    have hmc := mc.isLt
    obtain ⟨h1, h2⟩ := ih (BitVec.ofNat w ((x.toNat * y.toNat + mc.toNat) / 2 ^ w))
    have hbl : x.toNat * y.toNat + mc.toNat < 2 ^ w * 2 ^ w := by
      have h1 : x.toNat * y.toNat ≤ (2 ^ w - 1) * (2 ^ w - 1) := Nat.mul_le_mul (by omega) (by omega)
      have h2 : (2 ^ w - 1) * (2 ^ w - 1) + (2 ^ w - 1) = (2 ^ w - 1) * 2 ^ w := by
        conv_rhs => rw [show (2 ^ w : Nat) = (2 ^ w - 1) + 1 by omega, Nat.mul_add, Nat.mul_one]
        rw [Nat.add_sub_cancel]
      have h3 : (2 ^ w - 1) * 2 ^ w < 2 ^ w * 2 ^ w := Nat.mul_lt_mul_of_pos_right (by omega) hp
      omega
    rw [BitVec.toNat_ofNat, Nat.mod_eq_of_lt (Nat.div_lt_of_lt_mul hbl)] at h2
    refine ⟨by simp [mulDigitLoop, h1], ?_⟩
    simp only [mulDigitLoop, val, List.length_cons, BitVec.toNat_ofNat]
    rw [show w * (l.length + 1) = w + w * l.length by ring, pow_add]
    have e := congrArg (2 ^ w * ·) h2
    have hdm := Nat.div_add_mod (x.toNat * y.toNat + mc.toNat) (2 ^ w)
    simp only [Nat.mul_add, Nat.add_mul, Nat.mul_assoc] at e ⊢
    omega

theorem wr_last (d : Digits w) (v : BitVec w) (h : val d < 2 ^ (w * (d.length - 1))) (hd : 0 < d.length) :
    ∃ r, wr d (d.length - 1) v = .ok r ∧ r.length = d.length ∧ val r = val d + 2 ^ (w * (d.length - 1)) * v.toNat := by
  obtain ⟨k, hk⟩ : ∃ k, d.length = k + 1 := ⟨d.length - 1, by omega⟩
  rw [hk, Nat.add_sub_cancel] at h ⊢
  have e := val_take_add_drop k d (by omega)
  have hz : val (d.drop k) = 0 := by
    by_contra h0
    have : 2 ^ (w * k) * 1 ≤ 2 ^ (w * k) * val (d.drop k) := Nat.mul_le_mul_left _ (by omega)
    omega
  rw [hz, Nat.mul_zero, Nat.add_zero] at e
  refine ⟨d.set k v, by rw [wr, if_pos (by omega)], by simp [hk], ?_⟩
  have e2 := val_take_add_drop k (d.set k v) (by rw [List.length_set]; omega)
  rw [e2, List.take_set_of_le (by omega), ← e, List.drop_eq_getElem_cons (by simp; omega), List.drop_of_length_le (by simp; omega)]
  simp [val]

/-- `kryptos_mp_mul_digit`. -/
theorem mulDigit_spec (hw : 8 ≤ w) (x : Num w) (y : BitVec w) (hx : 0 < x.data.length) :
    ∃ r, mulDigit x y = .ok r ∧ val r.data = val x.data * y.toNat ∧ 0 < r.data.length ∧ (x.neg = false → r.neg = false) := by
  obtain ⟨h1, h2⟩ := mulDigitLoop_spec y x.data 0
  rw [show (0 : BitVec w).toNat = 0 by simp, Nat.add_zero] at h2
  unfold mulDigit
  by_cases hc : (mulDigitLoop y x.data 0).2 = 0
  · simp only [hc, if_true]
    refine ⟨_, rfl, ?_, by simp only [h1]; omega, id⟩
    rw [hc] at h2
    simpa using h2
  · simp only [hc, if_false]
    set m := mulDigitLoop y x.data 0 with hm
    obtain ⟨-, l1, l2⟩ := lsh_spec hw ⟨m.1, x.neg⟩ w (by simp; omega)
    rw [show (w + w - 1) / w = 1 by rw [Nat.div_eq_iff (by omega)]; omega] at l2
    obtain ⟨r1, r2, r3⟩ := rsh_spec hw (lsh ⟨m.1, x.neg⟩ w) w (by omega)
    rw [l1, Nat.mul_div_cancel_left _ (Nat.two_pow_pos w)] at r2
    simp only [h1] at l2 r2
    rw [l2] at r3
    have hlt := val_lt m.1
    rw [h1] at hlt
    obtain ⟨r, w1, w2, w3⟩ := wr_last (rsh (lsh ⟨m.1, x.neg⟩ w) w).data m.2 (by
      rw [r3, r2, Nat.add_sub_cancel]; exact hlt) (by omega)
    refine ⟨⟨r, (rsh (lsh ⟨m.1, x.neg⟩ w) w).neg⟩, ?_, ?_, by simp only []; omega, fun _ => r1⟩
    · rw [w1]; rfl
    · simp only [w3, r2, r3, Nat.add_sub_cancel]; exact h2

/-! ### Comparison -/

theorem val_inj (a b : Digits w) (hl : a.length = b.length) : val a = val b ↔ a = b := by
  induction a generalizing b with
  | nil => cases b <;> simp_all [val]
  | cons x a ih =>
    cases b with
    | nil => simp at hl
    | cons y b =>
      have hx := x.isLt
      have hy := y.isLt
      simp only [val, List.cons.injEq]
      constructor
      · intro h
        have h1 : x.toNat = y.toNat := by
          have := congrArg (· % 2 ^ w) h
          simpa [Nat.add_mul_mod_self_left, Nat.mod_eq_of_lt] using this
        have h2 : val a = val b := by
          have hp := Nat.two_pow_pos w
          exact Nat.eq_of_mul_eq_mul_left hp (by omega)
        exact ⟨BitVec.eq_of_toNat_eq h1, (ih b (by simpa using hl)).1 h2⟩
      · rintro ⟨rfl, rfl⟩; rfl

/-- `kryptos_mp_eq` compares sign and magnitude. -/
theorem eq_spec (a b : Num w) : eq a b = true ↔ a.neg = b.neg ∧ val a.data = val b.data := by
  unfold eq
  by_cases hn : a.neg = b.neg
  · rw [if_neg (by simpa using hn)]
    by_cases hl : a.data.length = b.data.length
    · rw [if_pos hl]
      simp [hn, val_inj _ _ hl]
    · rw [if_neg hl]
      have key : ∀ a b : Digits w, b.length ≤ a.length → ((isZeroD (a.drop b.length) && a.take b.length == b) = true ↔
          val a = val b) := by
        intro a b h
        rw [val_take_add_drop b.length a h]
        simp only [Bool.and_eq_true, beq_iff_eq, isZeroD_iff]
        have hlt := val_lt b
        have hlen : (a.take b.length).length = b.length := by rw [List.length_take, Nat.min_eq_left h]
        have hp := Nat.two_pow_pos (w * b.length)
        constructor
        · rintro ⟨h1, h2⟩; rw [h1, h2]; simp
        · intro h3
          have h1 : val (a.drop b.length) = 0 := by
            by_contra h0
            have : 2 ^ (w * b.length) * 1 ≤ 2 ^ (w * b.length) * val (a.drop b.length) := Nat.mul_le_mul_left _ (by omega)
            omega
          rw [h1] at h3
          exact ⟨h1, (val_inj _ _ hlen).1 (by omega)⟩
      simp only [hn, true_and]
      split
      · rename_i h; exact key _ _ h
      · rename_i h; rw [eq_comm (a := val a.data)]; exact key b.data a.data (by omega)
  · rw [if_pos (by simpa using hn)]; simp [hn]

/-- The outcome of a comparison as `kryptos_mp_get_gt` reports it. -/
def cmp3 (a b : Nat) : Option Bool := if a = b then none else some (decide (b < a))

theorem cmp3_eq {a b : Nat} (h : a = b) : cmp3 a b = none := by simp [cmp3, h]
theorem cmp3_lt {a b : Nat} (h : a < b) : cmp3 a b = some false := by
  rw [cmp3, if_neg (by omega)]; simp; omega
theorem cmp3_gt {a b : Nat} (h : b < a) : cmp3 a b = some true := by
  rw [cmp3, if_neg (by omega)]; simp; omega
theorem cmp3_swap (a b : Nat) : (cmp3 b a).map (!·) = cmp3 a b := by
  rcases Nat.lt_trichotomy a b with h | h | h
  · rw [cmp3_lt h, cmp3_gt h]; rfl
  · rw [cmp3_eq h, cmp3_eq h.symm]; rfl
  · rw [cmp3_lt h, cmp3_gt h]; rfl
theorem cmp3_true {a b : Nat} : cmp3 a b = some true ↔ b < a := by
  rcases Nat.lt_trichotomy a b with h | h | h
  · rw [cmp3_lt h]; simp; omega
  · rw [cmp3_eq h]; simp; omega
  · rw [cmp3_gt h]; simp; omega
theorem cmp3_false {a b : Nat} : cmp3 a b = some false ↔ a < b := by
  rcases Nat.lt_trichotomy a b with h | h | h
  · rw [cmp3_lt h]; simp; omega
  · rw [cmp3_eq h]; simp; omega
  · rw [cmp3_gt h]; simp; omega

theorem bitCmp_spec (x y : BitVec w) (n : Nat) :
    bitCmp x y n = cmp3 (x.toNat % 2 ^ n) (y.toNat % 2 ^ n) := by
  induction n with
  | zero => simp [bitCmp, cmp3, Nat.mod_one]
  | succ n ih =>
    have e : ∀ z : BitVec w, z.toNat % 2 ^ (n + 1) = z.toNat % 2 ^ n + 2 ^ n * (z.getLsbD n).toNat := by
      intro z
      rw [Nat.mod_pow_succ, BitVec.getLsbD, Nat.toNat_testBit]
    have hx := Nat.mod_lt x.toNat (Nat.two_pow_pos n)
    have hy := Nat.mod_lt y.toNat (Nat.two_pow_pos n)
    rw [bitCmp, ih, e x, e y]
    cases x.getLsbD n <;> cases y.getLsbD n
    · simp [cmp3]
    · rw [cmp3_lt (show x.toNat % 2 ^ n + 2 ^ n * false.toNat < y.toNat % 2 ^ n + 2 ^ n * true.toNat by simp; omega)]
      simp
    · rw [cmp3_gt (show y.toNat % 2 ^ n + 2 ^ n * false.toNat < x.toNat % 2 ^ n + 2 ^ n * true.toNat by simp; omega)]
      simp
    · simp [cmp3]

theorem digitsCmp_spec (a b : Digits w) (hl : a.length = b.length) : digitsCmp a b = cmp3 (val a) (val b) := by
  induction a generalizing b with
  | nil => cases b <;> simp_all [digitsCmp, val, cmp3]
  | cons x a ih =>
    cases b with
    | nil => simp at hl
    | cons y b =>
      have hx := x.isLt
      have hy := y.isLt
      rw [digitsCmp, ih b (by simpa using hl), bitCmp_spec, Nat.mod_eq_of_lt hx, Nat.mod_eq_of_lt hy]
      simp only [val]
      rcases Nat.lt_trichotomy (val a) (val b) with h | h | h
      · have : 2 ^ w * (val a + 1) ≤ 2 ^ w * val b := Nat.mul_le_mul_left _ h
        rw [Nat.mul_add] at this
        rw [cmp3_lt h, cmp3_lt (show x.toNat + 2 ^ w * val a < y.toNat + 2 ^ w * val b by omega)]
      · rw [cmp3_eq h, h]
        simp [cmp3]
      · have : 2 ^ w * (val b + 1) ≤ 2 ^ w * val a := Nat.mul_le_mul_left _ h
        rw [Nat.mul_add] at this
        rw [cmp3_gt h, cmp3_gt (show y.toNat + 2 ^ w * val b < x.toNat + 2 ^ w * val a by omega)]

theorem getGt_key (a b : Digits w) (h : b.length ≤ a.length) :
    (if !isZeroD (a.drop b.length) then some true else digitsCmp (a.take b.length) b) = cmp3 (val a) (val b) := by
  have hlt := val_lt b
  have hlen : (a.take b.length).length = b.length := by rw [List.length_take, Nat.min_eq_left h]
  have e := val_take_add_drop b.length a h
  by_cases hz : val (a.drop b.length) = 0
  · rw [(isZeroD_iff _).2 hz]
    simp only [Bool.not_true, Bool.false_eq_true, if_false]
    rw [digitsCmp_spec _ _ hlen, e, hz, Nat.mul_zero, Nat.add_zero]
  · have : isZeroD (a.drop b.length) = false := by
      cases hd : isZeroD (a.drop b.length)
      · rfl
      · exact absurd ((isZeroD_iff _).1 hd) hz
    rw [this]
    have : 2 ^ (w * b.length) * 1 ≤ 2 ^ (w * b.length) * val (a.drop b.length) := Nat.mul_le_mul_left _ (by omega)
    simp only [Bool.not_false, if_true]
    rw [cmp3_gt (by omega)]

/-- `kryptos_mp_get_gt` for operands of the same sign. -/
theorem getGt_spec (a b : Num w) (hn : a.neg = b.neg) : getGt a b = cmp3 (val a.data) (val b.data) := by
  unfold getGt
  rw [if_neg (by simp [hn])]
  split
  · rename_i h; exact getGt_key _ _ h
  · rename_i h
    rw [← cmp3_swap, ← getGt_key b.data a.data (by omega)]
    split <;> rfl

theorem ge_spec (a b : Num w) (hn : a.neg = b.neg) : ge a b = true ↔ val b.data ≤ val a.data := by
  unfold ge
  simp only [Bool.or_eq_true, eq_spec, hn, true_and, beq_iff_eq, getGt_spec a b hn, cmp3_true]
  omega

theorem gt_spec (a b : Num w) (hn : a.neg = b.neg) : gt a b = true ↔ val b.data < val a.data := by
  unfold gt ne
  simp only [Bool.and_eq_true, Bool.not_eq_true', beq_iff_eq, getGt_spec a b hn, cmp3_true]
  rw [← Bool.not_eq_true, eq_spec]
  simp only [hn, true_and]
  omega

theorem lt_spec (a b : Num w) (hn : a.neg = b.neg) : lt a b = true ↔ val a.data < val b.data := gt_spec b a hn.symm

theorem le_spec (a b : Num w) (hn : a.neg = b.neg) : le a b = true ↔ val a.data ≤ val b.data := by
  unfold le
  simp only [Bool.or_eq_true, eq_spec, hn, true_and, beq_iff_eq, getGt_spec a b hn, cmp3_false]
  omega

end Kryptos.Mp
