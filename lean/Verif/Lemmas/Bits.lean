import Verif.Base
import Verif.Spec.Rfc4648
/- Helper lemmas about bit strings. -/
namespace Kryptos.Spec

theorem bitsVal_append_single (l : List Bool) (b : Bool) : bitsVal (l ++ [b]) = 2 * bitsVal l + b.toNat := by
  simp [bitsVal]

theorem bitsVal_testBits (n : Nat) : ∀ x : Nat, x < 2 ^ n →
    bitsVal ((List.range n).reverse.map x.testBit) = x := by
  induction n with
  | zero => intro x h; simp at h; subst h; rfl
  | succ n ih =>
    intro x h
    have e : (List.range (n+1)).reverse.map x.testBit
        = (List.range n).reverse.map (x / 2).testBit ++ [x.testBit 0] := by
      rw [List.range_succ_eq_map]
      simp [List.map_reverse, Nat.testBit_succ, Function.comp_def]
    rw [e, bitsVal_append_single, ih _ (by omega)]
    rw [Nat.testBit_zero]
    rcases Nat.mod_two_eq_zero_or_one x with h0 | h0 <;> simp [h0] <;> omega

theorem bitsVal_bv {w : Nat} (n : Nat) (v : BitVec w) (h : v.toNat < 2 ^ n) :
    bitsVal ((List.range n).reverse.map v.getLsbD) = v.toNat := by
  rw [← bitsVal_testBits n v.toNat h]
  congr 1

theorem bitsVal_bv6 {w : Nat} (v : BitVec w) (h : v.toNat < 64) :
    v.toNat = bitsVal [v.getLsbD 5, v.getLsbD 4, v.getLsbD 3, v.getLsbD 2, v.getLsbD 1, v.getLsbD 0] := by
  have := bitsVal_bv 6 v h
  simpa [List.range_succ] using this.symm

theorem bitsVal_bv5 {w : Nat} (v : BitVec w) (h : v.toNat < 32) :
    v.toNat = bitsVal [v.getLsbD 4, v.getLsbD 3, v.getLsbD 2, v.getLsbD 1, v.getLsbD 0] := by
  have := bitsVal_bv 5 v h
  simpa [List.range_succ] using this.symm

theorem bitsVal_lt (l : List Bool) : bitsVal l < 2 ^ l.length := by
  suffices h : ∀ (l : List Bool) (n : Nat), l.foldl (fun n b => 2 * n + b.toNat) n < (n + 1) * 2 ^ l.length by
    simpa [bitsVal] using h l 0
  intro l
  induction l with
  | nil => intro n; simp
  | cons b l ih =>
    intro n
    have := ih (2 * n + b.toNat)
    simp only [List.foldl_cons, List.length_cons]
    have hb : b.toNat ≤ 1 := by cases b <;> simp
    calc _ < (2 * n + b.toNat + 1) * 2 ^ l.length := this
      _ ≤ (2 * (n + 1)) * 2 ^ l.length := Nat.mul_le_mul_right _ (by omega)
      _ = (n + 1) * 2 ^ (l.length + 1) := by rw [Nat.pow_succ, Nat.mul_comm 2 (n+1), Nat.mul_assoc, Nat.mul_comm 2]

/-- Unfolding one group of `bitGroups`. -/
theorem bitGroups_append (k : Nat) (hk : k ≠ 0) (g l : List Bool) (hg : g.length = k) :
    bitGroups k (g ++ l) = g :: bitGroups k l := by
  rw [bitGroups, dif_neg]
  · simp [hg]
  · rintro (h | h)
    · have : g = [] := by simp_all
      subst this; simp at hg; omega
    · exact hk h

theorem bitGroups_short (k : Nat) (g : List Bool) (h0 : g ≠ []) (hg : g.length ≤ k) :
    bitGroups k g = [g ++ List.replicate (k - g.length) false] := by
  have hk : k ≠ 0 := by
    intro hk; subst hk; simp at hg; exact h0 hg
  rw [bitGroups, dif_neg (by simp [h0, hk])]
  rw [List.take_of_length_le hg, List.drop_of_length_le hg]
  simp [bitGroups]

theorem bitGroups_nil (k : Nat) : bitGroups k [] = [] := by rw [bitGroups, dif_pos (by simp)]

end Kryptos.Spec

namespace Kryptos

theorem and_shr_lt {w : Nat} (v m : BitVec w) (s n : Nat) (h : m.toNat >>> s < n) :
    ((v &&& m) >>> s).toNat < n := by
  rw [BitVec.toNat_ushiftRight, BitVec.toNat_and]
  refine Nat.lt_of_le_of_lt ?_ h
  rw [Nat.shiftRight_eq_div_pow, Nat.shiftRight_eq_div_pow]
  exact Nat.div_le_div_right Nat.and_le_right

theorem and_lt {w : Nat} (v m : BitVec w) (n : Nat) (h : m.toNat < n) : (v &&& m).toNat < n := by
  rw [BitVec.toNat_and]; exact Nat.lt_of_le_of_lt Nat.and_le_right h

/-- Reading a table at a bounded index. -/
theorem rd_table {α : Type} (l : List α) (i : Nat) (h : i < l.length) : ∃ x, rd l i = .ok x ∧ l[i]? = some x :=
  ⟨l[i], rd_eq_ok h, List.getElem?_eq_getElem h⟩

end Kryptos
