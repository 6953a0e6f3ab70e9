import Verif.Model.Serpent
import Verif.Spec.Serpent
import Verif.Lemmas.Rot
import Verif.Props.SipHash
import Mathlib.Tactic.IntervalCases
/-
  Serpent: the formulas compute the published S-boxes, the block functions undo each other and compute the published cipher under the published
  subkeys, for all keys of up to 32 bytes; longer keys are copied past the end of an array.
-/
namespace Kryptos.Serpent
open Block
open Spec.Serpent (slice word bit S Sinv L Linv mix)

set_option linter.unusedSimpArgs false

/-! ## The formulas of the S-boxes -/

theorem word_bit (f : Nat → Bool) (i : Nat) (hi : i < 32) : (word f).getLsbD i = f i := by
  unfold word
  rw [BitVec.getLsbD_setWidth, BitVec.getLsbD_ofBoolListLE, List.getD_eq_getElem?_getD, List.getElem?_map, List.getElem?_range hi]
  simp [hi]

def sbox0Rest (x : Four 32) : W32 := (sbox0 x.a x.b x.c x.d 0).e
theorem sbox0_eq (x : Four 32) (w : W32) : sbox0 x.a x.b x.c x.d w = ⟨(S 0 x).d, (S 0 x).b, (S 0 x).a, (S 0 x).c, sbox0Rest x⟩ := by
  unfold sbox0Rest sbox0
  simp only [Five.mk.injEq]
  refine ⟨?_, ?_, ?_, ?_, trivial⟩ <;>
  · apply BitVec.eq_of_getLsbD_eq
    intro i hi
    simp only [S, slice, word_bit _ i hi, BitVec.getLsbD_xor, BitVec.getLsbD_and, BitVec.getLsbD_or, BitVec.getLsbD_not, hi, decide_true, Bool.true_and]
    generalize x.a.getLsbD i = a, x.b.getLsbD i = b, x.c.getLsbD i = c, x.d.getLsbD i = d
    revert a b c d
    decide

def sbox1Rest (x : Four 32) : W32 := (sbox1 x.a x.b x.c x.d 0).b
theorem sbox1_eq (x : Four 32) (w : W32) : sbox1 x.a x.b x.c x.d w = ⟨(S 1 x).d, sbox1Rest x, (S 1 x).b, (S 1 x).c, (S 1 x).a⟩ := by
  unfold sbox1Rest sbox1
  simp only [Five.mk.injEq]
  refine ⟨?_, trivial, ?_, ?_, ?_⟩ <;>
  · apply BitVec.eq_of_getLsbD_eq
    intro i hi
    simp only [S, slice, word_bit _ i hi, BitVec.getLsbD_xor, BitVec.getLsbD_and, BitVec.getLsbD_or, BitVec.getLsbD_not, hi, decide_true, Bool.true_and]
    generalize x.a.getLsbD i = a, x.b.getLsbD i = b, x.c.getLsbD i = c, x.d.getLsbD i = d
    revert a b c d
    decide

def sbox2Rest (x : Four 32) : W32 := (sbox2 x.a x.b x.c x.d 0).c
theorem sbox2_eq (x : Four 32) (w : W32) : sbox2 x.a x.b x.c x.d w = ⟨(S 2 x).c, (S 2 x).b, sbox2Rest x, (S 2 x).d, (S 2 x).a⟩ := by
  unfold sbox2Rest sbox2
  simp only [Five.mk.injEq]
  refine ⟨?_, ?_, trivial, ?_, ?_⟩ <;>
  · apply BitVec.eq_of_getLsbD_eq
    intro i hi
    simp only [S, slice, word_bit _ i hi, BitVec.getLsbD_xor, BitVec.getLsbD_and, BitVec.getLsbD_or, BitVec.getLsbD_not, hi, decide_true, Bool.true_and]
    generalize x.a.getLsbD i = a, x.b.getLsbD i = b, x.c.getLsbD i = c, x.d.getLsbD i = d
    revert a b c d
    decide

def sbox3Rest (x : Four 32) : W32 := (sbox3 x.a x.b x.c x.d 0).c
theorem sbox3_eq (x : Four 32) (w : W32) : sbox3 x.a x.b x.c x.d w = ⟨(S 3 x).d, (S 3 x).c, sbox3Rest x, (S 3 x).a, (S 3 x).b⟩ := by
  unfold sbox3Rest sbox3
  simp only [Five.mk.injEq]
  refine ⟨?_, ?_, trivial, ?_, ?_⟩ <;>
  · apply BitVec.eq_of_getLsbD_eq
    intro i hi
    simp only [S, slice, word_bit _ i hi, BitVec.getLsbD_xor, BitVec.getLsbD_and, BitVec.getLsbD_or, BitVec.getLsbD_not, hi, decide_true, Bool.true_and]
    generalize x.a.getLsbD i = a, x.b.getLsbD i = b, x.c.getLsbD i = c, x.d.getLsbD i = d
    revert a b c d
    decide

def sbox4Rest (x : Four 32) : W32 := (sbox4 x.a x.b x.c x.d 0).a
theorem sbox4_eq (x : Four 32) (w : W32) : sbox4 x.a x.b x.c x.d w = ⟨sbox4Rest x, (S 4 x).a, (S 4 x).b, (S 4 x).c, (S 4 x).d⟩ := by
  unfold sbox4Rest sbox4
  simp only [Five.mk.injEq]
  refine ⟨trivial, ?_, ?_, ?_, ?_⟩ <;>
  · apply BitVec.eq_of_getLsbD_eq
    intro i hi
    simp only [S, slice, word_bit _ i hi, BitVec.getLsbD_xor, BitVec.getLsbD_and, BitVec.getLsbD_or, BitVec.getLsbD_not, hi, decide_true, Bool.true_and]
    generalize x.a.getLsbD i = a, x.b.getLsbD i = b, x.c.getLsbD i = c, x.d.getLsbD i = d
    revert a b c d
    decide

def sbox5Rest (x : Four 32) : W32 := (sbox5 x.a x.b x.c x.d 0).c
theorem sbox5_eq (x : Four 32) (w : W32) : sbox5 x.a x.b x.c x.d w = ⟨(S 5 x).b, (S 5 x).c, sbox5Rest x, (S 5 x).d, (S 5 x).a⟩ := by
  unfold sbox5Rest sbox5
  simp only [Five.mk.injEq]
  refine ⟨?_, ?_, trivial, ?_, ?_⟩ <;>
  · apply BitVec.eq_of_getLsbD_eq
    intro i hi
    simp only [S, slice, word_bit _ i hi, BitVec.getLsbD_xor, BitVec.getLsbD_and, BitVec.getLsbD_or, BitVec.getLsbD_not, hi, decide_true, Bool.true_and]
    generalize x.a.getLsbD i = a, x.b.getLsbD i = b, x.c.getLsbD i = c, x.d.getLsbD i = d
    revert a b c d
    decide

def sbox6Rest (x : Four 32) : W32 := (sbox6 x.a x.b x.c x.d 0).a
theorem sbox6_eq (x : Four 32) (w : W32) : sbox6 x.a x.b x.c x.d w = ⟨sbox6Rest x, (S 6 x).c, (S 6 x).a, (S 6 x).d, (S 6 x).b⟩ := by
  unfold sbox6Rest sbox6
  simp only [Five.mk.injEq]
  refine ⟨trivial, ?_, ?_, ?_, ?_⟩ <;>
  · apply BitVec.eq_of_getLsbD_eq
    intro i hi
    simp only [S, slice, word_bit _ i hi, BitVec.getLsbD_xor, BitVec.getLsbD_and, BitVec.getLsbD_or, BitVec.getLsbD_not, hi, decide_true, Bool.true_and]
    generalize x.a.getLsbD i = a, x.b.getLsbD i = b, x.c.getLsbD i = c, x.d.getLsbD i = d
    revert a b c d
    decide

def sbox7Rest (x : Four 32) : W32 := (sbox7 x.a x.b x.c x.d 0).b
theorem sbox7_eq (x : Four 32) (w : W32) : sbox7 x.a x.b x.c x.d w = ⟨(S 7 x).d, sbox7Rest x, (S 7 x).b, (S 7 x).c, (S 7 x).a⟩ := by
  unfold sbox7Rest sbox7
  simp only [Five.mk.injEq]
  refine ⟨?_, trivial, ?_, ?_, ?_⟩ <;>
  · apply BitVec.eq_of_getLsbD_eq
    intro i hi
    simp only [S, slice, word_bit _ i hi, BitVec.getLsbD_xor, BitVec.getLsbD_and, BitVec.getLsbD_or, BitVec.getLsbD_not, hi, decide_true, Bool.true_and]
    generalize x.a.getLsbD i = a, x.b.getLsbD i = b, x.c.getLsbD i = c, x.d.getLsbD i = d
    revert a b c d
    decide

def inv0Rest (x : Four 32) : W32 := (inv0 x.a x.b x.c x.d 0).d
theorem inv0_eq (x : Four 32) (w : W32) : inv0 x.a x.b x.c x.d w = ⟨(Sinv 0 x).d, (Sinv 0 x).c, (Sinv 0 x).a, inv0Rest x, (Sinv 0 x).b⟩ := by
  unfold inv0Rest inv0
  simp only [Five.mk.injEq]
  refine ⟨?_, ?_, ?_, trivial, ?_⟩ <;>
  · apply BitVec.eq_of_getLsbD_eq
    intro i hi
    simp only [Sinv, slice, word_bit _ i hi, BitVec.getLsbD_xor, BitVec.getLsbD_and, BitVec.getLsbD_or, BitVec.getLsbD_not, hi, decide_true, Bool.true_and]
    generalize x.a.getLsbD i = a, x.b.getLsbD i = b, x.c.getLsbD i = c, x.d.getLsbD i = d
    revert a b c d
    decide

def inv1Rest (x : Four 32) : W32 := (inv1 x.a x.b x.c x.d 0).a
theorem inv1_eq (x : Four 32) (w : W32) : inv1 x.a x.b x.c x.d w = ⟨inv1Rest x, (Sinv 1 x).b, (Sinv 1 x).c, (Sinv 1 x).d, (Sinv 1 x).a⟩ := by
  unfold inv1Rest inv1
  simp only [Five.mk.injEq]
  refine ⟨trivial, ?_, ?_, ?_, ?_⟩ <;>
  · apply BitVec.eq_of_getLsbD_eq
    intro i hi
    simp only [Sinv, slice, word_bit _ i hi, BitVec.getLsbD_xor, BitVec.getLsbD_and, BitVec.getLsbD_or, BitVec.getLsbD_not, hi, decide_true, Bool.true_and]
    generalize x.a.getLsbD i = a, x.b.getLsbD i = b, x.c.getLsbD i = c, x.d.getLsbD i = d
    revert a b c d
    decide

def inv2Rest (x : Four 32) : W32 := (inv2 x.a x.b x.c x.d 0).a
theorem inv2_eq (x : Four 32) (w : W32) : inv2 x.a x.b x.c x.d w = ⟨inv2Rest x, (Sinv 2 x).a, (Sinv 2 x).d, (Sinv 2 x).c, (Sinv 2 x).b⟩ := by
  unfold inv2Rest inv2
  simp only [Five.mk.injEq]
  refine ⟨trivial, ?_, ?_, ?_, ?_⟩ <;>
  · apply BitVec.eq_of_getLsbD_eq
    intro i hi
    simp only [Sinv, slice, word_bit _ i hi, BitVec.getLsbD_xor, BitVec.getLsbD_and, BitVec.getLsbD_or, BitVec.getLsbD_not, hi, decide_true, Bool.true_and]
    generalize x.a.getLsbD i = a, x.b.getLsbD i = b, x.c.getLsbD i = c, x.d.getLsbD i = d
    revert a b c d
    decide

def inv3Rest (x : Four 32) : W32 := (inv3 x.a x.b x.c x.d 0).b
theorem inv3_eq (x : Four 32) (w : W32) : inv3 x.a x.b x.c x.d w = ⟨(Sinv 3 x).b, inv3Rest x, (Sinv 3 x).a, (Sinv 3 x).d, (Sinv 3 x).c⟩ := by
  unfold inv3Rest inv3
  simp only [Five.mk.injEq]
  refine ⟨?_, trivial, ?_, ?_, ?_⟩ <;>
  · apply BitVec.eq_of_getLsbD_eq
    intro i hi
    simp only [Sinv, slice, word_bit _ i hi, BitVec.getLsbD_xor, BitVec.getLsbD_and, BitVec.getLsbD_or, BitVec.getLsbD_not, hi, decide_true, Bool.true_and]
    generalize x.a.getLsbD i = a, x.b.getLsbD i = b, x.c.getLsbD i = c, x.d.getLsbD i = d
    revert a b c d
    decide

def inv4Rest (x : Four 32) : W32 := (inv4 x.a x.b x.c x.d 0).b
theorem inv4_eq (x : Four 32) (w : W32) : inv4 x.a x.b x.c x.d w = ⟨(Sinv 4 x).a, inv4Rest x, (Sinv 4 x).b, (Sinv 4 x).d, (Sinv 4 x).c⟩ := by
  unfold inv4Rest inv4
  simp only [Five.mk.injEq]
  refine ⟨?_, trivial, ?_, ?_, ?_⟩ <;>
  · apply BitVec.eq_of_getLsbD_eq
    intro i hi
    simp only [Sinv, slice, word_bit _ i hi, BitVec.getLsbD_xor, BitVec.getLsbD_and, BitVec.getLsbD_or, BitVec.getLsbD_not, hi, decide_true, Bool.true_and]
    generalize x.a.getLsbD i = a, x.b.getLsbD i = b, x.c.getLsbD i = c, x.d.getLsbD i = d
    revert a b c d
    decide

def inv5Rest (x : Four 32) : W32 := (inv5 x.a x.b x.c x.d 0).d
theorem inv5_eq (x : Four 32) (w : W32) : inv5 x.a x.b x.c x.d w = ⟨(Sinv 5 x).c, (Sinv 5 x).a, (Sinv 5 x).d, inv5Rest x, (Sinv 5 x).b⟩ := by
  unfold inv5Rest inv5
  simp only [Five.mk.injEq]
  refine ⟨?_, ?_, ?_, trivial, ?_⟩ <;>
  · apply BitVec.eq_of_getLsbD_eq
    intro i hi
    simp only [Sinv, slice, word_bit _ i hi, BitVec.getLsbD_xor, BitVec.getLsbD_and, BitVec.getLsbD_or, BitVec.getLsbD_not, hi, decide_true, Bool.true_and]
    generalize x.a.getLsbD i = a, x.b.getLsbD i = b, x.c.getLsbD i = c, x.d.getLsbD i = d
    revert a b c d
    decide

def inv6Rest (x : Four 32) : W32 := (inv6 x.a x.b x.c x.d 0).b
theorem inv6_eq (x : Four 32) (w : W32) : inv6 x.a x.b x.c x.d w = ⟨(Sinv 6 x).d, inv6Rest x, (Sinv 6 x).a, (Sinv 6 x).c, (Sinv 6 x).b⟩ := by
  unfold inv6Rest inv6
  simp only [Five.mk.injEq]
  refine ⟨?_, trivial, ?_, ?_, ?_⟩ <;>
  · apply BitVec.eq_of_getLsbD_eq
    intro i hi
    simp only [Sinv, slice, word_bit _ i hi, BitVec.getLsbD_xor, BitVec.getLsbD_and, BitVec.getLsbD_or, BitVec.getLsbD_not, hi, decide_true, Bool.true_and]
    generalize x.a.getLsbD i = a, x.b.getLsbD i = b, x.c.getLsbD i = c, x.d.getLsbD i = d
    revert a b c d
    decide

def inv7Rest (x : Four 32) : W32 := (inv7 x.a x.b x.c x.d 0).c
theorem inv7_eq (x : Four 32) (w : W32) : inv7 x.a x.b x.c x.d w = ⟨(Sinv 7 x).c, (Sinv 7 x).a, inv7Rest x, (Sinv 7 x).b, (Sinv 7 x).d⟩ := by
  unfold inv7Rest inv7
  simp only [Five.mk.injEq]
  refine ⟨?_, ?_, trivial, ?_, ?_⟩ <;>
  · apply BitVec.eq_of_getLsbD_eq
    intro i hi
    simp only [Sinv, slice, word_bit _ i hi, BitVec.getLsbD_xor, BitVec.getLsbD_and, BitVec.getLsbD_or, BitVec.getLsbD_not, hi, decide_true, Bool.true_and]
    generalize x.a.getLsbD i = a, x.b.getLsbD i = b, x.c.getLsbD i = c, x.d.getLsbD i = d
    revert a b c d
    decide

/-! ## Rounds -/

theorem rl_eq (w : W32) (l : Nat) (hl : l < 32) : rl w l = w.rotateLeft l := by
  unfold rl
  rw [BitVec.rotateLeft_def, Nat.mod_eq_of_lt hl]
theorem rr_eq (w : W32) (l : Nat) (hl : l < 32) : rr w l = w.rotateRight l := by
  unfold rr
  rw [BitVec.rotateRight_def, Nat.mod_eq_of_lt hl]

/-- Four words of a list. -/
def quad (k : List W32) (r : Nat) : Four 32 := ⟨k.getD r 0, k.getD (r + 1) 0, k.getD (r + 2) 0, k.getD (r + 3) 0⟩

/-- Subkey `r` in the array of the subkeys. -/
def sk (k : List W32) (r : Nat) : Four 32 := quad k (4 * r)

def lkRest (x : Four 32) : W32 := ((x.b ^^^ x.a.rotateLeft 13 ^^^ x.c.rotateLeft 3).rotateLeft 1) <<< 7
theorem lk_eq (k : List W32) (hk : k.length = 132) (r : Nat) (hr : r ≤ 32) (x : Four 32) (w : W32) : lk k r x.a x.b x.c x.d w =
    .ok ⟨(mix (L x) (sk k r)).a, (mix (L x) (sk k r)).b, (mix (L x) (sk k r)).c, (mix (L x) (sk k r)).d, lkRest
      x⟩ := by
  have e : r <<< 2 = 4 * r := by rw [Nat.shiftLeft_eq]; omega
  unfold lk
  rw [e, rd_getD 0 (by omega), rd_getD 0 (by omega), rd_getD 0 (by omega), rd_getD 0 (by omega)]
  simp (discharger := decide) only [Out.bind_ok, rl_eq]
  rfl

def lkInvRest (x : Four 32) : W32 := (Linv x).a.rotateLeft 13 <<< 3
theorem lkInv_eq (k : List W32) (hk : k.length = 132) (r : Nat) (hr : r ≤ 32) (x : Four 32) (w : W32) : lkInv k r x.a x.b x.c x.d w =
    .ok ⟨(Linv (mix x (sk k r))).a, (Linv (mix x (sk k r))).b, (Linv (mix x (sk k r))).c,
      (Linv (mix x (sk k r))).d, lkInvRest (mix x (sk k r))⟩ := by
  have e : r <<< 2 = 4 * r := by rw [Nat.shiftLeft_eq]; omega
  unfold lkInv
  rw [e, rd_getD 0 (by omega), rd_getD 0 (by omega), rd_getD 0 (by omega), rd_getD 0 (by omega)]
  simp (discharger := decide) only [Out.bind_ok, rr_eq]
  unfold lkInvRest
  simp only [Linv, rotateLeft_rotateRight _ 13 (by decide : 13 < 32)]
  rfl

theorem xor_a (x y : Four 32) : x.a ^^^ y.a = (mix x y).a := rfl
theorem xor_b (x y : Four 32) : x.b ^^^ y.b = (mix x y).b := rfl
theorem xor_c (x y : Four 32) : x.c ^^^ y.c = (mix x y).c := rfl
theorem xor_d (x y : Four 32) : x.d ^^^ y.d = (mix x y).d := rfl

def store (x : Four 32) : Bytes := putLe32 x.a ++ (putLe32 x.b ++ (putLe32 x.c ++ putLe32 x.d))

theorem getLe32_store (x : Four 32) : getLe32 (store x) 0 = .ok x.a ∧ getLe32 (store x) 4 = .ok x.b ∧ getLe32 (store x) 8 = .ok x.c ∧
    getLe32 (store x) 12 = .ok x.d := ⟨getLe32_0 _ _, getLe32_4 _ _ _, getLe32_8 _ _ _ _, getLe32_12 _ _ _ _⟩

/-- One round of the encryption: an S-box from the registers `z`, and the linear transformation with the next subkey. -/
local macro "fwd " e:ident i:num r:num k:ident hk:ident z:ident : tactic =>
  `(tactic| (rw [$e:ident $z]; dsimp only; generalize S $i $z = y; rw [lk_eq $k $hk $r (by decide) y, Out.bind_ok]; dsimp only
             generalize mix (L y) (sk $k $r) = $z))

/-- One round of the decryption. -/
local macro "bwd " e:ident i:num r:num k:ident hk:ident z:ident : tactic =>
  `(tactic| (rw [$e:ident $z]; dsimp only; generalize Sinv $i $z = y; rw [lkInv_eq $k $hk $r (by decide) y, Out.bind_ok]; dsimp only
             generalize Linv (mix y (sk $k $r)) = $z))

theorem range31 : List.range 31 = [0, 1, 2, 3, 4, 5, 6, 7, 8, 9, 10, 11, 12, 13, 14, 15, 16, 17, 18, 19, 20, 21, 22, 23, 24, 25, 26, 27, 28, 29,
      30] := rfl
theorem S_mod : S 8 = S 0 ∧ S 9 = S 1 ∧ S 10 = S 2 ∧ S 11 = S 3 ∧ S 12 = S 4 ∧ S 13 = S 5 ∧ S 14 = S 6 ∧ S 15 = S 7 ∧ S 16 = S 0 ∧ S 17 = S 1 ∧
      S 18 = S 2 ∧ S 19 = S 3 ∧ S 20 = S 4 ∧ S 21 = S 5 ∧ S 22 = S 6 ∧ S 23 = S 7 ∧ S 24 = S 0 ∧ S 25 = S 1 ∧ S 26 = S 2 ∧ S 27 = S 3 ∧ S 28 = S
      4 ∧ S 29 = S 5 ∧ S 30 = S 6 ∧ S 31 = S 7 := by
  unfold S
  simp
theorem Sinv_mod : Sinv 8 = Sinv 0 ∧ Sinv 9 = Sinv 1 ∧ Sinv 10 = Sinv 2 ∧ Sinv 11 = Sinv 3 ∧ Sinv 12 = Sinv 4 ∧ Sinv 13 = Sinv 5 ∧ Sinv 14 =
      Sinv 6 ∧ Sinv 15 = Sinv 7 ∧ Sinv 16 = Sinv 0 ∧ Sinv 17 = Sinv 1 ∧ Sinv 18 = Sinv 2 ∧ Sinv 19 = Sinv 3 ∧ Sinv 20 = Sinv 4 ∧ Sinv 21 = Sinv
      5 ∧ Sinv 22 = Sinv 6 ∧ Sinv 23 = Sinv 7 ∧ Sinv 24 = Sinv 0 ∧ Sinv 25 = Sinv 1 ∧ Sinv 26 = Sinv 2 ∧ Sinv 27 = Sinv 3 ∧ Sinv 28 = Sinv 4 ∧
      Sinv 29 = Sinv 5 ∧ Sinv 30 = Sinv 6 ∧ Sinv 31 = Sinv 7 := by
  unfold Sinv
  simp

theorem spec_enc (k : List W32) (x : Four 32) : Spec.Serpent.encrypt (fun i => sk k i) x =
  mix (S 7 (mix (L (S 6 (mix (L (S 5 (mix (L (S 4 (mix (L (S 3 (mix (L (S 2 (mix (L (S 1 (mix (L (S 0 (mix (L (S 7 (mix (L (S 6 (mix (L (S 5
    (mix (L (S 4 (mix (L (S 3 (mix (L (S 2 (mix (L (S 1 (mix (L (S 0 (mix (L (S 7 (mix (L (S 6 (mix (L (S 5 (mix (L (S 4 (mix (L (S 3 (mix (L
    (S 2 (mix (L (S 1 (mix (L (S 0 (mix (L (S 7 (mix (L (S 6 (mix (L (S 5 (mix (L (S 4 (mix (L (S 3 (mix (L (S 2 (mix (L (S 1 (mix (L (S 0
    (mix x (sk k 0)))) (sk k 1)))) (sk k 2)))) (sk k 3)))) (sk k 4)))) (sk k 5)))) (sk k 6)))) (sk k 7)))) (sk k 8)))) (sk k 9)))) (sk k 10)))) (sk k 11)))) (sk k 12)))) (sk k 13)))) (sk k 14)))) (sk k 15)))) (sk k 16)))) (sk k 17)))) (sk k 18)))) (sk k 19))))
    (sk k 20)))) (sk k 21)))) (sk k 22)))) (sk k 23)))) (sk k 24)))) (sk k 25)))) (sk k 26)))) (sk k 27)))) (sk k 28)))) (sk k 29)))) (sk k 30)))) (sk k 31))) (sk k 32) := by
  unfold Spec.Serpent.encrypt
  rw [range31]
  simp only [List.foldl_cons, List.foldl_nil, S_mod]

theorem encBlock_run (r4 : W32) (k : List W32) (hk : k.length = 132) (x : Four 32) :
    encBlock r4 k (store x) = .ok (store (Spec.Serpent.encrypt (fun i => sk k i) x)) := by
  rw [spec_enc]
  obtain ⟨g0, g1, g2, g3⟩ := getLe32_store x
  unfold encBlock
  rw [g0, g1, g2, g3, show rd k 0 = .ok (sk k 0).a from rd_getD 0 (by omega), show rd k 1 = .ok (sk k 0).b from rd_getD 0 (by omega),
    show rd k 2 = .ok (sk k 0).c from rd_getD 0 (by omega), show rd k 3 = .ok (sk k 0).d from rd_getD 0 (by omega),
    show rd k 128 = .ok (sk k 32).a from rd_getD 0 (by omega), show rd k 129 = .ok (sk k 32).b from rd_getD 0 (by omega),
    show rd k 130 = .ok (sk k 32).c from rd_getD 0 (by omega), show rd k 131 = .ok (sk k 32).d from rd_getD 0 (by omega)]
  rw [Out.bind_ok, Out.bind_ok, Out.bind_ok, Out.bind_ok, Out.bind_ok, Out.bind_ok, Out.bind_ok, Out.bind_ok]
  dsimp only
  rw [xor_a, xor_b, xor_c, xor_d]
  generalize mix x (sk k 0) = z
  fwd sbox0_eq 0 1 k hk z
  fwd sbox1_eq 1 2 k hk z
  fwd sbox2_eq 2 3 k hk z
  fwd sbox3_eq 3 4 k hk z
  fwd sbox4_eq 4 5 k hk z
  fwd sbox5_eq 5 6 k hk z
  fwd sbox6_eq 6 7 k hk z
  fwd sbox7_eq 7 8 k hk z
  fwd sbox0_eq 0 9 k hk z
  fwd sbox1_eq 1 10 k hk z
  fwd sbox2_eq 2 11 k hk z
  fwd sbox3_eq 3 12 k hk z
  fwd sbox4_eq 4 13 k hk z
  fwd sbox5_eq 5 14 k hk z
  fwd sbox6_eq 6 15 k hk z
  fwd sbox7_eq 7 16 k hk z
  fwd sbox0_eq 0 17 k hk z
  fwd sbox1_eq 1 18 k hk z
  fwd sbox2_eq 2 19 k hk z
  fwd sbox3_eq 3 20 k hk z
  fwd sbox4_eq 4 21 k hk z
  fwd sbox5_eq 5 22 k hk z
  fwd sbox6_eq 6 23 k hk z
  fwd sbox7_eq 7 24 k hk z
  fwd sbox0_eq 0 25 k hk z
  fwd sbox1_eq 1 26 k hk z
  fwd sbox2_eq 2 27 k hk z
  fwd sbox3_eq 3 28 k hk z
  fwd sbox4_eq 4 29 k hk z
  fwd sbox5_eq 5 30 k hk z
  fwd sbox6_eq 6 31 k hk z
  rw [sbox7_eq z]
  rfl

theorem spec_dec (k : List W32) (x : Four 32) : Spec.Serpent.decrypt (fun i => sk k i) x =
  mix (Sinv 0 (Linv (mix (Sinv 1 (Linv (mix (Sinv 2 (Linv (mix (Sinv 3 (Linv (mix (Sinv 4 (Linv (mix (Sinv 5 (Linv (mix (Sinv 6 (Linv (mix
    (Sinv 7 (Linv (mix (Sinv 0 (Linv (mix (Sinv 1 (Linv (mix (Sinv 2 (Linv (mix (Sinv 3 (Linv (mix (Sinv 4 (Linv (mix (Sinv 5 (Linv (mix (Sinv
    6 (Linv (mix (Sinv 7 (Linv (mix (Sinv 0 (Linv (mix (Sinv 1 (Linv (mix (Sinv 2 (Linv (mix (Sinv 3 (Linv (mix (Sinv 4 (Linv (mix (Sinv 5
    (Linv (mix (Sinv 6 (Linv (mix (Sinv 7 (Linv (mix (Sinv 0 (Linv (mix (Sinv 1 (Linv (mix (Sinv 2 (Linv (mix (Sinv 3 (Linv (mix (Sinv 4 (Linv
    (mix (Sinv 5 (Linv (mix (Sinv 6 (Linv (mix (Sinv 7 (mix x (sk k 32))) (sk k 31)))) (sk k 30)))) (sk k 29))))
    (sk k 28)))) (sk k 27)))) (sk k 26)))) (sk k 25)))) (sk k 24)))) (sk k 23)))) (sk k 22)))) (sk k 21)))) (sk k 20)))) (sk k 19)))) (sk k 18)))) (sk k 17)))) (sk k 16))))
    (sk k 15)))) (sk k 14)))) (sk k 13)))) (sk k 12)))) (sk k 11)))) (sk k 10)))) (sk k 9)))) (sk k 8)))) (sk k 7)))) (sk k 6)))) (sk k 5)))) (sk k 4)))) (sk k 3)))) (sk k 2)))) (sk k 1)))) (sk k 0) := by
  unfold Spec.Serpent.decrypt
  rw [range31]
  simp only [List.reverse_cons, List.reverse_nil, List.nil_append, List.cons_append, List.foldl_cons, List.foldl_nil, Sinv_mod]

theorem decBlock_run (r4 : W32) (k : List W32) (hk : k.length = 132) (x : Four 32) :
    decBlock r4 k (store x) = .ok (store (Spec.Serpent.decrypt (fun i => sk k i) x)) := by
  rw [spec_dec]
  obtain ⟨g0, g1, g2, g3⟩ := getLe32_store x
  unfold decBlock
  rw [g0, g1, g2, g3, show rd k 0 = .ok (sk k 0).a from rd_getD 0 (by omega), show rd k 1 = .ok (sk k 0).b from rd_getD 0 (by omega),
    show rd k 2 = .ok (sk k 0).c from rd_getD 0 (by omega), show rd k 3 = .ok (sk k 0).d from rd_getD 0 (by omega),
    show rd k 128 = .ok (sk k 32).a from rd_getD 0 (by omega), show rd k 129 = .ok (sk k 32).b from rd_getD 0 (by omega),
    show rd k 130 = .ok (sk k 32).c from rd_getD 0 (by omega), show rd k 131 = .ok (sk k 32).d from rd_getD 0 (by omega)]
  rw [Out.bind_ok, Out.bind_ok, Out.bind_ok, Out.bind_ok, Out.bind_ok, Out.bind_ok, Out.bind_ok, Out.bind_ok]
  dsimp only
  rw [xor_a, xor_b, xor_c, xor_d]
  generalize mix x (sk k 32) = z
  bwd inv7_eq 7 31 k hk z
  bwd inv6_eq 6 30 k hk z
  bwd inv5_eq 5 29 k hk z
  bwd inv4_eq 4 28 k hk z
  bwd inv3_eq 3 27 k hk z
  bwd inv2_eq 2 26 k hk z
  bwd inv1_eq 1 25 k hk z
  bwd inv0_eq 0 24 k hk z
  bwd inv7_eq 7 23 k hk z
  bwd inv6_eq 6 22 k hk z
  bwd inv5_eq 5 21 k hk z
  bwd inv4_eq 4 20 k hk z
  bwd inv3_eq 3 19 k hk z
  bwd inv2_eq 2 18 k hk z
  bwd inv1_eq 1 17 k hk z
  bwd inv0_eq 0 16 k hk z
  bwd inv7_eq 7 15 k hk z
  bwd inv6_eq 6 14 k hk z
  bwd inv5_eq 5 13 k hk z
  bwd inv4_eq 4 12 k hk z
  bwd inv3_eq 3 11 k hk z
  bwd inv2_eq 2 10 k hk z
  bwd inv1_eq 1 9 k hk z
  bwd inv0_eq 0 8 k hk z
  bwd inv7_eq 7 7 k hk z
  bwd inv6_eq 6 6 k hk z
  bwd inv5_eq 5 5 k hk z
  bwd inv4_eq 4 4 k hk z
  bwd inv3_eq 3 3 k hk z
  bwd inv2_eq 2 2 k hk z
  bwd inv1_eq 1 1 k hk z
  rw [inv0_eq z]
  rfl

/-! ## Decryption undoes encryption -/

theorem slice_slice (t t' : List Nat) (h : ∀ a b c d, bit t' 0 (bit t 0 a b c d) (bit t 1 a b c d) (bit t 2 a b c d) (bit t 3 a b c d) = a ∧
    bit t' 1 (bit t 0 a b c d) (bit t 1 a b c d) (bit t 2 a b c d) (bit t 3 a b c d) = b ∧
    bit t' 2 (bit t 0 a b c d) (bit t 1 a b c d) (bit t 2 a b c d) (bit t 3 a b c d) = c ∧
    bit t' 3 (bit t 0 a b c d) (bit t 1 a b c d) (bit t 2 a b c d) (bit t 3 a b c d) = d) (x : Four 32) : slice t' (slice t x) = x := by
  obtain ⟨p, q, r, s⟩ := x
  unfold slice
  simp only [Four.mk.injEq]
  refine ⟨?_, ?_, ?_, ?_⟩ <;> apply BitVec.eq_of_getLsbD_eq <;> intro i hi <;> simp only [word_bit _ i hi]
  · exact (h _ _ _ _).1
  · exact (h _ _ _ _).2.1
  · exact (h _ _ _ _).2.2.1
  · exact (h _ _ _ _).2.2.2

theorem Sinv_S (i : Nat) (x : Four 32) : Sinv i (S i x) = x := by
  unfold Sinv S
  have hi := Nat.mod_lt i (by decide : 0 < 8)
  generalize i % 8 = j at hi
  apply slice_slice
  interval_cases j <;> decide

theorem S_Sinv (i : Nat) (x : Four 32) : S i (Sinv i x) = x := by
  unfold Sinv S
  have hi := Nat.mod_lt i (by decide : 0 < 8)
  generalize i % 8 = j at hi
  apply slice_slice
  interval_cases j <;> decide

theorem xor_ac (a b c : W32) : a ^^^ b ^^^ c ^^^ b ^^^ c = a := by
  rw [show a ^^^ b ^^^ c ^^^ b ^^^ c = a ^^^ (b ^^^ b) ^^^ (c ^^^ c) by ac_rfl, BitVec.xor_self, BitVec.xor_self, BitVec.xor_zero, BitVec.xor_zero]

theorem xor_cb (a b c : W32) : a ^^^ b ^^^ c ^^^ c ^^^ b = a := by rw [xor_cancel_right, xor_cancel_right]

theorem Linv_L (x : Four 32) : Linv (L x) = x := by
  simp (discharger := decide) only [L, Linv, rotateRight_rotateLeft, xor_ac, xor_cb]

theorem L_Linv (x : Four 32) : L (Linv x) = x := by
  simp (discharger := decide) only [L, Linv, rotateLeft_rotateRight, xor_ac, xor_cb]

theorem mix_mix (x y : Four 32) : mix (mix x y) y = x := by
  unfold mix
  simp only [xor_cancel_right]

theorem decrypt_encrypt (K : Nat → Four 32) (x : Four 32) : Spec.Serpent.decrypt K (Spec.Serpent.encrypt K x) = x := by
  unfold Spec.Serpent.decrypt Spec.Serpent.encrypt
  simp only [mix_mix, Sinv_S]
  exact foldl_undo (fun x i => L (S i (mix x (K i)))) (fun x i => mix (Sinv i (Linv x)) (K i))
    (fun a i => by simp only [Linv_L, Sinv_S, mix_mix]) _ x

theorem encrypt_decrypt (K : Nat → Four 32) (x : Four 32) : Spec.Serpent.encrypt K (Spec.Serpent.decrypt K x) = x := by
  unfold Spec.Serpent.decrypt Spec.Serpent.encrypt
  simp only []
  rw [foldl_undo' (fun x i => L (S i (mix x (K i)))) (fun x i => mix (Sinv i (Linv x)) (K i))
    (fun a i => by simp only [mix_mix, S_Sinv, L_Linv])]
  simp only [mix_mix, S_Sinv]

theorem store_surj (b : Bytes) (h : b.length = 16) : ∃ x, store x = b := by
  obtain ⟨⟨p, q, r, s⟩, e⟩ := le4_surj b h
  exact ⟨⟨p, q, r, s⟩, e⟩

theorem block_invertible (r4 r4' : W32) (k : List W32) (hk : k.length = 132) : Invertible 16 (encBlock r4 k) (decBlock r4' k) :=
  Invertible.ofState store store_surj (fun _ => rfl) (Spec.Serpent.encrypt (sk k)) (Spec.Serpent.decrypt (sk k)) (encBlock_run r4 k hk)
    (decBlock_run r4' k hk) (decrypt_encrypt _) (encrypt_decrypt _)

/-! ## The key schedule -/

theorem ldRegs_eq (tw : List W32) (r : Nat) (h : r + 3 < tw.length) :
    ldRegs tw r = .ok ⟨(quad tw r).a, (quad tw r).b, (quad tw r).c, (quad tw r).d⟩ := by
  unfold ldRegs
  rw [rd_getD 0 (by omega), rd_getD 0 (by omega), rd_getD 0 (by omega), rd_getD 0 (by omega)]
  rfl

theorem stoKey_eq (r : Nat) (a b c e : W32) (d : List W32) : stoKey (List.replicate (r + 4) 0 ++ d) a b c e r =
    .ok (List.replicate r 0 ++ ([a, b, c, e] ++ d)) := by
  have h1 : List.replicate (r + 4) (0 : W32) ++ d = List.replicate r 0 ++ ([0, 0, 0, 0] ++ d) := by
    rw [← List.append_assoc, show ([0, 0, 0, 0] : List W32) = List.replicate 4 0 from rfl, List.replicate_append_replicate]
  rw [h1]
  generalize hp : List.replicate r (0 : W32) = p
  have hl : p.length = r := by rw [← hp, List.length_replicate]
  subst hl
  unfold stoKey
  have w : ∀ (j : Nat) (l : List W32) (v : W32), j < l.length → wr (p ++ l) (p.length + j) v = .ok (p ++ l.set j v) := fun j l v hj => by
    rw [wr_of_lt (by rw [List.length_append]; omega), List.set_append_right _ _ (by omega), Nat.add_sub_cancel_left]
  have w0 := fun l v h => w 0 l v h
  simp only [Nat.add_zero] at w0
  rw [w0 _ _ (by simp), Out.bind_ok, w _ _ _ (by simp), Out.bind_ok, w _ _ _ (by simp), Out.bind_ok, w _ _ _ (by simp)]
  rfl

/-- One subkey: an S-box from the registers `quad tw q`, the store at `r` and the load of the next words. -/
local macro "key " e:ident q:num r:num n:num tw:ident hl:ident : tactic =>
  `(tactic| (rw [$e:ident (quad $tw $q)]; dsimp only; rw [stoKey_eq $r, Out.bind_ok, ldRegs_eq $tw $n (by rw [$hl:ident]; decide), Out.bind_ok]; dsimp only))

theorem range33 : List.range 33 = [0, 1, 2, 3, 4, 5, 6, 7, 8, 9, 10, 11, 12, 13, 14, 15, 16, 17, 18, 19, 20, 21, 22, 23, 24, 25, 26, 27, 28, 29, 30, 31, 32] := rfl

theorem subkeys_run (tw : List W32) (hl : tw.length = 140) :
    subkeys tw (List.replicate 132 0) = .ok ((List.range 33).flatMap fun i => (S (35 - i) (quad tw (4 * i + 8))).words) := by
  unfold subkeys
  rw [show rd tw (140 - 2) = .ok (quad tw 136).c from rd_getD 0 (by omega), show rd tw (140 - 1) = .ok (quad tw 136).d from rd_getD 0 (by omega),
    show rd tw (140 - 5) = .ok (tw.getD 135 0) from rd_getD 0 (by omega), show rd tw (140 - 4) = .ok (quad tw 136).a from rd_getD 0 (by omega),
    show rd tw (140 - 3) = .ok (quad tw 136).b from rd_getD 0 (by omega), Out.bind_ok, Out.bind_ok, Out.bind_ok, Out.bind_ok, Out.bind_ok,
    show List.replicate 132 (0 : W32) = List.replicate 132 0 ++ [] from (List.append_nil _).symm]
  dsimp only
  key sbox3_eq 136 128 132 tw hl
  key sbox4_eq 132 124 128 tw hl
  key sbox5_eq 128 120 124 tw hl
  key sbox6_eq 124 116 120 tw hl
  key sbox7_eq 120 112 116 tw hl
  key sbox0_eq 116 108 112 tw hl
  key sbox1_eq 112 104 108 tw hl
  key sbox2_eq 108 100 104 tw hl
  key sbox3_eq 104 96 100 tw hl
  key sbox4_eq 100 92 96 tw hl
  key sbox5_eq 96 88 92 tw hl
  key sbox6_eq 92 84 88 tw hl
  key sbox7_eq 88 80 84 tw hl
  key sbox0_eq 84 76 80 tw hl
  key sbox1_eq 80 72 76 tw hl
  key sbox2_eq 76 68 72 tw hl
  key sbox3_eq 72 64 68 tw hl
  key sbox4_eq 68 60 64 tw hl
  key sbox5_eq 64 56 60 tw hl
  key sbox6_eq 60 52 56 tw hl
  key sbox7_eq 56 48 52 tw hl
  key sbox0_eq 52 44 48 tw hl
  key sbox1_eq 48 40 44 tw hl
  key sbox2_eq 44 36 40 tw hl
  key sbox3_eq 40 32 36 tw hl
  key sbox4_eq 36 28 32 tw hl
  key sbox5_eq 32 24 28 tw hl
  key sbox6_eq 28 20 24 tw hl
  key sbox7_eq 24 16 20 tw hl
  key sbox0_eq 20 12 16 tw hl
  key sbox1_eq 16 8 12 tw hl
  key sbox2_eq 12 4 8 tw hl
  rw [sbox3_eq (quad tw 8)]
  dsimp only
  have e : S 32 = S 0 ∧ S 33 = S 1 ∧ S 34 = S 2 ∧ S 35 = S 3 := by unfold S; simp
  rw [stoKey_eq 0]
  generalize hr : (List.range 33).flatMap _ = r
  simp only [range33, List.flatMap_cons, List.flatMap_nil, Four.words, Nat.reduceSub, Nat.reduceMul, Nat.reduceAdd, S_mod, e, List.append_nil] at hr
  rw [← hr]
  rw [List.replicate_zero, List.nil_append]
  simp only [List.append_nil]

theorem rot64 (x : W32) : ((x.setWidth 64 <<< 11 ||| x.setWidth 64 >>> (32 - 11)).setWidth 32 : W32) = x.rotateLeft 11 := by
  apply BitVec.eq_of_getLsbD_eq
  intro i hi
  interval_cases i <;> simp

theorem length_prekeys (key : Bytes) : ∀ n, (Spec.Serpent.prekeys key n).length = 8 + n
  | 0 => rfl
  | n + 1 => by rw [Spec.Serpent.prekeys, List.length_append, length_prekeys key n]; rfl

theorem twStep_run (key : Bytes) (i : Nat) (hi : i < 132) (t : List W32) (ht : t ≠ []) :
    twStep (8 + i) (Spec.Serpent.prekeys key i ++ t) = .ok (Spec.Serpent.prekeys key (i + 1) ++ t.drop 1) := by
  have hl := length_prekeys key i
  have hr : ∀ j, j < 8 + i → rd (Spec.Serpent.prekeys key i ++ t) j = .ok ((Spec.Serpent.prekeys key i).getD j 0) := fun j hj => by
    rw [rd_getD 0 (by rw [List.length_append]; omega), List.getD_eq_getElem?_getD, List.getElem?_append_left (by omega),
      List.getD_eq_getElem?_getD]
  unfold twStep
  rw [show 8 + i - 8 = i by omega, show 8 + i - 5 = i + 3 by omega, show 8 + i - 3 = i + 5 by omega, show 8 + i - 1 = i + 7 by omega, hr _ (by omega),
    hr _ (by omega), hr _ (by omega), hr _ (by omega)]
  simp only [Out.bind_ok]
  have e : ∀ x : W32, x.setWidth 64 ^^^ BitVec.ofNat 64 i = (x ^^^ BitVec.ofNat 32 i).setWidth 64 := fun x => by
    rw [BitVec.setWidth_xor]
    congr 1
    apply BitVec.eq_of_toNat_eq
    rw [BitVec.toNat_ofNat, BitVec.toNat_setWidth, BitVec.toNat_ofNat]
    omega
  rw [e, rot64, wr_of_lt (by rw [List.length_append]; have := List.length_pos_iff.mpr ht; omega), List.set_append_right _ _ (by omega),
    show 8 + i - (Spec.Serpent.prekeys key i).length = 0 by omega]
  match t, ht with
  | c :: t, _ =>
    rw [Spec.Serpent.prekeys]
    simp only [List.set_cons_zero, List.drop_succ_cons, List.drop_zero, List.append_assoc, List.cons_append, List.nil_append]
    rfl

theorem tw_run (key : Bytes) : forLoop twStep 132 8 (Spec.Serpent.prekeys key 0 ++ List.replicate 132 0) = .ok (Spec.Serpent.prekeys key 132) := by
  obtain ⟨s, h1, h2⟩ := forLoop_inv twStep (fun t s => 8 ≤ t ∧ s = Spec.Serpent.prekeys key (t - 8) ++ List.replicate (140 - t) 0) 132 8
    (Spec.Serpent.prekeys key 0 ++ List.replicate 132 0)
    (fun t s ht hlt e => by
      obtain ⟨e1, rfl⟩ := e
      refine ⟨_, ?_, by omega, rfl⟩
      have := twStep_run key (t - 8) (by omega) (List.replicate (140 - t) 0) (by
        intro e
        have := congrArg List.length e
        rw [List.length_replicate] at this
        simp only [List.length_nil] at this
        omega)
      rw [show 8 + (t - 8) = t by omega, show t - 8 + 1 = t + 1 - 8 by omega, List.drop_replicate, show 140 - t - 1 = 140 - (t + 1) by omega] at this
      exact this) ⟨Nat.le_refl 8, rfl⟩
  rw [h1, h2.2]
  show Out.ok (Spec.Serpent.prekeys key 132 ++ []) = _
  rw [List.append_nil]

theorem le_word (a b c d : Byte) : (a.setWidth 32 ||| b.setWidth 32 <<< 8 ||| c.setWidth 32 <<< 16 ||| d.setWidth 32 <<< 24 : W32) = be32 d c b a := by
  unfold be32
  generalize d.setWidth 32 <<< 24 = p, c.setWidth 32 <<< 16 = q, b.setWidth 32 <<< 8 = r, (a.setWidth 32 : W32) = t
  rw [BitVec.or_comm, BitVec.or_comm (t ||| r), BitVec.or_comm t, ← BitVec.or_assoc, ← BitVec.or_assoc]

theorem leNat_drop (l : Bytes) (n : Nat) (h : n ≤ l.length) : Spec.MD.leNat l / 256 ^ n = Spec.MD.leNat (l.drop n) := by
  have hl : (l.take n).length = n := by rw [List.length_take]; omega
  have h1 := SipHash.leNat_lt (l.take n)
  conv_lhs => rw [← List.take_append_drop n l, SipHash.leNat_append, hl]
  rw [hl] at h1
  rw [Nat.add_mul_div_left _ _ (by positivity), Nat.div_eq_of_lt h1, Nat.zero_add]

theorem ldKey_run (p : Bytes) (h : p.length = 32) :
    ldKey p = .ok ((List.range 8).map fun i => BitVec.ofNat 32 (Spec.MD.leNat p / 2 ^ (32 * i))) := by
  unfold ldKey
  apply mapM_ok
  intro w hw
  have hw := List.mem_range.mp hw
  have e : (2 : Nat) ^ (32 * w) = 256 ^ (4 * w) := by rw [show (256 : Nat) = 2 ^ 8 from rfl, ← Nat.pow_mul]; congr 1; omega
  have hd : (p.drop (4 * w)).length = 32 - 4 * w := by rw [List.length_drop, h]
  have hr : ∀ j, j < 4 → rd p (4 * w + j) = .ok ((p.drop (4 * w)).getD j 0) := fun j hj => by
    rw [rd_getD 0 (by omega), List.getD_eq_getElem?_getD, List.getD_eq_getElem?_getD, List.getElem?_drop]
  rw [e, leNat_drop p (4 * w) (by omega), hr 1 (by decide), hr 2 (by decide), hr 3 (by decide), show rd p (4 * w) = _ from hr 0 (by decide)]
  generalize p.drop (4 * w) = l at hd
  match l, hd with
  | a :: b :: c :: d :: l, _ =>
    simp only [Out.bind_ok, List.getD_cons_zero, List.getD_cons_succ, le_word, SipHash.leNat_cons]
    refine congrArg Out.ok (BitVec.eq_of_toNat_eq ?_)
    rw [be32_toNat, BitVec.toNat_ofNat]
    have := a.isLt; have := b.isLt; have := c.isLt; have := d.isLt
    omega
  | [], hd | [_], hd | [_, _], hd | [_, _, _], hd => simp only [List.length_cons, List.length_nil] at hd; omega

theorem padKey_run (key : Bytes) (h : key.length ≤ 32) : ∃ p, padKey key = .ok p ∧ p.length = 32 ∧ Spec.MD.leNat p = Spec.Serpent.keyNat key := by
  unfold padKey Spec.Serpent.keyNat
  by_cases hk : key.length < 32
  · rw [if_pos hk, if_pos hk, wr_of_lt (by rw [List.length_append, List.length_replicate]; omega)]
    refine ⟨_, rfl, by rw [List.length_set, List.length_append, List.length_replicate]; omega, ?_⟩
    rw [List.set_append_right _ _ (by omega), Nat.sub_self, show 32 - key.length = (31 - key.length) + 1 by omega, List.replicate_succ, List.set_cons_zero,
      SipHash.leNat_append, SipHash.leNat_cons, show List.replicate (31 - key.length) (0 : Byte) = List.replicate _ 0#8 from rfl, SipHash.leNat_zeros]
    simp
  · rw [if_neg hk, if_pos (by omega), if_neg hk]
    exact ⟨_, rfl, by omega, rfl⟩

theorem schedule_run (key : Bytes) (h : key.length ≤ 32) : schedule key =
    .ok ((List.range 33).flatMap fun i => (S (35 - i) (quad (Spec.Serpent.prekeys key 132) (4 * i + 8))).words) := by
  obtain ⟨p, h1, h2, h3⟩ := padKey_run key h
  unfold schedule
  rw [h1, Out.bind_ok, ldKey_run p h2, Out.bind_ok, h3]
  have := tw_run key
  rw [show Spec.Serpent.prekeys key 0 = (List.range 8).map fun i => BitVec.ofNat 32 (Spec.Serpent.keyNat key / 2 ^ (32 * i)) from rfl] at this
  rw [this, Out.bind_ok, subkeys_run _ (length_prekeys key 132)]

theorem quad_flatMap (f : Nat → Four 32) (n i t : Nat) (hi : i < n) : quad ((List.range' t n).flatMap fun i => (f i).words) (4 * i) = f (t + i) := by
  induction n generalizing i t with
  | zero => omega
  | succ n ih =>
    rw [List.range'_succ, List.flatMap_cons]
    cases i with
    | zero => rfl
    | succ i =>
      have := ih i (t + 1) (by omega)
      rw [show t + (i + 1) = t + 1 + i by omega, ← this]
      unfold quad
      have e : ∀ (w : Four 32) (l : List W32) (j : Nat), (w.words ++ l).getD (4 + j) 0 = l.getD j 0 := fun w l j => by
        rw [Nat.add_comm]; rfl
      rw [show 4 * (i + 1) = 4 + 4 * i by omega, Nat.add_assoc 4, Nat.add_assoc 4, Nat.add_assoc 4, e, e, e, e]

theorem length_flatMap (f : Nat → Four 32) (l : List Nat) : (l.flatMap fun i => (f i).words).length = 4 * l.length := by
  induction l with
  | nil => rfl
  | cons a l ih => rw [List.flatMap_cons, List.length_append, ih, List.length_cons]; show 4 + _ = _; omega

theorem sk_run (key : Bytes) (i : Nat) (hi : i ≤ 32) :
    sk ((List.range 33).flatMap fun i => (S (35 - i) (quad (Spec.Serpent.prekeys key 132) (4 * i + 8))).words) i = Spec.Serpent.subkey key i := by
  unfold sk
  rw [List.range_eq_range', quad_flatMap _ 33 i 0 (by omega), Nat.zero_add]
  unfold Spec.Serpent.subkey quad
  simp only []
  have e : ∀ j, ((Spec.Serpent.prekeys key 132).drop 8).getD j 0 = (Spec.Serpent.prekeys key 132).getD (j + 8) 0 := fun j => by
    rw [List.getD_eq_getElem?_getD, List.getD_eq_getElem?_getD, List.getElem?_drop, Nat.add_comm]
  rw [e, e, e, e]

theorem foldl_eq {α : Type} (f g : α → Nat → α) : ∀ (l : List Nat), (∀ a i, i ∈ l → f a i = g a i) → ∀ a, l.foldl f a = l.foldl g a
  | [], _, _ => rfl
  | i :: l, h, a => by
    rw [List.foldl_cons, List.foldl_cons, h a i (by simp), foldl_eq f g l (fun a j hj => h a j (by simp [hj]))]

theorem encrypt_congr (K K' : Nat → Four 32) (h : ∀ i, i ≤ 32 → K i = K' i) (x : Four 32) :
    Spec.Serpent.encrypt K x = Spec.Serpent.encrypt K' x := by
  unfold Spec.Serpent.encrypt
  rw [h 31 (by decide), h 32 (by decide), foldl_eq _ (fun x i => L (S i (mix x (K' i)))) _
    (fun a i hi => by rw [h i (by have := List.mem_range.mp hi; omega)])]

theorem decrypt_congr (K K' : Nat → Four 32) (h : ∀ i, i ≤ 32 → K i = K' i) (x : Four 32) :
    Spec.Serpent.decrypt K x = Spec.Serpent.decrypt K' x := by
  unfold Spec.Serpent.decrypt
  rw [h 31 (by decide), h 32 (by decide), foldl_eq _ (fun x i => mix (Sinv i (Linv x)) (K' i)) _
    (fun a i hi => by rw [h i (by have := List.mem_range.mp (List.mem_reverse.mp hi); omega)])]

/-! ## Main theorems -/

/-- Serpent is computed as published, for all keys of up to 32 bytes and all blocks, whatever the register `r4` holds at first. -/
theorem serpent_standard_partial (r4 : W32) (key : Bytes) (h : key.length ≤ 32) (x : Four 32) :
    enc r4 key (store x) = .ok (store (Spec.Serpent.encrypt (Spec.Serpent.subkey key) x)) ∧
    dec r4 key (store x) = .ok (store (Spec.Serpent.decrypt (Spec.Serpent.subkey key) x)) := by
  unfold enc dec
  rw [schedule_run key h, Out.bind_ok, Out.bind_ok, encBlock_run _ _ (length_flatMap _ _), decBlock_run _ _ (length_flatMap _ _)]
  rw [encrypt_congr _ _ (sk_run key), decrypt_congr _ _ (sk_run key)]
  exact ⟨rfl, rfl⟩

/-- Decryption undoes encryption and the other way round, for all keys of up to 32 bytes. -/
theorem serpent_invertible_partial (r4 r4' : W32) (key : Bytes) (h : key.length ≤ 32) : Invertible 16 (enc r4 key) (dec r4' key) := by
  have := block_invertible r4 r4' _ (length_flatMap (fun i => S (35 - i) (quad (Spec.Serpent.prekeys key 132) (4 * i + 8))) (List.range 33))
  have e1 : ∀ r, enc r key = encBlock r ((List.range 33).flatMap fun i => (S (35 - i) (quad (Spec.Serpent.prekeys key 132) (4 * i + 8))).words) :=
    fun r => funext fun b => by unfold enc; rw [schedule_run key h, Out.bind_ok]
  have e2 : ∀ r, dec r key = decBlock r ((List.range 33).flatMap fun i => (S (35 - i) (quad (Spec.Serpent.prekeys key 132) (4 * i + 8))).words) :=
    fun r => funext fun b => by unfold dec; rw [schedule_run key h, Out.bind_ok]
  rw [e1, e2]
  exact this

/-- Keys of more than 32 bytes, which the setup accepts, are copied past the end of `padded_ukey`. -/
theorem serpent_long_key_undefined (r4 : W32) (key block : Bytes) (h : 32 < key.length) : enc r4 key block = .ub ∧ dec r4 key block = .ub := by
  have e : schedule key = .ub := by
    unfold schedule padKey
    rw [if_neg (by omega), if_neg (by omega)]
    rfl
  unfold enc dec
  rw [e]
  exact ⟨rfl, rfl⟩

example (x : Four 32) : enc 7 (ascii "a key of sixteen") (store x) =
    .ok (store (Spec.Serpent.encrypt (Spec.Serpent.subkey (ascii "a key of sixteen")) x)) := (serpent_standard_partial 7 _ (by decide) x).1
example : Invertible 16 (enc 1 [1, 2, 3]) (dec 2 [1, 2, 3]) := serpent_invertible_partial 1 2 _ (by decide)
example : enc 0 (List.replicate 33 1) (List.replicate 16 0) = .ub := (serpent_long_key_undefined 0 _ _ (by simp)).1

end Kryptos.Serpent
