import Verif.Model.Camellia
import Verif.Spec.Camellia
import Verif.Lemmas.Rot
import Verif.Lemmas.Aes
import Verif.Lemmas.KeyWords
import Mathlib.Tactic.IntervalCases
/-
  The S-boxes of Camellia are those of its specification.
-/
namespace Kryptos.Camellia
open Block KeyLoad

/-! ### The S-boxes -/

theorem basis_eq : Spec.Camellia.basis = [1, 108, 18, 7, 2, 216, 36, 14] := by decide +kernel

/-- `element` with the basis written out. -/
def elementL (a : Nat) : Nat := [(1, 0), (108, 1), (18, 2), (7, 3), (2, 4), (216, 5), (36, 6), (14, 7)].foldl (fun s p => if a.testBit p.2 then s ^^^ p.1 else s) 0

theorem element_eq (a : Nat) : Spec.Camellia.element a = elementL a := by
  rw [Spec.Camellia.element, basis_eq]; rfl

def elements : List Nat :=
  [0, 1, 108, 109, 18, 19, 126, 127, 7, 6, 107, 106, 21, 20, 121, 120, 2, 3, 110, 111, 16, 17, 124, 125, 5, 4, 105, 104, 23, 22, 123, 122,
  216, 217, 180, 181, 202, 203, 166, 167, 223, 222, 179, 178, 205, 204, 161, 160, 218, 219, 182, 183, 200, 201, 164, 165, 221, 220, 177, 176,
  207, 206, 163, 162, 36, 37, 72, 73, 54, 55, 90, 91, 35, 34, 79, 78, 49, 48, 93, 92, 38, 39, 74, 75, 52, 53, 88, 89, 33, 32, 77, 76, 51, 50,
  95, 94, 252, 253, 144, 145, 238, 239, 130, 131, 251, 250, 151, 150, 233, 232, 133, 132, 254, 255, 146, 147, 236, 237, 128, 129, 249, 248,
  149, 148, 235, 234, 135, 134, 14, 15, 98, 99, 28, 29, 112, 113, 9, 8, 101, 100, 27, 26, 119, 118, 12, 13, 96, 97, 30, 31, 114, 115, 11, 10,
  103, 102, 25, 24, 117, 116, 214, 215, 186, 187, 196, 197, 168, 169, 209, 208, 189, 188, 195, 194, 175, 174, 212, 213, 184, 185, 198, 199,
  170, 171, 211, 210, 191, 190, 193, 192, 173, 172, 42, 43, 70, 71, 56, 57, 84, 85, 45, 44, 65, 64, 63, 62, 83, 82, 40, 41, 68, 69, 58, 59,
  86, 87, 47, 46, 67, 66, 61, 60, 81, 80, 242, 243, 158, 159, 224, 225, 140, 141, 245, 244, 153, 152, 231, 230, 139, 138, 240, 241, 156, 157,
  226, 227, 142, 143, 247, 246, 155, 154, 229, 228, 137, 136]

theorem elements_eq : (List.range 256).map elementL = elements := by decide +kernel

/-- All 256 entries. -/
theorem s1_entries : (List.range 256).all (fun a => Nat.beq (Nat.xor (Spec.Camellia.h (elements.idxOf (Spec.Camellia.inverse (elementL (Spec.Camellia.f (Nat.xor 0xC5 a)))))) 0x6E) (s1.getD a 0).toNat) = true := by
  decide +kernel

attribute [local irreducible] s1 s2 s3 s4 elements

theorem length_s1 : s1.length = 256 := by decide +kernel

theorem s1_spec (x : Byte) : Spec.Camellia.s1 x = s1.getD x.toNat 0 := by
  have h := List.all_eq_true.1 s1_entries x.toNat (List.mem_range.2 x.isLt)
  have e : Spec.Camellia.h (Spec.Camellia.g (Spec.Camellia.f (0xC5 ^^^ x.toNat))) ^^^ 0x6E = (s1.getD x.toNat 0).toNat := by
    have g : ∀ a, Spec.Camellia.g a = elements.idxOf (Spec.Camellia.inverse (elementL a)) := fun a => by
      rw [Spec.Camellia.g, element_eq, show Spec.Camellia.element = elementL from funext element_eq, elements_eq]
    rw [g]
    exact Nat.eq_of_beq_eq_true h
  rw [Spec.Camellia.s1, e, BitVec.ofNat_toNat, BitVec.setWidth_eq]

theorem s2_entries : s2 = s1.map (BitVec.rotateLeft · 1) := by decide +kernel
theorem s3_entries : s3 = s1.map (BitVec.rotateLeft · 7) := by decide +kernel
theorem s4_entries : s4 = (List.range 256).map fun i => s1.getD ((BitVec.ofNat 8 i).rotateLeft 1).toNat 0 := by decide +kernel

theorem rd_s1 (x : Byte) : rd s1 x.toNat = .ok (Spec.Camellia.s1 x) := by
  rw [rd_getD 0 (by rw [length_s1]; exact x.isLt), s1_spec]
theorem rd_map (f : Byte → Byte) (x : Byte) : rd (s1.map f) x.toNat = .ok (f (Spec.Camellia.s1 x)) := by
  have h : x.toNat < s1.length := by rw [length_s1]; exact x.isLt
  apply rd_of_some
  rw [s1_spec, List.getElem?_map, List.getD_eq_getElem?_getD, List.getElem?_eq_getElem h]
  rfl
theorem rd_s2 (x : Byte) : rd s2 x.toNat = .ok (Spec.Camellia.s2 x) := by rw [s2_entries, rd_map]; rfl
theorem rd_s3 (x : Byte) : rd s3 x.toNat = .ok (Spec.Camellia.s3 x) := by rw [s3_entries, rd_map]; rfl
theorem rd_s4 (x : Byte) : rd s4 x.toNat = .ok (Spec.Camellia.s4 x) := by
  apply rd_of_some
  rw [s4_entries, List.getElem?_map, List.getElem?_range x.isLt, Option.map_some, Spec.Camellia.s4, s1_spec, BitVec.ofNat_toNat, BitVec.setWidth_eq]

end Kryptos.Camellia
