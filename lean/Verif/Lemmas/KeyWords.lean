import Verif.Props.KeyLoad
import Verif.Lemmas.Endian
import Verif.Lemmas.Hash
import Verif.Lemmas.Rot
/-
  The words loaded from a key, and its bytes.
-/
namespace Kryptos

/-- A loop that writes the elements of a list one after the other, next to another value. -/
theorem forLoop_fill {α β : Type} (body : Nat → List α × β → Out (List α × β)) (f : Nat → α) (Q : Nat → β → Prop) (n : Nat) (l : List α) (b : β)
    (hl : n ≤ l.length) (hb : Q 0 b)
    (h : ∀ i l' b, i < n → l'.length = l.length → l'.drop i = l.drop i → Q i b → ∃ b', body i (l', b) = .ok (l'.set i (f i), b') ∧ Q (i + 1) b') :
    ∃ b', forLoop body n 0 (l, b) = .ok ((List.range n).map f ++ l.drop n, b') := by
  obtain ⟨⟨l', b'⟩, h1, h2, h3⟩ := forLoop_inv body (fun i s => s.1 = (List.range i).map f ++ l.drop i ∧ Q i s.2) n 0 (l, b)
    (fun i s _ hi2 e => by
      obtain ⟨l', b⟩ := s
      obtain ⟨e, hq⟩ := e
      simp only at e hq
      have hlen : l'.length = l.length := by rw [e]; simp; omega
      obtain ⟨b', h1, h2⟩ := h i l' b (by omega) hlen (by rw [e, List.drop_left' (by simp)]) hq
      refine ⟨_, h1, ?_, h2⟩
      simp only
      rw [e, List.range_succ, List.map_append, List.append_assoc]
      have hd : l.drop i = l[i]'(by omega) :: l.drop (i + 1) := List.drop_eq_getElem_cons (by omega)
      rw [hd, List.set_append_right _ _ (by simp)]
      rw [List.length_map, List.length_range, Nat.sub_self, List.set_cons_zero]
      rfl) ⟨by simp, hb⟩
  rw [Nat.zero_add] at h2
  simp only at h2
  exact ⟨b', by rw [h1, h2]⟩

/-- The same as a fold. -/
theorem foldl_fill {α : Type} (f : Nat → α) (g : Nat → α → α) (d : α) (n : Nat) (l : List α) (hl : n ≤ l.length)
    (h : ∀ i, i < n → g i (l.getD i d) = f i) :
    (List.range n).foldl (fun s i => s.set i (g i (s.getD i d))) l = (List.range n).map f ++ l.drop n := by
  induction n with
  | zero => simp
  | succ n ih =>
    rw [List.range_succ, List.foldl_append, ih (by omega) (fun i hi => h i (by omega)), List.map_append, List.append_assoc]
    have hd : l.drop n = l[n]'(by omega) :: l.drop (n + 1) := List.drop_eq_getElem_cons (by omega)
    have hg : ((List.range n).map f ++ l.drop n).getD n d = l.getD n d := by
      rw [List.getD_eq_getElem?_getD, List.getD_eq_getElem?_getD, List.getElem?_append_right (by simp), List.getElem?_drop]
      simp
    rw [List.foldl_cons, List.foldl_nil, hg, h n (by omega), hd, List.set_append_right _ _ (by simp)]
    rw [List.length_map, List.length_range, Nat.sub_self, List.set_cons_zero]
    rfl

namespace KeyLoad
open Spec.MD

theorem beNat_putBe32 (v : W32) : beNat (putBe32 v) = v.toNat := by
  obtain ⟨a, b, c, d, h1, h2⟩ := be32_putBe32 v
  rw [h1, ← h2, be32_toNat]
  simp only [beNat, List.foldl_cons, List.foldl_nil]
  omega

theorem beWords_putBe32 (v : W32) (t : Bytes) : beWords 32 4 (putBe32 v ++ t) = v :: beWords 32 4 t := by
  rw [beWords, Hash.chunks_append 4 (by decide) _ _ rfl, List.map_cons, beNat_putBe32, BitVec.ofNat_toNat, BitVec.setWidth_eq]
  rfl

/-- The bytes of the words of whole words. -/
theorem beWords_bytes : ∀ (n : Nat) (b : Bytes), b.length = 4 * n → (beWords 32 4 b).flatMap putBe32 = b
  | 0, b, h => by
    obtain rfl := List.length_eq_zero_iff.1 h
    rfl
  | n + 1, b, h => by
    obtain ⟨v, e⟩ := split_be32 b (by omega)
    rw [e, beWords_putBe32, List.flatMap_cons, beWords_bytes n _ (by rw [List.length_drop]; omega), ← e]

theorem beWords_append : ∀ (n : Nat) (a b : Bytes), a.length = 4 * n → beWords 32 4 (a ++ b) = beWords 32 4 a ++ beWords 32 4 b
  | 0, a, b, h => by
    obtain rfl := List.length_eq_zero_iff.1 h
    rfl
  | n + 1, a, b, h => by
    obtain ⟨v, e⟩ := split_be32 a (by omega)
    rw [e, List.append_assoc, beWords_putBe32, beWords_putBe32, beWords_append n _ b (by rw [List.length_drop]; omega), List.cons_append]

theorem length_beWords : ∀ (n : Nat) (a : Bytes), a.length = 4 * n → (beWords 32 4 a).length = n
  | 0, a, h => by
    obtain rfl := List.length_eq_zero_iff.1 h
    rfl
  | n + 1, a, h => by
    obtain ⟨v, e⟩ := split_be32 a (by omega)
    rw [e, beWords_putBe32, List.length_cons, length_beWords n _ (by rw [List.length_drop]; omega)]

/-- The bytes of a list of words. -/
theorem flatMap_putBe32_getD : ∀ (ws : List W32) (q j : Nat), q < ws.length → j < 4 →
    (ws.flatMap putBe32).getD (4 * q + j) 0 = (putBe32 (ws.getD q 0)).getD j 0
  | [], q, j, h, _ => by simp at h
  | w :: t, 0, j, h, hj => by
    rw [List.flatMap_cons, List.getD_eq_getElem?_getD, List.getElem?_append_left (by simp [putBe32]; omega), List.getD_eq_getElem?_getD]
    simp
  | w :: t, q + 1, j, h, hj => by
    rw [List.flatMap_cons, List.getD_eq_getElem?_getD, List.getElem?_append_right (by simp [putBe32]; omega),
      show 4 * (q + 1) + j - (putBe32 w).length = 4 * q + j by simp [putBe32]; omega, ← List.getD_eq_getElem?_getD,
      flatMap_putBe32_getD t q j (by simpa using h) hj, List.getD_cons_succ]

theorem length_zeroPad (N : Nat) (key : Bytes) : (zeroPad N key).length = N := by
  unfold zeroPad
  rw [List.length_append, List.length_take, List.length_replicate]
  omega

/-- The words of 32 bits that are loaded have the bytes of the key, filled up with zeros, when its length is even or it fills the words. -/
theorem ldUserKey_bytes (n : Nat) (key : Bytes) (h : 4 * n ≤ key.length ∨ key.length % 2 = 0) :
    (ldUserKey 4 n key).flatMap putBe32 = zeroPad (4 * n) key := by
  have e : ldUserKey 4 n key = beWords 32 4 (zeroPad (n * 4) key) := ldUserKey_padded_partial 4 n (by decide) key (by omega)
  rw [e, Nat.mul_comm, beWords_bytes n _ (length_zeroPad _ _)]

end KeyLoad
end Kryptos
