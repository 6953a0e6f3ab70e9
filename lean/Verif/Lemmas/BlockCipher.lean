import Verif.Lemmas.BlockModes
import Verif.Lemmas.Endian
/-
  From the block functions of a concrete cipher, with undefined behaviour as a possible outcome, to the
  ciphers of the generic block modes; loops that undo each other.
-/
namespace Kryptos.Block

/-- Under a fixed key, the two block functions are defined on every buffer of one block, keep its size and
undo each other. -/
structure Invertible (bs : Nat) (enc dec : Bytes → Out Bytes) : Prop where
  dec_enc : ∀ b, b.length = bs → ∃ c, enc b = .ok c ∧ c.length = bs ∧ dec c = .ok b
  enc_dec : ∀ c, c.length = bs → ∃ b, dec c = .ok b ∧ b.length = bs ∧ enc b = .ok c

/-- The cipher of the generic modes made of two block functions that are defined on whole blocks. -/
def ofOut (bs : Nat) (hbs : 0 < bs) (enc dec : Bytes → Out Bytes) : Cipher where
  bs := bs
  bs_pos := hbs
  enc := fun b => match enc b with | .ok c => c | .ub => b
  dec := fun b => match dec b with | .ok c => c | .ub => b

theorem Invertible.lawful {bs : Nat} {enc dec : Bytes → Out Bytes} (h : Invertible bs enc dec) (hbs : 0 < bs) :
    Lawful (ofOut bs hbs enc dec) where
  enc_len := fun b hb => by
    obtain ⟨c, h1, h2, _⟩ := h.dec_enc b hb
    show List.length (match enc b with | .ok c => c | .ub => b) = bs
    rw [h1]; exact h2
  dec_len := fun b hb => by
    obtain ⟨c, h1, h2, _⟩ := h.enc_dec b hb
    show List.length (match dec b with | .ok c => c | .ub => b) = bs
    rw [h1]; exact h2
  dec_enc := fun b hb => by
    obtain ⟨c, h1, h2, h3⟩ := h.dec_enc b hb
    show (match dec (match enc b with | .ok c => c | .ub => b) with
      | .ok c => c | .ub => (match enc b with | .ok c => c | .ub => b)) = b
    rw [h1]
    simp only [h3]

end Kryptos.Block

namespace Kryptos

/-- Undoing a loop step by step. -/
theorem repeat_undo {α : Type} (f g : α → α) (h : ∀ a, g (f a) = a) : ∀ (n : Nat) (a : α),
    Nat.repeat g n (Nat.repeat f n a) = a
  | 0, _ => rfl
  | n + 1, a => by
    have shift : ∀ (m : Nat) (x : α), Nat.repeat g (m + 1) x = Nat.repeat g m (g x) := by
      intro m
      induction m with
      | zero => intro x; rfl
      | succ m ih => intro x; show g (Nat.repeat g (m + 1) x) = g (Nat.repeat g m (g x)); rw [ih]
    rw [shift]
    show Nat.repeat g n (g (f (Nat.repeat f n a))) = a
    rw [h, repeat_undo f g h n a]

/-- Undoing a loop whose step depends on the index: the second loop runs the indices downwards. -/
theorem foldl_undo {α ι : Type} (f g : α → ι → α) (h : ∀ a i, g (f a i) i = a) : ∀ (l : List ι) (a : α),
    l.reverse.foldl g (l.foldl f a) = a
  | [], _ => rfl
  | i :: l, a => by
    rw [List.reverse_cons, List.foldl_append]
    show g (l.reverse.foldl g (l.foldl f (f a i))) i = a
    rw [foldl_undo f g h l (f a i), h]

/-- A loop keeps an invariant and is defined. -/
theorem forLoop_inv {σ : Type} (body : Nat → σ → Out σ) (P : Nat → σ → Prop) : ∀ (n t : Nat) (s : σ),
    (∀ i s, t ≤ i → i < t + n → P i s → ∃ s', body i s = .ok s' ∧ P (i + 1) s') → P t s →
      ∃ s', forLoop body n t s = .ok s' ∧ P (t + n) s'
  | 0, _, s, _, h0 => ⟨s, rfl, h0⟩
  | n + 1, t, s, h, h0 => by
    obtain ⟨s1, e1, h1⟩ := h t s (Nat.le_refl _) (by omega) h0
    obtain ⟨s2, e2, h2⟩ := forLoop_inv body P n (t + 1) s1 (fun i s a b => h i s (by omega) (by omega)) h1
    exact ⟨s2, by rw [forLoop, e1, Out.bind_ok, e2], by rw [show t + (n + 1) = t + 1 + n by omega]; exact h2⟩

/-- Counting down from `n` to 1. -/
theorem foldl_down {α : Type} (g : α → Nat → α) : ∀ (n : Nat) (s : α),
    (List.range' 0 n).foldl (fun s j => g s (n - j)) s = (List.range' 1 n).reverse.foldl g s := by
  intro n s
  have e : (List.range' 1 n).reverse = (List.range' 0 n).map fun j => n - j := by
    apply List.ext_getElem
    · simp
    · intro i h1 h2
      simp at h1
      simp
      omega
  rw [e, List.foldl_map]

/-- Counting down from `n - 1` to 0. -/
theorem foldl_down0 {α : Type} (g : α → Nat → α) : ∀ (n : Nat) (s : α),
    (List.range' 0 n).foldl (fun s j => g s (n - 1 - j)) s = (List.range' 0 n).reverse.foldl g s := by
  intro n s
  have e : (List.range' 0 n).reverse = (List.range' 0 n).map fun j => n - 1 - j := by
    apply List.ext_getElem
    · simp
    · intro i h1 h2
      simp at h1
      simp
  rw [e, List.foldl_map]

/-- The last iteration of a loop. -/
theorem forLoop_snoc {σ : Type} (body : Nat → σ → Out σ) : ∀ (n t : Nat) (s : σ),
    forLoop body (n + 1) t s = forLoop body n t s >>= body (t + n)
  | 0, t, s => by
    show body t s >>= (fun s => Out.ok s) = body t s
    cases body t s <;> rfl
  | n + 1, t, s => by
    rw [forLoop]
    conv => rhs; rw [forLoop]
    cases h : body t s with
    | ub => rfl
    | ok a =>
      rw [Out.bind_ok, Out.bind_ok, forLoop_snoc body n (t + 1) a]
      rw [show t + 1 + n = t + (n + 1) by omega]

end Kryptos
