import Verif.Model.Rot
import Verif.Lemmas.BlockCipher
/-
  Rotations, and block functions given by functions of states.
-/
namespace Kryptos

theorem shr32 (w : W32) : w >>> 32 = 0 := by
  apply BitVec.eq_of_getLsbD_eq; intro i hi; simp
theorem shl32 (w : W32) : w <<< 32 = 0 := by
  apply BitVec.eq_of_getLsbD_eq; intro i hi; simp

theorem rotlV_eq (w : W32) (s : Nat) (hs : s < 32) : rotlV false w s = .ok (w.rotateLeft s) := by
  unfold rotlV
  rw [if_neg (by simp), BitVec.rotateLeft_def, Nat.mod_eq_of_lt hs]
  by_cases h : s = 0
  · subst h; rw [Nat.sub_zero, shr32]; simp
  · rw [Nat.mod_eq_of_lt (by omega)]

theorem rotrV_eq (w : W32) (s : Nat) (hs : s < 32) : rotrV false w s = .ok (w.rotateRight s) := by
  unfold rotrV
  rw [if_neg (by simp), BitVec.rotateRight_def, Nat.mod_eq_of_lt hs]
  by_cases h : s = 0
  · subst h; rw [Nat.sub_zero, shl32]; simp
  · rw [Nat.mod_eq_of_lt (by omega)]

theorem rotateRight_rotateLeft {n : Nat} (w : BitVec n) (s : Nat) (hs : s < n) : (w.rotateLeft s).rotateRight s = w := by
  apply BitVec.eq_of_getLsbD_eq
  intro i hi
  rw [BitVec.getLsbD_rotateRight, BitVec.getLsbD_rotateLeft, BitVec.getLsbD_rotateLeft, Nat.mod_eq_of_lt hs]
  by_cases h : i < n - s
  · simp [h, show ¬ (s + i < s) by omega, show s + i < n by omega]
  · simp [h, show i - (n - s) < s by omega, hi, show n - s + (i - (n - s)) = i by omega]

theorem rotateLeft_rotateRight {n : Nat} (w : BitVec n) (s : Nat) (hs : s < n) : (w.rotateRight s).rotateLeft s = w := by
  apply BitVec.eq_of_getLsbD_eq
  intro i hi
  rw [BitVec.getLsbD_rotateLeft, BitVec.getLsbD_rotateRight, BitVec.getLsbD_rotateRight, Nat.mod_eq_of_lt hs]
  by_cases h : i < s
  · simp [h, show ¬ (n - s + i < n - s) by omega, show n - s + i < n by omega]
  · simp [h, hi, show i - s < n - s by omega, show s + (i - s) = i by omega]

theorem rot_rl32 (w : W32) (n : Nat) : (w.rotateLeft (n % 32)).rotateRight (n % 32) = w :=
  rotateRight_rotateLeft w _ (Nat.mod_lt _ (by decide))
theorem rot_lr32 (w : W32) (n : Nat) : (w.rotateRight (n % 32)).rotateLeft (n % 32) = w :=
  rotateLeft_rotateRight w _ (Nat.mod_lt _ (by decide))
theorem xor_cancel_right {n : Nat} (a b : BitVec n) : a ^^^ b ^^^ b = a := by rw [BitVec.xor_assoc, BitVec.xor_self, BitVec.xor_zero]
theorem xor_cancel_left {n : Nat} (a b : BitVec n) : b ^^^ (b ^^^ a) = a := by rw [← BitVec.xor_assoc, BitVec.xor_self, BitVec.zero_xor]

theorem rd_of_some {α : Type} {l : List α} {i : Nat} {a : α} (h : l[i]? = some a) : rd l i = .ok a := by
  unfold rd; rw [h]; rfl

theorem wr_of_lt {α : Type} {l : List α} {i : Nat} {a : α} (h : i < l.length) : wr l i a = .ok (l.set i a) := if_pos h

theorem lt_of_some {α : Type} {l : List α} {i : Nat} {a : α} (h : l[i]? = some a) : i < l.length := by
  rcases Nat.lt_or_ge i l.length with h' | h'
  · exact h'
  · rw [List.getElem?_eq_none h'] at h; cases h

namespace Block

/-- Block functions that load a state, compute with it and store it. -/
theorem Invertible.ofState {σ : Type} {bs : Nat} {enc dec : Bytes → Out Bytes} (store : σ → Bytes)
    (surj : ∀ b : Bytes, b.length = bs → ∃ s, store s = b) (len : ∀ s, (store s).length = bs) (E D : σ → σ)
    (hE : ∀ s, enc (store s) = .ok (store (E s))) (hD : ∀ s, dec (store s) = .ok (store (D s)))
    (hDE : ∀ s, D (E s) = s) (hED : ∀ s, E (D s) = s) : Invertible bs enc dec where
  dec_enc := fun b hb => by
    obtain ⟨s, rfl⟩ := surj b hb
    exact ⟨_, hE s, len _, by rw [hD, hDE]⟩
  enc_dec := fun b hb => by
    obtain ⟨s, rfl⟩ := surj b hb
    exact ⟨_, hD s, len _, by rw [hE, hED]⟩

/-! Two and four words as blocks -/

def be2 (s : W32 × W32) : Bytes := putBe32 s.1 ++ putBe32 s.2
def le2 (s : W32 × W32) : Bytes := putLe32 s.1 ++ putLe32 s.2
def be4 (s : W32 × W32 × W32 × W32) : Bytes := putBe32 s.1 ++ (putBe32 s.2.1 ++ (putBe32 s.2.2.1 ++ putBe32 s.2.2.2))
def le4 (s : W32 × W32 × W32 × W32) : Bytes := putLe32 s.1 ++ (putLe32 s.2.1 ++ (putLe32 s.2.2.1 ++ putLe32 s.2.2.2))

theorem be2_surj (b : Bytes) (h : b.length = 8) : ∃ s, be2 s = b := by
  obtain ⟨x, y, rfl⟩ := block2_be32 b h; exact ⟨(x, y), rfl⟩
theorem le2_surj (b : Bytes) (h : b.length = 8) : ∃ s, le2 s = b := by
  obtain ⟨x, hx⟩ := split_le32 b (by omega)
  obtain ⟨y, hy⟩ := split_le32 (b.drop 4) (by rw [List.length_drop]; omega)
  refine ⟨(x, y), ?_⟩
  rw [List.drop_drop, show List.drop (4+4) b = [] from List.drop_eq_nil_of_le (by omega), List.append_nil] at hy
  rw [hx, hy]; rfl
theorem be4_surj (b : Bytes) (h : b.length = 16) : ∃ s, be4 s = b := by
  obtain ⟨x, y, z, u, rfl⟩ := block4_be32 b h; exact ⟨(x, y, z, u), rfl⟩
theorem le4_surj (b : Bytes) (h : b.length = 16) : ∃ s, le4 s = b := by
  obtain ⟨x, y, z, u, rfl⟩ := block4_le32 b h; exact ⟨(x, y, z, u), rfl⟩
theorem be2_len (s : W32 × W32) : (be2 s).length = 8 := rfl
theorem le2_len (s : W32 × W32) : (le2 s).length = 8 := rfl
theorem be4_len (s : W32 × W32 × W32 × W32) : (be4 s).length = 16 := rfl
theorem le4_len (s : W32 × W32 × W32 × W32) : (le4 s).length = 16 := rfl

theorem getLe32_4' (x y : W32) : getLe32 (putLe32 x ++ putLe32 y) 4 = .ok y := by
  simpa using getLe32_4 x y []

end Block

/-- A loop that runs its index downwards from `n` to 1. -/
theorem forLoop_down {σ : Type} (body : Nat → σ → Out σ) (f : σ → Nat → σ) (n : Nat) (s : σ)
    (h : ∀ i s, 1 ≤ i → i ≤ n → body i s = .ok (f s i)) :
    forLoop (fun j => body (n - j)) n 0 s = .ok ((List.range' 1 n).reverse.foldl f s) := by
  rw [forLoop_eq _ (fun j s => f s (n - j)) n 0 s (fun i s _ h2 => h _ _ (by omega) (by omega)), foldl_down]

/-- A loop that runs its index upwards from 1 to `n`. -/
theorem forLoop_up {σ : Type} (body : Nat → σ → Out σ) (f : σ → Nat → σ) (n : Nat) (s : σ)
    (h : ∀ i s, 1 ≤ i → i ≤ n → body i s = .ok (f s i)) :
    forLoop body n 1 s = .ok ((List.range' 1 n).foldl f s) :=
  forLoop_eq _ (fun j s => f s j) n 1 s (fun i s h1 h2 => h i s (by omega) (by omega))

/-- A loop that runs its index downwards from `n - 1` to 0. -/
theorem forLoop_down0 {σ : Type} (body : Nat → σ → Out σ) (f : σ → Nat → σ) (n : Nat) (s : σ)
    (h : ∀ i s, i < n → body i s = .ok (f s i)) :
    forLoop (fun j => body (n - 1 - j)) n 0 s = .ok ((List.range' 0 n).reverse.foldl f s) := by
  rw [forLoop_eq _ (fun j s => f s (n - 1 - j)) n 0 s (fun i s _ h2 => h _ _ (by omega)), foldl_down0]

theorem forLoop_up0 {σ : Type} (body : Nat → σ → Out σ) (f : σ → Nat → σ) (n : Nat) (s : σ)
    (h : ∀ i s, i < n → body i s = .ok (f s i)) :
    forLoop body n 0 s = .ok ((List.range' 0 n).foldl f s) :=
  forLoop_eq _ (fun j s => f s j) n 0 s (fun i s _ h2 => h i s (by omega))

/-- The downward loop undoes the upward one. -/
theorem foldl_undo' {α ι : Type} (f g : α → ι → α) (h : ∀ a i, f (g a i) i = a) (l : List ι) (a : α) :
    l.foldl f (l.reverse.foldl g a) = a := by
  have := foldl_undo g f h l.reverse a
  rwa [List.reverse_reverse] at this

/-- Reading a list within its bounds. -/
theorem rd_getD {α : Type} {l : List α} {i : Nat} (d : α) (h : i < l.length) : rd l i = .ok (l.getD i d) := by
  rw [rd_eq_ok h, List.getD_eq_getElem?_getD, List.getElem?_eq_getElem h]; rfl

/-- Reading a word of a buffer of words. -/
theorem getBe32_word (ws : List W32) (i off : Nat) (x : W32) (ho : off = 4 * i) (h : ws[i]? = some x) :
    getBe32 (ws.flatMap putBe32) off = .ok x := by
  subst ho
  have hi := lt_of_some h
  rw [getBe32_words ws i hi]
  rw [List.getElem?_eq_getElem hi] at h
  rw [Option.some.inj h]

/-- The same for words of 16 bits. -/
theorem words_be16 : ∀ (n : Nat) (b : Bytes), b.length = 2 * n → ∃ ws : List W16, ws.length = n ∧ b = ws.flatMap putBe16
  | 0, b, h => ⟨[], rfl, List.length_eq_zero_iff.mp h⟩
  | n + 1, b, h => by
    obtain ⟨v, hv⟩ := split_be16 b (by omega)
    obtain ⟨ws, h1, h2⟩ := words_be16 n (b.drop 2) (by rw [List.length_drop]; omega)
    exact ⟨v :: ws, by rw [List.length_cons, h1], by rw [List.flatMap_cons, ← h2]; exact hv⟩

theorem flatMap_putBe16_length (ws : List W16) : (ws.flatMap putBe16).length = 2 * ws.length := by
  induction ws with
  | nil => rfl
  | cons v ws ih => rw [List.flatMap_cons, List.length_append, ih, putBe16_length, List.length_cons]; omega

theorem getBe16_word (ws : List W16) (i off : Nat) (x : W16) (ho : off = 2 * i) (h : ws[i]? = some x) :
    getBe16 (ws.flatMap putBe16) off = .ok x := by
  subst ho
  have hi := lt_of_some h
  conv => lhs; rw [← List.take_append_drop i ws, List.flatMap_append, List.drop_eq_getElem_cons hi,
    List.flatMap_cons]
  have := getBe16_at ((ws.take i).flatMap putBe16) ((ws.drop (i + 1)).flatMap putBe16) ws[i]
  rw [flatMap_putBe16_length, List.length_take, Nat.min_eq_left (by omega)] at this
  rw [this]
  rw [List.getElem?_eq_getElem hi] at h
  rw [Option.some.inj h]

end Kryptos
