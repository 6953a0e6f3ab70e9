import Verif.Model.KeyLoad
import Verif.Lemmas.Hash
import Verif.Lemmas.Sha
import Mathlib.Tactic.Ring
/-
  Loading of user keys (C68).
-/
namespace Kryptos.KeyLoad
open Spec.MD Hash

theorem modify_mid {α : Type} (f : α → α) (x : α) (post : List α) : ∀ (pre : List α),
    (pre ++ x :: post).modify pre.length f = pre ++ f x :: post
  | [] => rfl
  | y :: pre => by
    rw [List.cons_append, List.length_cons, List.modify_succ_cons, modify_mid f x post pre, List.cons_append]

theorem shl_or (k : Nat) (x : BitVec (8 * k)) (c : Byte) (n : Nat) (hk : 0 < k) (hx : x = BitVec.ofNat (8 * k) n) :
    (x <<< 8) ||| c.setWidth (8 * k) = BitVec.ofNat (8 * k) (256 * n + c.toNat) := by
  subst hx
  have hc := c.isLt
  rw [← BitVec.toNat_inj, BitVec.toNat_or, BitVec.toNat_shiftLeft, BitVec.toNat_setWidth, BitVec.toNat_ofNat,
    BitVec.toNat_ofNat, Nat.mod_eq_of_lt (a := c.toNat) (by
      refine Nat.lt_of_lt_of_le hc (Nat.pow_le_pow_right (by decide) (by omega))), Nat.shiftLeft_eq]
  obtain ⟨j, rfl⟩ : ∃ j, k = j + 1 := ⟨k - 1, by omega⟩
  have e : 2 ^ (8 * (j + 1)) = 2 ^ (8 * j) * 2 ^ 8 := by rw [← Nat.pow_add]; rfl
  have h1 : n % 2 ^ (8 * (j + 1)) * 2 ^ 8 % 2 ^ (8 * (j + 1)) = (n % 2 ^ (8 * j)) * 2 ^ 8 := by
    rw [e, Nat.mul_mod_mul_right, Nat.mod_mul_right_mod]
  rw [h1, Nat.mul_comm, ← Nat.two_pow_add_eq_or_of_lt (by omega)]
  have h2 : 256 * n + c.toNat = 2 ^ (8 * (j + 1)) * (n / 2 ^ (8 * j)) + (2 ^ 8 * (n % 2 ^ (8 * j)) + c.toNat) := by
    have := Nat.div_add_mod n (2 ^ (8 * j))
    generalize hA : 2 ^ (8 * j) = A at *
    rw [e]
    calc 256 * n + c.toNat = 256 * (A * (n / A) + n % A) + c.toNat := by rw [this]
      _ = _ := by ring
  rw [h2, Nat.mul_add_mod]
  symm
  apply Nat.mod_eq_of_lt
  have : n % 2 ^ (8 * j) < 2 ^ (8 * j) := Nat.mod_lt _ (Nat.two_pow_pos _)
  rw [e]; omega

/-- The bytes of one word, complete or not. -/
theorem ldByte_word (k n : Nat) (hk : 0 < k) (pre post : List (BitVec (8 * k))) (hp : pre.length < n) :
    ∀ (cs : Bytes) (v b : Nat), b + cs.length < k →
      cs.foldl (ldByte k n) (pre ++ BitVec.ofNat _ v :: post, pre.length, b) =
        (pre ++ BitVec.ofNat _ (v * 256 ^ cs.length + beNat cs) :: post, pre.length, b + cs.length)
  | [], v, b, _ => by simp [beNat]
  | c :: cs, v, b, hb => by
    rw [List.length_cons] at hb
    have e : ldByte k n (pre ++ BitVec.ofNat _ v :: post, pre.length, b) c =
        (pre ++ BitVec.ofNat _ (256 * v + c.toNat) :: post, pre.length, b + 1) := by
      have e1 : (b + 1) % k = b + 1 := Nat.mod_eq_of_lt (by omega)
      simp only [ldByte, hp, if_true, e1, if_neg (Nat.succ_ne_zero b)]
      rw [modify_mid, shl_or k _ c v hk rfl]
    rw [List.foldl_cons, e, ldByte_word k n hk pre post hp cs _ _ (by omega), beNat_cons, List.length_cons]
    rw [show (256 * v + c.toNat) * 256 ^ cs.length + beNat cs = v * 256 ^ (cs.length + 1) + (c.toNat * 256 ^ cs.length + beNat cs) by
      rw [Nat.pow_succ]; ring, show b + 1 + cs.length = b + (cs.length + 1) by omega]

/-- The bytes of one complete word. -/
theorem ldByte_full (k n : Nat) (hk : 0 < k) (pre post : List (BitVec (8 * k))) (hp : pre.length < n) (cs : Bytes)
    (hcs : cs.length = k) :
    cs.foldl (ldByte k n) (pre ++ 0 :: post, pre.length, 0) =
      ((pre ++ [BitVec.ofNat _ (beNat cs)]) ++ post, (pre ++ [BitVec.ofNat (8 * k) (beNat cs)]).length, 0) := by
  obtain ⟨ds, c, rfl⟩ : ∃ ds c, cs = ds ++ [c] := by
    rcases List.eq_nil_or_concat cs with h | ⟨ds, c, h⟩
    · subst h; simp at hcs; omega
    · exact ⟨ds, c, by rw [h, List.concat_eq_append]⟩
  have hl : ds.length + 1 = k := by simpa using hcs
  rw [List.foldl_append, show (0 : BitVec (8 * k)) = BitVec.ofNat _ 0 from rfl,
    ldByte_word k n hk pre post hp ds 0 0 (by omega), beNat_append_single]
  simp only [List.foldl_cons, List.foldl_nil, ldByte, hp, if_true, Nat.zero_mul, Nat.zero_add, hl, Nat.mod_self]
  rw [modify_mid, shl_or k _ c _ hk rfl]
  simp

theorem length_ldUserKey (k n : Nat) (key : Bytes) : (ldUserKey k n key).length = n := by
  have h : ∀ (cs : Bytes) (s : List (BitVec (8 * k)) × Nat × Nat), (cs.foldl (ldByte k n) s).1.length = s.1.length := by
    intro cs
    induction cs with
    | nil => intro s; rfl
    | cons c cs ih =>
      intro s
      rw [List.foldl_cons, ih]
      simp only [ldByte]
      split <;> simp
  have := h (key.take (n * k)) (List.replicate n 0, 0, 0)
  simp only [List.length_replicate] at this
  unfold ldUserKey
  generalize (key.take (n * k)).foldl (ldByte k n) (List.replicate n 0, 0, 0) = s at this
  show (if s.2.1 < n then s.1.modify s.2.1 fun x => x <<< (8 * s.2.2) else s.1).length = n
  split <;> simpa using this

/-- Whole words of a key. -/
theorem ldByte_words (k n : Nat) (hk : 0 < k) : ∀ (j : Nat) (cs : Bytes) (pre : List (BitVec (8 * k))) (r : Nat),
    cs.length = j * k → pre.length + j + r = n →
      cs.foldl (ldByte k n) (pre ++ List.replicate (j + r) 0, pre.length, 0) =
        (pre ++ beWords (8 * k) k cs ++ List.replicate r 0, pre.length + j, 0)
  | 0, cs, pre, r, h, _ => by
    have : cs = [] := List.length_eq_zero_iff.1 (by simpa using h)
    subst this
    simp [beWords, chunks]
  | j + 1, cs, pre, r, h, hn => by
    rw [Nat.add_mul, Nat.one_mul] at h
    obtain ⟨a, l, rfl, ha⟩ : ∃ a l, cs = a ++ l ∧ a.length = k :=
      ⟨cs.take k, cs.drop k, (List.take_append_drop _ _).symm, by rw [List.length_take]; omega⟩
    rw [List.length_append] at h
    rw [List.foldl_append, show j + 1 + r = j + r + 1 by omega, List.replicate_succ,
      ldByte_full k n hk pre _ (by omega) a ha, ldByte_words k n hk j l _ r (by omega) (by simp; omega)]
    simp only [beWords, chunks_append k hk a l ha, List.map_cons, List.length_append, List.length_singleton]
    simp [Nat.add_assoc, Nat.add_comm 1 j]

/-- The words that a key gives: complete words are big-endian; the `b` bytes of an incomplete word become a number that is
moved up by `b` bytes, not by the number of the missing ones; the rest is zero. -/
theorem ldUserKey_eq (k n : Nat) (hk : 0 < k) (cs ds : Bytes) (j r : Nat) (hc : cs.length = j * k) (hd : ds.length < k)
    (hn : j + 1 + r = n) :
    ldUserKey k n (cs ++ ds) =
      beWords (8 * k) k cs ++ BitVec.ofNat (8 * k) (beNat ds * 256 ^ ds.length) :: List.replicate r 0 := by
  have hle : (cs ++ ds).length ≤ n * k := by
    rw [List.length_append, hc, ← hn, Nat.add_mul, Nat.add_mul]; omega
  unfold ldUserKey
  rw [List.take_of_length_le hle, List.foldl_append]
  have h0 := ldByte_words k n hk j cs [] (1 + r) hc (by simp; omega)
  simp only [List.nil_append, List.length_nil, Nat.zero_add] at h0
  rw [show List.replicate n (0 : BitVec (8 * k)) = List.replicate (j + (1 + r)) 0 by rw [← hn, Nat.add_assoc], h0]
  have hl : (beWords (8 * k) k cs).length = j := by
    simp [beWords, chunks, hc, Nat.mul_div_cancel _ hk]
  have h1 := ldByte_word k n hk (beWords (8 * k) k cs) (List.replicate r 0) (by omega) ds 0 0 (by omega)
  rw [Nat.add_comm 1 r, List.replicate_succ]
  rw [hl] at h1
  rw [show (beWords (8 * k) k cs ++ (0 : BitVec (8 * k)) :: List.replicate r 0, j, 0) =
    (beWords (8 * k) k cs ++ BitVec.ofNat (8 * k) 0 :: List.replicate r 0, j, 0) from rfl, h1]
  simp only [show j < n by omega, if_true, Nat.zero_mul, Nat.zero_add]
  have h2 := modify_mid (fun x : BitVec (8 * k) => x <<< (8 * ds.length)) (BitVec.ofNat (8 * k) (beNat ds)) (List.replicate r 0)
    (beWords (8 * k) k cs)
  rw [hl] at h2
  rw [h2]
  congr 2
  rw [← BitVec.toNat_inj, BitVec.toNat_shiftLeft, BitVec.toNat_ofNat, BitVec.toNat_ofNat, Nat.shiftLeft_eq, Nat.mod_mul_mod,
    show (256 : Nat) = 2 ^ 8 from rfl, ← Nat.pow_mul]

/-- A key that fills the words is read big-endian; bytes after the last word are not used. -/
theorem ldUserKey_full (k n : Nat) (hk : 0 < k) (key : Bytes) (h : n * k ≤ key.length) :
    ldUserKey k n key = beWords (8 * k) k (key.take (n * k)) := by
  unfold ldUserKey
  have h0 := ldByte_words k n hk n (key.take (n * k)) [] 0 (by rw [List.length_take]; omega) (by simp)
  simp only [List.nil_append, List.length_nil, Nat.zero_add, Nat.add_zero, List.replicate_zero, List.append_nil] at h0
  rw [h0]
  simp

/-- A key of whole words is read big-endian and followed by zeros. -/
theorem ldUserKey_words (k n : Nat) (hk : 0 < k) (key : Bytes) (j : Nat) (h : key.length = j * k) (hj : j < n) :
    ldUserKey k n key = beWords (8 * k) k key ++ List.replicate (n - j) 0 := by
  have := ldUserKey_eq k n hk key [] j (n - j - 1) h (by simpa using hk) (by omega)
  rw [List.append_nil] at this
  rw [this, show n - j = n - j - 1 + 1 by omega, List.replicate_succ]
  rfl

theorem beNat_lt : ∀ a : Bytes, beNat a < 256 ^ a.length
  | [] => by simp [beNat]
  | x :: a => by
    rw [beNat_cons, List.length_cons, Nat.pow_succ]
    have := beNat_lt a
    have hx := x.isLt
    calc x.toNat * 256 ^ a.length + beNat a < x.toNat * 256 ^ a.length + 256 ^ a.length := by omega
      _ = (x.toNat + 1) * 256 ^ a.length := by ring
      _ ≤ 256 * 256 ^ a.length := Nat.mul_le_mul_right _ (by omega)
      _ = _ := Nat.mul_comm _ _

theorem beNat_inj : ∀ (a b : Bytes), a.length = b.length → beNat a = beNat b → a = b
  | [], [], _, _ => rfl
  | x :: a, y :: b, hl0, h => by
    have hl : a.length = b.length := by simpa using hl0
    rw [beNat_cons, beNat_cons, hl] at h
    have ha := beNat_lt a
    have hb := beNat_lt b
    rw [hl] at ha
    have hx : x.toNat = y.toNat := by
      have e : ∀ u v : Nat, v < 256 ^ b.length → (u * 256 ^ b.length + v) / 256 ^ b.length = u := by
        intro u v hv
        rw [Nat.mul_comm, Nat.mul_add_div (Nat.pow_pos (by decide)), Nat.div_eq_of_lt hv, Nat.add_zero]
      have := congrArg (fun z => z / 256 ^ b.length) h
      rwa [e _ _ ha, e _ _ hb] at this
    have hxy : x = y := BitVec.toNat_inj.1 hx
    rw [hx] at h
    rw [hxy, beNat_inj a b hl (by omega)]

theorem beWords_inj (k : Nat) (hk : 0 < k) : ∀ (j : Nat) (a b : Bytes), a.length = j * k → b.length = j * k →
    beWords (8 * k) k a = beWords (8 * k) k b → a = b
  | 0, a, b, ha, hb, _ => by
    rw [Nat.zero_mul] at ha hb
    rw [List.length_eq_zero_iff.1 ha, List.length_eq_zero_iff.1 hb]
  | j + 1, a, b, ha, hb, h => by
    rw [Nat.add_mul, Nat.one_mul] at ha hb
    obtain ⟨a1, a2, rfl, ha1⟩ : ∃ x l, a = x ++ l ∧ x.length = k :=
      ⟨a.take k, a.drop k, (List.take_append_drop _ _).symm, by rw [List.length_take]; omega⟩
    obtain ⟨b1, b2, rfl, hb1⟩ : ∃ x l, b = x ++ l ∧ x.length = k :=
      ⟨b.take k, b.drop k, (List.take_append_drop _ _).symm, by rw [List.length_take]; omega⟩
    rw [List.length_append] at ha hb
    simp only [beWords, chunks_append k hk _ _ ha1, chunks_append k hk _ _ hb1, List.map_cons, List.cons.injEq] at h
    obtain ⟨h1, h2⟩ := h
    have e1 : a1 = b1 := by
      apply beNat_inj _ _ (by omega)
      have := congrArg BitVec.toNat h1
      have la := beNat_lt a1
      have lb := beNat_lt b1
      rw [show (256 : Nat) = 2 ^ 8 from rfl, ← Nat.pow_mul] at la lb
      rw [ha1] at la
      rw [hb1] at lb
      rwa [BitVec.toNat_ofNat, BitVec.toNat_ofNat, Nat.mod_eq_of_lt la, Nat.mod_eq_of_lt lb] at this
    rw [e1, beWords_inj k hk j a2 b2 (by omega) (by omega) h2]

/-- C68, where it holds: keys of the same length that is at most that of the words give different words when the bytes of the
last word are at most half of it. -/
theorem ldUserKey_inj_partial (k n : Nat) (hk : 0 < k) (key key' : Bytes) (hl : key.length = key'.length)
    (hn : key.length ≤ n * k) (hb : 2 * (key.length % k) ≤ k) (h : ldUserKey k n key = ldUserKey k n key') : key = key' := by
  by_cases hfull : key.length = n * k
  · rw [ldUserKey_full k n hk key (by omega), ldUserKey_full k n hk key' (by omega), List.take_of_length_le (by omega),
      List.take_of_length_le (by omega)] at h
    exact beWords_inj k hk n key key' hfull (by omega) h
  · have hdm := Nat.div_add_mod key.length k
    have hmod := Nat.mod_lt key.length hk
    have hj : key.length / k < n := Nat.div_lt_of_lt_mul (by rw [Nat.mul_comm]; omega)
    have hjl : key.length / k * k ≤ key.length := Nat.div_mul_le_self _ _
    rw [Nat.mul_comm] at hdm
    generalize key.length / k = j at hdm hj hjl
    have e1 := ldUserKey_eq k n hk (key.take (j * k)) (key.drop (j * k)) j (n - j - 1) (by rw [List.length_take]; omega)
      (by rw [List.length_drop]; omega) (by omega)
    have e2 := ldUserKey_eq k n hk (key'.take (j * k)) (key'.drop (j * k)) j (n - j - 1) (by rw [List.length_take]; omega)
      (by rw [List.length_drop]; omega) (by omega)
    rw [List.take_append_drop] at e1 e2
    rw [e1, e2] at h
    have hlen : (beWords (8 * k) k (key.take (j * k))).length = (beWords (8 * k) k (key'.take (j * k))).length := by
      simp [beWords, chunks, hl]
    obtain ⟨h1, h2⟩ := List.append_inj h hlen
    have h1 := beWords_inj k hk j _ _ (by rw [List.length_take]; omega) (by rw [List.length_take]; omega) h1
    have h2 := congrArg BitVec.toNat (List.cons.inj h2).1
    have l1 := beNat_lt (key.drop (j * k))
    have l2 := beNat_lt (key'.drop (j * k))
    have d1 : (key.drop (j * k)).length = key.length % k := by rw [List.length_drop]; omega
    have d2 : (key'.drop (j * k)).length = key.length % k := by rw [List.length_drop]; omega
    have bound : ∀ v, v < 256 ^ (key.length % k) → v * 256 ^ (key.length % k) < 2 ^ (8 * k) := by
      intro v hv
      calc v * 256 ^ (key.length % k) < 256 ^ (key.length % k) * 256 ^ (key.length % k) :=
            Nat.mul_lt_mul_of_pos_right hv (Nat.pow_pos (by decide : 0 < 256))
        _ = 256 ^ (2 * (key.length % k)) := by rw [← Nat.pow_add]; congr 1; omega
        _ ≤ 256 ^ k := Nat.pow_le_pow_right (by decide) hb
        _ = 2 ^ (8 * k) := by rw [show (256 : Nat) = 2 ^ 8 from rfl, ← Nat.pow_mul]
    rw [d1] at l1 h2
    rw [d2] at l2 h2
    rw [BitVec.toNat_ofNat, BitVec.toNat_ofNat, Nat.mod_eq_of_lt (bound _ l1), Nat.mod_eq_of_lt (bound _ l2)] at h2
    have h2 := Nat.eq_of_mul_eq_mul_right (Nat.pow_pos (by decide : 0 < 256)) h2
    rw [← List.take_append_drop (j * k) key, ← List.take_append_drop (j * k) key', h1, beNat_inj _ _ (by omega) h2]

/-- C68 fails for every other length: the first byte of an incomplete word that is more than half full has no effect on the
words, whatever the bytes before and after it are. -/
theorem ldUserKey_ignores (k n : Nat) (cs ds : Bytes) (c c' : Byte) (j : Nat) (hc : cs.length = j * k) (hj : j < n)
    (hd : ds.length + 1 < k) (hb : k < 2 * (ds.length + 1)) :
    ldUserKey k n (cs ++ c :: ds) = ldUserKey k n (cs ++ c' :: ds) := by
  rw [ldUserKey_eq k n (by omega) cs (c :: ds) j (n - j - 1) hc (by simpa using hd) (by omega),
    ldUserKey_eq k n (by omega) cs (c' :: ds) j (n - j - 1) hc (by simpa using hd) (by omega)]
  congr 2
  rw [← BitVec.toNat_inj, BitVec.toNat_ofNat, BitVec.toNat_ofNat, beNat_cons, beNat_cons, List.length_cons, List.length_cons]
  have e : ∀ x : Nat, (x * 256 ^ ds.length + beNat ds) * 256 ^ (ds.length + 1) =
      2 ^ (8 * k) * (x * 256 ^ (2 * ds.length + 1 - k)) + beNat ds * 256 ^ (ds.length + 1) := by
    intro x
    have : 2 ^ (8 * k) * 256 ^ (2 * ds.length + 1 - k) = 256 ^ ds.length * 256 ^ (ds.length + 1) := by
      rw [Nat.pow_mul, show (2 : Nat) ^ 8 = 256 from rfl, ← Nat.pow_add, ← Nat.pow_add]
      congr 1; omega
    calc (x * 256 ^ ds.length + beNat ds) * 256 ^ (ds.length + 1)
        = x * (256 ^ ds.length * 256 ^ (ds.length + 1)) + beNat ds * 256 ^ (ds.length + 1) := by ring
      _ = x * (2 ^ (8 * k) * 256 ^ (2 * ds.length + 1 - k)) + beNat ds * 256 ^ (ds.length + 1) := by rw [this]
      _ = _ := by ring
  rw [e, e, Nat.mul_add_mod, Nat.mul_add_mod]

/-- For instance the 13th byte of a key of 15 bytes for four words of 32 bits; in contrast, a key of 14 bytes counts as a
whole. -/
example : ldUserKey 4 4 (List.replicate 12 7 ++ 1 :: [2, 3]) = ldUserKey 4 4 (List.replicate 12 7 ++ 200 :: [2, 3]) :=
  ldUserKey_ignores 4 4 (List.replicate 12 7) [2, 3] 1 200 3 rfl (by decide) (by decide) (by decide)
example : ldUserKey 4 4 (List.replicate 12 7 ++ [1, 2]) ≠ ldUserKey 4 4 (List.replicate 12 7 ++ [200, 2]) := fun h =>
  absurd (ldUserKey_inj_partial 4 4 (by decide) (List.replicate 12 7 ++ [1, 2]) (List.replicate 12 7 ++ [200, 2]) rfl (by decide) (by decide) h) (by decide)
example : ldUserKey 4 2 [0x01, 0x23, 0x45, 0x67, 0x89] = [0x01234567#32, 0x00008900#32] := by decide

/-! ### The loader and the key padded with zeros -/

theorem beNat_append (a b : Bytes) : beNat (a ++ b) = beNat a * 256 ^ b.length + beNat b := by
  induction a with
  | nil => simp [beNat]
  | cons x a ih =>
    rw [List.cons_append, beNat_cons, beNat_cons, ih, List.length_append, Nat.pow_add, Nat.add_mul, Nat.mul_assoc, Nat.add_assoc]

theorem beNat_zeros (m : Nat) : beNat (List.replicate m 0) = 0 := by
  induction m with
  | zero => simp [beNat]
  | succ m ih => rw [List.replicate_succ, beNat_cons, ih]; simp

theorem beWords_zeros (k : Nat) (hk : 0 < k) (r : Nat) :
    beWords (8 * k) k (List.replicate (r * k) 0) = List.replicate r 0 := by
  induction r with
  | zero => simp [beWords, chunks]
  | succ r ih =>
    rw [show (r + 1) * k = k + r * k by rw [Nat.add_mul, Nat.one_mul, Nat.add_comm], ← List.replicate_append_replicate]
    unfold beWords at ih ⊢
    rw [chunks_append k hk _ _ (by simp), List.map_cons, ih, beNat_zeros, List.replicate_succ]; rfl

/-- The first `N` bytes of a key, a shorter key being followed by zeros. -/
def zeroPad (N : Nat) (key : Bytes) : Bytes := key.take N ++ List.replicate (N - key.length) 0

/-- The words loaded are those of the key padded with zeros, when the last word is complete or half full (or the key too long). -/
theorem ldUserKey_padded_partial (k n : Nat) (hk : 0 < k) (key : Bytes)
    (h : n * k ≤ key.length ∨ key.length % k = 0 ∨ 2 * (key.length % k) = k) :
    ldUserKey k n key = beWords (8 * k) k (zeroPad (n * k) key) := by
  by_cases hf : n * k ≤ key.length
  · rw [ldUserKey_full k n hk key hf, zeroPad, Nat.sub_eq_zero_of_le hf, List.replicate_zero, List.append_nil]
  · have hh : key.length % k = 0 ∨ 2 * (key.length % k) = k := by rcases h with h | h; exact absurd h hf; exact h
    have hdiv := Nat.div_add_mod key.length k
    have hmod := Nat.mod_lt key.length hk
    generalize hj : key.length / k = j at hdiv
    generalize hd : key.length % k = d at hdiv hmod hh
    rw [Nat.mul_comm] at hdiv
    have hjn : j < n := by
      rcases Nat.lt_or_ge j n with h1 | h1
      · exact h1
      · have := Nat.mul_le_mul_right k h1; omega
    have hlt : (key.take (j * k)).length = j * k := by rw [List.length_take]; omega
    have hld : (key.drop (j * k)).length = d := by rw [List.length_drop]; omega
    have e := ldUserKey_eq k n hk (key.take (j * k)) (key.drop (j * k)) j (n - j - 1) hlt (by omega) (by omega)
    rw [List.take_append_drop, hld] at e
    have hnk : n * k = j * k + k + (n - j - 1) * k := by
      rw [show n * k = (j + 1 + (n - j - 1)) * k by congr 1; omega, Nat.add_mul, Nat.add_mul, Nat.one_mul]
    have hz : zeroPad (n * k) key = key.take (j * k) ++ ((key.drop (j * k) ++ List.replicate (k - d) 0) ++
        List.replicate ((n - j - 1) * k) 0) := by
      unfold zeroPad
      rw [List.take_of_length_le (by omega), List.append_assoc, List.replicate_append_replicate, ← List.append_assoc,
        List.take_append_drop]
      congr 2
      omega
    rw [e, hz]
    unfold beWords
    rw [chunks_append_multi k hk _ _ (by rw [hlt]; exact Nat.mul_mod_left _ _), List.map_append,
      chunks_append k hk _ _ (by rw [List.length_append, hld, List.length_replicate]; omega), List.map_cons]
    have hzz := beWords_zeros k hk (n - j - 1)
    unfold beWords at hzz
    rw [hzz, beNat_append, beNat_zeros, List.length_replicate, Nat.add_zero]
    rcases hh with h0 | h0
    · have : key.drop (j * k) = [] := List.length_eq_zero_iff.1 (by omega)
      rw [this]; simp [beNat]
    · rw [show k - d = d by omega]

/-- A case with a half full word. -/
example : ldUserKey 4 2 [1, 2, 3, 4, 5, 6] = [0x01020304#32, 0x05060000#32] := by decide +kernel

/-- A word with one byte is not the word of the padded key. -/
theorem ldUserKey_not_padded : ldUserKey 4 2 [1, 2, 3, 4, 5] ≠ beWords 32 4 (zeroPad 8 [1, 2, 3, 4, 5]) := by decide +kernel

end Kryptos.KeyLoad
