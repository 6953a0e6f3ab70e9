import Verif.Lemmas.Seal
/- C109: SEAL 2.0 and 3.0. -/
namespace Kryptos.Seal
open Spec Spec.MD Hash

/-! The key. -/

theorem ldLoop_ok : ∀ (key : Bytes) (st : List W32) (s k : Nat), st.length = 5 → s < 5 →
    ∃ st' s', ldLoop key st s k = .ok (st', s', k + key.length) ∧ st'.length = 5 ∧ s' < 5
  | [], st, s, k, h, hs => ⟨st, s, rfl, h, hs⟩
  | y :: key, st, s, k, h, hs => by
    rw [ldLoop]
    have e : rd st s = .ok (st[s]'(by omega)) := by
      unfold rd
      rw [List.getElem?_eq_getElem (by omega)]
      rfl
    have e2 : ∀ v, wr st s v = .ok (st.set s v) := fun v => by
      unfold wr
      rw [if_pos (by omega)]
    rw [e, Out.bind_ok, e2, Out.bind_ok]
    obtain ⟨st', s', r1, r2, r3⟩ := ldLoop_ok key (st.set s ((st[s]'(by omega)) <<< 8 ||| y.setWidth 32)) (if (k + 1) % 4 = 0 then (s + 1) % 5 else s) (k + 1)
      (by rw [List.length_set]; exact h) (by split <;> omega)
    exact ⟨st', s', by rw [r1, List.length_cons, Nat.add_assoc, Nat.add_comm 1], r2, r3⟩

theorem ldTail_ok : ∀ (fuel : Nat) (st : List W32) (s k : Nat), st.length = 5 → s < 5 → ∃ st', ldTail fuel st s k = .ok st' ∧ st'.length = 5
  | 0, st, s, k, h, hs => ⟨st, rfl, h⟩
  | fuel + 1, st, s, k, h, hs => by
    rw [ldTail]
    by_cases c : k % 4 ≠ 0
    · have e : rd st s = .ok (st[s]'(by omega)) := by
        unfold rd
        rw [List.getElem?_eq_getElem (by omega)]
        rfl
      have e2 : ∀ v, wr st s v = .ok (st.set s v) := fun v => by
        unfold wr
        rw [if_pos (by omega)]
      rw [if_pos c, e, Out.bind_ok, e2, Out.bind_ok]
      exact ldTail_ok fuel _ s (k + 1) (by rw [List.length_set]; exact h) hs
    · rw [if_neg c]
      exact ⟨st, rfl, h⟩

/-- Every key is loaded, whatever its length. -/
theorem ldUserkey_ok (key : Bytes) : ∃ a, ldUserkey key = .ok a := by
  obtain ⟨st, s, e, h, hs⟩ := ldLoop_ok key (List.replicate 5 0) 0 0 rfl (by omega)
  obtain ⟨st', e', h'⟩ := ldTail_ok 3 st s (0 + key.length) h hs
  unfold ldUserkey
  rw [e, Out.bind_ok]
  dsimp only
  rw [e', Out.bind_ok]
  match st', h' with
  | [a, b, c, d, e], _ => exact ⟨⟨a, b, c, d, e⟩, rfl⟩

theorem cat_append (a b c d : Byte) : cat a b c d = (a ++ b ++ c ++ d : BitVec (8 + 8 + 8 + 8)) := by
  have h : ∀ (x : W32) (y : Byte), (x <<< 8 ||| y.setWidth 32).toNat = x.toNat * 256 % 2 ^ 32 + y.toNat := fun x y => by
    rw [BitVec.toNat_or, BitVec.toNat_shiftLeft, BitVec.toNat_setWidth, Nat.mod_eq_of_lt (show y.toNat < 2 ^ 32 by omega), Nat.shiftLeft_eq]
    rw [show x.toNat * 2 ^ 8 % 2 ^ 32 = 2 ^ 8 * (x.toNat % 2 ^ 24) by omega, ← Nat.two_pow_add_eq_or_of_lt y.isLt]
    omega
  apply BitVec.eq_of_toNat_eq
  have e : ∀ (n : Nat) (u : BitVec n) (v : Byte), (u ++ v).toNat = u.toNat * 256 + v.toNat := fun n u v => by
    rw [BitVec.toNat_append, Nat.shiftLeft_eq, Nat.mul_comm, ← Nat.two_pow_add_eq_or_of_lt v.isLt]
  rw [e, e, e]
  unfold cat
  rw [h, h, h, h]
  have := a.isLt
  have := b.isLt
  have := c.isLt
  rw [show ((0 : W32).toNat) = 0 from rfl]
  omega

/-- Four bytes of the key. -/
theorem ld4 (st : List W32) (s k : Nat) (a b c d : Byte) (rest : Bytes) (x : W32) (hs : s < st.length) (hr : rd st s = .ok x) (hk : k % 4 = 0) :
    ldLoop (a :: b :: c :: d :: rest) st s k =
      ldLoop rest (st.set s ((((x <<< 8 ||| a.setWidth 32) <<< 8 ||| b.setWidth 32) <<< 8 ||| c.setWidth 32) <<< 8 ||| d.setWidth 32)) ((s + 1) % 5) (k + 4) := by
  have w : ∀ (l : List W32) v, l.length = st.length → wr l s v = .ok (l.set s v) := fun l v h => by
    unfold wr
    rw [if_pos (by omega)]
  have r : ∀ (l : List W32) v, l.length = st.length → rd (l.set s v) s = .ok v := fun l v h => by
    unfold rd
    rw [List.getElem?_set_self (by omega)]
    rfl
  rw [ldLoop, hr, Out.bind_ok, w _ _ rfl, Out.bind_ok, if_neg (by omega), ldLoop, r _ _ rfl, Out.bind_ok, w _ _ (List.length_set), Out.bind_ok,
    if_neg (by omega), List.set_set, ldLoop, r _ _ rfl, Out.bind_ok, w _ _ (List.length_set), Out.bind_ok,
    if_neg (by omega), List.set_set, ldLoop, r _ _ rfl, Out.bind_ok, w _ _ (List.length_set), Out.bind_ok, if_pos (by omega), List.set_set]

theorem ld_end (a b c d e : W32) (key : Bytes) (s k : Nat) (hk : k % 4 = 0) (h : ldLoop key (List.replicate 5 0) 0 0 = .ok ([a, b, c, d, e], s, k)) :
    ldUserkey key = .ok ⟨a, b, c, d, e⟩ := by
  unfold ldUserkey
  rw [h, Out.bind_ok]
  dsimp only
  rw [ldTail, if_neg (by omega)]
  rfl

/-- A key of 160 bits gives the five words read from its bytes, most significant first. -/
theorem key_of_160_bits (k0 k1 k2 k3 k4 k5 k6 k7 k8 k9 k10 k11 k12 k13 k14 k15 k16 k17 k18 k19 : Byte) :
    ldUserkey [k0, k1, k2, k3, k4, k5, k6, k7, k8, k9, k10, k11, k12, k13, k14, k15, k16, k17, k18, k19] =
      .ok ⟨k0 ++ k1 ++ k2 ++ k3, k4 ++ k5 ++ k6 ++ k7, k8 ++ k9 ++ k10 ++ k11, k12 ++ k13 ++ k14 ++ k15, k16 ++ k17 ++ k18 ++ k19⟩ := by
  refine Eq.trans (b := .ok ⟨cat k0 k1 k2 k3, cat k4 k5 k6 k7, cat k8 k9 k10 k11, cat k12 k13 k14 k15, cat k16 k17 k18 k19⟩) ?_ ?_
  · refine ld_end _ _ _ _ _ _ 0 20 rfl ?_
    rw [ld4 _ 0 0 k0 k1 k2 k3 _ 0 (by decide) rfl rfl]
    refine (ld4 [_, 0, 0, 0, 0] 1 4 k4 k5 k6 k7 _ 0 (by simp) rfl rfl).trans ?_
    refine (ld4 [_, _, 0, 0, 0] 2 8 k8 k9 k10 k11 _ 0 (by simp) rfl rfl).trans ?_
    refine (ld4 [_, _, _, 0, 0] 3 12 k12 k13 k14 k15 _ 0 (by simp) rfl rfl).trans ?_
    refine (ld4 [_, _, _, _, 0] 4 16 k16 k17 k18 k19 _ 0 (by simp) rfl rfl).trans ?_
    rfl
  · simp only [cat_append]

/-! The text. -/

theorem bytes4_be (w : W32) : bytes4 w = be 4 w.toNat := by
  have h : ∀ i, (w >>> (8 * i)).setWidth 8 = BitVec.ofNat 8 (w.toNat / 256 ^ i) := fun i => by
    apply BitVec.eq_of_toNat_eq
    rw [BitVec.toNat_setWidth, BitVec.toNat_ushiftRight, Nat.shiftRight_eq_div_pow, BitVec.toNat_ofNat, Nat.pow_mul]
  unfold bytes4 be
  have h3 := h 3
  have h2 := h 2
  have h1 := h 1
  have h0 := h 0
  rw [BitVec.ushiftRight_zero] at h0
  exact congr (congrArg List.cons h3) (congr (congrArg List.cons h2) (congr (congrArg List.cons h1) (congrArg (fun x => [x]) h0)))

theorem encrypt_pads (three : Bool) (a : Five 32) (n : W32) (W : Nat) (text : Bytes) :
    Spec.Seal.encrypt three a n W text = List.zipWith (· ^^^ ·) text (pads three a W n ((text.length + (4 * W - 1)) / (4 * W))) := by
  unfold Spec.Seal.encrypt pads
  congr 2
  funext j
  congr 1
  funext w
  exact (bytes4_be w).symm

/-- For every key, both versions, every position and every number of words from 1 to 65535, and every text that is not empty: the task succeeds, nothing
undefined is done, and the output is the text added to the key stream that Rogaway and Coppersmith define. -/
theorem seal_partial (three : Bool) (key : Bytes) (a : Five 32) (n : Option W32) (W : Nat) (text : Bytes) (h1 : 1 ≤ W) (h2 : W ≤ 65535)
    (ha : ldUserkey key = .ok a) (ht : text ≠ []) :
    cipher key (some (if three then 3 else 2)) (some W) n text = .ok ⟨.success, Spec.Seal.encrypt three a (n.getD 0) W text⟩ := by
  have hN : 4 * ([] : List W32).length + text.length ≤ 4 * W * ((text.length + (4 * W - 1)) / (4 * W)) := by
    have := Nat.div_add_mod (text.length + (4 * W - 1)) (4 * W)
    have := Nat.mod_lt (text.length + (4 * W - 1)) (show 0 < 4 * W by omega)
    rw [List.length_nil]
    generalize (text.length + (4 * W - 1)) / (4 * W) = q at *
    generalize 4 * W * q = z at *
    omega
  obtain ⟨n', e⟩ := loop_eq three key a W text.length h1 h2 ha text [] [] (n.getD 0) _ (by exact h1) ht (by simp) hN
  unfold cipher
  dsimp only
  rw [if_neg (by omega)]
  refine (congrArg (· >>= _) e).trans ?_
  rw [Out.bind_ok, Out.pure_eq]
  rw [encrypt_pads]
  rfl

theorem pads_length (three : Bool) (a : Five 32) (W : Nat) (n : W32) (N : Nat) : (pads three a W n N).length = 4 * W * N := by
  induction N generalizing n with
  | zero => rfl
  | succ N ih => rw [pads_succ, List.length_append, ih, flat4_length, stream_length, Nat.mul_succ, Nat.add_comm]

theorem encrypt_length (three : Bool) (a : Five 32) (n : W32) (W : Nat) (h : 1 ≤ W) (text : Bytes) : (Spec.Seal.encrypt three a n W text).length = text.length := by
  rw [encrypt_pads, List.length_zipWith, pads_length]
  have := Nat.div_add_mod (text.length + (4 * W - 1)) (4 * W)
  have := Nat.mod_lt (text.length + (4 * W - 1)) (show 0 < 4 * W by omega)
  generalize (text.length + (4 * W - 1)) / (4 * W) = q at *
  generalize 4 * W * q = z at *
  omega

theorem zip_twice : ∀ l k : Bytes, l.length ≤ k.length → List.zipWith (· ^^^ ·) (List.zipWith (· ^^^ ·) l k) k = l
  | [], _, _ => by simp
  | x :: l, y :: k, h => by
    rw [List.zipWith_cons_cons, List.zipWith_cons_cons, zip_twice l k (by simpa using h), BitVec.xor_assoc, BitVec.xor_self, BitVec.xor_zero]

/-- The text comes back. -/
theorem seal_inverts (three : Bool) (key : Bytes) (n : Option W32) (W : Nat) (text : Bytes) (h1 : 1 ≤ W) (h2 : W ≤ 65535) (ht : text ≠ []) :
    ∃ c, cipher key (some (if three then 3 else 2)) (some W) n text = .ok ⟨.success, c⟩ ∧ c.length = text.length ∧
      cipher key (some (if three then 3 else 2)) (some W) n c = .ok ⟨.success, text⟩ := by
  obtain ⟨a, ha⟩ := ldUserkey_ok key
  have hl := encrypt_length three a (n.getD 0) W h1 text
  refine ⟨_, seal_partial three key a n W text h1 h2 ha ht, hl, ?_⟩
  rw [seal_partial three key a n W _ h1 h2 ha (fun q => ht (List.length_eq_zero_iff.mp (by rw [← hl, q]; rfl)))]
  congr 2
  rw [encrypt_pads, hl, encrypt_pads]
  refine zip_twice _ _ ?_
  rw [pads_length]
  have := Nat.div_add_mod (text.length + (4 * W - 1)) (4 * W)
  have := Nat.mod_lt (text.length + (4 * W - 1)) (show 0 < 4 * W by omega)
  generalize (text.length + (4 * W - 1)) / (4 * W) = q at *
  generalize 4 * W * q = z at *
  omega

/-- What is refused: no version, no number of words, or one outside 1 to 65535. -/
theorem seal_refused (key : Bytes) (version wordsize : Option Nat) (n : Option W32) (text : Bytes)
    (h : version = none ∨ wordsize = none ∨ ∃ w, wordsize = some w ∧ (w = 0 ∨ 65535 < w)) :
    cipher key version wordsize n text = .ok ⟨.invalidParams, []⟩ := by
  unfold cipher
  match version, wordsize with
  | none, _ => rfl
  | some _, none => rfl
  | some v, some w =>
    rcases h with h | h | ⟨w', h, h'⟩
    · exact absurd h (by simp)
    · exact absurd h (by simp)
    · cases h
      dsimp only
      rw [if_pos (by omega)]
      rfl

/-- VIOLATION: another version is not refused.  No key stream is written and a local variable without a value is added to the text. -/
theorem version_not_checked (key : Bytes) (version W : Nat) (n : Option W32) (text : Bytes) (hv : version ≠ 2 ∧ version ≠ 3) (h1 : 1 ≤ W) (h2 : W ≤ 65535)
    (ht : text ≠ []) : cipher key (some version) (some W) n text = .ub := by
  have ha : ∀ s, apply version key W text.length s = .ub := fun s => by
    unfold apply keystream
    dsimp only
    rw [if_pos hv]
    rfl
  have hl : ∀ (t : Bytes) (s : St), t ≠ [] → s.words.length < W → loop version key W text.length t s = .ub := by
    intro t
    induction t with
    | nil => exact fun s h _ => absurd rfl h
    | cons y rest ih =>
      intro s _ hs
      rw [loop]
      by_cases c0 : s.words.length ≥ 0xffff
      · rw [if_pos c0]
      · rw [if_neg c0]
        dsimp only
        by_cases c : rest = []
        · rw [if_pos c, ha]
        · rw [if_neg c]
          split
          · split
            · rw [ha]
              rfl
            · rename_i c2
              refine ih _ c ?_
              dsimp only at c2 ⊢
              rw [List.length_append, List.length_singleton] at c2 ⊢
              omega
          · rw [if_neg (by dsimp only; omega)]
            exact ih _ c hs
  unfold cipher
  dsimp only
  rw [if_neg (by omega)]
  refine (congrArg (· >>= _) (hl text _ ht (by exact h1))).trans rfl

/-- VIOLATION: the padding of a short key moves it by four bits for each missing byte instead of eight, so that keys of one byte and of two give the same
output for everything, also where neither ends in a zero byte. -/
theorem short_keys_collide (x : Byte) (version W : Option Nat) (n : Option W32) (text : Bytes) :
    cipher [x] version W n text = cipher [x >>> 4, x <<< 4] version W n text := by
  have e : ldUserkey [x] = ldUserkey [x >>> 4, x <<< 4] := by
    have h : ∀ x : Byte, ((0 : W32) <<< 8 ||| x.setWidth 32) <<< 4 <<< 4 <<< 4 =
        (((0 : W32) <<< 8 ||| (x >>> 4).setWidth 32) <<< 8 ||| (x <<< 4).setWidth 32) <<< 4 <<< 4 := by decide +kernel
    exact congrArg (fun z => Out.ok (⟨z, 0, 0, 0, 0⟩ : Five 32)) (h x)
  have k : ∀ v m L, keystream v [x] m L = keystream v [x >>> 4, x <<< 4] m L := fun v m L => by
    unfold keystream
    rw [e]
  have a : ∀ v w c s, apply v [x] w c s = apply v [x >>> 4, x <<< 4] w c s := fun v w c s => by
    unfold apply
    dsimp only
    rw [k]
  have l : ∀ v w c t s, loop v [x] w c t s = loop v [x >>> 4, x <<< 4] w c t s := by
    intro v w c t
    induction t with
    | nil => exact fun s => rfl
    | cons y t ih =>
      intro s
      simp only [loop, a, ih]
  unfold cipher
  simp only [l]

/-- VIOLATION: of a key of 24 bytes the first four have no influence: the words of the state hold 32 bits, and what comes after the twentieth byte pushes
the first bytes out. -/
theorem long_key_start_lost (p0 p1 p2 p3 q0 q1 q2 q3 : Byte) (key : Bytes) (h : key.length = 20) :
    ldUserkey (p0 :: p1 :: p2 :: p3 :: key) = ldUserkey (q0 :: q1 :: q2 :: q3 :: key) := by
  match key, h with
  | [k0, k1, k2, k3, k4, k5, k6, k7, k8, k9, k10, k11, k12, k13, k14, k15, k16, k17, k18, k19], _ =>
    have f : ∀ (x : W32), x <<< 8 <<< 8 <<< 8 <<< 8 = 0 := fun x => by
      rw [← BitVec.shiftLeft_add, ← BitVec.shiftLeft_add, ← BitVec.shiftLeft_add]
      exact BitVec.shiftLeft_eq_zero (by omega)
    have g : ∀ (x : W32) (a b c d : Byte), (((x <<< 8 ||| a.setWidth 32) <<< 8 ||| b.setWidth 32) <<< 8 ||| c.setWidth 32) <<< 8 ||| d.setWidth 32 = cat a b c d :=
      fun x a b c d => by
        unfold cat
        simp only [BitVec.shiftLeft_or_distrib, f]
    have e : ∀ p0 p1 p2 p3 : Byte, ldUserkey (p0 :: p1 :: p2 :: p3 ::
        [k0, k1, k2, k3, k4, k5, k6, k7, k8, k9, k10, k11, k12, k13, k14, k15, k16, k17, k18, k19]) =
        .ok ⟨cat k16 k17 k18 k19, cat k0 k1 k2 k3, cat k4 k5 k6 k7, cat k8 k9 k10 k11, cat k12 k13 k14 k15⟩ := fun p0 p1 p2 p3 => by
      rw [← g (cat p0 p1 p2 p3) k16 k17 k18 k19]
      refine ld_end _ _ _ _ _ _ 1 24 rfl ?_
      rw [ld4 _ 0 0 p0 p1 p2 p3 _ 0 (by decide) rfl rfl]
      refine (ld4 [_, 0, 0, 0, 0] 1 4 k0 k1 k2 k3 _ 0 (by simp) rfl rfl).trans ?_
      refine (ld4 [_, _, 0, 0, 0] 2 8 k4 k5 k6 k7 _ 0 (by simp) rfl rfl).trans ?_
      refine (ld4 [_, _, _, 0, 0] 3 12 k8 k9 k10 k11 _ 0 (by simp) rfl rfl).trans ?_
      refine (ld4 [_, _, _, _, 0] 4 16 k12 k13 k14 k15 _ 0 (by simp) rfl rfl).trans ?_
      refine (ld4 [cat p0 p1 p2 p3, _, _, _, _] 0 20 k16 k17 k18 k19 _ (cat p0 p1 p2 p3) (by simp) rfl rfl).trans ?_
      rfl
    rw [e, e]

/-! Cases: the key of the publication, the first word of its table `S`, and both sides of what is refused. -/

example : ldUserkey [0x67, 0x45, 0x23, 0x01, 0xef, 0xcd, 0xab, 0x89, 0x98, 0xba, 0xdc, 0xfe, 0x10, 0x32, 0x54, 0x76, 0xc3, 0xd2, 0xe1, 0xf0] =
    .ok ⟨0x67452301, 0xefcdab89, 0x98badcfe, 0x10325476, 0xc3d2e1f0⟩ := by decide +kernel
example : (match ga ⟨0x67452301, 0xefcdab89, 0x98badcfe, 0x10325476, 0xc3d2e1f0⟩ 819 with | .ok x => x.b | _ => 0) = 0x907c1e3d := by decide +kernel
example : cipher [1] (some 3) (some 0) none [1, 2, 3] = .ok ⟨.invalidParams, []⟩ := seal_refused _ _ _ _ _ (Or.inr (Or.inr ⟨0, rfl, Or.inl rfl⟩))
example : cipher [1] (some 4) (some 1024) none [1, 2, 3] = .ub := version_not_checked _ _ _ _ _ (by decide) (by decide) (by decide) (by decide)
example : cipher [0xab] (some 3) (some 1024) none [1, 2, 3] = cipher [0x0a, 0xb0] (some 3) (some 1024) none [1, 2, 3] := short_keys_collide 0xab _ _ _ _
example : ∃ c, cipher [1, 2, 3] (some 3) (some 2) none (List.replicate 21 7) = .ok ⟨.success, c⟩ ∧ c.length = 21 ∧
    cipher [1, 2, 3] (some 3) (some 2) none c = .ok ⟨.success, List.replicate 21 7⟩ :=
  seal_inverts true _ _ _ _ (by decide) (by decide) (by decide)

end Kryptos.Seal
