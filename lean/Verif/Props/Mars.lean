import Verif.Model.Mars
import Verif.Spec.Mars
import Verif.Lemmas.KeyWords
/-
  MARS: the C code computes the published cipher and decryption undoes encryption, as far as shifting a word by its width means what the
  processors do; with the C standard's meaning every key has blocks that cannot be encrypted.
-/
namespace Kryptos.Mars
open Block KeyLoad Spec.MD
open Spec.Mars (S0 S1 forward core backward addKey subKey next prev eSum eR1 eR2 InMask Corrected IsSchedule rotations)

theorem rl_eq (w : W32) (s : Nat) (_h : 0 < s) (h' : s < 32) : rl w s = w.rotateLeft s := by
  rw [BitVec.rotateLeft_def, Nat.mod_eq_of_lt h']; rfl
theorem rr_eq (w : W32) (s : Nat) (_h : 0 < s) (h' : s < 32) : rr w s = w.rotateRight s := by
  rw [BitVec.rotateRight_def, Nat.mod_eq_of_lt h']; rfl

theorem and_toNat (w : W32) (n k : Nat) (h : n = 2 ^ k - 1) (hk : k ≤ 32) : (w &&& BitVec.ofNat 32 n).toNat = w.toNat % 2 ^ k := by
  have : (2 : Nat) ^ k ≤ 2 ^ 32 := Nat.pow_le_pow_right (by decide) hk
  have : 0 < (2 : Nat) ^ k := Nat.pow_pos (by decide)
  rw [BitVec.toNat_and, BitVec.toNat_ofNat, Nat.mod_eq_of_lt (by omega), h, Nat.and_two_pow_sub_one_eq_mod]

theorem getByte_eq (d : W32) (n : Nat) : getByte d n = Spec.Mars.byte d n := by
  unfold getByte Spec.Mars.byte
  rw [show (0xFF : W32) = BitVec.ofNat 32 255 from rfl, and_toNat _ 255 8 rfl (by decide), BitVec.toNat_ushiftRight, Nat.shiftRight_eq_div_pow,
    Nat.shiftLeft_eq, show (256 : Nat) = 2 ^ 8 from rfl, ← Nat.pow_mul, Nat.mul_comm 8]

theorem byte_lt (d : W32) (n : Nat) : Spec.Mars.byte d n < 256 := Nat.mod_lt _ (by decide)

theorem rev_eq (w : W32) : rev w = rev32 w := by
  apply BitVec.eq_of_getLsbD_eq; intro i hi
  unfold rev rev32
  interval_cases i <;> simp

set_option maxRecDepth 20000 in
theorem length_S : S.length = 512 := rfl

theorem rd_S {i : Nat} (h : i < 512) : rd S i = .ok (Spec.Mars.S S i) := rd_getD 0 (by rw [length_S]; exact h)
theorem s0_eq (d : W32) (n : Nat) : s0 (getByte d n) = .ok (S0 S (Spec.Mars.byte d n)) := by
  rw [getByte_eq]; exact rd_S (by have := byte_lt d n; omega)
theorem s1_eq (d : W32) (n : Nat) : s1 (getByte d n) = .ok (S1 S (Spec.Mars.byte d n)) := by
  rw [getByte_eq]; exact rd_S (by have := byte_lt d n; omega)

attribute [local irreducible] S

/-! ## The E-function -/

theorem rotlV_strict (strict : Bool) (w : W32) (s : Nat) (hs : s < 32) :
    rotlV strict w s = if strict = true ∧ s = 0 then .ub else .ok (w.rotateLeft s) := by
  cases strict with
  | false => rw [rotlV_eq _ _ hs, if_neg (by simp)]
  | true =>
    by_cases h : s = 0
    · rw [if_pos ⟨rfl, h⟩, h]; rfl
    · rw [if_neg (by simp [h]), ← rotlV_eq _ _ hs]
      unfold rotlV
      rw [if_neg (by simp [h]), if_neg (by simp)]

theorem E_run (strict : Bool) (x k k' : W32) : E strict x k k' =
    if strict = true ∧ 0 ∈ [(eR1 x k').toNat % 32, (eR2 x k').toNat % 32] then .ub else .ok (Spec.Mars.E S x k k') := by
  unfold E
  simp only [rl_eq _ 13 (by decide) (by decide), rl_eq _ 5 (by decide) (by decide)]
  have h5 : ∀ w : W32, (w &&& 0x1F).toNat = w.toNat % 32 := fun w => and_toNat w 31 5 rfl (by decide)
  have h9 : (x + k &&& 0x1FF).toNat = (x + k).toNat % 512 := and_toNat _ 511 9 rfl (by decide)
  rw [h9, rd_S (Nat.mod_lt _ (by decide)), Out.bind_ok, h5, h5, rotlV_strict _ _ _ (Nat.mod_lt _ (by decide)),
    rotlV_strict _ _ _ (Nat.mod_lt _ (by decide))]
  rw [show ((x.rotateLeft 13 * k').rotateLeft 5 : W32) = eR1 x k' from rfl, show ((eR1 x k').rotateLeft 5 : W32) = eR2 x k' from rfl]
  by_cases h1 : strict = true ∧ (eR1 x k').toNat % 32 = 0
  · rw [if_pos h1, if_pos (⟨h1.1, List.mem_cons.mpr (Or.inl h1.2.symm)⟩ : strict = true ∧ 0 ∈ [_, _])]; rfl
  · by_cases h2 : strict = true ∧ (eR2 x k').toNat % 32 = 0
    · rw [if_neg h1, if_pos h2, if_pos (⟨h2.1, List.mem_cons.mpr (Or.inr (List.mem_cons.mpr (Or.inl h2.2.symm)))⟩ : strict = true ∧ 0 ∈ [_, _])]; rfl
    · rw [if_neg h1, if_neg h2, if_neg]
      · rfl
      · rintro ⟨hs, h⟩
        simp only [List.mem_cons, List.not_mem_nil, or_false] at h
        rcases h with h | h
        · exact h1 ⟨hs, h.symm⟩
        · exact h2 ⟨hs, h.symm⟩

/-! ## Rounds -/

theorem four (i : Nat) (h : i < 8) (r : Nat) (hr : r < 4) : (i = r ∨ i = r + 4) = (i % 4 = r) := by
  apply propext; omega

theorem fwd_run (i : Nat) (h : i < 8) (D : Four 32) : fwd i D = .ok (forward S D i) := by
  unfold fwd
  simp only [s0_eq, s1_eq, Out.bind_ok, rr_eq _ 24 (by decide) (by decide), four i h 0 (by decide), four i h 1 (by decide)]
  rfl

theorem bwd_run (i : Nat) (h : i < 8) (D : Four 32) : bwd i D = .ok (backward S D i) := by
  unfold bwd
  simp only [s0_eq, s1_eq, Out.bind_ok, rl_eq _ 24 (by decide) (by decide), four i h 2 (by decide), four i h 3 (by decide)]
  rfl

theorem keyed_run (strict : Bool) (K : List W32) (hK : K.length = 40) (i : Nat) (h : i < 16) (D : Four 32) : keyed strict K i D =
    if strict = true ∧ 0 ∈ rotations K D i then .ub else .ok (core S K D i) := by
  unfold keyed
  rw [Nat.shiftLeft_eq, Nat.mul_comm i, rd_getD 0 (by rw [hK]; omega), rd_getD 0 (by rw [hK]; omega), Out.bind_ok, Out.bind_ok, E_run]
  unfold rotations
  show Out.bind (if strict = true ∧ 0 ∈ [(eR1 D.a (K.getD (2 * i + 5) 0)).toNat % 32, (eR2 D.a (K.getD (2 * i + 5) 0)).toNat % 32] then Out.ub else _) _ = _
  split
  · rfl
  · rw [rl_eq _ 13 (by decide) (by decide)]; rfl

/-! Inverses of the rounds -/

def unforward (D : Four 32) (i : Nat) : Four 32 :=
  let D := prev D
  let a := (if i % 4 = 0 then D.a - D.d else if i % 4 = 1 then D.a - D.b else D.a).rotateLeft 24
  ⟨a, (D.b - S1 S (Spec.Mars.byte a 1)) ^^^ S0 S (Spec.Mars.byte a 0), D.c - S0 S (Spec.Mars.byte a 2), D.d ^^^ S1 S (Spec.Mars.byte a 3)⟩

def unbackward (D : Four 32) (i : Nat) : Four 32 :=
  let D := prev D
  let a := D.a.rotateRight 24
  let d := (D.d ^^^ S0 S (Spec.Mars.byte a 1)) + S1 S (Spec.Mars.byte a 2)
  let b := D.b ^^^ S1 S (Spec.Mars.byte a 0)
  ⟨if i % 4 = 2 then a + d else if i % 4 = 3 then a + b else a, b, D.c + S0 S (Spec.Mars.byte a 3), d⟩

def uncore (K : List W32) (D : Four 32) (i : Nat) : Four 32 :=
  let D := prev D
  let a := D.a.rotateRight 13
  let e := Spec.Mars.E S a (K.getD (2 * i + 4) 0) (K.getD (2 * i + 5) 0)
  if i < 8 then ⟨a, D.b - e.a, D.c - e.b, D.d ^^^ e.c⟩ else ⟨a, D.b ^^^ e.c, D.c - e.b, D.d - e.a⟩

theorem rot24 (w : W32) : (w.rotateRight 24).rotateLeft 24 = w := rotateLeft_rotateRight w 24 (by decide)
theorem rot24' (w : W32) : (w.rotateLeft 24).rotateRight 24 = w := rotateRight_rotateLeft w 24 (by decide)
theorem rot13 (w : W32) : (w.rotateRight 13).rotateLeft 13 = w := rotateLeft_rotateRight w 13 (by decide)
theorem rot13' (w : W32) : (w.rotateLeft 13).rotateRight 13 = w := rotateRight_rotateLeft w 13 (by decide)

theorem unforward_forward (D : Four 32) (i : Nat) : unforward (forward S D i) i = D := by
  have e : ((if i % 4 = 0 then (forward S D i).d - (forward S D i).c else if i % 4 = 1 then (forward S D i).d - (forward S D i).a else
      (forward S D i).d).rotateLeft 24 : W32) = D.a := by
    unfold forward next
    by_cases h0 : i % 4 = 0
    · simp only [if_pos h0, BitVec.add_sub_cancel, rot24]
    · by_cases h1 : i % 4 = 1
      · simp only [if_neg h0, if_pos h1, BitVec.add_sub_cancel, rot24]
      · simp only [if_neg h0, if_neg h1, rot24]
  unfold unforward prev
  simp only [e]
  unfold forward next
  simp only [BitVec.add_sub_cancel, xor_cancel_right]

theorem forward_unforward (D : Four 32) (i : Nat) : forward S (unforward D i) i = D := by
  unfold unforward forward next prev
  simp only [BitVec.sub_add_cancel, xor_cancel_right, rot24']
  by_cases h0 : i % 4 = 0
  · simp only [if_pos h0, BitVec.sub_add_cancel]
  · by_cases h1 : i % 4 = 1
    · simp only [if_neg h0, if_pos h1, BitVec.sub_add_cancel]
    · simp only [if_neg h0, if_neg h1]

theorem backward_unbackward (D : Four 32) (i : Nat) : backward S (unbackward D i) i = D := by
  have e : ((if i % 4 = 2 then (unbackward D i).a - (unbackward D i).d else if i % 4 = 3 then (unbackward D i).a - (unbackward D i).b else
      (unbackward D i).a) : W32) = D.d.rotateRight 24 := by
    unfold unbackward prev
    by_cases h0 : i % 4 = 2
    · simp only [if_pos h0, BitVec.add_sub_cancel]
    · by_cases h1 : i % 4 = 3
      · simp only [if_neg h0, if_pos h1, BitVec.add_sub_cancel]
      · simp only [if_neg h0, if_neg h1]
  unfold backward next
  simp only [e]
  unfold unbackward prev
  simp only [BitVec.add_sub_cancel, xor_cancel_right, rot24]

theorem unbackward_backward (D : Four 32) (i : Nat) : unbackward (backward S D i) i = D := by
  unfold unbackward backward next prev
  simp only [BitVec.sub_add_cancel, xor_cancel_right, rot24']
  by_cases h0 : i % 4 = 2
  · simp only [if_pos h0, BitVec.sub_add_cancel]
  · by_cases h1 : i % 4 = 3
    · simp only [if_neg h0, if_pos h1, BitVec.sub_add_cancel]
    · simp only [if_neg h0, if_neg h1]

theorem uncore_core (K : List W32) (D : Four 32) (i : Nat) : uncore K (core S K D i) i = D := by
  unfold uncore core next prev
  by_cases h : i < 8
  · simp only [if_pos h, rot13', BitVec.add_sub_cancel, xor_cancel_right]
  · simp only [if_neg h, rot13', BitVec.add_sub_cancel, xor_cancel_right]

theorem core_uncore (K : List W32) (D : Four 32) (i : Nat) : core S K (uncore K D i) i = D := by
  unfold uncore core next prev
  by_cases h : i < 8
  · simp only [if_pos h, rot13, BitVec.sub_add_cancel, xor_cancel_right]
  · simp only [if_neg h, rot13, BitVec.sub_add_cancel, xor_cancel_right]

theorem bwdInv_run (i : Nat) (h : i < 8) (D : Four 32) : bwdInv i D = .ok (unforward D i) := by
  unfold bwdInv
  simp only [s0_eq, s1_eq, Out.bind_ok, rl_eq _ 24 (by decide) (by decide), four i h 0 (by decide), four i h 1 (by decide)]
  rfl

theorem fwdInv_run (i : Nat) (h : i < 8) (D : Four 32) : fwdInv i D = .ok (unbackward D i) := by
  unfold fwdInv
  simp only [s0_eq, s1_eq, Out.bind_ok, rr_eq _ 24 (by decide) (by decide), four i h 2 (by decide), four i h 3 (by decide)]
  rfl

theorem keyedInv_run (strict : Bool) (K : List W32) (hK : K.length = 40) (i : Nat) (h : i < 16) (D : Four 32) : keyedInv strict K i D =
    if strict = true ∧ 0 ∈ rotations K (uncore K D i) i then .ub else .ok (uncore K D i) := by
  unfold keyedInv
  simp only []
  rw [Nat.shiftLeft_eq, Nat.mul_comm i, rd_getD 0 (by rw [hK]; omega), rd_getD 0 (by rw [hK]; omega), Out.bind_ok, Out.bind_ok, E_run,
    rr_eq _ 13 (by decide) (by decide)]
  have e : (uncore K D i).a = (rotwl D).a.rotateRight 13 := by unfold uncore; simp only []; split <;> rfl
  unfold rotations
  rw [e]
  show Out.bind (if strict = true ∧ 0 ∈ [(eR1 ((rotwl D).a.rotateRight 13) (K.getD (2 * i + 5) 0)).toNat % 32,
    (eR2 ((rotwl D).a.rotateRight 13) (K.getD (2 * i + 5) 0)).toNat % 32] then Out.ub else _) _ = _
  split
  · rfl
  · rfl

theorem addK_run (K : List W32) (hK : K.length = 40) (n : Nat) (hn : n + 3 < 40) (D : Four 32) : addK K n D = .ok (addKey K n D) := by
  unfold addK
  rw [rd_getD 0 (by rw [hK]; omega), rd_getD 0 (by rw [hK]; omega), rd_getD 0 (by rw [hK]; omega), rd_getD 0 (by rw [hK]; omega)]
  rfl
theorem subK_run (K : List W32) (hK : K.length = 40) (n : Nat) (hn : n + 3 < 40) (D : Four 32) : subK K n D = .ok (subKey K n D) := by
  unfold subK
  rw [rd_getD 0 (by rw [hK]; omega), rd_getD 0 (by rw [hK]; omega), rd_getD 0 (by rw [hK]; omega), rd_getD 0 (by rw [hK]; omega)]
  rfl
theorem subKey_addKey (K : List W32) (n : Nat) (D : Four 32) : subKey K n (addKey K n D) = D := by
  unfold subKey addKey; simp only [BitVec.add_sub_cancel]
theorem addKey_subKey (K : List W32) (n : Nat) (D : Four 32) : addKey K n (subKey K n D) = D := by
  unfold subKey addKey; simp only [BitVec.sub_add_cancel]

/-! ## Blocks -/

theorem store_eq (D : Four 32) : store D = D.words.flatMap putLe32 := by
  unfold store putLe32
  simp [Four.words, rev_eq]

theorem load_store (D : Four 32) : load (store D) = .ok D := by
  unfold load store
  rw [getBe32_0, getBe32_4, getBe32_8, getBe32_12]
  simp only [Out.bind_ok, rev_eq, rev32_rev32]

theorem store_surj (b : Bytes) (h : b.length = 16) : ∃ D, store D = b := by
  obtain ⟨x, y, z, u, rfl⟩ := block4_be32 b h
  exact ⟨⟨rev x, rev y, rev z, rev u⟩, by unfold store; simp only [rev_eq, rev32_rev32]⟩

theorem store_len (D : Four 32) : (store D).length = 16 := rfl

theorem range_range' (n : Nat) : List.range' 0 n = List.range n := (List.range_eq_range').symm

/-- The states before and after the keyed transformation. -/
def before (K : List W32) (D : Four 32) : Four 32 := (List.range 8).foldl (forward S) (addKey K 0 D)
def after (K : List W32) (D : Four 32) : Four 32 := subKey K 36 ((List.range 8).foldl (backward S) D)
def unbefore (K : List W32) (D : Four 32) : Four 32 := subKey K 0 ((List.range 8).reverse.foldl unforward D)
def unafter (K : List W32) (D : Four 32) : Four 32 := (List.range 8).reverse.foldl unbackward (addKey K 36 D)

theorem unbefore_before (K : List W32) (D : Four 32) : unbefore K (before K D) = D := by
  unfold unbefore before; rw [foldl_undo _ _ unforward_forward, subKey_addKey]
theorem before_unbefore (K : List W32) (D : Four 32) : before K (unbefore K D) = D := by
  unfold unbefore before; rw [addKey_subKey, foldl_undo' _ _ forward_unforward]
theorem unafter_after (K : List W32) (D : Four 32) : unafter K (after K D) = D := by
  unfold unafter after; rw [addKey_subKey, foldl_undo _ _ unbackward_backward]
theorem after_unafter (K : List W32) (D : Four 32) : after K (unafter K D) = D := by
  unfold unafter after; rw [foldl_undo' _ _ backward_unbackward, subKey_addKey]

theorem encBlock_run (strict : Bool) (K : List W32) (hK : K.length = 40) (D : Four 32) : encBlock strict K (store D) =
    (forLoop (keyed strict K) 16 0 (before K D)).bind fun D => .ok (store (after K D)) := by
  unfold encBlock before
  rw [load_store, Out.bind_ok, addK_run K hK 0 (by decide), Out.bind_ok, forLoop_up0 fwd (forward S) 8 _ (fun i s h => fwd_run i h s), Out.bind_ok,
    range_range']
  show Out.bind _ _ = Out.bind _ _
  congr 1
  funext D
  show Out.bind _ _ = _
  rw [forLoop_up0 bwd (backward S) 8 _ (fun i s h => bwd_run i h s), range_range']
  show Out.bind (subK K 36 _) _ = _
  rw [subK_run K hK 36 (by decide)]
  rfl

theorem decBlock_run (strict : Bool) (K : List W32) (hK : K.length = 40) (D : Four 32) : decBlock strict K (store D) =
    (forLoop (fun t => keyedInv strict K (15 - t)) 16 0 (unafter K D)).bind fun D => .ok (store (unbefore K D)) := by
  unfold decBlock unafter
  rw [load_store, Out.bind_ok, addK_run K hK 36 (by decide), Out.bind_ok,
    show (fun t => fwdInv (7 - t)) = (fun t => fwdInv (8 - 1 - t)) from rfl, forLoop_down0 fwdInv unbackward 8 _ (fun i s h => fwdInv_run i h s), Out.bind_ok,
    range_range']
  show Out.bind _ _ = Out.bind _ _
  congr 1
  funext D
  show Out.bind _ _ = _
  rw [show (fun t => bwdInv (7 - t)) = (fun t => bwdInv (8 - 1 - t)) from rfl, forLoop_down0 bwdInv unforward 8 _ (fun i s h => bwdInv_run i h s),
    range_range']
  show Out.bind (subK K 0 _) _ = _
  rw [subK_run K hK 0 (by decide)]
  rfl

/-! ## Loops that may be undefined -/

theorem bind_eq_ok {α β : Type} (x : Out α) (f : α → Out β) (b : β) : x.bind f = .ok b ↔ ∃ a, x = .ok a ∧ f a = .ok b := by
  cases x with
  | ub => exact ⟨fun h => (by cases h), fun ⟨a, h, _⟩ => (by cases h)⟩
  | ok a => exact ⟨fun h => ⟨a, rfl, h⟩, fun ⟨a', h, h'⟩ => by cases h; exact h'⟩

theorem ok_bind {α β : Type} (a : α) (f : α → Out β) : (Out.ok a).bind f = f a := rfl

theorem forLoop_shift {σ : Type} (body : Nat → σ → Out σ) : ∀ (n t : Nat) (s : σ), forLoop body n (t + 1) s = forLoop (fun t => body (t + 1)) n t s
  | 0, _, _ => rfl
  | n + 1, t, s => by
    rw [forLoop, forLoop]
    congr 1
    funext s
    exact forLoop_shift body n (t + 1) s

/-- A loop and the loop of the inverse steps in the other direction. -/
theorem loop_undo {σ : Type} (f g : Nat → σ → Out σ) : ∀ (n : Nat), (∀ i a b, i < n → (f i a = .ok b ↔ g i b = .ok a)) → ∀ a b,
    forLoop f n 0 a = .ok b ↔ forLoop (fun t => g (n - 1 - t)) n 0 b = .ok a
  | 0, _, a, b => ⟨fun h => (by cases h; rfl), fun h => (by cases h; rfl)⟩
  | n + 1, h, a, b => by
    rw [forLoop_snoc, forLoop]
    simp only [forLoop_shift _ n 0]
    rw [show (fun t => g (n + 1 - 1 - (t + 1))) = fun t => g (n - 1 - t) from funext fun t => by
      rw [show n + 1 - 1 - (t + 1) = n - 1 - t by omega], show n + 1 - 1 - 0 = n from rfl, Nat.zero_add]
    refine (bind_eq_ok _ _ _).trans (Iff.trans ?_ (bind_eq_ok _ _ _).symm)
    constructor
    · rintro ⟨c, h1, h2⟩
      exact ⟨c, (h n c b (by omega)).mp h2, (loop_undo f g n (fun i a b hi => h i a b (by omega)) a c).mp h1⟩
    · rintro ⟨c, h1, h2⟩
      exact ⟨c, (loop_undo f g n (fun i a b hi => h i a b (by omega)) a c).mpr h2, (h n c b (by omega)).mpr h1⟩

theorem loop_mono {σ : Type} (f g : Nat → σ → Out σ) : ∀ (n t : Nat), (∀ i a b, t ≤ i → i < t + n → f i a = .ok b → g i a = .ok b) → ∀ a b,
    forLoop f n t a = .ok b → forLoop g n t a = .ok b
  | 0, _, _, _, _, h => h
  | n + 1, t, h, a, b, e => by
    rw [forLoop] at e ⊢
    obtain ⟨c, h1, h2⟩ := (bind_eq_ok _ _ _).mp e
    exact (bind_eq_ok _ _ _).mpr ⟨c, h t a c (Nat.le_refl t) (by omega) h1, loop_mono f g n (t + 1) (fun i a b h1 h2 => h i a b (by omega) (by omega)) c b h2⟩

theorem keyed_iff (strict : Bool) (K : List W32) (hK : K.length = 40) (i : Nat) (h : i < 16) (a b : Four 32) :
    keyed strict K i a = .ok b ↔ keyedInv strict K i b = .ok a := by
  rw [keyed_run strict K hK i h, keyedInv_run strict K hK i h]
  constructor
  · intro e
    split at e
    · cases e
    · rename_i hn
      cases e
      rw [uncore_core, if_neg hn]
  · intro e
    split at e
    · cases e
    · rename_i hn
      cases e
      rw [core_uncore, if_neg hn]

theorem keyed_mono (K : List W32) (hK : K.length = 40) (i : Nat) (h : i < 16) (a b : Four 32) (e : keyed true K i a = .ok b) :
    keyed false K i a = .ok b := by
  rw [keyed_run true K hK i h] at e
  rw [keyed_run false K hK i h, if_neg (by simp)]
  split at e
  · cases e
  · exact e

theorem store_inj {D D' : Four 32} (h : store D = store D') : D = D' := by
  have := load_store D
  rw [h, load_store] at this
  exact (Out.ok.inj this).symm

theorem block_iff (strict : Bool) (K : List W32) (hK : K.length = 40) (D D' : Four 32) :
    encBlock strict K (store D) = .ok (store D') ↔ decBlock strict K (store D') = .ok (store D) := by
  rw [encBlock_run strict K hK, decBlock_run strict K hK]
  have hu := loop_undo (keyed strict K) (keyedInv strict K) 16 (fun i a b h => keyed_iff strict K hK i h a b)
  refine (bind_eq_ok _ _ _).trans (Iff.trans ?_ (bind_eq_ok _ _ _).symm)
  constructor
  · rintro ⟨X, h1, h2⟩
    have e := store_inj (Out.ok.inj h2)
    refine ⟨before K D, ?_, by rw [unbefore_before]⟩
    rw [← e, unafter_after]
    exact (hu _ _).mp h1
  · rintro ⟨X, h1, h2⟩
    have e := store_inj (Out.ok.inj h2)
    refine ⟨unafter K D', ?_, by rw [after_unafter]⟩
    rw [← e, before_unbefore]
    exact (hu _ _).mpr h1

theorem block_mono (K : List W32) (hK : K.length = 40) (D : Four 32) (c : Bytes) (h : encBlock true K (store D) = .ok c) :
    encBlock false K (store D) = .ok c := by
  rw [encBlock_run _ K hK] at h ⊢
  obtain ⟨X, h1, h2⟩ := (bind_eq_ok _ _ _).mp h
  exact (bind_eq_ok _ _ _).mpr ⟨X, loop_mono _ _ 16 0 (fun i a b _ hi => keyed_mono K hK i (by omega) a b) _ _ h1, h2⟩

/-- With the processor's shifts the block function is the published one. -/
theorem block_standard (K : List W32) (hK : K.length = 40) (D : Four 32) : encBlock false K (store D) = .ok (store (Spec.Mars.encrypt S K D)) := by
  rw [encBlock_run _ K hK, forLoop_up0 (keyed false K) (core S K) 16 _ (fun i s h => by rw [keyed_run false K hK i h, if_neg (by simp)]), range_range']
  rfl

theorem block_dec (K : List W32) (hK : K.length = 40) (D : Four 32) : decBlock false K (store (Spec.Mars.encrypt S K D)) = .ok (store D) :=
  (block_iff false K hK D _).mp (block_standard K hK D)

theorem block_invertible (K : List W32) (hK : K.length = 40) : Invertible 16 (encBlock false K) (decBlock false K) where
  dec_enc := fun b hb => by
    obtain ⟨D, rfl⟩ := store_surj b hb
    exact ⟨_, block_standard K hK D, store_len _, block_dec K hK D⟩
  enc_dec := fun b hb => by
    obtain ⟨D, rfl⟩ := store_surj b hb
    have : ∃ D', decBlock false K (store D) = .ok (store D') := by
      rw [decBlock_run _ K hK, show (fun t => keyedInv false K (15 - t)) = (fun t => keyedInv false K (16 - 1 - t)) from rfl,
        forLoop_down0 (keyedInv false K) (uncore K) 16 _ (fun i s h => by rw [keyedInv_run false K hK i h, if_neg (by simp)])]
      exact ⟨_, rfl⟩
    obtain ⟨D', h⟩ := this
    exact ⟨_, h, store_len _, (block_iff false K hK D' D).mpr h⟩

/-- A block of which the first word is zero after the forward mixing gives rotations by zero places. -/
theorem block_undefined (K : List W32) (hK : K.length = 40) : encBlock true K (store (unbefore K ⟨0, 0, 0, 0⟩)) = .ub := by
  have h0 : 0 ∈ rotations K ⟨0, 0, 0, 0⟩ 0 := by
    unfold rotations eR1
    refine List.mem_cons.mpr (Or.inl ?_)
    rw [show ((0 : W32).rotateLeft 13) = 0#32 from rfl, BitVec.zero_mul]
    rfl
  rw [encBlock_run _ K hK, before_unbefore, forLoop, keyed_run true K hK 0 (by decide), if_pos ⟨rfl, h0⟩]
  rfl

/-! ## Key schedule -/

theorem loop_run {σ : Type} (P : σ → Prop) (body : Nat → σ → Out σ) (f : σ → Nat → σ) : ∀ (n t : Nat) (s : σ),
    (∀ i s, t ≤ i → i < t + n → P s → body i s = .ok (f s i) ∧ P (f s i)) → P s →
    forLoop body n t s = .ok ((List.range' t n).foldl f s) ∧ P ((List.range' t n).foldl f s)
  | 0, _, s, _, h0 => ⟨rfl, h0⟩
  | n + 1, t, s, h, h0 => by
    obtain ⟨h1, h2⟩ := h t s (Nat.le_refl t) (by omega) h0
    rw [forLoop, h1, Out.bind_ok, List.range'_succ, List.foldl_cons]
    exact loop_run P body f n (t + 1) _ (fun i s h1 h2 => h i s (by omega) (by omega)) h2

theorem tAt_run (T : List W32) (hT : T.length = 15) (i d : Nat) (hi : i < 15) (hd : d ≤ 15) (h0 : 0 < d) : tAt T i d = .ok (T.getD ((i + (15 - d)) % 15) 0) := by
  unfold tAt
  split
  · rw [rd_getD 0 (by omega), show 15 - (d - i) = (i + (15 - d)) % 15 by omega]
  · rw [rd_getD 0 (by omega), show (i - d) % 15 = (i + (15 - d)) % 15 by omega]

theorem linear_run (j i : Nat) (hi : i < 15) (T : List W32) (hT : T.length = 15) :
    linear j i T = .ok (Spec.Mars.linear j T i) ∧ (Spec.Mars.linear j T i).length = 15 := by
  refine ⟨?_, by unfold Spec.Mars.linear; rw [List.length_set, hT]⟩
  unfold linear Spec.Mars.linear
  rw [tAt_run T hT i 7 hi (by decide) (by decide), tAt_run T hT i 2 hi (by decide) (by decide), Out.bind_ok, Out.bind_ok, rd_getD 0 (by omega), Out.bind_ok,
    wr_of_lt (by omega), rl_eq _ 3 (by decide) (by decide), Nat.shiftLeft_eq, Nat.mul_comm i, ← BitVec.xor_assoc]

theorem stir_run (i : Nat) (hi : i < 15) (T : List W32) (hT : T.length = 15) : stir i T = .ok (Spec.Mars.stir S T i) ∧ (Spec.Mars.stir S T i).length = 15 := by
  refine ⟨?_, by unfold Spec.Mars.stir; rw [List.length_set, hT]⟩
  unfold stir Spec.Mars.stir
  rw [tAt_run T hT i 1 hi (by decide) (by decide), Out.bind_ok, rd_getD 0 (by omega), Out.bind_ok, BitVec.and_comm,
    show ∀ w : W32, (w &&& 0x1FF).toNat = w.toNat % 512 from fun w => and_toNat w 511 9 rfl (by decide), rd_S (Nat.mod_lt _ (by decide)), Out.bind_ok,
    wr_of_lt (by omega), rl_eq _ 9 (by decide) (by decide)]

theorem iteration_run (j : Nat) (T : List W32) (hT : T.length = 15) :
    (forLoop (linear j) 15 0 T).bind (forLoop (fun _ => forLoop stir 15 0) 4 0) = .ok (Spec.Mars.iteration S T j) ∧ (Spec.Mars.iteration S T j).length = 15 := by
  obtain ⟨h1, h2⟩ := loop_run (fun T => T.length = 15) (linear j) (Spec.Mars.linear j) 15 0 T (fun i s _ hi hs => linear_run j i (by omega) s hs) hT
  obtain ⟨h3, h4⟩ := loop_run (fun T => T.length = 15) (fun _ => forLoop stir 15 0) (fun T _ => (List.range 15).foldl (Spec.Mars.stir S) T) 4 0 _
    (fun i s _ _ hs => by
      have := loop_run (fun T => T.length = 15) stir (Spec.Mars.stir S) 15 0 s (fun i s _ hi hs => stir_run i (by omega) s hs) hs
      rwa [range_range'] at this) h2
  simp only [range_range'] at h1 h3 h4
  unfold Spec.Mars.iteration
  rw [h1]
  refine ⟨?_, h4⟩
  rw [← h3]
  exact ok_bind _ _

/-- Writing consecutive words. -/
theorem loop_write {α : Type} (f : Nat → Out α) (g : Nat → α) (pre : List α) : ∀ (n t : Nat) (post : List α), n ≤ post.length → (∀ i, t ≤ i → i < t + n → f i = .ok (g i)) →
    ∀ p, pre.length = p + t →
    forLoop (fun i K => do wr K (p + i) (← f i)) n t (pre ++ post) = .ok (pre ++ ((List.range' t n).map g ++ post.drop n))
  | 0, t, post, _, _, p, _ => rfl
  | n + 1, t, [], h, _, p, _ => by simp at h
  | n + 1, t, c :: post, h, hf, p, hp => by
    rw [forLoop, hf t (Nat.le_refl t) (by omega), Out.bind_ok, wr_of_lt (by rw [List.length_append, List.length_cons]; omega), Out.bind_ok,
      List.set_append_right _ _ (by omega), show p + t - pre.length = 0 by omega, List.set_cons_zero]
    have := loop_write f g (pre ++ [g t]) n (t + 1) post (by simpa using h) (fun i h1 h2 => hf i (by omega) (by omega)) p (by
      rw [List.length_append]; simp only [List.length_cons, List.length_nil]; omega)
    rw [List.append_assoc] at this
    rw [show pre ++ g t :: post = pre ++ ([g t] ++ post) from rfl, this, List.range'_succ, List.map_cons, List.append_assoc]
    rfl

theorem expand_run (j : Nat) (T : List W32) (hT : T.length = 15) (pre post : List W32) (h1 : pre.length = 10 * j) (h2 : 10 ≤ post.length) :
    expand j (T, pre ++ post) = .ok (Spec.Mars.iteration S T j, pre ++ ((List.range 10).map (fun i => (Spec.Mars.iteration S T j).getD (4 * i % 15) 0) ++ post.drop 10)) := by
  obtain ⟨e1, e2⟩ := iteration_run j T hT
  unfold expand
  obtain ⟨X, e3, e4⟩ := (bind_eq_ok _ _ _).mp e1
  rw [e3, Out.bind_ok, e4, Out.bind_ok, loop_write (fun i => rd (Spec.Mars.iteration S T j) ([0, 4, 8, 12, 1, 5, 9, 13, 2, 6].getD i 0))
    (fun i => (Spec.Mars.iteration S T j).getD (4 * i % 15) 0) pre 10 0 post h2 (fun i _ hi => by
      rw [show [0, 4, 8, 12, 1, 5, 9, 13, 2, 6].getD i 0 = 4 * i % 15 by interval_cases i <;> rfl]
      exact rd_getD 0 (by omega)) (10 * j) (by omega), Out.bind_ok, range_range']

attribute [local irreducible] Spec.Mars.iteration

theorem arrays_succ (T : List W32) (j : Nat) : Spec.Mars.arrays S T (j + 1) = Spec.Mars.iteration S (Spec.Mars.arrays S T j) j := by
  unfold Spec.Mars.arrays
  rw [List.range_succ, List.foldl_append]
  rfl

theorem expanded_run (T : List W32) (hT : T.length = 15) : ∃ T', forLoop expand 4 0 (T, List.replicate 40 0) = .ok (T', Spec.Mars.expanded S T) := by
  obtain ⟨s, h1, h2, h3, h4⟩ := forLoop_inv expand (fun j s => s.1 = Spec.Mars.arrays S T j ∧ s.1.length = 15 ∧ s.2 =
    ((List.range j).flatMap fun j => (List.range 10).map fun i => (Spec.Mars.arrays S T (j + 1)).getD (4 * i % 15) 0) ++ List.replicate (40 - 10 * j) 0) 4 0
    (T, List.replicate 40 0)
    (fun j s _ hj e => by
      obtain ⟨T', K⟩ := s
      obtain ⟨e1, e2, e3⟩ := e
      simp only [] at e1 e2 e3
      subst e1
      subst e3
      have hl : ∀ j, ((List.range j).flatMap fun j => (List.range 10).map fun i => (Spec.Mars.arrays S T (j + 1)).getD (4 * i % 15) 0).length = 10 * j := fun j => by
        induction j with
        | zero => rfl
        | succ j ih => rw [List.range_succ (n := j), List.flatMap_append, List.length_append, ih]; simp only [List.flatMap_cons, List.flatMap_nil, List.append_nil, List.length_map, List.length_range]; omega
      refine ⟨_, expand_run j _ e2 _ _ (hl j) (by rw [List.length_replicate]; omega), (arrays_succ T j).symm, (iteration_run j _ e2).2, ?_⟩
      simp only []
      rw [List.range_succ (n := j), List.flatMap_append, List.drop_replicate, show 40 - 10 * j - 10 = 40 - 10 * (j + 1) by omega, List.append_assoc, ← arrays_succ]
      simp only [List.flatMap_cons, List.flatMap_nil, List.append_nil])
    ⟨rfl, hT, rfl⟩
  refine ⟨s.1, ?_⟩
  rw [h1]
  refine congrArg Out.ok (Prod.ext rfl ?_)
  rw [h4]
  show _ ++ [] = _
  rw [List.append_nil]
  rfl

/-! The mask -/

theorem mask_bits (w : W32) (l : Nat) (hl : l < 32) : (mask w).getLsbD l = true ↔ InMask w l := by
  have hC : ∀ l, l < 32 → (0x7FFFFFFC : W32).getLsbD l = decide (2 ≤ l ∧ l ≤ 30) := by decide
  let m0 : W32 := (~~~w ^^^ (w <<< 1)) &&& (~~~w ^^^ (w >>> 1)) &&& 0x7FFFFFFE
  have h0 : ∀ i, m0.getLsbD i = true ↔ 1 ≤ i ∧ i ≤ 30 ∧ w.getLsbD (i - 1) = w.getLsbD i ∧ w.getLsbD (i + 1) = w.getLsbD i := fun i => by
    by_cases hi : i < 32
    · have hc : (0x7FFFFFFE : W32).getLsbD i = decide (1 ≤ i ∧ i ≤ 30) := by revert hi i; decide
      simp only [m0, BitVec.getLsbD_and, hc, BitVec.getLsbD_xor, BitVec.getLsbD_not, BitVec.getLsbD_shiftLeft, BitVec.getLsbD_ushiftRight, hi, decide_true,
        Bool.true_and, Bool.and_eq_true, decide_eq_true_eq]
      rw [Nat.add_comm 1 i]
      by_cases h1 : 1 ≤ i
      · rw [show decide (i < 1) = false from decide_eq_false (by omega)]
        generalize w.getLsbD i = a, w.getLsbD (i - 1) = b, w.getLsbD (i + 1) = c
        by_cases h2 : i ≤ 30
        · simp only [h1, h2, true_and, and_true]
          revert a b c; decide
        · simp [h2]
      · simp [h1]
    · rw [BitVec.getLsbD_of_ge _ _ (by omega)]
      simp; omega
  let m1 := m0 &&& (m0 >>> 1)
  let m2 := m1 &&& (m1 >>> 2)
  let m3 := m2 &&& (m2 >>> 4)
  have h3 : ∀ i, m3.getLsbD i = true ↔ ∀ j, j < 8 → m0.getLsbD (i + j) = true := fun i => by
    simp only [m3, m2, m1, BitVec.getLsbD_and, BitVec.getLsbD_ushiftRight, Bool.and_eq_true]
    constructor
    · rintro ⟨⟨⟨a, b⟩, c, d⟩, ⟨e, f⟩, g, h⟩ j hj
      interval_cases j
      · exact a
      · rw [Nat.add_comm]; exact b
      · rw [Nat.add_comm]; exact c
      · rw [show i + 3 = 1 + (2 + i) by omega]; exact d
      · rw [show i + 4 = 4 + i by omega]; exact e
      · rw [show i + 5 = 1 + (4 + i) by omega]; exact f
      · rw [show i + 6 = 2 + (4 + i) by omega]; exact g
      · rw [show i + 7 = 1 + (2 + (4 + i)) by omega]; exact h
    · intro h
      refine ⟨⟨⟨h 0 (by decide), ?_⟩, ?_, ?_⟩, ⟨?_, ?_⟩, ?_, ?_⟩
      · rw [show 1 + i = i + 1 by omega]; exact h _ (by decide)
      · rw [show 2 + i = i + 2 by omega]; exact h _ (by decide)
      · rw [show 1 + (2 + i) = i + 3 by omega]; exact h _ (by decide)
      · rw [show 4 + i = i + 4 by omega]; exact h _ (by decide)
      · rw [show 1 + (4 + i) = i + 5 by omega]; exact h _ (by decide)
      · rw [show 2 + (4 + i) = i + 6 by omega]; exact h _ (by decide)
      · rw [show 1 + (2 + (4 + i)) = i + 7 by omega]; exact h _ (by decide)
  let m4 := m3 ||| (m3 <<< 1)
  let m5 := m4 ||| (m4 <<< 2)
  let m6 := m5 ||| (m5 <<< 4)
  have hor : ∀ (m : W32) (s i : Nat), i < 32 → ((m ||| (m <<< s)).getLsbD i = true ↔ m.getLsbD i = true ∨ s ≤ i ∧ m.getLsbD (i - s) = true) := fun m s i hi => by
    simp only [BitVec.getLsbD_or, BitVec.getLsbD_shiftLeft, hi, decide_true, Bool.true_and, Bool.or_eq_true, Bool.and_eq_true, Bool.not_eq_true',
      decide_eq_false_iff_not, Nat.not_lt]
  have h6 : m6.getLsbD l = true ↔ ∃ j, j < 8 ∧ j ≤ l ∧ m3.getLsbD (l - j) = true := by
    have a4 : ∀ i, i < 32 → (m4.getLsbD i = true ↔ ∃ j, j < 2 ∧ j ≤ i ∧ m3.getLsbD (i - j) = true) := fun i hi => by
      rw [hor m3 1 i hi]
      constructor
      · rintro (h | ⟨h1, h2⟩)
        · exact ⟨0, by decide, by omega, h⟩
        · exact ⟨1, by decide, h1, h2⟩
      · rintro ⟨j, hj, h1, h2⟩
        interval_cases j
        · exact Or.inl h2
        · exact Or.inr ⟨h1, h2⟩
    have a5 : ∀ i, i < 32 → (m5.getLsbD i = true ↔ ∃ j, j < 4 ∧ j ≤ i ∧ m3.getLsbD (i - j) = true) := fun i hi => by
      rw [hor m4 2 i hi, a4 i hi, a4 (i - 2) (by omega)]
      constructor
      · rintro (⟨j, hj, h1, h2⟩ | ⟨h0, j, hj, h1, h2⟩)
        · exact ⟨j, by omega, h1, h2⟩
        · exact ⟨j + 2, by omega, by omega, by rw [show i - (j + 2) = i - 2 - j by omega]; exact h2⟩
      · rintro ⟨j, hj, h1, h2⟩
        by_cases h : j < 2
        · exact Or.inl ⟨j, h, h1, h2⟩
        · exact Or.inr ⟨by omega, j - 2, by omega, by omega, by rw [show i - 2 - (j - 2) = i - j by omega]; exact h2⟩
    rw [hor m5 4 l hl, a5 l hl, a5 (l - 4) (by omega)]
    constructor
    · rintro (⟨j, hj, h1, h2⟩ | ⟨h0, j, hj, h1, h2⟩)
      · exact ⟨j, by omega, h1, h2⟩
      · exact ⟨j + 4, by omega, by omega, by rw [show l - (j + 4) = l - 4 - j by omega]; exact h2⟩
    · rintro ⟨j, hj, h1, h2⟩
      by_cases h : j < 4
      · exact Or.inl ⟨j, h, h1, h2⟩
      · exact Or.inr ⟨by omega, j - 4, by omega, by omega, by rw [show l - 4 - (j - 4) = l - j by omega]; exact h2⟩
  have h7 : (mask w).getLsbD l = true ↔ (2 ≤ l ∧ l ≤ 30) ∧ ∃ j, j < 8 ∧ j ≤ l ∧ ∀ i, i < 8 → m0.getLsbD (l - j + i) = true := by
    have hc : (0x7FFFFFFC : W32).getLsbD l = decide (2 ≤ l ∧ l ≤ 30) := hC l hl
    show (m6 &&& 0x7FFFFFFC).getLsbD l = true ↔ _
    rw [BitVec.getLsbD_and, hc, Bool.and_eq_true, h6, decide_eq_true_eq, and_comm]
    simp only [h3]
  rw [h7]
  constructor
  · rintro ⟨⟨h2, h30⟩, j, hj, hjl, h⟩
    have hm : ∀ i, i < 8 → 1 ≤ l - j + i ∧ l - j + i ≤ 30 ∧ w.getLsbD (l - j + i - 1) = w.getLsbD (l - j + i) ∧ w.getLsbD (l - j + i + 1) = w.getLsbD (l - j + i) :=
      fun i hi => (h0 _).mp (h i hi)
    have hup : ∀ i, i ≤ 8 → w.getLsbD (l - j + i) = w.getLsbD (l - j) := fun i hi => by
      induction i with
      | zero => rfl
      | succ i ih => rw [← Nat.add_assoc, (hm i (by omega)).2.2.2, ih (by omega)]
    have hbase : w.getLsbD (l - j) = w.getLsbD l := by
      have := hup j (by omega)
      rw [Nat.sub_add_cancel hjl] at this
      exact this.symm
    obtain ⟨p1, p2, p3, p4⟩ := hm j hj
    rw [Nat.sub_add_cancel hjl] at p1 p2 p3 p4
    have q := hm 0 (by decide)
    have q7 := hm 7 (by decide)
    refine ⟨h2, h30, p3, p4, l - j - 1, by omega, by omega, by omega, fun t ht => ?_⟩
    by_cases h : t = 0
    · subst h
      rw [← hbase]; exact q.2.2.1
    · have := hup (t - 1) (by omega)
      rw [show l - j - 1 + t = l - j + (t - 1) by omega, this, hbase]
  · rintro ⟨h2, h30, hp, hn, s, hs1, hs2, hs3, h⟩
    have key : ∃ s', s' + 1 ≤ l ∧ l ≤ s' + 8 ∧ s' + 9 ≤ 31 ∧ ∀ t, t ≤ 9 → w.getLsbD (s' + t) = w.getLsbD l := by
      by_cases ha : l = s
      · refine ⟨l - 1, by omega, by omega, by omega, fun t ht => ?_⟩
        by_cases h0 : t = 0
        · subst h0; exact hp
        · rw [show l - 1 + t = s + (t - 1) by omega]; exact h _ (by omega)
      · by_cases hb : l = s + 9
        · refine ⟨s + 1, by omega, by omega, by omega, fun t ht => ?_⟩
          by_cases h0 : t = 9
          · subst h0; rw [show s + 1 + 9 = l + 1 by omega]; exact hn
          · rw [show s + 1 + t = s + (t + 1) by omega]; exact h _ (by omega)
        · exact ⟨s, by omega, by omega, hs3, h⟩
    obtain ⟨s', k1, k2, k3, k⟩ := key
    refine ⟨⟨h2, h30⟩, l - (s' + 1), by omega, by omega, fun i hi => (h0 _).mpr ?_⟩
    rw [show l - (l - (s' + 1)) + i = s' + (i + 1) by omega]
    refine ⟨by omega, by omega, ?_, ?_⟩
    · rw [show s' + (i + 1) - 1 = s' + i by omega, k _ (by omega), k _ (by omega)]
    · rw [Nat.add_assoc, k _ (by omega), k _ (by omega)]

/-! The subkeys -/

theorem length_expanded (T : List W32) : (Spec.Mars.expanded S T).length = 40 := rfl

/-- The corrected subkey. -/
def corr (k k' : W32) : W32 := (k ||| 3) ^^^ ((Spec.Mars.S S (265 + k.toNat % 4)).rotateLeft (k'.toNat % 32) &&& mask (k ||| 3))

theorem corrected (k k' : W32) : Corrected S k k' (corr k k') := ⟨mask (k ||| 3), fun l hl => mask_bits _ l hl, rfl⟩

theorem setmask_run (strict : Bool) (i : Nat) (hi : i < 40) (K : List W32) (hK : K.length = 40) : setmask strict i K =
    if strict = true ∧ (K.getD (i - 1) 0).toNat % 32 = 0 then .ub else .ok (K.set i (corr (K.getD i 0) (K.getD (i - 1) 0))) := by
  unfold setmask B
  simp only []
  rw [rd_getD 0 (by omega), Out.bind_ok, show ∀ w : W32, (w &&& 0x3).toNat = w.toNat % 4 from fun w => and_toNat w 3 2 rfl (by decide),
    rd_S (by omega), Out.bind_ok, rd_getD 0 (by omega), Out.bind_ok,
    show ∀ w : W32, (w &&& 0x1F).toNat = w.toNat % 32 from fun w => and_toNat w 31 5 rfl (by decide), rotlV_strict _ _ _ (Nat.mod_lt _ (by decide))]
  split
  · rfl
  · rw [Out.bind_ok, wr_of_lt (by omega)]
    rfl

theorem getD_set (K : List W32) (i j : Nat) (x : W32) (hi : i < K.length) : (K.set i x).getD j 0 = if i = j then x else K.getD j 0 := by
  rw [List.getD_eq_getElem?_getD, List.getElem?_set]
  split
  · rename_i h; subst h; rfl
  · rw [List.getD_eq_getElem?_getD]

theorem corrections_run (K' : List W32) (hK : K'.length = 40) : ∃ K, forLoop (fun t => setmask false (5 + 2 * t)) 16 0 K' = .ok K ∧ K.length = 40 ∧
    ∀ i, i < 40 → K.getD i 0 = if 5 ≤ i ∧ i ≤ 35 ∧ i % 2 = 1 then corr (K'.getD i 0) (K'.getD (i - 1) 0) else K'.getD i 0 := by
  obtain ⟨K, h1, h2, h3⟩ := forLoop_inv (fun t => setmask false (5 + 2 * t)) (fun t K => K.length = 40 ∧
    ∀ i, i < 40 → K.getD i 0 = if 5 ≤ i ∧ i < 5 + 2 * t ∧ i % 2 = 1 then corr (K'.getD i 0) (K'.getD (i - 1) 0) else K'.getD i 0) 16 0 K'
    (fun t K _ ht e => by
      obtain ⟨e1, e2⟩ := e
      refine ⟨_, by rw [setmask_run false _ (by omega) K e1, if_neg (by simp)], by rw [List.length_set, e1], fun i hi => ?_⟩
      rw [getD_set _ _ _ _ (by omega)]
      split
      · rename_i h
        subst h
        rw [if_pos ⟨by omega, by omega, by omega⟩, e2 _ (by omega), e2 _ (by omega), if_neg (by omega), if_neg (by omega)]
      · rename_i h
        rw [e2 i hi]
        by_cases hc : 5 ≤ i ∧ i < 5 + 2 * t ∧ i % 2 = 1
        · rw [if_pos hc, if_pos ⟨by omega, by omega, by omega⟩]
        · rw [if_neg hc, if_neg (by omega)])
    ⟨hK, fun i hi => by rw [if_neg (by omega)]⟩
  refine ⟨K, h1, h2, fun i hi => ?_⟩
  rw [h3 i hi]
  by_cases hc : 5 ≤ i ∧ i ≤ 35 ∧ i % 2 = 1
  · rw [if_pos hc, if_pos ⟨by omega, by omega, by omega⟩]
  · rw [if_neg hc, if_neg (by omega)]

/-! The user's key -/

theorem rev_putBe32 (v : W32) : rev v = BitVec.ofNat 32 (leNat (putBe32 v)) := by
  have h : putLe32 (rev v) = putBe32 v := by unfold putLe32; rw [rev_eq, rev32_rev32]
  obtain ⟨a, b, c, d, h1, h2⟩ := be32_putBe32 v
  have e : rev v = be32 d c b a := by
    rw [← h2]
    unfold rev be32
    apply BitVec.eq_of_getLsbD_eq; intro i hi
    interval_cases i <;> simp
  rw [e, h1]
  apply BitVec.eq_of_toNat_eq
  rw [be32_toNat, BitVec.toNat_ofNat]
  simp only [leNat, beNat, List.reverse_cons, List.reverse_nil, List.nil_append, List.cons_append, List.foldl_cons, List.foldl_nil]
  have := a.isLt; have := b.isLt; have := c.isLt; have := d.isLt
  omega

theorem leWords_putBe32 (v : W32) (t : Bytes) : leWords 32 4 (putBe32 v ++ t) = rev v :: leWords 32 4 t := by
  rw [leWords, Hash.chunks_append 4 (by decide) _ _ rfl, List.map_cons, rev_putBe32]
  rfl

theorem map_rev_beWords : ∀ (n : Nat) (b : Bytes), b.length = 4 * n → (beWords 32 4 b).map rev = leWords 32 4 b
  | 0, b, h => by
    obtain rfl := List.length_eq_zero_iff.1 h
    rfl
  | n + 1, b, h => by
    obtain ⟨v, hv⟩ := split_be32 b (by omega)
    rw [hv, beWords_putBe32, leWords_putBe32, List.map_cons, map_rev_beWords n _ (by rw [List.length_drop]; omega)]

theorem length_leWords (n : Nat) (b : Bytes) (h : b.length = 4 * n) : (leWords 32 4 b).length = n := by
  rw [← map_rev_beWords n b h, List.length_map, length_beWords n b h]

theorem start_run (n : Nat) (hn : n ≤ 8) (key : Bytes) (h : key.length ≤ 32) :
    start (4 * n) key = .ok (leWords 32 4 (zeroPad (4 * n) key) ++ BitVec.ofNat 32 n :: List.replicate (14 - n) 0) := by
  have e : (key ++ List.replicate (32 - key.length) 0).take (4 * n) = zeroPad (4 * n) key := by
    rw [List.take_append, List.take_replicate, Nat.min_eq_left (by omega)]
    rfl
  have hl := length_zeroPad (4 * n) key
  unfold start
  simp only []
  rw [if_pos h, e, show 4 * n / 4 = n by omega]
  refine congrArg (fun x => Out.ok (x ++ _)) ?_
  rw [← map_rev_beWords n _ hl]
  congr 1
  by_cases h8 : n = 8
  · subst h8
    rw [ldUserKey_full 4 8 (by decide) _ (by omega), List.take_of_length_le (l := zeroPad (4 * 8) key) (by omega)]
    refine List.take_of_length_le ?_
    rw [length_beWords 8 _ hl]
  · rw [ldUserKey_words 4 8 (by decide) _ n (by omega) (by omega), List.take_append_of_le_length (by rw [length_beWords n _ hl]),
      List.take_of_length_le (by rw [length_beWords n _ hl])]

theorem schedule_run (n : Nat) (hn : n ≤ 8) (key : Bytes) (h : key.length ≤ 32) : ∃ K, schedule false (4 * n) key = .ok K ∧
    IsSchedule S (zeroPad (4 * n) key) K := by
  have hl := length_zeroPad (4 * n) key
  unfold schedule
  rw [start_run n hn key h, Out.bind_ok]
  obtain ⟨T', h1⟩ := expanded_run (leWords 32 4 (zeroPad (4 * n) key) ++ BitVec.ofNat 32 n :: List.replicate (14 - n) 0) (by
    rw [List.length_append, List.length_cons, List.length_replicate, length_leWords n _ hl]; omega)
  rw [h1, Out.bind_ok]
  obtain ⟨K, h2, h3, h4⟩ := corrections_run _ (length_expanded (leWords 32 4 (zeroPad (4 * n) key) ++ BitVec.ofNat 32 n :: List.replicate (14 - n) 0))
  refine ⟨K, h2, ?_⟩
  unfold IsSchedule
  simp only []
  rw [hl, show 4 * n / 4 = n by omega]
  refine ⟨h3, fun i hi => ?_⟩
  have := h4 i hi
  split
  · rename_i hc
    rw [this, if_pos hc]
    exact corrected _ _
  · rename_i hc
    rw [this, if_neg hc]

/-- With the C standard's shifts the schedule is undefined or the same. -/
theorem schedule_mono (n : Nat) (hn : n ≤ 8) (key : Bytes) (h : key.length ≤ 32) (K : List W32) (e : schedule true (4 * n) key = .ok K) :
    schedule false (4 * n) key = .ok K := by
  have hl := length_zeroPad (4 * n) key
  unfold schedule at e ⊢
  rw [start_run n hn key h, Out.bind_ok] at e ⊢
  obtain ⟨T', h1⟩ := expanded_run (leWords 32 4 (zeroPad (4 * n) key) ++ BitVec.ofNat 32 n :: List.replicate (14 - n) 0) (by
    rw [List.length_append, List.length_cons, List.length_replicate, length_leWords n _ hl]; omega)
  rw [h1, Out.bind_ok] at e ⊢
  have hE := length_expanded (leWords 32 4 (zeroPad (4 * n) key) ++ BitVec.ofNat 32 n :: List.replicate (14 - n) 0)
  simp only [] at e ⊢
  generalize Spec.Mars.expanded S _ = K' at e hE
  have : ∀ (m t : Nat) (K' : List W32), t + m ≤ 16 → K'.length = 40 → ∀ K, forLoop (fun t => setmask true (5 + 2 * t)) m t K' = .ok K →
      forLoop (fun t => setmask false (5 + 2 * t)) m t K' = .ok K := fun m => by
    induction m with
    | zero => intro t K' _ _ K e; exact e
    | succ m ih =>
      intro t K' hm hK K e
      rw [forLoop] at e ⊢
      rw [setmask_run _ _ (by omega) K' hK] at e ⊢
      rw [if_neg (by simp)]
      split at e
      · cases e
      · exact ih (t + 1) _ (by omega) (by rw [List.length_set, hK]) K e
  exact this 16 0 K' (Nat.le_refl _) hE K e

/-- There is only one list of subkeys for a key. -/
theorem schedule_unique (key : Bytes) (K K' : List W32) (h : IsSchedule S key K) (h' : IsSchedule S key K') : K = K' := by
  obtain ⟨h1, h2⟩ := h
  obtain ⟨h1', h2'⟩ := h'
  apply List.ext_getElem (by rw [h1, h1'])
  intro i hi hi'
  have e : ∀ (L : List W32) (h : i < L.length), L[i] = L.getD i 0 := fun L h => by
    rw [List.getD_eq_getElem?_getD, List.getElem?_eq_getElem h, Option.getD_some]
  rw [e K hi, e K' hi']
  have a := h2 i (by omega)
  have b := h2' i (by omega)
  split at a
  · rename_i hc
    rw [if_pos hc] at b
    obtain ⟨M, m1, m2⟩ := a
    obtain ⟨M', n1, n2⟩ := b
    have : M = M' := BitVec.eq_of_getLsbD_eq fun l hl => by
      rw [Bool.eq_iff_iff, m1 l hl, n1 l hl]
    rw [m2, n2, this]
  · rename_i hc
    rw [if_neg hc] at b
    rw [a, b]

/-! ## Main theorems -/

/-- With the processor's shifts, a block is encrypted as published under the key cut to `4 * n` bytes or filled up with zeros, and decryption gives it
back; `n` is 4, 6 or 8.  For keys of `4 * n` bytes `zeroPad` is the key itself. -/
theorem mars_standard_partial (n : Nat) (hn : n ≤ 8) (key : Bytes) (h : key.length ≤ 32) : ∃ K, IsSchedule S (zeroPad (4 * n) key) K ∧
    ∀ D : Four 32, enc false (4 * n) key (D.words.flatMap putLe32) = .ok ((Spec.Mars.encrypt S K D).words.flatMap putLe32) ∧
      dec false (4 * n) key ((Spec.Mars.encrypt S K D).words.flatMap putLe32) = .ok (D.words.flatMap putLe32) := by
  obtain ⟨K, h1, h2⟩ := schedule_run n hn key h
  refine ⟨K, h2, fun D => ?_⟩
  unfold enc dec
  rw [h1, Out.bind_ok, Out.bind_ok, ← store_eq, ← store_eq]
  exact ⟨block_standard K h2.1 D, block_dec K h2.1 D⟩

theorem zeroPad_self (key : Bytes) (n : Nat) (h : key.length = n) : zeroPad n key = key := by
  unfold zeroPad
  rw [h, Nat.sub_self, List.take_of_length_le (by omega)]
  exact List.append_nil _

/-- Decryption undoes encryption and the other way round, with the processor's shifts and for all keys of up to 32 bytes. -/
theorem mars_invertible_partial (n : Nat) (hn : n ≤ 8) (key : Bytes) (h : key.length ≤ 32) : Invertible 16 (enc false (4 * n) key) (dec false (4 * n) key) := by
  obtain ⟨K, h1, h2⟩ := schedule_run n hn key h
  have e1 : enc false (4 * n) key = encBlock false K := funext fun b => by unfold enc; rw [h1, Out.bind_ok]
  have e2 : dec false (4 * n) key = decBlock false K := funext fun b => by unfold dec; rw [h1, Out.bind_ok]
  rw [e1, e2]
  exact block_invertible K h2.1

/-- With the C standard's shifts, a result is the published one if there is one, and then it is decrypted to the block. -/
theorem mars_strict_partial (n : Nat) (hn : n ≤ 8) (key : Bytes) (h : key.length ≤ 32) (b c : Bytes) (hb : b.length = 16)
    (e : enc true (4 * n) key b = .ok c) : enc false (4 * n) key b = .ok c ∧ dec true (4 * n) key c = .ok b := by
  obtain ⟨D, rfl⟩ := store_surj b hb
  unfold enc at e
  obtain ⟨K, h1, h2⟩ := (bind_eq_ok _ _ _).mp e
  have h3 := schedule_mono n hn key h K h1
  obtain ⟨K', h4, h5⟩ := schedule_run n hn key h
  rw [h3] at h4
  obtain rfl := Out.ok.inj h4
  have h6 := block_mono K h5.1 D c h2
  have h7 := block_standard K h5.1 D
  rw [h6] at h7
  obtain rfl := Out.ok.inj h7
  unfold enc dec
  rw [h3, h1, Out.bind_ok, Out.bind_ok]
  exact ⟨h6, (block_iff true K h5.1 D _).mp h2⟩

/-- But every key has a block whose encryption shifts a word by 32 places. -/
theorem mars_zero_rotation (n : Nat) (hn : n ≤ 8) (key : Bytes) : ∃ b, b.length = 16 ∧ enc true (4 * n) key b = .ub := by
  unfold enc
  cases e : schedule true (4 * n) key with
  | ub => exact ⟨List.replicate 16 0, rfl, rfl⟩
  | ok K =>
    by_cases h : key.length ≤ 32
    · obtain ⟨K', h4, h5⟩ := schedule_run n hn key h
      rw [schedule_mono n hn key h K e] at h4
      obtain rfl := Out.ok.inj h4
      exact ⟨_, store_len _, block_undefined K h5.1⟩
    · exfalso
      unfold schedule start at e
      simp only [] at e
      rw [if_neg h] at e
      cases e

/-- Keys of more than 32 bytes, which the setup accepts, are copied past the end of `wkey`. -/
theorem mars_long_key_undefined (strict : Bool) (eff : Nat) (key block : Bytes) (h : 32 < key.length) :
    enc strict eff key block = .ub ∧ dec strict eff key block = .ub := by
  have e : schedule strict eff key = .ub := by
    unfold schedule start
    simp only []
    rw [if_neg (by omega)]
    rfl
  unfold enc dec
  rw [e]
  exact ⟨rfl, rfl⟩

/-- Bytes of a key after the first `4 * n`, and zeros at the end of a shorter one, do not matter. -/
theorem mars_same_key (n : Nat) (hn : n ≤ 8) (key key' : Bytes) (h : key.length ≤ 32) (h' : key'.length ≤ 32) (e : zeroPad (4 * n) key = zeroPad (4 * n) key') :
    enc false (4 * n) key = enc false (4 * n) key' := by
  obtain ⟨K, h1, h2⟩ := schedule_run n hn key h
  obtain ⟨K', h3, h4⟩ := schedule_run n hn key' h'
  rw [e] at h2
  obtain rfl := schedule_unique _ _ _ h2 h4
  funext b
  unfold enc
  rw [h1, h3]

set_option maxRecDepth 100000 in
/-- A test vector of IBM (the key and the block are zero). -/
theorem ibm_vector : enc false 16 (List.replicate 16 0) (List.replicate 16 0) =
    .ok [0xDC, 0xC0, 0x7B, 0x8D, 0xFB, 0x07, 0x38, 0xD6, 0xE3, 0x0A, 0x22, 0xDF, 0xCF, 0x27, 0xE8, 0x86] := by decide +kernel

set_option maxRecDepth 100000 in
theorem strict_case : enc true 16 (1 :: List.replicate 15 0) (List.replicate 16 0) =
    .ok [0x9A, 0x48, 0x02, 0xE8, 0xBF, 0x44, 0x26, 0x46, 0x76, 0x17, 0xE9, 0xA4, 0x40, 0x72, 0xEB, 0x76] := by decide +kernel
example : dec true 16 (1 :: List.replicate 15 0) [0x9A, 0x48, 0x02, 0xE8, 0xBF, 0x44, 0x26, 0x46, 0x76, 0x17, 0xE9, 0xA4, 0x40, 0x72, 0xEB, 0x76] =
    .ok (List.replicate 16 0) := (mars_strict_partial 4 (by decide) _ (by decide) _ _ rfl strict_case).2

example : Invertible 16 (enc false 24 (ascii "twenty-four bytes of key")) (dec false 24 (ascii "twenty-four bytes of key")) :=
  mars_invertible_partial 6 (by decide) _ (by decide)
example : enc false 16 (List.replicate 16 7) = enc false 16 (List.replicate 20 7) := mars_same_key 4 (by decide) _ _ (by decide) (by decide) rfl
example : enc false 32 (List.replicate 33 1) (List.replicate 16 0) = .ub := (mars_long_key_undefined false 32 _ _ (by simp)).1

end Kryptos.Mars
