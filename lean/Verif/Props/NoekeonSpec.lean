import Verif.Props.Noekeon
import Verif.Props.MarsSbox
import Verif.Lemmas.KeyWords
import Verif.Spec.Noekeon
/-
  NOEKEON is the published cipher, in both key modes and in both directions.
-/
namespace Kryptos.Noekeon
open Block KeyLoad Spec.MD

theorem lsh_rot (x : W32) (n : Nat) (h : n < 32) : lsh x n = x.rotateLeft n := by
  unfold lsh; rw [BitVec.rotateLeft_def, Nat.mod_eq_of_lt h]
theorem lsh_rotR (x : W32) (n : Nat) (h0 : 0 < n) (h : n < 32) : lsh x (32 - n) = x.rotateRight n := by
  unfold lsh; rw [BitVec.rotateRight_def, Nat.mod_eq_of_lt h, show 32 - (32 - n) = n by omega, BitVec.or_comm]

theorem phi_eq (t : W32) : phi t = Spec.Noekeon.mu t := by
  unfold phi Spec.Noekeon.mu
  rw [lsh_rot t 8 (by decide), show lsh t 24 = t.rotateRight 8 from lsh_rotR t 8 (by decide) (by decide), BitVec.xor_assoc]

theorem Theta_eq (k s : Four 32) : Theta k s = Spec.Noekeon.Theta k s := by
  unfold Theta Spec.Noekeon.Theta Spec.Noekeon.xor
  simp only [phi_eq]

theorem Gamma_eq (s : Four 32) : Gamma s = Spec.Noekeon.Gamma s := by
  have e : ∀ a b : W32, ~~~(a ||| b) = ~~~a &&& ~~~b := fun a b => BitVec.not_or
  unfold Gamma Spec.Noekeon.Gamma
  simp only [e]

theorem G_eq (s : Four 32) : G s = Spec.Noekeon.Pi2 (Spec.Noekeon.Gamma (Spec.Noekeon.Pi1 s)) := by
  unfold G
  rw [Gamma_eq]
  unfold Pi1 Pi2 Spec.Noekeon.Pi1 Spec.Noekeon.Pi2
  simp only [lsh_rot _ 1 (by decide), lsh_rot _ 5 (by decide), lsh_rot _ 2 (by decide),
    show ∀ x, lsh x 31 = x.rotateRight 1 from fun x => lsh_rotR x 1 (by decide) (by decide),
    show ∀ x, lsh x 27 = x.rotateRight 5 from fun x => lsh_rotR x 5 (by decide) (by decide),
    show ∀ x, lsh x 30 = x.rotateRight 2 from fun x => lsh_rotR x 2 (by decide) (by decide)]

theorem addC_eq (c : W32) (s : Four 32) : addC c s = Spec.Noekeon.xor ⟨c, 0, 0, 0⟩ s := by
  unfold addC Spec.Noekeon.xor
  simp

theorem rc_eq (i : Nat) (h : i < 17) : rc i = Spec.Noekeon.RC i := by
  have : ∀ i : Fin 17, rc i = Spec.Noekeon.RC i := by decide +kernel
  exact this ⟨i, h⟩

theorem foldl_congr {α : Type} (f g : α → Nat → α) (l : List Nat) (h : ∀ i ∈ l, ∀ a, f a i = g a i) (a : α) :
    l.foldl f a = l.foldl g a := by
  induction l generalizing a with
  | nil => rfl
  | cons i l ih => rw [List.foldl_cons, List.foldl_cons, h i (by simp), ih (fun j hj => h j (by simp [hj]))]

theorem E_eq (k s : Four 32) : E k s = Spec.Noekeon.encryptState k s := by
  unfold E Spec.Noekeon.encryptState
  rw [Theta_eq, addC_eq, rc_eq 16 (by decide), List.range_eq_range']
  refine congrArg (fun x => Spec.Noekeon.Theta k (Spec.Noekeon.xor _ x)) (foldl_congr _ _ _ (fun i hi a => ?_) s)
  rw [List.mem_range'_1] at hi
  unfold fwd Spec.Noekeon.Round
  rw [G_eq, Theta_eq, addC_eq, rc_eq i (by omega), ← addC_eq 0, addC_zero]

theorem D_eq (k s : Four 32) : D k s = Spec.Noekeon.decryptState k s := by
  unfold D Spec.Noekeon.decryptState
  have h := shift k 16 s
  rw [← h, addC_eq, rc_eq 0 (by decide), Theta_eq]
  have hk : invKey k = Spec.Noekeon.Theta ⟨0, 0, 0, 0⟩ k := by unfold invKey; rw [Theta_eq]
  rw [hk]
  refine congrArg (fun x => Spec.Noekeon.xor _ (Spec.Noekeon.Theta _ x)) ?_
  rw [show (List.range' 1 16).reverse = (List.range 16).map (fun i => 16 - i) from rfl, List.foldl_map]
  refine foldl_congr _ _ _ (fun i hi a => ?_) s
  rw [List.mem_range] at hi
  unfold rnd Spec.Noekeon.Round
  rw [G_eq, Theta_eq, addC_eq, rc_eq (16 - i) (by omega), hk, ← addC_eq 0 a, addC_zero]

theorem ofBytes_store (s : Four 32) : Spec.Noekeon.ofBytes (store s) = s := by
  unfold Spec.Noekeon.ofBytes store
  simp only [List.flatMap_cons, beWords_putBe32]
  rfl

theorem toBytes_eq (s : Four 32) : Spec.Noekeon.toBytes s = store s := by
  unfold Spec.Noekeon.toBytes store
  simp only [Mars.be4_eq]

theorem encBlock_spec (k : Four 32) (block : Bytes) (h : block.length = 16) : encBlock k block = .ok (Spec.Noekeon.encrypt k block) := by
  obtain ⟨s, rfl⟩ := store_surj block h
  unfold Spec.Noekeon.encrypt
  rw [encBlock_eq, E_eq, ofBytes_store, toBytes_eq]

theorem decBlock_spec (k : Four 32) (block : Bytes) (h : block.length = 16) :
    decBlock (invKey k) block = .ok (Spec.Noekeon.decrypt k block) := by
  obtain ⟨s, rfl⟩ := store_surj block h
  unfold Spec.Noekeon.decrypt
  rw [decBlock_eq, D_eq, ofBytes_store, toBytes_eq]

theorem keyIndirect_spec (key : Bytes) (h : key.length ≤ 16) : keyIndirect key = .ok (Spec.Noekeon.indirect (zeroPad 16 key)) := by
  have hz : key ++ List.replicate (16 - key.length) 0 = zeroPad 16 key := by
    unfold zeroPad; rw [List.take_of_length_le h]
  obtain ⟨s, hs⟩ := store_surj (key ++ List.replicate (16 - key.length) 0) (by
    rw [List.length_append, List.length_replicate]; omega)
  unfold keyIndirect Spec.Noekeon.indirect
  rw [if_neg (by omega), ← hz, ← hs, encBlock_eq, Out.bind_ok, load_store, ofBytes_store, E_eq]

/-- The key of the direct mode is complete, or its last word is at most half full. -/
theorem keyDirect_spec (key : Bytes) (h : key.length ≤ 16) (h2 : key.length % 4 = 0 ∨ key.length % 4 = 2) :
    keyDirect key = .ok (Spec.Noekeon.direct (zeroPad 16 key)) := by
  have e := ldUserKey_padded_partial 4 4 (by decide) key (by omega)
  have hz : (zeroPad 16 key).length = 16 := by
    unfold zeroPad; rw [List.length_append, List.length_take, List.length_replicate]; omega
  obtain ⟨s, hs⟩ := store_surj _ hz
  unfold keyDirect Spec.Noekeon.direct
  have hw : ldUserKey 4 4 key = [s.a, s.b, s.c, s.d] := by
    rw [e]
    show beWords 32 4 (zeroPad 16 key) = _
    rw [← hs]
    unfold store
    simp only [List.flatMap_cons, beWords_putBe32]
    rfl
  simp only [hw]
  rw [← hs, ofBytes_store]
  rfl

/-- C113: the indirect mode with every key of at most 16 bytes, completed by zeros: encryption and decryption are the published
ones. -/
theorem noekeon_indirect (key block : Bytes) (h : key.length ≤ 16) (hb : block.length = 16) :
    enc key block = .ok (Spec.Noekeon.encrypt (Spec.Noekeon.indirect (zeroPad 16 key)) block) ∧
    dec key block = .ok (Spec.Noekeon.decrypt (Spec.Noekeon.indirect (zeroPad 16 key)) block) := by
  unfold enc dec
  rw [keyIndirect_spec key h, Out.bind_ok, Out.bind_ok]
  exact ⟨encBlock_spec _ block hb, decBlock_spec _ block hb⟩

/-- C113: the direct mode, for keys of an even number of bytes (the others are not completed by zeros, see
`KeyLoad.ldUserKey_padded_partial`). -/
theorem noekeon_direct (key block : Bytes) (h : key.length ≤ 16) (h2 : key.length % 2 = 0) (hb : block.length = 16) :
    encD key block = .ok (Spec.Noekeon.encrypt (Spec.Noekeon.direct (zeroPad 16 key)) block) ∧
    decD key block = .ok (Spec.Noekeon.decrypt (Spec.Noekeon.direct (zeroPad 16 key)) block) := by
  unfold encD decD
  rw [keyDirect_spec key h (by omega), Out.bind_ok, Out.bind_ok]
  exact ⟨encBlock_spec _ block hb, decBlock_spec _ block hb⟩

/-- The published vector of the indirect mode with the key and the text of ones. -/
example : Spec.Noekeon.encrypt (Spec.Noekeon.indirect (List.replicate 16 0xFF)) (List.replicate 16 0xFF) =
    [0x52, 0xF8, 0x8A, 0x7B, 0x28, 0x3C, 0x1F, 0x7B, 0xDF, 0x7B, 0x6F, 0xAA, 0x50, 0x11, 0xC7, 0xD8] := by decide +kernel
/-- The direct mode does not complete a key of 15 bytes by a zero: the last words differ. -/
example : ldUserKey 4 4 (List.replicate 15 1) ≠ Spec.MD.beWords 32 4 (zeroPad 16 (List.replicate 15 1)) := by decide +kernel

end Kryptos.Noekeon
