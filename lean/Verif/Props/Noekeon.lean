import Verif.Model.Noekeon
import Verif.Lemmas.Rot
import Verif.Props.KeyLoad
/-
  NOEKEON: the block functions undo each other in both key modes, and the key copy that leaves its buffer.
-/
namespace Kryptos
theorem xor_lcomm {n : Nat} (a b c : BitVec n) : a ^^^ (b ^^^ c) = b ^^^ (a ^^^ c) := by
  rw [← BitVec.xor_assoc, BitVec.xor_comm a b, BitVec.xor_assoc]
end Kryptos

namespace Kryptos.Noekeon
open Block KeyLoad

theorem load_store (s : Four 32) : load (store s) = .ok s := by
  unfold load store
  rw [getBe32_word _ 0 0 s.a rfl rfl, getBe32_word _ 1 4 s.b rfl rfl, getBe32_word _ 2 8 s.c rfl rfl,
    getBe32_word _ 3 12 s.d rfl rfl]
  rfl

theorem store_surj (b : Bytes) (h : b.length = 16) : ∃ s, store s = b := by
  obtain ⟨ws, h1, rfl⟩ := words_be32 4 b h
  match ws, h1 with
  | [x, y, z, u], _ => exact ⟨⟨x, y, z, u⟩, rfl⟩

theorem store_len (s : Four 32) : (store s).length = 16 := by unfold store; rw [flatMap_putBe32_length]; rfl

theorem lsh_xor (a b : W32) (n : Nat) : lsh (a ^^^ b) n = lsh a n ^^^ lsh b n := by
  unfold lsh
  by_cases hn : n ≤ 32
  · apply BitVec.eq_of_getLsbD_eq; intro i hi
    simp only [BitVec.getLsbD_or, BitVec.getLsbD_xor, BitVec.getLsbD_shiftLeft, BitVec.getLsbD_ushiftRight]
    by_cases h : i < n
    · simp [h]
    · have e : ∀ x : W32, x.getLsbD (32 - n + i) = false := by
        intro x; exact BitVec.getLsbD_of_ge _ _ (by omega)
      rw [e, e]; simp [h, hi]
  · have e : ∀ x : W32, x <<< n = 0 := by
      intro x; apply BitVec.eq_of_getLsbD_eq; intro i hi
      simp [show i < n by omega]
    rw [e, e, e, show 32 - n = 0 by omega]
    simp

theorem phi_xor (a b : W32) : phi (a ^^^ b) = phi a ^^^ phi b := by
  unfold phi
  rw [lsh_xor, lsh_xor]
  ac_rfl

/-- `Theta` with the inverse key undoes `Theta`. -/
theorem Theta_inv (k s : Four 32) : Theta (invKey k) (Theta k s) = s := by
  obtain ⟨k0, k1, k2, k3⟩ := k
  obtain ⟨a0, a1, a2, a3⟩ := s
  unfold invKey Theta
  simp only [phi_xor, BitVec.xor_assoc, BitVec.xor_comm, xor_lcomm, BitVec.xor_self, xor_cancel_left]
  have e : phi 0#32 = 0#32 := by decide
  simp [e]

theorem invKey_invKey (k : Four 32) : invKey (invKey k) = k := by
  have h := Theta_inv ⟨0, 0, 0, 0⟩ k
  have e : invKey ⟨0, 0, 0, 0⟩ = ⟨0, 0, 0, 0⟩ := by decide
  rw [e] at h
  exact h

theorem Theta_inv' (k s : Four 32) : Theta k (Theta (invKey k) s) = s := by
  have := Theta_inv (invKey k) s
  rwa [invKey_invKey] at this

theorem lsh_lsh (x : W32) (n : Nat) (h0 : 0 < n) (h : n < 32) : lsh (lsh x n) (32 - n) = x := by
  have e : ∀ (y : W32) (m : Nat), 0 < m → m < 32 → lsh y m = y.rotateLeft m := by
    intro y m _ hm
    unfold lsh; rw [BitVec.rotateLeft_def, Nat.mod_eq_of_lt hm]
  rw [e _ _ h0 h]
  have : lsh (x.rotateLeft n) (32 - n) = (x.rotateLeft n).rotateRight n := by
    unfold lsh
    rw [BitVec.rotateRight_def, Nat.mod_eq_of_lt h, show 32 - (32 - n) = n by omega, BitVec.or_comm]
  rw [this, rotateRight_rotateLeft _ _ h]

theorem Pi2_Pi1 (s : Four 32) : Pi2 (Pi1 s) = s := by
  obtain ⟨a, b, c, d⟩ := s
  simp only [Pi1, Pi2]
  rw [show (31 : Nat) = 32 - 1 from rfl, lsh_lsh _ 1 (by decide) (by decide), show (27 : Nat) = 32 - 5 from rfl,
    lsh_lsh _ 5 (by decide) (by decide), show (30 : Nat) = 32 - 2 from rfl, lsh_lsh _ 2 (by decide) (by decide)]

theorem Pi1_Pi2 (s : Four 32) : Pi1 (Pi2 s) = s := by
  obtain ⟨a, b, c, d⟩ := s
  simp only [Pi1, Pi2]
  rw [show (1 : Nat) = 32 - 31 from rfl, lsh_lsh _ 31 (by decide) (by decide), show (5 : Nat) = 32 - 27 from rfl,
    lsh_lsh _ 27 (by decide) (by decide), show (2 : Nat) = 32 - 30 from rfl, lsh_lsh _ 30 (by decide) (by decide)]

theorem Gamma_Gamma (s : Four 32) : Gamma (Gamma s) = s := by
  obtain ⟨a, b, c, d⟩ := s
  unfold Gamma
  simp only [Four.mk.injEq]
  refine ⟨?_, ?_, ?_, ?_⟩ <;>
  · apply BitVec.eq_of_getLsbD_eq; intro i hi
    simp only [BitVec.getLsbD_xor, BitVec.getLsbD_and, BitVec.getLsbD_or, BitVec.getLsbD_not, hi, decide_true, Bool.true_and]
    cases a.getLsbD i <;> cases b.getLsbD i <;> cases c.getLsbD i <;> cases d.getLsbD i <;> rfl

/-- The nonlinear part of a round is an involution. -/
def G (s : Four 32) : Four 32 := Pi2 (Gamma (Pi1 s))
theorem G_G (s : Four 32) : G (G s) = s := by unfold G; rw [Pi1_Pi2, Gamma_Gamma, Pi2_Pi1]

theorem addC_addC (c : W32) (s : Four 32) : addC c (addC c s) = s := by
  unfold addC; simp only [xor_cancel_right]
theorem addC_zero (s : Four 32) : addC 0 s = s := by unfold addC; simp

/-- A constant of a round. -/
def rc (i : Nat) : W32 := RC.getD i 0
theorem rd_RC (i : Nat) (h : i < 17) : rd RC i = .ok (rc i) := rd_getD 0 h

/-- One round and its inverse. -/
def fwd (k s : Four 32) (i : Nat) : Four 32 := G (Theta k (addC (rc i) s))
def bwd (k s : Four 32) (i : Nat) : Four 32 := addC (rc i) (Theta (invKey k) (G s))
theorem bwd_fwd (k s : Four 32) (i : Nat) : bwd k (fwd k s i) i = s := by
  unfold fwd bwd; rw [G_G, Theta_inv, addC_addC]
theorem fwd_bwd (k s : Four 32) (i : Nat) : fwd k (bwd k s i) i = s := by
  unfold fwd bwd; rw [addC_addC, Theta_inv', G_G]

/-- A round of the decryption. -/
def rnd (k s : Four 32) (i : Nat) : Four 32 := G (addC (rc i) (Theta (invKey k) s))

/-- The decryption rounds, seen as inverses of the encryption rounds. -/
theorem shift (k : Four 32) : ∀ (n : Nat) (s : Four 32),
    addC (rc 0) (Theta (invKey k) ((List.range' 1 n).reverse.foldl (rnd k) s)) =
      (List.range' 0 n).reverse.foldl (bwd k) (addC (rc n) (Theta (invKey k) s))
  | 0, s => rfl
  | n + 1, s => by
    rw [List.range'_concat, List.range'_concat, List.reverse_append, List.reverse_append]
    simp only [Nat.one_mul, List.reverse_singleton, List.singleton_append, List.foldl_cons]
    rw [shift k n, Nat.add_comm 1 n, Nat.zero_add]
    rfl

/-- Encryption and decryption of a state. -/
def E (k s : Four 32) : Four 32 := Theta k (addC (rc 16) ((List.range' 0 16).foldl (fwd k) s))
def D (k s : Four 32) : Four 32 := (List.range' 0 16).reverse.foldl (bwd k) (addC (rc 16) (Theta (invKey k) s))

theorem encBlock_eq (k s : Four 32) : encBlock k (store s) = .ok (store (E k s)) := by
  unfold encBlock
  rw [load_store, Out.bind_ok, forLoop_up0 _ (fwd k) 16 s (fun i s hi => by
    rw [rd_RC i (by omega), Out.bind_ok, Out.pure_eq]
    unfold Round; rw [addC_zero]; rfl), Out.bind_ok, rd_RC 16 (by decide)]
  rfl

theorem decBlock_eq (k s : Four 32) : decBlock (invKey k) (store s) = .ok (store (D k s)) := by
  unfold decBlock
  rw [load_store, Out.bind_ok]
  have h := forLoop_down (fun i s => do return Round (invKey k) s 0 (← rd RC i)) (rnd k) 16 s (fun i s _ hi => by
    simp only [rd_RC i (by omega), Out.bind_ok, Out.pure_eq]
    unfold Round; rw [addC_zero]; rfl)
  rw [h, Out.bind_ok, rd_RC 0 (by decide), Out.bind_ok, Out.pure_eq]
  unfold D
  rw [← shift]

theorem D_E (k s : Four 32) : D k (E k s) = s := by
  unfold D E; rw [Theta_inv, addC_addC, foldl_undo _ _ (bwd_fwd k)]
theorem E_D (k s : Four 32) : E k (D k s) = s := by
  unfold D E; rw [foldl_undo' _ _ (fwd_bwd k), addC_addC, Theta_inv']

theorem invertible (k : Four 32) : Invertible 16 (encBlock k) (decBlock (invKey k)) :=
  Invertible.ofState store store_surj store_len (E k) (D k) (encBlock_eq k) (decBlock_eq k) (D_E k) (E_D k)

/-- C29 for NOEKEON in the indirect mode: every key that fits into the buffer. -/
theorem noekeon_invertible (key : Bytes) (h : key.length ≤ 16) : Invertible 16 (enc key) (dec key) := by
  have hk : ∃ k, keyIndirect key = .ok k := by
    obtain ⟨s, hs⟩ := store_surj (key ++ List.replicate (16 - key.length) 0) (by
      rw [List.length_append, List.length_replicate]; omega)
    refine ⟨E ⟨0, 0, 0, 0⟩ s, ?_⟩
    unfold keyIndirect
    rw [if_neg (by omega), ← hs, encBlock_eq, Out.bind_ok, load_store]
  obtain ⟨k, hk⟩ := hk
  have e1 : enc key = encBlock k := by funext b; unfold enc; rw [hk, Out.bind_ok]
  have e2 : dec key = decBlock (invKey k) := by funext b; unfold dec; rw [hk, Out.bind_ok]
  rw [e1, e2]
  exact invertible k

/-- C29 for NOEKEON in the direct mode: every key. -/
theorem noekeon_d_invertible (key : Bytes) : Invertible 16 (encD key) (decD key) := by
  have hk : ∃ k, keyDirect key = .ok k := by
    have hl : (ldUserKey 4 4 key).length = 4 := length_ldUserKey 4 4 key
    unfold keyDirect
    simp only [rd_getD (0 : W32) (show 0 < (ldUserKey 4 4 key).length by omega), rd_getD (0 : W32) (show 1 < (ldUserKey 4 4 key).length by omega),
      rd_getD (0 : W32) (show 2 < (ldUserKey 4 4 key).length by omega), rd_getD (0 : W32) (show 3 < (ldUserKey 4 4 key).length by omega)]
    exact ⟨_, rfl⟩
  obtain ⟨k, hk⟩ := hk
  have e1 : encD key = encBlock k := by funext b; unfold encD; rw [hk, Out.bind_ok]
  have e2 : decD key = decBlock (invKey k) := by funext b; unfold decD; rw [hk, Out.bind_ok]
  rw [e1, e2]
  exact invertible k

/-- C29 without the bound fails: in the indirect mode a key of more than 16 bytes writes beyond a local buffer.  Only
`kryptos_task_check` prevents it. -/
theorem noekeon_long_key_overflows (key block : Bytes) (h : 16 < key.length) : enc key block = .ub := by
  unfold enc keyIndirect
  rw [if_pos h]
  rfl

/-- The published test vectors of both modes. -/
example : enc (List.replicate 16 0) (List.replicate 16 0) =
    .ok [0xBA, 0x69, 0x33, 0x81, 0x92, 0x99, 0xC7, 0x16, 0x99, 0xA9, 0x9F, 0x08, 0xF6, 0x78, 0x17, 0x8B] := by decide +kernel
example : encD (List.replicate 16 0) (List.replicate 16 0) =
    .ok [0xB1, 0x65, 0x68, 0x51, 0x69, 0x9E, 0x29, 0xFA, 0x24, 0xB7, 0x01, 0x48, 0x50, 0x3D, 0x2D, 0xFC] := by decide +kernel

end Kryptos.Noekeon
