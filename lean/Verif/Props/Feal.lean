import Verif.Model.Feal
import Verif.Lemmas.Rot
import Verif.Props.KeyLoad
/-
  FEAL: for every accepted number of rounds and every key the block functions are defined and undo each other.
-/
namespace Kryptos.Feal
open Block KeyLoad

/-- The accepted numbers of rounds are 1 to 792; negative numbers are rejected. -/
theorem roundsOk_iff (r : BitVec 32) : roundsOk r = true ↔ 1 ≤ r.toInt ∧ r.toInt ≤ 792 := by
  unfold roundsOk
  have h1 := BitVec.toInt_eq_toNat_bmod r
  have hr := r.isLt
  have h2 : (r.signExtend 64).toNat = if r.toNat < 2 ^ 31 then r.toNat else r.toNat + (2 ^ 64 - 2 ^ 32) := by
    rw [BitVec.toNat_signExtend]
    by_cases h : r.toNat < 2 ^ 31
    · have : r.msb = false := by rw [BitVec.msb_eq_false_iff_two_mul_lt]; omega
      rw [this, if_pos h]; simp [BitVec.toNat_setWidth]; omega
    · have : r.msb = true := by rw [BitVec.msb_eq_true_iff_two_mul_ge]; omega
      rw [this, if_neg h]; simp [BitVec.toNat_setWidth]; omega
  simp only [h2, Bool.not_eq_true', Bool.or_eq_false_iff, decide_eq_false_iff_not, BitVec.toInt_eq_toNat_cond]
  split <;> split <;> omega

theorem expandKey_defined (rounds : Nat) (key : Bytes) (h : rounds ≤ 792) :
    ∃ K, expandKey rounds key = .ok K ∧ K.length = 801 := by
  have hl : (ldUserKey 4 2 key).length = 2 := length_ldUserKey 4 2 key
  unfold expandKey
  simp only [rd_getD (0 : W32) (show 0 < (ldUserKey 4 2 key).length by omega), rd_getD (0 : W32) (show 1 < (ldUserKey 4 2 key).length by omega),
    Out.bind_ok]
  obtain ⟨s, h1, h2⟩ := forLoop_inv exStep (fun _ s => s.K.length = 801) ((rounds + 8) / 2 + (rounds + 8) % 2) 1
    ⟨List.replicate 801 0, (ldUserKey 4 2 key).getD 0 0, (ldUserKey 4 2 key).getD 1 0, 0⟩ (fun i s h1 h2 hs => by
      unfold exStep
      simp only []
      rw [wr_of_lt (by omega), Out.bind_ok, wr_of_lt (by rw [List.length_set]; omega), Out.bind_ok]
      exact ⟨_, rfl, by simp only [List.length_set]; exact hs⟩) List.length_replicate
  exact ⟨s.K, by rw [h1]; rfl, h2⟩

/-- The parts of the block functions, with the subkeys `K`. -/
def pr (K : List W16) (i : Nat) : W32 := (K.getD i 0).setWidth 32 <<< 16 ||| (K.getD (i + 1) 0).setWidth 32
def rnd (K : List W16) (s : W32 × W32) (r : Nat) : W32 × W32 := (s.2, s.1 ^^^ f s.2 (K.getD (r - 1) 0))
def unRnd (K : List W16) (s : W32 × W32) (r : Nat) : W32 × W32 := (s.2 ^^^ f s.1 (K.getD (r - 1) 0), s.1)
theorem unRnd_rnd (K : List W16) (s : W32 × W32) (r : Nat) : unRnd K (rnd K s r) r = s := by
  simp only [rnd, unRnd, xor_cancel_right]
theorem rnd_unRnd (K : List W16) (s : W32 × W32) (r : Nat) : rnd K (unRnd K s r) r = s := by
  simp only [rnd, unRnd, xor_cancel_right]

def pre (a b : W32) (s : W32 × W32) : W32 × W32 := (s.1 ^^^ a, s.2 ^^^ b ^^^ (s.1 ^^^ a))
def unPre (a b : W32) (s : W32 × W32) : W32 × W32 := (s.1 ^^^ a, s.2 ^^^ s.1 ^^^ b)
theorem unPre_pre (a b : W32) (s : W32 × W32) : unPre a b (pre a b s) = s := by
  simp only [pre, unPre, xor_cancel_right]
theorem pre_unPre (a b : W32) (s : W32 × W32) : pre a b (unPre a b s) = s := by
  simp only [pre, unPre, xor_cancel_right]

/-- The output is `(R, L)`. -/
def post (a b : W32) (s : W32 × W32) : W32 × W32 := (s.2 ^^^ a, s.1 ^^^ s.2 ^^^ b)
def unPost (a b : W32) (s : W32 × W32) : W32 × W32 := (s.2 ^^^ b ^^^ (s.1 ^^^ a), s.1 ^^^ a)
theorem unPost_post (a b : W32) (s : W32 × W32) : unPost a b (post a b s) = s := by
  simp only [post, unPost, xor_cancel_right]
theorem post_unPost (a b : W32) (s : W32 × W32) : post a b (unPost a b s) = s := by
  simp only [post, unPost, xor_cancel_right]

def E (n : Nat) (K : List W16) (s : W32 × W32) : W32 × W32 :=
  post (pr K (n + 4)) (pr K (n + 6)) ((List.range' 1 n).foldl (rnd K) (pre (pr K n) (pr K (n + 2)) s))
def D (n : Nat) (K : List W16) (s : W32 × W32) : W32 × W32 :=
  unPre (pr K n) (pr K (n + 2)) ((List.range' 1 n).reverse.foldl (unRnd K) (unPost (pr K (n + 4)) (pr K (n + 6)) s))

theorem pair_eq (K : List W16) (i : Nat) (h : i + 1 < K.length) : pair K i = .ok (pr K i) := by
  unfold pair
  rw [rd_getD 0 (by omega), rd_getD 0 h]
  rfl

theorem encBlock_eq (n : Nat) (K : List W16) (h : n + 7 < K.length) (s : W32 × W32) :
    encBlock n K (be2 s) = .ok (be2 (E n K s)) := by
  unfold encBlock be2
  rw [getBe32_0, getBe32_4', pair_eq K n (by omega), pair_eq K (n + 2) (by omega), pair_eq K (n + 4) (by omega),
    pair_eq K (n + 6) (by omega)]
  simp only [Out.bind_ok]
  rw [forLoop_up (encStep K) (rnd K) n _ (fun i s h1 h2 => by
    unfold encStep; rw [rd_getD 0 (by omega)]; rfl)]
  rfl

theorem decBlock_eq (n : Nat) (K : List W16) (h : n + 7 < K.length) (s : W32 × W32) :
    decBlock n K (be2 s) = .ok (be2 (D n K s)) := by
  unfold decBlock be2
  rw [getBe32_0, getBe32_4', pair_eq K n (by omega), pair_eq K (n + 2) (by omega), pair_eq K (n + 4) (by omega),
    pair_eq K (n + 6) (by omega)]
  simp only [Out.bind_ok]
  rw [forLoop_down (decStep K) (unRnd K) n _ (fun i s h1 h2 => by
    unfold decStep; rw [rd_getD 0 (by omega)]; rfl)]
  rfl

/-- C29 for FEAL: every accepted number of rounds, every key. -/
theorem feal_invertible (r : BitVec 32) (h : roundsOk r = true) (key : Bytes) :
    Invertible 8 (enc r.toNat key) (dec r.toNat key) := by
  have hr : r.toNat ≤ 792 := by
    have := (roundsOk_iff r).1 h
    rw [BitVec.toInt_eq_toNat_cond] at this
    have hr := r.isLt
    split at this <;> omega
  obtain ⟨K, h1, h2⟩ := expandKey_defined r.toNat key hr
  refine Invertible.ofState be2 be2_surj be2_len (E r.toNat K) (D r.toNat K) (fun s => ?_) (fun s => ?_) (fun s => ?_) (fun s => ?_)
  · unfold enc; rw [h1, Out.bind_ok, encBlock_eq _ K (by omega)]
  · unfold dec; rw [h1, Out.bind_ok, decBlock_eq _ K (by omega)]
  · unfold D E; rw [unPost_post, foldl_undo _ _ (unRnd_rnd K), unPre_pre]
  · unfold D E; rw [pre_unPre, foldl_undo' _ _ (rnd_unRnd K), post_unPost]

/-- The published test vector of FEAL-8; 8 is an accepted number. -/
example : roundsOk 8#32 = true := by decide
set_option maxRecDepth 20000 in
example : enc 8 [0x01, 0x23, 0x45, 0x67, 0x89, 0xAB, 0xCD, 0xEF] (List.replicate 8 0) =
    .ok [0xCE, 0xEF, 0x2C, 0x86, 0xF2, 0x49, 0x07, 0x52] := by decide +kernel

end Kryptos.Feal
