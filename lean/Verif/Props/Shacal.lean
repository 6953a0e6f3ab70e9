import Verif.Model.Shacal
import Verif.Spec.Shacal
import Verif.Lemmas.Rot
import Verif.Lemmas.ShaInst
import Verif.Lemmas.Aes
import Verif.Props.KeyLoad
import Mathlib.Data.BitVec
import Mathlib.Tactic.Abel
/-
  SHACAL-1 and SHACAL-2: the block functions undo each other under every key, and encryption is the compression function of
  SHA-1 and SHA-256 without the final addition.
-/
namespace Kryptos
open Block KeyLoad Spec.MD Hash

/-- The expansion loops are defined when their step is, and lengthen the list by one word each time. -/
theorem expand_defined {w : Nat} (g : List (BitVec w) → Nat → Out (BitVec w)) (m : Nat)
    (hg : ∀ W : List (BitVec w), m ≤ W.length → ∃ x, g W W.length = .ok x) : ∀ (n : Nat) (W : List (BitVec w)), m ≤ W.length →
      ∃ V, expand g n W = .ok V ∧ V.length = W.length + n
  | 0, W, _ => ⟨W, rfl, rfl⟩
  | n + 1, W, h => by
    obtain ⟨x, hx⟩ := hg W h
    obtain ⟨V, h1, h2⟩ := expand_defined g m hg n (W ++ [x]) (by rw [List.length_append]; omega)
    refine ⟨V, ?_, by rw [h2, List.length_append, List.length_singleton]; omega⟩
    rw [expand, hx, Out.bind_ok, h1]

theorem putBe32_eq (w : W32) : putBe32 w = be 4 w.toNat := by
  have h : ∀ v : W32, (v &&& 0xFF#32).setWidth 8 = v.setWidth 8 := by
    intro v
    apply BitVec.eq_of_getLsbD_eq; intro i hi
    interval_cases i <;> simp
  rw [← cpyBe_eq]
  unfold putBe32 cpyBe
  rw [h, h, h, h]
  show _ = [_, _, _, _]
  rfl

namespace Shacal1

theorem keySched_defined (key : Bytes) : ∃ W, keySched key = .ok W ∧ W.length = 80 := by
  obtain ⟨W, h1, h2⟩ := expand_defined sched 16 (fun W h => by
    unfold sched
    rw [rd_getD 0 (by omega), rd_getD 0 (by omega), rd_getD 0 (by omega), rd_getD 0 (by omega)]
    exact ⟨_, rfl⟩) 64 (ldUserKey 4 16 key) (by rw [length_ldUserKey])
  exact ⟨W, h1, by rw [h2, length_ldUserKey]⟩

theorem load_store (s : Five 32) : load (store s) = .ok s := by
  unfold load store
  rw [getBe32_word _ 0 0 s.a rfl rfl, getBe32_word _ 1 4 s.b rfl rfl, getBe32_word _ 2 8 s.c rfl rfl, getBe32_word _ 3 12 s.d rfl rfl, getBe32_word _ 4 16 s.e rfl rfl]
  rfl

theorem store_surj (b : Bytes) (h : b.length = 20) : ∃ s, store s = b := by
  obtain ⟨ws, h1, rfl⟩ := words_be32 5 b h
  match ws, h1 with
  | [x, y, z, u, v], _ => exact ⟨⟨x, y, z, u, v⟩, rfl⟩

theorem store_len (s : Five 32) : (store s).length = 20 := by unfold store; rw [flatMap_putBe32_length]; rfl

/-- One step and its inverse, as functions of the word of the schedule. -/
def step (W : List W32) (s : Five 32) (t : Nat) : Five 32 :=
  ⟨Sn s.a 5 + F t s.b s.c s.d + s.e + W.getD t 0 + K t, s.a, Sn s.b 30, s.c, s.d⟩
def unStep (W : List W32) (s : Five 32) (t : Nat) : Five 32 :=
  ⟨s.b, Sn s.c 2, s.d, s.e, s.a - Sn s.b 5 - F t (Sn s.c 2) s.d s.e - W.getD t 0 - K t⟩

theorem Sn_30_2 (x : W32) : Sn (Sn x 30) 2 = x := by
  apply BitVec.eq_of_getLsbD_eq; intro i hi; unfold Sn
  interval_cases i <;> simp
theorem Sn_2_30 (x : W32) : Sn (Sn x 2) 30 = x := by
  apply BitVec.eq_of_getLsbD_eq; intro i hi; unfold Sn
  interval_cases i <;> simp

theorem unStep_step (W : List W32) (s : Five 32) (t : Nat) : unStep W (step W s t) t = s := by
  obtain ⟨a, b, c, d, e⟩ := s
  simp only [step, unStep, Sn_30_2]
  congr 1
  abel
theorem step_unStep (W : List W32) (s : Five 32) (t : Nat) : step W (unStep W s t) t = s := by
  obtain ⟨a, b, c, d, e⟩ := s
  simp only [step, unStep, Sn_2_30]
  congr 1
  abel

theorem encBlock_eq (W : List W32) (hW : W.length = 80) (s : Five 32) :
    encBlock W (store s) = .ok (store ((List.range' 0 80).foldl (step W) s)) := by
  unfold encBlock
  rw [load_store, Out.bind_ok, forLoop_up0 (encStep W) (step W) 80 s (fun i s hi => by
    unfold encStep; rw [rd_getD 0 (by omega)]; rfl)]
  rfl

theorem decBlock_eq (W : List W32) (hW : W.length = 80) (s : Five 32) :
    decBlock W (store s) = .ok (store ((List.range' 0 80).reverse.foldl (unStep W) s)) := by
  unfold decBlock
  rw [load_store, Out.bind_ok, forLoop_down0 (decStep W) (unStep W) 80 s (fun i s hi => by
    unfold decStep; rw [rd_getD 0 (by omega)]; rfl)]
  rfl

/-- C29 for SHACAL-1: under every key, encryption and decryption of a block are defined and undo each other. -/
theorem shacal1_invertible (key : Bytes) : Invertible 20 (enc key) (dec key) := by
  obtain ⟨W, h1, h2⟩ := keySched_defined key
  refine Invertible.ofState store store_surj store_len ((List.range' 0 80).foldl (step W)) ((List.range' 0 80).reverse.foldl (unStep W))
    (fun s => ?_) (fun s => ?_) (foldl_undo _ _ (unStep_step W) _) (foldl_undo' _ _ (step_unStep W) _)
  · unfold enc; rw [h1, Out.bind_ok, encBlock_eq W h2]
  · unfold dec; rw [h1, Out.bind_ok, decBlock_eq W h2]

theorem keySched_std (key : Bytes) (h : 64 ≤ key.length ∨ key.length % 4 = 0 ∨ key.length % 4 = 2) :
    keySched key = .ok ((List.range 80).map (Spec.Sha.sha1W (zeroPad 64 key))) := by
  unfold keySched
  rw [ldUserKey_padded_partial 4 16 (by decide) key (by omega), ← ws_beWords (8 * 4) 4 16 (by decide) _ (by
    simp [zeroPad]; omega)]
  show expand Sha1.sched 64 (ws 32 4 16 (zeroPad 64 key)) = _
  rw [Sha1.ws_eq, expand_eq Sha1.sched (Spec.Sha.sha1W (zeroPad 64 key)) 64 16 (fun t h _ => Sha1.sched_eq _ t h)]

/-- C70 for SHACAL-1: keys of an even number of bytes (or of at least 64). -/
theorem shacal1_standard (key : Bytes) (h : 64 ≤ key.length ∨ key.length % 2 = 0) (s : Five 32) :
    enc key (Spec.Shacal.bytes s.words) = .ok (Spec.Shacal.bytes (Spec.Shacal.shacal1 (zeroPad 64 key) s).words) := by
  have hb : ∀ s : Five 32, Spec.Shacal.bytes s.words = store s := by
    intro s
    unfold Spec.Shacal.bytes store
    simp only [← putBe32_eq]
    rfl
  rw [hb, hb]
  unfold enc
  rw [keySched_std key (by omega), Out.bind_ok]
  unfold encBlock
  rw [load_store, Out.bind_ok, forLoop_up0 _ (Spec.Sha.sha1Round (zeroPad 64 key)) 80 s (fun t s h2 => by
    unfold encStep
    rw [rd_map_range _ _ _ (by omega)]
    simp only [Out.bind_ok, Out.pure_eq, Spec.Sha.sha1Round]
    rw [show F t = Sha1.F t from rfl, Sha1.F_eq t (by omega), show Sn s.a 5 = s.a.rotateLeft 5 from rotl_eq _ _ (by decide),
      show Sn s.b 30 = s.b.rotateLeft 30 from rotl_eq _ _ (by decide)]
    rw [BitVec.add_assoc _ (Spec.Sha.sha1W _ t), BitVec.add_comm (Spec.Sha.sha1W _ t), ← BitVec.add_assoc]
    rfl)]
  rw [← List.range_eq_range']
  rfl

end Shacal1

namespace Shacal2

theorem keySched_defined (key : Bytes) : ∃ W, keySched key = .ok W ∧ W.length = 64 := by
  obtain ⟨W, h1, h2⟩ := expand_defined sched 16 (fun W h => by
    unfold sched
    rw [rd_getD 0 (by omega), rd_getD 0 (by omega), rd_getD 0 (by omega), rd_getD 0 (by omega)]
    exact ⟨_, rfl⟩) 48 (ldUserKey 4 16 key) (by rw [length_ldUserKey])
  exact ⟨W, h1, by rw [h2, length_ldUserKey]⟩

theorem load_store (s : Eight 32) : load (store s) = .ok s := by
  unfold load store
  rw [getBe32_word _ 0 0 s.a rfl rfl, getBe32_word _ 1 4 s.b rfl rfl, getBe32_word _ 2 8 s.c rfl rfl, getBe32_word _ 3 12 s.d rfl rfl, getBe32_word _ 4 16 s.e rfl rfl, getBe32_word _ 5 20 s.f rfl rfl, getBe32_word _ 6 24 s.g rfl rfl, getBe32_word _ 7 28 s.h rfl rfl]
  rfl

theorem store_surj (b : Bytes) (h : b.length = 32) : ∃ s, store s = b := by
  obtain ⟨ws, h1, rfl⟩ := words_be32 8 b h
  match ws, h1 with
  | [a, b, c, d, e, f, g, h], _ => exact ⟨⟨a, b, c, d, e, f, g, h⟩, rfl⟩

theorem store_len (s : Eight 32) : (store s).length = 32 := by unfold store; rw [flatMap_putBe32_length]; rfl

def step (W : List W32) (s : Eight 32) (t : Nat) : Eight 32 :=
  let T1 := s.h + BSIG1 s.e + CH s.e s.f s.g + K.getD t 0 + W.getD t 0
  let T2 := BSIG0 s.a + MAJ s.a s.b s.c
  ⟨T1 + T2, s.a, s.b, s.c, s.d + T1, s.e, s.f, s.g⟩
def unStep (W : List W32) (s : Eight 32) (t : Nat) : Eight 32 :=
  let T1 := s.a - (BSIG0 s.b + MAJ s.b s.c s.d)
  ⟨s.b, s.c, s.d, s.e - T1, s.f, s.g, s.h, T1 - (BSIG1 s.f + CH s.f s.g s.h + K.getD t 0 + W.getD t 0)⟩

theorem unStep_step (W : List W32) (s : Eight 32) (t : Nat) : unStep W (step W s t) t = s := by
  obtain ⟨a, b, c, d, e, f, g, h⟩ := s
  simp only [step, unStep]
  congr 1 <;> abel
theorem step_unStep (W : List W32) (s : Eight 32) (t : Nat) : step W (unStep W s t) t = s := by
  obtain ⟨a, b, c, d, e, f, g, h⟩ := s
  simp only [step, unStep]
  congr 1 <;> abel

theorem encBlock_eq (W : List W32) (hW : W.length = 64) (s : Eight 32) :
    encBlock W (store s) = .ok (store ((List.range' 0 64).foldl (step W) s)) := by
  unfold encBlock
  rw [load_store, Out.bind_ok, forLoop_up0 (encStep W) (step W) 64 s (fun i s hi => by
    unfold encStep; rw [rd_getD (l := K) 0 (by exact hi), rd_getD (l := W) 0 (by omega)]; rfl)]
  rfl

theorem decBlock_eq (W : List W32) (hW : W.length = 64) (s : Eight 32) :
    decBlock W (store s) = .ok (store ((List.range' 0 64).reverse.foldl (unStep W) s)) := by
  unfold decBlock
  rw [load_store, Out.bind_ok, forLoop_down0 (decStep W) (unStep W) 64 s (fun i s hi => by
    unfold decStep; rw [rd_getD (l := K) 0 (by exact hi), rd_getD (l := W) 0 (by omega)]; rfl)]
  rfl

/-- C29 for SHACAL-2. -/
theorem shacal2_invertible (key : Bytes) : Invertible 32 (enc key) (dec key) := by
  obtain ⟨W, h1, h2⟩ := keySched_defined key
  refine Invertible.ofState store store_surj store_len ((List.range' 0 64).foldl (step W)) ((List.range' 0 64).reverse.foldl (unStep W))
    (fun s => ?_) (fun s => ?_) (foldl_undo _ _ (unStep_step W) _) (foldl_undo' _ _ (step_unStep W) _)
  · unfold enc; rw [h1, Out.bind_ok, encBlock_eq W h2]
  · unfold dec; rw [h1, Out.bind_ok, decBlock_eq W h2]

theorem keySched_std (key : Bytes) (h : 64 ≤ key.length ∨ key.length % 4 = 0 ∨ key.length % 4 = 2) :
    keySched key = .ok ((List.range 64).map (Spec.Sha.p256.W (zeroPad 64 key))) := by
  unfold keySched
  rw [ldUserKey_padded_partial 4 16 (by decide) key (by omega), ← ws_beWords (8 * 4) 4 16 (by decide) _ (by
    simp [zeroPad]; omega)]
  show expand Sha256.sched 48 (ws 32 4 16 (zeroPad 64 key)) = _
  rw [Sha256.ws_eq, expand_eq Sha256.sched (Spec.Sha.p256.W (zeroPad 64 key)) 48 16 (fun t h _ => Sha256.sched_eq _ t h)]

/-- C70 for SHACAL-2. -/
theorem shacal2_standard (key : Bytes) (h : 64 ≤ key.length ∨ key.length % 2 = 0) (s : Eight 32) :
    enc key (Spec.Shacal.bytes s.words) = .ok (Spec.Shacal.bytes (Spec.Shacal.shacal2 (zeroPad 64 key) s).words) := by
  have hb : ∀ s : Eight 32, Spec.Shacal.bytes s.words = store s := by
    intro s
    unfold Spec.Shacal.bytes store
    simp only [← putBe32_eq]
    rfl
  rw [hb, hb]
  unfold enc
  rw [keySched_std key (by omega), Out.bind_ok]
  unfold encBlock
  rw [load_store, Out.bind_ok,
    show forLoop (encStep ((List.range 64).map (Spec.Sha.p256.W (zeroPad 64 key)))) 64 0 s =
      forLoop (encStep ((List.range 64).map (Spec.Sha.p256.W (zeroPad 64 key)))) K.length 0 s from rfl,
    forLoop_zipIdx _ (fun k t s => Spec.Sha.p256.round (zeroPad 64 key) s k t)]
  · rw [Out.bind_ok]
    unfold Spec.Shacal.shacal2
    rw [show Spec.Sha.p256.K = K from Sha256.K_eq.symm]
    rfl
  · intro t s hi
    unfold encStep
    have hi' : t < 64 := hi
    rw [Nat.zero_add, rd_eq_ok hi, rd_map_range _ _ _ (by omega)]
    simp only [Out.bind_ok, Out.pure_eq, Spec.Sha.Sha2.round]
    rw [show BSIG0 = Sha256.BSIG0 from rfl, show BSIG1 = Sha256.BSIG1 from rfl, Sha256.BSIG0_eq, Sha256.BSIG1_eq]
    rfl

end Shacal2

/-- A case: encrypting and decrypting one block under a key of 5 bytes. -/
example : ∃ c, Shacal2.enc [1, 2, 3, 4, 5] (List.replicate 32 7) = .ok c ∧ c.length = 32 ∧
    Shacal2.dec [1, 2, 3, 4, 5] c = .ok (List.replicate 32 7) := (Shacal2.shacal2_invertible _).dec_enc _ rfl

/-- C70 fails for keys with an incomplete last word of one or three bytes: they are not padded with zeros.  A key of one byte `c`
acts as the key `0, 0, c, 0`. -/
theorem shacal_one_byte_key (c : Byte) (block : Bytes) : Shacal1.enc [c] block = Shacal1.enc [0, 0, c, 0] block := by
  unfold Shacal1.enc Shacal1.keySched
  rw [show ldUserKey 4 16 [c] = ldUserKey 4 16 [0, 0, c, 0] by revert c; exact Aes.forall_byte (by decide +kernel)]

theorem shacal_short_key_nonstandard : ∃ (c : Byte) (s : Five 32), Shacal1.enc [c] (Spec.Shacal.bytes s.words) ≠
    .ok (Spec.Shacal.bytes (Spec.Shacal.shacal1 (zeroPad 64 [c]) s).words) := by
  refine ⟨0x80#8, ⟨0, 0, 0, 0, 0⟩, ?_⟩
  rw [show zeroPad 64 [0x80#8] = zeroPad 64 [0x80#8, 0, 0, 0] by decide, ← Shacal1.shacal1_standard _ (by decide)]
  decide +kernel

end Kryptos
