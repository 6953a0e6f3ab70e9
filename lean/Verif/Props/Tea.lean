import Verif.Model.Tea
import Verif.Spec.Tea
import Verif.Lemmas.BlockCipher
/-
  TEA and XTEA: conformance and invertibility (C28).
-/
namespace Kryptos
open Block

theorem keyWords_eq (k0 k1 k2 k3 : W32) :
    Tea.keyWords (putBe32 k0 ++ (putBe32 k1 ++ (putBe32 k2 ++ putBe32 k3))) = .ok [k0, k1, k2, k3] := by
  unfold Tea.keyWords
  rw [getBe32_0, Out.bind_ok, getBe32_4, Out.bind_ok, getBe32_8, Out.bind_ok, getBe32_12]
  rfl

theorem forLoop_undo {σ : Type} (f g : σ → Out σ) (F G : σ → σ) (hf : ∀ s, f s = .ok (F s))
    (hg : ∀ s, g s = .ok (G s)) (h : ∀ s, G (F s) = s) (n t t' : Nat) (s : σ) :
    ∃ r, forLoop (fun _ => f) n t s = .ok r ∧ forLoop (fun _ => g) n t' r = .ok s := by
  induction n generalizing t t' s with
  | zero => exact ⟨s, rfl, rfl⟩
  | succ n ih =>
    obtain ⟨r, h1, h2⟩ := ih (t + 1) t' (F s)
    refine ⟨r, by rw [forLoop, hf, Out.bind_ok, h1], ?_⟩
    -- the last step of the second loop
    have last : ∀ (m t : Nat) (a b : σ), forLoop (fun _ => g) m t a = .ok b →
        forLoop (fun _ => g) (m + 1) t a = .ok (G b) := by
      intro m
      induction m with
      | zero => intro t a b hab; cases hab; rw [forLoop, hg, Out.bind_ok]; rfl
      | succ m ihm =>
        intro t a b hab
        rw [forLoop, hg, Out.bind_ok] at hab ⊢
        exact ihm _ _ _ hab
    rw [last n t' r _ h2, h]

namespace Tea

/-- One TEA cycle, as a function. -/
def encF (k0 k1 k2 k3 : W32) (s : W32 × W32 × W32) : W32 × W32 × W32 :=
  let sum := s.1 + delta
  let y := s.2.1 + (((s.2.2 <<< 4) + k0) ^^^ (s.2.2 + sum) ^^^ ((s.2.2 >>> 5) + k1))
  (sum, y, s.2.2 + (((y <<< 4) + k2) ^^^ (y + sum) ^^^ ((y >>> 5) + k3)))

def decF (k0 k1 k2 k3 : W32) (s : W32 × W32 × W32) : W32 × W32 × W32 :=
  let z := s.2.2 - (((s.2.1 <<< 4) + k2) ^^^ (s.2.1 + s.1) ^^^ ((s.2.1 >>> 5) + k3))
  (s.1 - delta, s.2.1 - (((z <<< 4) + k0) ^^^ (z + s.1) ^^^ ((z >>> 5) + k1)), z)

theorem encStep_eq (k0 k1 k2 k3 : W32) (s : W32 × W32 × W32) :
    encStep [k0, k1, k2, k3] s = .ok (encF k0 k1 k2 k3 s) := rfl
theorem decStep_eq (k0 k1 k2 k3 : W32) (s : W32 × W32 × W32) :
    decStep [k0, k1, k2, k3] s = .ok (decF k0 k1 k2 k3 s) := rfl

theorem decF_encF (k0 k1 k2 k3 : W32) (s : W32 × W32 × W32) :
    decF k0 k1 k2 k3 (encF k0 k1 k2 k3 s) = s := by
  simp only [decF, encF, BitVec.add_sub_cancel]

theorem encF_decF (k0 k1 k2 k3 : W32) (s : W32 × W32 × W32) :
    encF k0 k1 k2 k3 (decF k0 k1 k2 k3 s) = s := by
  simp only [decF, encF, BitVec.sub_add_cancel]

theorem encF_sum (k0 k1 k2 k3 : W32) : ∀ (n t : Nat) (s r : W32 × W32 × W32),
    forLoop (fun _ => encStep [k0, k1, k2, k3]) n t s = .ok r → r.1 = s.1 + BitVec.ofNat 32 n * delta
  | 0, _, s, r, h => by cases h; simp
  | n + 1, t, s, r, h => by
    rw [forLoop, encStep_eq, Out.bind_ok] at h
    rw [encF_sum k0 k1 k2 k3 n _ _ r h]
    show s.1 + delta + BitVec.ofNat 32 n * delta = _
    rw [BitVec.ofNat_add, BitVec.add_mul, BitVec.add_comm (_ * _), ← BitVec.add_assoc]
    simp

theorem decF_sum (k0 k1 k2 k3 : W32) : ∀ (n t : Nat) (s r : W32 × W32 × W32),
    forLoop (fun _ => decStep [k0, k1, k2, k3]) n t s = .ok r → r.1 + BitVec.ofNat 32 n * delta = s.1
  | 0, _, s, r, h => by cases h; simp
  | n + 1, t, s, r, h => by
    rw [forLoop, decStep_eq, Out.bind_ok] at h
    have := decF_sum k0 k1 k2 k3 n _ _ r h
    have e : (decF k0 k1 k2 k3 s).1 = s.1 - delta := rfl
    rw [e] at this
    rw [BitVec.ofNat_add, BitVec.add_mul, ← BitVec.add_assoc, this]
    simp [BitVec.sub_add_cancel]

/-- C28: the TEA block functions undo each other for every 128-bit key. -/
theorem tea_invertible (key : Bytes) (hk : key.length = 16) : Invertible 8 (encBlock key) (decBlock key) := by
  obtain ⟨k0, k1, k2, k3, rfl⟩ := block4_be32 key hk
  constructor
  · intro b hb
    obtain ⟨y, z, rfl⟩ := block2_be32 b hb
    obtain ⟨⟨sm, y', z'⟩, h1, h2⟩ := forLoop_undo _ _ _ _ (encStep_eq k0 k1 k2 k3) (decStep_eq k0 k1 k2 k3)
      (decF_encF k0 k1 k2 k3) 32 0 0 (0, y, z)
    have hs := encF_sum k0 k1 k2 k3 _ _ _ _ h1
    simp only at hs
    rw [show (0 : W32) + BitVec.ofNat 32 32 * delta = delta <<< 5 from by decide] at hs
    subst hs
    refine ⟨putBe32 y' ++ putBe32 z', ?_, rfl, ?_⟩
    · unfold encBlock
      rw [keyWords_eq, Out.bind_ok, getBe32_0, Out.bind_ok, getBe32_4', Out.bind_ok, h1]
      rfl
    · unfold decBlock
      rw [keyWords_eq, Out.bind_ok, getBe32_0, Out.bind_ok, getBe32_4', Out.bind_ok, h2]
      rfl
  · intro b hb
    obtain ⟨y, z, rfl⟩ := block2_be32 b hb
    obtain ⟨⟨sm, y', z'⟩, h1, h2⟩ := forLoop_undo _ _ _ _ (decStep_eq k0 k1 k2 k3) (encStep_eq k0 k1 k2 k3)
      (encF_decF k0 k1 k2 k3) 32 0 0 (delta <<< 5, y, z)
    have hs := decF_sum k0 k1 k2 k3 _ _ _ _ h1
    simp only at hs
    have hs : sm = 0 := by
      rw [show (delta <<< 5 : W32) = 0 + BitVec.ofNat 32 32 * delta from by decide] at hs
      have := congrArg (· - BitVec.ofNat 32 32 * delta) hs
      simpa only [BitVec.add_sub_cancel] using this
    subst hs
    refine ⟨putBe32 y' ++ putBe32 z', ?_, rfl, ?_⟩
    · unfold decBlock
      rw [keyWords_eq, Out.bind_ok, getBe32_0, Out.bind_ok, getBe32_4', Out.bind_ok, h1]
      rfl
    · unfold encBlock
      rw [keyWords_eq, Out.bind_ok, getBe32_0, Out.bind_ok, getBe32_4', Out.bind_ok, h2]
      rfl

theorem enc_loop (k0 k1 k2 k3 y z : W32) (n : Nat) :
    forLoop (fun _ => encStep [k0, k1, k2, k3]) n 0 (0, y, z) =
      .ok (BitVec.ofNat 32 (n * Spec.teaDelta), Spec.tea k0 k1 k2 k3 y z n) := by
  induction n with
  | zero => rfl
  | succ n ih =>
    rw [forLoop_snoc, ih, Out.bind_ok, encStep_eq]
    have : BitVec.ofNat 32 ((n + 1) * Spec.teaDelta) = BitVec.ofNat 32 (n * Spec.teaDelta) + delta := by
      rw [Nat.add_mul, BitVec.ofNat_add]; rfl
    simp only [Spec.tea, encF, this]

/-- C28: the encryption function is TEA with 32 cycles. -/
theorem tea_standard (k0 k1 k2 k3 y z : W32) :
    encBlock (putBe32 k0 ++ (putBe32 k1 ++ (putBe32 k2 ++ putBe32 k3))) (putBe32 y ++ putBe32 z) =
      .ok (putBe32 (Spec.tea k0 k1 k2 k3 y z 32).1 ++ putBe32 (Spec.tea k0 k1 k2 k3 y z 32).2) := by
  unfold encBlock
  rw [keyWords_eq, Out.bind_ok, getBe32_0, Out.bind_ok, getBe32_4', Out.bind_ok, enc_loop]
  rfl

/-- A published test vector: all-zero key and block. -/
example : encBlock (List.replicate 16 0) (List.replicate 8 0) =
    .ok [0x41#8, 0xEA#8, 0x3A#8, 0x0A#8, 0x94#8, 0xBA#8, 0xA9#8, 0x40#8] := by decide +kernel

/-- The ciphers of the generic modes, so that `block_mode_roundtrip` and the other theorems on block
modes apply to TEA tasks. -/
theorem tea_lawful (key : Bytes) (hk : key.length = 16) :
    Lawful (ofOut 8 (by decide) (encBlock key) (decBlock key)) := (tea_invertible key hk).lawful _

end Tea

namespace Xtea
open Tea (delta)

def kf (k0 k1 k2 k3 : W32) (i : W32) : W32 := Spec.xteaKey k0 k1 k2 k3 i.toNat

theorem rd_key (k0 k1 k2 k3 : W32) (i : W32) :
    rd [k0, k1, k2, k3] (i &&& 3#32).toNat = .ok (kf k0 k1 k2 k3 i) := by
  rw [BitVec.toNat_and, show (3#32).toNat = 2 ^ 2 - 1 from rfl, Nat.and_two_pow_sub_one_eq_mod]
  unfold kf Spec.xteaKey
  have : i.toNat % 4 = 0 ∨ i.toNat % 4 = 1 ∨ i.toNat % 4 = 2 ∨ i.toNat % 4 = 3 := by omega
  rcases this with h | h | h | h <;> simp [h, rd]

def encF (k0 k1 k2 k3 : W32) (s : W32 × W32 × W32) : W32 × W32 × W32 :=
  let v0 := s.2.1 + ((((s.2.2 <<< 4) ^^^ (s.2.2 >>> 5)) + s.2.2) ^^^ (s.1 + kf k0 k1 k2 k3 s.1))
  let sum := s.1 + delta
  (sum, v0, s.2.2 + ((((v0 <<< 4) ^^^ (v0 >>> 5)) + v0) ^^^ (sum + kf k0 k1 k2 k3 (sum >>> 11))))

def decF (k0 k1 k2 k3 : W32) (s : W32 × W32 × W32) : W32 × W32 × W32 :=
  let v1 := s.2.2 - ((((s.2.1 <<< 4) ^^^ (s.2.1 >>> 5)) + s.2.1) ^^^ (s.1 + kf k0 k1 k2 k3 (s.1 >>> 11)))
  let sum := s.1 - delta
  (sum, s.2.1 - ((((v1 <<< 4) ^^^ (v1 >>> 5)) + v1) ^^^ (sum + kf k0 k1 k2 k3 sum)), v1)

theorem encStep_eq (k0 k1 k2 k3 : W32) (s : W32 × W32 × W32) :
    encStep [k0, k1, k2, k3] s = .ok (encF k0 k1 k2 k3 s) := by
  unfold encStep
  simp only [rd_key, Out.bind_ok]
  rfl
theorem decStep_eq (k0 k1 k2 k3 : W32) (s : W32 × W32 × W32) :
    decStep [k0, k1, k2, k3] s = .ok (decF k0 k1 k2 k3 s) := by
  unfold decStep
  simp only [rd_key, Out.bind_ok]
  rfl

theorem decF_encF (k0 k1 k2 k3 : W32) (s : W32 × W32 × W32) :
    decF k0 k1 k2 k3 (encF k0 k1 k2 k3 s) = s := by
  simp only [decF, encF, BitVec.add_sub_cancel]

theorem encF_decF (k0 k1 k2 k3 : W32) (s : W32 × W32 × W32) :
    encF k0 k1 k2 k3 (decF k0 k1 k2 k3 s) = s := by
  simp only [decF, encF, BitVec.sub_add_cancel]

theorem encF_sum (k0 k1 k2 k3 : W32) : ∀ (n t : Nat) (s r : W32 × W32 × W32),
    forLoop (fun _ => encStep [k0, k1, k2, k3]) n t s = .ok r → r.1 = s.1 + BitVec.ofNat 32 n * delta
  | 0, _, s, r, h => by cases h; simp
  | n + 1, t, s, r, h => by
    rw [forLoop, encStep_eq, Out.bind_ok] at h
    rw [encF_sum k0 k1 k2 k3 n _ _ r h]
    show s.1 + delta + BitVec.ofNat 32 n * delta = _
    rw [BitVec.ofNat_add, BitVec.add_mul, BitVec.add_comm (_ * _), ← BitVec.add_assoc]
    simp

theorem decF_sum (k0 k1 k2 k3 : W32) : ∀ (n t : Nat) (s r : W32 × W32 × W32),
    forLoop (fun _ => decStep [k0, k1, k2, k3]) n t s = .ok r → r.1 + BitVec.ofNat 32 n * delta = s.1
  | 0, _, s, r, h => by cases h; simp
  | n + 1, t, s, r, h => by
    rw [forLoop, decStep_eq, Out.bind_ok] at h
    have := decF_sum k0 k1 k2 k3 n _ _ r h
    have e : (decF k0 k1 k2 k3 s).1 = s.1 - delta := rfl
    rw [e] at this
    rw [BitVec.ofNat_add, BitVec.add_mul, ← BitVec.add_assoc, this]
    simp [BitVec.sub_add_cancel]

/-- C28: the XTEA block functions undo each other for every 128-bit key and every number of rounds. -/
theorem xtea_invertible (rounds : Nat) (key : Bytes) (hk : key.length = 16) :
    Invertible 8 (encBlock rounds key) (decBlock rounds key) := by
  obtain ⟨k0, k1, k2, k3, rfl⟩ := block4_be32 key hk
  constructor
  · intro b hb
    obtain ⟨y, z, rfl⟩ := block2_be32 b hb
    obtain ⟨⟨sm, y', z'⟩, h1, h2⟩ := forLoop_undo _ _ _ _ (encStep_eq k0 k1 k2 k3) (decStep_eq k0 k1 k2 k3)
      (decF_encF k0 k1 k2 k3) rounds 0 0 (0, y, z)
    have hs := encF_sum k0 k1 k2 k3 _ _ _ _ h1
    simp only at hs
    rw [show ((0 : W32)) = 0#32 from rfl, BitVec.zero_add, BitVec.mul_comm] at hs
    subst hs
    refine ⟨putBe32 y' ++ putBe32 z', ?_, rfl, ?_⟩
    · unfold encBlock
      rw [getBe32_0, Out.bind_ok, getBe32_4', Out.bind_ok, keyWords_eq, Out.bind_ok, h1]
      rfl
    · unfold decBlock
      rw [getBe32_0, Out.bind_ok, getBe32_4', Out.bind_ok, keyWords_eq, Out.bind_ok, h2]
      rfl
  · intro b hb
    obtain ⟨y, z, rfl⟩ := block2_be32 b hb
    obtain ⟨⟨sm, y', z'⟩, h1, h2⟩ := forLoop_undo _ _ _ _ (decStep_eq k0 k1 k2 k3) (encStep_eq k0 k1 k2 k3)
      (encF_decF k0 k1 k2 k3) rounds 0 0 (delta * BitVec.ofNat 32 rounds, y, z)
    have hs := decF_sum k0 k1 k2 k3 _ _ _ _ h1
    simp only at hs
    have hs : sm = 0 := by
      rw [BitVec.mul_comm] at hs
      have := congrArg (· - delta * BitVec.ofNat 32 rounds) hs
      simp only [BitVec.add_sub_cancel, BitVec.sub_self] at this
      exact this
    subst hs
    refine ⟨putBe32 y' ++ putBe32 z', ?_, rfl, ?_⟩
    · unfold decBlock
      rw [getBe32_0, Out.bind_ok, getBe32_4', Out.bind_ok, keyWords_eq, Out.bind_ok, h1]
      rfl
    · unfold encBlock
      rw [getBe32_0, Out.bind_ok, getBe32_4', Out.bind_ok, keyWords_eq, Out.bind_ok, h2]
      rfl

theorem enc_loop (k0 k1 k2 k3 y z : W32) (n : Nat) :
    forLoop (fun _ => encStep [k0, k1, k2, k3]) n 0 (0, y, z) =
      .ok (BitVec.ofNat 32 (n * Spec.teaDelta), Spec.xtea k0 k1 k2 k3 y z n) := by
  induction n with
  | zero => rfl
  | succ n ih =>
    rw [forLoop_snoc, ih, Out.bind_ok, encStep_eq]
    have : BitVec.ofNat 32 ((n + 1) * Spec.teaDelta) = BitVec.ofNat 32 (n * Spec.teaDelta) + delta := by
      rw [Nat.add_mul, BitVec.ofNat_add]; rfl
    simp only [Spec.xtea, encF, this, kf, BitVec.toNat_ushiftRight, Nat.shiftRight_eq_div_pow]

/-- C28: the encryption function is XTEA with the given number of cycles. -/
theorem xtea_standard (rounds : Nat) (k0 k1 k2 k3 y z : W32) :
    encBlock rounds (putBe32 k0 ++ (putBe32 k1 ++ (putBe32 k2 ++ putBe32 k3))) (putBe32 y ++ putBe32 z) =
      .ok (putBe32 (Spec.xtea k0 k1 k2 k3 y z rounds).1 ++ putBe32 (Spec.xtea k0 k1 k2 k3 y z rounds).2) := by
  unfold encBlock
  rw [getBe32_0, Out.bind_ok, getBe32_4', Out.bind_ok, keyWords_eq, Out.bind_ok, enc_loop]
  rfl

/-- A published test vector, 32 rounds. -/
example : encBlock 32 ((List.range 16).map (BitVec.ofNat 8)) (ascii "ABCDEFGH") =
    .ok [0x49#8, 0x7D#8, 0xF3#8, 0xD0#8, 0x72#8, 0x61#8, 0x2C#8, 0xB5#8] := by decide +kernel

theorem xtea_lawful (rounds : Nat) (key : Bytes) (hk : key.length = 16) :
    Lawful (ofOut 8 (by decide) (encBlock rounds key) (decBlock rounds key)) :=
  (xtea_invertible rounds key hk).lawful _

end Xtea
end Kryptos
