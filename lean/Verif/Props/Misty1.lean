import Verif.Model.Misty1
import Verif.Lemmas.Rot
import Verif.Props.KeyLoad
/-
  MISTY1: for every key the block functions are defined and undo each other.
-/
namespace Kryptos.Misty1
open Block KeyLoad

theorem S9_spec (n : Nat) (h : n < 512) : rd S9 n = .ok (S9.getD n 0) ∧ (S9.getD n 0).toNat < 512 := by
  have hl : S9.length = 512 := by decide +kernel
  have ha : S9.all (fun v => decide (v.toNat < 512)) = true := by decide +kernel
  refine ⟨rd_getD 0 (by omega), ?_⟩
  rw [List.all_eq_true] at ha
  have := ha (S9[n]'(by omega)) (List.getElem_mem _)
  rw [List.getD_eq_getElem?_getD, List.getElem?_eq_getElem (by omega), Option.getD_some]
  simpa using this

theorem S7_spec (n : Nat) (h : n < 128) : rd S7 n = .ok (S7.getD n 0) := by
  have hl : S7.length = 128 := by decide +kernel
  exact rd_getD 0 (by omega)

theorem and1FF_lt (x : W16) : (x &&& 0x1FF#16).toNat < 512 := by
  rw [BitVec.toNat_and, show (0x1FF#16).toNat = 2 ^ 9 - 1 from rfl, Nat.and_two_pow_sub_one_eq_mod]
  exact Nat.mod_lt _ (by decide)

theorem and7F_lt (x : W16) : (x &&& 0x7F#16).toNat < 128 := by
  rw [BitVec.toNat_and, show (0x7F#16).toNat = 2 ^ 7 - 1 from rfl, Nat.and_two_pow_sub_one_eq_mod]
  exact Nat.mod_lt _ (by decide)

/-- No lookup of `FI` leaves its table. -/
theorem FI_defined : ∃ F : W16 → W16 → W16, ∀ i k, FI i k = .ok (F i k) := by
  have : ∀ i k, ∃ y, FI i k = .ok y := by
    intro i k
    unfold FI
    obtain ⟨h1, h2⟩ := S9_spec ((i >>> 7) &&& 0x1FF#16).toNat (and1FF_lt _)
    simp only [h1, Out.bind_ok]
    have h3 : ((i &&& 0x7F#16).setWidth 8).toNat < 128 := by
      have := and7F_lt i
      rw [BitVec.toNat_setWidth]; omega
    rw [S7_spec _ h3]
    simp only [Out.bind_ok]
    have h4 : (S9.getD ((i >>> 7) &&& 0x1FF#16).toNat 0 ^^^ ((i &&& 0x7F#16).setWidth 8).setWidth 16 ^^^ (k &&& 0x1FF#16)).toNat < 512 := by
      rw [BitVec.toNat_xor, BitVec.toNat_xor]
      refine Nat.xor_lt_two_pow (n := 9) (Nat.xor_lt_two_pow h2 ?_) (and1FF_lt k)
      rw [BitVec.toNat_setWidth]
      omega
    rw [(S9_spec _ h4).1]
    exact ⟨_, rfl⟩
  exact ⟨fun i k => (this i k).choose, fun i k => (this i k).choose_spec⟩

theorem FO_defined (EK : List W16) (h : EK.length = 32) : ∃ F : W32 → Nat → W32, ∀ i k, k < 8 → FO EK i k = .ok (F i k) := by
  obtain ⟨F, hF⟩ := FI_defined
  have : ∀ i k, ∃ y, k < 8 → FO EK i k = .ok y := by
    intro i k
    by_cases hk : k < 8
    · unfold FO
      simp (disch := omega) only [rd_getD (0 : W16), hF, Out.bind_ok, Out.pure_eq]
      exact ⟨_, fun _ => rfl⟩
    · exact ⟨0, fun h => absurd h hk⟩
  exact ⟨fun i k => (this i k).choose, fun i k hk => (this i k).choose_spec hk⟩

theorem hi_join (a b : W16) : hi (join a b) = a := by
  unfold hi join
  apply BitVec.eq_of_getLsbD_eq; intro i hi
  interval_cases i <;> simp
theorem lo_join (a b : W16) : lo (join a b) = b := by
  unfold lo join
  apply BitVec.eq_of_getLsbD_eq; intro i hi
  interval_cases i <;> simp
theorem join_hi_lo (w : W32) : join (hi w) (lo w) = w := by
  unfold lo join hi
  apply BitVec.eq_of_getLsbD_eq; intro i hi
  interval_cases i <;> simp

theorem FL_defined (EK : List W16) (h : EK.length = 32) : ∃ F G : W32 → Nat → W32, ∀ k, k < 10 →
    (∀ w, FL EK w k = .ok (F w k)) ∧ (∀ w, FL_1 EK w k = .ok (G w k)) ∧ (∀ w, G (F w k) k = w) ∧ (∀ w, F (G w k) k = w) := by
  have hk : ∀ k, ∃ a o, k < 10 → kAnd EK k = .ok a ∧ kOr EK k = .ok o := by
    intro k
    by_cases hk : k < 10
    · unfold kAnd kOr
      split
      · exact ⟨_, _, fun _ => ⟨rd_getD 0 (by omega), rd_getD 0 (by omega)⟩⟩
      · exact ⟨_, _, fun _ => ⟨rd_getD 0 (by omega), rd_getD 0 (by omega)⟩⟩
    · exact ⟨0, 0, fun h => absurd h hk⟩
  choose a o hao using hk
  refine ⟨fun w k => join (hi w ^^^ ((lo w ^^^ (hi w &&& a k)) ||| o k)) (lo w ^^^ (hi w &&& a k)),
    fun w k => join (hi w ^^^ (lo w ||| o k)) (lo w ^^^ ((hi w ^^^ (lo w ||| o k)) &&& a k)), fun k hk => ?_⟩
  obtain ⟨h1, h2⟩ := hao k hk
  refine ⟨fun w => ?_, fun w => ?_, fun w => ?_, fun w => ?_⟩
  · unfold FL; rw [h1, h2]; rfl
  · unfold FL_1; rw [h1, h2]; rfl
  · simp only [hi_join, lo_join, xor_cancel_right, join_hi_lo]
  · simp only [hi_join, lo_join, xor_cancel_right, join_hi_lo]

theorem chunk_defined (i : Nat) (EK : List W16) (hi : i < 8) (h : EK.length = 32) :
    ∃ EK', chunk i EK = .ok EK' ∧ EK'.length = 32 := by
  obtain ⟨F, hF⟩ := FI_defined
  unfold chunk
  rw [rd_getD 0 (by omega), rd_getD 0 (by omega), Out.bind_ok, Out.bind_ok, hF, Out.bind_ok, wr_of_lt (by omega), Out.bind_ok,
    rd_getD 0 (by rw [List.length_set]; omega), Out.bind_ok, wr_of_lt (by rw [List.length_set]; omega), Out.bind_ok,
    rd_getD 0 (by simp only [List.length_set]; omega), Out.bind_ok, wr_of_lt (by simp only [List.length_set]; omega)]
  exact ⟨_, rfl, by simp only [List.length_set]; exact h⟩

theorem sched_defined (key : Bytes) : ∃ EK, sched key = .ok EK ∧ EK.length = 32 := by
  have hl : (ldUserKey 2 8 key).length = 8 := length_ldUserKey 2 8 key
  unfold sched
  obtain ⟨s, h1, h2⟩ := forLoop_inv chunk (fun _ s => s.length = 32) 8 0 (ldUserKey 2 8 key ++ List.replicate 24 0)
    (fun i s h1 h2 hs => chunk_defined i s (by omega) hs) (by simp [hl])
  exact ⟨s, h1, h2⟩

/-- C29 for MISTY1: every key. -/
theorem misty1_invertible (key : Bytes) : Invertible 8 (enc key) (dec key) := by
  obtain ⟨EK, h1, h2⟩ := sched_defined key
  obtain ⟨Fo, hFo⟩ := FO_defined EK h2
  obtain ⟨Fl, Gl, hL⟩ := FL_defined EK h2
  let st : W32 × W32 → Nat → W32 × W32 := fun D j =>
    (Fl D.1 (2 * j) ^^^ Fo (Fl D.2 (2 * j + 1) ^^^ Fo (Fl D.1 (2 * j)) (2 * j)) (2 * j + 1),
      Fl D.2 (2 * j + 1) ^^^ Fo (Fl D.1 (2 * j)) (2 * j))
  let un : W32 × W32 → Nat → W32 × W32 := fun D j =>
    (Gl (D.1 ^^^ Fo D.2 (2 * j + 1)) (2 * j), Gl (D.2 ^^^ Fo (D.1 ^^^ Fo D.2 (2 * j + 1)) (2 * j)) (2 * j + 1))
  have hs : ∀ j s, j < 4 → encStep EK j s = .ok (st s j) := by
    intro j s hj
    unfold encStep
    rw [(hL (2 * j) (by omega)).1, (hL (2 * j + 1) (by omega)).1]
    simp only [Out.bind_ok]
    rw [hFo _ _ (by omega)]
    simp only [Out.bind_ok]
    rw [hFo _ _ (by omega)]
    rfl
  have hu : ∀ j s, j < 4 → decStep EK j s = .ok (un s j) := by
    intro j s hj
    unfold decStep
    rw [hFo _ _ (by omega)]
    simp only [Out.bind_ok]
    rw [hFo _ _ (by omega)]
    simp only [Out.bind_ok]
    rw [(hL (2 * j) (by omega)).2.1, (hL (2 * j + 1) (by omega)).2.1]
    rfl
  have us : ∀ s j, j < 4 → un (st s j) j = s := by
    intro s j hj
    simp only [st, un, xor_cancel_right, (hL (2 * j) (by omega)).2.2.1, (hL (2 * j + 1) (by omega)).2.2.1]
  have su : ∀ s j, j < 4 → st (un s j) j = s := by
    intro s j hj
    simp only [st, un, xor_cancel_right, (hL (2 * j) (by omega)).2.2.2, (hL (2 * j + 1) (by omega)).2.2.2]
  let fin : W32 × W32 → W32 × W32 := fun D => (Fl D.2 9, Fl D.1 8)
  let unf : W32 × W32 → W32 × W32 := fun D => (Gl D.2 8, Gl D.1 9)
  refine Invertible.ofState be2 be2_surj be2_len (fun s => fin ((List.range' 0 4).foldl st s))
    (fun s => (List.range' 0 4).reverse.foldl un (unf s)) (fun s => ?_) (fun s => ?_) (fun s => ?_) (fun s => ?_)
  · unfold enc encBlock be2
    rw [h1, Out.bind_ok, getBe32_0, getBe32_4']
    simp only [Out.bind_ok]
    rw [forLoop_up0 (encStep EK) st 4 _ (fun j s hj => hs j s hj), Out.bind_ok, (hL 8 (by omega)).1, (hL 9 (by omega)).1]
    rfl
  · unfold dec decBlock be2
    rw [h1, Out.bind_ok, getBe32_0, getBe32_4']
    simp only [Out.bind_ok]
    rw [(hL 8 (by omega)).2.1, (hL 9 (by omega)).2.1]
    simp only [Out.bind_ok]
    rw [forLoop_down0 (decStep EK) un 4 _ (fun j s hj => hu j s hj)]
    rfl
  · have : ∀ s, unf (fin s) = s := by
      intro s; simp only [fin, unf, (hL 8 (by omega)).2.2.1, (hL 9 (by omega)).2.2.1]
    simp only [this]
    show un (un (un (un (st (st (st (st s 0) 1) 2) 3) 3) 2) 1) 0 = s
    rw [us _ 3 (by omega), us _ 2 (by omega), us _ 1 (by omega), us _ 0 (by omega)]
  · have : ∀ s, fin (unf s) = s := by
      intro s; simp only [fin, unf, (hL 8 (by omega)).2.2.2, (hL 9 (by omega)).2.2.2]
    show fin (st (st (st (st (un (un (un (un (unf s) 3) 2) 1) 0) 0) 1) 2) 3) = s
    rw [su _ 0 (by omega), su _ 1 (by omega), su _ 2 (by omega), su _ 3 (by omega), this]

/-- The test vector of RFC 2994. -/
example : enc [0x00, 0x11, 0x22, 0x33, 0x44, 0x55, 0x66, 0x77, 0x88, 0x99, 0xAA, 0xBB, 0xCC, 0xDD, 0xEE, 0xFF]
    [0x01, 0x23, 0x45, 0x67, 0x89, 0xAB, 0xCD, 0xEF] = .ok [0x8B, 0x1D, 0xA5, 0xF5, 0x6A, 0xB3, 0xD0, 0x7C] := by decide +kernel

end Kryptos.Misty1
