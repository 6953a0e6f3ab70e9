import Verif.Model.Arc4
import Verif.Spec.Arc4
/-
  ARC4: conformance to RC4, involution, permutation invariant (C27).
-/
namespace Kryptos.Arc4
open Spec.Rc4

/-- The 256-byte table of a function on bytes. -/
def tab (S : Byte → Byte) : List Byte := (List.range 256).map fun i => S (BitVec.ofNat 8 i)

theorem tab_length (S : Byte → Byte) : (tab S).length = 256 := by simp [tab]

theorem rd_tab (S : Byte → Byte) (i : Nat) (hi : i < 256) : rd (tab S) i = .ok (S (BitVec.ofNat 8 i)) := by
  rw [rd_eq_ok (by rw [tab_length]; exact hi)]
  simp [tab]

theorem rd_tab_byte (S : Byte → Byte) (i : Byte) : rd (tab S) i.toNat = .ok (S i) := by
  rw [rd_tab S _ i.isLt, BitVec.ofNat_toNat, BitVec.setWidth_eq]

theorem wr_tab (S : Byte → Byte) (i v : Byte) :
    wr (tab S) i.toNat v = .ok (tab fun k => if k = i then v else S k) := by
  unfold wr
  rw [if_pos (by rw [tab_length]; exact i.isLt)]
  congr 1
  apply List.ext_getElem
  · rw [List.length_set, tab_length, tab_length]
  · intro n h1 h2
    have h2 : n < 256 := by rwa [tab_length] at h2
    rw [List.getElem_set]
    by_cases h : i.toNat = n
    · have : BitVec.ofNat 8 n = i := by rw [← h]; simp
      simp [tab, this, h]
    · rw [if_neg h]
      have : BitVec.ofNat 8 n ≠ i := by
        rintro rfl
        rw [BitVec.toNat_ofNat, Nat.mod_eq_of_lt (b := 2 ^ 8) (by omega)] at h
        exact h rfl
      simp [tab, this]

theorem exchange_tab (S : Byte → Byte) (i j : Byte) :
    exchange (tab S) i.toNat j.toNat = .ok (tab (swap S i j)) := by
  unfold exchange
  rw [rd_tab_byte, Out.bind_ok, rd_tab_byte, Out.bind_ok, wr_tab, Out.bind_ok, wr_tab]
  congr 2
  funext k
  unfold swap
  by_cases h1 : k = j
  · by_cases h2 : k = i
    · rw [if_pos h1, if_pos h2, ← h1, h2]
    · rw [if_pos h1, if_neg h2, if_pos h1]
  · rw [if_neg h1, if_neg h1]

theorem add_toNat (a b : Byte) : (a.toNat + b.toNat) % 256 = (a + b).toNat := (BitVec.toNat_add a b).symm

theorem mixStep_tab (K : Nat → Byte) (i : Nat) (hi : i < 256) (j : Byte) (S : Byte → Byte) :
    mixStep ((List.range 256).map K) i (j.toNat, tab S) =
      .ok ((j + S (BitVec.ofNat 8 i) + K i).toNat, tab (swap S (BitVec.ofNat 8 i) (j + S (BitVec.ofNat 8 i) + K i))) := by
  unfold mixStep
  simp only
  have hk : rd ((List.range 256).map K) i = .ok (K i) := by
    rw [rd_eq_ok (by simpa using hi)]; simp
  have hj : (j.toNat + (S (BitVec.ofNat 8 i)).toNat + (K i).toNat) % 256 =
      (j + S (BitVec.ofNat 8 i) + K i).toNat := by
    rw [← add_toNat, ← add_toNat]; omega
  rw [rd_tab S i hi, Out.bind_ok, hk, Out.bind_ok, hj]
  have := exchange_tab S (BitVec.ofNat 8 i) (j + S (BitVec.ofNat 8 i) + K i)
  rw [BitVec.toNat_ofNat, Nat.mod_eq_of_lt hi] at this
  rw [this]
  rfl

theorem mixLoop (K : Nat → Byte) : ∀ (n t : Nat), t + n ≤ 256 →
    forLoop (mixStep ((List.range 256).map K)) n t ((ksa K t).1.toNat, tab (ksa K t).2) =
      .ok ((ksa K (t + n)).1.toNat, tab (ksa K (t + n)).2)
  | 0, _, _ => rfl
  | n + 1, t, h => by
    rw [forLoop, mixStep_tab K t (by omega), Out.bind_ok]
    have := mixLoop K n (t + 1) (by omega)
    rw [Nat.add_assoc, Nat.add_comm 1 n] at this
    exact this

theorem ksa_zero (K : Nat → Byte) : ((0 : Nat), (List.range 256).map (BitVec.ofNat 8)) =
    ((ksa K 0).1.toNat, tab (ksa K 0).2) := rfl
theorem ksa_succ (K : Nat → Byte) (n : Nat) : (ksa K (n + 1)).2 =
    swap (ksa K n).2 (BitVec.ofNat 8 n) ((ksa K n).1 + (ksa K n).2 (BitVec.ofNat 8 n) + K n) := rfl
theorem ksa_id (K : Nat → Byte) : (ksa K 0).2 = fun i => i := rfl
attribute [local irreducible] ksa
theorem state_zero (K : Nat → Byte) : state K 0 = (0, 0, (ksa K 256).2) := rfl

/-- The key bytes, repeated as often as needed. -/
def cyc (key : Bytes) (h : key ≠ []) (i : Nat) : Byte :=
  key[i % key.length]'(Nat.mod_lt _ (List.length_pos_iff.mpr h))

theorem keySetup_eq (key : Bytes) (h : key ≠ []) :
    keySetup key = .ok ⟨0, 0, tab (ksa (cyc key h) 256).2⟩ := by
  have hl : key.length ≠ 0 := by simpa using h
  unfold keySetup
  rw [if_neg hl]
  simp only
  rw [mapM_ok _ (cyc key h) _ (fun i _ => rd_eq_ok (Nat.mod_lt _ (by omega))), Out.bind_ok]
  have := mixLoop (cyc key h) 256 0 (by omega)
  rw [ksa_zero (cyc key h), this, Nat.zero_add]
  rfl

theorem stream_eq (i j : Byte) (S : Byte → Byte) :
    stream ⟨i.toNat, j.toNat, tab S⟩ =
      let i' := i + 1
      let j' := j + S i'
      let S' := swap S i' j'
      .ok (S' (S' i' + S' j'), ⟨i'.toNat, j'.toNat, tab S'⟩) := by
  unfold stream
  simp only
  rw [show i.toNat + 1 = i.toNat + (1 : Byte).toNat from rfl, add_toNat, rd_tab_byte, Out.bind_ok, add_toNat,
    exchange_tab, Out.bind_ok, rd_tab_byte, Out.bind_ok, rd_tab_byte, Out.bind_ok, add_toNat, rd_tab_byte]
  rfl

theorem xorLoop_eq (K : Nat → Byte) : ∀ (l : Bytes) (n : Nat),
    xorLoop l ⟨(state K n).1.toNat, (state K n).2.1.toNat, tab (state K n).2.2⟩ =
      .ok ((l.zipIdx n).map fun p => p.1 ^^^ keystream K p.2)
  | [], _ => rfl
  | b :: l, n => by
    rw [xorLoop, stream_eq]
    simp only [Out.bind_ok]
    have := xorLoop_eq K l (n + 1)
    rw [show state K (n + 1) = ((state K n).1 + 1, (state K n).2.1 + (state K n).2.2 ((state K n).1 + 1),
      swap (state K n).2.2 ((state K n).1 + 1) ((state K n).2.1 + (state K n).2.2 ((state K n).1 + 1))) from rfl] at this
    simp only at this
    rw [this, Out.bind_ok]
    rfl

/-- C27: for every non-empty key and every non-empty input the output is the input xored with the RC4
key stream of the key. -/
theorem arc4_rc4 (key inp : Bytes) (hk : key ≠ []) (hi : inp ≠ []) :
    cipher (some key) (some inp) =
      .ok (.success, some (inp.zipIdx.map fun p => p.1 ^^^ keystream (cyc key hk) p.2)) := by
  unfold cipher
  simp only
  rw [if_neg (by simp [hk, hi]), keySetup_eq key hk, Out.bind_ok]
  have := xorLoop_eq (cyc key hk) inp 0
  rw [state_zero] at this
  simp only at this
  rw [show (0 : Byte).toNat = 0 from rfl] at this
  rw [this]
  rfl

/-- C27: applying the cipher twice with the same key gives the input back. -/
theorem arc4_involution (key inp : Bytes) (hk : key ≠ []) (hi : inp ≠ []) :
    ∃ c, cipher (some key) (some inp) = .ok (.success, some c) ∧ c.length = inp.length ∧
      cipher (some key) (some c) = .ok (.success, some inp) := by
  refine ⟨_, arc4_rc4 key inp hk hi, by simp, ?_⟩
  rw [arc4_rc4 key _ hk (by simpa using hi)]
  congr 3
  apply List.ext_getElem
  · simp
  · intro n h1 h2
    simp [BitVec.xor_assoc]

/-- The cipher never reads or writes outside its tables, whatever it is given. -/
theorem arc4_total (key inp : Option Bytes) : cipher key inp ≠ .ub := by
  match key, inp with
  | none, _ => simp [cipher]
  | some _, none => simp [cipher]
  | some key, some inp =>
    by_cases h : key = [] ∨ inp = []
    · simp [cipher, h]
    · rw [arc4_rc4 key inp (fun e => h (.inl e)) (fun e => h (.inr e))]
      simp

theorem swap_eq (S : Byte → Byte) (i j k : Byte) : swap S i j k = S (swap id i j k) := by
  unfold swap
  split
  · rfl
  · split <;> rfl

theorem swap_swap (i j k : Byte) : swap id i j (swap id i j k) = k := by
  unfold swap
  by_cases h1 : k = i
  · by_cases h2 : j = i <;> simp_all
  · by_cases h2 : k = j <;> simp_all

theorem swap_injective {S : Byte → Byte} (h : ∀ a b, S a = S b → a = b) (i j : Byte) :
    ∀ a b, swap S i j a = swap S i j b → a = b := by
  intro a b hab
  rw [swap_eq, swap_eq S] at hab
  rw [← swap_swap i j a, h _ _ hab, swap_swap]

theorem ksa_injective (K : Nat → Byte) : ∀ n a b, (ksa K n).2 a = (ksa K n).2 b → a = b
  | 0 => by rw [ksa_id]; exact fun _ _ h => h
  | n + 1 => by
    rw [ksa_succ]
    exact swap_injective (ksa_injective K n) _ _

theorem state_injective (K : Nat → Byte) : ∀ n a b, (state K n).2.2 a = (state K n).2.2 b → a = b
  | 0 => by rw [state_zero]; exact ksa_injective K 256
  | n + 1 => swap_injective (state_injective K n) _ _

/-- The table after `n` bytes of key stream. -/
def after (key : Bytes) : Nat → Out St
  | 0 => keySetup key
  | n + 1 => do
    let s ← after key n
    let (_, s) ← stream s
    return s

/-- C27: after the key setup and after any number of key stream bytes the table `S` holds each byte value
exactly once. -/
theorem arc4_permutation (key : Bytes) (hk : key ≠ []) (n : Nat) :
    ∃ s, after key n = .ok s ∧ s.S.length = 256 ∧ s.S.Nodup ∧ s.i < 256 ∧ s.j < 256 := by
  have heq : after key n = .ok ⟨(state (cyc key hk) n).1.toNat, (state (cyc key hk) n).2.1.toNat,
      tab (state (cyc key hk) n).2.2⟩ := by
    induction n with
    | zero => rw [state_zero]; exact keySetup_eq key hk
    | succ n ih =>
      rw [after, ih, Out.bind_ok, stream_eq]
      rfl
  refine ⟨_, heq, tab_length _, ?_, BitVec.isLt _, BitVec.isLt _⟩
  show (tab _).Nodup
  unfold tab
  rw [List.nodup_iff_pairwise_ne, List.pairwise_map]
  apply List.Pairwise.imp_of_mem (R := fun a b => a < b) ?_ List.pairwise_lt_range
  intro a b ha hb hlt e
  have := congrArg BitVec.toNat (state_injective _ n _ _ e)
  rw [BitVec.toNat_ofNat, BitVec.toNat_ofNat, Nat.mod_eq_of_lt (by simpa using ha),
    Nat.mod_eq_of_lt (by simpa using hb)] at this
  omega

/-- Published test vector: key "Key". -/
example : cipher (some (ascii "Key")) (some (ascii "Plaintext")) =
    .ok (.success, some [0xBB#8, 0xF3#8, 0x16#8, 0xE8#8, 0xD9#8, 0x40#8, 0xAF#8, 0x0A#8, 0xD3#8]) := by
  decide +kernel

end Kryptos.Arc4
