import Verif.Model.Random
import Verif.Lemmas.Endian
import Mathlib.Logic.Equiv.Basic
import Mathlib.Logic.Equiv.Fin.Basic
import Mathlib.SetTheory.Cardinal.Finite
import Mathlib.Data.Fintype.Pi
/-
  Bounded random numbers (C45).
-/
namespace Kryptos.Random

/-- What is done with the successive words of `w` bits: the first one below the limit is reduced. -/
def pick {w : Nat} (n : Nat) : List (BitVec w) → Option Nat
  | [] => none
  | r :: l => if limit (2 ^ w - 1) n ≤ r.toNat then pick n l else some (r.toNat % n)

theorem u8Loop_pick (n : Nat) : ∀ ws : List (BitVec 8), (u8Loop n ws).map (·.1) = pick n ws
  | [] => rfl
  | r :: l => by
    rw [u8Loop, pick, show 2 ^ 8 - 1 = 0xFF from rfl]
    split
    · exact u8Loop_pick n l
    · rfl

theorem u16Loop_pick (n : Nat) : ∀ ws : List (BitVec 16), (u16Loop n (ws.flatMap putBe16)).map (·.1) = pick n ws
  | [] => rfl
  | r :: l => by
    obtain ⟨a, b, h1, h2⟩ := be16_putBe16 r
    rw [List.flatMap_cons, h1, pick, show 2 ^ 16 - 1 = 0xFFFF from rfl, List.cons_append, List.cons_append,
      List.nil_append, u16Loop, h2]
    split
    · exact u16Loop_pick n l
    · rfl

theorem u32Loop_pick (n : Nat) : ∀ ws : List (BitVec 32), (u32Loop n (ws.flatMap putBe32)).map (·.1) = pick n ws
  | [] => rfl
  | r :: l => by
    obtain ⟨a, b, c, d, h1, h2⟩ := be32_putBe32 r
    rw [List.flatMap_cons, h1, pick, show 2 ^ 32 - 1 = 0xFFFFFFFF from rfl]
    simp only [List.cons_append, List.nil_append]
    rw [u32Loop, h2]
    split
    · exact u32Loop_pick n l
    · rfl

theorem u64Loop_pick (n : Nat) : ∀ ws : List (BitVec 64), (u64Loop n (ws.flatMap putBe64)).map (·.1) = pick n ws
  | [] => rfl
  | r :: l => by
    obtain ⟨a, b, c, d, e, f, g, h, h1, h2⟩ := be64_putBe64 r
    rw [List.flatMap_cons, h1, pick, show 2 ^ 64 - 1 = 0xFFFFFFFFFFFFFFFF from rfl]
    simp only [List.cons_append, List.nil_append]
    rw [u64Loop, h2]
    split
    · exact u64Loop_pick n l
    · rfl

/-! ### Range -/

/-- **Every result is below the bound.** -/
theorem pick_lt {w : Nat} (n : Nat) (hn : 0 < n) : ∀ (ws : List (BitVec w)) (k : Nat), pick n ws = some k → k < n
  | [], _, h => by cases h
  | r :: l, k, h => by
    rw [pick] at h
    split at h
    · exact pick_lt n hn l k h
    · cases h; exact Nat.mod_lt _ hn

/-! ### Uniformity -/

/-- The exchange of the residues `k` and `k'`. -/
def sw (k k' s : Nat) : Nat := if s = k then k' else if s = k' then k else s

theorem sw_sw (k k' s : Nat) : sw k k' (sw k k' s) = s := by
  unfold sw; split <;> split <;> (try split) <;> omega

theorem sw_lt (n k k' s : Nat) (hk : k < n) (hk' : k' < n) (hs : s < n) : sw k k' s < n := by
  unfold sw; split
  · exact hk'
  · split <;> omega

/-- The exchange of the residues among the accepted values. -/
def swr (L n k k' r : Nat) : Nat := if r < L then r / n * n + sw k k' (r % n) else r

theorem swr_lt (q n k k' r : Nat) (hk : k < n) (hk' : k' < n) : r < q * n ↔ swr (q * n) n k k' r < q * n := by
  have hn : 0 < n := by omega
  unfold swr
  constructor
  · intro h
    rw [if_pos h]
    have h1 : r / n < q := by rw [Nat.div_lt_iff_lt_mul hn]; exact h
    have h2 := sw_lt n k k' (r % n) hk hk' (Nat.mod_lt _ hn)
    have h3 : (r / n + 1) * n ≤ q * n := Nat.mul_le_mul_right n h1
    rw [Nat.succ_mul] at h3
    omega
  · intro h
    split at h
    · assumption
    · exact h

theorem swr_mod (q n k k' r : Nat) (hk : k < n) (hk' : k' < n) (h : r < q * n) :
    swr (q * n) n k k' r % n = sw k k' (r % n) := by
  have hn : 0 < n := by omega
  unfold swr
  rw [if_pos h, Nat.mul_comm, Nat.mul_add_mod, Nat.mod_eq_of_lt (sw_lt n k k' _ hk hk' (Nat.mod_lt _ hn))]

theorem swr_swr (q n k k' r : Nat) (hk : k < n) (hk' : k' < n) : swr (q * n) n k k' (swr (q * n) n k k' r) = r := by
  have hn : 0 < n := by omega
  by_cases h : r < q * n
  · have h1 := (swr_lt q n k k' r hk hk').mp h
    have h2 : swr (q * n) n k k' r = r / n * n + sw k k' (r % n) := by unfold swr; rw [if_pos h]
    have h3 : swr (q * n) n k k' r / n = r / n := by
      rw [h2, Nat.mul_comm, Nat.mul_add_div hn, Nat.div_eq_of_lt (sw_lt n k k' _ hk hk' (Nat.mod_lt _ hn)), Nat.add_zero]
    have h4 := swr_mod q n k k' r hk hk' h
    rw [show swr (q * n) n k k' (swr (q * n) n k k' r) = swr (q * n) n k k' r / n * n +
      sw k k' (swr (q * n) n k k' r % n) from if_pos h1, h3, h4, sw_sw, Nat.mul_comm]
    exact Nat.div_add_mod r n
  · have e : swr (q * n) n k k' r = r := by unfold swr; rw [if_neg h]
    rw [e, e]

theorem limit_eq (M n : Nat) : limit M n = M / n * n := by
  unfold limit
  have := Nat.div_add_mod M n
  rw [Nat.mul_comm] at this
  omega

theorem limit_le (M n : Nat) : limit M n ≤ M := Nat.sub_le _ _

theorem swr_bound (w n k k' r : Nat) (hk : k < n) (hk' : k' < n) (hr : r < 2 ^ w) :
    swr (limit (2 ^ w - 1) n) n k k' r < 2 ^ w := by
  by_cases h : r < limit (2 ^ w - 1) n
  · have hl := limit_le (2 ^ w - 1) n
    rw [limit_eq] at h hl ⊢
    have := (swr_lt _ n k k' r hk hk').mp h
    omega
  · unfold swr; rw [if_neg h]; exact hr

/-- The permutation of the words of `w` bits which exchanges the residues `k` and `k'`. -/
def perm (w n k k' : Nat) (hk : k < n) (hk' : k' < n) : Equiv.Perm (BitVec w) where
  toFun r := BitVec.ofNat w (swr (limit (2 ^ w - 1) n) n k k' r.toNat)
  invFun r := BitVec.ofNat w (swr (limit (2 ^ w - 1) n) n k k' r.toNat)
  left_inv r := by
    apply BitVec.eq_of_toNat_eq
    rw [BitVec.toNat_ofNat, BitVec.toNat_ofNat, Nat.mod_eq_of_lt (swr_bound w n k k' _ hk hk' r.isLt), limit_eq,
      swr_swr _ _ _ _ _ hk hk', Nat.mod_eq_of_lt r.isLt]
  right_inv r := by
    apply BitVec.eq_of_toNat_eq
    rw [BitVec.toNat_ofNat, BitVec.toNat_ofNat, Nat.mod_eq_of_lt (swr_bound w n k k' _ hk hk' r.isLt), limit_eq,
      swr_swr _ _ _ _ _ hk hk', Nat.mod_eq_of_lt r.isLt]

theorem perm_toNat (w n k k' : Nat) (hk : k < n) (hk' : k' < n) (r : BitVec w) :
    (perm w n k k' hk hk' r).toNat = swr (limit (2 ^ w - 1) n) n k k' r.toNat := by
  show (BitVec.ofNat w _).toNat = _
  rw [BitVec.toNat_ofNat, Nat.mod_eq_of_lt (swr_bound w n k k' _ hk hk' r.isLt)]

theorem pick_perm (w n k k' : Nat) (hk : k < n) (hk' : k' < n) : ∀ ws : List (BitVec w),
    pick n (ws.map (perm w n k k' hk hk')) = (pick n ws).map (sw k k')
  | [] => rfl
  | r :: l => by
    rw [List.map_cons, pick, pick, perm_toNat]
    by_cases h : limit (2 ^ w - 1) n ≤ r.toNat
    · rw [if_pos h, if_pos, pick_perm w n k k' hk hk' l]
      rw [show swr (limit (2 ^ w - 1) n) n k k' r.toNat = r.toNat by unfold swr; rw [if_neg (by omega)]]
      exact h
    · rw [if_neg h]
      rw [limit_eq] at h ⊢
      have h1 := (swr_lt _ n k k' r.toNat hk hk').mp (Nat.lt_of_not_le h)
      rw [if_neg (by omega), swr_mod _ n k k' _ hk hk' (Nat.lt_of_not_le h)]
      rfl

/-- **Uniformity** (C45): for any two residues there is a permutation of the words which carries the sequences of draws
giving the one onto the sequences giving the other.  As the draws are independent and uniform, both residues have
the same probability. -/
theorem pick_uniform (w n k k' : Nat) (hk : k < n) (hk' : k' < n) :
    ∃ σ : Equiv.Perm (BitVec w), ∀ ws, pick n ws = some k ↔ pick n (ws.map σ) = some k' := by
  refine ⟨perm w n k k' hk hk', fun ws => ?_⟩
  rw [pick_perm]
  constructor
  · intro h; rw [h]; simp [sw]
  · intro h
    cases hp : pick n ws with
    | none => rw [hp] at h; cases h
    | some s =>
      rw [hp] at h
      have h : sw k k' s = k' := Option.some.inj h
      have := sw_sw k k' s
      rw [h] at this
      rw [← this]
      unfold sw
      split
      · rename_i e; rw [e]
      · rw [if_pos rfl]

/-- The same as a count: among the sequences of `m` words, equally many give `k` as give `k'`. -/
theorem pick_count (w n k k' m : Nat) (hk : k < n) (hk' : k' < n) :
    Nat.card { f : Fin m → BitVec w // pick n (List.ofFn f) = some k } =
      Nat.card { f : Fin m → BitVec w // pick n (List.ofFn f) = some k' } := by
  obtain ⟨σ, h⟩ := pick_uniform w n k k' hk hk'
  refine Nat.card_congr (Equiv.subtypeEquiv (Equiv.arrowCongr (Equiv.refl _) σ) fun f => ?_)
  rw [h, List.map_ofFn]
  rfl

/-- **The four functions**, in terms of the words of which the byte stream consists. -/
theorem rand_mod_uniform (n k k' : Nat) (hk : k < n) (hk' : k' < n) :
    (∃ σ : Equiv.Perm (BitVec 8), ∀ ws, (u8Loop n ws).map (·.1) = some k ↔ (u8Loop n (ws.map σ)).map (·.1) = some k') ∧
    (∃ σ : Equiv.Perm (BitVec 16), ∀ ws : List (BitVec 16), (u16Loop n (ws.flatMap putBe16)).map (·.1) = some k ↔
      (u16Loop n ((ws.map σ).flatMap putBe16)).map (·.1) = some k') ∧
    (∃ σ : Equiv.Perm (BitVec 32), ∀ ws : List (BitVec 32), (u32Loop n (ws.flatMap putBe32)).map (·.1) = some k ↔
      (u32Loop n ((ws.map σ).flatMap putBe32)).map (·.1) = some k') ∧
    (∃ σ : Equiv.Perm (BitVec 64), ∀ ws : List (BitVec 64), (u64Loop n (ws.flatMap putBe64)).map (·.1) = some k ↔
      (u64Loop n ((ws.map σ).flatMap putBe64)).map (·.1) = some k') := by
  refine ⟨?_, ?_, ?_, ?_⟩
  · obtain ⟨σ, h⟩ := pick_uniform 8 n k k' hk hk'
    exact ⟨σ, fun ws => by rw [u8Loop_pick, u8Loop_pick]; exact h ws⟩
  · obtain ⟨σ, h⟩ := pick_uniform 16 n k k' hk hk'
    exact ⟨σ, fun ws => by rw [u16Loop_pick, u16Loop_pick]; exact h ws⟩
  · obtain ⟨σ, h⟩ := pick_uniform 32 n k k' hk hk'
    exact ⟨σ, fun ws => by rw [u32Loop_pick, u32Loop_pick]; exact h ws⟩
  · obtain ⟨σ, h⟩ := pick_uniform 64 n k k' hk hk'
    exact ⟨σ, fun ws => by rw [u64Loop_pick, u64Loop_pick]; exact h ws⟩

/-- **Progress**: when `n` is at most the greatest word, more than half of the words are accepted, and every
residue is given by some word. -/
theorem pick_progress (w n : Nat) (hn : 0 < n) (hw : n ≤ 2 ^ w - 1) :
    2 ^ w - 1 < 2 * limit (2 ^ w - 1) n ∧ ∀ k, k < n → ∃ r : BitVec w, pick n [r] = some k := by
  have h1 : 1 ≤ (2 ^ w - 1) / n := by rw [Nat.le_div_iff_mul_le hn]; omega
  have h2 : n ≤ limit (2 ^ w - 1) n := by
    rw [limit_eq]
    calc n = 1 * n := (Nat.one_mul n).symm
      _ ≤ _ := Nat.mul_le_mul_right n h1
  refine ⟨?_, fun k hk => ⟨BitVec.ofNat w k, ?_⟩⟩
  · have := Nat.mod_lt (2 ^ w - 1) hn
    unfold limit at h2 ⊢
    omega
  · have := limit_le (2 ^ w - 1) n
    rw [pick, BitVec.toNat_ofNat, Nat.mod_eq_of_lt (a := k) (by omega), if_neg (by omega), Nat.mod_eq_of_lt hk]

/-- **No progress**: when `n` exceeds the greatest word the loop never ends.  The case `n = 256` of the 8-bit function is a
legitimate request: a whole random byte. -/
theorem pick_stuck (w n : Nat) (hw : 2 ^ w - 1 < n) : ∀ ws : List (BitVec w), pick n ws = none
  | [] => rfl
  | r :: l => by
    rw [pick, if_pos, pick_stuck w n hw l]
    unfold limit
    rw [Nat.mod_eq_of_lt hw]
    omega

theorem u8_256_hangs (bs : Bytes) : u8 256 bs = .ok none := by
  have := u8Loop_pick 256 bs
  rw [pick_stuck 8 256 (by decide)] at this
  unfold u8
  rw [if_neg (by decide)]
  cases h : u8Loop 256 bs with
  | none => rfl
  | some p => rw [h] at this; cases this

/-- A bound of zero divides by zero. -/
theorem zero_unsafe (bs : Bytes) : u8 0 bs = .ub ∧ u16 0 bs = .ub ∧ u32 0 bs = .ub ∧ u64 0 bs = .ub := ⟨rfl, rfl, rfl, rfl⟩

/-- **The Linux kernel variant is wrong**: it leaves the high half of the drawn word in the result, which exceeds any bound
that fits in 32 bits whenever that half is not zero. -/
theorem u64Kernel_out_of_range (n : Nat) (a b c d e f g h : Byte) (l : Bytes) (hn : 0 < n) (hn' : n < 2 ^ 32)
    (hr : 2 ^ 32 ≤ (be64 a b c d e f g h).toNat)
    (hlim : (be64 a b c d e f g h).toNat < limit 0xFFFFFFFFFFFFFFFF n) :
    ∃ v, u64Kernel n (a :: b :: c :: d :: e :: f :: g :: h :: l) = .ok (some (v, l)) ∧ n < v := by
  refine ⟨(be64 a b c d e f g h).toNat / 2 ^ 32 * 2 ^ 32 + (be64 a b c d e f g h).toNat % n, ?_, ?_⟩
  · unfold u64Kernel
    rw [Nat.mod_eq_of_lt hn', if_neg (by omega), u64KernelLoop]
    simp only [Nat.mod_eq_of_lt hn']
    rw [if_neg (by omega)]
  · have : 1 ≤ (be64 a b c d e f g h).toNat / 2 ^ 32 := by
      rw [Nat.le_div_iff_mul_le (by decide)]; omega
    omega

/-- A draw meeting the hypotheses: the bound 10 and the word 1 00000003 (hexadecimal). -/
example : u64Kernel 10 [0, 0, 0, 1, 0, 0, 0, 3] = .ok (some (4294967305, [])) := by decide +kernel

end Kryptos.Random
