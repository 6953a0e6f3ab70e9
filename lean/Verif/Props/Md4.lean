import Verif.Lemmas.Md
import Verif.Model.Md4
import Verif.Props.Sha
/-
  C100, MD4: the digests are those of RFC 1320.
-/
namespace Kryptos.Md4
open Spec Spec.MD Spec.Md Hash Kryptos.Md

def fn (r : Nat) : Fn := if r = 0 then .f else if r = 1 then .g else .h
def k (j : Nat) : Nat := (md4Idx (j / 16) (j % 16)).getD 0
def s (j : Nat) : Nat := (md4Shift (j / 16) (j % 16)).getD 0
def t (j : Nat) : W32 := if j / 16 = 0 then 0x00000000#32 else if j / 16 = 1 then 0x5A827999#32 else 0x6ED9EBA1#32

/-- The steps of the code, in the order of the RFC. -/
theorem steps_eq : steps = (List.range 48).map fun j => (⟨row j, fn (j / 16), k j, t j, s j⟩ : Step Fn) := by decide +kernel

theorem ks : ∀ j < 48, k j < 16 ∧ s j < 32 := by decide +kernel

/-- The constants are the roots of 2 and 3. -/
theorem const_eq {K : Nat → Nat} (h : IsMd4K K) : ∀ j < 48, t j = BitVec.ofNat 32 (K (j / 16)) := by
  obtain ⟨h0, h1, h2⟩ := h
  have e1 : K 1 = 0x5A827999 := root_unique h1 (by unfold IsRoot; decide)
  have e2 : K 2 = 0x6ED9EBA1 := root_unique h2 (by unfold IsRoot; decide)
  intro j hj
  unfold t
  obtain h | h | h : j / 16 = 0 ∨ j / 16 = 1 ∨ j / 16 = 2 := by omega
  · rw [h, h0]; rfl
  · rw [h, e1]; rfl
  · rw [h, e2]; rfl

theorem fn_eq (r : Nat) (x y z : W32) : (fn r).ap x y z = md4F r x y z := by
  unfold fn md4F
  split
  · rfl
  · split <;> rfl

theorem compress_eq {K : Nat → Nat} (h : IsMd4K K) (st : Four 32) (blk : Bytes) (hb : blk.length = 64) :
    compress st (ws 32 4 16 blk) = .ok (md4Compress K st blk) := by
  unfold compress
  obtain ⟨r, h1, h2⟩ := steps_view line ((List.range 16).map (word blk)) (fun j => fn (j / 16)) k t s (md4Line K blk) st 48 (fun j hj => by
    refine ⟨_, rd_words blk _ (ks j hj).1, fun a b c d => ?_⟩
    rw [line, rotl_rot _ _ (ks j hj).2, fn_eq, const_eq h j hj]
    rfl)
  rw [revBlock_eq blk hb, Out.bind_ok, steps_eq, h1, Out.bind_ok]
  rw [show view 48 r = r from rfl] at h2
  rw [h2]
  rfl

/-- There are such constants. -/
theorem isMd4K : IsMd4K fun r => if r = 0 then 0 else if r = 1 then 0x5A827999 else 0x6ED9EBA1 := by
  unfold IsMd4K IsRoot; decide

/-- **C100** for MD4: the digest is that of RFC 1320 for every message whose length is not a positive multiple of the block size.
(Missing: positive multiples of 64 bytes, for which it is false, see `md4_rfc_fails` and `md4_aligned`.) -/
theorem md4_rfc_partial (m : Bytes) (stale : List W32) (hm : m.length < 2 ^ 61) (ha : m.length % 64 ≠ 0 ∨ m = []) :
    ∃ d, hash stale m false = .ok d ∧ Spec.Md.Md4 m d := by
  refine ⟨_, ?_, _, isMd4K, rfl⟩
  unfold hash hashOf
  rw [(process _ alg init compress rfl _ (compress_eq isMd4K) m stale hm).1 ha]
  simp only [Out.bind_ok, Out.pure_eq, Bool.false_eq_true, if_false]
  rw [raw_eq, init4_eq]
  rfl

/-- There is one digest only. -/
theorem md4_functional {m d d' : Bytes} (h : Spec.Md.Md4 m d) (h' : Spec.Md.Md4 m d') : d = d' := by
  obtain ⟨K, hK, rfl⟩ := h
  obtain ⟨K', hK', rfl⟩ := h'
  have h1 := Md.iterate_run compress _ (compress_eq hK) (padMd m) init4
  rw [Md.iterate_run compress _ (compress_eq hK') (padMd m) init4] at h1
  rw [Out.ok.inj h1]

/-- The positive multiples of 64 bytes: nothing is appended to the message. -/
theorem md4_aligned {K : Nat → Nat} (h : IsMd4K K) (m : Bytes) (stale : List W32) (hm : m.length < 2 ^ 61) (hne : m ≠ []) (ha : m.length % 64 = 0) :
    hash stale m false = .ok (output (iterate 64 (md4Compress K) init4 m).words) := by
  unfold hash hashOf
  rw [(process _ alg init compress rfl _ (compress_eq h) m stale hm).2 hne ha]
  simp only [Out.bind_ok, Out.pure_eq, Bool.false_eq_true, if_false]
  rw [raw_eq, init4_eq]
  rfl

def run (padded : Bytes) : Out Bytes := do
  let st ← (chunks 64 padded).foldlM (fun st blk => compress st (ws 32 4 16 blk)) init4
  return output st.words

theorem run_spec {m d : Bytes} (h : Spec.Md.Md4 m d) : run (padMd m) = .ok d := by
  obtain ⟨K, hK, rfl⟩ := h
  unfold run
  rw [Md.iterate_run compress _ (compress_eq hK)]
  rfl

/-- **C100** is violated for 64 bytes. -/
theorem md4_rfc_fails : ¬ ∀ m : Bytes, m.length < 2 ^ 61 → ∃ d, hash [] m false = .ok d ∧ Spec.Md.Md4 m d := by
  intro h
  obtain ⟨d, h1, h2⟩ := h (List.replicate 64 0x61#8) (by decide)
  rw [← run_spec h2] at h1
  exact absurd h1 (by decide +kernel)

theorem md4_hex (stale : List W32) (m raw hx : Bytes) (h1 : hash stale m false = .ok raw) (h2 : hash stale m true = .ok hx) :
    hx.map some = raw.flatMap fun b => [base16Alphabet[b.toNat / 16]?, base16Alphabet[b.toNat % 16]?] :=
  hashOf_hex (by decide) alg (fun s => s.words.map rev) 4 stale m raw hx
    (by simp only [List.flatMap_map]; exact h1) (by simp only [List.flatMap_map]; exact h2)

/-! The vectors of RFC 1320, which are also cases of the theorems. -/
example : (ascii "abc").length < 2 ^ 61 ∧ (ascii "abc").length % 64 ≠ 0 := by decide
example : hash [] [] true = .ok (ascii "31D6CFE0D16AE931B73C59D7E0C089C0") := by decide +kernel
example : hash [] (ascii "abc") true = .ok (ascii "A448017AAF21D8525FC10AE87AA6729D") := by decide +kernel
example : hash [] (ascii "12345678901234567890123456789012345678901234567890123456789012345678901234567890") true =
    .ok (ascii "E33B4DDC9C38F2199C3E7B164FCC0536") := by decide +kernel

end Kryptos.Md4
