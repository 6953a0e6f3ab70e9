import Verif.Lemmas.Md
import Verif.Model.Md5
import Verif.Props.Sha
import Verif.Lemmas.Sine
/-
  C100, MD5: the digests are those of RFC 1321.
-/
namespace Kryptos.Md5
open Spec Spec.MD Spec.Md Hash Kryptos.Md

def fn (r : Nat) : Fn := if r = 0 then .f else if r = 1 then .g else if r = 2 then .h else .i
def k (j : Nat) : Nat := md5Idx (j / 16) (j % 16)
def s (j : Nat) : Nat := (md5Shift (j / 16) (j % 16)).getD 0

/-- The constants of the code. -/
def ts : List Nat := steps.map fun p => p.t.toNat
def t (j : Nat) : W32 := BitVec.ofNat 32 (ts.getD j 0)

/-- The steps of the code, in the order of the RFC. -/
theorem steps_eq : steps = (List.range 64).map fun j => (⟨row j, fn (j / 16), k j, t j, s j⟩ : Step Fn) := by decide +kernel

theorem ks : ∀ j < 64, k j < 16 ∧ s j < 32 := by decide +kernel

theorem ts_check : Sine.check 0 0 Sine.D 0 ts = true := by decide +kernel

/-- The constants are those of the table of sines. -/
theorem const_eq : ∀ j < 64, t j = md5T j := by
  intro j hj
  have hl : j < ts.length := by rw [show ts.length = 64 from rfl]; exact hj
  have := Sine.check_sound ts 0 0 Sine.D 0 Sine.zero_approx ts_check j ts[j] (List.getElem?_eq_getElem hl)
  unfold t md5T
  rw [Nat.zero_add, Nat.cast_add, Nat.cast_one] at this
  rw [this]
  simp [List.getD, hl]

theorem fn_eq (r : Nat) (x y z : W32) : (fn r).ap x y z = md5F r x y z := by
  unfold fn md5F
  repeat' split
  all_goals rfl

theorem compress_eq (st : Four 32) (blk : Bytes) (hb : blk.length = 64) :
    compress st (ws 32 4 16 blk) = .ok (md5Compress st blk) := by
  unfold compress
  obtain ⟨r, h1, h2⟩ := steps_view line ((List.range 16).map (word blk)) (fun j => fn (j / 16)) k t s (md5Line blk) st 64 (fun j hj => by
    refine ⟨_, rd_words blk _ (ks j hj).1, fun a b c d => ?_⟩
    rw [line, rotl_rot _ _ (ks j hj).2, fn_eq, const_eq j hj]
    rfl)
  rw [revBlock_eq blk hb, Out.bind_ok, steps_eq, h1, Out.bind_ok]
  rw [show view 64 r = r from rfl] at h2
  rw [h2]
  rfl

/-- **C100** for MD5: the digest is that of RFC 1321 for every message whose length is not a positive multiple of the block size.
(Missing: positive multiples of 64 bytes, for which it is false, see `md5_rfc_fails` and `md5_aligned`.) -/
theorem md5_rfc_partial (m : Bytes) (stale : List W32) (hm : m.length < 2 ^ 61) (ha : m.length % 64 ≠ 0 ∨ m = []) :
    hash stale m false = .ok (md5 m) := by
  unfold hash hashOf
  rw [(process _ alg init compress rfl _ compress_eq m stale hm).1 ha]
  simp only [Out.bind_ok, Out.pure_eq, Bool.false_eq_true, if_false]
  rw [raw_eq, md5, init4_eq]
  rfl

/-- The positive multiples of 64 bytes: nothing is appended to the message. -/
theorem md5_aligned (m : Bytes) (stale : List W32) (hm : m.length < 2 ^ 61) (hne : m ≠ []) (ha : m.length % 64 = 0) :
    hash stale m false = .ok (output (iterate 64 (md5Compress) init4 m).words) := by
  unfold hash hashOf
  rw [(process _ alg init compress rfl _ compress_eq m stale hm).2 hne ha]
  simp only [Out.bind_ok, Out.pure_eq, Bool.false_eq_true, if_false]
  rw [raw_eq, init4_eq]
  rfl

def run (padded : Bytes) : Out Bytes := do
  let st ← (chunks 64 padded).foldlM (fun st blk => compress st (ws 32 4 16 blk)) init4
  return output st.words

theorem run_spec (m : Bytes) : run (padMd m) = .ok (md5 m) := by
  unfold run
  rw [Md.iterate_run compress _ compress_eq]
  rfl

/-- **C100** is violated for 64 bytes. -/
theorem md5_rfc_fails : ¬ ∀ m : Bytes, m.length < 2 ^ 61 → hash [] m false = .ok (md5 m) := by
  intro h
  have h1 := h (List.replicate 64 0x61#8) (by decide)
  rw [← run_spec] at h1
  exact absurd h1 (by decide +kernel)

theorem md5_hex (stale : List W32) (m raw hx : Bytes) (h1 : hash stale m false = .ok raw) (h2 : hash stale m true = .ok hx) :
    hx.map some = raw.flatMap fun b => [base16Alphabet[b.toNat / 16]?, base16Alphabet[b.toNat % 16]?] :=
  hashOf_hex (by decide) alg (fun s => s.words.map rev) 4 stale m raw hx
    (by simp only [List.flatMap_map]; exact h1) (by simp only [List.flatMap_map]; exact h2)

/-! The vectors of RFC 1321, which are also cases of the theorems. -/
example : (ascii "abc").length < 2 ^ 61 ∧ (ascii "abc").length % 64 ≠ 0 := by decide
example : hash [] [] true = .ok (ascii "D41D8CD98F00B204E9800998ECF8427E") := by decide +kernel
example : hash [] (ascii "abc") true = .ok (ascii "900150983CD24FB0D6963F7D28E17F72") := by decide +kernel
example : hash [] (ascii "12345678901234567890123456789012345678901234567890123456789012345678901234567890") true =
    .ok (ascii "57EDF4A22BE3C955AC49DA2E2107B67A") := by decide +kernel

end Kryptos.Md5
