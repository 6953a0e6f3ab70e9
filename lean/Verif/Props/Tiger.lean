import Verif.Lemmas.TigerGen
import Verif.Lemmas.HashRun
import Verif.Props.Sha
/-
  C102, Tiger: the digests are those of the publication, S-boxes included, for the lengths for which they are.
-/
namespace Kryptos.Tiger
open Spec Spec.MD Hash
open Spec.Tiger (tiger padTiger output boxes cells)

theorem compress_tiger (st : Three 64) (blk : Bytes) (hb : blk.length = 64) :
    compress st (ws 64 8 8 blk) = .ok (Spec.Tiger.compress (boxes cells) st blk) := by
  rw [compress_eq st blk hb]
  unfold Spec.Tiger.compress Spec.Tiger.compressWords
  simp only [pass_congr T (boxes cells) _ _ _ _ TigerGen.boxes_eq (fun _ _ => rfl)]

theorem putLen_fix (p : Bytes) (n : Nat) (hp : p.length = 56) (hz : p.drop 48 = List.replicate 8 0#8) :
    fin alg (BitVec.ofNat 64 n) (ws 64 8 8 (p ++ List.replicate 8 0#8)) = .ok (ws 64 8 8 (p ++ le 8 n)) :=
  (congrArg (fun o => o >>= fix) (putLen64_fin 8 (by decide) p n hp)).trans (fix_fin p n hp hz)

theorem bytes_eq (x : W64) : bytes x = le 8 x.toNat := by
  rw [← be_rev, ← cpyBe_eq]
  obtain ⟨a, b, c, d, e, f, g, h, -, rfl⟩ := be64_putBe64 x
  rw [cpyBe_eq, rev_be64, be8_toNat]
  have := putBe64_be64 a b c d e f g h
  have m : ∀ v : W64, (v >>> 56).setWidth 8 = ((v >>> 56) &&& 255#64).setWidth 8 := by
    intro v
    apply BitVec.eq_of_getLsbD_eq; intro i hi
    interval_cases i <;> simp
  unfold bytes
  rw [m]
  unfold putBe64 at this
  simp only [List.cons.injEq, and_true] at this
  obtain ⟨h1, h2, h3, h4, h5, h6, h7, h8⟩ := this
  rw [h1, h2, h3, h4, h5, h6, h7, h8]

theorem output_eq (l : List W64) : l.flatMap bytes = output l := by
  unfold output
  congr 1
  funext x
  exact bytes_eq x

/-- **C102**: the digest is that of the publication for every message whose length modulo 64 is not among 48, ..., 55 and that is not a
positive multiple of 64 bytes long.  (Missing: these lengths, for which it is false, see `tiger_fails_48` and `tiger_fails_64`.) -/
theorem tiger_partial (m : Bytes) (stale : List W64) (hm : m.length < 2 ^ 61) (ha : m.length % 64 ≠ 0 ∨ m = [])
    (hb : m.length % 64 < 48 ∨ 56 ≤ m.length % 64) : hash stale m false = .ok (tiger m) := by
  have h := process_padded alg wf _ compress_tiger (le 8) (fun n => Md.le_length 8 n) (fun p => p.drop 48 = List.replicate 8 0#8)
    (fun p n hp hn hz => putLen_fix p n hp hz) (by decide) m stale hm ha (by
      intro hlt
      have hlt : m.length % 64 < 56 := hlt
      have hl : m.length % 64 < 48 := by omega
      have hle := Nat.mod_le m.length 64
      have hd : (m.drop (m.length - m.length % 64)).length = m.length % 64 := by rw [List.length_drop]; omega
      show List.drop 48 (m.drop (m.length - m.length % 64) ++ 0x01#8 :: List.replicate (56 - 1 - m.length % 64) 0#8) = _
      rw [List.drop_append, List.drop_eq_nil_of_le (by omega), hd, List.nil_append, show 48 - m.length % 64 = (47 - m.length % 64) + 1 by omega,
        List.drop_succ_cons, List.drop_replicate]
      congr 1
      omega)
  unfold hash hashOf
  rw [h]
  simp only [Out.bind_ok, Out.pure_eq, Bool.false_eq_true, if_false]
  rw [output_eq]
  rfl

/-- The positive multiples of 64 bytes: nothing is appended to the message. -/
theorem tiger_aligned (m : Bytes) (stale : List W64) (hm : m.length < 2 ^ 61) (hne : m ≠ []) (ha : m.length % 64 = 0) :
    hash stale m false = .ok (output (iterate 64 (Spec.Tiger.compress (boxes cells)) Spec.Tiger.init m).words) := by
  unfold hash hashOf
  rw [process_aligned alg wf _ compress_tiger m stale hm hne ha]
  simp only [Out.bind_ok, Out.pure_eq, Bool.false_eq_true, if_false]
  rw [output_eq]
  rfl

/-- The digest through the compression function of the code, for computations. -/
def run (padded : Bytes) : Out Bytes := do
  let st ← (chunks 64 padded).foldlM (fun st blk => compress st (ws 64 8 8 blk)) init
  return output st.words

theorem run_spec (m : Bytes) : run (padTiger m) = .ok (tiger m) := by
  unfold run tiger
  rw [run_iterate 8 8 64 (by decide) compress _ compress_tiger]
  rfl

/-- **C102** is violated for 48 bytes: the seventh word of the padded block is reversed twice. -/
theorem tiger_fails_48 : ¬ ∀ m : Bytes, m.length % 64 = 48 → hash [] m false = .ok (tiger m) := by
  intro h
  have h1 := h (List.replicate 48 0x61#8) (by decide)
  rw [← run_spec] at h1
  exact absurd h1 (by decide +kernel)

/-- **C102** is violated for 64 bytes. -/
theorem tiger_fails_64 : ¬ ∀ m : Bytes, m.length = 64 → hash [] m false = .ok (tiger m) := by
  intro h
  have h1 := h (List.replicate 64 0x61#8) (by decide)
  rw [← run_spec] at h1
  exact absurd h1 (by decide +kernel)

theorem tiger_hex (stale : List W64) (m raw hx : Bytes) (h1 : hash stale m false = .ok raw) (h2 : hash stale m true = .ok hx) :
    hx.map some = raw.flatMap fun b => [base16Alphabet[b.toNat / 16]?, base16Alphabet[b.toNat % 16]?] := by
  have e : (fun s : Three 64 => s.words.flatMap bytes) = fun s => (s.words.map rev).flatMap (cpyBe 8) := by
    funext s
    rw [List.flatMap_map]
    congr 1
    funext x
    rw [bytes_eq, cpyBe_eq, be_rev]
  unfold hash at h1 h2
  rw [e] at h1 h2
  exact hashOf_hex (by decide) alg (fun s => s.words.map rev) 8 stale m raw hx h1 (by simp only [List.flatMap_map]; exact h2)

/-! The vectors of the authors of Tiger, which are also cases of the theorems. -/
example : (ascii "abc").length < 2 ^ 61 ∧ (ascii "abc").length % 64 ≠ 0 ∧ (ascii "abc").length % 64 < 48 := by decide
example : hash [] [] true = .ok (ascii "3293AC630C13F0245F92BBB1766E16167A4E58492DDE73F3") := by decide +kernel
example : hash [] (ascii "abc") true = .ok (ascii "2AAB1484E8C158F2BFB8C5FF41B57A525129131C957B5F93") := by decide +kernel
example : hash [] (ascii "12345678901234567890123456789012345678901234567890123456789012345678901234567890") true =
    .ok (ascii "1C14795529FD9F207A958F84C52F11E887FA0CABDFD91BFD") := by decide +kernel

end Kryptos.Tiger
