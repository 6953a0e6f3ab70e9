import Verif.Lemmas.Whirlpool
import Verif.Lemmas.HashRun
import Verif.Props.Sha
/-
  C103, Whirlpool: the tables are those of the mini-boxes and of the circulant matrix, and the digests are the published ones for the
  lengths for which they are.
-/
namespace Kryptos.Whirlpool
open Spec Spec.MD Hash
open Spec.Whirlpool (whirlpool padW out)

theorem wf : Wf alg := ⟨by decide, by decide, by decide, by unfold TabOk; decide +kernel, by decide, by decide⟩

theorem be32 (n : Nat) (hn : n < 2 ^ 64) : be 32 n = List.replicate 24 0#8 ++ be 8 n := by
  rw [show (32 : Nat) = 24 + 8 from rfl, be_add]
  rw [show n / 256 ^ 8 = 0 from Nat.div_eq_of_lt (by omega)]
  rfl

theorem putLen_fin (p : Bytes) (n : Nat) (hp : p.length = 32) (hn : n < 2 ^ 64) :
    fin alg (BitVec.ofNat 64 n) (ws 64 8 8 (p ++ List.replicate 32 0#8)) = .ok (ws 64 8 8 (p ++ be 32 n)) := by
  have h := putLen64_fin 8 (by decide) (p ++ List.replicate 24 0#8) n (by simp [hp])
  rw [List.append_assoc, List.append_assoc, ← be32 n hn] at h
  exact congrArg (fun o => o >>= Out.ok) h

theorem iterate_sim (l : List Bytes) : ∀ s : Eight 64,
    toMat (l.foldl (fun s blk => ofMat (Spec.Whirlpool.compress (toMat s) blk)) s) = l.foldl Spec.Whirlpool.compress (toMat s) := by
  induction l with
  | nil => intro s; rfl
  | cons x l ih =>
    intro s
    rw [List.foldl_cons, ih, toMat_ofMat]
    rfl

theorem output_eq (s : Eight 64) : s.words.flatMap (cpyBe 8) = out (toMat s) := by
  conv_lhs => rw [← ofMat_toMat s]
  unfold out ofMat Eight.words
  simp only [List.flatMap_cons, List.flatMap_nil, bytes_row]
  rfl

theorem init_eq : toMat init = fun _ _ => 0 := by
  funext i j
  fin_cases i <;> fin_cases j <;> rfl

theorem digest_eq (p : Bytes) :
    (iterate 64 (fun s blk => ofMat (Spec.Whirlpool.compress (toMat s) blk)) init p).words.flatMap (cpyBe 8) =
      out (iterate 64 Spec.Whirlpool.compress (fun _ _ => 0) p) := by
  rw [output_eq]
  unfold iterate
  rw [iterate_sim, init_eq]

/-- **C103**: the digest is that of the publication for every message that is not a positive multiple of 64 bytes long.  (Missing: these,
for which it is false, see `whirlpool_fails`.) -/
theorem whirlpool_partial (m : Bytes) (stale : List W64) (hm : m.length < 2 ^ 61) (ha : m.length % 64 ≠ 0 ∨ m = []) :
    hash stale m false = .ok (whirlpool m) := by
  have h := process_padded alg wf _ compress_eq (MD.be 32) (fun n => be_length 32 n) (fun _ => True)
    (fun p n hp hn _ => putLen_fin p n hp hn) trivial m stale hm ha (fun _ => trivial)
  unfold hash hashOf
  rw [h]
  simp only [Out.bind_ok, Out.pure_eq, Bool.false_eq_true, if_false]
  exact congrArg Out.ok (digest_eq _)

/-- The positive multiples of 64 bytes: nothing is appended to the message. -/
theorem whirlpool_aligned (m : Bytes) (stale : List W64) (hm : m.length < 2 ^ 61) (hne : m ≠ []) (ha : m.length % 64 = 0) :
    hash stale m false = .ok (out (iterate 64 Spec.Whirlpool.compress (fun _ _ => 0) m)) := by
  unfold hash hashOf
  rw [process_aligned alg wf _ compress_eq m stale hm hne ha]
  simp only [Out.bind_ok, Out.pure_eq, Bool.false_eq_true, if_false]
  exact congrArg Out.ok (digest_eq _)

/-- A message and its padded form have the same digest: collisions for every message shorter than 2^61 - 64 bytes. -/
theorem whirlpool_collision (m : Bytes) (stale stale' : List W64) (hm : m.length + 64 + 64 < 2 ^ 61) (ha : m.length % 64 ≠ 0 ∨ m = []) :
    hash stale m false = hash stale' (padW m) false ∧ m ≠ padW m := by
  have hl : (padW m).length % 64 = 0 ∧ m.length < (padW m).length ∧ (padW m).length < 2 ^ 61 := by
    unfold padW pad
    simp only [List.length_append, List.length_cons, List.length_replicate, be_length]
    omega
  refine ⟨?_, fun h => ?_⟩
  · rw [whirlpool_partial m stale (by omega) ha, whirlpool_aligned _ stale' hl.2.2 (by intro h; rw [h] at hl; simp at hl) hl.1]
    rfl
  · rw [← h] at hl
    omega

/-- The digest through the compression function of the code, for computations. -/
def run (padded : Bytes) : Out Bytes := do
  let st ← (chunks 64 padded).foldlM (fun st blk => compress st (ws 64 8 8 blk)) init
  return st.words.flatMap (cpyBe 8)

theorem run_spec (m : Bytes) : run (padW m) = .ok (whirlpool m) := by
  unfold run
  rw [run_iterate 8 8 64 (by decide) compress _ compress_eq]
  exact congrArg Out.ok (digest_eq _)

/-- **C103** is violated for 64 bytes. -/
theorem whirlpool_fails : ¬ ∀ m : Bytes, m.length = 64 → hash [] m false = .ok (whirlpool m) := by
  intro h
  have h1 := h (List.replicate 64 0x61#8) (by decide)
  rw [← run_spec] at h1
  exact absurd h1 (by decide +kernel)

theorem whirlpool_hex (stale : List W64) (m raw hx : Bytes) (h1 : hash stale m false = .ok raw) (h2 : hash stale m true = .ok hx) :
    hx.map some = raw.flatMap fun b => [base16Alphabet[b.toNat / 16]?, base16Alphabet[b.toNat % 16]?] :=
  hashOf_hex (by decide) alg (fun s => s.words) 8 stale m raw hx h1 h2

/-! Vectors of ISO/IEC 10118-3, which are also cases of the theorems. -/
example : (ascii "abc").length < 2 ^ 61 ∧ (ascii "abc").length % 64 ≠ 0 ∧ (ascii "abc").length + 64 + 64 < 2 ^ 61 := by decide
example : hash [] (ascii "abc") true = .ok (ascii ("4E2448A4C6F486BB16B6562C73B4020BF3043E3A731BCE721AE1B303D97E6D4C" ++
    "7181EEBDB6C57E277D0E34957114CBD6C797FC9D95D8B582D225292076D4EEF5")) := by decide +kernel

end Kryptos.Whirlpool
