import Verif.Lemmas.Hash
/- The iteration of a hash function through another, proved equal, compression function, for computations. -/
namespace Kryptos.Hash
open Spec Spec.MD

theorem run_iterate {w : Nat} {σ : Type} (wb nr B : Nat) (hB : 0 < B) (comp : σ → List (BitVec w) → Out σ) (f : σ → Bytes → σ)
    (h : ∀ st blk, blk.length = B → comp st (ws w wb nr blk) = .ok (f st blk)) (p : Bytes) :
    ∀ st, (chunks B p).foldlM (fun st blk => comp st (ws w wb nr blk)) st = .ok (iterate B f st p) := by
  have hc : ∀ x ∈ chunks B p, x.length = B := by
    intro x hx
    obtain ⟨i, hi, rfl⟩ := List.mem_map.1 hx
    rw [List.mem_range] at hi
    rw [List.length_take, List.length_drop]
    have h1 := Nat.div_mul_le_self p.length B
    have h2 : (i + 1) * B ≤ p.length / B * B := Nat.mul_le_mul_right _ hi
    rw [Nat.succ_mul] at h2
    omega
  unfold iterate
  generalize chunks B p = l at hc
  induction l with
  | nil => intro st; rfl
  | cons x l ih =>
    intro st
    rw [List.foldlM_cons, h _ _ (hc x (by simp)), Out.bind_ok, List.foldl_cons]
    exact ih (fun y hy => hc y (by simp [hy])) (f st x)

end Kryptos.Hash
