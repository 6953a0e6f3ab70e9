import Verif.Lemmas.Pk
/-
  Documents made of some bytes and some numbers.
-/
namespace Kryptos.Rsa
open Mp Spec.Mp

variable {w : Nat}

/-- Bytes and numbers put under different good headers into a fresh buffer are read back. -/
theorem putData_putMps_get (hw : w = 32 ∨ w = 64) (h0 : String) (x : Bytes) (hx : x ≠ []) (ops : List (String × Num w))
    (hg0 : Pem.Good (ascii h0)) (hg : ∀ y ∈ ops, Pem.Good (ascii y.1) ∧ y.2.data ≠ [])
    (hn : (ascii h0 :: ops.map fun y => ascii y.1).Nodup) :
    ∃ o doc, Pem.putData true none (some (ascii h0)) (some x) = .ok (.success, o) ∧ putMps o ops = .ok (.success, some doc) ∧ doc ≠ [] ∧
      Pem.getData (some (ascii h0)) (some doc) = .ok (some x) ∧ (∀ y ∈ ops, getMp w y.1 doc = .ok (some ⟨y.2.data, false⟩)) ∧
      ∀ h : String, Pem.Good (ascii h) → ascii h ∉ ascii h0 :: ops.map (fun y => ascii y.1) → getMp w h doc = .ok none := by
  have hw8 : 8 ≤ w := by rcases hw with rfl | rfl <;> decide
  let rest : List (Bytes × Bytes) := ops.map fun y => (ascii y.1, leBytes y.2.data)
  have hnodup : (((ascii h0, x) :: rest).map Prod.fst).Nodup := by
    rw [List.map_cons, List.map_map]
    exact hn
  have hgood : ∀ y ∈ (ascii h0, x) :: rest, Pem.Good y.1 := by
    intro y hy
    rcases List.mem_cons.1 hy with rfl | hy
    · exact hg0
    · obtain ⟨z, hz, rfl⟩ := List.mem_map.1 hy
      exact (hg z hz).1
  have hspec := Rsa.specRun_fresh ((ascii h0, x) :: rest) [] (by
      intro y hy
      rcases List.mem_cons.1 hy with rfl | hy
      · exact hx
      · obtain ⟨z, hz, rfl⟩ := List.mem_map.1 hy
        exact Rsa.leBytes_ne_nil hw8 _ (hg z hz).2) (by simpa using hnodup)
  rw [List.nil_append] at hspec
  obtain ⟨doc, h1, h2⟩ := Pem.holds_run true ((ascii h0, x) :: rest) hgood (by rw [hspec.2]; simp)
  rw [hspec.2] at h2
  have hl := Rsa.nodup_lookup ((ascii h0, x) :: rest) hnodup
  have l1 := hl (ascii h0, x) (by simp)
  have g1 := h2.get hg0
  rw [l1] at g1
  have hs1 := hspec.1
  rw [Pem.runPuts] at h1
  cases hp : Pem.putData true none (some (ascii h0)) (some x) with
  | ub => rw [hp] at h1; simp at h1
  | ok o =>
    rw [hp, Out.bind_ok] at h1
    obtain ⟨o1, o2⟩ := o
    dsimp only at h1
    cases hq : Pem.runPuts true o2 rest with
    | ub => rw [hq] at h1; simp at h1
    | ok v =>
      rw [hq] at h1
      simp only [Out.bind_ok, Out.pure_eq, Out.ok.injEq, Prod.mk.injEq] at h1
      rw [← h1.1] at hs1
      have ho : o1 = .success := hs1 _ (by simp)
      refine ⟨o2, doc, by rw [← ho], ?_, h2.ne_nil, g1, fun y hy => ?_, fun h hh hn => ?_⟩
      · refine Rsa.runPuts_putMps ops o2 (some doc) v.1 ?_ (fun t ht => hs1 t (by simp [ht]))
        rw [← h1.2]
        exact hq
      · exact h2.getMp w hw (hg y hy).1 y.2.data (hg y hy).2 (hl (ascii y.1, leBytes y.2.data)
          (List.mem_cons_of_mem _ (List.mem_map.2 ⟨y, hy, rfl⟩)))
      · refine h2.absent w hh ?_
        rw [List.lookup_eq_none_iff]
        intro p hp
        simp only [List.mem_cons, not_or] at hn
        rcases List.mem_cons.1 hp with rfl | hp
        · simpa using hn.1
        · obtain ⟨y, hy, rfl⟩ := List.mem_map.1 hp
          simp only [ne_eq, bne_iff_ne]
          intro he
          exact hn.2 (List.mem_map.2 ⟨y, hy, he.symm⟩)

end Kryptos.Rsa
