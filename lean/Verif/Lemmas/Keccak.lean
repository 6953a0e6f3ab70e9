import Verif.Model.Keccak
import Verif.Spec.Keccak
import Mathlib.Tactic.FinCases
import Mathlib.Data.Fin.Basic
import Mathlib.Data.Fintype.Basic
import Mathlib.Tactic.IntervalCases
/- The lanes of the code and the state arrays of FIPS 202. -/
namespace Kryptos.Keccak
open Spec.Keccak (Arr)

/-- Lanes. -/
abbrev Lanes := Fin 5 → Fin 5 → W64

/-- The words of the state. -/
def lanes (A : Lanes) : List W64 :=
  [A 0 0, A 0 1, A 0 2, A 0 3, A 0 4, A 1 0, A 1 1, A 1 2, A 1 3, A 1 4, A 2 0, A 2 1, A 2 2, A 2 3, A 2 4,
   A 3 0, A 3 1, A 3 2, A 3 3, A 3 4, A 4 0, A 4 1, A 4 2, A 4 3, A 4 4]

/-- The bits of lanes. -/
def arr (A : Lanes) : Arr := fun x y z => (A x y).getLsbD z.val

def cL (A : Lanes) (x : Fin 5) : W64 := A x 0 ^^^ A x 1 ^^^ A x 2 ^^^ A x 3 ^^^ A x 4
def thetaL (A : Lanes) : Lanes := fun x y => A x y ^^^ (cL A (x + 4) ^^^ rot (cL A (x + 1)) 1)

theorem thetaC_eq (A : Lanes) : thetaC (lanes A) = .ok [cL A 0, cL A 1, cL A 2, cL A 3, cL A 4] := rfl

/-- A lane replaced. -/
def upd (A : Lanes) (x y : Fin 5) (v : W64) : Lanes := fun x' y' => if x' = x ∧ y' = y then v else A x' y'

theorem rd_lanes (A : Lanes) (x y : Fin 5) : rd (lanes A) (5 * x.val + y.val) = .ok (A x y) := by
  fin_cases x <;> fin_cases y <;> rfl

theorem wr_lanes (A : Lanes) (x y : Fin 5) (v : W64) : wr (lanes A) (5 * x.val + y.val) v = .ok (lanes (upd A x y v)) := by
  fin_cases x <;> fin_cases y <;> rfl

theorem fold5 (f : List W64 → Nat → Out (List W64)) (g : Lanes → Fin 5 → Lanes) (h : ∀ A (x : Fin 5), f (lanes A) x.val = .ok (lanes (g A x)))
    (A : Lanes) : [0, 1, 2, 3, 4].foldlM f (lanes A) = .ok (lanes (g (g (g (g (g A 0) 1) 2) 3) 4)) := by
  simp only [List.foldlM_cons, List.foldlM_nil]
  rw [show f (lanes A) 0 = _ from h A 0, Out.bind_ok]
  rw [show f (lanes _) 1 = _ from h _ 1, Out.bind_ok]
  rw [show f (lanes _) 2 = _ from h _ 2, Out.bind_ok]
  rw [show f (lanes _) 3 = _ from h _ 3, Out.bind_ok]
  rw [show f (lanes _) 4 = _ from h _ 4, Out.bind_ok]
  rfl

theorem theta_inner (A : Lanes) (D : W64) (x : Fin 5) :
    [0, 1, 2, 3, 4].foldlM (fun s y => do wr s (5 * x.val + y) ((← rd s (5 * x.val + y)) ^^^ D)) (lanes A) =
      .ok (lanes fun x' y' => if x' = x then A x' y' ^^^ D else A x' y') := by
  rw [fold5 _ (fun A y => upd A x y (A x y ^^^ D)) (by intro A y; rw [rd_lanes, Out.bind_ok, wr_lanes])]
  congr 2
  funext x' y'
  by_cases h : x' = x
  · subst h
    fin_cases y' <;> simp [upd]
  · simp [upd, h]

theorem theta_eq (A : Lanes) : theta (lanes A) = .ok (lanes (thetaL A)) := by
  unfold theta
  rw [thetaC_eq, Out.bind_ok]
  have d : ∀ x : Fin 5, rd [cL A 0, cL A 1, cL A 2, cL A 3, cL A 4] x.val = .ok (cL A x) := by
    intro x; fin_cases x <;> rfl
  rw [fold5 _ (fun B x => fun x' y' => if x' = x then B x' y' ^^^ (cL A (x + 4) ^^^ rot (cL A (x + 1)) 1) else B x' y') (by
    intro B x
    have e4 : (x.val + 4) % 5 = (x + 4 : Fin 5).val := by rw [Fin.val_add]; rfl
    have e1 : (x.val + 1) % 5 = (x + 1 : Fin 5).val := by rw [Fin.val_add]; rfl
    rw [e4, d, Out.bind_ok, e1, d, Out.bind_ok]
    exact theta_inner B _ x)]
  congr 2
  funext x y
  unfold thetaL
  fin_cases x <;> simp

/-- The rotation of a lane. -/
def off (x y : Fin 5) : Nat :=
  match (List.range 24).find? fun t => Spec.Keccak.pos t = (x, y) with
  | some t => (t + 1) * (t + 2) / 2 % 64
  | none => 0
/-- The lanes after ρ and π. -/
def rhoPiL (A : Lanes) : Lanes := fun x y => if x = 0 ∧ y = 0 then A 0 0 else rot (A (x + 3 * y) x) (off (x + 3 * y) x)

theorem piStep_eq (A : Lanes) (x y y' : Fin 5) (c : W64) (r k : Nat) (hy : 2 * x + 3 * y = y') (hr : rotOffset[r]? = some k) :
    piStep ⟨x.val, y.val, c, lanes A⟩ r = .ok ⟨y.val, y'.val, A y y', lanes (upd A y y' (rot c k))⟩ := by
  have e : (2 * x.val + 3 * y.val) % 5 = y'.val := by
    rw [← hy, Fin.val_add, Fin.val_mul, Fin.val_mul]
    show _ = (2 * x.val % 5 + 3 * y.val % 5) % 5
    omega
  unfold piStep
  dsimp only
  rw [e, rd_lanes, Out.bind_ok, show rd rotOffset r = .ok k by unfold rd; rw [hr]; rfl, Out.bind_ok, wr_lanes, Out.bind_ok]
  rfl

theorem rhoPi_eq (A : Lanes) : rhoPi (lanes A) = .ok (lanes (rhoPiL A)) := by
  unfold rhoPi
  rw [show rd (lanes A) 5 = _ from rd_lanes A 1 0, Out.bind_ok]
  simp only [List.foldlM_cons, List.foldlM_nil]
  rw [show (⟨1, 0, A 1 0, lanes A⟩ : PiSt) = ⟨(1 : Fin 5).val, (0 : Fin 5).val, A 1 0, lanes A⟩ from rfl]
  rw [piStep_eq _ 1 0 2 _ 0 1 rfl rfl, Out.bind_ok]
  rw [piStep_eq _ 0 2 1 _ 1 3 rfl rfl, Out.bind_ok]
  rw [piStep_eq _ 2 1 2 _ 2 6 rfl rfl, Out.bind_ok]
  rw [piStep_eq _ 1 2 3 _ 3 10 rfl rfl, Out.bind_ok]
  rw [piStep_eq _ 2 3 3 _ 4 15 rfl rfl, Out.bind_ok]
  rw [piStep_eq _ 3 3 0 _ 5 21 rfl rfl, Out.bind_ok]
  rw [piStep_eq _ 3 0 1 _ 6 28 rfl rfl, Out.bind_ok]
  rw [piStep_eq _ 0 1 3 _ 7 36 rfl rfl, Out.bind_ok]
  rw [piStep_eq _ 1 3 1 _ 8 45 rfl rfl, Out.bind_ok]
  rw [piStep_eq _ 3 1 4 _ 9 55 rfl rfl, Out.bind_ok]
  rw [piStep_eq _ 1 4 4 _ 10 2 rfl rfl, Out.bind_ok]
  rw [piStep_eq _ 4 4 0 _ 11 14 rfl rfl, Out.bind_ok]
  rw [piStep_eq _ 4 0 3 _ 12 27 rfl rfl, Out.bind_ok]
  rw [piStep_eq _ 0 3 4 _ 13 41 rfl rfl, Out.bind_ok]
  rw [piStep_eq _ 3 4 3 _ 14 56 rfl rfl, Out.bind_ok]
  rw [piStep_eq _ 4 3 2 _ 15 8 rfl rfl, Out.bind_ok]
  rw [piStep_eq _ 3 2 2 _ 16 25 rfl rfl, Out.bind_ok]
  rw [piStep_eq _ 2 2 0 _ 17 43 rfl rfl, Out.bind_ok]
  rw [piStep_eq _ 2 0 4 _ 18 62 rfl rfl, Out.bind_ok]
  rw [piStep_eq _ 0 4 2 _ 19 18 rfl rfl, Out.bind_ok]
  rw [piStep_eq _ 4 2 4 _ 20 39 rfl rfl, Out.bind_ok]
  rw [piStep_eq _ 2 4 1 _ 21 61 rfl rfl, Out.bind_ok]
  rw [piStep_eq _ 4 1 1 _ 22 20 rfl rfl, Out.bind_ok]
  rw [piStep_eq _ 1 1 0 _ 23 44 rfl rfl, Out.bind_ok]
  show Out.ok (lanes _) = _
  congr 2
  funext x y
  fin_cases x <;> fin_cases y <;> rfl

/-- The lanes after χ. -/
def chiL (A : Lanes) : Lanes := fun x y => A x y ^^^ (~~~ A (x + 1) y &&& A (x + 2) y)

theorem chi_eq (A : Lanes) : chi (lanes A) = .ok (lanes (chiL A)) := by
  unfold chi
  rw [fold5 _ (fun B y => fun x' y' => if y' = y then B x' y' ^^^ (~~~ B (x' + 1) y' &&& B (x' + 2) y') else B x' y') (by
    intro B y
    have c : ([0, 1, 2, 3, 4].mapM fun x => rd (lanes B) (5 * x + y.val)) = .ok [B 0 y, B 1 y, B 2 y, B 3 y, B 4 y] := by
      fin_cases y <;> rfl
    have d : ∀ x : Fin 5, rd [B 0 y, B 1 y, B 2 y, B 3 y, B 4 y] x.val = .ok (B x y) := by
      intro x; fin_cases x <;> rfl
    rw [c, Out.bind_ok]
    rw [fold5 _ (fun B' x => upd B' x y (B x y ^^^ (~~~ B (x + 1) y &&& B (x + 2) y))) (by
      intro B' x
      have e2 : (x.val + 2) % 5 = (x + 2 : Fin 5).val := by rw [Fin.val_add]; rfl
      have e1 : (x.val + 1) % 5 = (x + 1 : Fin 5).val := by rw [Fin.val_add]; rfl
      rw [d, Out.bind_ok, e1, d, Out.bind_ok, e2, d, Out.bind_ok, wr_lanes])]
    congr 2
    funext x' y'
    by_cases h : y' = y
    · subst h
      fin_cases x' <;> simp [upd]
    · simp [upd, h])]
  congr 2
  funext x y
  unfold chiL
  fin_cases y <;> simp

/-- The lanes after a round. -/
def roundL (A : Lanes) (c : W64) : Lanes := fun x y =>
  if x = 0 ∧ y = 0 then chiL (rhoPiL (thetaL A)) x y ^^^ c else chiL (rhoPiL (thetaL A)) x y

theorem round_eq (A : Lanes) (r : Nat) (c : W64) (hr : RC[r]? = some c) : round (lanes A) r = .ok (lanes (roundL A c)) := by
  unfold round
  rw [theta_eq, Out.bind_ok, rhoPi_eq, Out.bind_ok, chi_eq, Out.bind_ok, show rd (lanes _) 0 = _ from rd_lanes _ 0 0, Out.bind_ok,
    show rd RC r = .ok c by unfold rd; rw [hr]; rfl, Out.bind_ok, show wr (lanes _) 0 _ = _ from wr_lanes _ 0 0 _]
  congr 2
  funext x y
  unfold upd roundL
  split
  · rename_i h; rw [h.1, h.2]
  · rfl

/-! ### Bits -/

theorem rot_bit (a : W64) (k : Nat) (hk : k < 64) (hk0 : 0 < k) (z : Fin 64) :
    (rot a k).getLsbD z.val = a.getLsbD (z - Fin.ofNat 64 k : Fin 64).val := by
  have hz := z.isLt
  have e : (z - Fin.ofNat 64 k : Fin 64).val = (64 - k + z.val) % 64 := by
    rw [Fin.sub_def]
    show (64 - k % 64 + z.val) % 64 = _
    rw [Nat.mod_eq_of_lt hk]
  rw [e]
  unfold rot
  rw [BitVec.getLsbD_or, BitVec.getLsbD_shiftLeft, BitVec.getLsbD_ushiftRight]
  by_cases h : z.val < k
  · rw [Nat.mod_eq_of_lt (by omega)]
    simp [h]
  · rw [show (64 - k + z.val) % 64 = z.val - k by omega]
    simp [h, hz]
    intro h2
    exact absurd (BitVec.lt_of_getLsbD h2) (by omega)

theorem theta_bits (A : Lanes) : arr (thetaL A) = Spec.Keccak.theta (arr A) := by
  funext x y z
  unfold arr thetaL Spec.Keccak.theta Spec.Keccak.C
  have e : x - 1 = x + 4 := by revert x; decide
  simp only [BitVec.getLsbD_xor, rot_bit _ 1 (by decide) (by decide), cL, e]
  rfl

theorem off_range (x y : Fin 5) (h : ¬ (x = 0 ∧ y = 0)) : 0 < off x y ∧ off x y < 64 := by
  revert x y; decide +kernel

theorem sub_ofNat0 (z : Fin 64) : z - Fin.ofNat 64 0 = z := by
  apply Fin.ext
  rw [Fin.sub_def]
  show (64 - 0 + z.val) % 64 = z.val
  omega

theorem rho_off (A : Arr) (x y : Fin 5) (z : Fin 64) : Spec.Keccak.rho A x y z = A x y (z - Fin.ofNat 64 (off x y)) := by
  unfold Spec.Keccak.rho off
  generalize (List.range 24).find? _ = o
  cases o with
  | none => dsimp only; rw [sub_ofNat0]
  | some t =>
    dsimp only
    congr 2
    apply Fin.ext
    show _ % 64 = _ % 64 % 64
    omega

theorem rhoPi_bits (A : Lanes) : arr (rhoPiL A) = Spec.Keccak.pi (Spec.Keccak.rho (arr A)) := by
  funext x y z
  unfold Spec.Keccak.pi
  rw [rho_off]
  unfold arr rhoPiL
  split
  · rename_i h
    rw [h.1, h.2]
    have : off (0 + 3 * 0) 0 = 0 := by decide +kernel
    rw [this, sub_ofNat0]
    rfl
  · rename_i h
    have hn : ¬ (x + 3 * y = 0 ∧ x = 0) := by revert x y; decide
    obtain ⟨h1, h2⟩ := off_range _ _ hn
    rw [rot_bit _ _ h2 h1]

theorem chi_bits (A : Lanes) : arr (chiL A) = Spec.Keccak.chi (arr A) := by
  funext x y z
  unfold arr chiL Spec.Keccak.chi
  simp [z.isLt]

theorem RC_bits : ∀ r : Fin 24, ∀ z : Fin 64, (RC.getD r.val 0).getLsbD z.val = Spec.Keccak.RC r.val z := by decide +kernel

theorem round_bits (A : Lanes) (r : Nat) (hr : r < 24) : ∃ B : Lanes, round (lanes A) r = .ok (lanes B) ∧
    arr B = Spec.Keccak.iota r (Spec.Keccak.chi (Spec.Keccak.pi (Spec.Keccak.rho (Spec.Keccak.theta (arr A))))) := by
  have hl : r < RC.length := hr
  refine ⟨_, round_eq A r (RC.getD r 0) (by simp [hl]), ?_⟩
  rw [← theta_bits, ← rhoPi_bits, ← chi_bits]
  funext x y z
  unfold Spec.Keccak.iota
  rw [← RC_bits ⟨r, hr⟩ z]
  unfold arr roundL
  split <;> simp

theorem rounds_bits : ∀ n, n ≤ 24 → ∀ A : Lanes, ∃ B : Lanes, (List.range n).foldlM round (lanes A) = .ok (lanes B) ∧
    arr B = (List.range n).foldl (fun A ir => Spec.Keccak.iota ir (Spec.Keccak.chi (Spec.Keccak.pi (Spec.Keccak.rho (Spec.Keccak.theta A))))) (arr A) := by
  intro n
  induction n with
  | zero => intro _ A; exact ⟨A, rfl, rfl⟩
  | succ n ih =>
    intro hn A
    obtain ⟨B, h1, h2⟩ := ih (by omega) A
    obtain ⟨B', h3, h4⟩ := round_bits B n (by omega)
    refine ⟨B', ?_, ?_⟩
    · rw [List.range_succ, List.foldlM_append, h1, Out.bind_ok]
      show (round _ n >>= fun s => pure s) = _
      rw [h3]
      rfl
    · rw [h4, h2, List.range_succ, List.foldl_append]
      rfl

/-- The permutation. -/
theorem r1600_bits (A : Lanes) : ∃ B : Lanes, r1600 (lanes A) = .ok (lanes B) ∧ arr B = Spec.Keccak.f (arr A) :=
  rounds_bits 24 (by omega) A

end Kryptos.Keccak
