import Verif.Model.SmallPrimes
import Mathlib.Data.Nat.Prime.Basic
/-
  The table of small primes (C66).
-/
namespace Kryptos.Mp

/-- Trial division of `n` by the odd numbers from `d` on: `some true` when no `d` with `d * d ≤ n` divides. -/
def trial (n : Nat) : Nat → Nat → Option Bool
  | 0, _ => none
  | f + 1, d => bif Nat.blt n (d * d) then some true else bif Nat.beq (n % d) 0 then some false else trial n f (d + 2)

theorem trial_true (n f d : Nat) (h : trial n f d = some true) (hd : d % 2 = 1) :
    ∀ e, d ≤ e → e % 2 = 1 → e * e ≤ n → ¬ e ∣ n := by
  induction f generalizing d with
  | zero => cases h
  | succ f ih =>
    intro e he ho hle
    rw [trial] at h
    by_cases h1 : Nat.blt n (d * d) = true
    · have := Nat.mul_le_mul he he; rw [Nat.blt_eq] at h1; omega
    · rw [eq_false_of_ne_true h1, cond_false] at h
      by_cases h2 : Nat.beq (n % d) 0 = true
      · rw [h2] at h; cases h
      · rw [eq_false_of_ne_true h2, cond_false] at h
        by_cases h3 : e = d
        · subst h3; intro hdv; exact h2 (by rw [Nat.beq_eq]; exact Nat.mod_eq_zero_of_dvd hdv)
        · exact ih (d + 2) h (by omega) e (by omega) ho hle

theorem trial_false (n f d : Nat) (h : trial n f d = some false) (hd : 3 ≤ d) : ∃ e, 3 ≤ e ∧ e * e ≤ n ∧ e ∣ n := by
  induction f generalizing d with
  | zero => cases h
  | succ f ih =>
    rw [trial] at h
    by_cases h1 : Nat.blt n (d * d) = true
    · rw [h1] at h; cases h
    · rw [eq_false_of_ne_true h1, cond_false] at h
      by_cases h2 : Nat.beq (n % d) 0 = true
      · exact ⟨d, hd, by rw [Nat.blt_eq] at h1; omega, Nat.dvd_of_mod_eq_zero (by rw [Nat.beq_eq] at h2; exact h2)⟩
      · rw [eq_false_of_ne_true h2, cond_false] at h
        exact ih (d + 2) h (by omega)

theorem trial_prime (n f : Nat) (b : Bool) (h : trial n f 3 = some b) (hn : 3 ≤ n) (ho : n % 2 = 1) : b = true ↔ n.Prime := by
  cases b with
  | true =>
    refine ⟨fun _ => ?_, fun _ => rfl⟩
    have hm := Nat.minFac_prime (show n ≠ 1 by omega)
    by_contra hp
    have h1 := Nat.minFac_sq_le_self (by omega) hp
    rw [Nat.pow_two] at h1
    have h2 := Nat.minFac_dvd n
    have h3 : n.minFac % 2 = 1 := by
      by_contra h4
      have : 2 ∣ n := dvd_trans (Nat.dvd_of_mod_eq_zero (by omega)) h2
      omega
    have h4 := hm.two_le
    exact trial_true n f 3 h (by omega) _ (by omega) h3 h1 h2
  | false =>
    refine ⟨fun h => (by cases h), fun hp => ?_⟩
    obtain ⟨e, h1, h2, h3⟩ := trial_false n f 3 h (by omega)
    exfalso
    rcases (Nat.dvd_prime hp).1 h3 with h4 | h4
    · omega
    · subst h4
      have : e * 3 ≤ e * e := Nat.mul_le_mul_left _ h1
      omega

/-- Walk over the odd numbers from `n` on and over the table: the entries are the ones which pass. -/
def scan : Nat → Nat → List Nat → Bool
  | 0, _, l => l.isEmpty
  | f + 1, n, l => match trial n 80 3 with
    | none => false
    | some false => scan f (n + 2) l
    | some true => match l with
      | [] => false
      | p :: l => Nat.beq p n && scan f (n + 2) l

theorem scan_spec (f n : Nat) (l : List Nat) (h : scan f n l = true) (hn : 3 ≤ n) (ho : n % 2 = 1) :
    ∀ p, p ∈ l ↔ p.Prime ∧ p % 2 = 1 ∧ n ≤ p ∧ p < n + 2 * f := by
  induction f generalizing n l with
  | zero =>
    intro p
    rw [scan, List.isEmpty_iff] at h
    subst h
    constructor
    · intro h; cases h
    · rintro ⟨_, _, h1, h2⟩; omega
  | succ f ih =>
    intro p
    rw [scan.eq_def] at h
    have hne : ∀ q : Nat, q % 2 = 1 → n ≤ q → (n + 2 ≤ q ↔ q ≠ n) := fun q h1 h2 => by omega
    cases ht : trial n 80 3 with
    | none => simp [ht] at h
    | some b =>
      have hp := trial_prime n 80 b ht hn ho
      cases b with
      | false =>
        simp only [ht] at h
        have hnp : ¬ n.Prime := fun h' => by have := hp.2 h'; cases this
        rw [ih (n + 2) l h (by omega) (by omega) p]
        constructor
        · rintro ⟨h1, h2, h3, h4⟩; exact ⟨h1, h2, by omega, by omega⟩
        · rintro ⟨h1, h2, h3, h4⟩
          exact ⟨h1, h2, (hne p h2 h3).2 (by rintro rfl; exact hnp h1), by omega⟩
      | true =>
        simp only [ht] at h
        cases l with
        | nil => cases h
        | cons q l =>
          simp only [Bool.and_eq_true, Nat.beq_eq] at h
          obtain ⟨rfl, h⟩ := h
          rw [List.mem_cons, ih (q + 2) l h (by omega) (by omega) p]
          constructor
          · rintro (rfl | ⟨h1, h2, h3, h4⟩)
            · exact ⟨hp.1 rfl, ho, by omega, by omega⟩
            · exact ⟨h1, h2, by omega, by omega⟩
          · rintro ⟨h1, h2, h3, h4⟩
            by_cases h5 : p = q
            · exact Or.inl h5
            · exact Or.inr ⟨h1, h2, (hne p h2 h3).2 h5, by omega⟩

theorem scan_table : scan 8931 3 smallPrimes = true := by decide +kernel

/-- The table contains exactly the odd primes up to 17863 (0x45C7), its last entry. -/
theorem smallPrimes_complete (p : Nat) : p ∈ smallPrimes ↔ p.Prime ∧ p ≠ 2 ∧ p ≤ 17863 := by
  rw [scan_spec 8931 3 smallPrimes scan_table (by omega) (by omega) p]
  constructor
  · rintro ⟨h1, h2, h3, h4⟩; exact ⟨h1, by omega, by omega⟩
  · rintro ⟨h1, h2, h3⟩
    have := h1.two_le
    rcases h1.eq_two_or_odd with h | h
    · exact absurd h h2
    · exact ⟨h1, h, by omega, by omega⟩

example : 17863 ∈ smallPrimes ∧ 9409 ∉ smallPrimes := by
  constructor <;> decide +kernel

end Kryptos.Mp
