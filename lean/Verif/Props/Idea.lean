import Verif.Model.Idea
import Verif.Spec.Idea
import Verif.Lemmas.Rot
import Verif.Props.KeyLoad
import Mathlib.Data.Nat.Prime.Basic
import Mathlib.Tactic.NormNum.Prime
import Mathlib.Tactic.IntervalCases
import Mathlib.Tactic.Ring
import Mathlib.Tactic.Linarith
import Mathlib.Data.BitVec
import Mathlib.Data.Nat.ModEq
/-
  IDEA: the block functions undo each other for every key (C29), and the encryption is the published one (C78).
-/
namespace Kryptos.Idea
open Block KeyLoad Spec.Idea

/-! ## Multiplication -/

theorem prime65537 : Nat.Prime 65537 := by norm_num

theorem num_pos (x : W16) : 0 < num x := by
  unfold num
  split
  · decide
  · rename_i h
    have : x.toNat ≠ 0 := fun h0 => h (BitVec.eq_of_toNat_eq (by simpa using h0))
    omega

theorem num_lt (x : W16) : num x < 65537 := by
  unfold num
  have := x.isLt
  split <;> omega

theorem num_inj {x y : W16} (h : num x = num y) : x = y := by
  have hx := x.isLt
  have hy := y.isLt
  unfold num at h
  split at h <;> split at h
  · simp_all
  · omega
  · omega
  · exact BitVec.eq_of_toNat_eq h

theorem num_ofNat {n : Nat} (h0 : 0 < n) (h : n < 65537) : num (BitVec.ofNat 16 n) = n := by
  unfold num
  by_cases hn : n = 65536
  · subst hn; rfl
  · have : (BitVec.ofNat 16 n).toNat = n := by simp; omega
    rw [if_neg, this]
    intro h1
    rw [h1] at this
    simp at this
    omega

theorem prod_pos (x y : W16) : 0 < num x * num y % 65537 := by
  rw [Nat.pos_iff_ne_zero]
  intro h
  rcases (prime65537.dvd_mul).1 (Nat.dvd_of_mod_eq_zero h) with h1 | h1
  · have := Nat.le_of_dvd (num_pos x) h1
    have := num_lt x
    omega
  · have := Nat.le_of_dvd (num_pos y) h1
    have := num_lt y
    omega

theorem num_prod (x y : W16) : num (prod x y) = num x * num y % 65537 := num_ofNat (prod_pos x y) (Nat.mod_lt _ (by decide))

theorem toNat_one_sub (y : W16) : (1 - y).toNat = (65537 - y.toNat) % 65536 := by
  rw [BitVec.toNat_sub]
  have := y.isLt
  simp
  omega

/-- The multiplication of the code is the one of the publication. -/
theorem mul_eq (x y : W16) : mul x y = prod x y := by
  apply BitVec.eq_of_toNat_eq
  have hy := y.isLt
  have hx := x.isLt
  unfold mul prod num
  by_cases h0 : x = 0
  · rw [if_pos h0, if_pos h0, toNat_one_sub, BitVec.toNat_ofNat]
    by_cases h1 : y = 0
    · subst h1; rfl
    · rw [if_neg h1]
      have : y.toNat ≠ 0 := fun h => h1 (BitVec.eq_of_toNat_eq (by simpa using h))
      have e : 2 ^ 16 * y.toNat % (2 ^ 16 + 1) = 65537 - y.toNat := by omega
      rw [e]
  · rw [if_neg h0, if_neg h0]
    have hx0 : x.toNat ≠ 0 := fun h => h0 (BitVec.eq_of_toNat_eq (by simpa using h))
    by_cases h1 : y = 0
    · rw [if_pos h1, if_pos h1, toNat_one_sub, BitVec.toNat_ofNat]
      have e : x.toNat * 2 ^ 16 % (2 ^ 16 + 1) = 65537 - x.toNat := by omega
      rw [e]
    · rw [if_neg h1, if_neg h1]

theorem mul_undo {x k k' : W16} (h : num k * num k' % 65537 = 1) : mul (mul x k) k' = x := by
  rw [mul_eq, mul_eq]
  apply num_inj
  rw [num_prod, num_prod, Nat.mod_mul_mod, Nat.mul_assoc, Nat.mul_mod, h, Nat.mul_one, Nat.mod_mod, Nat.mod_eq_of_lt (num_lt x)]

/-! ## Inverses -/

theorem addMul_ok {t q u : W16} (h : t.toNat + q.toNat * u.toNat < 65536) : ∃ r, addMul t q u = .ok r ∧ r.toNat = t.toNat + q.toNat * u.toNat := by
  refine ⟨_, by rw [addMul, if_pos (by omega)], ?_⟩
  simp
  omega

theorem num_of_pos {x : W16} (h : 0 < x.toNat) : num x = x.toNat := by
  unfold num
  rw [if_neg]
  rintro rfl
  simp at h

/-- The loop computes the inverse of `a`. -/
theorem invLoop_run (a : Nat) : ∀ (fuel : Nat) (value y t0 t1 : W16), value.toNat < fuel → 2 ≤ y.toNat → y.toNat < value.toNat →
    t0.toNat * a ≡ value.toNat [MOD 65537] → t1.toNat * a + y.toNat ≡ 0 [MOD 65537] →
    t1.toNat * value.toNat + t0.toNat * y.toNat = 65537 → 1 ≤ t1.toNat →
    ∃ r, invLoop fuel value y t0 t1 = .ok r ∧ num r * a ≡ 1 [MOD 65537]
  | 0, value, y, t0, t1, hf, _, _, _, _, _, _ => by omega
  | fuel + 1, value, y, t0, t1, hf, hy2, hyv, h0, h1, hs, ht1 => by
    have hy0 : y ≠ 0 := by rintro rfl; simp at hy2
    have hv := value.isLt
    -- the first half
    have hdm := Nat.div_add_mod value.toNat y.toNat
    have hml := Nat.mod_lt value.toNat (show y.toNat > 0 by omega)
    generalize hq : value.toNat / y.toNat = q at hdm
    generalize hm : value.toNat % y.toNat = m at hdm hml
    have hs' : t1.toNat * m + (t0.toNat + q * t1.toNat) * y.toNat = 65537 := by
      rw [← hs, ← hdm]; ring
    have ht0' : t0.toNat + q * t1.toNat < 65536 := by
      have : (t0.toNat + q * t1.toNat) * 2 ≤ (t0.toNat + q * t1.toNat) * y.toNat := Nat.mul_le_mul_left _ hy2
      omega
    have hdiv : (value / y).toNat = q := by rw [BitVec.toNat_udiv, hq]
    have hmod : (value % y).toNat = m := by rw [BitVec.toNat_umod, hm]
    obtain ⟨u0, e0, v0⟩ := addMul_ok (t := t0) (q := value / y) (u := t1) (by rw [hdiv]; exact ht0')
    rw [hdiv] at v0
    rw [← v0] at hs' ht0'
    have hc0 : u0.toNat * a ≡ m [MOD 65537] := by
      have : u0.toNat * a + q * y.toNat ≡ m + q * y.toNat [MOD 65537] := by
        calc u0.toNat * a + q * y.toNat = t0.toNat * a + q * (t1.toNat * a + y.toNat) := by rw [v0]; ring
          _ ≡ value.toNat + q * 0 [MOD 65537] := Nat.ModEq.add h0 (h1.mul_left q)
          _ = m + q * y.toNat := by rw [← hdm]; ring
      exact Nat.ModEq.add_right_cancel' _ this
    rw [invLoop, if_neg hy0]
    simp only []
    rw [e0, Out.bind_ok]
    by_cases hm1 : m = 1
    · have : value % y = 1 := BitVec.eq_of_toNat_eq (by rw [hmod, hm1]; rfl)
      rw [if_pos this]
      refine ⟨u0, rfl, ?_⟩
      have hu : 0 < u0.toNat := by
        rw [Nat.pos_iff_ne_zero]
        intro hz
        rw [hz, hm1] at hs'
        have := t1.isLt
        omega
      rw [num_of_pos hu]
      rw [hm1] at hc0
      exact hc0
    · have hm0 : m ≠ 0 := by
        intro hz
        rw [hz, Nat.mul_zero, Nat.zero_add] at hs'
        have hd : y.toNat ∣ 65537 := ⟨u0.toNat, by rw [← hs', Nat.mul_comm]⟩
        rcases (Nat.dvd_prime prime65537).1 hd with h | h <;> omega
      rw [if_neg (fun h => hm1 (by rw [← hmod, h]; rfl)), if_neg (fun h => hm0 (by rw [← hmod, h]; rfl))]
      -- the second half
      have hdm2 := Nat.div_add_mod y.toNat m
      have hml2 := Nat.mod_lt y.toNat (show m > 0 by omega)
      generalize hq2 : y.toNat / m = q2 at hdm2
      generalize hm2 : y.toNat % m = m2 at hdm2 hml2
      have hs2 : (t1.toNat + q2 * u0.toNat) * m + u0.toNat * m2 = 65537 := by
        rw [← hs', ← hdm2]; ring
      have ht1' : t1.toNat + q2 * u0.toNat < 65536 := by
        have hm2' : 2 ≤ m := by omega
        have : (t1.toNat + q2 * u0.toNat) * 2 ≤ (t1.toNat + q2 * u0.toNat) * m := Nat.mul_le_mul_left _ hm2'
        omega
      have hdiv2 : (y / (value % y)).toNat = q2 := by rw [BitVec.toNat_udiv, hmod, hq2]
      have hmod2 : (y % (value % y)).toNat = m2 := by rw [BitVec.toNat_umod, hmod, hm2]
      obtain ⟨u1, e1, v1⟩ := addMul_ok (t := t1) (q := y / (value % y)) (u := u0) (by rw [hdiv2]; exact ht1')
      rw [hdiv2] at v1
      rw [← v1] at hs2 ht1'
      have hc1 : u1.toNat * a + m2 ≡ 0 [MOD 65537] := by
        calc u1.toNat * a + m2 = t1.toNat * a + (q2 * (u0.toNat * a) + m2) := by rw [v1]; ring
          _ ≡ t1.toNat * a + (q2 * m + m2) [MOD 65537] := Nat.ModEq.add_left _ (Nat.ModEq.add_right _ (hc0.mul_left q2))
          _ = t1.toNat * a + y.toNat := by rw [← hdm2]; ring
          _ ≡ 0 [MOD 65537] := h1
      rw [e1, Out.bind_ok]
      have hu1 : 1 ≤ u1.toNat := by rw [v1]; omega
      have hm20 : m2 ≠ 0 := by
        intro hz
        rw [hz, Nat.mul_zero, Nat.add_zero] at hs2
        have hd : m ∣ 65537 := ⟨u1.toNat, by rw [← hs2, Nat.mul_comm]⟩
        rcases (Nat.dvd_prime prime65537).1 hd with h | h <;> omega
      by_cases hm21 : m2 = 1
      · have : y % (value % y) = 1 := BitVec.eq_of_toNat_eq (by rw [hmod2, hm21]; rfl)
        rw [if_neg (by simpa using this)]
        refine ⟨_, rfl, ?_⟩
        have hn : num (1 - u1) = 65537 - u1.toNat := by
          have : (1 - u1) = BitVec.ofNat 16 (65537 - u1.toNat) := BitVec.eq_of_toNat_eq (by rw [toNat_one_sub]; simp)
          rw [this, num_ofNat (by omega) (by omega)]
        rw [hn]
        rw [hm21] at hc1
        have e2 : (65537 - u1.toNat) * a + (u1.toNat * a + 1) = 65537 * a + 1 := by
          have : (65537 - u1.toNat) * a + u1.toNat * a = 65537 * a := by rw [← Nat.add_mul]; congr 1; omega
          omega
        calc (65537 - u1.toNat) * a ≡ (65537 - u1.toNat) * a + (u1.toNat * a + 1) [MOD 65537] := (Nat.ModEq.add_left _ hc1).symm
          _ = 65537 * a + 1 := e2
          _ ≡ 1 [MOD 65537] := by rw [Nat.ModEq, Nat.mul_add_mod]
      · rw [if_pos (fun h => hm21 (by rw [← hmod2, h]; rfl))]
        exact invLoop_run a fuel (value % y) (y % (value % y)) u0 u1 (by omega) (by omega) (by rw [hmod, hmod2]; exact hml2)
          (by rw [hmod]; exact hc0) (by rw [hmod2]; exact hc1) (by rw [hmod, hmod2]; exact hs2) hu1

/-- The inverse of a subkey: defined, and its product with the subkey is one. -/
theorem invMul_run (k : W16) : ∃ r, invMul k = .ok r ∧ num k * num r % 65537 = 1 := by
  have hk := k.isLt
  unfold invMul
  by_cases h1 : k.toNat ≤ 1
  · rw [if_pos h1]
    refine ⟨k, rfl, ?_⟩
    have : k = 0 ∨ k = 1 := by
      rcases Nat.le_one_iff_eq_zero_or_eq_one.1 h1 with h | h
      · exact .inl (BitVec.eq_of_toNat_eq (by simpa using h))
      · exact .inr (BitVec.eq_of_toNat_eq (by simpa using h))
    rcases this with rfl | rfl <;> decide +kernel
  rw [if_neg h1]
  simp only []
  have hdm := Nat.div_add_mod 65537 k.toNat
  have hml := Nat.mod_lt 65537 (show k.toNat > 0 by omega)
  have hnk : num k = k.toNat := num_of_pos (by omega)
  generalize hq : 65537 / k.toNat = q at hdm
  generalize hm : 65537 % k.toNat = m at hdm hml
  have hq2 : q < 65536 := by
    have : 2 * q ≤ k.toNat * q := Nat.mul_le_mul_right _ (by omega)
    omega
  have hm0 : m ≠ 0 := by
    intro hz
    rw [hz, Nat.add_zero] at hdm
    rcases (Nat.dvd_prime prime65537).1 ⟨q, hdm.symm⟩ with h | h <;> omega
  have hq1 : 1 ≤ q := by
    rw [Nat.one_le_iff_ne_zero]
    rintro rfl
    omega
  have tq : (BitVec.ofNat 16 q).toNat = q := by simp; omega
  have tm : (BitVec.ofNat 16 m).toNat = m := by simp; omega
  have hc : ∃ r, (if BitVec.ofNat 16 m = 1 then Out.ok (1 - BitVec.ofNat 16 q) else invLoop 65536 k (BitVec.ofNat 16 m) 1 (BitVec.ofNat 16 q)) = .ok r ∧
      num r * k.toNat ≡ 1 [MOD 65537] := by
    by_cases hm1 : m = 1
    · subst hm1
      refine ⟨1 - BitVec.ofNat 16 q, if_pos rfl, ?_⟩
      have : (1 - BitVec.ofNat 16 q) = BitVec.ofNat 16 (65537 - q) := BitVec.eq_of_toNat_eq (by rw [toNat_one_sub, tq]; simp)
      rw [this, num_ofNat (by omega) (by omega)]
      have e2 : (65537 - q) * k.toNat + k.toNat * q = 65537 * k.toNat := by rw [Nat.mul_comm k.toNat q, ← Nat.add_mul]; congr 1; omega
      have e3 : (65537 - q) * k.toNat + 65536 = 65537 * (k.toNat - 1) + 1 + 65536 := by omega
      have e4 : (65537 - q) * k.toNat = 65537 * (k.toNat - 1) + 1 := by omega
      rw [e4, Nat.ModEq, Nat.mul_add_mod]
    · rw [if_neg]
      · refine invLoop_run k.toNat 65536 k (BitVec.ofNat 16 m) 1 (BitVec.ofNat 16 q) (by omega) (by omega) (by omega) ?_ ?_ ?_ (by omega)
        · show 1 * k.toNat ≡ k.toNat [MOD 65537]
          rw [Nat.one_mul]
        · rw [tq, tm, Nat.mul_comm q, hdm]; rfl
        · rw [tq, tm, Nat.mul_comm q]
          show k.toNat * q + 1 * m = 65537
          omega
      · intro h
        rw [h] at tm
        exact hm1 tm.symm
  obtain ⟨r, h1, h2⟩ := hc
  refine ⟨r, h1, ?_⟩
  rw [hnk, Nat.mul_comm]
  exact h2

theorem mul_undo_inv {k r : W16} (h : num k * num r % 65537 = 1) (x : W16) : mul (mul x k) r = x ∧ mul (mul x r) k = x :=
  ⟨mul_undo h, mul_undo (by rw [Nat.mul_comm]; exact h)⟩

/-! ## The block functions -/

theorem load_store (s : Four 16) : load (store s) = .ok s := by
  unfold load store
  rw [getBe16_word _ 0 0 s.a rfl rfl, getBe16_word _ 1 2 s.b rfl rfl, getBe16_word _ 2 4 s.c rfl rfl, getBe16_word _ 3 6 s.d rfl rfl]
  rfl

theorem store_surj (b : Bytes) (h : b.length = 8) : ∃ s, store s = b := by
  obtain ⟨ws, h1, rfl⟩ := words_be16 4 b h
  match ws, h1 with
  | [x, y, z, u], _ => exact ⟨⟨x, y, z, u⟩, rfl⟩

theorem store_len (s : Four 16) : (store s).length = 8 := by unfold store; rw [flatMap_putBe16_length]; rfl

theorem ma_ma (k4 k5 : W16) (s : Four 16) : ma k4 k5 (ma k4 k5 s) = s := by
  unfold ma
  simp only []
  have h : ∀ a b c : W16, (a ^^^ c) ^^^ (b ^^^ c) = a ^^^ b := by
    intro a b c
    rw [BitVec.xor_comm b c, BitVec.xor_assoc, ← BitVec.xor_assoc c c b, BitVec.xor_self, BitVec.zero_xor]
  simp only [h, xor_cancel_right]

/-- The first part of a round, and the transformation at the end. -/
def half (k0 k1 k2 k3 : W16) (s : Four 16) : Four 16 := ⟨mul s.a k0, s.c + k2, s.b + k1, mul s.d k3⟩
def unhalf (k0 k1 k2 k3 : W16) (s : Four 16) : Four 16 := ⟨mul s.a k0, s.c - k1, s.b - k2, mul s.d k3⟩

theorem unhalf_half {k0 k3 i0 i3 : W16} (k1 k2 : W16) (h0 : num k0 * num i0 % 65537 = 1) (h3 : num k3 * num i3 % 65537 = 1) (s : Four 16) :
    unhalf i0 k1 k2 i3 (half k0 k1 k2 k3 s) = s ∧ half k0 k1 k2 k3 (unhalf i0 k1 k2 i3 s) = s := by
  unfold half unhalf
  simp only [add_sub_cancel_right, sub_add_cancel, (mul_undo_inv h0 _).1, (mul_undo_inv h0 _).2, (mul_undo_inv h3 _).1, (mul_undo_inv h3 _).2,
    and_self]

def g (K : List W16) (i : Nat) : W16 := K.getD i 0

def stepE (K : List W16) (s : Four 16) (j : Nat) : Four 16 :=
  ma (g K (6 * j + 4)) (g K (6 * j + 5)) (half (g K (6 * j)) (g K (6 * j + 1)) (g K (6 * j + 2)) (g K (6 * j + 3)) s)
def stepD (K I : List W16) (s : Four 16) (j : Nat) : Four 16 :=
  unhalf (g I (6 * j)) (g K (6 * j + 1)) (g K (6 * j + 2)) (g I (6 * j + 3)) (ma (g K (6 * j + 4)) (g K (6 * j + 5)) s)

def E (K : List W16) (s : Four 16) : Four 16 :=
  half (g K 48) (g K 50) (g K 49) (g K 51) ((List.range 8).foldl (stepE K) s)
def D (K I : List W16) (s : Four 16) : Four 16 :=
  (List.range 8).reverse.foldl (stepD K I) (unhalf (g I 48) (g K 50) (g K 49) (g I 51) s)

/-- `I` holds the inverses of the subkeys used in products, and the other subkeys. -/
structure Inverts (K I : List W16) : Prop where
  len : I.length = 52
  mul : ∀ j, j < 9 → num (g K (6 * j)) * num (g I (6 * j)) % 65537 = 1 ∧ num (g K (6 * j + 3)) * num (g I (6 * j + 3)) % 65537 = 1
  other : ∀ i, i % 6 ≠ 0 → i % 6 ≠ 3 → g I i = g K i

theorem g_set (K : List W16) (i j : Nat) (x : W16) (h : i < K.length) : g (K.set i x) j = if i = j then x else g K j := by
  unfold g
  rw [List.getD_eq_getElem?_getD, List.getD_eq_getElem?_getD, List.getElem?_set]
  split
  · rename_i hij
    subst hij
    simp
  · rfl

theorem invSubkeys_run (K : List W16) (h : K.length = 52) : ∃ I, invSubkeys K = .ok I ∧ Inverts K I := by
  obtain ⟨I, h1, h2⟩ := forLoop_inv invStep (fun n I => I.length = 52 ∧
      (∀ j, j < n → num (g K (6 * j)) * num (g I (6 * j)) % 65537 = 1 ∧ num (g K (6 * j + 3)) * num (g I (6 * j + 3)) % 65537 = 1) ∧
      (∀ j, n ≤ j → g I (6 * j) = g K (6 * j) ∧ g I (6 * j + 3) = g K (6 * j + 3)) ∧
      (∀ i, i % 6 ≠ 0 → i % 6 ≠ 3 → g I i = g K i)) 9 0 K (fun i I a b hI => by
    obtain ⟨l, m, n, o⟩ := hI
    obtain ⟨r, r1, r2⟩ := invMul_run (g I (6 * i))
    obtain ⟨t, t1, t2⟩ := invMul_run (g I (6 * i + 3))
    have hg : (I.set (6 * i) r).getD (6 * i + 3) 0 = g I (6 * i + 3) := by
      show g (I.set (6 * i) r) (6 * i + 3) = _
      rw [g_set _ _ _ _ (by omega), if_neg (by omega)]
    have hl : (I.set (6 * i) r).length = 52 := by rw [List.length_set]; exact l
    refine ⟨(I.set (6 * i) r).set (6 * i + 3) t, ?_, ?_, ?_, ?_, ?_⟩
    · unfold invStep
      rw [rd_getD 0 (by omega), Out.bind_ok]
      rw [show I.getD (6 * i) 0 = g I (6 * i) from rfl, r1, Out.bind_ok, wr_of_lt (by omega), Out.bind_ok, rd_getD 0 (by omega), Out.bind_ok,
        hg, t1, Out.bind_ok, wr_of_lt (by omega)]
    · rw [List.length_set]; exact hl
    · intro j hj
      rw [g_set _ _ _ _ (by omega), g_set _ _ _ _ (by omega), g_set _ _ _ _ (by omega), g_set _ _ _ _ (by omega)]
      by_cases hji : j = i
      · subst hji
        rw [if_neg (by omega), if_pos rfl, if_pos rfl, ← (n j (le_refl _)).1, ← (n j (le_refl _)).2]
        exact ⟨r2, t2⟩
      · rw [if_neg (by omega), if_neg (by omega), if_neg (by omega), if_neg (by omega)]
        exact m j (by omega)
    · intro j hj
      rw [g_set _ _ _ _ (by omega), g_set _ _ _ _ (by omega), g_set _ _ _ _ (by omega), g_set _ _ _ _ (by omega),
        if_neg (by omega), if_neg (by omega), if_neg (by omega), if_neg (by omega)]
      exact n j (by omega)
    · intro j hj1 hj2
      rw [g_set _ _ _ _ (by omega), g_set _ _ _ _ (by omega), if_neg (by omega), if_neg (by omega)]
      exact o j hj1 hj2)
    ⟨h, by intro j hj; omega, fun j _ => ⟨rfl, rfl⟩, fun i _ _ => rfl⟩
  exact ⟨I, h1, h2.1, h2.2.1, h2.2.2.2⟩

theorem encBlock_eq (K : List W16) (h : K.length = 52) (s : Four 16) : encBlock K (store s) = .ok (store (E K s)) := by
  unfold encBlock
  rw [load_store, Out.bind_ok, forLoop_up0 (encStep K) (stepE K) 8 s (fun j s hj => by
    unfold encStep
    simp (disch := omega) only [rd_getD (0 : W16), Out.bind_ok, Out.pure_eq]
    rfl), Out.bind_ok]
  simp (disch := omega) only [rd_getD (0 : W16), Out.bind_ok, Out.pure_eq]
  rfl

theorem decBlock_eq (K I : List W16) (h : Inverts K I) (s : Four 16) : decBlock I (store s) = .ok (store (D K I s)) := by
  have hl := h.len
  have hd : ∀ i, i % 6 ≠ 0 → i % 6 ≠ 3 → I.getD i 0 = g K i := h.other
  unfold decBlock
  rw [load_store, Out.bind_ok]
  simp (disch := omega) only [rd_getD (0 : W16), Out.bind_ok, Out.pure_eq, hd]
  rw [forLoop_down0 (decStep I) (stepD K I) 8 _ (fun j s hj => by
    unfold decStep
    simp (disch := omega) only [rd_getD (0 : W16), Out.bind_ok, Out.pure_eq, hd]
    rfl), Out.bind_ok]
  rfl

theorem stepD_stepE {K I : List W16} (h : Inverts K I) (s : Four 16) (j : Nat) (hj : j < 9) :
    stepD K I (stepE K s j) j = s ∧ stepE K (stepD K I s j) j = s := by
  have := h.mul j hj
  unfold stepD stepE
  rw [ma_ma, (unhalf_half _ _ this.1 this.2 _).1, (unhalf_half _ _ this.1 this.2 _).2, ma_ma]
  exact ⟨rfl, rfl⟩

theorem D_E {K I : List W16} (h : Inverts K I) (s : Four 16) : D K I (E K s) = s ∧ E K (D K I s) = s := by
  have h8 := h.mul 8 (by decide)
  unfold D E
  rw [(unhalf_half _ _ h8.1 h8.2 _).1]
  constructor
  · have : ∀ (l : List Nat), (∀ j ∈ l, j < 9) → ∀ s, l.reverse.foldl (stepD K I) (l.foldl (stepE K) s) = s := by
      intro l
      induction l with
      | nil => intro _ s; rfl
      | cons j l ih =>
        intro hl s
        rw [List.reverse_cons, List.foldl_append]
        simp only [List.foldl_cons, List.foldl_nil]
        rw [ih (fun i hi => hl i (by simp [hi]))]
        exact (stepD_stepE h s j (hl j (by simp))).1
    exact this _ (by simp; omega) s
  · have : ∀ (l : List Nat), (∀ j ∈ l, j < 9) → ∀ s, l.foldl (stepE K) (l.reverse.foldl (stepD K I) s) = s := by
      intro l
      induction l with
      | nil => intro _ s; rfl
      | cons j l ih =>
        intro hl s
        rw [List.reverse_cons, List.foldl_append, List.foldl_cons]
        simp only [List.foldl_cons, List.foldl_nil]
        rw [(stepD_stepE h _ j (hl j (by simp))).2, ih (fun i hi => hl i (by simp [hi]))]
    rw [this _ (by simp; omega), (unhalf_half _ _ h8.1 h8.2 _).2]

theorem sched_defined (key : Bytes) : ∃ K, sched key = .ok K ∧ K.length = 52 := by
  have hl : (ldUserKey 4 4 key).length = 4 := length_ldUserKey 4 4 key
  unfold sched
  simp only []
  rw [rd_getD 0 (by omega), Out.bind_ok, rd_getD 0 (by omega), Out.bind_ok, rd_getD 0 (by omega), Out.bind_ok, rd_getD 0 (by omega),
    Out.bind_ok]
  refine ⟨_, rfl, ?_⟩
  have : ∀ n x, (expand n x).length = 8 * n + 4 := by
    intro n
    induction n with
    | zero => intro x; rfl
    | succ n ih => intro x; rw [expand, List.length_append, ih]; show 8 + _ = _; omega
  exact this 6 _

/-- C29 for IDEA, for all keys. -/
theorem idea_invertible (key : Bytes) : Invertible 8 (enc key) (dec key) := by
  obtain ⟨K, e, l⟩ := sched_defined key
  obtain ⟨I, f, hI⟩ := invSubkeys_run K l
  refine Invertible.ofState store store_surj store_len (E K) (D K I) (fun s => ?_) (fun s => ?_) (fun s => (D_E hI s).1) (fun s => (D_E hI s).2)
  · unfold enc; rw [e, Out.bind_ok, encBlock_eq K l]
  · unfold dec; rw [e, Out.bind_ok, f, Out.bind_ok, decBlock_eq K I hI]

/-! ## The publication -/

/-- The four words as one of 128 bits. -/
def cat (x : Four 32) : BitVec 128 := x.a ++ x.b ++ x.c ++ x.d

theorem cat_roll1 (x : Four 32) : cat (roll1 x) = (cat x).rotateLeft 1 := by
  apply BitVec.eq_of_getLsbD_eq
  intro i hi
  unfold cat roll1
  rw [BitVec.getLsbD_rotateLeft]
  simp only [BitVec.getLsbD_append, BitVec.getLsbD_or, BitVec.getLsbD_shiftLeft, BitVec.getLsbD_ushiftRight]
  interval_cases i <;> simp

theorem rotateLeft_succ (x : BitVec 128) (n : Nat) (h : n + 1 < 128) : (x.rotateLeft n).rotateLeft 1 = x.rotateLeft (n + 1) := by
  apply BitVec.eq_of_getLsbD_eq
  intro i hi
  rw [BitVec.getLsbD_rotateLeft, BitVec.getLsbD_rotateLeft, BitVec.getLsbD_rotateLeft, BitVec.getLsbD_rotateLeft,
    Nat.mod_eq_of_lt (show 1 < 128 by decide), Nat.mod_eq_of_lt h, Nat.mod_eq_of_lt (show n < 128 by omega)]
  have e : decide (i < 128) = true := by simpa using hi
  by_cases h1 : i < 1
  · have h2 : decide (i < n + 1) = true := by simp; omega
    have h3 : ¬ 128 - 1 + i < n := by omega
    have h4 : 128 - 1 + i < 128 := by omega
    simp only [h1, h2, h3, h4, decide_true, decide_false, cond_true, cond_false, Bool.true_and]
    congr 1
    omega
  · by_cases h2 : i < n + 1
    · have h3 : i - 1 < n := by omega
      simp only [h1, h2, h3, hi, decide_true, decide_false, cond_true, cond_false, Bool.true_and]
      congr 1
      omega
    · have h3 : ¬ i - 1 < n := by omega
      have h4 : i - 1 < 128 := by omega
      simp only [h1, h2, h3, h4, hi, decide_true, decide_false, cond_false, Bool.true_and]
      congr 1
      omega

theorem roll_succ (n : Nat) (x : Four 32) : roll (n + 1) x = roll1 (roll n x) := by
  induction n generalizing x with
  | zero => rfl
  | succ n ih => rw [roll, ih, roll]

theorem cat_roll : ∀ (n : Nat) (x : Four 32), n < 128 → cat (roll n x) = (cat x).rotateLeft n
  | 0, x, _ => by
    apply BitVec.eq_of_getLsbD_eq
    intro i hi
    rw [BitVec.getLsbD_rotateLeft]
    simp [roll, hi]
  | n + 1, x, h => by rw [roll_succ, cat_roll1, cat_roll n x (by omega), rotateLeft_succ _ _ h]

theorem words_cat (x : Four 32) : words (cat x) = eight x := by
  have hh : ∀ (y : W32), halves y = [y.extractLsb' 16 16, y.extractLsb' 0 16] := by
    intro y
    have a : (y &&& 0xffff#32).setWidth 16 = y.extractLsb' 0 16 := by
      apply BitVec.eq_of_getLsbD_eq; intro i hi; interval_cases i <;> simp
    have b : (y >>> 16).setWidth 16 = y.extractLsb' 16 16 := by
      apply BitVec.eq_of_getLsbD_eq; intro i hi; interval_cases i <;> simp
    unfold halves
    rw [a, b]
  unfold words eight
  rw [hh, hh, hh, hh]
  show [_, _, _, _, _, _, _, _] = [_, _, _, _, _, _, _, _]
  have e : ∀ (o : Nat) (y : W32) (p : Nat), (∀ i, i < 16 → (cat x).getLsbD (o + i) = y.getLsbD (p + i)) →
      (cat x).extractLsb' o 16 = y.extractLsb' p 16 := by
    intro o y p h
    apply BitVec.eq_of_getLsbD_eq
    intro i hi
    rw [BitVec.getLsbD_extractLsb', BitVec.getLsbD_extractLsb', h i hi]
  have c : ∀ i, (cat x).getLsbD i = if i < 32 then x.d.getLsbD i else if i < 64 then x.c.getLsbD (i - 32) else
      if i < 96 then x.b.getLsbD (i - 64) else x.a.getLsbD (i - 96) := by
    intro i
    unfold cat
    rw [BitVec.getLsbD_append, BitVec.getLsbD_append, BitVec.getLsbD_append]
    by_cases h1 : i < 32
    · simp [h1]
    · by_cases h2 : i < 64
      · have : i - 32 < 32 := by omega
        simp [h1, h2, this]
      · by_cases h3 : i < 96
        · have a : ¬ i - 32 < 32 := by omega
          have b : i - 32 - 32 < 32 := by omega
          have d : i - 32 - 32 = i - 64 := by omega
          rw [d] at b
          simp [h1, h2, h3, a, b, d]
        · have a : ¬ i - 32 < 32 := by omega
          have b : ¬ i - 32 - 32 < 32 := by omega
          have d : i - 32 - 32 - 32 = i - 96 := by omega
          simp only [h1, h2, h3, a, b, d, if_false]
  have e0 := e 112 x.a 16 (fun i hi => by rw [c, if_neg (by omega), if_neg (by omega), if_neg (by omega)]; congr 1; omega)
  have e1 := e 96 x.a 0 (fun i hi => by rw [c, if_neg (by omega), if_neg (by omega), if_neg (by omega)]; congr 1; omega)
  have e2 := e 80 x.b 16 (fun i hi => by rw [c, if_neg (by omega), if_neg (by omega), if_pos (by omega)]; congr 1; omega)
  have e3 := e 64 x.b 0 (fun i hi => by rw [c, if_neg (by omega), if_neg (by omega), if_pos (by omega)]; congr 1; omega)
  have e4 := e 48 x.c 16 (fun i hi => by rw [c, if_neg (by omega), if_pos (by omega)]; congr 1; omega)
  have e5 := e 32 x.c 0 (fun i hi => by rw [c, if_neg (by omega), if_pos (by omega)]; congr 1; omega)
  have e6 := e 16 x.d 16 (fun i hi => by rw [c, if_pos (by omega)])
  have e7 := e 0 x.d 0 (fun i hi => by rw [c, if_pos (by omega)])
  exact congr (congrArg _ e0) <| congr (congrArg _ e1) <| congr (congrArg _ e2) <| congr (congrArg _ e3) <| congr (congrArg _ e4) <|
    congr (congrArg _ e5) <| congr (congrArg _ e6) <| congr (congrArg _ e7) rfl

theorem expand_eq : ∀ (n : Nat) (x : Four 32), expand n x = subkeys n (cat x)
  | 0, x => by rw [subkeys, words_cat]; rfl
  | n + 1, x => by rw [expand, subkeys, words_cat, expand_eq n, cat_roll 25 x (by decide)]

theorem step_spec (k0 k1 k2 k3 k4 k5 : W16) (s : Four 16) : ma k4 k5 (half k0 k1 k2 k3 s) = round k0 k1 k2 k3 k4 k5 s := by
  have hc : ∀ x y, prod x y = prod y x := fun x y => by unfold prod; rw [Nat.mul_comm]
  unfold ma half round
  simp only [mul_eq]
  rw [hc k4, BitVec.add_comm (prod (prod s.a k0 ^^^ (s.c + k2)) k4)]

theorem run_spec (K : List W16) (h : K.length = 52) (s : Four 16) : run K s = E K s := by
  match K, h with
  | a0 :: a1 :: a2 :: a3 :: a4 :: a5 :: b0 :: b1 :: b2 :: b3 :: b4 :: b5 :: c0 :: c1 :: c2 :: c3 :: c4 :: c5 :: d0 :: d1 :: d2 :: d3 :: d4 :: d5 :: e0 :: e1 :: e2 :: e3 :: e4 :: e5 ::
      f0 :: f1 :: f2 :: f3 :: f4 :: f5 :: g0 :: g1 :: g2 :: g3 :: g4 :: g5 :: h0 :: h1 :: h2 :: h3 :: h4 :: h5 :: i0 :: i1 :: i2 :: i3 :: [], _ =>
    unfold E
    rw [show List.range 8 = [0, 1, 2, 3, 4, 5, 6, 7] from rfl]
    simp only [List.foldl_cons, List.foldl_nil, stepE, step_spec]
    unfold half
    simp only [mul_eq]
    rfl

open Spec.MD in
/-- C78: IDEA encrypts as published, with the first sixteen bytes of the key, filled up with zeros when the last word is complete or half
full. -/
theorem idea_standard (key : Bytes) (h : 16 ≤ key.length ∨ key.length % 2 = 0) (s : Four 16) :
    enc key (store s) = .ok (store (Spec.Idea.encrypt (BitVec.ofNat 128 (beNat (zeroPad 16 key))) s)) := by
  have hl : (ldUserKey 4 4 key).length = 4 := length_ldUserKey 4 4 key
  obtain ⟨K, e, l⟩ := sched_defined key
  have hc : cat ⟨(ldUserKey 4 4 key).getD 0 0, (ldUserKey 4 4 key).getD 1 0, (ldUserKey 4 4 key).getD 2 0, (ldUserKey 4 4 key).getD 3 0⟩ =
      BitVec.ofNat 128 (beNat (zeroPad 16 key)) := by
    have hz : (zeroPad 16 key).length = 16 := by
      unfold zeroPad
      rw [List.length_append, List.length_take, List.length_replicate]
      omega
    have hw : ldUserKey 4 4 key = beWords 32 4 (zeroPad 16 key) := ldUserKey_padded_partial 4 4 (by decide) key (by omega)
    rw [hw]
    generalize zeroPad 16 key = b at hz ⊢
    obtain ⟨w0, f0⟩ := split_be32 b (by omega)
    obtain ⟨w1, f1⟩ := split_be32 (b.drop 4) (by rw [List.length_drop]; omega)
    obtain ⟨w2, f2⟩ := split_be32 ((b.drop 4).drop 4) (by rw [List.length_drop, List.length_drop]; omega)
    obtain ⟨w3, f3⟩ := split_be32 (((b.drop 4).drop 4).drop 4) (by rw [List.length_drop, List.length_drop, List.length_drop]; omega)
    have f4 : (((b.drop 4).drop 4).drop 4).drop 4 = [] := by simp; omega
    have hb : b = putBe32 w0 ++ (putBe32 w1 ++ (putBe32 w2 ++ putBe32 w3)) := by
      rw [f4, List.append_nil] at f3
      rw [← f3, ← f2, ← f1, ← f0]
    rw [hb]
    have hn : ∀ v : W32, beNat (putBe32 v) = v.toNat := by
      intro v
      obtain ⟨a, b, c, d, h1, h2⟩ := be32_putBe32 v
      rw [h1, ← h2, be32_toNat]
      simp only [beNat, List.foldl_cons, List.foldl_nil]
      omega
    have hq : beWords 32 4 (putBe32 w0 ++ (putBe32 w1 ++ (putBe32 w2 ++ putBe32 w3))) = [w0, w1, w2, w3] := by
      have hs : ∀ (v : W32) (t : Bytes), beWords 32 4 (putBe32 v ++ t) = v :: beWords 32 4 t := by
        intro v t
        rw [beWords, Kryptos.Hash.chunks_append 4 (by decide) _ _ rfl, List.map_cons, hn, BitVec.ofNat_toNat, BitVec.setWidth_eq]
        rfl
      rw [hs, hs, hs, ← List.append_nil (putBe32 w3), hs]
      rfl
    rw [hq, beNat_append, beNat_append, beNat_append, hn, hn, hn, hn]
    have hp : ∀ v : W32, (putBe32 v).length = 4 := fun v => rfl
    simp only [List.length_append, hp]
    show (w0 ++ w1 ++ w2 ++ w3 : BitVec 128) = _
    apply BitVec.eq_of_toNat_eq
    have := w0.isLt; have := w1.isLt; have := w2.isLt; have := w3.isLt
    have ha : ∀ {n : Nat} (x : BitVec n) (y : W32), (x ++ y).toNat = x.toNat * 2 ^ 32 + y.toNat := by
      intro n x y
      rw [BitVec.toNat_append, Nat.shiftLeft_eq, Nat.mul_comm, ← Nat.two_pow_add_eq_or_of_lt y.isLt]
    rw [ha, ha, ha, BitVec.toNat_ofNat]
    omega
  unfold enc
  have : sched key = .ok (subkeys 6 (BitVec.ofNat 128 (beNat (zeroPad 16 key)))) := by
    rw [← hc, ← expand_eq]
    unfold sched
    simp only []
    rw [rd_getD 0 (by omega), Out.bind_ok, rd_getD 0 (by omega), Out.bind_ok, rd_getD 0 (by omega), Out.bind_ok, rd_getD 0 (by omega),
      Out.bind_ok]
    rfl
  rw [this] at e
  rw [this, Out.bind_ok]
  obtain rfl := Out.ok.inj e
  rw [encBlock_eq _ l, ← run_spec _ l]
  rfl

/-- A published vector: the hypothesis of `idea_standard` holds, and the bytes are those of src/tests/idea_test_vector.h:86-91. -/
example : let key := (List.range 16).map fun i => if i % 2 = 1 then BitVec.ofNat 8 (i / 2 + 1) else 0
    16 ≤ key.length ∧ enc key [0, 0, 0, 1, 0, 2, 0, 3] = .ok [0x11, 0xFB, 0xED, 0x2B, 0x01, 0x98, 0x6D, 0xE5] ∧
    dec key [0x11, 0xFB, 0xED, 0x2B, 0x01, 0x98, 0x6D, 0xE5] = .ok [0, 0, 0, 1, 0, 2, 0, 3] ∧
    store (Spec.Idea.encrypt (BitVec.ofNat 128 (Spec.MD.beNat key)) ⟨0, 1, 2, 3⟩) = [0x11, 0xFB, 0xED, 0x2B, 0x01, 0x98, 0x6D, 0xE5] := by
  decide +kernel

/-- A short key with a complete last word, and zero words in the schedule. -/
example : enc [0x80, 0, 0, 0] [0, 0, 0, 0, 0, 0, 0, 0] = .ok [0xB1, 0xF5, 0xF7, 0xF8, 0x79, 0x01, 0x37, 0x0F] ∧
    dec [0x80, 0, 0, 0] [0xB1, 0xF5, 0xF7, 0xF8, 0x79, 0x01, 0x37, 0x0F] = .ok [0, 0, 0, 0, 0, 0, 0, 0] := by decide +kernel

end Kryptos.Idea
