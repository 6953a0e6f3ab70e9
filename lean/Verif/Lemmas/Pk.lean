import Mathlib.FieldTheory.Finite.Basic
import Verif.Model.Rsa
import Verif.Props.Pem
import Verif.Props.MpDiv
import Verif.Props.MpHex
import Verif.Lemmas.MpNat
/-
  Numbers in PEM buffers and powers modulo a number, as the public key algorithms use them.
-/
namespace Kryptos.Mp
open Spec.Mp

variable {w : Nat}

/-- No leading zero digits. -/
def Normed (r : Num w) : Prop := r.data.length = max (sig r.data) 1

theorem normed_one (hw : 0 < w) : Normed (one : Num w) := by
  have : ¬ w = 0 := by omega
  simp [Normed, one, sig, this]

theorem normed_zero : Normed (zero : Num w) := by simp [Normed, zero, sig]

theorem modO_normed (hw : 16 ≤ w) (p n r : Num w) (hp : Normed p) (hpn : p.neg = false) (hn : n.neg = false)
    (h : modO (some p) (some n) = .ok (some r)) : Normed r ∧ r.neg = false := by
  have hpl : 0 < p.data.length := by rw [hp]; omega
  rw [modO, div] at h
  by_cases hz : isZeroD n.data = true
  · rw [if_pos hz] at h
    simp at h
  rw [if_neg hz] at h
  have hz' : val n.data ≠ 0 := fun h0 => hz ((isZeroD_iff _).2 h0)
  by_cases hx : isZeroD p.data = true
  · rw [if_pos hx] at h
    simp only [Out.bind_ok, Option.map_some, Out.ok.injEq, Option.some.injEq] at h
    rw [← h]
    exact ⟨normed_zero, rfl⟩
  rw [if_neg hx] at h
  by_cases hl : lt p n = true
  · rw [if_pos hl] at h
    simp only [Out.bind_ok, Option.map_some, Out.ok.injEq, Option.some.injEq] at h
    rw [← h, assign_none_eq (by omega) p hpl]
    exact ⟨hp, hpn⟩
  · rw [if_neg hl] at h
    obtain ⟨q, r', h1, -, h3, -⟩ := divMain_spec hw p n hpl hpn hn hz'
    rw [h1] at h
    simp only [Out.bind_ok, Option.map_some, Out.ok.injEq, Option.some.injEq] at h
    rw [← h]
    exact ⟨h3, rfl⟩

theorem mulmod_normed (hw : 16 ≤ w) (a b n r : Num w) (hn : n.neg = false)
    (h : (do let p ← mulO (some a) (some b); modO p (some n)) = .ok (some r)) : Normed r := by
  obtain ⟨p, h1, h2, h3⟩ := mul_spec (by omega) a b
  simp only [mulO, h1, Out.bind_ok] at h
  exact (modO_normed hw ⟨p, false⟩ n r h3 rfl hn h).1

/-- The result of `kryptos_mp_me_mod_n` has no leading zero digits. -/
theorem me_normed (hw : 16 ≤ w) (m e n r : Num w) (hn : n.neg = false) (hn0 : val n.data ≠ 0)
    (h : meModN m e n = .ok (some r)) : Normed r := by
  rw [meModN] at h
  have key : ∀ (bs : List Bool) (a : Num w), Normed a → bs.foldlM (meStep m n) (some a) = .ok (some r) → Normed r := by
    intro bs
    induction bs with
    | nil =>
      intro a ha h
      simp only [List.foldlM_nil, Out.pure_eq, Out.ok.injEq, Option.some.injEq] at h
      rw [← h]; exact ha
    | cons b bs ih =>
      intro a ha h
      rw [List.foldlM_cons] at h
      obtain ⟨s, h1, -⟩ := mulmod_spec hw a a n hn hn0
      have hs := mulmod_normed hw a a n s hn h1
      cases b with
      | false =>
        have : meStep m n (some a) false = .ok (some s) := by
          simp only [meStep]
          rw [← bind_assoc, h1]; rfl
        rw [this, Out.bind_ok] at h
        exact ih s hs h
      | true =>
        obtain ⟨t, g1, -⟩ := mulmod_spec hw s m n hn hn0
        have : meStep m n (some a) true = .ok (some t) := by
          simp only [meStep]
          rw [← bind_assoc, h1]; exact g1
        rw [this, Out.bind_ok] at h
        exact ih t (mulmod_normed hw s m n t hn g1) h
  exact key _ one (normed_one (by omega)) h

/-- A number without leading zero digits is determined by its value. -/
theorem normed_length (r : Num w) (hr : Normed r) (l : Nat) (hl : 1 < l)
    (h1 : 2 ^ (w * (l - 1)) ≤ val r.data) (h2 : val r.data < 2 ^ (w * l)) : r.data.length = l := by
  have hs : 0 < sig r.data := by
    rcases Nat.eq_zero_or_pos (sig r.data) with h | h
    · have := (sig_zero _).1 h
      have := Nat.two_pow_pos (w * (l - 1))
      omega
    · exact h
  have h3 := sig_pos_le r.data hs
  have h4 := val_lt r.data
  rw [hr, Nat.max_eq_left hs] at h4 ⊢
  have h5 := (Nat.pow_lt_pow_iff_right (a := 2) (by omega)).1 (lt_of_le_of_lt h1 h4)
  have h6 := (Nat.pow_lt_pow_iff_right (a := 2) (by omega)).1 (lt_of_le_of_lt h3 h2)
  have h7 := Nat.lt_of_mul_lt_mul_left h5
  have h8 := Nat.lt_of_mul_lt_mul_left h6
  omega

/-! ## Values of numbers through divisions, products and powers -/

/-- The division of `a` by the number is right: `a` is smaller, or the number has no leading zero digit and no guess overflows. -/
def DivFine (w : Nat) (y : Num w) (a : Nat) : Prop :=
  a < val y.data ∨ (sig y.data = y.data.length ∧ ∀ j, ¬ GuessOverflows w a (val y.data) j)

theorem divFine_single (y : Num w) (hy : val y.data ≠ 0) (h1 : y.data.length = 1) (a : Nat) : DivFine w y a := by
  have hlt := val_lt y.data
  rw [h1, Nat.mul_one] at hlt
  refine .inr ⟨?_, fun j => no_overflow_single _ _ _ hy hlt⟩
  have := sig_le y.data
  have : sig y.data ≠ 0 := fun h' => hy ((sig_zero _).1 h')
  omega

theorem Is.div (hw : 16 ≤ w) {x y : Num w} {a b : Nat} (hx : Is x a) (hy : Is y b) (hb : b ≠ 0) :
    ∃ q r A B, div x y = .ok (some (q, r)) ∧ Is q A ∧ Is r B ∧ a = A * b + B ∧ (DivFine w y a → B = a % b) := by
  have hval := hy.2.2
  by_cases hlt : a < b
  · have hyz : isZeroD y.data = false := by rw [← Bool.not_eq_true, isZeroD_iff, hval]; exact hb
    rw [Mp.div, if_neg (by simp [hyz])]
    by_cases ha : a = 0
    · rw [if_pos ((isZeroD_iff _).2 (by rw [hx.2.2, ha]))]
      exact ⟨_, _, 0, 0, rfl, is_zero, is_zero, by omega, fun _ => by rw [ha]; simp⟩
    · rw [if_neg (by rw [isZeroD_iff, hx.2.2]; exact ha), if_pos (by rw [hx.lt hy]; simpa using hlt)]
      exact ⟨_, _, 0, a, rfl, is_zero, hx.assignOpt (by omega) none, by omega, fun _ => (Nat.mod_eq_of_lt hlt).symm⟩
  · obtain ⟨q, r, h1, h2, h3, h4, h5, h6, -⟩ := div_exact_iff hw x y (List.ne_nil_of_length_pos hx.1) hx.2.1 hy.2.1 (by rw [hval]; exact hb)
    refine ⟨q, r, _, _, h1, .intro h4 h2, .intro h5 h3, by rw [← hx.2.2, ← hval]; exact h6, ?_⟩
    rintro (h | ⟨hs, hno⟩)
    · rw [hval] at h; exact absurd h hlt
    · obtain ⟨q', r', g1, -, -, -, -, -, g2⟩ := div_partial hw x y (List.ne_nil_of_length_pos hx.1) hx.2.1 hy.2.1
        (by rw [hval]; exact hb) hs (by rw [hx.2.2]; exact hno)
      rw [h1, Out.ok.injEq, Option.some.injEq, Prod.mk.injEq] at g1
      rw [g1.2, g2, hx.2.2, hval]

theorem Is.modO (hw : 16 ≤ w) {x y : Num w} {a b : Nat} (hx : Is x a) (hy : Is y b) (hb : b ≠ 0) :
    ∃ r B, Mp.modO (some x) (some y) = .ok (some r) ∧ Is r B ∧ B ≡ a [MOD b] ∧ (DivFine w y a → B = a % b) := by
  obtain ⟨q, r, A, B, h1, h2, h3, h4, h5⟩ := hx.div hw hy hb
  refine ⟨r, B, by simp only [Mp.modO, h1, Out.bind_ok, Option.map_some], h3, ?_, h5⟩
  rw [h4, Nat.ModEq, Nat.add_comm, Nat.add_mul_mod_self_right]

theorem Is.mulmod (hw : 16 ≤ w) {x y n : Num w} {a b c : Nat} (hx : Is x a) (hy : Is y b) (hn : Is n c) (hc : c ≠ 0) :
    ∃ r B, (do let p ← mulO (some x) (some y); Mp.modO p (some n)) = .ok (some r) ∧ Is r B ∧ Normed r ∧ B ≡ a * b [MOD c] ∧
      (DivFine w n (a * b) → B = a * b % c) := by
  obtain ⟨p, h1, h2⟩ := hx.mul (by omega) hy
  obtain ⟨r, B, h3, h4, h5, h6⟩ := h2.modO hw hn hc
  have : (do let p ← mulO (some x) (some y); Mp.modO p (some n)) = .ok (some r) := by
    simp only [mulO, h1, Out.bind_ok]
    exact h3
  exact ⟨r, B, this, h4, mulmod_normed hw _ _ _ _ hn.2.1 this, h5, h6⟩

theorem Is.me (hw : 16 ≤ w) {m e n : Num w} {a k c : Nat} (hm : Is m a) (he : Is e k) (hn : Is n c) (hc : c ≠ 0) :
    ∃ r B, meModN m e n = .ok (some r) ∧ Is r B ∧ Normed r ∧ B ≡ a ^ k [MOD c] ∧
      (sig n.data = n.data.length → MeetsNoOverflow w a k c → B = a ^ k % c) := by
  have hc' : val n.data ≠ 0 := by rw [hn.2.2]; exact hc
  obtain ⟨r, h1, h2, h3⟩ := me_congruent hw m e n hn.2.1 hc'
  have h4 := me_normed hw _ _ _ _ hn.2.1 hc' h1
  have h5 : 0 < r.data.length := by rw [h4]; omega
  rw [hm.2.2, he.2.2, hn.2.2] at h3
  refine ⟨r, _, h1, ⟨h5, h2, rfl⟩, h4, h3, fun hs hno => ?_⟩
  obtain ⟨r', g1, -, g2⟩ := me_partial hw m e n (List.ne_nil_of_length_pos he.1) hn.2.1 hc' hs
    (by rw [hm.2.2, he.2.2, hn.2.2]; exact hno)
  rw [h1, Out.ok.injEq, Option.some.injEq] at g1
  rw [g1, g2, hm.2.2, he.2.2, hn.2.2]

theorem meets_single (n : Num w) (hn : val n.data ≠ 0) (h1 : n.data.length = 1) (a k : Nat) :
    sig n.data = n.data.length ∧ MeetsNoOverflow w a k (val n.data) := by
  have hlt := val_lt n.data
  rw [h1, Nat.mul_one] at hlt
  have := sig_le n.data
  have : sig n.data ≠ 0 := fun h' => hn ((sig_zero _).1 h')
  exact ⟨by omega, fun _ _ => ⟨no_overflow_single _ _ _ hn hlt, no_overflow_single _ _ _ hn hlt⟩⟩

theorem bits_zero : ∀ (d : Digits w), val d = 0 → ∀ b ∈ bitsMsb d, b = false := by
  intro d hd b hb
  have hz := (isZeroD_iff d).2 hd
  simp only [bitsMsb, List.mem_flatMap, List.mem_reverse, List.mem_map, List.mem_range] at hb
  obtain ⟨x, hx, i, -, rfl⟩ := hb
  have : x = 0 := by
    simp only [isZeroD, List.all_eq_true] at hz
    simpa using hz x hx
  rw [this]
  simp

/-- The power with exponent zero is one. -/
theorem Is.me_zero (hw : 16 ≤ w) {e n : Num w} {c : Nat} (m : Num w) (he : val e.data = 0) (hn : Is n c) (hc : 1 < c) :
    ∃ r, meModN m e n = .ok (some r) ∧ Is r 1 := by
  have key : ∀ (bs : List Bool), (∀ b ∈ bs, b = false) → ∀ a : Num w, Is a 1 →
      ∃ r, bs.foldlM (meStep m n) (some a) = .ok (some r) ∧ Is r 1 := by
    intro bs
    induction bs with
    | nil => intro _ a ha; exact ⟨a, rfl, ha⟩
    | cons b bs ih =>
      intro hb a ha
      obtain rfl : b = false := hb b (by simp)
      obtain ⟨r, B, h1, h2, -, -, h3⟩ := ha.mulmod hw ha hn (by omega)
      have h4 : B = 1 := by
        rw [h3 (.inl (by rw [hn.2.2]; omega))]
        exact Nat.mod_eq_of_lt (by omega)
      rw [List.foldlM_cons]
      have : meStep m n (some a) false = .ok (some r) := by
        simp only [meStep]
        rw [← bind_assoc, h1]; rfl
      rw [this, Out.bind_ok]
      exact ih (fun b hb' => hb b (by simp [hb'])) r (h4 ▸ h2)
  exact key _ (bits_zero e.data he) one (is_one (by omega))

end Kryptos.Mp

namespace Kryptos.Rsa
open Mp Spec.Mp Pem

variable {w : Nat}

theorem runPuts_putMps : ∀ (ops : List (String × Num w)) (pem pem' : Option Bytes) (rs : List TaskResult),
    runPuts true pem (ops.map fun x => (ascii x.1, leBytes x.2.data)) = .ok (rs, pem') → (∀ r ∈ rs, r = .success) →
    putMps pem ops = .ok (.success, pem')
  | [], pem, pem', rs, h, _ => by
    simp only [List.map_nil, runPuts, Out.ok.injEq, Prod.mk.injEq] at h
    rw [putMps, h.2]
  | (h, n) :: ops, pem, pem', rs, hr, hs => by
    simp only [List.map_cons, runPuts] at hr
    cases hp : putData true pem (some (ascii h)) (some (leBytes n.data)) with
    | ub => rw [hp] at hr; simp at hr
    | ok rp =>
      rw [hp, Out.bind_ok] at hr
      cases hq : runPuts true rp.2 (ops.map fun x => (ascii x.1, leBytes x.2.data)) with
      | ub => rw [hq] at hr; simp at hr
      | ok rq =>
        rw [hq] at hr
        simp only [Out.bind_ok, Out.pure_eq, Out.ok.injEq, Prod.mk.injEq] at hr
        obtain ⟨h1, h2⟩ := hr
        rw [← h1] at hs
        have h3 : rp.1 = .success := hs _ (by simp)
        rw [putMps, hp, Out.bind_ok, if_neg (by simp [h3])]
        rw [← h2]
        exact runPuts_putMps ops rp.2 rq.2 rq.1 hq (fun r hr => hs r (by simp [hr]))

theorem specRun_fresh : ∀ (ops : List (Bytes × Bytes)) (m : Map), (∀ x ∈ ops, x.2 ≠ []) →
    ((m ++ ops).map Prod.fst).Nodup → (∀ r ∈ (specRun m ops).1, r = .success) ∧ (specRun m ops).2 = m ++ ops
  | [], m, _, _ => by simp [specRun]
  | (h, d) :: ops, m, hd, hn => by
    have hl : m.lookup h = none := by
      rw [List.lookup_eq_none_iff]
      intro x hx
      rw [List.map_append, List.nodup_append] at hn
      have := hn.2.2 x.1 (List.mem_map_of_mem hx) h (by simp)
      simpa using this.symm
    have hp : specPut m h d = (.success, m ++ [(h, d)]) := by
      rw [specPut, if_neg (hd (h, d) (by simp)), hl]
      rfl
    have ih := specRun_fresh ops (m ++ [(h, d)]) (fun x hx => hd x (by simp [hx])) (by simpa using hn)
    rw [specRun, hp]
    refine ⟨?_, by rw [ih.2]; simp⟩
    intro r hr
    rcases List.mem_cons.1 hr with rfl | hr
    · rfl
    · exact ih.1 r hr

theorem leBytes_ne_nil (hw : 8 ≤ w) (d : Digits w) (h : d ≠ []) : leBytes d ≠ [] := by
  obtain ⟨x, l, rfl⟩ := List.exists_cons_of_ne_nil h
  intro h0
  have := congrArg List.length h0
  simp only [leBytes, List.flatMap_cons, List.length_append, List.length_map, List.length_range, List.length_nil] at this
  have : 1 ≤ w / 8 := (Nat.le_div_iff_mul_le (by omega)).2 (by omega)
  omega

theorem nodup_lookup {α β : Type} [BEq α] [LawfulBEq α] : ∀ (l : List (α × β)), (l.map Prod.fst).Nodup → ∀ x ∈ l,
    l.lookup x.1 = some x.2
  | [], _, x, hx => by simp at hx
  | (a, b) :: l, hn, x, hx => by
    simp only [List.map_cons, List.nodup_cons] at hn
    rcases List.mem_cons.1 hx with rfl | hx
    · simp [List.lookup]
    · have hne : x.1 ≠ a := fun h => hn.1 (h ▸ List.mem_map_of_mem hx)
      rw [List.lookup_cons, (beq_eq_false_iff_ne).2 hne]
      exact nodup_lookup l hn.2 x hx

/-- Numbers put under different good headers into a fresh buffer are read back. -/
theorem putMps_get (hw : w = 32 ∨ w = 64) (ops : List (String × Num w)) (hne : ops ≠ [])
    (hg : ∀ x ∈ ops, Good (ascii x.1) ∧ x.2.data ≠ [])
    (hn : (ops.map fun x => ascii x.1).Nodup) :
    ∃ pem, putMps none ops = .ok (.success, some pem) ∧ pem ≠ [] ∧
      ∀ x ∈ ops, getMp w x.1 pem = .ok (some ⟨x.2.data, false⟩) := by
  have hw8 : 8 ≤ w := by rcases hw with rfl | rfl <;> decide
  have hspec := specRun_fresh (ops.map fun x => (ascii x.1, leBytes x.2.data)) []
    (by
      intro x hx
      obtain ⟨y, hy, rfl⟩ := List.mem_map.1 hx
      exact leBytes_ne_nil hw8 _ (hg y hy).2)
    (by
      rw [List.nil_append, List.map_map]
      exact hn)
  have hgood : ∀ x ∈ ops.map fun x => (ascii x.1, leBytes x.2.data), Good x.1 := by
    intro x hx
    obtain ⟨y, hy, rfl⟩ := List.mem_map.1 hx
    exact (hg y hy).1
  have hread : ∀ x ∈ ops, ∃ pem, runPuts true none (ops.map fun x => (ascii x.1, leBytes x.2.data)) =
      .ok ((specRun [] (ops.map fun x => (ascii x.1, leBytes x.2.data))).1, pem) ∧
      getMpData w (some (ascii x.1)) pem = .ok (some ⟨x.2.data, false⟩) := by
    intro x hx
    refine pem_mp_roundtrip w hw true _ hgood (ascii x.1) (hg x hx).1 x.2 (hg x hx).2 ?_
    rw [hspec.2, List.nil_append]
    exact nodup_lookup (ops.map fun x => (ascii x.1, leBytes x.2.data)) (by rw [List.map_map]; exact hn) (ascii x.1, leBytes x.2.data)
      (List.mem_map.2 ⟨x, hx, rfl⟩)
  obtain ⟨x0, l0, h0⟩ := List.exists_cons_of_ne_nil hne
  obtain ⟨pem, h1, h2⟩ := hread x0 (by simp [h0])
  cases pem with
  | none => simp [getMpData, getData] at h2
  | some pem =>
    refine ⟨pem, runPuts_putMps ops none _ _ h1 hspec.1, ?_, ?_⟩
    · rintro rfl
      simp [getMpData, getData] at h2
    · intro x hx
      obtain ⟨pem', g1, g2⟩ := hread x hx
      rw [h1] at g1
      simp only [Out.ok.injEq, Prod.mk.injEq, true_and] at g1
      rw [getMp, g1]
      exact g2

/-- A number which is read has no sign and a digit. -/
theorem getMp_spec (hw : 8 ≤ w) {h : String} {buf : Bytes} {n : Num w} (hg : getMp w h buf = .ok (some n)) :
    n.neg = false ∧ n.data ≠ [] ∧ ∃ d, getData (some (ascii h)) (some buf) = .ok (some d) := by
  rw [getMp, getMpData] at hg
  cases hd : getData (some (ascii h)) (some buf) with
  | ub => rw [hd] at hg; simp at hg
  | ok o =>
    cases o with
    | none => rw [hd] at hg; simp at hg
    | some d =>
      rw [hd] at hg
      simp only [Out.bind_ok, Out.pure_eq, Out.ok.injEq, Option.some.injEq] at hg
      rw [← hg]
      refine ⟨rfl, ?_, d, rfl⟩
      have h1 : 1 ≤ w / 8 := (Nat.le_div_iff_mul_le (by omega)).2 (by omega)
      have h2 : 1 ≤ ((if d.length < w / 8 then w / 8 else d.length) + w / 8 - 1) / (w / 8) := by
        rw [Nat.le_div_iff_mul_le (by omega)]
        split <;> omega
      obtain ⟨k, hk⟩ := Nat.exists_eq_add_of_le h2
      show digitsOfBytes w _ d ≠ []
      rw [hk, Nat.add_comm]
      simp [digitsOfBytes]

/-- The buffer consists of numbers under the headers. -/
def HoldsNums (buf : Bytes) (ops : List (String × Num w)) : Prop :=
  Holds buf (ops.map fun x => (ascii x.1, leBytes x.2.data)) ∧ (∀ x ∈ ops, Good (ascii x.1) ∧ x.2.data ≠ []) ∧
    (ops.map fun x => ascii x.1).Nodup

theorem holdsNums_put (hw : 8 ≤ w) (ops : List (String × Num w)) (hne : ops ≠ [])
    (hg : ∀ x ∈ ops, Good (ascii x.1) ∧ x.2.data ≠ []) (hn : (ops.map fun x => ascii x.1).Nodup) :
    ∃ pem, putMps none ops = .ok (.success, some pem) ∧ HoldsNums pem ops := by
  have hspec := specRun_fresh (ops.map fun x => (ascii x.1, leBytes x.2.data)) []
    (by
      intro x hx
      obtain ⟨y, hy, rfl⟩ := List.mem_map.1 hx
      exact leBytes_ne_nil hw _ (hg y hy).2)
    (by
      rw [List.nil_append, List.map_map]
      exact hn)
  have hgood : ∀ x ∈ ops.map fun x => (ascii x.1, leBytes x.2.data), Good x.1 := by
    intro x hx
    obtain ⟨y, hy, rfl⟩ := List.mem_map.1 hx
    exact (hg y hy).1
  rw [List.nil_append] at hspec
  obtain ⟨pem, h1, h2⟩ := holds_run true _ hgood (by rw [hspec.2]; simpa using hne)
  exact ⟨pem, runPuts_putMps ops none _ _ h1 hspec.1, hspec.2 ▸ h2, hg, hn⟩

theorem HoldsNums.get (hw : w = 32 ∨ w = 64) {buf : Bytes} {ops : List (String × Num w)} (h : HoldsNums buf ops) (x : String × Num w)
    (hx : x ∈ ops) : getMp w x.1 buf = .ok (some ⟨x.2.data, false⟩) := by
  obtain ⟨h1, h2, h3⟩ := h
  refine h1.getMp w hw (h2 x hx).1 x.2.data (h2 x hx).2 ?_
  exact nodup_lookup (ops.map fun x => (ascii x.1, leBytes x.2.data)) (by rw [List.map_map]; exact h3)
    (ascii x.1, leBytes x.2.data) (List.mem_map.2 ⟨x, hx, rfl⟩)

theorem HoldsNums.absent {buf : Bytes} {ops : List (String × Num w)} (h : HoldsNums buf ops) (hdr : String)
    (hh : Good (ascii hdr)) (hn : ascii hdr ∉ ops.map fun x => ascii x.1) : getMp w hdr buf = .ok none := by
  refine h.1.absent w hh ?_
  rw [List.lookup_eq_none_iff]
  intro p hp
  obtain ⟨y, hy, rfl⟩ := List.mem_map.1 hp
  simp only [bne_iff_ne, ne_eq]
  intro e
  exact hn (List.mem_map.2 ⟨y, hy, e.symm⟩)

theorem HoldsNums.append {b1 b2 : Bytes} {o1 o2 : List (String × Num w)} (h1 : HoldsNums b1 o1) (h2 : HoldsNums b2 o2)
    (hn : ((o1 ++ o2).map fun x => ascii x.1).Nodup) : HoldsNums (b1 ++ b2) (o1 ++ o2) := by
  refine ⟨?_, ?_, hn⟩
  · rw [List.map_append]
    refine h1.1.append h2.1 ?_
    rw [← List.map_append, List.map_map]
    exact hn
  · intro x hx
    rcases List.mem_append.1 hx with hx | hx
    · exact h1.2.1 x hx
    · exact h2.2.1 x hx

/-! ## RSA on numbers -/

/-- The exponents of a valid key undo each other. -/
theorem rsa_pow (p q e d : Nat) (hp : p.Prime) (hq : q.Prime) (hpq : p ≠ q) (h1 : e * d ≡ 1 [MOD p - 1])
    (h2 : e * d ≡ 1 [MOD q - 1]) (m : Nat) : (m ^ e) ^ d ≡ m [MOD p * q] := by
  have hne : e * d ≠ 0 := by
    intro h0
    have hp2 := hp.two_le
    have hq2 := hq.two_le
    have h3 : ∀ r, 2 < r → ¬ (e * d ≡ 1 [MOD r - 1]) := by
      intro r hr h
      rw [h0, Nat.ModEq, Nat.zero_mod, Nat.mod_eq_of_lt (by omega)] at h
      omega
    rcases Nat.lt_or_ge 2 p with h | h
    · exact h3 p h h1
    · exact h3 q (by omega) h2
  have key : ∀ r, r.Prime → e * d ≡ 1 [MOD r - 1] → (m ^ e) ^ d ≡ m [MOD r] := by
    intro r hr h
    have := Fact.mk hr
    rw [← pow_mul, ← ZMod.natCast_eq_natCast_iff]
    push_cast
    have hle : 1 ≤ e * d := by omega
    obtain ⟨k, hk⟩ := (Nat.modEq_iff_dvd' hle).1 h.symm
    have hed : e * d = (r - 1) * k + 1 := by omega
    by_cases hm : (m : ZMod r) = 0
    · rw [hm, zero_pow (by omega)]
    · rw [hed, pow_succ, pow_mul, ZMod.pow_card_sub_one_eq_one hm, one_pow, one_mul]
  exact (Nat.modEq_and_modEq_iff_modEq_mul ((Nat.coprime_primes hp hq).2 hpq)).1 ⟨key p hp h1, key q hq h2⟩

end Kryptos.Rsa
