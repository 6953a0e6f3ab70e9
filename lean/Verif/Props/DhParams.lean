import Verif.Model.DhParams
import Verif.Props.DlVerify
/-
  Domain parameters of Diffie-Hellman (C120): what is made can be read back, and the reading is all or nothing.
-/
namespace Kryptos.Dh
open Mp Spec.Mp

variable {w : Nat}

/-- Numbers that are written are read back, with and without `q`. -/
theorem params_roundtrip (hw : w = 32 ∨ w = 64) (p q g : Num w) (P Q G : Nat) (hp : Is p P) (hq : Is q Q) (hg : Is g G) :
    ∃ b, Rsa.putMps none [("DH PARAM P", p), ("DH PARAM Q", q), ("DH PARAM G", g)] = .ok (.success, some b) ∧ b ≠ [] ∧
      Rsa.getMp w "DH PARAM P" b = .ok (some p) ∧ Rsa.getMp w "DH PARAM Q" b = .ok (some q) ∧ Rsa.getMp w "DH PARAM G" b = .ok (some g) ∧
      getModpFromParams w true (some b) = .ok (.success, some ⟨some p, some q, some g⟩) ∧
      getModpFromParams w false (some b) = .ok (.success, some ⟨some p, none, some g⟩) := by
  obtain ⟨b, h1, h2, h3⟩ := Rsa.putMps_get (w := w) hw [("DH PARAM P", p), ("DH PARAM Q", q), ("DH PARAM G", g)] (by simp)
    (by simp [gP, gQ, gG, List.ne_nil_of_length_pos hp.1, List.ne_nil_of_length_pos hq.1, List.ne_nil_of_length_pos hg.1])
    (by simp only [List.map_cons, List.map_nil]; decide +kernel)
  have a1 := h3 ("DH PARAM P", p) (by simp)
  have a2 := h3 ("DH PARAM Q", q) (by simp)
  have a3 := h3 ("DH PARAM G", g) (by simp)
  simp only [num_eta hp] at a1
  simp only [num_eta hq] at a2
  simp only [num_eta hg] at a3
  have h0 : ¬ b.length = 0 := by simpa using h2
  refine ⟨b, h1, h2, a1, a2, a3, ?_, ?_⟩
  · simp only [getModpFromParams]
    rw [if_neg h0, a1, Out.bind_ok]
    simp only [if_true, a2, a3, Out.bind_ok]
    rfl
  · simp only [getModpFromParams]
    rw [if_neg h0, a1, Out.bind_ok]
    simp only [Bool.false_eq_true, if_false, a3, Out.bind_ok]
    rfl

/-- C120 for the writer: when parameters are made, the numbers in the buffer are sound, both have passed the test of primality, the
order is as large as asked for (in whole digits), and the reader gets exactly these numbers. -/
theorem mkDomainParams_sound (hw : w = 32 ∨ w = 64) (rnd : Nat → Nat → Nat → Byte) (fuel pBits qBits : Nat) (buf : Option Bytes)
    (h : mkDomainParams w rnd fuel pBits qBits = .ok (some (.success, buf))) :
    ∃ (b : Bytes) (p q g : Num w), buf = some b ∧ Dl.Sound (val p.data) (val q.data) (val g.data) ∧
      2 ^ (w * max (qBits / w) 1 - 1) ≤ val q.data ∧
      (∃ t f, isPrime (rnd t 0) f 0 q = .ok (some true) ∧ isPrime (rnd t 1) f 0 p = .ok (some true)) ∧
      getModpFromParams w true (some b) = .ok (.success, some ⟨some p, some q, some g⟩) ∧
      getModpFromParams w false (some b) = .ok (.success, some ⟨some p, none, some g⟩) := by
  rw [mkDomainParams] at h
  by_cases hz : pBits = 0 ∨ qBits = 0
  · rw [if_pos hz] at h; simp at h
  · rw [if_neg hz] at h
    cases hd : Dl.generate w rnd pBits qBits fuel 0 with
    | ub => rw [hd] at h; cases h
    | ok o =>
      rw [hd, Out.bind_ok] at h
      rcases o with - | - | ⟨p, q, g⟩
      · simp at h
      · simp at h
      · have hs : ∃ P Q G, Is p P ∧ Is q Q ∧ Is g G ∧ Dl.Sound P Q G ∧ 2 ^ (w * max (qBits / w) 1 - 1) ≤ Q ∧
            ∃ t f', isPrime (rnd t 0) f' 0 q = .ok (some true) ∧ isPrime (rnd t 1) f' 0 p = .ok (some true) := by
          rcases hw with rfl | rfl
          · exact Dl.generate_sound 4 (by decide) rnd pBits qBits fuel 0 p q g hd
          · exact Dl.generate_sound 8 (by decide) rnd pBits qBits fuel 0 p q g hd
        obtain ⟨P, Q, G, ip, iq, ig, s1, s2, s3⟩ := hs
        obtain ⟨b, b1, -, -, -, -, b2, b3⟩ := params_roundtrip hw p q g P Q G ip iq ig
        simp only [b1, Out.bind_ok, Out.pure_eq, Out.ok.injEq, Option.some.injEq, Prod.mk.injEq, true_and] at h
        rw [← ip.2.2, ← iq.2.2, ← ig.2.2] at s1
        rw [← iq.2.2] at s2
        exact ⟨b, p, q, g, h.symm, s1, s2, s3, b2, b3⟩

/-- Without success there is no buffer. -/
theorem mkDomainParams_failure (hw : w = 32 ∨ w = 64) (rnd : Nat → Nat → Nat → Byte) (fuel pBits qBits : Nat) (r : TaskResult)
    (buf : Option Bytes) (h : mkDomainParams w rnd fuel pBits qBits = .ok (some (r, buf))) (hr : r ≠ .success) : buf = none := by
  rw [mkDomainParams] at h
  by_cases hz : pBits = 0 ∨ qBits = 0
  · rw [if_pos hz] at h; simp at h; exact h.2.symm
  · rw [if_neg hz] at h
    cases hd : Dl.generate w rnd pBits qBits fuel 0 with
    | ub => rw [hd] at h; cases h
    | ok o =>
      rw [hd, Out.bind_ok] at h
      rcases o with - | - | ⟨p, q, g⟩
      · simp at h
      · simp at h; exact h.2.symm
      · have hs : ∃ P Q G, Is p P ∧ Is q Q ∧ Is g G := by
          rcases hw with rfl | rfl
          · obtain ⟨P, Q, G, a, b, c, -⟩ := Dl.generate_sound 4 (by decide) rnd pBits qBits fuel 0 p q g hd
            exact ⟨P, Q, G, a, b, c⟩
          · obtain ⟨P, Q, G, a, b, c, -⟩ := Dl.generate_sound 8 (by decide) rnd pBits qBits fuel 0 p q g hd
            exact ⟨P, Q, G, a, b, c⟩
        obtain ⟨P, Q, G, ip, iq, ig⟩ := hs
        obtain ⟨b, b1, -⟩ := params_roundtrip hw p q g P Q G ip iq ig
        simp only [b1, Out.bind_ok, Out.pure_eq, Out.ok.injEq, Option.some.injEq, Prod.mk.injEq] at h
        exact absurd h.1.symm hr

/-- Sizes of zero are refused. -/
theorem mkDomainParams_zero (rnd : Nat → Nat → Nat → Byte) (fuel pBits qBits : Nat) (h : pBits = 0 ∨ qBits = 0) :
    mkDomainParams w rnd fuel pBits qBits = .ok (some (.invalidParams, none)) := by rw [mkDomainParams, if_pos h]

/-- C120 for the reader, and any buffer: it stores all numbers asked for, which are those under the headers, or none of them. -/
theorem getModp_all_or_nothing (wantQ : Bool) (params : Option Bytes) (r : TaskResult) (o : Option (Modp w))
    (h : getModpFromParams w wantQ params = .ok (r, o)) :
    (r = .success ∧ ∃ b p q g, params = some b ∧ o = some ⟨some p, q, some g⟩ ∧ Rsa.getMp w "DH PARAM P" b = .ok (some p) ∧
      Rsa.getMp w "DH PARAM G" b = .ok (some g) ∧ q.isSome = wantQ ∧ ∀ x, q = some x → Rsa.getMp w "DH PARAM Q" b = .ok (some x)) ∨
    (r ≠ .success ∧ (o = none ∧ (params = none ∨ params = some []) ∨ o = some ⟨none, none, none⟩)) := by
  cases params with
  | none =>
    simp only [getModpFromParams, Out.ok.injEq, Prod.mk.injEq] at h
    exact .inr ⟨by rw [← h.1]; decide, .inl ⟨h.2.symm, .inl rfl⟩⟩
  | some b =>
    simp only [getModpFromParams] at h
    by_cases h0 : b.length = 0
    · rw [if_pos h0] at h
      simp only [Out.ok.injEq, Prod.mk.injEq] at h
      exact .inr ⟨by rw [← h.1]; decide, .inl ⟨h.2.symm, .inr (by rw [List.length_eq_zero_iff.1 h0])⟩⟩
    · rw [if_neg h0] at h
      have bad : ∀ {r : TaskResult} {o : Option (Modp w)},
          (Out.ok (TaskResult.processError, some ⟨none, none, none⟩) : Out (TaskResult × Option (Modp w))) = .ok (r, o) →
          r ≠ .success ∧ (o = none ∧ (some b = none ∨ some b = some []) ∨ o = some ⟨none, none, none⟩) := by
        intro r o h
        simp only [Out.ok.injEq, Prod.mk.injEq] at h
        exact ⟨by rw [← h.1]; decide, .inr h.2.symm⟩
      cases hp : Rsa.getMp w "DH PARAM P" b with
      | ub => rw [hp] at h; cases h
      | ok p =>
        rw [hp, Out.bind_ok] at h
        cases p with
        | none => exact .inr (bad h)
        | some p =>
          cases wantQ with
          | true =>
            simp only [if_true] at h
            cases hq : Rsa.getMp w "DH PARAM Q" b with
            | ub => rw [hq] at h; cases h
            | ok q =>
              rw [hq, Out.bind_ok] at h
              cases q with
              | none => exact .inr (bad h)
              | some q =>
                simp only [] at h
                cases hg : Rsa.getMp w "DH PARAM G" b with
                | ub => rw [hg] at h; cases h
                | ok g =>
                  rw [hg, Out.bind_ok] at h
                  cases g with
                  | none => exact .inr (bad h)
                  | some g =>
                    simp only [Out.pure_eq, Out.ok.injEq, Prod.mk.injEq] at h
                    exact .inl ⟨h.1.symm, b, p, some q, g, rfl, h.2.symm, hp, hg, rfl, fun x hx => by
                      simp only [Option.some.injEq] at hx; rw [← hx]; exact hq⟩
          | false =>
            simp only [Bool.false_eq_true, if_false] at h
            cases hg : Rsa.getMp w "DH PARAM G" b with
            | ub => rw [hg] at h; cases h
            | ok g =>
              rw [hg, Out.bind_ok] at h
              cases g with
              | none => exact .inr (bad h)
              | some g =>
                simp only [Out.pure_eq, Out.ok.injEq, Prod.mk.injEq] at h
                exact .inl ⟨h.1.symm, b, p, none, g, rfl, h.2.symm, hp, hg, rfl, fun x hx => by cases hx⟩

/-- Parameters which the reader accepts with `q` are those which the verification looks at. -/
theorem getModp_verify (rnd : Nat → Nat → Byte) (fuel : Nat) (b : Bytes) (p q g : Num w)
    (h : getModpFromParams w true (some b) = .ok (.success, some ⟨some p, some q, some g⟩)) :
    verifyParams w rnd fuel (some b) = Dl.verify rnd fuel p q g := by
  have h0 : b ≠ [] := by rintro rfl; simp [getModpFromParams] at h
  rcases getModp_all_or_nothing true (some b) _ _ h with ⟨-, b', p', q', g', e1, e2, e3, e4, -, e6⟩ | ⟨e, -⟩
  · simp only [Option.some.injEq, Modp.mk.injEq] at e1 e2
    obtain ⟨rfl, rfl, rfl⟩ := e2
    subst e1
    exact verifyParams_eq rnd fuel b p q g h0 e3 (e6 q rfl) e4
  · exact absurd rfl e

/-- Parameters to which the theorems apply: 23, 11 and 4 are written, read and accepted. -/
example : ∃ b, getModpFromParams 32 true (some b) = .ok (.success, some ⟨some ⟨[23], false⟩, some ⟨[11], false⟩, some ⟨[4], false⟩⟩) ∧
    verifyParams 32 (fun _ _ => 5) 100 (some b) = .ok (some .success) := by
  obtain ⟨b, -, -, -, -, -, h, -⟩ := params_roundtrip (w := 32) (.inl rfl) ⟨[23], false⟩ ⟨[11], false⟩ ⟨[4], false⟩ 23 11 4
    ⟨by decide, rfl, by decide⟩ ⟨by decide, rfl, by decide⟩ ⟨by decide, rfl, by decide⟩
  exact ⟨b, h, by rw [getModp_verify _ _ b _ _ _ h]; exact Dl.verify_sample⟩

end Kryptos.Dh
