import Verif.Props.DlParams
import Verif.Model.Dh
import Verif.Lemmas.MpPow
import Verif.Lemmas.Pratt
/-
  Diffie-Hellman (C52, C76).
-/
namespace Kryptos.Dh
open Mp Spec.Mp
open Rsa (getMp putMps HoldsNums holdsNums_put)

variable {w : Nat}

theorem gP : Pem.Good (ascii "DH PARAM P") := by refine ⟨?_, ?_, ?_, ?_, ?_⟩ <;> decide +kernel
theorem gQ : Pem.Good (ascii "DH PARAM Q") := by refine ⟨?_, ?_, ?_, ?_, ?_⟩ <;> decide +kernel
theorem gG : Pem.Good (ascii "DH PARAM G") := by refine ⟨?_, ?_, ?_, ?_, ?_⟩ <;> decide +kernel
theorem gT : Pem.Good (ascii "DH PARAM T") := by refine ⟨?_, ?_, ?_, ?_, ?_⟩ <;> decide +kernel
theorem gU : Pem.Good (ascii "DH PARAM U") := by refine ⟨?_, ?_, ?_, ?_, ?_⟩ <;> decide +kernel
theorem gS : Pem.Good (ascii "DH PARAM S") := by refine ⟨?_, ?_, ?_, ?_, ?_⟩ <;> decide +kernel

/-! ## Secrets -/

theorem drawS_range (hw : 8 ≤ w) (rnd : Nat → Byte) (mask : BitVec w) {p2 s : Num w} {N : Nat} (hp : Is p2 N) (n : Nat) (hn : 0 < n) :
    ∀ f i, drawS rnd mask p2 n f i = .ok (some s) → ∃ S, Is s S ∧ 2 ≤ S ∧ S ≤ N := by
  intro f
  induction f with
  | zero => intro i h; simp [drawS] at h
  | succ f ih =>
    intro i h
    have hx := Is.intro (a := (⟨(randDigits w rnd i n).map (· &&& mask), false⟩ : Num w))
      (List.length_pos_iff.1 (by simp [randDigits]; exact hn)) rfl
    simp only [drawS, hx.lt (is_two (by omega)), hx.gt hp] at h
    split at h
    · exact ih _ h
    · rename_i hc
      simp only [Out.ok.injEq, Option.some.injEq] at h
      simp only [Bool.or_eq_true, decide_eq_true_eq, not_or, Nat.not_lt] at hc
      exact ⟨_, h ▸ hx, hc.2, hc.1⟩

theorem sDigits_pos (hw : 8 ≤ w) (bits n : Nat) : 0 < sDigits w bits n := by
  rw [sDigits, newSize]
  exact Nat.div_pos (by omega) (by omega)

/-- Every secret that is drawn lies between 2 and the modulus less 2. -/
theorem secret_range (hw : 8 ≤ w) (rnd : Nat → Byte) (fuel : Nat) {p s : Num w} {P : Nat} (hp : Is p P) (h2 : 2 ≤ P) {bits : Nat}
    (h : getRandomS rnd fuel p bits = .ok (some s)) : ∃ S, Is s S ∧ 2 ≤ S ∧ S ≤ P - 2 := by
  obtain ⟨p2, h1, h3⟩ := (hp.assignOpt hw none).sub hw (is_two (by omega)) h2
  rw [getRandomS, h1, Out.bind_ok] at h
  cases hm : sMask w bits with
  | ub => rw [hm] at h; simp at h
  | ok m =>
    rw [hm, Out.bind_ok] at h
    exact drawS_range hw rnd m h3 _ (sDigits_pos hw _ _) _ _ h

/-- With the number of bits of a context just initialised, zero, no secret is drawn: the mask is shifted by its whole width. -/
theorem secret_default (hw : 8 ≤ w) (rnd : Nat → Byte) (fuel : Nat) {p : Num w} {P : Nat} (hp : Is p P) (h2 : 2 ≤ P) :
    getRandomS rnd fuel p 0 = .ub := by
  obtain ⟨p2, h1, h3⟩ := (hp.assignOpt hw none).sub hw (is_two (by omega)) h2
  rw [getRandomS, h1, Out.bind_ok, sMask, if_pos (by omega), if_pos rfl]
  rfl

/-- One bit is accepted, and the loop for the secret never ends. -/
theorem secret_one_bit (hw : 8 ≤ w) (rnd : Nat → Byte) (fuel : Nat) {p : Num w} {P : Nat} (hp : Is p P) (h2 : 2 ≤ P) :
    getRandomS rnd fuel p 1 = .ok none := by
  obtain ⟨p2, h1, h3⟩ := (hp.assignOpt hw none).sub hw (is_two (by omega)) h2
  rw [getRandomS, h1, Out.bind_ok, sMask, if_pos (by omega), if_neg (by omega)]
  have hd : sDigits w 1 p.data.length = 1 := by
    have : ¬ p.data.length < 1 / w := by rw [Nat.div_eq_of_lt (by omega)]; omega
    rw [sDigits, if_neg (by omega), newSize]
    exact (Nat.div_eq_iff (by omega)).2 ⟨by omega, by omega⟩
  rw [Out.bind_ok, hd]
  have key : ∀ f i, drawS rnd (BitVec.allOnes w >>> (w - 1)) p2 1 f i = .ok none := by
    intro f
    induction f with
    | zero => intro i; rfl
    | succ f ih =>
      intro i
      have hx := Is.intro (a := (⟨(randDigits w rnd i 1).map (· &&& (BitVec.allOnes w >>> (w - 1))), false⟩ : Num w))
        (List.length_pos_iff.1 (by simp [randDigits])) rfl
      have hlt : val ((randDigits w rnd i 1).map (· &&& (BitVec.allOnes w >>> (w - 1)))) < 2 := by
        have hr : randDigits w rnd i 1 = [randDigit w rnd (i + 0 * (w / 8))] := rfl
        rw [hr, List.map_cons, List.map_nil, val, val, Nat.mul_zero, Nat.add_zero, BitVec.toNat_and]
        refine lt_of_le_of_lt Nat.and_le_right ?_
        rw [BitVec.toNat_ushiftRight, BitVec.toNat_allOnes, Nat.shiftRight_eq_div_pow, Nat.div_lt_iff_lt_mul (by positivity), ← pow_succ',
          Nat.sub_add_cancel (by omega)]
        have := Nat.two_pow_pos w
        omega
      rw [drawS]
      rw [hx.lt (is_two (by omega)), decide_eq_true hlt, Bool.or_true, if_pos rfl]
      exact ih _
  exact key _ _

/-! ## Powers -/

theorem evalT_run (hw : 16 ≤ w) {g s p : Num w} {G S P : Nat} (old : Option (Num w)) (hg : Is g G) (hs : Is s S) (hp : Is p P) (hP : P ≠ 0) :
    ∃ t T, evalT old (some g) (some s) (some p) = .ok (.success, some t) ∧ Is t T ∧ T ≡ G ^ S [MOD P] ∧
      (sig p.data = p.data.length → MeetsNoOverflow w G S P → T = G ^ S % P) ∧ meModN g s p = .ok (some t) := by
  obtain ⟨t, T, t1, t2, -, t3, t4⟩ := hg.me hw hs hp hP
  exact ⟨t, T, by simp only [evalT, t1, Out.bind_ok, Out.pure_eq], t2, t3, t4, t1⟩

theorem num_eta {n : Num w} {N : Nat} (h : Is n N) : (⟨n.data, false⟩ : Num w) = n := by rw [← h.2.1]

/-- The divisions of both sides are among those which `kryptos_mp_div` does right. -/
structure Fine (w : Nat) (p : Num w) (P G A B : Nat) : Prop where
  top : sig p.data = p.data.length
  ga : MeetsNoOverflow w G A P
  gb : MeetsNoOverflow w G B P
  ab : MeetsNoOverflow w (G ^ A % P) B P
  ba : MeetsNoOverflow w (G ^ B % P) A P

theorem fine_single {p : Num w} {P : Nat} (hp : Is p P) (hP : P ≠ 0) (h1 : p.data.length = 1) (G A B : Nat) : Fine w p P G A B := by
  have h := fun a k => meets_single p (by rw [hp.2.2]; exact hP) h1 a k
  rw [hp.2.2] at h
  exact ⟨(h 0 0).1, (h _ _).2, (h _ _).2, (h _ _).2, (h _ _).2⟩

theorem offer_ops (p g : Num w) (q : Option (Num w)) (hp : p.data ≠ []) (hg : g.data ≠ []) (hq : ∀ x, q = some x → x.data ≠ [])
    (t : Num w) (ht : t.data ≠ []) :
    (∀ x ∈ offer p q g ++ [("DH PARAM T", t)], Pem.Good (ascii x.1) ∧ x.2.data ≠ []) ∧
      ((offer p q g ++ [("DH PARAM T", t)]).map fun x => ascii x.1).Nodup := by
  cases q with
  | none =>
    refine ⟨by simp [offer, gP, gG, gT, hp, hg, ht], ?_⟩
    simp only [offer, List.cons_append, List.nil_append, List.map_cons, List.map_nil]
    decide +kernel
  | some q =>
    refine ⟨by simp [offer, gP, gG, gT, gQ, hp, hg, ht, hq q rfl], ?_⟩
    simp only [offer, List.cons_append, List.nil_append, List.map_cons, List.map_nil]
    decide +kernel

/-- Putting numbers one list after the other. -/
theorem putMps_append : ∀ (o1 o2 : List (String × Num w)) (pem pem' : Option Bytes),
    putMps pem (o1 ++ o2) = .ok (.success, pem') → ∃ m, putMps pem o1 = .ok (.success, m) ∧ putMps m o2 = .ok (.success, pem')
  | [], o2, pem, pem', h => ⟨pem, rfl, h⟩
  | (hd, n) :: o1, o2, pem, pem', h => by
    rw [List.cons_append, putMps] at h
    cases hp : Pem.putData true pem (some (ascii hd)) (some (leBytes n.data)) with
    | ub => rw [hp] at h; simp at h
    | ok r =>
      rw [hp, Out.bind_ok] at h
      split at h
      · rename_i hr
        simp only [Out.pure_eq, Out.ok.injEq] at h
        rw [h] at hr
        simp at hr
      · rename_i hr
        obtain ⟨m, h1, h2⟩ := putMps_append o1 o2 _ _ h
        refine ⟨m, ?_, h2⟩
        rw [putMps, hp, Out.bind_ok, if_neg hr]
        exact h1

/-- What the sender offers can be read. -/
theorem offer_put (hw : w = 32 ∨ w = 64) (p g : Num w) (q : Option (Num w)) (hp : p.data ≠ []) (hg : g.data ≠ [])
    (hq : ∀ x, q = some x → x.data ≠ []) (t : Num w) (ht : t.data ≠ []) :
    ∃ m pem, putMps none (offer p q g) = .ok (.success, m) ∧ putMps m [("DH PARAM T", t)] = .ok (.success, some pem) ∧
      putMps none (offer p q g ++ [("DH PARAM T", t)]) = .ok (.success, some pem) ∧
      getMp w "DH PARAM P" pem = .ok (some ⟨p.data, false⟩) ∧
      getMp w "DH PARAM Q" pem = .ok (q.map fun x => ⟨x.data, false⟩) ∧ getMp w "DH PARAM G" pem = .ok (some ⟨g.data, false⟩) ∧
      getMp w "DH PARAM T" pem = .ok (some ⟨t.data, false⟩) ∧ getMp w "DH PARAM U" pem = .ok none := by
  have hw8 : 8 ≤ w := by rcases hw with rfl | rfl <;> decide
  obtain ⟨h1, h2⟩ := offer_ops p g q hp hg hq t ht
  obtain ⟨pem, h3, h4⟩ := holdsNums_put hw8 _ (by simp) h1 h2
  obtain ⟨m, h5, h6⟩ := putMps_append _ _ _ _ h3
  have gp := h4.get hw ("DH PARAM P", p) (by simp [offer])
  have gg := h4.get hw ("DH PARAM G", g) (by simp [offer])
  have gt := h4.get hw ("DH PARAM T", t) (by simp)
  have gu : getMp w "DH PARAM U" pem = .ok none := by
    refine h4.absent "DH PARAM U" gU ?_
    cases q <;>
    · simp only [offer, List.cons_append, List.nil_append, List.map_cons, List.map_nil]
      decide +kernel
  refine ⟨m, pem, h5, h6, h3, gp, ?_, gg, gt, gu⟩
  cases q with
  | none =>
    refine h4.absent "DH PARAM Q" gQ ?_
    simp only [offer, List.cons_append, List.nil_append, List.map_cons, List.map_nil]
    decide +kernel
  | some q => exact h4.get hw ("DH PARAM Q", q) (by simp [offer])

/-- Domain parameters as given to a context. -/
structure Group (p : Num w) (q : Option (Num w)) (g : Num w) (P G : Nat) : Prop where
  isP : Is p P
  isG : Is g G
  isQ : ∀ x, q = some x → ∃ Q, Is x Q ∧ 2 ≤ Q
  big : 2 ≤ P

/-- The modulus for the secrets. -/
def ord (p : Num w) (q : Option (Num w)) : Num w := match q with
  | some q => q
  | none => p

theorem Group.secret (hw : 8 ≤ w) {p g s : Num w} {q : Option (Num w)} {P G : Nat} (h : Group p q g P G) {rnd : Nat → Byte} {fuel bits : Nat}
    (hs : getRandomS rnd fuel (ord p q) bits = .ok (some s)) : ∃ S, Is s S ∧ 2 ≤ S := by
  cases q with
  | none =>
    obtain ⟨S, h1, h2, -⟩ := secret_range hw rnd fuel h.isP h.big hs
    exact ⟨S, h1, h2⟩
  | some q =>
    obtain ⟨Q, h1, h2⟩ := h.isQ q rfl
    obtain ⟨S, h3, h4, -⟩ := secret_range hw rnd fuel h1 h2 hs
    exact ⟨S, h3, h4⟩

theorem order_eq (c : Ctx w) (p : Num w) (hp : c.p = some p) : order c = some (ord p c.q) := by
  unfold order ord
  cases c.q <;> simp [hp]

/-! ## The exchange -/

/-- The three steps of the exchange (one side begins, the other answers, the first one ends), for every group, every pair of
secrets drawn: all succeed, the keys of both sides are congruent to the same power, and they are equal to it when no quotient guess
overflows. -/
theorem dh_std_run (hw : w = 32 ∨ w = 64) {p g : Num w} {q : Option (Num w)} {P G : Nat} (h : Group p q g P G) (rndA rndB rndA' : Nat → Byte)
    (fuel bitsA bitsB : Nat) {a b : Num w} {A B : Nat} (ha : getRandomS rndA fuel (ord p q) bitsA = .ok (some a))
    (hb : getRandomS rndB fuel (ord p q) bitsB = .ok (some b)) (iA : Is a A) (iB : Is b B) :
    ∃ (c1 c2 c3 : Ctx w) (ta tb ka kb : Num w) (KA KB : Nat), stdxchg rndA fuel (.init bitsA none (some p) q (some g)) = .ok (some c1) ∧ c1.result = .success ∧
      stdxchg rndB fuel (.init bitsB c1.out none none none) = .ok (some c2) ∧ c2.result = .success ∧
      stdxchg rndA' fuel { c1 with inp := c2.out } = .ok (some c3) ∧ c3.result = .success ∧
      c3.k = some ka ∧ c2.k = some kb ∧ Is ka KA ∧ Is kb KB ∧ KA ≡ G ^ (A * B) [MOD P] ∧ KB ≡ G ^ (A * B) [MOD P] ∧
      (Fine w p P G A B → KA = G ^ (A * B) % P ∧ KB = G ^ (A * B) % P) ∧
      meModN g a p = .ok (some ta) ∧ meModN g b p = .ok (some tb) ∧ meModN tb a p = .ok (some ka) ∧ meModN ta b p = .ok (some kb) := by
  have hw16 : 16 ≤ w := by rcases hw with rfl | rfl <;> decide
  have hP : P ≠ 0 := by have := h.big; omega
  obtain ⟨ta, TA, a1, a2, a3, a4, a5⟩ := evalT_run hw16 none h.isG iA h.isP hP
  obtain ⟨tb, TB, b1, b2, b3, b4, b5⟩ := evalT_run hw16 none h.isG iB h.isP hP
  obtain ⟨kb, KB, k1, k2, k3, k4, k5⟩ := evalT_run hw16 none a2 iB h.isP hP
  obtain ⟨ka, KA, l1, l2, l3, l4, l5⟩ := evalT_run hw16 none b2 iA h.isP hP
  obtain ⟨m, pem, p1, p2, -, p4, p5, p6, p7, -⟩ := offer_put hw p g q (List.ne_nil_of_length_pos h.isP.1)
    (List.ne_nil_of_length_pos h.isG.1) (fun x hx => by obtain ⟨Q, h1, -⟩ := h.isQ x hx; exact List.ne_nil_of_length_pos h1.1) ta
    (List.ne_nil_of_length_pos a2.1)
  rw [num_eta h.isP] at p4
  rw [num_eta h.isG] at p6
  rw [num_eta a2] at p7
  have eq : (q.map fun x => (⟨x.data, false⟩ : Num w)) = q := by
    cases q with
    | none => rfl
    | some x => obtain ⟨Q, h1, -⟩ := h.isQ x rfl; rw [Option.map_some, num_eta h1]
  rw [eq] at p5
  obtain ⟨pem2, r1, r2⟩ := Rsa.putMps_get (w := w) hw [("DH PARAM T", tb)] (by simp)
    (by simpa [gT] using List.ne_nil_of_length_pos b2.1) (by simp)
  have r3 := r2.2 ("DH PARAM T", tb) (by simp)
  simp only [num_eta b2] at r3
  have o1 : order (⟨bitsA, none, none, .success, some p, q, some g, none, none, none⟩ : Ctx w) = some (ord p q) := order_eq _ p rfl
  have o2 : ∀ r t, order (⟨bitsB, some pem, none, r, some p, q, some g, some t, none, none⟩ : Ctx w) = some (ord p q) :=
    fun r t => order_eq _ p rfl
  refine ⟨⟨bitsA, none, some pem, .success, some p, q, some g, none, some a, none⟩,
    ⟨bitsB, some pem, some pem2, .success, some p, q, some g, none, some b, some kb⟩,
    ⟨bitsA, some pem2, some pem, .success, some p, q, some g, some tb, some a, some ka⟩, ta, tb, ka, kb, KA, KB, ?_, rfl, ?_, rfl, ?_, rfl, rfl, rfl,
    l2, k2, ?_, ?_, ?_, a5, b5, l5, k5⟩
  · simp only [stdxchg, Ctx.init, Option.isNone_some, Bool.or_self, Bool.false_eq_true, if_false, stdT, stdSecret, drawInto, o1, ha,
      Out.bind_ok, if_true, p1, sendT, a1, p2, Out.pure_eq]
  · simp only [getMp] at p4 p5 p6 p7
    simp only [stdxchg, Ctx.init, Option.isNone_none, Bool.or_self, if_true, fetch, p4, p5, p6, p7, Out.bind_ok, stdT, stdSecret, drawInto]
    cases q <;>
      simp only [o2, hb, Out.bind_ok, Bool.false_eq_true, if_false, evalK, k1, if_true, sendT, b1, r1, Out.pure_eq]
  · simp only [getMp] at r3
    simp only [stdxchg, Option.isNone_some, Bool.or_self, Bool.false_eq_true, if_false, stdT, fetch, r3, Out.bind_ok, stdSecret, evalK, l1, if_true]
  · rw [Nat.mul_comm, pow_mul]
    exact l3.trans (b3.pow A)
  · rw [pow_mul]
    exact k3.trans (a3.pow B)
  · intro f
    have e1 := a4 f.top f.ga
    have e2 := b4 f.top f.gb
    subst e1 e2
    refine ⟨?_, ?_⟩
    · rw [l4 f.top f.ba, ← Nat.pow_mod, ← pow_mul, Nat.mul_comm]
    · rw [k4 f.top f.ab, ← Nat.pow_mod, ← pow_mul]

/-- C52: both sides derive the same secret.  Missing for the full property: the groups and secrets for which a quotient guess of a
division overflows; on some of them the sides differ (`dh_disagree`). -/
theorem dh_agree_partial (hw : w = 32 ∨ w = 64) {p g : Num w} {q : Option (Num w)} {P G : Nat} (h : Group p q g P G)
    (rndA rndB rndA' : Nat → Byte) (fuel bitsA bitsB : Nat) {a b : Num w} {A B : Nat}
    (ha : getRandomS rndA fuel (ord p q) bitsA = .ok (some a)) (hb : getRandomS rndB fuel (ord p q) bitsB = .ok (some b))
    (iA : Is a A) (iB : Is b B) (f : Fine w p P G A B) :
    ∃ (c1 c2 c3 : Ctx w) (ka kb : Num w), stdxchg rndA fuel (.init bitsA none (some p) q (some g)) = .ok (some c1) ∧ c1.result = .success ∧
      stdxchg rndB fuel (.init bitsB c1.out none none none) = .ok (some c2) ∧ c2.result = .success ∧
      stdxchg rndA' fuel { c1 with inp := c2.out } = .ok (some c3) ∧ c3.result = .success ∧
      c3.k = some ka ∧ c2.k = some kb ∧ Is ka (G ^ (A * B) % P) ∧ Is kb (G ^ (A * B) % P) := by
  obtain ⟨c1, c2, c3, -, -, ka, kb, KA, KB, h1, h2, h3, h4, h5, h6, h7, h8, h9, h10, -, -, h11, -⟩ :=
    dh_std_run hw h rndA rndB rndA' fuel bitsA bitsB ha hb iA iB
  obtain ⟨e1, e2⟩ := h11 f
  exact ⟨c1, c2, c3, ka, kb, h1, h2, h3, h4, h5, h6, h7, h8, e1 ▸ h9, e2 ▸ h10⟩

/-- For a modulus of one digit there are no conditions. -/
theorem dh_single_digit (hw : w = 32 ∨ w = 64) {p g : Num w} {q : Option (Num w)} {P G : Nat} (h : Group p q g P G) (h1 : p.data.length = 1)
    (rndA rndB rndA' : Nat → Byte) (fuel bitsA bitsB : Nat) {a b : Num w}
    (ha : getRandomS rndA fuel (ord p q) bitsA = .ok (some a)) (hb : getRandomS rndB fuel (ord p q) bitsB = .ok (some b)) :
    ∃ (c1 c2 c3 : Ctx w) (ka kb : Num w) (K : Nat), stdxchg rndA fuel (.init bitsA none (some p) q (some g)) = .ok (some c1) ∧ c1.result = .success ∧
      stdxchg rndB fuel (.init bitsB c1.out none none none) = .ok (some c2) ∧ c2.result = .success ∧
      stdxchg rndA' fuel { c1 with inp := c2.out } = .ok (some c3) ∧ c3.result = .success ∧
      c3.k = some ka ∧ c2.k = some kb ∧ Is ka K ∧ Is kb K := by
  have hw8 : 8 ≤ w := by rcases hw with rfl | rfl <;> decide
  obtain ⟨A, iA, -⟩ := h.secret hw8 ha
  obtain ⟨B, iB, -⟩ := h.secret hw8 hb
  have hP : P ≠ 0 := by have := h.big; omega
  obtain ⟨c1, c2, c3, ka, kb, r⟩ := dh_agree_partial hw h rndA rndB rndA' fuel bitsA bitsB ha hb iA iB (fine_single h.isP hP h1 G A B)
  exact ⟨c1, c2, c3, ka, kb, _, r⟩

/-! ## The exchange with a key pair -/

/-- The exchange with a key pair, for every group and every pair of secrets drawn: the receiver makes a key pair, the sender uses
the public key, the receiver the sender's output followed by the private key. -/
theorem dh_mod_run (hw : w = 32 ∨ w = 64) {p g : Num w} {q : Option (Num w)} {P G : Nat} (h : Group p q g P G) (rndA rndB rndA' : Nat → Byte)
    (fuel bitsA bitsB bits : Nat) {a b : Num w} {A B : Nat} (ha : getRandomS rndA fuel (ord p q) bitsA = .ok (some a))
    (hb : getRandomS rndB fuel (ord p q) bitsB = .ok (some b)) (iA : Is a A) (iB : Is b B) :
    ∃ (c1 c2 c3 : Ctx w) (pub priv u : Bytes) (ka kb : Num w) (KA KB : Nat), mkKeyPair rndA fuel none none (.init bitsA none (some p) q (some g)) = .ok (some (c1, some pub, some priv)) ∧
      c1.result = .success ∧
      modxchg rndB fuel (.init bitsB (some pub) none none none) = .ok (some c2) ∧ c2.result = .success ∧ c2.out = some u ∧
      modxchg rndA' fuel (.init bits (some (u ++ priv)) none none none) = .ok (some c3) ∧ c3.result = .success ∧
      c3.k = some ka ∧ c2.k = some kb ∧ Is ka KA ∧ Is kb KB ∧ KA ≡ G ^ (A * B) [MOD P] ∧ KB ≡ G ^ (A * B) [MOD P] ∧
      (Fine w p P G A B → KA = G ^ (A * B) % P ∧ KB = G ^ (A * B) % P) := by
  have hw16 : 16 ≤ w := by rcases hw with rfl | rfl <;> decide
  have hP : P ≠ 0 := by have := h.big; omega
  obtain ⟨ta, TA, a1, a2, a3, a4, -⟩ := evalT_run hw16 none h.isG iA h.isP hP
  obtain ⟨tb, TB, b1, b2, b3, b4, -⟩ := evalT_run hw16 none h.isG iB h.isP hP
  obtain ⟨kb, KB, k1, k2, k3, k4, -⟩ := evalT_run hw16 none a2 iB h.isP hP
  obtain ⟨ka, KA, l1, l2, l3, l4, -⟩ := evalT_run hw16 none b2 iA h.isP hP
  obtain ⟨m, pem, -, -, p1, p4, p5, p6, p7, p8⟩ := offer_put hw p g q (List.ne_nil_of_length_pos h.isP.1)
    (List.ne_nil_of_length_pos h.isG.1) (fun x hx => by obtain ⟨Q, h1, -⟩ := h.isQ x hx; exact List.ne_nil_of_length_pos h1.1) ta
    (List.ne_nil_of_length_pos a2.1)
  rw [num_eta h.isP] at p4
  rw [num_eta h.isG] at p6
  rw [num_eta a2] at p7
  have eq : (q.map fun x => (⟨x.data, false⟩ : Num w)) = q := by
    cases q with
    | none => rfl
    | some x => obtain ⟨Q, h1, -⟩ := h.isQ x rfl; rw [Option.map_some, num_eta h1]
  rw [eq] at p5
  obtain ⟨priv, s1, s2⟩ := holdsNums_put (w := w) (by omega) [("DH PARAM S", a), ("DH PARAM P", p)] (by simp)
    (by simp [gS, gP, List.ne_nil_of_length_pos iA.1, List.ne_nil_of_length_pos h.isP.1])
    (by simp only [List.map_cons, List.map_nil]; decide +kernel)
  obtain ⟨u, r1, r2⟩ := holdsNums_put (w := w) (by omega) [("DH PARAM U", tb)] (by simp)
    (by simpa [gU] using List.ne_nil_of_length_pos b2.1) (by simp)
  have hcat := r2.append s2 (by simp only [List.cons_append, List.nil_append, List.map_cons, List.map_nil]; decide +kernel)
  have t1 := hcat.get hw ("DH PARAM U", tb) (by simp)
  have t2 := hcat.get hw ("DH PARAM S", a) (by simp)
  have t3 := hcat.get hw ("DH PARAM P", p) (by simp)
  simp only [num_eta b2, num_eta iA, num_eta h.isP] at t1 t2 t3
  have o1 : order (⟨bitsA, none, none, .success, some p, q, some g, none, none, none⟩ : Ctx w) = some (ord p q) := order_eq _ p rfl
  have o2 : ∀ r t, order (⟨bitsB, some pem, none, r, some p, q, some g, some t, none, none⟩ : Ctx w) = some (ord p q) :=
    fun r t => order_eq _ p rfl
  refine ⟨⟨bitsA, none, none, .success, some p, q, some g, none, none, none⟩,
    ⟨bitsB, some pem, some u, .success, none, none, none, none, none, some kb⟩,
    ⟨bits, some (u ++ priv), none, .success, none, none, none, none, none, some ka⟩, pem, priv, u, ka, kb, KA, KB, ?_, rfl, ?_, rfl, rfl, ?_,
    rfl, rfl, rfl, l2, k2, ?_, ?_, ?_⟩
  · simp only [mkKeyPair, Ctx.init, o1, ha, Out.bind_ok, a1, p1, s1]
    simp
  · simp only [getMp] at p4 p5 p6 p7 p8
    simp only [modxchg, Ctx.init, p8, Out.bind_ok, modSend, fetch, p4, p5, p6, p7, drawInto]
    cases q <;>
    · simp only [o2, hb, Out.bind_ok, b1, r1, evalK, k1]
      simp
  · simp only [getMp] at t1 t2 t3
    simp only [modxchg, Ctx.init, t1, Out.bind_ok, modReceive, fetch, t2, t3, l1, Out.pure_eq]
  · rw [Nat.mul_comm, pow_mul]
    exact l3.trans (b3.pow A)
  · rw [pow_mul]
    exact k3.trans (a3.pow B)
  · intro f
    have e1 := a4 f.top f.ga
    have e2 := b4 f.top f.gb
    subst e1 e2
    refine ⟨?_, ?_⟩
    · rw [l4 f.top f.ba, ← Nat.pow_mod, ← pow_mul, Nat.mul_comm]
    · rw [k4 f.top f.ab, ← Nat.pow_mod, ← pow_mul]

/-- For a modulus of one digit the exchange with a key pair agrees without conditions. -/
theorem dh_mod_single_digit (hw : w = 32 ∨ w = 64) {p g : Num w} {q : Option (Num w)} {P G : Nat} (h : Group p q g P G)
    (h1 : p.data.length = 1) (rndA rndB rndA' : Nat → Byte) (fuel bitsA bitsB bits : Nat) {a b : Num w}
    (ha : getRandomS rndA fuel (ord p q) bitsA = .ok (some a)) (hb : getRandomS rndB fuel (ord p q) bitsB = .ok (some b)) :
    ∃ (c1 c2 c3 : Ctx w) (pub priv u : Bytes) (ka kb : Num w) (K : Nat), mkKeyPair rndA fuel none none (.init bitsA none (some p) q (some g)) = .ok (some (c1, some pub, some priv)) ∧
      modxchg rndB fuel (.init bitsB (some pub) none none none) = .ok (some c2) ∧ c2.out = some u ∧
      modxchg rndA' fuel (.init bits (some (u ++ priv)) none none none) = .ok (some c3) ∧
      c3.k = some ka ∧ c2.k = some kb ∧ Is ka K ∧ Is kb K := by
  have hw8 : 8 ≤ w := by rcases hw with rfl | rfl <;> decide
  obtain ⟨A, iA, -⟩ := h.secret hw8 ha
  obtain ⟨B, iB, -⟩ := h.secret hw8 hb
  have hP : P ≠ 0 := by have := h.big; omega
  obtain ⟨c1, c2, c3, pub, priv, u, ka, kb, KA, KB, r1, -, r2, -, r3, r4, -, r5, r6, r7, r8, -, -, r9⟩ :=
    dh_mod_run hw h rndA rndB rndA' fuel bitsA bitsB bits ha hb iA iB
  obtain ⟨e1, e2⟩ := r9 (fine_single h.isP hP h1 G A B)
  exact ⟨c1, c2, c3, pub, priv, u, ka, kb, _, r1, r2, r3, r4, r5, r6, e1 ▸ r7, e2 ▸ r8⟩

/-! ## What is not checked -/

/-- The power of one is one, whatever the exponent. -/
theorem me_one (hw : 16 ≤ w) {m n : Num w} {c : Nat} (hm : Is m 1) (e : Num w) (hn : Is n c) (hc : 1 < c) :
    ∃ r, meModN m e n = .ok (some r) ∧ Is r 1 := by
  have key : ∀ (bs : List Bool), ∀ a : Num w, Is a 1 → ∃ r, bs.foldlM (meStep m n) (some a) = .ok (some r) ∧ Is r 1 := by
    intro bs
    induction bs with
    | nil => intro a ha; exact ⟨a, rfl, ha⟩
    | cons b bs ih =>
      intro a ha
      have one : ∀ {x y : Num w}, Is x 1 → Is y 1 → ∃ r, (do
          let p ← mulO (some x) (some y)
          modO p (some n)) = .ok (some r) ∧ Is r 1 := by
        intro x y hx hy
        obtain ⟨r, B, h1, h2, -, -, h3⟩ := hx.mulmod hw hy hn (by omega)
        have h4 : B = 1 := by
          rw [h3 (.inl (by rw [hn.2.2]; omega))]
          exact Nat.mod_eq_of_lt (by omega)
        exact ⟨r, h1, h4 ▸ h2⟩
      obtain ⟨r, h1, h2⟩ := one ha ha
      obtain ⟨r', h3, h4⟩ := one h2 hm
      rw [List.foldlM_cons]
      cases b with
      | false =>
        have : meStep m n (some a) false = .ok (some r) := by
          simp only [meStep]
          rw [← bind_assoc, h1]; rfl
        rw [this, Out.bind_ok]
        exact ih r h2
      | true =>
        have : meStep m n (some a) true = .ok (some r') := by
          simp only [meStep]
          rw [← bind_assoc, h1, Out.bind_ok]
          exact h3
        rw [this, Out.bind_ok]
        exact ih r' h4
  exact key _ one (is_one (by omega))

/-- C76 is violated: whoever answers the first message with `T = 1` makes the other side end with success and the key one, for every
group and whatever its secret is. -/
theorem dh_answer_one (hw : w = 32 ∨ w = 64) : ∃ pem, ∀ (c : Ctx w) (p g s : Num w) (P : Nat), c.p = some p → c.g = some g →
    c.s = some s → c.t = none → Is p P → 1 < P → ∀ rnd fuel, ∃ c' k, stdxchg rnd fuel { c with inp := some pem } = .ok (some c') ∧
      c'.result = .success ∧ c'.k = some k ∧ Is k 1 := by
  have hw16 : 16 ≤ w := by rcases hw with rfl | rfl <;> decide
  have h1 := is_one (w := w) (by omega)
  obtain ⟨pem, r1, r2⟩ := Rsa.putMps_get (w := w) hw [("DH PARAM T", one)] (by simp)
    (by simpa [gT] using List.ne_nil_of_length_pos h1.1) (by simp)
  have r3 := r2.2 ("DH PARAM T", one) (by simp)
  refine ⟨pem, fun c p g s P cp cg cs ct hp hP rnd fuel => ?_⟩
  obtain ⟨k, k1, k2⟩ := me_one hw16 h1 s hp hP
  refine ⟨{ c with inp := some pem, t := some one, k := some k, result := .success }, k, ?_, rfl, rfl, k2⟩
  simp only [getMp, num_eta h1] at r3
  simp only [stdxchg, cp, cg, Option.isNone_some, Bool.or_self, Bool.false_eq_true, if_false, stdT, ct, fetch, r3, Out.bind_ok, stdSecret,
    cs, evalK, evalT, k1, if_true, Out.pure_eq]

/-- A key pair made into buffers that already hold one: they are freed, and then extended. -/
theorem dh_keys_given (hw : w = 32 ∨ w = 64) {p g a : Num w} {q : Option (Num w)} {P G : Nat} (h : Group p q g P G) (rnd : Nat → Byte)
    (fuel bits : Nat) (ha : getRandomS rnd fuel (ord p q) bits = .ok (some a)) (old : Bytes) (priv : Option Bytes) :
    mkKeyPair rnd fuel (some old) priv (.init bits none (some p) q (some g)) = .ub := by
  have hw16 : 16 ≤ w := by rcases hw with rfl | rfl <;> decide
  obtain ⟨A, iA, -⟩ := h.secret (by omega) ha
  obtain ⟨t, T, t1, -⟩ := evalT_run hw16 none h.isG iA h.isP (by have := h.big; omega)
  have o1 : order (⟨bits, none, none, .success, some p, q, some g, none, none, none⟩ : Ctx w) = some (ord p q) := order_eq _ p rfl
  simp only [mkKeyPair, Ctx.init, o1, ha, Out.bind_ok, t1, Option.isSome_some, if_true]

/-- The first number behind the table of groups is accepted. -/
theorem dh_modp_outside : getModpIndex 6 = .ub ∧ ∀ n, getModpIndex n = .ub ↔ n = 6 := by
  refine ⟨rfl, fun n => ?_⟩
  rw [getModpIndex]
  split
  · simp; omega
  · split
    · simp; omega
    · simp; omega

/-- A context fresh from `kryptos_dh_init_xchg_ctx` has zero bits for the secret: the exchange is undefined. -/
theorem dh_default_bits (hw : w = 32 ∨ w = 64) {p g : Num w} {q : Option (Num w)} {P G : Nat} (h : Group p q g P G) (rnd : Nat → Byte)
    (fuel : Nat) : stdxchg rnd fuel (.init 0 none (some p) q (some g)) = .ub := by
  have hw16 : 16 ≤ w := by rcases hw with rfl | rfl <;> decide
  have o1 : order (⟨0, none, none, .success, some p, q, some g, none, none, none⟩ : Ctx w) = some (ord p q) := order_eq _ p rfl
  have hz : getRandomS rnd fuel (ord p q) 0 = .ub := by
    cases q with
    | none => exact secret_default (by omega) rnd fuel h.isP h.big
    | some q =>
      obtain ⟨Q, h1, h2⟩ := h.isQ q rfl
      exact secret_default (by omega) rnd fuel h1 h2
  simp only [stdxchg, Ctx.init, Option.isNone_some, Bool.or_self, Bool.false_eq_true, if_false, stdT, stdSecret, drawInto, o1, hz]
  rfl

/-! ## Concrete cases -/

def sampleP : Num 64 := ⟨[0x22e18b178fbbd4c9, 0xc97a3b5f34507fba], false⟩
def sampleG : Num 64 := ⟨[0x1188c3dba], false⟩

theorem sample_prime : (val sampleP.data).Prime := by
  have : val sampleP.data = 0xc97a3b5f34507fba22e18b178fbbd4c9 := by decide +kernel
  rw [this]
  refine Pratt.pratt _ 51 128 [2, 2, 2, 3, 3, 5, 5, 5, 5, 5, 13, 13, 19, 23, 37, 37, 41, 47, 61, 71, 73, 101, 103, 113, 691, 1789, 13297] ?_
    (by decide +kernel) (by decide +kernel) (by decide +kernel) (by decide +kernel) (by decide +kernel)
  have : ∀ q ∈ [2, 3, 5, 13, 19, 23, 37, 41, 47, 61, 71, 73, 101, 103, 113, 691, 1789, 13297], Nat.Prime q := by
    simp only [List.mem_cons, List.not_mem_nil, or_false]
    rintro q (rfl | rfl | rfl | rfl | rfl | rfl | rfl | rfl | rfl | rfl | rfl | rfl | rfl | rfl | rfl | rfl | rfl | rfl) <;> norm_num
  intro q hq
  refine this q ?_
  simp only [List.mem_cons, List.not_mem_nil, or_false] at hq ⊢
  omega

theorem sample_shape : Shape 64 (val sampleP.data) 2 0 := by
  constructor <;> decide +kernel

theorem sample_group : Group sampleP none sampleG (val sampleP.data) (val sampleG.data) :=
  ⟨.intro (by decide) rfl, .intro (by decide) rfl, by simp, by decide +kernel⟩

theorem sample_three : getRandomS (fun _ => 3#8) 1 sampleP 2 = .ok (some ⟨[3], false⟩) := by decide +kernel
theorem sample_two : getRandomS (fun _ => 2#8) 1 sampleP 2 = .ok (some ⟨[2], false⟩) := by decide +kernel

/-- C52 is violated: in this group of prime order, with the secrets 3 and 2, both sides end with success and with different keys. -/
theorem dh_disagree : (val sampleP.data).Prime ∧ ∃ (c1 c2 c3 : Ctx 64) (ka kb : Num 64),
    stdxchg (fun _ => 3#8) 1 (.init 2 none (some sampleP) none (some sampleG)) = .ok (some c1) ∧ c1.result = .success ∧
    stdxchg (fun _ => 2#8) 1 (.init 2 c1.out none none none) = .ok (some c2) ∧ c2.result = .success ∧
    stdxchg (fun _ => 3#8) 1 { c1 with inp := c2.out } = .ok (some c3) ∧ c3.result = .success ∧
    c3.k = some ka ∧ c2.k = some kb ∧ val ka.data ≠ val kb.data := by
  refine ⟨sample_prime, ?_⟩
  have i3 : Is (⟨[3], false⟩ : Num 64) 3 := .intro (by decide) rfl
  have i2 : Is (⟨[2], false⟩ : Num 64) 2 := .intro (by decide) rfl
  obtain ⟨c1, c2, c3, ta, tb, ka, kb, KA, KB, h1, h2, h3, h4, h5, h6, h7, h8, h9, h10, -, -, -, m1, m2, m3, m4⟩ :=
    dh_std_run (w := 64) (.inr rfl) sample_group (fun _ => 3#8) (fun _ => 2#8) (fun _ => 3#8) 1 2 2 sample_three sample_two i3 i2
  refine ⟨c1, c2, c3, ka, kb, h1, h2, h3, h4, h5, h6, h7, h8, ?_⟩
  have hs : sig sampleP.data = sampleP.data.length := by decide +kernel
  have hP0 : val sampleP.data ≠ 0 := by decide +kernel
  have ip := sample_group.isP
  have ig := sample_group.isG
  have meets : ∀ b e, meetsB 64 2 0 (val sampleP.data) 4 b e 2 = true → MeetsNoOverflow 64 b e (val sampleP.data) :=
    fun b e h => meetsB_spec (l := 2) (s := 0) (J := 4) (K := 2) sample_shape h
  obtain ⟨ta', TA, x1, x2, -, -, x3⟩ := ig.me (by decide) i3 ip hP0
  rw [m1, Out.ok.injEq, Option.some.injEq] at x1
  subst x1
  have hTA := x3 hs (meets _ _ (by decide +kernel))
  obtain ⟨tb', TB, y1, y2, -, -, y3⟩ := ig.me (by decide) i2 ip hP0
  rw [m2, Out.ok.injEq, Option.some.injEq] at y1
  subst y1
  have hTB := y3 hs (meets _ _ (by decide +kernel))
  obtain ⟨kb', KB', z1, z2, -, -, z3⟩ := x2.me (by decide) i2 ip hP0
  rw [m4, Out.ok.injEq, Option.some.injEq] at z1
  subst z1
  have hKB := z3 hs (meets _ _ (by rw [hTA]; decide +kernel))
  have hlt : val kb.data < val sampleP.data := by
    rw [z2.2.2, hKB]
    exact Nat.mod_lt _ (by omega)
  have hv : val tb.data = val sampleG.data ^ 2 % val sampleP.data := by rw [y2.2.2, hTB]
  obtain ⟨r, e1, e2⟩ := me_last_wrong (by decide) tb ⟨[3], false⟩ sampleP rfl hP0 hs (by decide +kernel)
    (by rw [hv]; exact meets _ _ (by decide +kernel))
    (fun j => by rw [hv]; exact safeB_spec (n := 2) (s := 0) (J := 4) sample_shape (by decide +kernel) j)
    0 (by rw [hv, ← guessB_iff sample_shape]; decide +kernel)
  rw [m3, Out.ok.injEq, Option.some.injEq] at e1
  subst e1
  omega

/-- An exchange that agrees, in the same group: the secrets are 3 and 3. -/
example : ∃ (c1 c2 c3 : Ctx 64) (ka kb : Num 64) (K : Nat),
    stdxchg (fun _ => 3#8) 1 (.init 2 none (some sampleP) none (some sampleG)) = .ok (some c1) ∧ c1.result = .success ∧
    stdxchg (fun _ => 3#8) 1 (.init 2 c1.out none none none) = .ok (some c2) ∧ c2.result = .success ∧
    stdxchg (fun _ => 3#8) 1 { c1 with inp := c2.out } = .ok (some c3) ∧ c3.result = .success ∧
    c3.k = some ka ∧ c2.k = some kb ∧ Is ka K ∧ Is kb K := by
  have i3 : Is (⟨[3], false⟩ : Num 64) 3 := .intro (by decide) rfl
  have meets : ∀ b e, meetsB 64 2 0 (val sampleP.data) 4 b e 2 = true → MeetsNoOverflow 64 b e (val sampleP.data) :=
    fun b e h => meetsB_spec (l := 2) (s := 0) (J := 4) (K := 2) sample_shape h
  obtain ⟨c1, c2, c3, ka, kb, r⟩ := dh_agree_partial (w := 64) (.inr rfl) sample_group (fun _ => 3#8) (fun _ => 3#8) (fun _ => 3#8) 1 2 2
    sample_three sample_three i3 i3 ⟨by decide +kernel, meets _ _ (by decide +kernel), meets _ _ (by decide +kernel),
      meets _ _ (by decide +kernel), meets _ _ (by decide +kernel)⟩
  exact ⟨c1, c2, c3, ka, kb, _, r⟩

/-- Both exchanges in a group with a modulus of one digit, where there is an order `q`. -/
theorem sample_small : Group (⟨[23], false⟩ : Num 64) (some ⟨[11], false⟩) ⟨[4], false⟩ 23 4 ∧
    getRandomS (fun _ => 3#8) 1 (ord (⟨[23], false⟩ : Num 64) (some ⟨[11], false⟩)) 3 = .ok (some ⟨[3], false⟩) ∧
    getRandomS (fun _ => 5#8) 1 (ord (⟨[23], false⟩ : Num 64) (some ⟨[11], false⟩)) 3 = .ok (some ⟨[5], false⟩) := by
  refine ⟨⟨.intro (by decide) rfl, .intro (by decide) rfl, ?_, by decide⟩, by decide +kernel, by decide +kernel⟩
  rintro x hx
  rw [Option.some.injEq] at hx
  subst hx
  exact ⟨11, .intro (by decide) rfl, by decide⟩

example : ∃ (c1 c2 c3 : Ctx 64) (pub priv u : Bytes) (ka kb : Num 64) (K : Nat),
    mkKeyPair (fun _ => 3#8) 1 none none (.init 3 none (some ⟨[23], false⟩) (some ⟨[11], false⟩) (some ⟨[4], false⟩)) =
      .ok (some (c1, some pub, some priv)) ∧
    modxchg (fun _ => 5#8) 1 (.init 3 (some pub) none none none) = .ok (some c2) ∧ c2.out = some u ∧
    modxchg (fun _ => 0#8) 1 (.init 0 (some (u ++ priv)) none none none) = .ok (some c3) ∧
    c3.k = some ka ∧ c2.k = some kb ∧ Is ka K ∧ Is kb K := by
  obtain ⟨h1, h2, h3⟩ := sample_small
  exact dh_mod_single_digit (.inr rfl) h1 rfl _ _ _ 1 3 3 0 h2 h3

end Kryptos.Dh
