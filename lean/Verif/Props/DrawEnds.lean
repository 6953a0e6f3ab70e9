import Verif.Props.DlVerify
import Verif.Props.Dsa
/-
  When drawing a secret number ends (C123): exactly when the source delivers a number in the range, of which the first is taken. The
  range is computed from parameters that the peer sends, and there are parameters for which it is empty, so that the other side is kept
  busy for ever.
-/
namespace Kryptos.Dl
open Mp Spec.Mp

/-- The parameters 7, 3 and 2 are accepted by the verification of parameters. -/
theorem verify_three : verify (w := 32) (fun _ _ => 7) 10 ⟨[7], false⟩ ⟨[3], false⟩ ⟨[2], false⟩ = .ok (some .success) := by
  have ip : Is (⟨[7], false⟩ : Num 32) 7 := ⟨by decide, rfl, by decide⟩
  have iq : Is (⟨[3], false⟩ : Num 32) 3 := ⟨by decide, rfl, by decide⟩
  have ig : Is (⟨[2], false⟩ : Num 32) 2 := ⟨by decide, rfl, by decide⟩
  refine (verify_single_digit (by decide) _ _ ip iq ig rfl rfl).2 ⟨⟨by decide, by decide, by decide, by decide⟩, by decide +kernel, ?_⟩
  exact isPrime_digit (by decide) _ 10 0 _ 7 1 3 ip rfl (by norm_num) (by decide) (by decide) (by decide) (by decide) (by decide)
    (by decide) (fun _ => by decide)

end Kryptos.Dl

namespace Kryptos.Dh
open Mp Spec.Mp

variable {w : Nat}

/-- The number that the `j`-th pass of the loop makes of the random bytes. -/
def cand (rnd : Nat → Byte) (mask : BitVec w) (n i j : Nat) : Num w := ⟨(randDigits w rnd (i + j * (n * (w / 8))) n).map (· &&& mask), false⟩

/-- The loop ends within `f` passes exactly when one of them makes a number in the range, and gives the first of these. -/
theorem drawS_iff (hw : 8 ≤ w) (rnd : Nat → Byte) (mask : BitVec w) {p2 : Num w} {N : Nat} (hp : Is p2 N) (n : Nat) (hn : 0 < n) (s : Num w) :
    ∀ f i, drawS rnd mask p2 n f i = .ok (some s) ↔ ∃ j, j < f ∧ s = cand rnd mask n i j ∧ 2 ≤ val s.data ∧ val s.data ≤ N ∧
      ∀ l, l < j → ¬ (2 ≤ val (cand rnd mask n i l).data ∧ val (cand rnd mask n i l).data ≤ N) := by
  intro f
  induction f with
  | zero => intro i; simp [drawS]
  | succ f ih =>
    intro i
    have hx : Is (cand rnd mask n i 0) (val (cand rnd mask n i 0).data) :=
      Is.intro (List.length_pos_iff.1 (by simp [cand, randDigits]; exact hn)) rfl
    have h0 : cand rnd mask n i 0 = ⟨(randDigits w rnd i n).map (· &&& mask), false⟩ := by simp [cand]
    have hs : ∀ j, cand rnd mask n (i + n * (w / 8)) j = cand rnd mask n i (j + 1) := by
      intro j
      simp only [cand, Nat.succ_mul, Nat.add_assoc, Nat.add_comm (n * (w / 8))]
    simp only [drawS]
    rw [← h0, hx.lt (is_two (by omega)), hx.gt hp]
    split
    · rename_i hc
      simp only [Bool.or_eq_true, decide_eq_true_eq] at hc
      rw [ih]
      constructor
      · rintro ⟨j, h1, h2, h3, h4, h5⟩
        refine ⟨j + 1, by omega, by rw [← hs]; exact h2, h3, h4, fun l hl => ?_⟩
        cases l with
        | zero => omega
        | succ l => rw [← hs]; exact h5 l (by omega)
      · rintro ⟨j, h1, h2, h3, h4, h5⟩
        cases j with
        | zero => rw [h2] at h3 h4; omega
        | succ j =>
          refine ⟨j, by omega, by rw [hs]; exact h2, h3, h4, fun l hl => ?_⟩
          rw [hs]
          exact h5 (l + 1) (by omega)
    · rename_i hc
      simp only [Bool.or_eq_true, decide_eq_true_eq, not_or, Nat.not_lt] at hc
      rw [Out.ok.injEq, Option.some.injEq]
      constructor
      · rintro rfl
        exact ⟨0, by omega, rfl, hc.2, hc.1, fun l hl => by omega⟩
      · rintro ⟨j, -, h2, -, -, h5⟩
        cases j with
        | zero => exact h2.symm
        | succ j => exact absurd ⟨hc.2, hc.1⟩ (h5 0 (by omega))

/-- The loop is never undefined. -/
theorem drawS_ok (rnd : Nat → Byte) (mask : BitVec w) (p2 : Num w) (n : Nat) : ∀ f i, ∃ o, drawS rnd mask p2 n f i = .ok o := by
  intro f
  induction f with
  | zero => intro i; exact ⟨none, rfl⟩
  | succ f ih =>
    intro i
    simp only [drawS]
    split
    · exact ih _
    · exact ⟨_, rfl⟩

/-- A secret is drawn exactly when the source delivers a number from 2 to the order less 2. -/
theorem secret_drawn_iff (hw : 8 ≤ w) (rnd : Nat → Byte) (fuel : Nat) {p : Num w} {P : Nat} (hp : Is p P) (h2 : 2 ≤ P) {bits : Nat} {m : BitVec w}
    (hm : sMask w bits = .ok m) (s : Num w) :
    getRandomS rnd fuel p bits = .ok (some s) ↔ ∃ j, j < fuel ∧ s = cand rnd m (sDigits w bits p.data.length) 0 j ∧ 2 ≤ val s.data ∧
      val s.data ≤ P - 2 ∧ ∀ l, l < j → ¬ (2 ≤ val (cand rnd m (sDigits w bits p.data.length) 0 l).data ∧
        val (cand rnd m (sDigits w bits p.data.length) 0 l).data ≤ P - 2) := by
  obtain ⟨p2, h1, h3⟩ := (hp.assignOpt hw none).sub hw (is_two (by omega)) h2
  rw [getRandomS, h1, Out.bind_ok, hm, Out.bind_ok]
  exact drawS_iff hw rnd m h3 _ (sDigits_pos hw _ _) s fuel 0

/-- The secrets that can be drawn are exactly the numbers in the range with the number of digits and the mask that follow from the
number of bits; none of them is left out. -/
theorem secret_set (k : Nat) (hk : 0 < k) {p : Num (8 * k)} {P : Nat} (hp : Is p P) (h2 : 2 ≤ P) {bits : Nat} {m : BitVec (8 * k)}
    (hm : sMask (8 * k) bits = .ok m) (s : Num (8 * k)) : (∃ rnd fuel, getRandomS rnd fuel p bits = .ok (some s)) ↔
      s.neg = false ∧ s.data.length = sDigits (8 * k) bits p.data.length ∧ (∀ x ∈ s.data, x &&& m = x) ∧ 2 ≤ val s.data ∧ val s.data ≤ P - 2 := by
  have hn := sDigits_pos (w := 8 * k) (by omega) bits p.data.length
  constructor
  · rintro ⟨rnd, fuel, h⟩
    obtain ⟨j, -, h1, h3, h4, -⟩ := (secret_drawn_iff (by omega) rnd fuel hp h2 hm s).1 h
    refine ⟨by rw [h1]; rfl, by rw [h1]; simp [cand, randDigits], ?_, h3, h4⟩
    intro x hx
    rw [h1] at hx
    obtain ⟨y, -, rfl⟩ := List.mem_map.1 hx
    rw [BitVec.and_assoc, BitVec.and_self]
  · rintro ⟨h0, h1, h3, h4, h5⟩
    obtain ⟨rnd, hr⟩ := rand_covers k hk (s.data.length * (8 * k)) s.data (by rw [Nat.mul_div_cancel _ (by omega)]; omega)
    refine ⟨rnd, 1, (secret_drawn_iff (by omega) rnd 1 hp h2 hm s).2 ⟨0, by omega, ?_, h4, h5, fun l hl => by omega⟩⟩
    have hd : randDigits (8 * k) rnd 0 s.data.length = s.data := by
      have := congrArg Num.data hr
      rwa [rand, Nat.mul_div_cancel _ (by omega), newSize_mul (by omega), Nat.max_eq_left (by omega)] at this
    rw [cand, Nat.zero_mul, Nat.add_zero, ← h1, hd, List.map_congr_left h3, List.map_id', ← h0]

/-- With two bits or more a secret can be drawn exactly when the order is at least 4. -/
theorem secret_possible_iff (k : Nat) (hk : 0 < k) {p : Num (8 * k)} {P : Nat} (hp : Is p P) (h2 : 2 ≤ P) {bits : Nat} (hb : 2 ≤ bits) :
    (∃ rnd fuel s, getRandomS rnd fuel p bits = .ok (some s)) ↔ 4 ≤ P := by
  constructor
  · rintro ⟨rnd, fuel, s, h⟩
    obtain ⟨S, -, h4, h5⟩ := secret_range (by omega) rnd fuel hp h2 h
    omega
  · intro h4
    have hn := sDigits_pos (w := 8 * k) (by omega) bits p.data.length
    obtain ⟨m, hm, hm2⟩ : ∃ m : BitVec (8 * k), sMask (8 * k) bits = .ok m ∧ (2#(8 * k)) &&& m = 2#(8 * k) := by
      rw [sMask]
      split
      · rename_i hlt
        rw [if_neg (by omega)]
        refine ⟨_, rfl, ?_⟩
        ext i hi
        simp only [BitVec.getElem_and, BitVec.getElem_ushiftRight, BitVec.getLsbD_allOnes]
        by_cases h : i = 1
        · subst h; simp; omega
        · have : (2#(8 * k))[i] = false := by
            rw [← BitVec.getLsbD_eq_getElem, BitVec.getLsbD_ofNat, show 2 = 2 ^ 1 from rfl, Nat.testBit_two_pow]; simp; omega
          rw [this]; rfl
      · exact ⟨_, rfl, BitVec.and_allOnes⟩
    have hv : val (2#(8 * k) :: List.replicate (sDigits (8 * k) bits p.data.length - 1) 0) = 2 := by
      rw [val, val_replicate, BitVec.toNat_ofNat, Nat.mod_eq_of_lt]
      · simp
      · calc 2 < 2 ^ 8 := by decide
          _ ≤ 2 ^ (8 * k) := Nat.pow_le_pow_right (by decide) (by omega)
    obtain ⟨rnd, fuel, h⟩ := (secret_set k hk hp h2 hm ⟨2#(8 * k) :: List.replicate (sDigits (8 * k) bits p.data.length - 1) 0, false⟩).2
      ⟨rfl, by simp; omega, by
        intro x hx
        rcases List.mem_cons.1 hx with rfl | hx
        · exact hm2
        · rw [List.eq_of_mem_replicate hx]; exact BitVec.zero_and, by rw [hv], by rw [hv]; omega⟩
    exact ⟨rnd, fuel, _, h⟩

/-- With the order 11 and 32 bits the secret 5 can be drawn, with the order 4 some secret. -/
example : (∃ rnd fuel, getRandomS rnd fuel (⟨[11], false⟩ : Num (8 * 4)) 32 = .ok (some ⟨[5], false⟩)) ∧
    ∃ rnd fuel s, getRandomS rnd fuel (⟨[4], false⟩ : Num (8 * 4)) 7 = .ok (some s) :=
  ⟨(secret_set 4 (by decide) (P := 11) ⟨by decide, rfl, rfl⟩ (by decide) (m := BitVec.allOnes _) rfl _).2 ⟨rfl, rfl, fun x _ => BitVec.and_allOnes, by decide, by decide⟩,
    (secret_possible_iff 4 (by decide) (P := 4) ⟨by decide, rfl, rfl⟩ (by decide) (by decide)).2 (by decide)⟩

/-- With an order of 2 or 3 no secret is ever drawn. -/
theorem secret_never (hw : 8 ≤ w) (rnd : Nat → Byte) (fuel : Nat) {p : Num w} {P : Nat} (hp : Is p P) (h : P = 2 ∨ P = 3) {bits : Nat}
    (hb : bits ≠ 0) : getRandomS rnd fuel p bits = .ok none := by
  obtain ⟨p2, h1, h3⟩ := (hp.assignOpt hw none).sub hw (is_two (by omega)) (show 2 ≤ P by omega)
  obtain ⟨m, hm⟩ : ∃ m : BitVec w, sMask w bits = .ok m := by
    rw [sMask]
    split
    · exact ⟨_, rfl⟩
    · exact ⟨_, rfl⟩
  obtain ⟨o, ho⟩ := drawS_ok rnd m p2 (sDigits w bits p.data.length) fuel 0
  have hd : getRandomS rnd fuel p bits = .ok o := by rw [getRandomS, h1, Out.bind_ok, hm, Out.bind_ok, ho]
  cases o with
  | none => exact hd
  | some s =>
    obtain ⟨S, -, h4, h5⟩ := secret_range hw rnd fuel hp (by omega) hd
    omega

/-- C123 is violated: the side that is answering gets the order from the other side, and is kept busy for ever by an order of 2
or 3, or by such a prime when there is no order. -/
theorem xchg_hangs (hw : 8 ≤ w) {doc : Bytes} {p g t : Num w} {q : Option (Num w)} (hp : Rsa.getMp w "DH PARAM P" doc = .ok (some p))
    (hq : Rsa.getMp w "DH PARAM Q" doc = .ok q) (hg : Rsa.getMp w "DH PARAM G" doc = .ok (some g))
    (ht : Rsa.getMp w "DH PARAM T" doc = .ok (some t)) (hn : val (Elgamal.ord p q).data = 2 ∨ val (Elgamal.ord p q).data = 3) {bits : Nat}
    (hb : bits ≠ 0) (rnd : Nat → Byte) (fuel : Nat) : stdxchg rnd fuel (Ctx.init bits (some doc) none none none : Ctx w) = .ok none := by
  have hP : Pem.getMpData w (some (ascii "DH PARAM P")) (some doc) = .ok (some p) := hp
  have hQ : Pem.getMpData w (some (ascii "DH PARAM Q")) (some doc) = .ok q := hq
  have hG : Pem.getMpData w (some (ascii "DH PARAM G")) (some doc) = .ok (some g) := hg
  have hT : Pem.getMpData w (some (ascii "DH PARAM T")) (some doc) = .ok (some t) := ht
  cases q with
  | none =>
    have hd := secret_never hw rnd fuel (Elgamal.getMp_is hw hp) hn hb
    simp [stdxchg, Ctx.init, fetch, hP, hQ, hG, hT, stdT, stdSecret, drawInto, order, hd]
  | some q =>
    have hd := secret_never hw rnd fuel (Elgamal.getMp_is hw hq) hn hb
    simp [stdxchg, Ctx.init, fetch, hP, hQ, hG, hT, stdT, stdSecret, drawInto, order, hd]

/-- Such a document; it does not help to verify the parameters before, as they are in order: the subgroup of order 3 modulo 7. -/
theorem xchg_hangs_doc (hw : w = 32 ∨ w = 64) : ∃ doc, (∀ (bits : Nat), bits ≠ 0 → ∀ (rnd : Nat → Byte) (fuel : Nat),
    stdxchg rnd fuel (Ctx.init bits (some doc) none none none : Ctx w) = .ok none) ∧
    (w = 32 → verifyParams w (fun _ _ => 7) 10 (some doc) = .ok (some .success)) := by
  obtain ⟨doc, -, d2, d3⟩ := Rsa.putMps_get hw [("DH PARAM P", (⟨[7], false⟩ : Num w)), ("DH PARAM Q", ⟨[3], false⟩), ("DH PARAM G", ⟨[2], false⟩),
    ("DH PARAM T", ⟨[4], false⟩)] (by simp) (by simp [gP, gQ, gG, gT]) (by simp only [List.map_cons, List.map_nil]; decide +kernel)
  have hp := d3 ("DH PARAM P", ⟨[7], false⟩) (by simp)
  have hq := d3 ("DH PARAM Q", ⟨[3], false⟩) (by simp)
  have hg := d3 ("DH PARAM G", ⟨[2], false⟩) (by simp)
  refine ⟨doc, fun bits hb rnd fuel => xchg_hangs (by rcases hw with rfl | rfl <;> decide) hp hq hg
    (d3 ("DH PARAM T", ⟨[4], false⟩) (by simp)) (.inr ?_) hb rnd fuel, ?_⟩
  · rcases hw with rfl | rfl <;> rfl
  · rintro rfl
    rw [verifyParams_eq _ _ doc _ _ _ d2 hp hq hg]
    exact Dl.verify_three

/-- The characterisation is met: two numbers out of the range are passed over. -/
example : getRandomS (fun i => [0, 0, 0, 10, 0, 0, 0, 1, 0, 0, 0, 5].getD i 0) 3 (⟨[11], false⟩ : Num 32) 32 = .ok (some ⟨[5], false⟩) := by
  refine (secret_drawn_iff (P := 11) (by decide) _ 3 ⟨by decide, rfl, rfl⟩ (by decide) (m := BitVec.allOnes 32) rfl _).2
    ⟨2, by decide, by decide, by decide, by decide, ?_⟩
  decide +kernel

end Kryptos.Dh

namespace Kryptos.Dl
open Mp Spec.Mp

variable {w : Nat}

/-- The number that the `j`-th pass makes of the random bytes. -/
def cand (rnd : Nat → Byte) (mask : BitVec w) (n i j : Nat) : Num w :=
  ⟨andLast mask (rand w rnd (i + j * (newSize w (n * w / w * w) * (w / 8))) (n * w)).data, false⟩

/-- The loop of DSA and ElGamal ends within `f` passes exactly when one of them makes a number in the range, and gives the first of
these. -/
theorem drawLoop_iff (hw : 8 ≤ w) (rnd : Nat → Byte) (mask : BitVec w) {lo hi : Num w} {L N : Nat} (hl : Is lo L) (hh : Is hi N) (n : Nat)
    (s : Num w) : ∀ f i, drawLoop rnd mask lo hi n f i = .ok (some s) ↔ ∃ j, j < f ∧ s = cand rnd mask n i j ∧ L ≤ val s.data ∧ val s.data ≤ N ∧
      ∀ l, l < j → ¬ (L ≤ val (cand rnd mask n i l).data ∧ val (cand rnd mask n i l).data ≤ N) := by
  intro f
  induction f with
  | zero => intro i; simp [drawLoop]
  | succ f ih =>
    intro i
    have hx : Is (cand rnd mask n i 0) (val (cand rnd mask n i 0).data) := by
      obtain ⟨X, hX⟩ := rand_is hw rnd (i + 0 * (newSize w (n * w / w * w) * (w / 8))) (n * w)
      exact Is.intro (List.length_pos_iff.1 (by rw [cand, andLast_length]; exact hX.1)) rfl
    have h0 : cand rnd mask n i 0 = ⟨andLast mask (rand w rnd i (n * w)).data, false⟩ := by simp [cand]
    have hs : ∀ j, cand rnd mask n (i + newSize w (n * w / w * w) * (w / 8)) j = cand rnd mask n i (j + 1) := by
      intro j
      simp only [cand, Nat.succ_mul, Nat.add_assoc, Nat.add_comm (newSize w (n * w / w * w) * (w / 8))]
    simp only [drawLoop]
    rw [← h0, hx.lt hl, hx.gt hh]
    split
    · rename_i hc
      simp only [Bool.or_eq_true, decide_eq_true_eq] at hc
      rw [ih]
      constructor
      · rintro ⟨j, h1, h2, h3, h4, h5⟩
        refine ⟨j + 1, by omega, by rw [← hs]; exact h2, h3, h4, fun l hl => ?_⟩
        cases l with
        | zero => omega
        | succ l => rw [← hs]; exact h5 l (by omega)
      · rintro ⟨j, h1, h2, h3, h4, h5⟩
        cases j with
        | zero => rw [h2] at h3 h4; omega
        | succ j =>
          refine ⟨j, by omega, by rw [hs]; exact h2, h3, h4, fun l hl => ?_⟩
          rw [hs]
          exact h5 (l + 1) (by omega)
    · rename_i hc
      simp only [Bool.or_eq_true, decide_eq_true_eq, not_or, Nat.not_lt] at hc
      rw [Out.ok.injEq, Option.some.injEq]
      constructor
      · rintro rfl
        exact ⟨0, by omega, rfl, hc.1, hc.2, fun l hl => by omega⟩
      · rintro ⟨j, -, h2, -, -, h5⟩
        cases j with
        | zero => exact h2.symm
        | succ j => exact absurd ⟨hc.1, hc.2⟩ (h5 0 (by omega))

/-- The loop is never undefined. -/
theorem drawLoop_ok (rnd : Nat → Byte) (mask : BitVec w) (lo hi : Num w) (n : Nat) : ∀ f i, ∃ o, drawLoop rnd mask lo hi n f i = .ok o := by
  intro f
  induction f with
  | zero => intro i; exact ⟨none, rfl⟩
  | succ f ih =>
    intro i
    simp only [drawLoop]
    split
    · exact ih _
    · exact ⟨_, rfl⟩

/-- A number has digits of every length that is long enough. -/
theorem exists_digits (n : Nat) : ∀ v, v < 2 ^ (w * n) → ∃ d : Digits w, d.length = n ∧ val d = v := by
  induction n with
  | zero => intro v h; exact ⟨[], rfl, by simp [val] at h ⊢; omega⟩
  | succ n ih =>
    intro v h
    obtain ⟨d, h1, h2⟩ := ih (v / 2 ^ w) (by rw [Nat.div_lt_iff_lt_mul (Nat.two_pow_pos w), ← pow_add]; exact h)
    exact ⟨BitVec.ofNat w v :: d, by simp [h1], by rw [val, BitVec.toNat_ofNat, h2]; exact Nat.mod_add_div v _⟩

theorem andLast_append (m x : BitVec w) : ∀ l : Digits w, andLast m (l ++ [x]) = l ++ [x &&& m]
  | [] => rfl
  | [y] => rfl
  | y :: z :: l => by
    have := andLast_append m x (z :: l)
    simp only [List.cons_append] at this ⊢
    rw [andLast, this]

/-- The mask of a number in normal form is there, and keeps every number that is not greater. -/
theorem topMask_keeps (d : Digits w) (hs : sig d = d.length) (hd : 0 < d.length) : ∃ m, topMask d = .ok m ∧
    ∀ e : Digits w, d.length ≤ e.length → val e ≤ val d → andLast m e = e := by
  obtain ⟨l, x, rfl⟩ : ∃ l x, d = l ++ [x] := ⟨d.dropLast, d.getLast (List.length_pos_iff.1 hd), (List.dropLast_append_getLast _).symm⟩
  have hll := val_lt l
  have hx : x ≠ 0 := by
    rintro rfl
    have := sig_pos_le (l ++ [0]) (by rw [hs]; exact hd)
    rw [hs, val_append] at this
    simp [val] at this
    omega
  refine ⟨BitVec.allOnes w >>> (w - 1 - Nat.log2 x.toNat), ?_, ?_⟩
  · rw [topMask, rd_eq_ok (by simp), Out.bind_ok]
    simp
    exact hx
  · intro e he hv
    obtain ⟨k, y, rfl⟩ : ∃ k y, e = k ++ [y] :=
      ⟨e.dropLast, e.getLast (List.length_pos_iff.1 (by omega)), (List.dropLast_append_getLast _).symm⟩
    simp only [List.length_append, List.length_singleton] at he
    rw [val_append, val_append] at hv
    simp only [val, Nat.mul_zero, Nat.add_zero] at hv
    have hyx : y.toNat ≤ x.toNat := by
      have h1 : 2 ^ (w * l.length) ≤ 2 ^ (w * k.length) := Nat.pow_le_pow_right (by decide) (Nat.mul_le_mul_left _ (by omega))
      have h2 := Nat.mul_le_mul_right y.toNat h1
      by_contra hc
      have h3 : 2 ^ (w * l.length) * (x.toNat + 1) ≤ 2 ^ (w * l.length) * y.toNat := Nat.mul_le_mul_left _ (by omega)
      rw [Nat.mul_succ] at h3
      omega
    have hx0 : x.toNat ≠ 0 := fun h => hx (BitVec.eq_of_toNat_eq h)
    have hlog : Nat.log2 x.toNat < w := (Nat.log2_lt hx0).2 x.isLt
    rw [andLast_append]
    congr 2
    apply BitVec.eq_of_toNat_eq
    have hm : (BitVec.allOnes w >>> (w - 1 - Nat.log2 x.toNat)).toNat = 2 ^ (Nat.log2 x.toNat + 1) - 1 := by
      rw [BitVec.toNat_ushiftRight, BitVec.toNat_allOnes, Nat.shiftRight_eq_div_pow]
      have hp : (2 : Nat) ^ w = 2 ^ (Nat.log2 x.toNat + 1) * 2 ^ (w - 1 - Nat.log2 x.toNat) := by rw [← pow_add]; congr 1; omega
      have h1 := Nat.two_pow_pos (Nat.log2 x.toNat + 1)
      have h2 := Nat.two_pow_pos (w - 1 - Nat.log2 x.toNat)
      rw [hp]
      generalize 2 ^ (Nat.log2 x.toNat + 1) = A at *
      generalize 2 ^ (w - 1 - Nat.log2 x.toNat) = B at *
      obtain ⟨a, rfl⟩ : ∃ a, A = a + 1 := ⟨A - 1, by omega⟩
      rw [Nat.add_sub_cancel, Nat.div_eq_iff h2, Nat.succ_mul]
      omega
    rw [BitVec.toNat_and, hm, Nat.and_two_pow_sub_one_eq_mod, Nat.mod_eq_of_lt]
    exact lt_of_le_of_lt hyx Nat.lt_log2_self

/-- Drawing is defined for every order above the lower end of the range, also for one with zeros in front. -/
theorem draw_defined (hw : 8 ≤ w) (rnd : Nat → Byte) (fuel : Nat) {lo n : Num w} {L N : Nat} (hl : Is lo L) (h0 : 0 < L) (hn : Is n N)
    (h : L < N) : ∃ o, draw rnd fuel lo n = .ok o := by
  obtain ⟨hi, h1, h2, h3⟩ := (hn.assignOpt hw none).subNorm hw hl h0 h
  obtain ⟨m, hm, -⟩ := topMask_keeps hi.data h3 h2.1
  rw [draw, h1, Out.bind_ok, hm, Out.bind_ok]
  exact drawLoop_ok _ _ _ _ _ _ _

/-- Every number of the range can be drawn, in one pass: the private numbers of DSA (`L = 1`) and of ElGamal (`L = 2`). -/
theorem draw_all (k : Nat) (hk : 0 < k) {lo n : Num (8 * k)} {L N : Nat} (hl : Is lo L) (h0 : 0 < L) (hn : Is n N) (S : Nat) (h1 : L ≤ S)
    (h2 : S ≤ N - L) : ∃ rnd s, draw rnd 1 lo n = .ok (some s) ∧ Is s S := by
  obtain ⟨hi, e1, e2, e3⟩ := (hn.assignOpt (show 8 ≤ 8 * k by omega) none).subNorm (by omega) hl h0 (by omega)
  obtain ⟨m, hm, hk2⟩ := topMask_keeps hi.data e3 e2.1
  have hnl := val_lt n.data
  rw [hn.2.2] at hnl
  obtain ⟨d, d1, d2⟩ := exists_digits (w := 8 * k) n.data.length S (by omega)
  have hlen : hi.data.length ≤ d.length := by
    have hp := sig_pos_le hi.data (by rw [e3]; exact e2.1)
    rw [e3, e2.2.2] at hp
    rw [d1]
    by_contra hc
    have : 2 ^ (8 * k * n.data.length) ≤ 2 ^ (8 * k * (hi.data.length - 1)) :=
      Nat.pow_le_pow_right (by decide) (Nat.mul_le_mul_left _ (by omega))
    omega
  have hnp := hn.1
  obtain ⟨rnd, hr⟩ := rand_covers k hk (d.length * (8 * k)) d (by rw [Nat.mul_div_cancel _ (by omega)]; omega)
  have hs : Is (⟨d, false⟩ : Num (8 * k)) S := ⟨by show 0 < d.length; omega, rfl, d2⟩
  refine ⟨rnd, ⟨d, false⟩, ?_, hs⟩
  rw [draw, e1, Out.bind_ok, hm, Out.bind_ok]
  refine (drawLoop_iff (by omega) rnd m hl e2 n.data.length _ 1 0).2 ⟨0, by omega, ?_, by rw [hs.2.2]; exact h1, by rw [hs.2.2]; exact h2, fun l hl => by omega⟩
  rw [cand, Nat.zero_mul, Nat.add_zero, ← d1, hr]
  show _ = Num.mk (andLast m d) false
  rw [hk2 d hlen (by rw [d2, e2.2.2]; exact h2)]

/-- A number is drawn by some bytes exactly when the order is at least twice the lower end. -/
theorem draw_possible_iff (k : Nat) (hk : 0 < k) {lo n : Num (8 * k)} {L N : Nat} (hl : Is lo L) (h0 : 0 < L) (hn : Is n N) (h : L < N) :
    (∃ rnd fuel s, draw rnd fuel lo n = .ok (some s)) ↔ 2 * L ≤ N := by
  constructor
  · rintro ⟨rnd, fuel, s, hs⟩
    obtain ⟨S, -, h4, h5⟩ := draw_range (by omega) rnd fuel hl hn h.le hs
    omega
  · intro h2
    obtain ⟨rnd, s, hs, -⟩ := draw_all k hk hl h0 hn L le_rfl (by omega)
    exact ⟨rnd, 1, s, hs⟩

/-- The order 2^32, with two digits while the upper end has one: the number 2^32 - 1 can be drawn for DSA. -/
example : ∃ rnd s, draw rnd 1 one (⟨[0, 1], false⟩ : Num (8 * 4)) = .ok (some s) ∧ Is s (2 ^ 32 - 1) :=
  draw_all 4 (by decide) (is_one (by decide)) (by decide) (N := 2 ^ 32) ⟨by decide, rfl, by decide⟩ _ (by decide) (by decide)

/-- The characterisation is met: 9 and 1 are passed over. -/
example : drawLoop (fun i => [9, 0, 0, 0, 1, 0, 0, 0, 5, 0, 0, 0].getD (i / 4 * 4 + (3 - i % 4)) 0) (BitVec.allOnes 32) two (⟨[8], false⟩ : Num 32) 1 3 0 =
    .ok (some ⟨[5], false⟩) :=
  (drawLoop_iff (L := 2) (N := 8) (by decide) _ _ (is_two (by decide)) ⟨by decide, rfl, rfl⟩ 1 _ 3 0).2
    ⟨2, by decide, by decide +kernel, by decide, by decide, by decide +kernel⟩

end Kryptos.Dl

namespace Kryptos.Elgamal
open Mp Spec.Mp
open Rsa (Res getMp putMps getMp_spec num putMps_get)

variable {w : Nat}

/-- The same for ElGamal: a public key with an order of 3 keeps everyone busy who encrypts for it. -/
theorem encrypt_hangs (hw : w = 32 ∨ w = 64) {key : Bytes} {p q g b : Num w} (hp : getMp w "ELGAMAL PARAM P" key = .ok (some p))
    (hq : getMp w "ELGAMAL PARAM Q" key = .ok (some q)) (h3 : val q.data = 3) (hg : getMp w "ELGAMAL PARAM G" key = .ok (some g))
    (hb : getMp w "ELGAMAL PARAM B" key = .ok (some b)) (inp : Bytes) (hi : inp ≠ []) (h0 : 0 < num inp) (hlt : num inp < val p.data)
    (rnd : Nat → Byte) (fuel : Nat) : encrypt w rnd fuel key inp = .ok none := by
  have hw8 : 8 ≤ w := by rcases hw with rfl | rfl <;> decide
  have ip := getMp_is hw8 hp
  have i3 := getMp_is hw8 hq
  rw [h3] at i3
  have hd : Dl.draw rnd fuel two q = .ok none := by
    obtain ⟨o, ho⟩ := Dl.draw_defined hw8 rnd fuel (is_two (by omega)) (by omega) i3 (by omega)
    cases o with
    | none => exact ho
    | some s =>
      obtain ⟨S, -, h4, h5⟩ := Dl.draw_range hw8 rnd fuel (is_two (by omega)) i3 (by omega) ho
      omega
  obtain ⟨p1, s1, s2⟩ := (ip.assignOpt hw8 none).sub hw8 (is_one (by omega)) (by omega)
  obtain ⟨x, x1, x2, x3, -⟩ := Rsa.rawBuffer_num (w := w) hw inp hi
  have ix : Is (⟨x, false⟩ : Num w) (num inp) := ⟨List.length_pos_iff.2 x3, rfl, x2⟩
  have hr : (lt (⟨x, false⟩ : Num w) one || gt (⟨x, false⟩ : Num w) p1) = false := by
    rw [ix.lt (is_one (by omega)), ix.gt s2]
    simp
    omega
  rw [encrypt, hp, Out.bind_ok]
  simp only [s1, x1, Out.bind_ok, hr, Bool.false_eq_true, if_false, hq, hg, hb, hd]
  rfl

/-- Such a key; it is accepted by the verification of public keys. -/
theorem encrypt_hangs_key (hw : w = 32 ∨ w = 64) : ∃ key, (∀ (inp : Bytes), inp ≠ [] → 0 < num inp → num inp < 7 →
    ∀ (rnd : Nat → Byte) (fuel : Nat), encrypt w rnd fuel key inp = .ok none) ∧
    (w = 32 → verifyPublicKey w (fun _ _ => 7) 10 key = .ok (some .success)) := by
  obtain ⟨key, -, k2, k3⟩ := putMps_get hw [("ELGAMAL PARAM P", (⟨[7], false⟩ : Num w)), ("ELGAMAL PARAM Q", ⟨[3], false⟩),
    ("ELGAMAL PARAM G", ⟨[2], false⟩), ("ELGAMAL PARAM B", ⟨[4], false⟩)] (by simp) (by simp [gP, gQ, gG, gB])
    (by simp only [List.map_cons, List.map_nil]; decide +kernel)
  have hp := k3 ("ELGAMAL PARAM P", ⟨[7], false⟩) (by simp)
  have hq := k3 ("ELGAMAL PARAM Q", ⟨[3], false⟩) (by simp)
  have hg := k3 ("ELGAMAL PARAM G", ⟨[2], false⟩) (by simp)
  have hb := k3 ("ELGAMAL PARAM B", ⟨[4], false⟩) (by simp)
  refine ⟨key, fun inp hi h0 hlt rnd fuel => encrypt_hangs hw hp hq ?_ hg hb inp hi h0 ?_ rnd fuel, ?_⟩
  · rcases hw with rfl | rfl <;> rfl
  · rcases hw with rfl | rfl <;> exact hlt
  · rintro rfl
    rw [verifyPublicKey_eq _ _ key _ _ _ _ k2 hp hq hg hb]
    exact Dl.verify_three

example : ∃ key, ∀ (rnd : Nat → Byte) (fuel : Nat), encrypt 64 rnd fuel key [0x05#8] = .ok none := by
  obtain ⟨key, h, -⟩ := encrypt_hangs_key (w := 64) (.inr rfl)
  exact ⟨key, h _ (by decide) (by decide) (by decide)⟩

end Kryptos.Elgamal
