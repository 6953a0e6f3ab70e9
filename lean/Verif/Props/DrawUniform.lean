import Verif.Props.DrawEnds
/-
  Secret numbers are drawn without bias (C125).  Adding a fixed string to the random bytes (exclusive or) is a permutation of the
  sources that keeps their distribution.  For any two secrets that can be drawn and any pass of the loop there is such a string that
  turns the sources for which the loop ends in this pass with the first secret into those for which it ends there with the second.
-/
namespace Kryptos.Mp
open Spec.Mp

variable {w : Nat}

/-- Exclusive or of lists of digits. -/
def xorD (a b : Digits w) : Digits w := List.zipWith (· ^^^ ·) a b

theorem xorD_length (a b : Digits w) (h : a.length = b.length) : (xorD a b).length = b.length := by simp [xorD, h]

theorem xorD_cancel : ∀ (a b : Digits w), a.length = b.length → xorD (xorD a b) b = a
  | [], [], _ => rfl
  | a :: l, b :: m, h => by
    have := xorD_cancel l m (by simpa using h)
    simp only [xorD, List.zipWith_cons_cons, BitVec.xor_assoc, BitVec.xor_self, BitVec.xor_zero] at this ⊢
    rw [this]

theorem xorD_cancel_left : ∀ (a b : Digits w), a.length = b.length → xorD a (xorD a b) = b
  | [], [], _ => rfl
  | a :: l, b :: m, h => by
    have := xorD_cancel_left l m (by simpa using h)
    simp only [xorD, List.zipWith_cons_cons, ← BitVec.xor_assoc, BitVec.xor_self, BitVec.zero_xor] at this ⊢
    rw [this]

/-- A digit of random bytes is linear in the bytes. -/
theorem randDigit_xor (a b : Nat → Byte) (i : Nat) : randDigit w (fun t => a t ^^^ b t) i = randDigit w a i ^^^ randDigit w b i := by
  have key : ∀ (l : List Nat) (x y : BitVec w), l.foldl (fun (acc : BitVec w) j => (acc <<< 8) ||| (a (i + j) ^^^ b (i + j)).setWidth w) (x ^^^ y) =
      l.foldl (fun (acc : BitVec w) j => (acc <<< 8) ||| (a (i + j)).setWidth w) x ^^^ l.foldl (fun (acc : BitVec w) j => (acc <<< 8) ||| (b (i + j)).setWidth w) y := by
    intro l
    induction l with
    | nil => intro x y; rfl
    | cons j l ih =>
      intro x y
      simp only [List.foldl_cons]
      rw [← ih]
      refine congrArg (fun z => List.foldl _ z l) ?_
      generalize a (i + j) = p
      generalize b (i + j) = q
      apply BitVec.eq_of_getLsbD_eq
      intro t ht
      simp only [BitVec.getLsbD_or, BitVec.getLsbD_xor, BitVec.getLsbD_shiftLeft, BitVec.getLsbD_setWidth, ht, decide_true, Bool.true_and]
      by_cases h8 : t < 8
      · simp [h8]
      · simp [h8, BitVec.getLsbD_of_ge _ _ (Nat.le_of_not_lt h8)]
  have := key (List.range (w / 8)) 0 0
  rwa [BitVec.xor_self] at this

theorem randDigits_xor (a b : Nat → Byte) (i n : Nat) :
    randDigits w (fun t => a t ^^^ b t) i n = xorD (randDigits w a i n) (randDigits w b i n) := by
  rw [xorD, randDigits, randDigits, randDigits, List.zipWith_map]
  simp only [randDigit_xor, List.zipWith_self]

/-- Only the bytes of the block count. -/
theorem randDigits_congr (a b : Nat → Byte) (i i' n : Nat) (h : ∀ t, t < n * (w / 8) → a (i + t) = b (i' + t)) :
    randDigits w a i n = randDigits w b i' n := by
  rw [randDigits, randDigits]
  apply List.map_congr_left
  intro d hd
  have hd := List.mem_range.1 hd
  rw [randDigit, randDigit]
  apply List.foldl_ext
  intro acc j hj
  have hj := List.mem_range.1 hj
  have : d * (w / 8) + (w / 8) ≤ n * (w / 8) := by rw [← Nat.succ_mul]; exact Nat.mul_le_mul_right _ hd
  rw [Nat.add_assoc, Nat.add_assoc, h _ (by omega)]

/-- The string for two secrets and a pass, for any masking `g` that is linear. -/
theorem uniform_core (k : Nat) (hk : 0 < k) (n : Nat) (hn : 0 < n) (g : Digits (8 * k) → Digits (8 * k))
    (hl : ∀ d, (g d).length = d.length) (hx : ∀ d e, d.length = e.length → g (xorD d e) = xorD (g d) (g e)) (s s' : Digits (8 * k))
    (h1 : s.length = n) (h1' : s'.length = n) (h2 : g s = s) (h2' : g s' = s') (R : Digits (8 * k) → Prop) (j : Nat) :
    ∃ δ : Nat → Byte, ∀ rnd : Nat → Byte, (s = g (randDigits (8 * k) rnd (j * (n * (8 * k / 8))) n) ∧
        ∀ l, l < j → ¬ R (g (randDigits (8 * k) rnd (l * (n * (8 * k / 8))) n))) ↔
      (s' = g (randDigits (8 * k) (fun i => rnd i ^^^ δ i) (j * (n * (8 * k / 8))) n) ∧
        ∀ l, l < j → ¬ R (g (randDigits (8 * k) (fun i => rnd i ^^^ δ i) (l * (n * (8 * k / 8))) n))) := by
  obtain ⟨r, hr⟩ := rand_covers k hk (n * (8 * k)) (xorD s s')
    (by rw [Nat.mul_div_cancel _ (by omega), xorD_length _ _ (by omega)]; omega)
  have hr : randDigits (8 * k) r 0 n = xorD s s' := by
    have := congrArg Num.data hr
    rwa [rand, Nat.mul_div_cancel _ (by omega), newSize_mul (by omega), Nat.max_eq_left (by omega)] at this
  set B := n * (8 * k / 8) with hB
  have hlen : ∀ rnd i, (randDigits (8 * k) rnd i n).length = n := by intro rnd i; simp [randDigits]
  refine ⟨fun i => if j * B ≤ i then r (i - j * B) else 0, fun rnd => ?_⟩
  have hlow : ∀ l, l < j → randDigits (8 * k) (fun i => rnd i ^^^ (if j * B ≤ i then r (i - j * B) else 0)) (l * B) n =
      randDigits (8 * k) rnd (l * B) n := by
    intro l hlj
    apply randDigits_congr
    intro t ht
    have : l * B + B ≤ j * B := by rw [← Nat.succ_mul]; exact Nat.mul_le_mul_right _ hlj
    rw [if_neg (by omega)]; exact BitVec.xor_zero
  have hj : randDigits (8 * k) (fun i => rnd i ^^^ (if j * B ≤ i then r (i - j * B) else 0)) (j * B) n =
      xorD (randDigits (8 * k) rnd (j * B) n) (xorD s s') := by
    rw [randDigits_xor, ← hr]
    congr 1
    apply randDigits_congr
    intro t ht
    rw [if_pos (by omega), Nat.add_sub_cancel_left, Nat.zero_add]
  have hss : (xorD s s').length = n := by rw [xorD_length _ _ (by omega), h1']
  rw [hj, hx _ _ (by rw [hlen, hss]), hx _ _ (by omega), h2, h2']
  have hgl : (g (randDigits (8 * k) rnd (j * B) n)).length = n := by rw [hl, hlen]
  refine and_congr ⟨fun h => ?_, fun h => ?_⟩ ⟨fun h l hlj => ?_, fun h l hlj => ?_⟩
  · rw [← h, xorD_cancel_left _ _ (by omega)]
  · have e := congrArg (fun z => xorD z (xorD s s')) h
    rw [xorD_cancel _ _ (by omega)] at e
    rw [← e]
    have c := xorD_cancel_left s' s (by omega)
    have hc : xorD s s' = xorD s' s := by
      simp only [xorD]; exact List.zipWith_comm_of_comm (fun x y => BitVec.xor_comm x y)
    rw [hc, c]
  · rw [hlow l hlj]; exact h l hlj
  · have := h l hlj
    rwa [hlow l hlj] at this

end Kryptos.Mp

namespace Kryptos.Dh
open Mp Spec.Mp

variable {w : Nat}

theorem map_and_xor (m : BitVec w) : ∀ (d e : Digits w), d.length = e.length →
    (xorD d e).map (· &&& m) = xorD (d.map (· &&& m)) (e.map (· &&& m))
  | [], [], _ => rfl
  | x :: d, y :: e, h => by
    have := map_and_xor m d e (by simpa using h)
    simp only [xorD, List.zipWith_cons_cons, List.map_cons] at this ⊢
    rw [this]
    congr 1
    apply BitVec.eq_of_getLsbD_eq
    intro t ht
    simp only [BitVec.getLsbD_and, BitVec.getLsbD_xor]
    cases x.getLsbD t <;> cases y.getLsbD t <;> cases m.getLsbD t <;> rfl

/-- Ending in a given pass. -/
theorem secret_at_iff (hw : 8 ≤ w) (rnd : Nat → Byte) (j : Nat) {p : Num w} {P : Nat} (hp : Is p P) (h2 : 2 ≤ P) {bits : Nat} {m : BitVec w}
    (hm : sMask w bits = .ok m) (s : Num w) (hs : 2 ≤ val s.data) (hs' : val s.data ≤ P - 2) :
    (getRandomS rnd (j + 1) p bits = .ok (some s) ∧ getRandomS rnd j p bits = .ok none) ↔
      s = cand rnd m (sDigits w bits p.data.length) 0 j ∧ ∀ l, l < j →
        ¬ (2 ≤ val (cand rnd m (sDigits w bits p.data.length) 0 l).data ∧ val (cand rnd m (sDigits w bits p.data.length) 0 l).data ≤ P - 2) := by
  rw [secret_drawn_iff hw rnd (j + 1) hp h2 hm]
  constructor
  · rintro ⟨⟨i, h1, h3, h4, h5, h6⟩, h7⟩
    have : i = j := by
      by_contra hc
      have := (secret_drawn_iff hw rnd j hp h2 hm s).2 ⟨i, by omega, h3, h4, h5, h6⟩
      rw [h7] at this
      simp at this
    subst this
    exact ⟨h3, h6⟩
  · rintro ⟨h3, h6⟩
    refine ⟨⟨j, by omega, h3, hs, hs', h6⟩, ?_⟩
    obtain ⟨p2, e1, -⟩ := (hp.assignOpt hw none).sub hw (is_two (by omega)) h2
    obtain ⟨o, ho⟩ := drawS_ok rnd m p2 (sDigits w bits p.data.length) j 0
    have hd : getRandomS rnd j p bits = .ok o := by rw [getRandomS, e1, Out.bind_ok, hm, Out.bind_ok, ho]
    cases o with
    | none => exact hd
    | some z =>
      obtain ⟨i, i1, i2, i3, i4, -⟩ := (secret_drawn_iff hw rnd j hp h2 hm z).1 hd
      exact absurd ⟨i2 ▸ i3, i2 ▸ i4⟩ (h6 i i1)

/-- C125 for Diffie-Hellman: any two secrets that can be drawn are drawn by equally many sources, in every pass. -/
theorem secret_uniform (k : Nat) (hk : 0 < k) {p : Num (8 * k)} {P : Nat} (hp : Is p P) (h2 : 2 ≤ P) {bits : Nat} (hb : bits ≠ 0)
    {s s' : Num (8 * k)} (hs : ∃ rnd fuel, getRandomS rnd fuel p bits = .ok (some s))
    (hs' : ∃ rnd fuel, getRandomS rnd fuel p bits = .ok (some s')) (j : Nat) : ∃ δ : Nat → Byte, ∀ rnd : Nat → Byte,
      (getRandomS rnd (j + 1) p bits = .ok (some s) ∧ getRandomS rnd j p bits = .ok none) ↔
      (getRandomS (fun i => rnd i ^^^ δ i) (j + 1) p bits = .ok (some s') ∧ getRandomS (fun i => rnd i ^^^ δ i) j p bits = .ok none) := by
  obtain ⟨m, hm⟩ : ∃ m : BitVec (8 * k), sMask (8 * k) bits = .ok m := by
    rw [sMask]
    split
    · exact ⟨_, rfl⟩
    · exact ⟨_, rfl⟩
  obtain ⟨a1, a2, a3, a4, a5⟩ := (secret_set k hk hp h2 hm s).1 hs
  obtain ⟨b1, b2, b3, b4, b5⟩ := (secret_set k hk hp h2 hm s').1 hs'
  obtain ⟨δ, hδ⟩ := uniform_core k hk _ (sDigits_pos (w := 8 * k) (by omega) bits p.data.length) (fun d => d.map (· &&& m)) (by simp)
    (map_and_xor m) s.data s'.data a2 b2 (by rw [List.map_congr_left a3, List.map_id'])
    (by rw [List.map_congr_left b3, List.map_id']) (fun d => 2 ≤ val d ∧ val d ≤ P - 2) j
  refine ⟨δ, fun rnd => ?_⟩
  rw [secret_at_iff (by omega) rnd j hp h2 hm s a4 a5, secret_at_iff (by omega) _ j hp h2 hm s' b4 b5]
  obtain ⟨sd, sn⟩ := s
  obtain ⟨sd', sn'⟩ := s'
  subst a1 b1
  simp only [cand, Nat.zero_add, Num.mk.injEq, and_true]
  exact hδ rnd

end Kryptos.Dh

namespace Kryptos.Dl
open Mp Spec.Mp

variable {w : Nat}

theorem andLast_xor (m : BitVec w) : ∀ (d e : Digits w), d.length = e.length → andLast m (xorD d e) = xorD (andLast m d) (andLast m e)
  | [], [], _ => rfl
  | [x], [y], _ => by
    simp only [xorD, List.zipWith_cons_cons, andLast, List.zipWith_nil_left, List.cons.injEq, and_true]
    apply BitVec.eq_of_getLsbD_eq
    intro t ht
    simp only [BitVec.getLsbD_and, BitVec.getLsbD_xor]
    cases x.getLsbD t <;> cases y.getLsbD t <;> cases m.getLsbD t <;> rfl
  | x :: x' :: d, y :: y' :: e, h => by
    have := andLast_xor m (x' :: d) (y' :: e) (by simpa using h)
    simp only [xorD, List.zipWith_cons_cons, andLast] at this ⊢
    rw [this]

theorem andLast_idem (m : BitVec w) : ∀ d : Digits w, andLast m (andLast m d) = andLast m d
  | [] => rfl
  | [x] => by simp [andLast, BitVec.and_assoc]
  | x :: y :: d => by
    have h := andLast_idem m (y :: d)
    have hl := andLast_length m (y :: d)
    cases hc : andLast m (y :: d) with
    | nil => rw [hc] at hl; simp at hl
    | cons z t => rw [andLast, hc, andLast, ← hc, h]

/-- C125 for DSA (`L = 1`) and ElGamal (`L = 2`). -/
theorem draw_uniform (k : Nat) (hk : 0 < k) {lo n : Num (8 * k)} {L N : Nat} (hl : Is lo L) (h0 : 0 < L) (hn : Is n N) (hLN : L < N)
    {s s' : Num (8 * k)} (hs : ∃ rnd fuel, draw rnd fuel lo n = .ok (some s)) (hs' : ∃ rnd fuel, draw rnd fuel lo n = .ok (some s')) (j : Nat) :
    ∃ δ : Nat → Byte, ∀ rnd : Nat → Byte, (draw rnd (j + 1) lo n = .ok (some s) ∧ draw rnd j lo n = .ok none) ↔
      (draw (fun i => rnd i ^^^ δ i) (j + 1) lo n = .ok (some s') ∧ draw (fun i => rnd i ^^^ δ i) j lo n = .ok none) := by
  obtain ⟨hi, e1, e2, e3⟩ := (hn.assignOpt (show 8 ≤ 8 * k by omega) none).subNorm (by omega) hl h0 hLN
  obtain ⟨m, hm, -⟩ := topMask_keeps hi.data e3 e2.1
  have hd : ∀ rnd f, draw rnd f lo n = drawLoop rnd m lo hi n.data.length f 0 := by
    intro rnd f
    rw [draw, e1, Out.bind_ok, hm, Out.bind_ok]
  simp only [hd] at hs hs' ⊢
  have hnp := hn.1
  have hc : ∀ rnd l, cand rnd m n.data.length 0 l =
      ⟨andLast m (randDigits (8 * k) rnd (l * (n.data.length * (8 * k / 8))) n.data.length), false⟩ := by
    intro rnd l
    simp only [cand, rand]
    rw [Nat.mul_div_cancel _ (show 0 < 8 * k by omega), newSize_mul (by omega), Nat.max_eq_left (by omega), Nat.zero_add]
  have hform : ∀ z : Num (8 * k), (∃ rnd fuel, drawLoop rnd m lo hi n.data.length fuel 0 = .ok (some z)) → z.neg = false ∧
      z.data.length = n.data.length ∧ andLast m z.data = z.data ∧ L ≤ val z.data ∧ val z.data ≤ N - L := by
    rintro z ⟨rnd, f, h⟩
    obtain ⟨i, -, h3, h4, h5, -⟩ := (drawLoop_iff (by omega) rnd m hl e2 n.data.length z f 0).1 h
    rw [hc] at h3
    refine ⟨by rw [h3], by rw [h3]; simp [andLast_length, randDigits], by rw [h3]; exact andLast_idem _ _, h4, h5⟩
  have hat : ∀ (rnd : Nat → Byte) (z : Num (8 * k)), L ≤ val z.data → val z.data ≤ N - L →
      ((drawLoop rnd m lo hi n.data.length (j + 1) 0 = .ok (some z) ∧ drawLoop rnd m lo hi n.data.length j 0 = .ok none) ↔
        z = cand rnd m n.data.length 0 j ∧ ∀ l, l < j →
          ¬ (L ≤ val (cand rnd m n.data.length 0 l).data ∧ val (cand rnd m n.data.length 0 l).data ≤ N - L)) := by
    intro rnd z z1 z2
    rw [drawLoop_iff (by omega) rnd m hl e2 n.data.length z (j + 1) 0]
    constructor
    · rintro ⟨⟨i, h1, h3, h4, h5, h6⟩, h7⟩
      have : i = j := by
        by_contra hcc
        have := (drawLoop_iff (by omega) rnd m hl e2 n.data.length z j 0).2 ⟨i, by omega, h3, h4, h5, h6⟩
        rw [h7] at this
        simp at this
      subst this
      exact ⟨h3, h6⟩
    · rintro ⟨h3, h6⟩
      refine ⟨⟨j, by omega, h3, z1, z2, h6⟩, ?_⟩
      obtain ⟨o, ho⟩ := drawLoop_ok rnd m lo hi n.data.length j 0
      cases o with
      | none => exact ho
      | some y =>
        obtain ⟨i, i1, i2, i3, i4, -⟩ := (drawLoop_iff (by omega) rnd m hl e2 n.data.length y j 0).1 ho
        exact absurd ⟨i2 ▸ i3, i2 ▸ i4⟩ (h6 i i1)
  obtain ⟨a1, a2, a3, a4, a5⟩ := hform s hs
  obtain ⟨b1, b2, b3, b4, b5⟩ := hform s' hs'
  obtain ⟨δ, hδ⟩ := uniform_core k hk _ hnp (andLast m) (andLast_length m) (andLast_xor m) s.data s'.data a2 b2 a3 b3
    (fun d => L ≤ val d ∧ val d ≤ N - L) j
  refine ⟨δ, fun rnd => ?_⟩
  rw [hat rnd s a4 a5, hat _ s' b4 b5]
  obtain ⟨sd, sn⟩ := s
  obtain ⟨sd', sn'⟩ := s'
  subst a1 b1
  simp only [hc, Num.mk.injEq, and_true]
  exact hδ rnd

/-- The order 11: the private numbers 1 and 10 of DSA are drawn by equally many sources in the third pass. -/
example : ∃ s s' : Num (8 * 4), Is s 1 ∧ Is s' 10 ∧ ∃ δ : Nat → Byte, ∀ rnd : Nat → Byte,
    (draw rnd 3 one (⟨[11], false⟩ : Num (8 * 4)) = .ok (some s) ∧ draw rnd 2 one (⟨[11], false⟩ : Num (8 * 4)) = .ok none) ↔
    (draw (fun i => rnd i ^^^ δ i) 3 one (⟨[11], false⟩ : Num (8 * 4)) = .ok (some s') ∧
      draw (fun i => rnd i ^^^ δ i) 2 one (⟨[11], false⟩ : Num (8 * 4)) = .ok none) := by
  have h11 : Is (⟨[11], false⟩ : Num (8 * 4)) 11 := ⟨by decide, rfl, rfl⟩
  obtain ⟨r, s, h1, h2⟩ := draw_all 4 (by decide) (is_one (by decide)) (by decide) h11 1 (by decide) (by decide)
  obtain ⟨r', s', h1', h2'⟩ := draw_all 4 (by decide) (is_one (by decide)) (by decide) h11 10 (by decide) (by decide)
  exact ⟨s, s', h2, h2', draw_uniform 4 (by decide) (is_one (by decide)) (by decide) h11 (by decide) ⟨r, 1, h1⟩ ⟨r', 1, h1'⟩ 2⟩

end Kryptos.Dl

namespace Kryptos.Dh
open Mp Spec.Mp

/-- The order 11 and 32 bits: the secrets 5 and 2 of Diffie-Hellman, in the first pass. -/
example : ∃ δ : Nat → Byte, ∀ rnd : Nat → Byte,
    (getRandomS rnd 1 (⟨[11], false⟩ : Num (8 * 4)) 32 = .ok (some ⟨[5], false⟩) ∧ getRandomS rnd 0 (⟨[11], false⟩ : Num (8 * 4)) 32 = .ok none) ↔
    (getRandomS (fun i => rnd i ^^^ δ i) 1 (⟨[11], false⟩ : Num (8 * 4)) 32 = .ok (some ⟨[2], false⟩) ∧
      getRandomS (fun i => rnd i ^^^ δ i) 0 (⟨[11], false⟩ : Num (8 * 4)) 32 = .ok none) := by
  have h11 : Is (⟨[11], false⟩ : Num (8 * 4)) 11 := ⟨by decide, rfl, rfl⟩
  refine secret_uniform 4 (by decide) h11 (by decide) (by decide) ?_ ?_ 0
  · exact (secret_set 4 (by decide) h11 (by decide) (m := BitVec.allOnes _) rfl _).2
      ⟨rfl, rfl, fun x _ => BitVec.and_allOnes, by decide, by decide⟩
  · exact (secret_set 4 (by decide) h11 (by decide) (m := BitVec.allOnes _) rfl _).2
      ⟨rfl, rfl, fun x _ => BitVec.and_allOnes, by decide, by decide⟩

end Kryptos.Dh
