import Verif.Props.Ec
import Verif.Props.Rsa
import Verif.Lemmas.PemPut
import Verif.Model.Ecdh
import Mathlib.Data.List.TakeWhile
/-
  The exchange over elliptic curves (C94) and the random secrets of it and of ECDSA (C95).
-/
namespace Kryptos.Ecdh
open Mp Spec.Mp Ec
open Rsa (Res getMp putMps getMp_spec)

variable {w : Nat}

/-! ## Random secrets -/

theorem secretDigits_pos (hw : 8 ≤ w) (bits n : Nat) : 0 < secretDigits w bits n := by
  rw [secretDigits, newSize]
  exact Nat.div_pos (by omega) (by omega)

theorem digits_small (rnd : Nat → Byte) (m : BitVec w) (i n : Nat) : ∀ x ∈ digits rnd m i n, x.toNat < 2 ^ 32 := by
  intro x hx
  obtain ⟨d, -, rfl⟩ := List.mem_map.1 hx
  rw [BitVec.toNat_and, BitVec.toNat_setWidth]
  exact lt_of_le_of_lt Nat.and_le_left (lt_of_le_of_lt (Nat.mod_le _ _) (word rnd _).isLt)

theorem draw_range (rnd : Nat → Byte) (m : BitVec w) (small : Num w → Bool) {q k : Num w} {Q : Nat} (hq : Is q Q) (n : Nat) (hn : 0 < n) :
    ∀ f i, draw rnd m small q n f i = some k → Is k (val k.data) ∧ small k = false ∧ val k.data < Q ∧ ∀ x ∈ k.data, x.toNat < 2 ^ 32 := by
  intro f
  induction f with
  | zero => intro i h; simp [draw] at h
  | succ f ih =>
    intro i h
    have hx := Is.intro (a := (⟨digits rnd m i n, false⟩ : Num w)) (List.length_pos_iff.1 (by simp [digits]; exact hn)) rfl
    rw [draw] at h
    split at h
    · exact ih _ h
    · rename_i hc
      rw [hx.ge hq] at hc
      simp only [Bool.or_eq_true, decide_eq_true_eq, not_or, Nat.not_le, Bool.not_eq_true] at hc
      simp only [Option.some.injEq] at h
      subst h
      exact ⟨hx, hc.1, hc.2, digits_small rnd m i n⟩

/-- **C95**, the part that holds: the secrets of ECDH lie between 2 and the order. -/
theorem secretK_range_partial (hw : 8 ≤ w) (rnd : Nat → Byte) (fuel bits : Nat) {q k : Num w} {Q : Nat} (hq : Is q Q)
    (h : getRandomK rnd fuel q bits = .ok (some k)) : Is k (val k.data) ∧ 2 ≤ val k.data ∧ val k.data < Q := by
  rw [getRandomK] at h
  cases hm : mask w bits with
  | ub => rw [hm] at h; simp at h
  | ok m =>
    rw [hm, Out.bind_ok] at h
    simp only [Out.pure_eq, Out.ok.injEq] at h
    obtain ⟨h1, h2, h3, -⟩ := draw_range rnd m _ hq _ (secretDigits_pos hw bits _) _ _ h
    rw [h1.lt (is_two (by omega)), decide_eq_false_iff_not, Nat.not_lt] at h2
    exact ⟨h1, h2, h3⟩

/-- **C95**, the part that holds: the secrets of ECDSA lie between 1 and the order. -/
theorem secretD_range_partial (hw : 8 ≤ w) (rnd : Nat → Byte) (fuel bits : Nat) {q k : Num w} {Q : Nat} (hq : Is q Q)
    (h : getRandomD rnd fuel q bits = .ok (some k)) : Is k (val k.data) ∧ 1 ≤ val k.data ∧ val k.data < Q := by
  rw [getRandomD] at h
  cases hm : mask w bits with
  | ub => rw [hm] at h; simp at h
  | ok m =>
    rw [hm, Out.bind_ok] at h
    simp only [Out.pure_eq, Out.ok.injEq] at h
    obtain ⟨h1, h2, h3, -⟩ := draw_range rnd m _ hq _ (secretDigits_pos hw bits _) _ _ h
    rw [h1.isZero, decide_eq_false_iff_not] at h2
    exact ⟨h1, by omega, h3⟩

theorem val_bit (n i : Nat) (hi : 32 ≤ i) (hi2 : i < 64) : ∀ (d : Digits 64), (∀ x ∈ d, x.toNat < 2 ^ 32) →
    (val d).testBit (64 * n + i) = false := by
  induction n with
  | zero =>
    intro d h
    cases d with
    | nil => simp [val]
    | cons x xs =>
      rw [val, Nat.add_comm x.toNat, Nat.mul_zero, Nat.zero_add, Nat.testBit_two_pow_mul_add _ x.isLt, if_pos hi2]
      exact Nat.testBit_lt_two_pow (lt_of_lt_of_le (h x (by simp)) (Nat.pow_le_pow_right (by omega) hi))
  | succ n ih =>
    intro d h
    cases d with
    | nil => simp [val]
    | cons x xs =>
      rw [val, Nat.add_comm x.toNat, Nat.testBit_two_pow_mul_add _ x.isLt, if_neg (by omega),
        show 64 * (n + 1) + i - 64 = 64 * n + i by omega]
      exact ih xs fun y hy => h y (by simp [hy])

/-- **C95** is violated with digits of 64 bits: in every private key and every ephemeral key of ECDSA, whatever the random bytes, the
bits 32 to 63, 96 to 127 and so on, half of all bits, are zero. -/
theorem secretD_half_zero (rnd : Nat → Byte) (fuel bits : Nat) {q k : Num 64} (hq : q.data ≠ []) (hn : q.neg = false)
    (h : getRandomD rnd fuel q bits = .ok (some k)) (n i : Nat) (hi : 32 ≤ i) (hi2 : i < 64) :
    (val k.data).testBit (64 * n + i) = false := by
  rw [getRandomD] at h
  cases hm : mask 64 bits with
  | ub => rw [hm] at h; simp at h
  | ok m =>
    rw [hm, Out.bind_ok] at h
    simp only [Out.pure_eq, Out.ok.injEq] at h
    exact val_bit n i hi hi2 _ (draw_range rnd m _ (.intro hq hn) _ (secretDigits_pos (by omega) bits _) _ _ h).2.2.2

/-- **C95** is violated with digits of 64 bits for ECDH too. -/
theorem secretK_half_zero (rnd : Nat → Byte) (fuel bits : Nat) {q k : Num 64} (hq : q.data ≠ []) (hn : q.neg = false)
    (h : getRandomK rnd fuel q bits = .ok (some k)) (n i : Nat) (hi : 32 ≤ i) (hi2 : i < 64) :
    (val k.data).testBit (64 * n + i) = false := by
  rw [getRandomK] at h
  cases hm : mask 64 bits with
  | ub => rw [hm] at h; simp at h
  | ok m =>
    rw [hm, Out.bind_ok] at h
    simp only [Out.pure_eq, Out.ok.injEq] at h
    exact val_bit n i hi hi2 _ (draw_range rnd m _ (.intro hq hn) _ (secretDigits_pos (by omega) bits _) _ _ h).2.2.2

/-- Without a number of bits the mask is a shift by the width of the digits of 32 bits, which is undefined; with those of 64 bits
the mask is zero, and no secret is ever found. -/
theorem secret_no_bits (rnd : Nat → Byte) (fuel : Nat) :
    (∀ q : Num 32, getRandomK rnd fuel q 0 = .ub ∧ getRandomD rnd fuel q 0 = .ub) ∧
    ∀ q : Num 64, getRandomK rnd fuel q 0 = .ok none ∧ getRandomD rnd fuel q 0 = .ok none := by
  constructor
  · intro q
    exact ⟨rfl, rfl⟩
  · intro q
    have hm : mask 64 0 = .ok 0 := by decide
    have hz : ∀ i n, val (digits rnd (0 : BitVec 64) i n) = 0 := by
      intro i n
      have : digits rnd (0 : BitVec 64) i n = List.replicate n 0 := by
        rw [digits]
        simp [BitVec.and_zero, List.map_const']
      rw [this]
      exact val_replicate n
    have hi : ∀ n, 0 < n → ∀ i, Is (⟨digits rnd (0 : BitVec 64) i n, false⟩ : Num 64) 0 := fun n hn i => by
      have := Is.intro (a := (⟨digits rnd (0 : BitVec 64) i n, false⟩ : Num 64)) (List.length_pos_iff.1 (by simp [digits]; exact hn)) rfl
      rwa [show val (⟨digits rnd (0 : BitVec 64) i n, false⟩ : Num 64).data = 0 from hz i n] at this
    have hd : ∀ (small : Num 64 → Bool), (∀ k, Is k 0 → small k = true) → ∀ n, 0 < n → ∀ f i, draw rnd (0 : BitVec 64) small q n f i = none := by
      intro small hs n hn f
      induction f with
      | zero => intro i; rfl
      | succ f ih =>
        intro i
        rw [draw]
        rw [hs _ (hi n hn i), Bool.true_or, if_pos rfl]
        exact ih _
    have hp := secretDigits_pos (w := 64) (by omega) 0 q.data.length
    constructor
    · rw [getRandomK, hm, Out.bind_ok, hd _ (fun k hk => by rw [hk.lt (is_two (by omega))]; decide) _ hp]
      rfl
    · rw [getRandomD, hm, Out.bind_ok, hd _ (fun k hk => by rw [hk.isZero]; decide) _ hp]
      rfl

/-- Random bytes that give the digits of a number. -/
def bytesOf (N i : Nat) : Byte := BitVec.ofNat 8 (N >>> (32 * (i / 4)) >>> (24 - 8 * (i % 4)))

theorem word_bytesOf (N d : Nat) : word (bytesOf N) (4 * d) = BitVec.ofNat 32 (N >>> (32 * d)) := by
  have e : ∀ b < 4, bytesOf N (4 * d + b) = BitVec.ofNat 8 (N >>> (32 * d) >>> (24 - 8 * b)) := by
    intro b hb
    rw [bytesOf, show (4 * d + b) / 4 = d by omega, show (4 * d + b) % 4 = b by omega]
  have e0 := e 0 (by omega)
  rw [Nat.add_zero] at e0
  rw [word, e0, e 1 (by omega), e 2 (by omega), e 3 (by omega)]
  generalize N >>> (32 * d) = M
  apply BitVec.eq_of_getLsbD_eq
  intro i hi
  simp only [BitVec.getLsbD_or, BitVec.getLsbD_shiftLeft, BitVec.getLsbD_setWidth, BitVec.getLsbD_ofNat, Nat.testBit_shiftRight]
  interval_cases i <;> simp

theorem val_words (n : Nat) : ∀ N : Nat, val ((List.range n).map fun d => (BitVec.ofNat 32 (N >>> (32 * d)))) = N % 2 ^ (32 * n) := by
  induction n with
  | zero => intro N; simp [val, Nat.mod_one]
  | succ n ih =>
    intro N
    have e : (fun d => BitVec.ofNat 32 (N >>> (32 * d))) ∘ Nat.succ = fun d => BitVec.ofNat 32 ((N >>> 32) >>> (32 * d)) := by
      funext d
      rw [Function.comp, ← Nat.shiftRight_add, Nat.mul_succ, Nat.add_comm]
    rw [List.range_succ_eq_map, List.map_cons, List.map_map, e, val, ih, BitVec.toNat_ofNat, Nat.mul_zero, Nat.shiftRight_zero,
      Nat.shiftRight_eq_div_pow, Nat.mul_succ, Nat.pow_add, Nat.mul_comm (2 ^ (32 * n)), Nat.mod_mul]

theorem digits_bytesOf (N n : Nat) (h : N < 2 ^ (32 * n)) : val (digits (bytesOf N) (0xFFFFFFFF#32) 0 n) = N := by
  have : digits (bytesOf N) (0xFFFFFFFF#32) 0 n = (List.range n).map fun d => (BitVec.ofNat 32 (N >>> (32 * d))) := by
    rw [digits]
    refine List.map_congr_left fun d _ => ?_
    rw [Nat.zero_add, word_bytesOf, BitVec.setWidth_eq, show (0xFFFFFFFF#32) = BitVec.allOnes 32 from rfl, BitVec.and_allOnes]
  rw [this, val_words, Nat.mod_eq_of_lt h]

/-- **C95**, the part that holds, with digits of 32 bits and at least as many bits as a digit: every secret from 2 up to the order can
be drawn for ECDH, and every one from 1 for ECDSA, provided that there are enough digits. -/
theorem secrets_all_partial (bits : Nat) (hb : 32 ≤ bits) {q : Num 32} {Q : Nat} (hq : Is q Q)
    (hs : Q ≤ 2 ^ (32 * secretDigits 32 bits q.data.length)) (N : Nat) (hN : N < Q) :
    (2 ≤ N → ∃ rnd k, getRandomK rnd 1 q bits = .ok (some k) ∧ Is k N) ∧
    (1 ≤ N → ∃ rnd k, getRandomD rnd 1 q bits = .ok (some k) ∧ Is k N) := by
  have hm : mask 32 bits = .ok (0xFFFFFFFF#32) := by
    rw [mask, if_neg (by omega)]; rfl
  have hv := digits_bytesOf N (secretDigits 32 bits q.data.length) (lt_of_lt_of_le hN hs)
  have hi : Is (⟨digits (bytesOf N) (0xFFFFFFFF#32) 0 (secretDigits 32 bits q.data.length), false⟩ : Num 32) N :=
    ⟨by simpa [digits] using secretDigits_pos (by omega) _ _, rfl, hv⟩
  constructor
  · intro h2
    refine ⟨bytesOf N, _, ?_, hi⟩
    rw [getRandomK, hm, Out.bind_ok, draw]
    rw [hi.lt (is_two (by omega)), hi.ge hq, decide_eq_false (by omega), decide_eq_false (by omega)]
    rfl
  · intro h1
    refine ⟨bytesOf N, _, ?_, hi⟩
    rw [getRandomD, hm, Out.bind_ok, draw]
    rw [hi.isZero, hi.ge hq, decide_eq_false (by omega), decide_eq_false (by omega)]
    rfl

/-- The order 2^32 + 1 and the number 2^32: with digits of 32 bits it can be drawn, with digits of 64 bits it cannot. -/
example : (∃ rnd k, getRandomD rnd 1 (⟨[1, 1], false⟩ : Num 32) 64 = .ok (some k) ∧ Is k (2 ^ 32)) ∧
    ∀ rnd fuel bits k, getRandomD rnd fuel (⟨[0x100000001], false⟩ : Num 64) bits = .ok (some k) → val k.data ≠ 2 ^ 32 := by
  constructor
  · exact (secrets_all_partial 64 (by decide) (Q := 2 ^ 32 + 1) ⟨by decide, rfl, by decide +kernel⟩ (by decide +kernel) (2 ^ 32) (by decide)).2 (by decide)
  · intro rnd fuel bits k h he
    have := secretD_half_zero rnd fuel bits (by simp) rfl h 0 32 (by decide) (by decide)
    rw [he] at this
    revert this
    decide

/-- A secret over 32-bit digits, drawn from four bytes: the order is 19, the first number is too large. -/
example : getRandomK (w := 32) (fun i => [0, 0, 0, 31, 0, 0, 0, 7].getD i 0) 5 ⟨[19], false⟩ 5 = .ok (some ⟨[7], false⟩) ∧
    getRandomD (w := 64) (fun i => [0, 0, 0, 31, 0, 0, 0, 7].getD i 0) 5 ⟨[19], false⟩ 5 = .ok (some ⟨[7], false⟩) := by
  decide +kernel

/-! ## The exchange -/

theorem gBits : Pem.Good (ascii "ECDH PARAM EC BITS") := by refine ⟨?_, ?_, ?_, ?_, ?_⟩ <;> decide +kernel
theorem gP : Pem.Good (ascii "ECDH PARAM EC P") := by refine ⟨?_, ?_, ?_, ?_, ?_⟩ <;> decide +kernel
theorem gA : Pem.Good (ascii "ECDH PARAM EC A") := by refine ⟨?_, ?_, ?_, ?_, ?_⟩ <;> decide +kernel
theorem gB : Pem.Good (ascii "ECDH PARAM EC B") := by refine ⟨?_, ?_, ?_, ?_, ?_⟩ <;> decide +kernel
theorem gGX : Pem.Good (ascii "ECDH PARAM EC G X") := by refine ⟨?_, ?_, ?_, ?_, ?_⟩ <;> decide +kernel
theorem gGY : Pem.Good (ascii "ECDH PARAM EC G Y") := by refine ⟨?_, ?_, ?_, ?_, ?_⟩ <;> decide +kernel
theorem gQ : Pem.Good (ascii "ECDH PARAM EC Q") := by refine ⟨?_, ?_, ?_, ?_, ?_⟩ <;> decide +kernel
theorem gKX : Pem.Good (ascii "ECDH PARAM KP X") := by refine ⟨?_, ?_, ?_, ?_, ?_⟩ <;> decide +kernel
theorem gKY : Pem.Good (ascii "ECDH PARAM KP Y") := by refine ⟨?_, ?_, ?_, ?_, ?_⟩ <;> decide +kernel

theorem digit_byte (d : Nat) (h : d < 10) : (0x30#8 + BitVec.ofNat 8 d).toNat - 0x30 = d ∧
    (0x30#8 ≤ 0x30#8 + BitVec.ofNat 8 d && 0x30#8 + BitVec.ofNat 8 d ≤ 0x39#8) = true := by
  have : ∀ d : Fin 10, (0x30#8 + BitVec.ofNat 8 d).toNat - 0x30 = d ∧
    (0x30#8 ≤ 0x30#8 + BitVec.ofNat 8 d && 0x30#8 + BitVec.ofNat 8 d ≤ 0x39#8) = true := by decide
  exact this ⟨d, h⟩

theorem foldr_digits (L : List Nat) (h : ∀ d ∈ L, d < 10) :
    L.foldr (fun d n => 10 * n + ((0x30#8 + BitVec.ofNat 8 d).toNat - 0x30)) 0 = Nat.ofDigits 10 L := by
  induction L with
  | nil => rfl
  | cons d L ih =>
    rw [List.foldr_cons, ih fun x hx => h x (by simp [hx]), (digit_byte d (h d (by simp))).1, Nat.ofDigits_cons]
    omega

/-- The number of bits that is written is the one that is read. -/
theorem strtoul_decimal (n : Nat) (h : n < 2 ^ 64) : strtoul (decimal n) = n := by
  rw [decimal]
  by_cases h0 : n = 0
  · subst h0; decide
  · have hd : ∀ d ∈ Nat.digits 10 n, d < 10 := fun d hd => Nat.digits_lt_base (by omega) hd
    have ht : ((Nat.digits 10 n).reverse.map fun d => 0x30#8 + BitVec.ofNat 8 d).takeWhile (fun b => 0x30#8 ≤ b && b ≤ 0x39#8) =
        (Nat.digits 10 n).reverse.map fun d => 0x30#8 + BitVec.ofNat 8 d := by
      rw [List.takeWhile_eq_self_iff]
      intro b hb
      obtain ⟨d, hd', rfl⟩ := List.mem_map.1 hb
      exact (digit_byte d (hd d (List.mem_reverse.1 hd'))).2
    rw [if_neg h0, strtoul, ht, List.foldl_map, List.foldl_reverse, foldr_digits _ hd, Nat.ofDigits_digits]
    exact Nat.mod_eq_of_lt h

theorem decimal_ne (n : Nat) : decimal n ≠ [] := by
  rw [decimal]
  split
  · simp
  · rename_i h
    simpa [Nat.digits_eq_nil_iff_eq_zero] using h

/-- The first coordinate, zero for the point at infinity. -/
def xOf {P A B : Nat} : (W P A B).Point → Nat
  | .zero => 0
  | .some x _ _ => x.val

variable {P A B : Nat}

theorem _root_.Kryptos.Ec.Rep.isX {pt : Point w} {Q : (W P A B).Point} (h : Rep pt Q) : Is pt.x (xOf Q) := by
  match Q, h with
  | .zero, h => exact h.1
  | .some _ _ _, h => exact h.1

theorem _root_.Kryptos.Ec.Rep.isY {pt : Point w} {Q : (W P A B).Point} (h : Rep pt Q) : ∃ Y, Is pt.y Y := by
  match Q, h with
  | .zero, h => exact ⟨_, h.2⟩
  | .some _ _ _, h => exact ⟨_, h.2⟩

theorem num_eta {n : Num w} {N : Nat} (h : Is n N) : (⟨n.data, false⟩ : Num w) = n := by rw [← h.2.1]

theorem _root_.Kryptos.Mp.Is.ne_nil {n : Num w} {N : Nat} (h : Is n N) : n.data ≠ [] := List.length_pos_iff.1 h.1

theorem pt_eta (hw : 8 ≤ w) {pt : Point w} {X Y : Nat} (hx : Is pt.x X) (hy : Is pt.y Y) : setPoint pt.x pt.y = pt := by
  rw [setPoint, assign_none_eq hw _ hx.1, assign_none_eq hw _ hy.1]

/-- A curve with its generator and its order: the sizes are those of the code. -/
structure Good (cv : CurveCtx w) (P A B Q : Nat) (G : (W P A B).Point) : Prop where
  fits : Fits cv.ec P A B
  b : Is cv.ec.b B
  q : Is cv.q Q
  g : Rep cv.g G
  bits : cv.bits < 2 ^ 31

theorem curveOps {cv : CurveCtx w} {Q : Nat} {G : (W P A B).Point} (h : Good cv P A B Q G) (kp : Point w) (hx : kp.x.data ≠ [])
    (hy : kp.y.data ≠ []) : (∀ y ∈ offer cv kp, Pem.Good (ascii y.1) ∧ y.2.data ≠ []) ∧
      (ascii "ECDH PARAM EC BITS" :: (offer cv kp).map fun y => ascii y.1).Nodup := by
  obtain ⟨Y, hY⟩ := h.g.isY
  constructor
  · simp only [offer, List.mem_cons, List.not_mem_nil, or_false, forall_eq_or_imp, forall_eq]
    exact ⟨⟨gP, h.fits.p.ne_nil⟩, ⟨gA, h.fits.a.ne_nil⟩, ⟨gB, h.b.ne_nil⟩, ⟨gGX, h.g.isX.ne_nil⟩, ⟨gGY, hY.ne_nil⟩, ⟨gQ, h.q.ne_nil⟩,
      ⟨gKX, hx⟩, ⟨gKY, hy⟩⟩
  · simp only [offer, List.map_cons, List.map_nil]
    decide +kernel

/-- What a document says about a curve. -/
theorem getCurve_run {cv : CurveCtx w} {Q : Nat} {G : (W P A B).Point} (h : Good cv P A B Q G) {doc : Bytes} (hne : doc ≠ [])
    (hb : Pem.getData (some (ascii "ECDH PARAM EC BITS")) (some doc) = .ok (some (decimal cv.bits)))
    (hm : ∀ y ∈ [("ECDH PARAM EC P", cv.ec.p), ("ECDH PARAM EC A", cv.ec.a), ("ECDH PARAM EC B", cv.ec.b), ("ECDH PARAM EC G X", cv.g.x),
      ("ECDH PARAM EC G Y", cv.g.y), ("ECDH PARAM EC Q", cv.q)], getMp w y.1 doc = .ok (some ⟨y.2.data, false⟩)) :
    getCurve w doc = .ok (some cv) := by
  obtain ⟨Y, hY⟩ := h.g.isY
  simp only [List.mem_cons, List.not_mem_nil, or_false, forall_eq_or_imp, forall_eq] at hm
  obtain ⟨m1, m2, m3, m4, m5, m6⟩ := hm
  rw [getCurve, if_neg (by simpa using hne), m1, Out.bind_ok]
  simp only [m2, m3, m4, m5, m6, hb, Out.bind_ok, Out.pure_eq, num_eta h.fits.p, num_eta h.fits.a, num_eta h.b, num_eta h.q,
    num_eta h.g.isX, num_eta hY, strtoul_decimal cv.bits (by have := h.bits; omega)]

/-- Alice's first step. -/
theorem alice_run (hw : w = 32 ∨ w = 64) [Fact P.Prime] {cv : CurveCtx w} {Q : Nat} {G : (W P A B).Point} (h : Good cv P A B Q G) {rnd : Nat → Byte}
    {fuel : Nat} (hfu : 3 * P < fuel) {a : Num w} {K : Nat} (hr : getRandomK rnd fuel cv.q cv.bits = .ok (some a)) (ha : Is a K)
    (hf : MulFine cv.ec.p K G) (r : TaskResult) :
    ∃ doc kp, process rnd fuel ⟨r, some cv, none, none, none⟩ = .ok (some ⟨.success, some cv, none, some doc, some a⟩) ∧ Rep kp (K • G) ∧
      doc ≠ [] ∧ getCurve w doc = .ok (some cv) ∧ getMp w "ECDH PARAM KP X" doc = .ok (some kp.x) ∧
      getMp w "ECDH PARAM KP Y" doc = .ok (some kp.y) := by
  have hw8 : 8 ≤ w := by rcases hw with rfl | rfl <;> decide
  obtain ⟨kp, k1, k2⟩ := ec_mul_partial (by rcases hw with rfl | rfl <;> decide) h.fits G h.g ha hf fuel hfu
  obtain ⟨Y, hY⟩ := k2.isY
  obtain ⟨o1, o2⟩ := curveOps h kp k2.isX.ne_nil hY.ne_nil
  obtain ⟨o, doc, d1, d2, d3, d4, d5, -⟩ := Rsa.putData_putMps_get hw "ECDH PARAM EC BITS" (decimal cv.bits) (decimal_ne _) (offer cv kp)
    gBits o1 o2
  have gx := d5 ("ECDH PARAM KP X", kp.x) (by simp [offer])
  have gy := d5 ("ECDH PARAM KP Y", kp.y) (by simp [offer])
  rw [num_eta k2.isX] at gx
  rw [num_eta hY] at gy
  refine ⟨doc, kp, ?_, k2, d3, getCurve_run h d3 d4 (fun y hy => d5 y ?_), gx, gy⟩
  · simp only [process, alice, hr, k1, d1, d2, Out.bind_ok, Out.pure_eq, ne_eq, not_true_eq_false, if_false]
  · simp only [offer, List.mem_cons, List.not_mem_nil, or_false] at hy ⊢
    tauto

/-- Bob's step, up to the reading of Alice's point. -/
theorem bob_run (hw : w = 32 ∨ w = 64) [Fact P.Prime] {cv : CurveCtx w} {Q : Nat} {G : (W P A B).Point} (h : Good cv P A B Q G) {rnd : Nat → Byte}
    {fuel : Nat} (hfu : 3 * P < fuel) {b : Num w} {K : Nat} (hr : getRandomK rnd fuel cv.q cv.bits = .ok (some b)) (hb : Is b K)
    (hf : MulFine cv.ec.p K G) (r : TaskResult) {doc : Bytes} (hc : getCurve w doc = .ok (some cv)) :
    ∃ doc' kp, process rnd fuel ⟨r, none, some doc, none, none⟩ = bobEnd fuel cv b doc (some doc') ∧ Rep kp (K • G) ∧ doc' ≠ [] ∧
      getMp w "ECDH PARAM KP X" doc' = .ok (some kp.x) ∧ getMp w "ECDH PARAM KP Y" doc' = .ok (some kp.y) := by
  have hw8 : 8 ≤ w := by rcases hw with rfl | rfl <;> decide
  obtain ⟨kp, k1, k2⟩ := ec_mul_partial (by rcases hw with rfl | rfl <;> decide) h.fits G h.g hb hf fuel hfu
  obtain ⟨Y, hY⟩ := k2.isY
  obtain ⟨doc', d1, d2, d3⟩ := Rsa.putMps_get hw [("ECDH PARAM KP X", kp.x), ("ECDH PARAM KP Y", kp.y)] (by simp)
    (by
      simp only [List.mem_cons, List.not_mem_nil, or_false, forall_eq_or_imp, forall_eq]
      exact ⟨⟨gKX, k2.isX.ne_nil⟩, ⟨gKY, hY.ne_nil⟩⟩) (by simp only [List.map_cons, List.map_nil]; decide +kernel)
  have gx := d3 ("ECDH PARAM KP X", kp.x) (by simp)
  have gy := d3 ("ECDH PARAM KP Y", kp.y) (by simp)
  rw [num_eta k2.isX] at gx
  rw [num_eta hY] at gy
  refine ⟨doc', kp, ?_, k2, d2, gx, gy⟩
  simp only [process, bob, hc, hr, k1, d1, Out.bind_ok, ne_eq, not_true_eq_false, if_false]

/-- **C94**, the part proved for every prime: three steps end with the same number on both sides, the first coordinate of the product
of both secrets and the generator, provided that the divisions of the four multiplications do not meet an overflow of the guess. -/
theorem ecdh_agree_partial (hw : w = 32 ∨ w = 64) [Fact P.Prime] {cv : CurveCtx w} {Q : Nat} {G : (W P A B).Point} (h : Good cv P A B Q G)
    {rndA rndB rndC : Nat → Byte} {fuel : Nat} (hfu : 3 * P < fuel) {a b : Num w}
    (ha : getRandomK rndA fuel cv.q cv.bits = .ok (some a)) (hb : getRandomK rndB fuel cv.q cv.bits = .ok (some b))
    (f1 : MulFine cv.ec.p (val a.data) G) (f2 : MulFine cv.ec.p (val b.data) G) (f3 : MulFine cv.ec.p (val b.data) (val a.data • G))
    (f4 : MulFine cv.ec.p (val a.data) (val b.data • G)) (r : TaskResult) :
    ∃ (m m' : Bytes) (ka kb : Num w), process rndA fuel ⟨r, some cv, none, none, none⟩ = .ok (some ⟨.success, some cv, none, some m, some a⟩) ∧
      process rndB fuel ⟨r, none, some m, none, none⟩ = .ok (some ⟨.success, none, some m, some m', some kb⟩) ∧
      process rndC fuel ⟨.success, some cv, some m', some m, some a⟩ = .ok (some ⟨.success, none, some m', some m, some ka⟩) ∧
      Is ka (xOf ((val a.data * val b.data) • G)) ∧ Is kb (xOf ((val a.data * val b.data) • G)) := by
  have hw8 : 8 ≤ w := by rcases hw with rfl | rfl <;> decide
  have hw16 : 16 ≤ w := by rcases hw with rfl | rfl <;> decide
  have ia := (secretK_range_partial hw8 _ _ _ h.q ha).1
  have ib := (secretK_range_partial hw8 _ _ _ h.q hb).1
  obtain ⟨m, kp, s1, s2, -, s4, s5, s6⟩ := alice_run hw h hfu ha ia f1 r
  obtain ⟨m', kp', t1, t2, -, t5, t6⟩ := bob_run hw h hfu hb ib f2 r s4
  obtain ⟨Y, hY⟩ := s2.isY
  obtain ⟨Y', hY'⟩ := t2.isY
  obtain ⟨u, u1, u2⟩ := ec_mul_partial hw16 h.fits _ s2 ib f3 fuel hfu
  obtain ⟨v, v1, v2⟩ := ec_mul_partial hw16 h.fits _ t2 ia f4 fuel hfu
  refine ⟨m, m', v.x, u.x, s1, ?_, ?_, ?_, ?_⟩
  · rw [t1, bobEnd]
    simp only [s5, s6, Out.bind_ok, pt_eta hw8 s2.isX hY, u1, Out.pure_eq]
  · simp only [process, aliceEnd, t5, t6, Out.bind_ok, pt_eta hw8 t2.isX hY', v1, Out.pure_eq]
  · rw [mul_smul]; exact v2.isX
  · rw [Nat.mul_comm, mul_smul]; exact u2.isX

/-- **C94**, for a prime of one digit. -/
theorem ecdh_agree_single (hw : w = 32 ∨ w = 64) [Fact P.Prime] {cv : CurveCtx w} {Q : Nat} {G : (W P A B).Point} (h : Good cv P A B Q G)
    (h1 : cv.ec.p.data.length = 1) {rndA rndB rndC : Nat → Byte} {fuel : Nat} (hfu : 3 * P < fuel) {a b : Num w}
    (ha : getRandomK rndA fuel cv.q cv.bits = .ok (some a)) (hb : getRandomK rndB fuel cv.q cv.bits = .ok (some b)) (r : TaskResult) :
    ∃ (m m' : Bytes) (ka kb : Num w), process rndA fuel ⟨r, some cv, none, none, none⟩ = .ok (some ⟨.success, some cv, none, some m, some a⟩) ∧
      process rndB fuel ⟨r, none, some m, none, none⟩ = .ok (some ⟨.success, none, some m, some m', some kb⟩) ∧
      process rndC fuel ⟨.success, some cv, some m', some m, some a⟩ = .ok (some ⟨.success, none, some m', some m, some ka⟩) ∧
      Is ka (xOf ((val a.data * val b.data) • G)) ∧ Is kb (xOf ((val a.data * val b.data) • G)) :=
  have hs := fun D Q => stepsFine_single h.fits.p (Fact.out : P.Prime).ne_zero h1 (highBits D) Q
  ecdh_agree_partial hw h hfu ha hb (hs _ _ _) (hs _ _ _) (hs _ _ _) (hs _ _ _) r

/-- The sample curve with its generator of order 19. -/
def ctx17 : CurveCtx 32 := ⟨5, curve17, ⟨[19], false⟩, ⟨⟨[5], false⟩, ⟨[1], false⟩⟩⟩

theorem good17 : Good ctx17 17 2 2 19 (.some 5 1 on17) :=
  ⟨fits17, ⟨by decide, rfl, by decide⟩, ⟨by decide, rfl, by decide⟩, show _ ∧ _ from ⟨⟨by decide, rfl, by decide⟩, ⟨by decide, rfl, by decide⟩⟩,
    by decide⟩

/-- A case that meets the hypotheses: the secrets 3 and 7. -/
example : ∃ (m m' : Bytes) (ka kb : Num 32), process (fun i => [0, 0, 0, 3].getD i 0) 52 ⟨.success, some ctx17, none, none, none⟩ =
        .ok (some ⟨.success, some ctx17, none, some m, some ⟨[3], false⟩⟩) ∧
      process (fun i => [0, 0, 0, 31, 0, 0, 0, 7].getD i 0) 52 ⟨.success, none, some m, none, none⟩ =
        .ok (some ⟨.success, none, some m, some m', some kb⟩) ∧
      process (fun _ => 0) 52 ⟨.success, some ctx17, some m', some m, some ⟨[3], false⟩⟩ =
        .ok (some ⟨.success, none, some m', some m, some ka⟩) ∧
      Is ka (xOf ((3 * 7) • (.some 5 1 on17 : (W 17 2 2).Point))) ∧ Is kb (xOf ((3 * 7) • (.some 5 1 on17 : (W 17 2 2).Point))) :=
  ecdh_agree_single (.inl rfl) good17 rfl (by decide) (a := ⟨[3], false⟩) (b := ⟨[7], false⟩) (by decide +kernel) (by decide +kernel) _

/-! ## What a peer can do -/

/-- **C96** is violated: when the point of the peer is missing, Bob releases his own point twice.  The document gives any curve. -/
theorem ecdh_double_free (hw : w = 32 ∨ w = 64) [Fact P.Prime] {cv : CurveCtx w} {Q : Nat} {G : (W P A B).Point} (h : Good cv P A B Q G)
    (h1 : cv.ec.p.data.length = 1) (fuel : Nat) (hfu : 3 * P < fuel) :
    ∃ doc, ∀ (rnd : Nat → Byte) (b : Num w) (r : TaskResult), getRandomK rnd fuel cv.q cv.bits = .ok (some b) →
      process rnd fuel (⟨r, none, some doc, none, none⟩ : Ctx w) = .ub := by
  have hw8 : 8 ≤ w := by rcases hw with rfl | rfl <;> decide
  obtain ⟨Y, hY⟩ := h.g.isY
  obtain ⟨o, doc, -, -, d3, d4, d5, d6⟩ := Rsa.putData_putMps_get hw "ECDH PARAM EC BITS" (decimal cv.bits) (decimal_ne _)
    [("ECDH PARAM EC P", cv.ec.p), ("ECDH PARAM EC A", cv.ec.a), ("ECDH PARAM EC B", cv.ec.b), ("ECDH PARAM EC G X", cv.g.x),
      ("ECDH PARAM EC G Y", cv.g.y), ("ECDH PARAM EC Q", cv.q)] gBits (by
        simp only [List.mem_cons, List.not_mem_nil, or_false, forall_eq_or_imp, forall_eq]
        exact ⟨⟨gP, h.fits.p.ne_nil⟩, ⟨gA, h.fits.a.ne_nil⟩, ⟨gB, h.b.ne_nil⟩, ⟨gGX, h.g.isX.ne_nil⟩, ⟨gGY, hY.ne_nil⟩, ⟨gQ, h.q.ne_nil⟩⟩)
      (by simp only [List.map_cons, List.map_nil]; decide +kernel)
  refine ⟨doc, fun rnd b r hr => ?_⟩
  have ib := (secretK_range_partial hw8 _ _ _ h.q hr).1
  obtain ⟨m', kp', t1, -⟩ := bob_run hw h hfu hr ib (stepsFine_single h.fits.p (Fact.out : P.Prime).ne_zero h1 _ _ _) r
    (getCurve_run h d3 d4 d5)
  rw [t1, bobEnd, d6 "ECDH PARAM KP X" gKX (by simp only [List.map_cons, List.map_nil]; decide +kernel)]
  rfl

/-- The sample curve, the secret 7. -/
example : ∃ doc, process (fun i => [0, 0, 0, 31, 0, 0, 0, 7].getD i 0) 52 (⟨.success, none, some doc, none, none⟩ : Ctx 32) = .ub := by
  obtain ⟨doc, h⟩ := ecdh_double_free (.inl rfl) good17 rfl 52 (by decide)
  exact ⟨doc, h _ ⟨[7], false⟩ _ (by decide +kernel)⟩

theorem mulSteps_zero (hw : 16 ≤ w) [NeZero P] {c : Curve w} (h : Fits c P A B) (hP : 1 < P) (fuel : Nat) (bs : List Bool) :
    ∀ {q r : Point w}, Is q.x 0 → Is q.y 0 → Is r.x 0 → Is r.y 0 → ∃ s, mulSteps fuel c bs q r = .ok (some s) ∧ Is s.x 0 ∧ Is s.y 0 := by
  have hw8 : 8 ≤ w := by omega
  have hz := is_zero (w := w)
  have hsm : RedFine w c.p (0 : Nat) := redFine_small _ (by omega) (by rw [h.p.2.2]; omega)
  induction bs with
  | nil => intro q r _ _ h3 h4; exact ⟨r, rfl, h3, h4⟩
  | cons b bs ih =>
    intro q r h1 h2 h3 h4
    have hd : dbl fuel q c = .ok (some (setPoint zero zero)) := by rw [dbl, h2.eq is_zero, decide_eq_true rfl]; rfl
    have a1 := (hz.assignOpt hw8 none).assignSome q.x
    have a2 := (hz.assignOpt hw8 none).assignSome q.y
    rw [mulSteps, hd, Out.bind_ok]
    dsimp only
    by_cases hb : b = true
    · subst hb
      obtain ⟨u, u1, u2, u3⟩ := ptModP_run hw h hP h3 h4 hsm hsm
      obtain ⟨v, v1, v2, v3⟩ := ptModP_run (pt := ⟨assign (some q.x) (setPoint zero zero).x, assign (some q.y) (setPoint zero zero).y⟩) hw h hP a1 a2
        hsm hsm
      rw [Nat.cast_zero, ZMod.val_zero] at u2 u3 v2 v3
      have hadd : add fuel r ⟨assign (some q.x) (setPoint zero zero).x, assign (some q.y) (setPoint zero zero).y⟩ c =
          .ok (some (setPoint v.x v.y)) := by
        rw [Ec.add, u1, Out.bind_ok]
        simp only [v1, Out.bind_ok]
        rw [addReduced, u2.eq hz, u3.eq hz]
        rfl
      rw [if_pos rfl, hadd, Out.bind_ok]
      exact ih a1 a2 ((v2.assignOpt hw8 none).assignSome _) ((v3.assignOpt hw8 none).assignSome _)
    · rw [if_neg hb]
      exact ih a1 a2 h3 h4

/-- Every multiple of the pair of zeros is the pair of zeros, whatever the curve. -/
theorem mul_zero (hw : 16 ≤ w) {c : Curve w} (h : Fits c P A B) (hP : 1 < P) (fuel : Nat) {p : Point w} {d : Num w} {D : Nat} (hd : Is d D)
    (hx : Is p.x 0) (hy : Is p.y 0) : ∃ s, mul fuel p d c = .ok (some s) ∧ Is s.x 0 ∧ Is s.y 0 := by
  have hw8 : 8 ≤ w := by omega
  have : NeZero P := ⟨by omega⟩
  have hz := is_zero (w := w)
  rw [Ec.mul, hd.eq is_zero]
  by_cases h0 : D = 0
  · exact ⟨_, by rw [decide_eq_true h0]; rfl, hz.assignOpt hw8 none, hz.assignOpt hw8 none⟩
  · rw [decide_eq_false h0, if_neg (by simp), bits_reverse]
    obtain ⟨n, hn⟩ : ∃ n, w * d.data.length = n + 2 := by
      have := Nat.mul_le_mul (Nat.le_refl w) hd.1
      exact ⟨w * d.data.length - 2, by omega⟩
    rw [hn, List.range_succ_eq_map, List.range_succ_eq_map]
    simp only [List.map_cons, List.map_map]
    refine mulSteps_zero hw h hP fuel _ (hx.assignOpt hw8 none) (hy.assignOpt hw8 none) ?_ ?_
    · split
      · exact hx.assignOpt hw8 none
      · exact hz.assignOpt hw8 none
    · split
      · exact hy.assignOpt hw8 none
      · exact hz.assignOpt hw8 none

/-- **C97** is violated: there is one answer for which Alice's exchange succeeds with the secret zero, whatever her curve and her
secret number are: the points that are received are not checked. -/
theorem ecdh_zero_answer (hw : w = 32 ∨ w = 64) : ∃ doc, ∀ (cv : CurveCtx w) (P A : Nat) (a : Num w) (K fuel : Nat) (rnd : Nat → Byte)
    (out : Option Bytes) (r : TaskResult), Is cv.ec.p P → Is cv.ec.a A → P % 2 = 1 → 1 < P → Is a K →
    ∃ k, process rnd fuel ⟨r, some cv, some doc, out, some a⟩ = .ok (some ⟨.success, none, some doc, out, some k⟩) ∧ Is k 0 := by
  have hw8 : 8 ≤ w := by rcases hw with rfl | rfl <;> decide
  have hz := is_zero (w := w)
  obtain ⟨doc, -, -, d3⟩ := Rsa.putMps_get hw [("ECDH PARAM KP X", (zero : Num w)), ("ECDH PARAM KP Y", zero)] (by simp)
    (by
      simp only [List.mem_cons, List.not_mem_nil, or_false, forall_eq_or_imp, forall_eq]
      exact ⟨⟨gKX, hz.ne_nil⟩, ⟨gKY, hz.ne_nil⟩⟩) (by simp only [List.map_cons, List.map_nil]; decide +kernel)
  have gx := d3 ("ECDH PARAM KP X", zero) (by simp)
  have gy := d3 ("ECDH PARAM KP Y", zero) (by simp)
  refine ⟨doc, fun cv P A a K fuel rnd out r hp ha ho hP hk => ?_⟩
  have hfit : Fits cv.ec P A 1 := ⟨hp, ha, ho, by
    rw [Nat.cast_one, Ne, ← Nat.cast_one, ZMod.natCast_eq_zero_iff, Nat.dvd_one]
    omega⟩
  obtain ⟨s, s1, s2, -⟩ := mul_zero (p := setPoint zero zero) (by rcases hw with rfl | rfl <;> decide) hfit hP fuel hk
    (hz.assignOpt hw8 none) (hz.assignOpt hw8 none)
  refine ⟨s.x, ?_, s2⟩
  simp only [process, aliceEnd, gx, gy, Out.bind_ok]
  rw [show (⟨(zero : Num w).data, false⟩ : Num w) = zero from rfl, s1]
  rfl

/-- The sample curve meets the hypotheses, with the secret 7. -/
example : ∃ doc k, process (fun _ => 0) 52 ⟨.success, some ctx17, some doc, none, some ⟨[7], false⟩⟩ =
    .ok (some ⟨.success, none, some doc, none, some k⟩) ∧ Is k 0 := by
  obtain ⟨doc, h⟩ := ecdh_zero_answer (w := 32) (.inl rfl)
  exact ⟨doc, h ctx17 17 2 _ 7 52 _ none .success fits17.p fits17.a (by decide) (by decide) ⟨by decide, rfl, by decide⟩⟩

end Kryptos.Ecdh
