import Verif.Props.Poly1305
import Verif.Props.SipHash
import Verif.Lemmas.MpDiv
import Verif.Spec.Poly1305
/-
  C91.  The tags against RFC 8439.
-/
namespace Kryptos.Poly1305
open Mp Spec.Mp
open Spec.MD (leNat)
open SipHash (leNat_cons leNat_append leNat_lt)

/-! ### Multiplication -/

theorem zeros_of_val {x : PNum} (h : val x = 0) : x = List.replicate x.length 0 :=
  List.eq_replicate_iff.2 ⟨rfl, (val_eq_zero x).1 h⟩

theorem mulRow_zeros (y : W64) : ∀ (k : Nat) (t : List W64), k ≤ t.length → mulRow y (List.replicate k 0) t 0 0 = .ok t
  | 0, t, _ => by rw [List.replicate_zero, mulRow]
  | k + 1, [], h => by simp at h
  | k + 1, d :: t, h => by
    rw [List.replicate_succ, mulRow]
    have hd := d.isLt
    simp only [show (0 : W64).toNat = 0 from rfl, Nat.zero_mod, Nat.mul_zero, Nat.zero_div, Nat.add_zero]
    rw [if_neg (by omega), show BitVec.ofNat 64 0 = 0 from rfl, mulRow_zeros y k t (by simpa using h)]
    simp

theorem mulRow_zero : ∀ (xs t : List W64), xs.length ≤ t.length → mulRow 0 xs t 0 0 = .ok t
  | [], t, _ => by rw [mulRow]
  | x :: xs, [], h => by simp at h
  | x :: xs, d :: t, h => by
    rw [mulRow]
    have hd := d.isLt
    simp only [show (0 : W64).toNat = 0 from rfl, Nat.zero_mod, Nat.zero_mul, Nat.zero_div, Nat.add_zero]
    rw [if_neg (by omega), show BitVec.ofNat 64 0 = 0 from rfl, mulRow_zero xs t (by simpa using h)]
    simp

/-- A row whose sum fits into `m` leaves what is behind alone. -/
theorem mulRow_val (y : W64) (k : Nat) (t : List W64) (hk : k ≤ t.length) : ∀ (x m : List W64) (mc : W64) (ac : Nat), x.length = m.length →
    ac ≤ 1 → val m + y.toNat * val x + mc.toNat + ac < 2 ^ (64 * m.length) →
    ∃ r, mulRow y (x ++ List.replicate k 0) (m ++ t) mc ac = .ok (r ++ t) ∧ r.length = m.length ∧
      val r = val m + y.toNat * val x + mc.toNat + ac
  | [], [], mc, ac, _, _, h => by
    simp only [val, Nat.mul_zero, List.length_nil, Nat.pow_zero] at h
    have h1 : mc = 0 := BitVec.eq_of_toNat_eq (by simp; omega)
    have h2 : ac = 0 := by omega
    subst h1 h2
    exact ⟨[], by rw [List.nil_append, List.nil_append, mulRow_zeros y k t hk], rfl, by simp [val]⟩
  | [], _ :: _, _, _, h, _, _ => by simp at h
  | _ :: _, [], _, _, h, _, _ => by simp at h
  | x :: xs, d :: m, mc, ac, hl, hac, h => by
    have hd := d.isLt
    have hx := x.isLt
    have hy := y.isLt
    have hmc := mc.isLt
    obtain ⟨bmul, hbm⟩ : ∃ b, b = y.toNat * x.toNat + mc.toNat := ⟨_, rfl⟩
    have hbl : bmul < 2 ^ 64 * 2 ^ 64 := by
      have h1 : y.toNat * x.toNat ≤ (2 ^ 64 - 1) * (2 ^ 64 - 1) := Nat.mul_le_mul (by omega) (by omega)
      omega
    have hq : bmul / 2 ^ 64 < 2 ^ 64 := Nat.div_lt_of_lt_mul hbl
    obtain ⟨bsum, hbs⟩ : ∃ b, b = d.toNat + bmul % 2 ^ 64 + ac := ⟨_, rfl⟩
    obtain ⟨ac', hac'⟩ : ∃ a, a = if 2 ^ 64 - 1 < bsum then 1 else 0 := ⟨_, rfl⟩
    have hac1 : ac' ≤ 1 := by rw [hac']; split <;> omega
    have hs' : bsum % 2 ^ 64 + 2 ^ 64 * ac' = bsum := by
      rw [hac']; split <;> omega
    have hqn : (BitVec.ofNat 64 (bmul / 2 ^ 64)).toNat = bmul / 2 ^ 64 := by
      rw [BitVec.toNat_ofNat, Nat.mod_eq_of_lt hq]
    have htot : val (d :: m) + y.toNat * val (x :: xs) + mc.toNat + ac =
        bsum % 2 ^ 64 + 2 ^ 64 * (val m + y.toNat * val xs + bmul / 2 ^ 64 + ac') := by
      simp only [val, Nat.mul_add] at hbm hs' ⊢
      have : y.toNat * (2 ^ 64 * val xs) = 2 ^ 64 * (y.toNat * val xs) := by ring
      omega
    obtain ⟨r, h1, h2, h3⟩ := mulRow_val y k t hk xs m (BitVec.ofNat 64 (bmul / 2 ^ 64)) ac' (by simpa using hl) hac1 (by
      rw [hqn]
      rw [htot, List.length_cons, show 64 * (m.length + 1) = 64 + 64 * m.length by ring, pow_add] at h
      exact Nat.lt_of_mul_lt_mul_left (a := 2 ^ 64) (by omega))
    refine ⟨BitVec.ofNat 64 bsum :: r, ?_, by simp [h2], ?_⟩
    · rw [List.cons_append, List.cons_append, mulRow]
      simp only [← hbm, ← hbs, ← hac', h1, Out.bind_ok]
      rfl
    · rw [htot]
      simp only [val, BitVec.toNat_ofNat, h3, hqn]

theorem mulLoop_val (x : List W64) : ∀ (ys m t : List W64), m.length ≤ x.length → ys.length + x.length ≤ m.length + t.length + 1 →
    val m + val ys * val x < 2 ^ (64 * m.length) →
    ∃ r, mulLoop ys x (m ++ t) = .ok (r ++ t) ∧ r.length = m.length ∧ val r = val m + val ys * val x
  | [], m, t, _, _, _ => ⟨m, by rw [mulLoop], rfl, by simp [val]⟩
  | y :: ys, m, t, hm, hl, h => by
    have hrow : ∃ r, mulRow y x (m ++ t) 0 0 = .ok (r ++ t) ∧ r.length = m.length ∧ val r = val m + y.toNat * val x := by
      by_cases hy : y = 0
      · subst hy
        exact ⟨m, mulRow_zero x (m ++ t) (by simp at hl ⊢; omega), rfl, by simp⟩
      · have hy1 : 0 < y.toNat := by
          rcases Nat.eq_zero_or_pos y.toNat with h0 | h0
          · exact absurd (BitVec.eq_of_toNat_eq (by simpa using h0)) hy
          · exact h0
        have hyx : y.toNat * val x ≤ val (y :: ys) * val x := Nat.mul_le_mul_right _ (by simp [val])
        have hx : val x ≤ y.toNat * val x := Nat.le_mul_of_pos_left _ hy1
        have hsplit := val_take_add_drop m.length x hm
        have h0 : val (x.drop m.length) = 0 := by
          by_contra h0
          have : 2 ^ (64 * m.length) * 1 ≤ 2 ^ (64 * m.length) * val (x.drop m.length) := Nat.mul_le_mul_left _ (by omega)
          omega
        have hx' : x = x.take m.length ++ List.replicate (x.length - m.length) 0 := by
          conv_lhs => rw [← List.take_append_drop m.length x, zeros_of_val h0, List.length_drop]
        have hv : val (x.take m.length) = val x := by rw [hsplit, h0]; omega
        obtain ⟨r, h1, h2, h3⟩ := mulRow_val y (x.length - m.length) t (by simp at hl; omega) (x.take m.length) m 0 0 (by simp; omega) (by omega)
          (by rw [hv]; simp; omega)
        rw [← hx', hv] at *
        exact ⟨r, h1, h2, by simpa using h3⟩
    obtain ⟨r, h1, h2, h3⟩ := hrow
    rw [mulLoop, h1]
    simp only [List.length_cons] at hl
    cases m with
    | nil =>
      have hr : r = [] := List.length_eq_zero_iff.1 h2
      subst hr
      simp only [val, List.length_nil, Nat.mul_zero, Nat.pow_zero, Nat.zero_add, Nat.add_mul] at h h3
      cases t with
      | nil =>
        refine ⟨[], by simp, rfl, ?_⟩
        simp only [val, Nat.add_mul]; omega
      | cons d t =>
        have hz : val ys * val x = 0 := by
          have : 2 ^ 64 * val ys * val x = 2 ^ 64 * (val ys * val x) := by ring
          omega
        obtain ⟨r', h4, h5, h6⟩ := mulLoop_val x ys [] t (by simp) (by simp at hl ⊢; omega) (by simp [val]; exact Nat.mul_eq_zero.1 hz)
        have hr : r' = [] := List.length_eq_zero_iff.1 h5
        subst hr
        simp only [List.nil_append] at h4
        refine ⟨[], by simp [h4], rfl, ?_⟩
        simp only [val, Nat.add_mul]; omega
    | cons d m =>
      cases r with
      | nil => simp at h2
      | cons e r =>
        simp only [val, List.length_cons] at h h3 h2 hm hl
        have e1 : (y.toNat + 2 ^ 64 * val ys) * val x = y.toNat * val x + 2 ^ 64 * (val ys * val x) := by ring
        rw [e1, show 64 * (m.length + 1) = 64 + 64 * m.length by ring, pow_add] at h
        obtain ⟨r', h4, h5, h6⟩ := mulLoop_val x ys r t (by omega) (by omega) (by
          rw [show r.length = m.length by omega]
          exact Nat.lt_of_mul_lt_mul_left (a := 2 ^ 64) (by omega))
        refine ⟨e :: r', ?_, by simp; omega, ?_⟩
        · simp [h4]
        · simp only [val, h6]
          rw [e1]; omega

theorem mul_val (beyond : List W64) (hb : 6 ≤ beyond.length) (x y : PNum) (hx : x.length = size) (hy : y.length = size)
    (h : val x * val y < 2 ^ 448) : ∃ r, mul beyond x y = .ok r ∧ r.length = size ∧ val r = val x * val y := by
  have hz : val zeros = 0 := val_replicate _
  obtain ⟨r, h1, h2, h3⟩ := mulLoop_val x y zeros beyond (by rw [hx]; decide) (by rw [hx, hy]; show 7 + 7 ≤ 7 + _ + 1; omega)
    (by rw [hz, Nat.zero_add, Nat.mul_comm]; exact h)
  have hr : r.length = size := h2
  refine ⟨r, ?_, hr, by rw [h3, hz, Nat.zero_add, Nat.mul_comm]⟩
  rw [mul, h1, Out.bind_ok, ← hr, List.drop_left, List.take_left, if_pos rfl]

theorem padd_val (x y : PNum) (hx : x.length = size) (hy : y.length = size) (h : val x + val y < 2 ^ 448) :
    (padd x y).length = size ∧ val (padd x y) = val x + val y := by
  obtain ⟨h1, h2, h3⟩ := addLoop_spec x y 0 (by omega) (by omega)
  rw [hx] at h1 h3
  refine ⟨h1, ?_⟩
  have h3' : val (padd x y) + 2 ^ 448 * (addLoop x y 0).2 = val x + val y := h3
  generalize (2 : Nat) ^ 448 = P at h h3'
  rcases Nat.eq_zero_or_pos (addLoop x y 0).2 with h0 | h0
  · rw [h0] at h3'; omega
  · have := Nat.mul_le_mul_left P h0
    omega

/-! ### Numbers from bytes -/

theorem val_set (d : PNum) (i : Nat) (x : W64) (h : i < d.length) :
    val (d.set i x) + 2 ^ (64 * i) * d[i].toNat = val d + 2 ^ (64 * i) * x.toNat := by
  have hl : (d.take i).length = i := by simp; omega
  have e1 : val d = _ := congrArg val (List.take_append_drop i d).symm
  rw [List.set_eq_take_append_cons_drop, if_pos h, e1, List.drop_eq_getElem_cons h, val_append, val_append, hl, val, val]
  ring

theorem leBytesToNum_val : ∀ (l : Bytes) (k : Nat) (n : PNum), n.length = size → k + l.length ≤ 56 → val n < 256 ^ k →
    ∃ r, leBytesToNum k l n = .ok r ∧ r.length = size ∧ val r = val n + 256 ^ k * leNat l
  | [], k, n, hn, _, _ => ⟨n, by rw [leBytesToNum], hn, by simp [leNat, Spec.MD.beNat]⟩
  | b :: l, k, n, hn, hk, h => by
    simp only [List.length_cons] at hk
    have hk8 : k / 8 < size := by show k / 8 < 7; omega
    have hi : k / 8 < n.length := by omega
    have hp : (256 : Nat) ^ k = 2 ^ (64 * (k / 8)) * 2 ^ (8 * (k % 8)) := by
      rw [show (256 : Nat) = 2 ^ 8 from rfl, ← pow_mul, ← pow_add]
      congr 1; omega
    obtain ⟨d, hd, hdv⟩ := rd_digit n (k / 8) hi
    have hd' : n[k / 8] = d := by
      have := hd
      rw [rd, List.getElem?_eq_getElem hi] at this
      exact Out.ok.inj this
    have hdl : d.toNat < 2 ^ (8 * (k % 8)) := by
      rw [hdv]
      refine Nat.lt_of_le_of_lt (Nat.mod_le _ _) (Nat.div_lt_of_lt_mul ?_)
      rw [← hp]; exact h
    have hb := b.isLt
    have hbs : b.toNat * 2 ^ (8 * (k % 8)) < 2 ^ 64 := by
      have h1 : (2 : Nat) ^ (8 * (k % 8)) ≤ 2 ^ 56 := Nat.pow_le_pow_right (by decide) (by omega)
      calc _ ≤ 255 * 2 ^ 56 := Nat.mul_le_mul (by omega) h1
        _ < _ := by decide
    have hor : (d ||| b.setWidth 64 <<< (8 * (k % 8))).toNat = d.toNat + 2 ^ (8 * (k % 8)) * b.toNat := by
      rw [BitVec.toNat_or, BitVec.toNat_shiftLeft, BitVec.toNat_setWidth, Nat.shiftLeft_eq, Nat.mod_eq_of_lt (a := b.toNat) (by omega),
        Nat.mod_eq_of_lt hbs, Nat.or_comm, Nat.mul_comm, ← Nat.two_pow_add_eq_or_of_lt hdl, Nat.add_comm]
    have hset := val_set n (k / 8) (d ||| b.setWidth 64 <<< (8 * (k % 8))) hi
    rw [hd', hor, Nat.mul_add, ← Nat.mul_assoc, ← hp] at hset
    have hv : val (n.set (k / 8) (d ||| b.setWidth 64 <<< (8 * (k % 8)))) = val n + 256 ^ k * b.toNat := by omega
    obtain ⟨r, h1, h2, h3⟩ := leBytesToNum_val l (k + 1) (n.set (k / 8) (d ||| b.setWidth 64 <<< (8 * (k % 8)))) (by simpa using hn) (by omega)
      (by
        rw [hv, Nat.pow_succ]
        have : 256 ^ k * b.toNat ≤ 256 ^ k * 255 := Nat.mul_le_mul_left _ (by omega)
        omega)
    refine ⟨r, ?_, h2, ?_⟩
    · rw [leBytesToNum, if_neg (by omega), hd, Out.bind_ok, wr_of_lt hi, Out.bind_ok, h1]
    · rw [h3, hv, leNat_cons, Nat.pow_succ]; ring

theorem bytes_val (l : Bytes) (h : l.length ≤ 56) : ∃ r, leBytesToNum 0 l zeros = .ok r ∧ r.length = size ∧ val r = leNat l := by
  obtain ⟨r, h1, h2, h3⟩ := leBytesToNum_val l 0 zeros rfl (by omega) (by rw [zeros, val_replicate]; decide)
  exact ⟨r, h1, h2, by rw [h3, zeros, val_replicate]; omega⟩

/-! ### The key -/

theorem leNat_and : ∀ a b : Bytes, leNat (List.zipWith (· &&& ·) a b) = leNat a &&& leNat b
  | [], b => by simp [leNat, Spec.MD.beNat]
  | a :: l, [] => by simp [leNat, Spec.MD.beNat]
  | x :: a, y :: b => by
    rw [List.zipWith_cons_cons, leNat_cons, leNat_cons, leNat_cons, leNat_and a b, BitVec.toNat_and]
    have e : ∀ (u : Byte) (v : Nat), u.toNat + 256 * v = 2 ^ 8 * v ||| u.toNat := fun u v => by
      rw [← Nat.two_pow_add_eq_or_of_lt (by exact u.isLt), Nat.add_comm]
    rw [e, e, ← BitVec.toNat_and, e, BitVec.toNat_and]
    apply Nat.eq_of_testBit_eq
    intro i
    simp only [Nat.testBit_or, Nat.testBit_and, Nat.testBit_two_pow_mul]
    by_cases hi : 8 ≤ i
    · have z : ∀ u : Byte, u.toNat.testBit i = false := fun u => Nat.testBit_lt_two_pow (Nat.lt_of_lt_of_le u.isLt (Nat.pow_le_pow_right (by decide) hi))
      simp [hi, z]
    · simp [hi]

/-- The clamped key. -/
theorem clamp_val (k : Bytes) (h : k.length = 32) : ∃ k', clamp k = .ok k' ∧ k'.length = 32 ∧ leNat (k'.take 16) = Spec.Poly1305.r k ∧
    leNat (k'.drop 16) = Spec.Poly1305.s k := by
  have hm : leNat [0xFF, 0xFF, 0xFF, 0x0F, 0xFC, 0xFF, 0xFF, 0x0F, 0xFC, 0xFF, 0xFF, 0x0F, 0xFC, 0xFF, 0xFF, 0x0F] =
    0x0ffffffc0ffffffc0ffffffc0fffffff := by decide
  match k, h with
  | [a0, a1, a2, a3, a4, a5, a6, a7, a8, a9, a10, a11, a12, a13, a14, a15, b0, b1, b2, b3, b4, b5, b6, b7, b8, b9, b10, b11, b12, b13, b14, b15], _ =>
    refine ⟨_, rfl, rfl, ?_, rfl⟩
    rw [Spec.Poly1305.r, Spec.Poly1305.clamp, ← hm, ← leNat_and]
    have f : ∀ x : Byte, x &&& 255#8 = x := fun x => BitVec.and_allOnes
    simp [f]

/-! ### The tag -/

theorem byte_val (w : W64) (s : Nat) : ((w >>> s) &&& 0xFF#64).setWidth 8 = BitVec.ofNat 8 (w.toNat / 2 ^ s) := by
  apply BitVec.eq_of_toNat_eq
  rw [BitVec.toNat_setWidth, BitVec.toNat_and, BitVec.toNat_ushiftRight, Nat.shiftRight_eq_div_pow,
    show (0xFF#64).toNat = 2 ^ 8 - 1 from rfl, BitVec.toNat_ofNat, Nat.and_two_pow_sub_one_eq_mod, Nat.mod_mod]

theorem tagFromNum_val (a : PNum) (h : a.length = size) : tagFromNum a = .ok ((List.range 16).map fun i => BitVec.ofNat 8 (val a / 256 ^ i)) := by
  match a, h with
  | [a0, a1, a2, a3, a4, a5, a6], _ =>
    obtain ⟨V, hV⟩ : ∃ V, V = val [a2, a3, a4, a5, a6] := ⟨_, rfl⟩
    have hv : val [a0, a1, a2, a3, a4, a5, a6] = a0.toNat + 2 ^ 64 * (a1.toNat + 2 ^ 64 * V) := by rw [hV]; rfl
    have h0 := a0.isLt
    have h1 := a1.isLt
    have hm : ∀ f : Nat → Byte, (List.range 16).map f = [f 0, f 1, f 2, f 3, f 4, f 5, f 6, f 7, f 8, f 9, f 10, f 11, f 12, f 13, f 14, f 15] :=
      fun _ => rfl
    have e : ∀ x y : Nat, x % 256 = y % 256 → BitVec.ofNat 8 x = BitVec.ofNat 8 y := fun x y h =>
      BitVec.eq_of_toNat_eq (by rw [BitVec.toNat_ofNat, BitVec.toNat_ofNat]; exact h)
    rw [hm, hv]
    refine congrArg Out.ok ?_
    simp only [byte_val]
    simp only [List.cons.injEq, and_true]
    refine ⟨?_, ?_, ?_, ?_, ?_, ?_, ?_, ?_, ?_, ?_, ?_, ?_, ?_, ?_, ?_, ?_⟩ <;> apply e <;> norm_num <;> omega

/-- The division leaves the remainder modulo 2^130 - 5. -/
def Exact (bits : List Nat) (N : Nat) : Prop :=
  ∀ a : PNum, a.length = size → val a = N → ∃ q r, div bits a modulus = .ok (q, r) ∧ r.length = size ∧ val r = N % Spec.Poly1305.p

theorem flush_val (beyond : List W64) (hb : 6 ≤ beyond.length) (bits : List Nat) (r a : PNum) (hr : r.length = size) (ha : a.length = size)
    (hrv : val r < 2 ^ 128) (hav : val a < 2 ^ 130) (pend : Bytes) (hp : pend.length ≤ 16)
    (hx : Exact bits ((val a + leNat (pend ++ [1])) * val r)) :
    ∃ a', flush beyond bits r ⟨a, pend ++ List.replicate (17 - pend.length) 1, pend.length⟩ = .ok ⟨a', freshBuf, 0⟩ ∧ a'.length = size ∧
      val a' = (val a + leNat (pend ++ [1])) * val r % Spec.Poly1305.p := by
  have ht : (pend ++ List.replicate (17 - pend.length) (1 : Byte)).take (17 - (16 - pend.length)) = pend ++ [1] := by
    rw [List.take_append, List.take_of_length_le (by omega), show 17 - (16 - pend.length) - pend.length = 1 by omega,
      List.take_replicate, Nat.min_eq_left (by omega)]
    rfl
  obtain ⟨n, h1, h2, h3⟩ := bytes_val (pend ++ [1]) (by simp; omega)
  have hn : val n < 2 ^ 136 := by
    rw [h3]
    refine Nat.lt_of_lt_of_le (leNat_lt _) ?_
    rw [show (2 : Nat) ^ 136 = 256 ^ 17 by norm_num]
    exact Nat.pow_le_pow_right (by decide) (by simp; omega)
  have hbig : (2 : Nat) ^ 137 ≤ 2 ^ 448 := Nat.pow_le_pow_right (by decide) (by decide)
  obtain ⟨h4, h5⟩ := padd_val a n ha h2 (by omega)
  have hprod : val (padd a n) * val r < 2 ^ 448 := by
    rw [h5]
    calc _ ≤ 2 ^ 137 * 2 ^ 128 := Nat.mul_le_mul (by omega) (by omega)
      _ = 2 ^ 265 := by rw [← pow_add]
      _ < 2 ^ 448 := Nat.pow_lt_pow_right (by decide) (by decide)
  obtain ⟨m, h6, h7, h8⟩ := mul_val beyond hb (padd a n) r h4 hr hprod
  obtain ⟨q, a', h9, h10, h11⟩ := hx m h7 (by rw [h8, h5, h3])
  refine ⟨a', ?_, h10, h11⟩
  rw [flush]
  simp only [ht, h1, Out.bind_ok, h6, h9]
  rfl

open Spec.Poly1305 in
theorem tagLoop_val (beyond : List W64) (hb : 6 ≤ beyond.length) (bits : List Nat) (r : PNum) (hr : r.length = size)
    (hrv : val r < 2 ^ 128) (msg : Bytes) (hx : ∀ i, i < count msg → Exact bits (product (val r) (acc (val r) msg i) msg i)) :
    ∀ (l pend : Bytes) (i : Nat) (a : PNum), l ≠ [] → a.length = size → val a = acc (val r) msg i → pend.length ≤ 16 →
      msg.drop (16 * i) = pend ++ l →
      ∃ a', tagLoop beyond bits r l ⟨a, pend ++ List.replicate (17 - pend.length) 1, pend.length⟩ = .ok ⟨a', freshBuf, 0⟩ ∧ a'.length = size ∧
        val a' = acc (val r) msg (count msg)
  | [], _, _, _, h, _, _, _, _ => absurd rfl h
  | c :: l, pend, i, a, _, ha, hv, hp, hd => by
    have hacc : ∀ i, acc (val r) msg i < 2 ^ 130 := fun i => by
      cases i with
      | zero => rw [acc]; decide
      | succ i =>
        rw [acc]
        exact Nat.lt_of_lt_of_le (Nat.mod_lt _ (by decide)) (by decide)
    have hlen := congrArg List.length hd
    simp only [List.length_drop, List.length_append, List.length_cons] at hlen
    have hput : ∀ (pend : Bytes) (a : PNum), pend.length < 16 →
        put c ⟨a, pend ++ List.replicate (17 - pend.length) 1, pend.length⟩ =
          .ok ⟨a, (pend ++ [c]) ++ List.replicate (17 - (pend ++ [c]).length) 1, (pend ++ [c]).length⟩ := fun pend a hp => by
      rw [put_ok _ _ (by simp; omega)]
      congr 2
      · show (pend ++ List.replicate (17 - pend.length) 1).set pend.length c = _
        rw [List.set_append_right _ _ (Nat.le_refl _), Nat.sub_self, show 17 - pend.length = (17 - (pend.length + 1)) + 1 by omega,
          List.replicate_succ, List.set_cons_zero]
        simp
      · simp
    -- after a full buffer has been worked in
    have rest : ∀ (pend : Bytes) (i : Nat) (a : PNum), a.length = size → val a = acc (val r) msg i → pend.length < 16 →
        msg.drop (16 * i) = pend ++ c :: l →
        ∃ a', ((put c ⟨a, pend ++ List.replicate (17 - pend.length) 1, pend.length⟩).bind fun s => (flushIf l.isEmpty beyond bits r s).bind fun s =>
          tagLoop beyond bits r l s) = .ok ⟨a', freshBuf, 0⟩ ∧ a'.length = size ∧ val a' = acc (val r) msg (count msg) := fun pend i a ha hv hp hd => by
      have hlen := congrArg List.length hd
      simp only [List.length_drop, List.length_append, List.length_cons] at hlen
      rw [hput pend a hp]
      show ∃ a', ((flushIf l.isEmpty beyond bits r ⟨a, (pend ++ [c]) ++ List.replicate (17 - (pend ++ [c]).length) 1, (pend ++ [c]).length⟩).bind fun s =>
        tagLoop beyond bits r l s) = _ ∧ _
      cases l with
      | nil =>
        have hblk : block msg i = pend ++ [c] := by
          rw [block, hd, List.take_of_length_le (by simp; omega)]
        have hc : count msg = i + 1 := by
          simp only [List.length_nil] at hlen
          rw [count]; omega
        have hE := hx i (by omega)
        rw [product, hblk, ← hv] at hE
        obtain ⟨a', h1, h2, h3⟩ := flush_val beyond hb bits r a hr ha hrv (hv ▸ hacc i) (pend ++ [c]) (by simp; omega) hE
        refine ⟨a', ?_, h2, ?_⟩
        · rw [flushIf, if_pos (by rfl), h1]; rfl
        · rw [h3, hc, acc, product, hblk, ← hv]
      | cons d l =>
        obtain ⟨a', h1, h2, h3⟩ := tagLoop_val beyond hb bits r hr hrv msg hx (d :: l) (pend ++ [c]) i a (by simp) ha hv (by simp; omega)
          (by rw [hd]; simp)
        refine ⟨a', ?_, h2, h3⟩
        rw [flushIf, if_neg (by simp)]
        exact h1
    by_cases hf : pend.length = 16
    · have hblk : block msg i = pend := by rw [block, hd, List.take_append_of_le_length (by omega), List.take_of_length_le (by omega)]
      have hE := hx i (by rw [count]; omega)
      rw [product, hblk, ← hv] at hE
      obtain ⟨a1, h1, h2, h3⟩ := flush_val beyond hb bits r a hr ha hrv (hv ▸ hacc i) pend hp hE
      obtain ⟨a', h4, h5, h6⟩ := rest [] (i + 1) a1 h2 (by rw [h3, acc, product, hblk, ← hv]) (by simp)
        (by rw [show 16 * (i + 1) = 16 * i + 16 by ring, ← List.drop_drop, hd, ← hf, List.drop_left]; rfl)
      refine ⟨a', ?_, h5, h6⟩
      rw [tagLoop, flushIf, if_pos (by simp [hf]), h1]
      exact h4
    · obtain ⟨a', h4, h5, h6⟩ := rest pend i a ha hv (by omega) hd
      refine ⟨a', ?_, h5, h6⟩
      rw [tagLoop, flushIf, if_neg (by simpa using hf)]
      exact h4

/-- For all messages and keys the tag is that of RFC 8439, given memory behind the product (which the code does not have, see
`tag_unsafe`) and as long as every division of the run leaves the right remainder (which fails for some messages, see
`tag_wrong`). -/
theorem tag_rfc8439_partial (beyond : List W64) (hb : 6 ≤ beyond.length) (bits : List Nat) (msg key : Bytes) (hm : msg ≠ []) (hk : key.length = 32)
    (hx : ∀ i, i < Spec.Poly1305.count msg → Exact bits (Spec.Poly1305.product (Spec.Poly1305.r key) (Spec.Poly1305.acc (Spec.Poly1305.r key) msg i) msg i)) :
    tagWith beyond bits msg key = .ok (some (Spec.Poly1305.mac key msg)) := by
  have hk0 : key ≠ [] := fun h => by rw [h] at hk; simp at hk
  obtain ⟨k', hc, hl, hr, hs⟩ := clamp_val key hk
  obtain ⟨r, h1, h2, h3⟩ := bytes_val (k'.take 16) (by simp)
  obtain ⟨s, h4, h5, h6⟩ := bytes_val (k'.drop 16) (by simp [hl])
  rw [hr] at h3
  rw [hs] at h6
  have hsv : val s < 2 ^ 128 := by
    rw [h6, Spec.Poly1305.s]
    refine Nat.lt_of_lt_of_le (leNat_lt _) ?_
    rw [show (2 : Nat) ^ 128 = 256 ^ 16 by norm_num]
    exact Nat.pow_le_pow_right (by decide) (by simp [hk])
  have hrv : val r < 2 ^ 128 := by
    rw [h3, Spec.Poly1305.r, Spec.Poly1305.clamp]
    exact Nat.lt_of_le_of_lt Nat.and_le_right (by decide)
  rw [← h3] at hx
  obtain ⟨a, h7, h8, h9⟩ := tagLoop_val beyond hb bits r h2 hrv msg hx msg [] 0 zeros hm rfl (by rw [zeros, val_replicate]; rfl) (by simp) (by simp)
  have hav : val a < 2 ^ 130 := by
    rw [h9]
    cases Spec.Poly1305.count msg with
    | zero => rw [Spec.Poly1305.acc]; decide
    | succ i => rw [Spec.Poly1305.acc]; exact Nat.lt_of_lt_of_le (Nat.mod_lt _ (by decide)) (by decide)
  have hbig : (2 : Nat) ^ 131 ≤ 2 ^ 448 := Nat.pow_le_pow_right (by decide) (by decide)
  obtain ⟨h10, h11⟩ := padd_val a s h8 h5 (by omega)
  rw [tagWith, if_neg (by simp [hm, hk0]), if_neg (by simp [hk]), hc]
  have h7' : tagLoop beyond bits r msg ⟨zeros, freshBuf, 0⟩ = .ok ⟨a, freshBuf, 0⟩ := h7
  simp only [Out.bind_ok, h1, h4, h7', tagFromNum_val _ h10, h11, h9, h6, h3]
  rfl

/-! ### Runs -/

/-- The digits of a number. -/
def digits : Nat → Nat → PNum
  | 0, _ => []
  | n + 1, N => BitVec.ofNat 64 (N % 2 ^ 64) :: digits n (N / 2 ^ 64)

theorem digits_val : ∀ (a : PNum), digits a.length (val a) = a
  | [] => rfl
  | d :: a => by
    have hd := d.isLt
    rw [List.length_cons, digits, val, Nat.add_mul_mod_self_left, Nat.mod_eq_of_lt hd, BitVec.ofNat_toNat, BitVec.setWidth_eq,
      Nat.add_mul_div_left _ _ (by decide), Nat.div_eq_of_lt hd, Nat.zero_add, digits_val a]

theorem exact_of {bits : List Nat} {N : Nat} (q r : PNum) (h : div bits (digits 7 N) modulus = .ok (q, r)) (hl : r.length = size)
    (hv : val r = N % Spec.Poly1305.p) : Exact bits N := fun a ha hN => by
  have := digits_val a
  rw [ha, hN] at this
  exact ⟨q, r, this ▸ h, hl, hv⟩

/-- The seventh test vector of RFC 8439, appendix A.3, meets the hypotheses of `tag_rfc8439_partial`. -/
example : tag (List.replicate 6 0xAA) (List.replicate 16 0xFF) (2 :: List.replicate 31 0) = .ok (some (3 :: List.replicate 15 0)) := by
  have h := tag_rfc8439_partial (List.replicate 6 0xAA) (by decide) checkedBits (List.replicate 16 0xFF) (2 :: List.replicate 31 0)
    (by decide) (by decide) (fun i hi => by
      have hi : i < 1 := hi
      obtain rfl : i = 0 := by omega
      have e : Spec.Poly1305.product (Spec.Poly1305.r (2 :: List.replicate 31 0)) (Spec.Poly1305.acc (Spec.Poly1305.r (2 :: List.replicate 31 0))
        (List.replicate 16 0xFF) 0) (List.replicate 16 0xFF) 0 = 2 ^ 130 - 2 := by decide
      rw [e]
      exact exact_of [1, 0, 0, 0, 0, 0, 0] [3, 0, 0, 0, 0, 0, 0] (by decide +kernel) rfl (by decide))
  rw [tag, h]
  decide

/-- The comparison leaves out bit 30 of each digit, so for this message and key the division leaves a wrong remainder and the tag is
not that of RFC 8439. -/
theorem tag_wrong : ∃ msg key t, key.length = 32 ∧ tag (List.replicate 6 0) msg key = .ok (some t) ∧ t ≠ Spec.Poly1305.mac key msg :=
  ⟨[0, 0, 0, 0, 0, 0, 0, 0, 0, 0, 0, 0xc0, 0xff, 0xff, 0xff, 0xff], [0, 0, 0, 0, 0, 0, 0, 0, 4] ++ List.replicate 23 0,
    [0, 0, 0, 0, 0, 0, 0, 0, 5, 0, 0, 0, 0, 0, 0, 0], by decide +kernel⟩

end Kryptos.Poly1305
