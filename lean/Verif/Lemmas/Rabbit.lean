import Verif.Model.Rabbit
import Verif.Spec.Rabbit
import Verif.Lemmas.Endian
import Verif.Props.KeyLoad
import Mathlib.Tactic.Ring
import Mathlib.Tactic.IntervalCases

/-
  Rabbit: the state of the code and that of the publication.
-/
namespace Kryptos.Rabbit
open Spec.MD (beNat leNat beWords)

namespace Lemmas

/-- The value of `g` when the product wraps. -/
def gv (u v : W32) : W32 :=
  let s : W64 := (u + v).setWidth 64 % 0x100000000#64
  (((s * s) &&& 0xFFFFFFFF#64) ^^^ (s * s).sshiftRight 32).setWidth 32

theorem g_wrap (u v : W32) : g true u v = .ok (gv u v) := by
  simp [g, square, mulLong, gv]

theorem sshiftRight_low (x : W64) : (x.sshiftRight 32).setWidth 32 = (x >>> 32).setWidth 32 := by
  apply BitVec.eq_of_getLsbD_eq
  intro i hi
  rw [BitVec.getLsbD_setWidth, BitVec.getLsbD_setWidth, BitVec.getLsbD_sshiftRight, BitVec.getLsbD_ushiftRight]
  simp [show 32 + i < 64 by omega, hi, show i < 64 by omega]

theorem gv_toNat (u v : W32) : (gv u v).toNat = Spec.Rabbit.g u.toNat v.toNat := by
  have hs : ((u + v).setWidth 64 % 0x100000000#64 : W64).toNat = (u.toNat + v.toNat) % 2 ^ 32 := by
    rw [BitVec.toNat_umod, BitVec.toNat_setWidth, BitVec.toNat_add, show (0x100000000#64).toNat = 2 ^ 32 from rfl]
    omega
  unfold gv Spec.Rabbit.g
  dsimp only
  generalize ((u + v).setWidth 64 % 0x100000000#64 : W64) = s at hs
  rw [← hs]
  have hlt : s.toNat < 2 ^ 32 := by rw [hs]; exact Nat.mod_lt _ (by decide)
  have hsq : (s * s).toNat = s.toNat ^ 2 := by
    rw [BitVec.toNat_mul, Nat.pow_two, Nat.mod_eq_of_lt]
    calc s.toNat * s.toNat < 2 ^ 32 * 2 ^ 32 := Nat.mul_lt_mul'' hlt hlt
      _ = 2 ^ 64 := by norm_num
  rw [BitVec.setWidth_xor, sshiftRight_low, BitVec.toNat_xor, BitVec.toNat_setWidth, BitVec.toNat_setWidth, BitVec.toNat_and,
    show (0xFFFFFFFF#64).toNat = 2 ^ 32 - 1 from rfl, Nat.and_two_pow_sub_one_eq_mod, BitVec.toNat_ushiftRight, hsq,
    Nat.mod_mod, Nat.shiftRight_eq_div_pow]
  congr 1
  apply Nat.mod_eq_of_lt
  rw [Nat.div_lt_iff_lt_mul (by decide), Nat.pow_two]
  exact Nat.mul_lt_mul'' hlt hlt

theorem rol_toNat (x : W32) (s : Nat) (hs : s ≤ 32) : (rol x s).toNat = Spec.Rabbit.rotl x.toNat s := by
  unfold rol Spec.Rabbit.rotl
  have hx := x.isLt
  rw [BitVec.toNat_or, BitVec.toNat_shiftLeft, BitVec.toNat_ushiftRight, Nat.shiftRight_eq_div_pow, Nat.shiftLeft_eq]
  have e : x.toNat * 2 ^ s % 2 ^ 32 = (x.toNat % 2 ^ (32 - s)) <<< s := by
    rw [Nat.shiftLeft_eq, ← Nat.mul_mod_mul_right, ← Nat.pow_add]
    congr 2; omega
  have hb : x.toNat / 2 ^ (32 - s) < 2 ^ s := by
    rw [Nat.div_lt_iff_lt_mul (by positivity), ← Nat.pow_add]
    rwa [show s + (32 - s) = 32 by omega]
  rw [e, Nat.shiftLeft_add_eq_or_of_lt hb]

theorem ctr_fst (c a : W32) (b : Bool) : (ctrRound c a b).1.toNat = (c.toNat + a.toNat + b.toNat) % 2 ^ 32 := by
  cases b <;> simp [ctrRound, BitVec.toNat_add]

theorem ctr_snd (c a : W32) (b : Bool) (h1 : a.toNat + 1 < 2 ^ 32) :
    (ctrRound c a b).2.toNat = (c.toNat + a.toNat + b.toNat) / 2 ^ 32 := by
  have hc := c.isLt
  have hf := ctr_fst c a b
  have hb : b.toNat ≤ 1 := Bool.toNat_le b
  have e : (ctrRound c a b).2 = decide ((ctrRound c a b).1 < c) := rfl
  rw [e]
  by_cases h : (ctrRound c a b).1 < c
  · rw [decide_eq_true h]
    rw [BitVec.lt_def, hf] at h
    simp only [Bool.toNat_true]
    omega
  · rw [decide_eq_false h]
    rw [BitVec.lt_def, hf] at h
    simp only [Bool.toNat_false]
    omega

/-- The state of the code and that of the publication. -/
structure Rel (s : St) (t : Spec.Rabbit.State) : Prop where
  x0 : t.X 0 = s.X.a.toNat
  x1 : t.X 1 = s.X.b.toNat
  x2 : t.X 2 = s.X.c.toNat
  x3 : t.X 3 = s.X.d.toNat
  x4 : t.X 4 = s.X.e.toNat
  x5 : t.X 5 = s.X.f.toNat
  x6 : t.X 6 = s.X.g.toNat
  x7 : t.X 7 = s.X.h.toNat
  c0 : t.C 0 = s.C.a.toNat
  c1 : t.C 1 = s.C.b.toNat
  c2 : t.C 2 = s.C.c.toNat
  c3 : t.C 3 = s.C.d.toNat
  c4 : t.C 4 = s.C.e.toNat
  c5 : t.C 5 = s.C.f.toNat
  c6 : t.C 6 = s.C.g.toNat
  c7 : t.C 7 = s.C.h.toNat
  b : t.φ = s.b.toNat

theorem rel_ctr {s : St} {t : Spec.Rabbit.State} (h : Rel s t) : Rel (ctrSystem s) (Spec.Rabbit.counters t) := by
  unfold ctrSystem
  extract_lets r0 r1 r2 r3 r4 r5 r6 r7
  have k0 : Spec.Rabbit.carry t 0 = s.b.toNat := h.b
  have k1 : Spec.Rabbit.carry t 1 = r0.2.toNat := by
    rw [Spec.Rabbit.carry, k0, h.c0]; exact (ctr_snd s.C.a 0x4D34D34D#32 s.b (by decide)).symm
  have k2 : Spec.Rabbit.carry t 2 = r1.2.toNat := by
    rw [Spec.Rabbit.carry, k1, h.c1]; exact (ctr_snd s.C.b 0xD34D34D3#32 r0.2 (by decide)).symm
  have k3 : Spec.Rabbit.carry t 3 = r2.2.toNat := by
    rw [Spec.Rabbit.carry, k2, h.c2]; exact (ctr_snd s.C.c 0x34D34D34#32 r1.2 (by decide)).symm
  have k4 : Spec.Rabbit.carry t 4 = r3.2.toNat := by
    rw [Spec.Rabbit.carry, k3, h.c3]; exact (ctr_snd s.C.d 0x4D34D34D#32 r2.2 (by decide)).symm
  have k5 : Spec.Rabbit.carry t 5 = r4.2.toNat := by
    rw [Spec.Rabbit.carry, k4, h.c4]; exact (ctr_snd s.C.e 0xD34D34D3#32 r3.2 (by decide)).symm
  have k6 : Spec.Rabbit.carry t 6 = r5.2.toNat := by
    rw [Spec.Rabbit.carry, k5, h.c5]; exact (ctr_snd s.C.f 0x34D34D34#32 r4.2 (by decide)).symm
  have k7 : Spec.Rabbit.carry t 7 = r6.2.toNat := by
    rw [Spec.Rabbit.carry, k6, h.c6]; exact (ctr_snd s.C.g 0x4D34D34D#32 r5.2 (by decide)).symm
  have k8 : Spec.Rabbit.carry t 8 = r7.2.toNat := by
    rw [Spec.Rabbit.carry, k7, h.c7]; exact (ctr_snd s.C.h 0xD34D34D3#32 r6.2 (by decide)).symm
  refine ⟨h.x0, h.x1, h.x2, h.x3, h.x4, h.x5, h.x6, h.x7, ?_, ?_, ?_, ?_, ?_, ?_, ?_, ?_, k8⟩
  · show (t.C 0 + Spec.Rabbit.A 0 + Spec.Rabbit.carry t 0) % 2 ^ 32 = _
    rw [k0, h.c0]; exact (ctr_fst s.C.a 0x4D34D34D#32 s.b).symm
  · show (t.C 1 + Spec.Rabbit.A 1 + Spec.Rabbit.carry t 1) % 2 ^ 32 = _
    rw [k1, h.c1]; exact (ctr_fst s.C.b 0xD34D34D3#32 r0.2).symm
  · show (t.C 2 + Spec.Rabbit.A 2 + Spec.Rabbit.carry t 2) % 2 ^ 32 = _
    rw [k2, h.c2]; exact (ctr_fst s.C.c 0x34D34D34#32 r1.2).symm
  · show (t.C 3 + Spec.Rabbit.A 3 + Spec.Rabbit.carry t 3) % 2 ^ 32 = _
    rw [k3, h.c3]; exact (ctr_fst s.C.d 0x4D34D34D#32 r2.2).symm
  · show (t.C 4 + Spec.Rabbit.A 4 + Spec.Rabbit.carry t 4) % 2 ^ 32 = _
    rw [k4, h.c4]; exact (ctr_fst s.C.e 0xD34D34D3#32 r3.2).symm
  · show (t.C 5 + Spec.Rabbit.A 5 + Spec.Rabbit.carry t 5) % 2 ^ 32 = _
    rw [k5, h.c5]; exact (ctr_fst s.C.f 0x34D34D34#32 r4.2).symm
  · show (t.C 6 + Spec.Rabbit.A 6 + Spec.Rabbit.carry t 6) % 2 ^ 32 = _
    rw [k6, h.c6]; exact (ctr_fst s.C.g 0x4D34D34D#32 r5.2).symm
  · show (t.C 7 + Spec.Rabbit.A 7 + Spec.Rabbit.carry t 7) % 2 ^ 32 = _
    rw [k7, h.c7]; exact (ctr_fst s.C.h 0xD34D34D3#32 r6.2).symm

/-- The next state when products wrap. -/
def nx (s : St) : St :=
  { s with X := mix (gv s.X.a s.C.a) (gv s.X.b s.C.b) (gv s.X.c s.C.c) (gv s.X.d s.C.d)
                    (gv s.X.e s.C.e) (gv s.X.f s.C.f) (gv s.X.g s.C.g) (gv s.X.h s.C.h) }

theorem nxtState_wrap (s : St) : nxtState true s = .ok (nx s) := by
  simp only [nxtState, g_wrap, Out.bind_ok]
  rfl

theorem add3 (a b c : W32) : (a + b + c).toNat = (a.toNat + b.toNat + c.toNat) % 2 ^ 32 := by
  rw [BitVec.toNat_add, BitVec.toNat_add]; omega

theorem rel_next {s : St} {t : Spec.Rabbit.State} (h : Rel s t) : Rel (nx s) (Spec.Rabbit.next t) := by
  refine ⟨?_, ?_, ?_, ?_, ?_, ?_, ?_, ?_, h.c0, h.c1, h.c2, h.c3, h.c4, h.c5, h.c6, h.c7, h.b⟩ <;>
  · simp only [Spec.Rabbit.next, nx, mix, reduceIte, Nat.reduceMod, Nat.reduceAdd, Nat.zero_add, Nat.zero_mod, one_ne_zero]
    simp only [add3, rol_toNat _ 16 (by decide), rol_toNat _ 8 (by decide), gv_toNat, ← h.x0, ← h.x1, ← h.x2, ← h.x3, ← h.x4,
      ← h.x5, ← h.x6, ← h.x7, ← h.c0, ← h.c1, ← h.c2, ← h.c3, ← h.c4, ← h.c5, ← h.c6, ← h.c7]

/-- One iteration when products wrap. -/
def it (s : St) : St := nx (ctrSystem s)

theorem iter_wrap (s : St) : iter true s = .ok (it s) := nxtState_wrap _

theorem iter4_wrap (s : St) : iter4 true s = .ok (it (it (it (it s)))) := by
  simp only [iter4, iter_wrap, Out.bind_ok]

theorem rel_it {s : St} {t : Spec.Rabbit.State} (h : Rel s t) : Rel (it s) (Spec.Rabbit.step t) := rel_next (rel_ctr h)

theorem cat_toNat (a b : W16) : ((a.setWidth 32 <<< 16) ||| b.setWidth 32 : W32).toNat = a.toNat * 2 ^ 16 + b.toNat := by
  have ha := a.isLt
  have hb := b.isLt
  rw [BitVec.toNat_or, BitVec.toNat_shiftLeft, BitVec.toNat_setWidth, BitVec.toNat_setWidth, Nat.mod_eq_of_lt (a := a.toNat) (by omega),
    Nat.mod_eq_of_lt (a := b.toNat) (by omega), Nat.shiftLeft_eq, Nat.mod_eq_of_lt (by omega), ← Nat.shiftLeft_eq,
    ← Nat.shiftLeft_add_eq_or_of_lt hb]

/-- The number of 128 bits that a key designates: its bytes, the first lowest; a shorter key is preceded by zeros, of a longer
one only the last 16 bytes matter. -/
def keyNat (key : Bytes) : Nat := leNat ((List.replicate (16 - key.length) 0 ++ key).drop (key.length - 16))

theorem ldKey_eq (key : Bytes) : ∃ k0 k1 k2 k3 k4 k5 k6 k7 : W16, ldKey key = [k0, k1, k2, k3, k4, k5, k6, k7] ∧
    k0.toNat = keyNat key % 2 ^ 16 ∧ k1.toNat = keyNat key / 2 ^ 16 % 2 ^ 16 ∧ k2.toNat = keyNat key / 2 ^ 32 % 2 ^ 16 ∧
    k3.toNat = keyNat key / 2 ^ 48 % 2 ^ 16 ∧ k4.toNat = keyNat key / 2 ^ 64 % 2 ^ 16 ∧ k5.toNat = keyNat key / 2 ^ 80 % 2 ^ 16 ∧
    k6.toNat = keyNat key / 2 ^ 96 % 2 ^ 16 ∧ k7.toNat = keyNat key / 2 ^ 112 % 2 ^ 16 := by
  have h1 : ldKey key = (beWords 16 2 (KeyLoad.zeroPad 16 key.reverse)).reverse := by
    unfold ldKey
    rw [KeyLoad.ldUserKey_padded_partial 2 8 (by decide) key.reverse (by omega)]
  have h2 : keyNat key = beNat (KeyLoad.zeroPad 16 key.reverse) := by
    unfold keyNat leNat KeyLoad.zeroPad
    congr 1
    rw [List.reverse_drop, List.reverse_append, List.reverse_replicate, List.length_append, List.length_replicate, List.length_reverse]
    by_cases h : key.length ≤ 16
    · rw [show 16 - key.length + key.length - (key.length - 16) = 16 by omega, List.take_of_length_le (by simp; omega),
        List.take_of_length_le (by simpa using h)]
    · rw [Nat.sub_eq_zero_of_le (by omega : 16 ≤ key.length)]
      simp only [List.replicate_zero, List.append_nil]
      congr 1
      omega
  have h3 : (KeyLoad.zeroPad 16 key.reverse).length = 16 := by
    unfold KeyLoad.zeroPad
    simp
    omega
  rw [h1, h2]
  generalize KeyLoad.zeroPad 16 key.reverse = l at h3
  match l, h3 with
  | [b0, b1, b2, b3, b4, b5, b6, b7, b8, b9, b10, b11, b12, b13, b14, b15], _ =>
    have e : (beWords 16 2 [b0, b1, b2, b3, b4, b5, b6, b7, b8, b9, b10, b11, b12, b13, b14, b15]).reverse =
        [BitVec.ofNat 16 (beNat [b14, b15]), BitVec.ofNat 16 (beNat [b12, b13]), BitVec.ofNat 16 (beNat [b10, b11]),
         BitVec.ofNat 16 (beNat [b8, b9]), BitVec.ofNat 16 (beNat [b6, b7]), BitVec.ofNat 16 (beNat [b4, b5]),
         BitVec.ofNat 16 (beNat [b2, b3]), BitVec.ofNat 16 (beNat [b0, b1])] := by
      simp [beWords, Spec.MD.chunks, List.range_succ]
    refine ⟨_, _, _, _, _, _, _, _, e, ?_⟩
    have := b0.isLt; have := b1.isLt; have := b2.isLt; have := b3.isLt
    have := b4.isLt; have := b5.isLt; have := b6.isLt; have := b7.isLt
    have := b8.isLt; have := b9.isLt; have := b10.isLt; have := b11.isLt
    have := b12.isLt; have := b13.isLt; have := b14.isLt; have := b15.isLt
    simp only [BitVec.toNat_ofNat, beNat, List.foldl]
    refine ⟨?_, ?_, ?_, ?_, ?_, ?_, ?_, ?_⟩ <;> omega

theorem init_eq (key : Bytes) : ∃ s, initState (ldKey key) = .ok s ∧ Rel s (Spec.Rabbit.expand (keyNat key)) := by
  obtain ⟨k0, k1, k2, k3, k4, k5, k6, k7, h, h0, h1, h2, h3, h4, h5, h6, h7⟩ := ldKey_eq key
  rw [h]
  refine ⟨_, rfl, ?_⟩
  constructor <;>
  simp only [Spec.Rabbit.expand, cat_toNat, reduceIte, Nat.reduceMod, Nat.reduceAdd, Nat.reduceMul, Nat.zero_add, Nat.zero_mod,
    one_ne_zero, Nat.mul_zero, Nat.pow_zero, Nat.div_one, h0, h1, h2, h3, h4, h5, h6, h7, Bool.toNat_false, Nat.mul_one]

theorem rel_reinit {s : St} {t : Spec.Rabbit.State} (h : Rel s t) : Rel (reinit s) (Spec.Rabbit.modify t) := by
  refine ⟨h.x0, h.x1, h.x2, h.x3, h.x4, h.x5, h.x6, h.x7, ?_, ?_, ?_, ?_, ?_, ?_, ?_, ?_, h.b⟩ <;>
  · simp only [Spec.Rabbit.modify, reinit, BitVec.toNat_xor, Nat.reduceMod, Nat.reduceAdd, Nat.zero_add, h.x0, h.x1, h.x2, h.x3, h.x4,
      h.x5, h.x6, h.x7, h.c0, h.c1, h.c2, h.c3, h.c4, h.c5, h.c6, h.c7]
    rfl

/-- The number of 64 bits that an initialization vector designates. -/
def ivNat (iv : Bytes) : Nat := leNat (iv.take 8)

theorem ivWord_eq (iv : Bytes) (h : 8 ≤ iv.length) : ∃ v, ivWord iv = .ok v ∧ v.toNat = ivNat iv := by
  match iv, h with
  | b0 :: b1 :: b2 :: b3 :: b4 :: b5 :: b6 :: b7 :: t, _ =>
    refine ⟨be64 b7 b6 b5 b4 b3 b2 b1 b0, rfl, ?_⟩
    rw [be64_toNat, be32_toNat, be32_toNat]
    simp only [ivNat, leNat, beNat, List.take, List.reverse_cons, List.reverse_nil, List.nil_append, List.cons_append, List.foldl]
    omega

theorem ivWord_short (iv : Bytes) (h : iv.length < 8) : ivWord iv = .ub := by
  have h7 : rd iv 7 = .ub := rd_eq_ub (by omega)
  unfold ivWord
  rw [h7]
  rfl

theorem iv0 (v : W64) : ((v &&& 0x00000000FFFFFFFF#64).setWidth 32 : W32).toNat =
    v.toNat / 2 ^ 16 % 2 ^ 16 * 2 ^ 16 + v.toNat % 2 ^ 16 := by
  have hv := v.isLt
  rw [BitVec.toNat_setWidth, BitVec.toNat_and, show (0x00000000FFFFFFFF#64).toNat = 2 ^ 32 - 1 from rfl, Nat.and_two_pow_sub_one_eq_mod]
  omega

theorem iv1 (v : W64) : ((((v >>> 48) <<< 16) ||| ((v >>> 16) &&& 0xFFFF#64)).setWidth 32 : W32).toNat =
    v.toNat / 2 ^ 48 % 2 ^ 16 * 2 ^ 16 + v.toNat / 2 ^ 16 % 2 ^ 16 := by
  have hv := v.isLt
  rw [BitVec.toNat_setWidth, BitVec.toNat_or, BitVec.toNat_and, BitVec.toNat_shiftLeft, BitVec.toNat_ushiftRight, BitVec.toNat_ushiftRight,
    show (0xFFFF#64).toNat = 2 ^ 16 - 1 from rfl, Nat.and_two_pow_sub_one_eq_mod, Nat.shiftRight_eq_div_pow,
    Nat.shiftRight_eq_div_pow, Nat.shiftLeft_eq, Nat.mod_eq_of_lt (a := v.toNat / 2 ^ 48 * 2 ^ 16) (by omega), ← Nat.shiftLeft_eq,
    ← Nat.shiftLeft_add_eq_or_of_lt (Nat.mod_lt _ (by decide)), Nat.shiftLeft_eq]
  omega

theorem iv2 (v : W64) : ((v >>> 32).setWidth 32 : W32).toNat = v.toNat / 2 ^ 48 % 2 ^ 16 * 2 ^ 16 + v.toNat / 2 ^ 32 % 2 ^ 16 := by
  have hv := v.isLt
  rw [BitVec.toNat_setWidth, BitVec.toNat_ushiftRight, Nat.shiftRight_eq_div_pow]
  omega

theorem iv3 (v : W64) : (((((v >>> 32) &&& 0xFFFF#64) <<< 16) ||| (v &&& 0xFFFF#64)).setWidth 32 : W32).toNat =
    v.toNat / 2 ^ 32 % 2 ^ 16 * 2 ^ 16 + v.toNat % 2 ^ 16 := by
  have hv := v.isLt
  rw [BitVec.toNat_setWidth, BitVec.toNat_or, BitVec.toNat_and, BitVec.toNat_shiftLeft, BitVec.toNat_and, BitVec.toNat_ushiftRight,
    show (0xFFFF#64).toNat = 2 ^ 16 - 1 from rfl, Nat.and_two_pow_sub_one_eq_mod, Nat.and_two_pow_sub_one_eq_mod, Nat.shiftRight_eq_div_pow,
    Nat.shiftLeft_eq, Nat.mod_eq_of_lt (a := v.toNat / 2 ^ 32 % 2 ^ 16 * 2 ^ 16) (by omega), ← Nat.shiftLeft_eq,
    ← Nat.shiftLeft_add_eq_or_of_lt (Nat.mod_lt _ (by decide)), Nat.shiftLeft_eq]
  omega

theorem rel_ivXor {s : St} {t : Spec.Rabbit.State} (v : W64) (h : Rel s t) : Rel (ivXor v s) (Spec.Rabbit.mixIv v.toNat t) := by
  refine ⟨h.x0, h.x1, h.x2, h.x3, h.x4, h.x5, h.x6, h.x7, ?_, ?_, ?_, ?_, ?_, ?_, ?_, ?_, h.b⟩ <;>
  · simp only [Spec.Rabbit.mixIv, ivXor, BitVec.toNat_xor, iv0, iv1, iv2, iv3, reduceIte, Nat.reduceMod, Nat.reduceMul, Nat.zero_mod,
      one_ne_zero, OfNat.ofNat_ne_zero, Nat.reduceEqDiff, OfNat.ofNat_ne_one, Nat.mul_zero, Nat.pow_zero, Nat.div_one, Nat.mul_one,
      h.c0, h.c1, h.c2, h.c3, h.c4, h.c5, h.c6, h.c7]
    rfl

/-- The state after the setup. -/
theorem keySetup_eq (key : Bytes) (iv : Option Bytes) (h : ∀ v, iv = some v → 8 ≤ v.length) :
    ∃ s, keySetup true key iv = .ok s ∧ Rel s (Spec.Rabbit.start (keyNat key) (iv.map ivNat)) := by
  obtain ⟨s, hs, hr⟩ := init_eq key
  have hm := rel_reinit (rel_it (rel_it (rel_it (rel_it hr))))
  cases iv with
  | none =>
    refine ⟨_, ?_, hm⟩
    simp only [keySetup, hs, Out.bind_ok, iter4_wrap]
    rfl
  | some iv =>
    obtain ⟨v, hv, hn⟩ := ivWord_eq iv (h iv rfl)
    refine ⟨it (it (it (it (ivXor v (reinit (it (it (it (it s))))))))), ?_, ?_⟩
    · simp only [keySetup, hs, Out.bind_ok, iter4_wrap, hv]
    · have := rel_it (rel_it (rel_it (rel_it (rel_ivXor v hm))))
      rw [hn] at this
      exact this

/-- Bytes of a word, the lowest first. -/
def le8 (w : W64) : Bytes :=
  [w.setWidth 8, (w >>> 8).setWidth 8, (w >>> 16).setWidth 8, (w >>> 24).setWidth 8,
   (w >>> 32).setWidth 8, (w >>> 40).setWidth 8, (w >>> 48).setWidth 8, (w >>> 56).setWidth 8]

theorem put_rrev (w : W64) : putBe64 (rrev64 w) = le8 w := by
  unfold putBe64 le8 rrev64
  simp only [List.cons.injEq, and_true]
  refine ⟨?_, ?_, ?_, ?_, ?_, ?_, ?_, ?_⟩ <;>
  · apply BitVec.eq_of_getLsbD_eq
    intro i hi
    interval_cases i <;> simp

theorem le8_xor (a b : W64) : le8 (a ^^^ b) = List.zipWith (· ^^^ ·) (le8 a) (le8 b) := by
  simp [le8, BitVec.ushiftRight_xor_distrib, BitVec.setWidth_xor]

theorem rrev_rrev (w : W64) : rrev64 (rrev64 w) = w := by
  apply BitVec.eq_of_getLsbD_eq
  intro i hi
  unfold rrev64
  interval_cases i <;> simp

theorem le8_rrev (a b c d e f g h : Byte) : le8 (rrev64 (be64 a b c d e f g h)) = [a, b, c, d, e, f, g, h] := by
  rw [← put_rrev, rrev_rrev, putBe64_be64]

/-- The bytes of a block of the key stream. -/
def kbytes (s : St) : Bytes := le8 (extractS s).1 ++ le8 (extractS s).2

theorem xorBlock_eq (b : Bytes) (s : St) (h : b.length = 16) :
    xorBlock true b s = .ok (List.zipWith (· ^^^ ·) b (kbytes (it s)), it s) := by
  match b, h with
  | [b0, b1, b2, b3, b4, b5, b6, b7, b8, b9, b10, b11, b12, b13, b14, b15], _ =>
    have e1 : getBe64 [b0, b1, b2, b3, b4, b5, b6, b7, b8, b9, b10, b11, b12, b13, b14, b15] 8 =
      .ok (be64 b8 b9 b10 b11 b12 b13 b14 b15) := rfl
    have e2 : getBe64 [b0, b1, b2, b3, b4, b5, b6, b7, b8, b9, b10, b11, b12, b13, b14, b15] 0 =
      .ok (be64 b0 b1 b2 b3 b4 b5 b6 b7) := rfl
    unfold xorBlock
    rw [e1, Out.bind_ok, e2, Out.bind_ok, iter_wrap, Out.bind_ok]
    dsimp only
    rw [put_rrev, put_rrev, le8_xor, le8_xor, le8_rrev, le8_rrev, Out.pure_eq]
    rfl

end Lemmas
end Kryptos.Rabbit
