import Verif.Lemmas.Rabbit

/-
  Rabbit (C105): the key stream is that of the publication, read little-endian; encryption twice is the identity; the square
  overflows the type `long`.
-/
namespace Kryptos.Rabbit
open Spec.MD (beNat leNat beWords)

namespace Lemmas

attribute [local irreducible] it

/-- `n` iterations. -/
def its : Nat → St → St
  | 0, s => s
  | n + 1, s => it (its n s)

theorem its_zero (s : St) : its 0 s = s := rfl
theorem its_succ (n : Nat) (s : St) : its (n + 1) s = it (its n s) := rfl

theorem its_it (n : Nat) (s : St) : its n (it s) = its (n + 1) s := by
  induction n with
  | zero => rw [its_zero, its_succ, its_zero]
  | succ n ih => rw [its_succ, its_succ, ih]

theorem rel_its {s : St} {t : Spec.Rabbit.State} (h : Rel s t) (n : Nat) : Rel (its n s) (Spec.Rabbit.steps n t) := by
  induction n with
  | zero => exact h
  | succ n ih => rw [its_succ, Spec.Rabbit.steps]; exact rel_it ih

/-- Byte `i` of the key stream that follows the state. -/
def ks (s : St) (i : Nat) : Byte := (kbytes (its (i / 16 + 1) s)).getD (i % 16) 0

theorem ks_shift (s : St) (i : Nat) : ks s (i + 16) = ks (it s) i := by
  unfold ks
  rw [its_it, Nat.add_mod_right, Nat.add_div_right _ (by decide)]

theorem length_kbytes (s : St) : (kbytes s).length = 16 := by simp [kbytes, le8]

attribute [local irreducible] kbytes

theorem take_zip (l : Bytes) (s : St) (h : l.length ≤ 16) :
    List.zipWith (· ^^^ ·) l (kbytes (it s)) = l.mapIdx fun i c => c ^^^ ks s i := by
  apply List.ext_getElem
  · simp [length_kbytes]; omega
  · intro i h1 h2
    have hi : i < 16 := by simp at h2; omega
    have hk : (kbytes (it s))[i]'(by rw [length_kbytes]; omega) = ks s i := by
      unfold ks
      rw [Nat.div_eq_of_lt hi, Nat.mod_eq_of_lt hi, List.getD_eq_getElem?_getD, List.getElem?_eq_getElem (by rw [length_kbytes]; omega),
        Option.getD_some]
      simp only [its_succ, its_zero]
    rw [List.getElem_zipWith, List.getElem_mapIdx, hk]

theorem loop_eq : ∀ (inp blk p : Bytes) (s : St), blk.length = 16 → p.length < 16 → blk.take p.length = p → inp ≠ [] →
    loop true inp blk p.length s = .ok ((p ++ inp).mapIdx fun i c => c ^^^ ks s i)
  | [], _, _, _, _, _, _, h => absurd rfl h
  | c :: inp, blk, p, s, hb, hp, ht, _ => by
    have hw : wr blk p.length c = .ok (blk.set p.length c) := by rw [wr, if_pos (by omega)]
    have hb' : (blk.set p.length c).length = 16 := by rw [List.length_set]; exact hb
    have ht' : (blk.set p.length c).take (p.length + 1) = p ++ [c] := by
      rw [List.take_add_one, List.take_set_of_le (Nat.le_refl _), ht, List.getElem?_set_self (by omega)]
      rfl
    rw [loop, hw, Out.bind_ok]
    by_cases hc : p.length + 1 = 16 ∨ inp = []
    · rw [if_pos hc, xorBlock_eq _ _ hb', Out.bind_ok]
      dsimp only
      have e : (List.zipWith (· ^^^ ·) (blk.set p.length c) (kbytes (it s))).take (p.length + 1) =
          (p ++ [c]).mapIdx fun i c => c ^^^ ks s i := by
        rw [← take_zip _ _ (by simp; omega), ← ht', List.take_zipWith]
        apply List.ext_getElem
        · simp
          omega
        · intro i h1 h2
          simp
      rw [e]
      by_cases hi : inp = []
      · subst hi
        rw [loop, Out.bind_ok, List.append_nil]
        rfl
      · have h16 : p.length + 1 = 16 := by rcases hc with h | h; exact h; exact absurd h hi
        have ih := loop_eq inp (List.zipWith (· ^^^ ·) (blk.set p.length c) (kbytes (it s))) [] (it s)
          (by rw [List.length_zipWith, hb', length_kbytes]; rfl) (by decide) rfl hi
        rw [List.length_nil, List.nil_append] at ih
        have e2 : inp.mapIdx (fun i c => c ^^^ ks (it s) i) = inp.mapIdx (fun i c' => c' ^^^ ks s (i + (p ++ [c]).length)) := by
          congr 1
          funext i c'
          rw [show (p ++ [c]).length = 16 by simpa using h16, ks_shift]
        rw [ih, Out.bind_ok, show p ++ c :: inp = (p ++ [c]) ++ inp by simp, List.mapIdx_append (xs := p ++ [c]), e2]
        rfl
    · rw [if_neg hc]
      have hlen : p.length + 1 = (p ++ [c]).length := by simp
      have hc1 : inp ≠ [] := fun h => hc (Or.inr h)
      rw [hlen] at ht' ⊢
      rw [loop_eq inp _ (p ++ [c]) s hb' (by simp; omega) ht' hc1]
      simp

/-- Four words of 16 bits in one of 64. -/
theorem four_toNat (a b c d : W64) (ha : a.toNat < 2 ^ 16) (hb : b.toNat < 2 ^ 16) (hc : c.toNat < 2 ^ 16) (hd : d.toNat < 2 ^ 16) :
    ((a <<< 0) ||| (b <<< 16) ||| (c <<< 32) ||| (d <<< 48)).toNat = a.toNat + b.toNat * 2 ^ 16 + c.toNat * 2 ^ 32 + d.toNat * 2 ^ 48 := by
  rw [BitVec.shiftLeft_zero, BitVec.toNat_or, BitVec.toNat_or, BitVec.toNat_or, BitVec.toNat_shiftLeft, BitVec.toNat_shiftLeft, BitVec.toNat_shiftLeft,
    Nat.shiftLeft_eq, Nat.shiftLeft_eq, Nat.shiftLeft_eq, Nat.mod_eq_of_lt (by omega), Nat.mod_eq_of_lt (by omega), Nat.mod_eq_of_lt (by omega),
    Nat.or_comm a.toNat, ← Nat.shiftLeft_eq, ← Nat.shiftLeft_add_eq_or_of_lt ha, Nat.or_comm _ (c.toNat * 2 ^ 32), ← Nat.shiftLeft_eq c.toNat,
    ← Nat.shiftLeft_add_eq_or_of_lt (by rw [Nat.shiftLeft_eq]; omega), Nat.or_comm _ (d.toNat * 2 ^ 48), ← Nat.shiftLeft_eq d.toNat,
    ← Nat.shiftLeft_add_eq_or_of_lt (by rw [Nat.shiftLeft_eq, Nat.shiftLeft_eq]; omega)]
  simp only [Nat.shiftLeft_eq]
  omega

theorem lo_toNat (x : W32) : (lo x).toNat = x.toNat % 2 ^ 16 := by
  have hx := x.isLt
  rw [lo, BitVec.toNat_setWidth, BitVec.toNat_and, show (0xFFFF#32).toNat = 2 ^ 16 - 1 from rfl, Nat.and_two_pow_sub_one_eq_mod]
  omega

theorem hi_toNat (x : W32) : (hi x).toNat = x.toNat / 2 ^ 16 := by
  have hx := x.isLt
  rw [hi, BitVec.toNat_setWidth, BitVec.toNat_and, show (0xFFFF#32).toNat = 2 ^ 16 - 1 from rfl, Nat.and_two_pow_sub_one_eq_mod,
    BitVec.toNat_ushiftRight, Nat.shiftRight_eq_div_pow]
  omega

theorem lohi (x y : W32) : (lo x ^^^ hi y).toNat = Nat.xor (x.toNat % 2 ^ 16) (y.toNat / 2 ^ 16) := by
  rw [BitVec.toNat_xor, lo_toNat, hi_toNat]; rfl

theorem hilo (x y : W32) : (hi x ^^^ lo y).toNat = Nat.xor (x.toNat / 2 ^ 16) (y.toNat % 2 ^ 16) := by
  rw [BitVec.toNat_xor, lo_toNat, hi_toNat]; rfl

theorem xor16 (a b : Nat) (ha : a < 2 ^ 16) (hb : b < 2 ^ 16) : Nat.xor a b < 2 ^ 16 := Nat.xor_lt_two_pow ha hb

theorem le8_four (w : W64) (a b c d : Nat) (h : w.toNat = a + b * 2 ^ 16 + c * 2 ^ 32 + d * 2 ^ 48)
    (ha : a < 2 ^ 16) (hb : b < 2 ^ 16) (hc : c < 2 ^ 16) :
    le8 w = [BitVec.ofNat 8 a, BitVec.ofNat 8 (a / 256), BitVec.ofNat 8 b, BitVec.ofNat 8 (b / 256),
      BitVec.ofNat 8 c, BitVec.ofNat 8 (c / 256), BitVec.ofNat 8 d, BitVec.ofNat 8 (d / 256)] := by
  unfold le8
  simp only [List.cons.injEq, and_true, ← BitVec.toNat_inj, BitVec.toNat_setWidth, BitVec.toNat_ofNat, BitVec.toNat_ushiftRight,
    Nat.shiftRight_eq_div_pow, h]
  refine ⟨?_, ?_, ?_, ?_, ?_, ?_, ?_, ?_⟩ <;> omega

theorem kbytes_eq {s : St} {t : Spec.Rabbit.State} (h : Rel s t) :
    kbytes s = (List.range 16).map fun i => BitVec.ofNat 8 (Spec.Rabbit.output t (i / 2) / 256 ^ (i % 2)) := by
  have hlt (x : W32) : x.toNat / 2 ^ 16 < 2 ^ 16 := by have := x.isLt; omega
  have hl (x : W32) : x.toNat % 2 ^ 16 < 2 ^ 16 := Nat.mod_lt _ (by decide)
  have e (x y : W32) : (lo x ^^^ hi y).toNat < 2 ^ 16 := by rw [lohi]; exact xor16 _ _ (hl x) (hlt y)
  have e' (x y : W32) : (hi x ^^^ lo y).toNat < 2 ^ 16 := by rw [hilo]; exact xor16 _ _ (hlt x) (hl y)
  have h1 := le8_four (extractS s).1 _ _ _ _ (four_toNat _ _ _ _ (e s.X.a s.X.f) (e' s.X.a s.X.d) (e s.X.c s.X.h) (e' s.X.c s.X.f))
    (e _ _) (e' _ _) (e _ _)
  have h2 := le8_four (extractS s).2 _ _ _ _ (four_toNat _ _ _ _ (e s.X.e s.X.b) (e' s.X.e s.X.h) (e s.X.g s.X.d) (e' s.X.g s.X.b))
    (e _ _) (e' _ _) (e _ _)
  rw [kbytes, h1, h2]
  simp only [lohi, hilo, List.range, List.range.loop, List.map, Nat.reduceDiv, Nat.reduceMod, Nat.zero_div, Nat.zero_mod, Nat.pow_zero,
    Nat.div_one, Nat.pow_one, Spec.Rabbit.output, h.x0, h.x1, h.x2, h.x3, h.x4, h.x5, h.x6, h.x7, List.cons_append, List.nil_append]

/-- A computation on a machine where overflow is undefined is undefined or agrees with the one where it wraps. -/
def Le {α : Type} (x y : Out α) : Prop := x = .ub ∨ x = y

theorem Le.refl {α : Type} (x : Out α) : Le x x := Or.inr rfl

theorem Le.bind {α β : Type} {x y : Out α} {f h : α → Out β} (hx : Le x y) (hf : ∀ a, Le (f a) (h a)) : Le (x >>= f) (y >>= h) := by
  rcases hx with rfl | rfl
  · exact Or.inl rfl
  · cases x with
    | ub => exact Or.inl rfl
    | ok a => exact hf a

theorem le_g (u v : W32) : Le (g false u v) (g true u v) := by
  have h : Le (square false u v) (square true u v) := by
    unfold square mulLong
    generalize ((u + v).setWidth 64 % 0x100000000#64 : W64) = x
    by_cases hx : x.toNat * x.toNat < 2 ^ 63
    · rw [if_pos (Or.inr hx), if_pos (Or.inr hx)]; exact Le.refl _
    · rw [if_neg (by simpa using hx)]; exact Or.inl rfl
  exact h.bind fun _ => h.bind fun _ => Le.refl _

theorem le_iter (s : St) : Le (iter false s) (iter true s) :=
  (le_g _ _).bind fun _ => (le_g _ _).bind fun _ => (le_g _ _).bind fun _ => (le_g _ _).bind fun _ =>
  (le_g _ _).bind fun _ => (le_g _ _).bind fun _ => (le_g _ _).bind fun _ => (le_g _ _).bind fun _ => Le.refl _

theorem le_iter4 (s : St) : Le (iter4 false s) (iter4 true s) :=
  (le_iter _).bind fun _ => (le_iter _).bind fun _ => (le_iter _).bind fun _ => le_iter _

theorem le_keySetup (key : Bytes) (iv : Option Bytes) : Le (keySetup false key iv) (keySetup true key iv) := by
  unfold keySetup
  refine (Le.refl _).bind fun s => (le_iter4 _).bind fun s => ?_
  cases iv with
  | none => exact Le.refl _
  | some iv => exact (Le.refl _).bind fun v => le_iter4 _

theorem le_xorBlock (b : Bytes) (s : St) : Le (xorBlock false b s) (xorBlock true b s) := by
  unfold xorBlock
  exact (Le.refl _).bind fun _ => (Le.refl _).bind fun _ => (le_iter s).bind fun _ => Le.refl _

theorem le_loop : ∀ (inp blk : Bytes) (o : Nat) (s : St), Le (loop false inp blk o s) (loop true inp blk o s)
  | [], _, _, _ => Le.refl _
  | c :: inp, blk, o, s => by
    rw [loop, loop]
    refine (Le.refl _).bind fun blk => ?_
    by_cases h : o + 1 = 16 ∨ inp = []
    · rw [if_pos h, if_pos h]
      exact (le_xorBlock _ _).bind fun p => (le_loop inp p.1 0 p.2).bind fun _ => Le.refl _
    · rw [if_neg h, if_neg h]
      exact le_loop inp blk (o + 1) s

end Lemmas

open Lemmas (keyNat ivNat)

/-- Byte `i` of the published key stream for the numbers `K`, `v`, every output block being written with its lowest byte first (the
convention of the eSTREAM submission). -/
def leByte (K : Nat) (v : Option Nat) (i : Nat) : Byte := BitVec.ofNat 8 (Spec.Rabbit.stream K v (i / 16) (i % 16 / 2) / 256 ^ (i % 2))

/-- C105: for every key, initialization vector (of at least 8 bytes, or absent) and input of any length, and whatever the
uninitialised block contains, the output is the input combined with the published key stream; key and vector are read with the
lowest byte first.  The product of `kryptos_rabbit_g` is supposed to wrap. -/
theorem rabbit_published (stale key inp : Bytes) (iv : Option Bytes) (hs : stale.length = 16) (hv : ∀ v, iv = some v → 8 ≤ v.length) :
    cipher true stale key iv inp = .ok (inp.mapIdx fun i c => c ^^^ leByte (keyNat key) (iv.map ivNat) i) := by
  obtain ⟨s, h1, h2⟩ := Lemmas.keySetup_eq key iv hv
  rw [cipher, h1, Out.bind_ok]
  by_cases hi : inp = []
  · subst hi; rfl
  · have := Lemmas.loop_eq inp stale [] s hs (by decide) rfl hi
    rw [List.length_nil, List.nil_append] at this
    rw [this]
    congr 2
    funext i c
    congr 1
    unfold Lemmas.ks
    rw [Lemmas.kbytes_eq (Lemmas.rel_its h2 (i / 16 + 1)), List.getD_eq_getElem?_getD, List.getElem?_map,
      List.getElem?_range (Nat.mod_lt _ (by decide)), Option.map_some, Option.getD_some, show i % 16 % 2 = i % 2 by omega]
    rfl

/-- C105: applying the cipher twice with the same key and vector gives the message back. -/
theorem rabbit_inverse (stale stale' key inp : Bytes) (iv : Option Bytes) (hs : stale.length = 16) (hs' : stale'.length = 16)
    (hv : ∀ v, iv = some v → 8 ≤ v.length) :
    ∃ o, cipher true stale key iv inp = .ok o ∧ o.length = inp.length ∧ cipher true stale' key iv o = .ok inp := by
  refine ⟨_, rabbit_published stale key inp iv hs hv, by simp, ?_⟩
  rw [rabbit_published stale' key _ iv hs' hv, List.mapIdx_mapIdx]
  congr 1
  apply List.ext_getElem
  · simp
  · intro i h1 h2
    rw [List.getElem_mapIdx]
    simp only [Function.comp]
    rw [BitVec.xor_assoc, BitVec.xor_self, BitVec.xor_zero]

/-- C105: a 16-byte key and an 8-byte vector are used entirely. -/
theorem rabbit_full_key (key iv : Bytes) (hk : key.length = 16) (hv : iv.length = 8) : keyNat key = leNat key ∧ ivNat iv = leNat iv := by
  constructor
  · simp [keyNat, hk]
  · rw [ivNat, List.take_of_length_le (by omega)]

/-- Violation: only the last 16 bytes of a key matter, and zeros before a shorter one do not, so different keys give one key stream. -/
theorem rabbit_key_collision (stale key inp : Bytes) (c : Byte) (iv : Option Bytes) (hs : stale.length = 16)
    (hv : ∀ v, iv = some v → 8 ≤ v.length) (hc : key.length < 16 → c = 0) :
    cipher true stale (c :: key) iv inp = cipher true stale key iv inp := by
  rw [rabbit_published _ _ _ _ hs hv, rabbit_published _ _ _ _ hs hv]
  have : keyNat (c :: key) = keyNat key := by
    unfold keyNat
    by_cases h : key.length < 16
    · obtain rfl := hc h
      rw [List.length_cons, show key.length + 1 - 16 = 0 by omega, show key.length - 16 = 0 by omega, List.drop_zero, List.drop_zero,
        show 16 - key.length = (16 - (key.length + 1)) + 1 by omega, List.replicate_succ']
      simp
    · rw [List.length_cons, show 16 - (key.length + 1) = 0 by omega, show 16 - key.length = 0 by omega,
        show key.length + 1 - 16 = (key.length - 16) + 1 by omega]
      simp
  rw [this]

/-- Violation: eight bytes of the vector are read whatever its size. -/
theorem rabbit_short_iv_overread (stale key inp iv : Bytes) (h : iv.length < 8) : cipher true stale key (some iv) inp = .ub := by
  obtain ⟨s, h1, -⟩ := Lemmas.init_eq key
  simp only [cipher, keySetup, h1, Out.bind_ok, Lemmas.iter4_wrap, Lemmas.ivWord_short iv h, Out.bind_ub]

/-- C105, partial: where overflow of `long` is undefined, a run without overflow gives the same output.  (The full statement, that
no run is undefined, is false.) -/
theorem rabbit_no_overflow_partial (stale key inp o : Bytes) (iv : Option Bytes) (h : cipher false stale key iv inp = .ok o) :
    cipher true stale key iv inp = .ok o := by
  have : Lemmas.Le (cipher false stale key iv inp) (cipher true stale key iv inp) :=
    (Lemmas.le_keySetup key iv).bind fun s => Lemmas.le_loop _ _ _ _
  rcases this with h' | h'
  · rw [h'] at h; cases h
  · rw [← h', h]

/-- Violation: the product overflows for the key of zeros, already in the first iteration, whatever is encrypted. -/
theorem rabbit_square_overflows (stale inp : Bytes) (iv : Option Bytes) : cipher false stale (List.replicate 16 0) iv inp = .ub := by
  have h : (initState (ldKey (List.replicate 16 0)) >>= fun s => iter4 false s) = .ub := by decide +kernel
  have e : initState (ldKey (List.replicate 16 0)) = .ok ⟨⟨0, 0, 0, 0, 0, 0, 0, 0⟩, ⟨0, 0, 0, 0, 0, 0, 0, 0⟩, false⟩ := by decide +kernel
  rw [e, Out.bind_ok] at h
  rw [cipher, keySetup, e, Out.bind_ok, h, Out.bind_ub, Out.bind_ub]

/-- Byte `i` of the key stream of RFC 4503, which writes the blocks with the highest byte first. -/
def rfcByte (K : Nat) (v : Option Nat) (i : Nat) : Byte :=
  BitVec.ofNat 8 (Spec.Rabbit.stream K v (i / 16) ((15 - i % 16) / 2) / 256 ^ ((15 - i % 16) % 2))

/-- C105: the key stream of RFC 4503 (which reads key and vector with the highest byte first) is that of the code for the reversed
key and the reversed vector, every block reversed. -/
theorem rabbit_rfc_reversed (stale key inp : Bytes) (iv : Option Bytes) (hs : stale.length = 16) (hk : key.length = 16)
    (hv : ∀ v, iv = some v → v.length = 8) :
    cipher true stale key.reverse (iv.map List.reverse) inp =
      .ok (inp.mapIdx fun i c => c ^^^ rfcByte (beNat key) (iv.map beNat) (i / 16 * 16 + (15 - i % 16))) := by
  rw [rabbit_published stale key.reverse inp (iv.map List.reverse) hs (by
    intro v h
    cases iv with
    | none => cases h
    | some w =>
      have := hv w rfl
      injection h with h
      rw [← h, List.length_reverse]; omega)]
  congr 2
  funext i c
  congr 1
  have e1 : keyNat key.reverse = beNat key := by
    rw [(rabbit_full_key key.reverse (List.replicate 8 0) (by simpa using hk) rfl).1, leNat, List.reverse_reverse]
  have e2 : (iv.map List.reverse).map ivNat = iv.map beNat := by
    cases iv with
    | none => rfl
    | some w =>
      have := hv w rfl
      rw [Option.map_some, Option.map_some, Option.map_some, (rabbit_full_key (List.replicate 16 0) w.reverse rfl (by simpa using this)).2, leNat,
        List.reverse_reverse]
  rw [e1, e2, leByte, rfcByte, show (i / 16 * 16 + (15 - i % 16)) / 16 = i / 16 by omega,
    show 15 - (i / 16 * 16 + (15 - i % 16)) % 16 = i % 16 by omega, show i % 16 % 2 = i % 2 by omega]

/-- A case: the first test vector of the library (that of the eSTREAM submission), 20 bytes of it. -/
theorem rabbit_example : cipher true (List.replicate 16 7) (0x80 :: List.replicate 15 0) (some (List.replicate 8 0)) (List.replicate 20 0) =
    .ok [0xDC, 0xDC, 0xB6, 0x14, 0xF7, 0x38, 0xA2, 0x0C, 0xE1, 0x03, 0x63, 0x7E, 0x58, 0x09, 0x17, 0x66, 0x01, 0x0B, 0x16, 0xEA] := by
  decide +kernel

/-- Violation: for the key of zeros without vector the output is not the one of RFC 4503 (appendix A.1, B15754F036A5D6ECF56B45261C4AF702),
but has its bytes reversed. -/
theorem rabbit_not_rfc4503 : cipher true (List.replicate 16 0) (List.replicate 16 0) none (List.replicate 16 0) =
    .ok [0x02, 0xF7, 0x4A, 0x1C, 0x26, 0x45, 0x6B, 0xF5, 0xEC, 0xD6, 0xA5, 0x36, 0xF0, 0x54, 0x57, 0xB1] := by
  decide +kernel

end Kryptos.Rabbit
