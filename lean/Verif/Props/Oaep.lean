import Mathlib.Tactic.Ring
import Mathlib.Tactic.NormNum
import Mathlib.Tactic.WLOG
import Mathlib.Tactic.ByContra
import Mathlib.Tactic.Linarith
import Verif.Model.Oaep
import Verif.Spec.Pkcs1
import Verif.Props.Sha
import Verif.Props.Fortuna
/-
  C49, C50: OAEP and PSS.

  The hash is any function `H` with `h` bytes (`HashOk`), as computed by a hash task of the library for inputs of a possible size.
-/
namespace Kryptos.Oaep
open Hash Hmac

/-- A hash task computing the function `H` with `h` bytes. -/
structure HashOk (hash : HashFn) (H : Bytes → Bytes) (h : Nat) : Prop where
  pos : 0 < h
  run : ∀ m : Bytes, m.length < 2 ^ 61 → hash m false = .ok (H m)
  len : ∀ m, (H m).length = h

variable {hash : HashFn} {H : Bytes → Bytes} {h : Nat}

theorem HashOk.runHash (hh : HashOk hash H h) (m : Bytes) (hm : m.length < 2 ^ 61) :
    Hmac.runHash hash m = .ok (some (H m)) := by
  simp [Hmac.runHash, hashTask, hh.run m hm]

theorem putBe32_be (c : Nat) : putBe32 (BitVec.ofNat 32 c) = Spec.MD.be 4 c := by
  simp only [putBe32, Spec.MD.be, show (List.range 4).reverse = [3, 2, 1, 0] from rfl, List.map_cons, List.map_nil]
  have e : ∀ s, (((BitVec.ofNat 32 c) >>> s) &&& 0xFF#32).setWidth 8 = BitVec.ofNat 8 (c % 2 ^ 32 / 2 ^ s) := by
    intro s
    apply BitVec.eq_of_toNat_eq
    simp only [BitVec.toNat_setWidth, BitVec.toNat_and, BitVec.toNat_ushiftRight, BitVec.toNat_ofNat,
      Nat.shiftRight_eq_div_pow, show (255 % 2 ^ 32 : Nat) = 2 ^ 8 - 1 by norm_num, Nat.and_two_pow_sub_one_eq_mod, Nat.mod_mod]
  have e0 := e 0
  rw [BitVec.ushiftRight_zero] at e0
  rw [e, e, e, e0]
  simp only [List.cons.injEq, and_true]
  refine ⟨?_, ?_, ?_, ?_⟩ <;> apply BitVec.eq_of_toNat_eq <;> simp only [BitVec.toNat_ofNat] <;> norm_num <;> omega

/-! ## MGF1 -/

/-- The hashes one after another. -/
def blocks (H : Bytes → Bytes) (seed : Bytes) (n : Nat) : Bytes :=
  (List.range n).flatMap fun c => H (seed ++ Spec.MD.be 4 c)

theorem blocks_length (hl : ∀ m, (H m).length = h) (seed : Bytes) (n : Nat) : (blocks H seed n).length = n * h := by
  induction n with
  | zero => simp [blocks]
  | succ n ih =>
    rw [blocks, List.range_succ, List.flatMap_append, List.length_append]
    rw [blocks] at ih
    rw [ih]
    simp [hl]
    ring

theorem blocks_add (seed : Bytes) (n m : Nat) : ∃ t, blocks H seed (n + m) = blocks H seed n ++ t := by
  rw [blocks, List.range_add, List.flatMap_append]
  exact ⟨_, rfl⟩

theorem blocks_take (hl : ∀ m, (H m).length = h) (seed : Bytes) (a b len : Nat) (ha : len ≤ a * h) (hb : len ≤ b * h) :
    (blocks H seed a).take len = (blocks H seed b).take len := by
  wlog hab : a ≤ b generalizing a b
  · exact (this b a hb ha (by omega)).symm
  obtain ⟨d, rfl⟩ := Nat.exists_eq_add_of_le hab
  obtain ⟨t, ht⟩ := blocks_add (H := H) seed a d
  rw [ht, List.take_append_of_le_length (by rw [blocks_length hl]; exact ha)]

theorem mgfLoop_spec (hh : HashOk hash H h) (seed : Bytes) (hs : seed.length < 2 ^ 60) (len : Nat) : ∀ (f c : Nat),
    len ≤ f + c → mgfLoop hash seed len f (BitVec.ofNat 32 c) ((blocks H seed c).take len) =
      .ok (some (Spec.Pkcs1.mgf1 H h seed len)) := by
  have hN : len ≤ (len + h - 1) / h * h := by
    have := Nat.div_add_mod (len + h - 1) h
    have h2 := Nat.mod_lt (len + h - 1) hh.pos
    have := hh.pos
    have : h * ((len + h - 1) / h) = (len + h - 1) / h * h := Nat.mul_comm _ _
    omega
  have hend : ∀ c, len ≤ c * h → (blocks H seed c).take len = Spec.Pkcs1.mgf1 H h seed len := by
    intro c hc
    exact blocks_take hh.len seed c _ len hc hN
  intro f
  induction f with
  | zero =>
    intro c hc
    rw [mgfLoop, hend c (by have := Nat.le_mul_of_pos_right c hh.pos; omega)]
  | succ f ih =>
    intro c hc
    rw [mgfLoop]
    by_cases hlt : c * h < len
    · have ht : (blocks H seed c).take len = blocks H seed c :=
        List.take_of_length_le (by rw [blocks_length hh.len]; omega)
      rw [if_pos (by rw [ht, blocks_length hh.len]; exact hlt), putBe32_be,
        hh.runHash _ (by simp [Spec.MD.be]; omega), Out.bind_ok]
      simp only
      have hn : (blocks H seed c).take len ++ (H (seed ++ Spec.MD.be 4 c)).take (len - ((blocks H seed c).take len).length) =
          (blocks H seed (c + 1)).take len := by
        rw [ht]
        rw [show blocks H seed (c + 1) = blocks H seed c ++ H (seed ++ Spec.MD.be 4 c) by
          rw [blocks, List.range_succ, List.flatMap_append]; simp [blocks]]
        rw [List.take_append, ht]
      rw [hn, show BitVec.ofNat 32 c + 1 = BitVec.ofNat 32 (c + 1) by rw [BitVec.ofNat_add]; rfl]
      exact ih (c + 1) (by omega)
    · rw [if_neg (by rw [List.length_take, blocks_length hh.len]; omega), hend c (by omega)]

/-- The mask generating function is MGF1. -/
theorem mgf_spec (hh : HashOk hash H h) (seed : Bytes) (hs : seed.length < 2 ^ 60) (len : Nat) :
    mgf hash seed len = .ok (some (Spec.Pkcs1.mgf1 H h seed len)) := by
  have := mgfLoop_spec hh seed hs len len 0 (by omega)
  rw [show blocks H seed 0 = [] from rfl, List.take_nil] at this
  exact this

theorem mgf1_length (hh : HashOk hash H h) (seed : Bytes) (len : Nat) : (Spec.Pkcs1.mgf1 H h seed len).length = len := by
  have := blocks_length hh.len seed ((len + h - 1) / h)
  rw [blocks] at this
  rw [Spec.Pkcs1.mgf1, List.length_take, this]
  have h1 := Nat.div_add_mod (len + h - 1) h
  have h2 := Nat.mod_lt (len + h - 1) hh.pos
  have h3 : h * ((len + h - 1) / h) = (len + h - 1) / h * h := Nat.mul_comm _ _
  omega

theorem xorB_length (a b : Bytes) (hl : a.length = b.length) : (xorB a b).length = a.length := by simp [xorB, hl]

theorem xorB_cancel : ∀ (a b : Bytes), a.length = b.length → xorB (xorB a b) b = a
  | [], [], _ => rfl
  | a :: l, b :: m, hl => by
    have := xorB_cancel l m (by simpa using hl)
    simp only [xorB, List.zipWith_cons_cons] at this ⊢
    rw [this, BitVec.xor_assoc, BitVec.xor_self, BitVec.xor_zero]
  | [], _ :: _, hl => by simp at hl
  | _ :: _, [], hl => by simp at hl

theorem xorB_comm (a b : Bytes) : xorB a b = xorB b a := by
  rw [xorB, xorB, List.zipWith_comm]
  congr 1
  funext x y
  exact BitVec.xor_comm _ _

/-! ## OAEP -/

theorem psSize_ok (k n h : Nat) (hk : k < 2 ^ 60) (hle : n + 2 * h + 2 ≤ k) :
    (psSize k n h).toNat = k - n - 2 * h - 2 ∧ ¬ (psSize k n h).toInt < 0 := by
  have h1 : (psSize k n h).toNat = k - n - 2 * h - 2 := by
    simp only [psSize, BitVec.toNat_sub, BitVec.toNat_mul, BitVec.toNat_ofNat]
    rw [Nat.mod_eq_of_lt (show k < 2 ^ 64 by omega), Nat.mod_eq_of_lt (show n < 2 ^ 64 by omega),
      Nat.mod_eq_of_lt (show h < 2 ^ 64 by omega)]
    show (2 ^ 64 - (2 : BitVec 64).toNat + _) % 2 ^ 64 = _
    rw [show (2 : BitVec 64).toNat = 2 by decide]
    omega
  refine ⟨h1, ?_⟩
  rw [BitVec.toInt_eq_toNat_cond, h1]
  split <;> omega

theorem psSize_neg (k n h : Nat) (hk : k < 2 ^ 60) (hn : n ≤ k) (hh : h ≤ k) (hlt : k < n + 2 * h + 2) :
    (psSize k n h).toInt < 0 := by
  have h1 : (psSize k n h).toNat = 2 ^ 64 + k - n - 2 * h - 2 := by
    simp only [psSize, BitVec.toNat_sub, BitVec.toNat_mul, BitVec.toNat_ofNat]
    rw [Nat.mod_eq_of_lt (show k < 2 ^ 64 by omega), Nat.mod_eq_of_lt (show n < 2 ^ 64 by omega),
      Nat.mod_eq_of_lt (show h < 2 ^ 64 by omega)]
    show (2 ^ 64 - (2 : BitVec 64).toNat + _) % 2 ^ 64 = _
    rw [show (2 : BitVec 64).toNat = 2 by decide]
    omega
  rw [BitVec.toInt_eq_toNat_cond, h1]
  split <;> omega

/-- Messages longer than `k - 2 h - 2` and empty ones are refused. -/
theorem oaep_refuses (hash : HashFn) (h : Nat) (seed : Option Bytes) (m : Bytes) (k : Nat) (label : Option Bytes)
    (hk : k < 2 ^ 60) (hm : m = [] ∨ k < m.length + 2 * h + 2) : apply hash h seed m k label = .ok none := by
  rw [apply]
  by_cases h0 : m.length = 0 ∨ k < m.length
  · rw [if_pos h0]
  rw [if_neg h0]
  by_cases h1 : k < h
  · rw [if_pos h1]
  rw [if_neg h1]
  simp only
  rw [if_pos]
  apply psSize_neg k _ h hk (by omega) (by omega)
  rcases hm with rfl | hm
  · simp at h0
  · exact hm

/-- The padding is EME-OAEP. -/
theorem oaep_apply (hh : HashOk hash H h) (seed m : Bytes) (k : Nat) (label : Option Bytes) (hs : seed.length = h)
    (hl : (labelOf label).length < 2 ^ 61) (hk : k < 2 ^ 60) (hm : m ≠ []) (hle : m.length + 2 * h + 2 ≤ k) :
    apply hash h (some seed) m k label = .ok (some (Spec.Pkcs1.oaep H h k (labelOf label) seed m)) := by
  have hm0 : m.length ≠ 0 := by simpa using hm
  obtain ⟨h1, h2⟩ := psSize_ok k m.length h hk hle
  rw [apply, if_neg (by omega), if_neg (by omega)]
  simp only
  rw [if_neg h2, hh.runHash _ hl, Out.bind_ok]
  simp only
  rw [if_neg (by rw [hh.len]; simp), h1, mgf_spec hh _ (by omega), Out.bind_ok]
  simp only
  rw [mgf_spec hh, Out.bind_ok]
  · rfl
  · rw [xorB_length]
    · simp [hh.len]; omega
    · rw [mgf1_length hh]; simp [hh.len]; omega

theorem oaepDb_length (hh : HashOk hash H h) (k : Nat) (l m : Bytes) (hle : m.length + 2 * h + 2 ≤ k) :
    (Spec.Pkcs1.oaepDb H h k l m).length = k - h - 1 := by
  simp [Spec.Pkcs1.oaepDb, hh.len]
  omega

theorem mask_length (hh : HashOk hash H h) (k : Nat) (seed db : Bytes) (hs : seed.length = h) (hd : db.length = k - h - 1)
    (hk : h + 1 ≤ k) : (Spec.Pkcs1.mask H h k seed db).length = k := by
  have e1 := mgf1_length hh seed (k - h - 1)
  have e2 := mgf1_length hh (Spec.Pkcs1.xor db (Spec.Pkcs1.mgf1 H h seed (k - h - 1))) h
  simp only [Spec.Pkcs1.mask, Spec.Pkcs1.xor] at e1 e2 ⊢
  simp only [List.length_append, List.length_zipWith, e1, e2, List.length_cons, List.length_nil]
  omega

/-- Unmasking undoes masking, whatever the block. -/
theorem drop_mask (hh : HashOk hash H h) (k : Nat) (seed db : Bytes) (label : Option Bytes) (hs : seed.length = h)
    (hd : db.length = k - h - 1) (hk : h + 1 ≤ k) (hk' : k < 2 ^ 60) :
    drop hash h (Spec.Pkcs1.mask H h k seed db) k label = checkDb hash h k db label := by
  have e1 := mgf1_length hh seed (k - h - 1)
  have hx : xorB db (Spec.Pkcs1.mgf1 H h seed (k - h - 1)) = Spec.Pkcs1.xor db (Spec.Pkcs1.mgf1 H h seed (k - h - 1)) := rfl
  have hxl : (xorB db (Spec.Pkcs1.mgf1 H h seed (k - h - 1))).length = k - h - 1 := by rw [xorB_length _ _ (by omega), hd]
  have e2 := mgf1_length hh (xorB db (Spec.Pkcs1.mgf1 H h seed (k - h - 1))) h
  have hsl : (xorB seed (Spec.Pkcs1.mgf1 H h (xorB db (Spec.Pkcs1.mgf1 H h seed (k - h - 1))) h)).length = h := by
    rw [xorB_length _ _ (by omega), hs]
  have hm : Spec.Pkcs1.mask H h k seed db = 0#8 :: (xorB seed (Spec.Pkcs1.mgf1 H h
      (xorB db (Spec.Pkcs1.mgf1 H h seed (k - h - 1))) h) ++ xorB db (Spec.Pkcs1.mgf1 H h seed (k - h - 1))) := rfl
  rw [hm, drop]
  simp only
  rw [if_neg (by simp), if_neg (by omega), if_neg (by rw [List.length_append, hsl, hxl]; omega)]
  rw [List.drop_left' hsl, List.take_left' hsl, List.take_of_length_le (by omega), mgf_spec hh _ (by omega), Out.bind_ok]
  simp only
  rw [xorB_comm _ (xorB seed _), xorB_cancel _ _ (by omega), mgf_spec hh _ (by omega), Out.bind_ok]
  simp only
  rw [List.length_append, hsl, hxl, Nat.add_sub_cancel_left, xorB_cancel _ _ (by omega)]

theorem skipZeros_spec (n : Nat) (b : Byte) (m : Bytes) (hb : b ≠ 0#8) :
    skipZeros (List.replicate n 0#8 ++ b :: m) = (n, b :: m) := by
  induction n with
  | zero => simp [skipZeros, hb]
  | succ n ih => rw [List.replicate_succ, List.cons_append, skipZeros, if_pos rfl, ih]

theorem skipZeros_zeros (n : Nat) : skipZeros (List.replicate n 0#8) = (n, []) := by
  induction n with
  | zero => rfl
  | succ n ih => rw [List.replicate_succ, skipZeros, if_pos rfl, ih]

theorem skipZeros_eq (l : Bytes) : l = List.replicate (skipZeros l).1 0#8 ++ (skipZeros l).2 := by
  induction l with
  | nil => rfl
  | cons b l ih =>
    rw [skipZeros]
    split
    next hb =>
      rw [hb, List.replicate_succ, List.cons_append, ← ih]
    next => rfl

/-- Exactly the blocks of messages pass. -/
theorem checkDb_iff (hh : HashOk hash H h) (k : Nat) (db m : Bytes) (label : Option Bytes) (hl : (labelOf label).length < 2 ^ 61)
    (hd : db.length = k - h - 1) (hk : h + 1 ≤ k) (hk' : k < 2 ^ 60) :
    checkDb hash h k db label = .ok (some m) ↔
      m.length + 2 * h + 2 ≤ k ∧ db = Spec.Pkcs1.oaepDb H h k (labelOf label) m := by
  rw [checkDb, hh.runHash _ hl, Out.bind_ok]
  simp only
  rw [if_neg (by rw [hh.len]; simp)]
  constructor
  · intro hc
    split at hc
    · simp at hc
    next hlt =>
      split at hc
      · simp at hc
      next ht =>
        have hz := skipZeros_eq (db.drop h)
        split at hc
        · simp at hc
        next b m' hr =>
          rw [hr] at hz
          split at hc
          · simp at hc
          next hb =>
            split at hc
            · simp at hc
            next hps =>
              simp only [Out.pure_eq, Out.ok.injEq, Option.some.injEq] at hc
              subst hc
              have hb' : b = 1#8 := by simpa using hb
              have ht' : db.take h = H (labelOf label) := by simpa using ht
              have hlen := congrArg List.length hz
              simp only [List.length_drop, hd, List.length_append, List.length_replicate, List.length_cons] at hlen
              have hle : m'.length + 2 * h + 2 ≤ k := by omega
              refine ⟨hle, ?_⟩
              rw [Spec.Pkcs1.oaepDb, ← ht', List.append_assoc, List.append_assoc]
              conv_lhs => rw [← List.take_append_drop h db, hz, hb']
              congr 1
              rw [show (skipZeros (db.drop h)).1 = k - m'.length - 2 * h - 2 by omega]
              rfl
  · rintro ⟨hle, rfl⟩
    rw [oaepDb_length hh k _ m hle, if_neg (by omega), Spec.Pkcs1.oaepDb, List.append_assoc, List.append_assoc,
      List.take_left' (hh.len _), if_neg (by simp), List.drop_left' (hh.len _), List.singleton_append,
      skipZeros_spec _ _ _ (by decide)]
    simp only
    rw [if_neg (by simp), if_neg]
    · rfl
    · rw [(psSize_ok k m.length h hk' hle).1]; simp

/-- C49: dropping the padding gives back the message; whenever padding succeeds the result has `k` bytes.  Every message, seed,
label, hash and size. -/
theorem oaep_roundtrip (hh : HashOk hash H h) (seed : Option Bytes) (m em : Bytes) (k : Nat) (label : Option Bytes)
    (hs : ∀ x, seed = some x → x.length = h) (hl : (labelOf label).length < 2 ^ 61) (hk : k < 2 ^ 60)
    (he : apply hash h seed m k label = .ok (some em)) :
    em.length = k ∧ drop hash h em k label = .ok (some m) := by
  by_cases hm : m = [] ∨ k < m.length + 2 * h + 2
  · rw [oaep_refuses hash h seed m k label hk hm] at he
    simp at he
  · have hm1 : m ≠ [] := fun e => hm (.inl e)
    have hm2 : m.length + 2 * h + 2 ≤ k := by omega
    cases seed with
    | none =>
      have hm0 : m.length ≠ 0 := by simpa using hm1
      obtain ⟨h1, h2⟩ := psSize_ok k m.length h hk hm2
      rw [apply, if_neg (by omega), if_neg (by omega)] at he
      simp only at he
      rw [if_neg h2, hh.runHash _ hl, Out.bind_ok] at he
      simp only at he
      rw [if_neg (by rw [hh.len]; simp)] at he
      simp at he
    | some seed =>
      have hsl := hs seed rfl
      rw [oaep_apply hh seed m k label hsl hl hk hm1 hm2] at he
      simp only [Out.ok.injEq, Option.some.injEq] at he
      subst he
      have hd := oaepDb_length hh k (labelOf label) m hm2
      refine ⟨mask_length hh k seed _ hsl hd (by omega), ?_⟩
      rw [Spec.Pkcs1.oaep, drop_mask hh k seed _ label hsl hd (by omega) hk, checkDb_iff hh k _ m label hl hd (by omega) hk]
      exact ⟨hm2, rfl⟩

/-- Dropping accepts nothing else: a buffer of `k` bytes gives `m` exactly when it is the padding of `m` with some seed. -/
theorem oaep_drop_iff (hh : HashOk hash H h) (em m : Bytes) (k : Nat) (label : Option Bytes)
    (hl : (labelOf label).length < 2 ^ 61) (hk : k < 2 ^ 60) (hk1 : h + 1 ≤ k) (he : em.length = k) :
    drop hash h em k label = .ok (some m) ↔
      m.length + 2 * h + 2 ≤ k ∧ ∃ seed, seed.length = h ∧ em = Spec.Pkcs1.oaep H h k (labelOf label) seed m := by
  constructor
  · intro hd
    have hem : ∃ seed db, seed.length = h ∧ db.length = k - h - 1 ∧ em = Spec.Pkcs1.mask H h k seed db := by
      cases em with
      | nil => simp [drop] at hd
      | cons b body =>
        have hb : b = 0#8 := by
          by_contra hb
          rw [drop] at hd
          simp [hb] at hd
        have hbl : body.length = k - 1 := by simp at he; omega
        refine ⟨xorB (body.take h) (Spec.Pkcs1.mgf1 H h (body.drop h) h), xorB (body.drop h)
          (Spec.Pkcs1.mgf1 H h (xorB (body.take h) (Spec.Pkcs1.mgf1 H h (body.drop h) h)) (k - h - 1)), ?_, ?_, ?_⟩
        · rw [xorB_length] <;> simp [mgf1_length hh, hbl] <;> omega
        · rw [xorB_length] <;> simp [mgf1_length hh, hbl] <;> omega
        · show b :: body = 0#8 :: (xorB _ (Spec.Pkcs1.mgf1 H h (xorB (xorB _ _) _) h) ++ xorB (xorB _ _) _)
          rw [xorB_cancel (body.drop h) _ (by rw [mgf1_length hh, List.length_drop]; omega),
            xorB_cancel (body.take h) _ (by rw [mgf1_length hh, List.length_take]; omega), List.take_append_drop, hb]
    obtain ⟨seed, db, h1, h2, h3⟩ := hem
    rw [h3, drop_mask hh k seed db label h1 h2 hk1 hk, checkDb_iff hh k db m label hl h2 hk1 hk] at hd
    exact ⟨hd.1, seed, h1, by rw [h3, hd.2, Spec.Pkcs1.oaep]⟩
  · rintro ⟨hle, seed, hs, rfl⟩
    have hd := oaepDb_length hh k (labelOf label) m hle
    rw [Spec.Pkcs1.oaep, drop_mask hh k seed _ label hs hd hk1 hk, checkDb_iff hh k _ m label hl hd hk1 hk]
    exact ⟨hle, rfl⟩

/-- Dropping reads out of bounds for every buffer which begins with a zero and is shorter than the modulus. -/
theorem oaep_drop_short_unsafe (hash : HashFn) (h : Nat) (body : Bytes) (k : Nat) (label : Option Bytes) (hk1 : h + 1 ≤ k)
    (hb : body.length + 1 < k) : drop hash h (0#8 :: body) k label = .ub := by
  rw [drop]
  simp only
  rw [if_neg (by simp), if_neg (by omega), if_pos hb]

/-- And for some buffer of every size `k` that has room for the hash of the label. -/
theorem oaep_drop_unsafe (hh : HashOk hash H h) (k : Nat) (label : Option Bytes) (seed : Bytes) (hs : seed.length = h)
    (hl : (labelOf label).length < 2 ^ 61) (hk : k < 2 ^ 60) (hk1 : 2 * h + 1 ≤ k) :
    ∃ em, em.length = k ∧ drop hash h em k label = .ub := by
  have hd : (H (labelOf label) ++ List.replicate (k - 2 * h - 1) 0#8).length = k - h - 1 := by
    simp [hh.len]; omega
  refine ⟨Spec.Pkcs1.mask H h k seed (H (labelOf label) ++ List.replicate (k - 2 * h - 1) 0#8),
    mask_length hh k seed _ hs hd (by omega), ?_⟩
  rw [drop_mask hh k seed _ label hs hd (by omega) hk, checkDb, hh.runHash _ hl, Out.bind_ok]
  simp only
  rw [if_neg (by rw [hh.len]; simp), hd, if_neg (by omega), List.take_left' (hh.len _), if_neg (by simp),
    List.drop_left' (hh.len _), skipZeros_zeros]

/-! ## PSS -/

/-- Clear the first byte when there is padding. -/
def clr (ps : Nat) (l : Bytes) : Bytes := if 0 < ps then [0#8] ++ l.drop 1 else l

theorem clr_length (ps : Nat) (l : Bytes) (hp : ps < l.length) : (clr ps l).length = l.length := by
  rw [clr]
  split
  · simp; omega
  · rfl

theorem clr_take (ps : Nat) (l : Bytes) (hp : 0 < ps) : (clr ps l).take 1 = [0#8] := by
  rw [clr, if_pos hp]
  rfl

theorem clr_xor (ps : Nat) (mask l : Bytes) (hl : l.length = mask.length) (h0 : 0 < ps → l.take 1 = [0#8]) :
    clr ps (xorB mask (clr ps (xorB mask l))) = l := by
  by_cases hp : 0 < ps
  · have h0 := h0 hp
    simp only [clr, if_pos hp]
    cases l with
    | nil => simp at h0
    | cons b l =>
      cases mask with
      | nil => simp at hl
      | cons c mask =>
        have hb : b = 0#8 := by simpa using h0
        have hx := xorB_cancel l mask (by simpa using hl)
        simp only [xorB, List.zipWith_cons_cons, List.drop_succ_cons, List.drop_zero, List.singleton_append] at hx ⊢
        rw [hb]
        congr 1
        have e1 := xorB_comm mask l
        have e2 := xorB_comm mask (xorB l mask)
        simp only [xorB] at e1 e2
        rw [e1, e2, hx]
  · simp only [clr, if_neg hp]
    rw [xorB_comm mask l, xorB_comm mask, xorB_cancel _ _ hl]

theorem pss_eq (m salt : Bytes) (emLen : Nat) :
    Spec.Pkcs1.pss H h m salt emLen =
      clr (emLen - salt.length - h - 2) (xorB (Spec.Pkcs1.mgf1 H h (H (List.replicate 8 0#8 ++ H m ++ salt)) (emLen - h - 1))
        (List.replicate (emLen - salt.length - h - 2) 0#8 ++ [1#8] ++ salt)) ++
        H (List.replicate 8 0#8 ++ H m ++ salt) ++ [0xBC#8] := by
  simp only [Spec.Pkcs1.pss]
  rw [xorB_comm]
  congr 2
  rw [clr]
  by_cases hp : emLen - salt.length - h - 2 = 0
  · rw [if_pos hp, if_neg (by omega)]
    rfl
  · rw [if_neg hp, if_pos (by omega)]
    rfl

theorem pssDb_length (salt : Bytes) (emLen : Nat) (hle : h + salt.length + 2 ≤ emLen) :
    (List.replicate (emLen - salt.length - h - 2) 0#8 ++ [1#8] ++ salt).length = emLen - h - 1 := by
  simp; omega

/-- The encoding is EMSA-PSS with the size of the message. -/
theorem pss_encode (hh : HashOk hash H h) (m salt : Bytes) (hm : m.length < 2 ^ 60) (hle : h + salt.length + 2 ≤ m.length) :
    pssEncode hash h (some salt) m salt.length = .ok (some (Spec.Pkcs1.pss H h m salt m.length)) := by
  rw [pssEncode, if_neg (by omega), hh.runHash m (by omega), Out.bind_ok]
  simp only
  rw [if_neg (by rw [hh.len]; simp), if_neg (by omega)]
  have hs : (if salt.length = 0 then some [] else some salt) = some salt := by
    split
    next h0 => rw [List.length_eq_zero_iff.1 h0]
    next => rfl
  rw [hs]
  simp only
  rw [hh.runHash _ (by simp [hh.len]; omega), Out.bind_ok]
  simp only
  rw [if_neg (by rw [hh.len]; simp), mgf_spec hh _ (by rw [hh.len]; omega), Out.bind_ok, pss_eq]
  rfl

/-- Messages too short for the hash and the salt are refused, though the size of the modulus would do. -/
theorem pss_refuses_short (hash : HashFn) (h : Nat) (salt : Option Bytes) (m : Bytes) (s : Nat) (hs : h + s + 2 < 2 ^ 64)
    (hm : m.length < h + s + 2) : pssEncode hash h salt m s = .ok none := by
  rw [pssEncode, if_pos (by rw [Nat.mod_eq_of_lt hs]; exact hm)]

/-- When the system gives no salt, it is copied all the same. -/
theorem pss_no_salt_unsafe (hh : HashOk hash H h) (m : Bytes) (s : Nat) (hs : 0 < s) (hm : m.length < 2 ^ 60)
    (hle : h + s + 2 ≤ m.length) : pssEncode hash h none m s = .ub := by
  rw [pssEncode, if_neg (by omega), hh.runHash m (by omega), Out.bind_ok]
  simp only
  rw [if_neg (by rw [hh.len]; simp), if_neg (by omega), if_neg (by omega)]

/-- A salt size near the largest makes the size of the block wrap around. -/
theorem pss_salt_size_unsafe (hh : HashOk hash H h) (m : Bytes) (salt : Option Bytes) (s : Nat) (hm : m.length < 2 ^ 60)
    (hs : 2 ^ 64 ≤ h + s + 2) (hs' : s < 2 ^ 64) (hb : h + 8 < 2 ^ 60) (hle : h + s + 2 - 2 ^ 64 ≤ m.length) :
    pssEncode hash h salt m s = .ub := by
  rw [pssEncode, if_neg (by omega), hh.runHash m (by omega), Out.bind_ok]
  simp only
  rw [if_neg (by rw [hh.len]; simp), if_pos (by omega)]

/-- C50: verification accepts exactly the encodings of the message with some salt of the size.  Every message, encoding, hash
and salt size. -/
theorem pss_verify_iff (hh : HashOk hash H h) (m em : Bytes) (k s : Nat) (hm0 : m ≠ []) (hm : m.length < 2 ^ 61) (hk : k ≠ 0)
    (he : em.length < 2 ^ 60) (hs : h + s + 2 < 2 ^ 64) :
    pssVerify hash h m em k s = .ok true ↔
      h + s + 2 ≤ em.length ∧ ∃ salt, salt.length = s ∧ em = Spec.Pkcs1.pss H h m salt em.length := by
  have hm0' : m.length ≠ 0 := by simpa using hm0
  by_cases he0 : em.length < h + s + 2
  · rw [pssVerify]
    constructor
    · intro hc
      split at hc
      · simp at hc
      · rw [if_neg (show ¬ 2 ^ 64 ≤ h + s + 2 by omega)] at hc
        simp at hc
    · rintro ⟨hc, -⟩
      omega
  rw [pssVerify, if_neg (by omega), if_neg (by omega), if_neg he0, hh.runHash m hm, Out.bind_ok]
  simp only
  rw [if_neg (show ¬ (H m).length ≠ h by rw [hh.len]; simp)]
  constructor
  · intro hc
    refine ⟨by omega, ?_⟩
    split at hc
    · simp at hc
    next hbc =>
      split at hc
      · simp at hc
      next h0 =>
        rw [mgf_spec hh _ (by simp; omega), Out.bind_ok] at hc
        simp only at hc
        generalize hps : em.length - s - h - 2 = ps at hc h0
        generalize hmk : em.take (em.length - h - 1) = masked at hc h0
        generalize hhd : (em.drop (em.length - h - 1)).take h = hd at hc
        have hml : masked.length = em.length - h - 1 := by rw [← hmk]; simp; omega
        have hgl := mgf1_length hh hd (em.length - h - 1)
        change (if _ ≠ _ then _ else _) = _ at hc
        have hclr : (if 0 < ps then [0#8] ++ (xorB (Spec.Pkcs1.mgf1 H h hd (em.length - h - 1)) masked).drop 1
            else xorB (Spec.Pkcs1.mgf1 H h hd (em.length - h - 1)) masked) =
            clr ps (xorB (Spec.Pkcs1.mgf1 H h hd (em.length - h - 1)) masked) := rfl
        rw [hclr] at hc
        have hback := clr_xor ps _ masked (hml.trans hgl.symm) (fun hp => by
          by_contra hne
          exact h0 ⟨hp, hne⟩)
        have hdl : (clr ps (xorB (Spec.Pkcs1.mgf1 H h hd (em.length - h - 1)) masked)).length = em.length - h - 1 := by
          rw [clr_length, xorB_length _ _ (hgl.trans hml.symm), hgl]
          rw [xorB_length _ _ (hgl.trans hml.symm), hgl]
          omega
        generalize hdb : clr ps (xorB (Spec.Pkcs1.mgf1 H h hd (em.length - h - 1)) masked) = db at hc hback hdl
        split at hc
        · simp at hc
        next hone =>
          split at hc
          · simp at hc
          next hzero =>
            rw [hh.runHash _ (by simp [hh.len, hdl]; omega), Out.bind_ok] at hc
            simp only at hc
            rw [if_neg (by rw [hh.len]; simp)] at hc
            simp only [Out.pure_eq, Out.ok.injEq, beq_iff_eq] at hc
            have hone' : (db.drop ps).take 1 = [1#8] := by simpa using hone
            have hz : db.take ps = List.replicate ps 0#8 := by
              rw [List.eq_replicate_iff]
              refine ⟨by simp; omega, fun b hb => ?_⟩
              by_contra hne
              exact hzero (List.any_eq_true.2 ⟨b, hb, by simpa using hne⟩)
            have hdbe : db = List.replicate ps 0#8 ++ [1#8] ++ db.drop (db.length - s) := by
              conv_lhs => rw [← List.take_append_drop ps db, hz, ← List.take_append_drop 1 (db.drop ps), hone', List.drop_drop]
              rw [List.append_assoc, show ps + 1 = db.length - s by omega]
            have hsl : (db.drop (db.length - s)).length = s := by simp; omega
            refine ⟨db.drop (db.length - s), hsl, ?_⟩
            rw [pss_eq, hsl, ← hc, hps, ← hdbe, hback, ← hmk, ← hhd]
            have hbc' : em.drop (em.length - 1) = [0xBC#8] := by simpa using hbc
            conv_lhs => rw [← List.take_append_drop (em.length - h - 1) em,
              ← List.take_append_drop h (em.drop (em.length - h - 1)), List.drop_drop,
              show em.length - h - 1 + h = em.length - 1 by omega, hbc']
            rw [List.append_assoc]
  · rintro ⟨hle, salt, hsl, hem⟩
    subst hsl
    generalize hL : em.length = L at hem hle he
    rw [pss_eq] at hem
    have hdl := pssDb_length (h := h) salt L hle
    have hgl := mgf1_length hh (H (List.replicate 8 0#8 ++ H m ++ salt)) (L - h - 1)
    have hhl := hh.len (List.replicate 8 0#8 ++ H m ++ salt)
    generalize hps : L - salt.length - h - 2 = ps at hem hdl
    generalize hhd : H (List.replicate 8 0#8 ++ H m ++ salt) = hd at hem hgl hhl
    have hxl : (xorB (Spec.Pkcs1.mgf1 H h hd (L - h - 1)) (List.replicate ps 0#8 ++ [1#8] ++ salt)).length = L - h - 1 := by
      rw [xorB_length _ _ (hgl.trans hdl.symm), hgl]
    have hcl := (clr_length ps _ (by rw [hxl]; omega)).trans hxl
    have h0 : ¬ (0 < ps ∧ (clr ps (xorB (Spec.Pkcs1.mgf1 H h hd (L - h - 1)) (List.replicate ps 0#8 ++ [1#8] ++ salt))).take 1 ≠
        [0#8]) := by
      rintro ⟨hp, hne⟩
      exact hne (clr_take ps _ hp)
    have hback := clr_xor ps (Spec.Pkcs1.mgf1 H h hd (L - h - 1)) (List.replicate ps 0#8 ++ [1#8] ++ salt)
      (hdl.trans hgl.symm) (fun hp => by
        obtain ⟨n, rfl⟩ := Nat.exists_eq_succ_of_ne_zero (show ps ≠ 0 by omega)
        rfl)
    generalize clr ps (xorB (Spec.Pkcs1.mgf1 H h hd (L - h - 1)) (List.replicate ps 0#8 ++ [1#8] ++ salt)) = masked at hem hcl h0 hback
    have e1 : em.take (L - h - 1) = masked := by rw [hem, List.append_assoc, List.take_left' hcl]
    have e2 : (em.drop (L - h - 1)).take h = hd := by
      rw [hem, List.append_assoc, List.drop_left' hcl, List.take_left' hhl]
    have e3 : em.drop (L - 1) = [0xBC#8] := by
      rw [hem, List.drop_left']
      rw [List.length_append, hcl, hhl]
      omega
    rw [e3, if_neg (by simp), e1, e2, if_neg h0, mgf_spec hh _ (by omega), Out.bind_ok]
    simp only
    have hclr : (if 0 < ps then [0#8] ++ (xorB (Spec.Pkcs1.mgf1 H h hd (L - h - 1)) masked).drop 1
            else xorB (Spec.Pkcs1.mgf1 H h hd (L - h - 1)) masked) =
            clr ps (xorB (Spec.Pkcs1.mgf1 H h hd (L - h - 1)) masked) := rfl
    rw [hclr, hback]
    rw [if_neg, if_neg]
    · rw [hdl, show (List.replicate ps 0#8 ++ [1#8] ++ salt).drop (L - h - 1 - salt.length) = salt by
        rw [List.drop_left']; simp; omega]
      rw [hh.runHash _ (by simp [hh.len]; omega), Out.bind_ok]
      simp only
      rw [hhd, if_neg (by rw [hhl]; simp)]
      simp
    · rw [List.append_assoc, List.take_left' (by simp)]
      simp
    · rw [List.append_assoc, List.drop_left' (by simp)]
      simp

/-- What the encoder makes of a message verifies for that message, whatever the salt. -/
theorem pss_roundtrip (hh : HashOk hash H h) (m salt em : Bytes) (k : Nat) (hk : k ≠ 0) (hm : m.length < 2 ^ 60)
    (hs : h + salt.length + 2 < 2 ^ 64) (he : pssEncode hash h (some salt) m salt.length = .ok (some em)) :
    em.length = m.length ∧ pssVerify hash h m em k salt.length = .ok true := by
  by_cases hle : m.length < h + salt.length + 2
  · rw [pss_refuses_short hash h _ m _ hs hle] at he
    simp at he
  · rw [pss_encode hh m salt hm (by omega)] at he
    simp only [Out.ok.injEq, Option.some.injEq] at he
    have hl : em.length = m.length := by
      rw [← he, pss_eq, List.length_append, List.length_append, clr_length, xorB_length, mgf1_length hh, hh.len]
      · simp; omega
      · rw [mgf1_length hh, pssDb_length _ _ (by omega)]
      · rw [xorB_length, mgf1_length hh]
        · omega
        · rw [mgf1_length hh, pssDb_length _ _ (by omega)]
    refine ⟨hl, ?_⟩
    rw [pss_verify_iff hh m em k _ (by rintro rfl; simp at hle) (by omega) hk (by omega) hs]
    exact ⟨by omega, salt, rfl, by rw [hl, he]⟩

/-! ## The hashes of the library -/

/-- Hash a whole message, taking the empty result when undefined. -/
def total (hash : HashFn) (h : Nat) (m : Bytes) : Bytes :=
  match hash m false with
  | .ok d => if d.length = h then d else List.replicate h 0#8
  | .ub => List.replicate h 0#8

theorem hashOk_of (hash : HashFn) (h : Nat) (hp : 0 < h)
    (hd : ∀ m : Bytes, m.length < 2 ^ 61 → ∃ d, hash m false = .ok d ∧ d.length = h) : HashOk hash (total hash h) h where
  pos := hp
  run m hm := by
    obtain ⟨d, h1, h2⟩ := hd m hm
    rw [total, h1]
    simp [h2]
  len m := by
    rw [total]
    split
    · split
      · assumption
      · simp
    · simp

theorem sha1_defined (stale m) (hm : m.length < 2 ^ 61) : ∃ d, Sha1.hash stale m false = .ok d ∧ d.length = 20 := by
  by_cases ha : m.length % 64 ≠ 0 ∨ m = []
  · refine ⟨_, sha1_fips_partial m stale hm ha, ?_⟩
    simp [Spec.Sha.sha1, Five.words, Spec.MD.be]
  · refine ⟨_, sha1_aligned m stale hm (fun h => ha (Or.inr h)) (by by_contra h; exact ha (Or.inl h)), ?_⟩
    simp [Five.words, Spec.MD.be]

/-- SHA-256 and SHA-1, the default, will do. -/
theorem sha256_hashOk (stale) : HashOk (Sha256.hash stale) (total (Sha256.hash stale) 32) 32 :=
  hashOk_of _ _ (by decide) fun m hm => Fortuna.sha256_defined stale m hm

theorem sha1_hashOk (stale) : HashOk (Sha1.hash stale) (total (Sha1.hash stale) 20) 20 :=
  hashOk_of _ _ (by decide) fun m hm => sha1_defined stale m hm

/-- A message of 62 bytes fits into 128 bytes with SHA-256, one of 63 does not. -/
example (stale seed label) (hs : seed.length = 32) (hl : (labelOf label).length < 2 ^ 61) :
    (∃ em, apply (Sha256.hash stale) 32 (some seed) (List.replicate 62 7#8) 128 label = .ok (some em) ∧ em.length = 128 ∧
      drop (Sha256.hash stale) 32 em 128 label = .ok (some (List.replicate 62 7#8))) ∧
    apply (Sha256.hash stale) 32 (some seed) (List.replicate 63 7#8) 128 label = .ok none := by
  refine ⟨⟨_, oaep_apply (sha256_hashOk stale) seed _ 128 label hs hl (by decide) (by decide) (by decide), ?_⟩,
    oaep_refuses _ _ _ _ _ _ (by decide) (by decide)⟩
  exact oaep_roundtrip (sha256_hashOk stale) (some seed) _ _ 128 label (by simpa using hs) hl (by decide)
    (oaep_apply (sha256_hashOk stale) seed _ 128 label hs hl (by decide) (by decide) (by decide))

/-- A message of 54 bytes with a salt of 20 bytes and SHA-256. -/
example (stale salt) (hs : salt.length = 20) : ∃ em, pssEncode (Sha256.hash stale) 32 (some salt) (List.replicate 54 7#8) 20 =
      .ok (some em) ∧ pssVerify (Sha256.hash stale) 32 (List.replicate 54 7#8) em 128 20 = .ok true := by
  have h1 := pss_encode (sha256_hashOk stale) (List.replicate 54 7#8) salt (by decide) (by rw [hs]; decide)
  have h2 := pss_roundtrip (sha256_hashOk stale) _ salt _ 128 (by decide) (by decide) (by rw [hs]; decide) h1
  rw [hs] at h1 h2
  exact ⟨_, h1, h2.2⟩

/-- Buffers for which dropping is undefined, of the size of the modulus and shorter. -/
example (stale) : ∃ em : Bytes, em.length = 128 ∧ drop (Sha1.hash stale) 20 em 128 none = .ub :=
  oaep_drop_unsafe (sha1_hashOk stale) 128 none (List.replicate 20 0#8) (by decide) (by decide) (by decide) (by decide)

example (stale) : drop (Sha1.hash stale) 20 [0#8, 0#8, 0#8, 0#8, 0#8, 0#8, 0#8, 1#8] 128 none = .ub :=
  oaep_drop_short_unsafe _ _ _ _ _ (by decide) (by decide)

/-- A message of 40 bytes cannot be encoded with SHA-1 and a salt of 20 bytes; with no source of random bytes, one of 42 bytes
is undefined. -/
example (stale) : pssEncode (Sha1.hash stale) 20 none (List.replicate 40 1#8) 20 = .ok none ∧
    pssEncode (Sha1.hash stale) 20 none (List.replicate 42 1#8) 20 = .ub ∧
    pssEncode (Sha1.hash stale) 20 none (List.replicate 42 1#8) (2 ^ 64 - 1) = .ub :=
  ⟨pss_refuses_short _ _ _ _ _ (by decide) (by decide),
   pss_no_salt_unsafe (sha1_hashOk stale) _ _ (by decide) (by decide) (by decide),
   pss_salt_size_unsafe (sha1_hashOk stale) _ _ _ (by decide) (by decide) (by decide) (by decide) (by decide)⟩

end Kryptos.Oaep
