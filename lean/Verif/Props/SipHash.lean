import Verif.Model.SipHash
import Verif.Spec.SipHash
import Verif.Lemmas.Endian
import Verif.Lemmas.Hash
import Mathlib.Tactic.Ring
import Mathlib.Data.List.Induction
/-
  SipHash: conformance, verification (C32), the sum function (C33).
-/
namespace Kryptos.SipHash
open Spec.Sip Spec.MD

/-! ### Rounds -/

def V.st (s : V) : State := (s.v0, s.v1, s.v2, s.v3)

theorem rotl_eq (v : W64) (l : Nat) (h : l < 64) : rotl v l = v.rotateLeft l := by
  rw [BitVec.rotateLeft_def, Nat.mod_eq_of_lt h]
  rfl

theorem sipround_eq (s : V) : (sipround s).st = sipRound s.st := by
  obtain ⟨v0, v1, v2, v3⟩ := s
  unfold sipround sipRound V.st
  simp only [rotl_eq _ _ (show 13 < 64 by decide), rotl_eq _ _ (show 16 < 64 by decide),
    rotl_eq _ _ (show 32 < 64 by decide), rotl_eq _ _ (show 17 < 64 by decide), rotl_eq _ _ (show 21 < 64 by decide)]

theorem repeat_comm {α : Type} (f : α → α) : ∀ (n : Nat) (s : α), Nat.repeat f n (f s) = f (Nat.repeat f n s)
  | 0, _ => rfl
  | n + 1, s => congrArg f (repeat_comm f n s)

theorem rounds_eq : ∀ (n : Nat) (s : V), (rounds n s).st = Nat.repeat sipRound n s.st
  | 0, _ => rfl
  | n + 1, s => by
    rw [rounds, rounds_eq n, sipround_eq, repeat_comm]; rfl

theorem absorb_eq (c : Nat) (s : V) (m : W64) : (absorb c s m).st = compress c s.st m := by
  unfold absorb compress
  have h := rounds_eq c { s with v3 := s.v3 ^^^ m }
  show ((rounds c { s with v3 := s.v3 ^^^ m }).v0 ^^^ m, (rounds c { s with v3 := s.v3 ^^^ m }).v1,
    (rounds c { s with v3 := s.v3 ^^^ m }).v2, (rounds c { s with v3 := s.v3 ^^^ m }).v3) = _
  show _ = (match Nat.repeat sipRound c (V.st { s with v3 := s.v3 ^^^ m }) with
    | (v0, v1, v2, v3) => (v0 ^^^ m, v1, v2, v3))
  rw [← h]
  rfl

/-! ### Words -/

theorem leNat_cons (b : Byte) (l : Bytes) : leNat (b :: l) = b.toNat + 256 * leNat l := by
  unfold leNat
  rw [List.reverse_cons, Hash.beNat_append_single]
  omega

theorem leNat_append (a b : Bytes) : leNat (a ++ b) = leNat a + 256 ^ a.length * leNat b := by
  induction a with
  | nil => simp [leNat, beNat]
  | cons x a ih =>
    rw [List.cons_append, leNat_cons, leNat_cons, ih, List.length_cons, Nat.pow_succ]
    ring

theorem leNat_lt (a : Bytes) : leNat a < 256 ^ a.length := by
  induction a with
  | nil => simp [leNat, beNat]
  | cons x a ih =>
    rw [leNat_cons, List.length_cons, Nat.pow_succ]
    have := x.isLt
    omega

theorem ofNat_or_shift (a x k : Nat) (h : a < 2 ^ k) :
    BitVec.ofNat 64 (a + 2 ^ k * x) = BitVec.ofNat 64 a ||| (BitVec.ofNat 64 x <<< k) := by
  rw [Nat.add_comm, Nat.two_pow_add_eq_or_of_lt h]
  apply BitVec.eq_of_getLsbD_eq
  intro i hi
  simp only [BitVec.getLsbD_ofNat, BitVec.getLsbD_or, BitVec.getLsbD_shiftLeft, hi, decide_true, Bool.true_and,
    Nat.testBit_or, Nat.testBit_two_pow_mul]
  by_cases hik : k ≤ i
  · simp [hik, Nat.not_lt.mpr hik, Nat.sub_lt_of_lt hi, Bool.or_comm]
  · simp [hik, Nat.lt_of_not_le hik]

theorem orBytes_eq : ∀ (l : Bytes) (i : Nat) (m : W64),
    orBytes l i m = m ||| (BitVec.ofNat 64 (leNat l) <<< (i <<< 3))
  | [], i, m => by simp [orBytes, leNat, beNat]
  | b :: l, i, m => by
    rw [orBytes, orBytes_eq l, leNat_cons, show 256 = 2 ^ 8 from rfl, ofNat_or_shift _ _ _ (by simpa using b.isLt),
      BitVec.shiftLeft_or_distrib, BitVec.or_assoc]
    congr 2
    · congr 1
      apply BitVec.eq_of_toNat_eq; simp
    · rw [← BitVec.shiftLeft_add]
      congr 1
      rw [Nat.shiftLeft_eq, Nat.shiftLeft_eq]; omega

theorem orBytes_full (l : Bytes) : orBytes l 0 0 = BitVec.ofNat 64 (leNat l) := by
  rw [orBytes_eq]; simp

theorem leNat_zeros (k : Nat) : leNat (List.replicate k 0#8) = 0 := by
  unfold leNat
  rw [List.reverse_replicate, Hash.beNat_zeros]

/-- The last word. -/
theorem orBytes_last (l : Bytes) (n : Nat) (h : l.length ≤ 7) :
    orBytes l 0 (BitVec.ofNat 64 (n % 256) <<< 56) =
      BitVec.ofNat 64 (leNat (l ++ List.replicate (7 - l.length) 0#8 ++ [BitVec.ofNat 8 n])) := by
  rw [orBytes_eq, leNat_append, leNat_append, leNat_zeros, leNat_cons]
  have h7 : (l ++ List.replicate (7 - l.length) 0#8).length = 7 := by simp; omega
  have hl : leNat l < 2 ^ 56 := by
    refine Nat.lt_of_lt_of_le (leNat_lt l) ?_
    rw [show 2 ^ 56 = 256 ^ 7 by norm_num]
    exact Nat.pow_le_pow_right (by decide) h
  rw [h7, Nat.mul_zero, Nat.add_zero, show leNat [] = 0 from rfl, Nat.mul_zero, Nat.add_zero, BitVec.toNat_ofNat,
    show 256 ^ 7 = 2 ^ 56 by norm_num, ofNat_or_shift _ _ _ hl, BitVec.or_comm]
  simp

/-! ### The message -/

theorem parse_block (a m : Bytes) (h : a.length = 8) :
    leWords 64 8 (a ++ m) = BitVec.ofNat 64 (leNat a) :: leWords 64 8 m := by
  unfold leWords
  rw [Hash.chunks_append 8 (by decide) a m h]
  rfl

theorem leWords_one (a : Bytes) (h : a.length = 8) : leWords 64 8 a = [BitVec.ofNat 64 (leNat a)] := by
  have := parse_block a [] h
  rw [List.append_nil] at this
  rw [this]
  rfl

/-- The loop and the extra word when the length is a multiple of eight. -/
def finish (c size : Nat) (rem : Bytes) (s : V) : V :=
  if size % 8 = 0 then absorb c (msgLoop c size rem s) (BitVec.ofNat 64 (size % 256) <<< 56) else msgLoop c size rem s

theorem finish_eq (c size : Nat) : ∀ (rem : Bytes) (s : V), rem.length % 8 = size % 8 →
    (finish c size rem s).st =
      (leWords 64 8 (rem ++ List.replicate (7 - rem.length % 8) 0#8 ++ [BitVec.ofNat 8 size])).foldl (compress c) s.st := by
  intro rem
  induction hn : rem.length using Nat.strongRecOn generalizing rem with
  | ind n ih =>
    intro s hs
    subst hn
    unfold finish
    rw [msgLoop]
    by_cases he : rem = []
    · subst he
      rw [dif_pos rfl, if_pos (show size % 8 = 0 from hs.symm), absorb_eq]
      rw [leWords_one _ (by simp)]
      have := orBytes_last [] size (by simp)
      rw [List.length_nil] at this
      simp only [List.length_nil, Nat.zero_mod, List.foldl_cons, List.foldl_nil]
      rw [← this]
      rfl
    · rw [dif_neg he]
      have hpos := List.length_pos_iff.mpr he
      have ih' := ih (rem.drop 8).length (by rw [List.length_drop]; omega) (rem.drop 8) rfl
      unfold finish at ih'
      by_cases h8 : rem.length < 8
      · have hne : ¬ size % 8 = 0 := by omega
        rw [if_pos h8, if_neg hne, List.drop_eq_nil_of_le (by omega), msgLoop, dif_pos rfl, absorb_eq,
          List.take_of_length_le (by omega), orBytes_last _ _ (by omega), Nat.mod_eq_of_lt h8,
          leWords_one _ (by simp; omega)]
        rfl
      · rw [if_neg h8]
        have hl : (rem.drop 8).length % 8 = size % 8 := by rw [List.length_drop]; omega
        rw [ih' _ hl, absorb_eq, orBytes_full]
        have e : (rem.drop 8).length % 8 = rem.length % 8 := by rw [List.length_drop]; omega
        rw [e]
        conv => rhs; rw [← List.take_append_drop 8 rem, List.append_assoc, List.append_assoc]
        rw [parse_block (rem.take 8) _ (by rw [List.length_take]; omega), List.foldl_cons,
          List.take_append_drop, List.append_assoc]

/-! ### The key -/

theorem keyLoop_eight : ∀ (l r : Bytes) (i cw : Nat) (x y : W64), l.length + i = 8 → l ≠ [] → cw < 2 →
    keyLoop (l ++ r) [x, y] cw i =
      keyLoop r (if cw = 0 then [orBytes l i x, y] else [x, orBytes l i y]) (cw + 1) 0
  | [], r, i, cw, x, y, h, hne, hc => absurd rfl hne
  | [b], r, i, cw, x, y, h, _, hc => by
    have hi : i = 7 := by simp at h; omega
    subst hi
    rw [List.singleton_append, keyLoop]
    match cw, hc with
    | 0, _ => rfl
    | 1, _ => rfl
  | b :: b' :: l, r, i, cw, x, y, h, _, hc => by
    rw [List.cons_append, keyLoop]
    simp only [List.length_cons] at h
    have hm : (i + 1) % 8 = i + 1 := by omega
    have ih := fun x y => keyLoop_eight (b' :: l) r (i + 1) cw x y (by simp; omega) (by simp) hc
    match cw, hc with
    | 0, _ =>
      show (keyLoop (b' :: l ++ r) _ (0 + if (i + 1) % 8 % 8 = 0 then 1 else 0) ((i + 1) % 8)) = _
      rw [hm, if_neg (by omega), Nat.add_zero]
      exact ih _ _
    | 1, _ =>
      show (keyLoop (b' :: l ++ r) _ (1 + if (i + 1) % 8 % 8 = 0 then 1 else 0) ((i + 1) % 8)) = _
      rw [hm, if_neg (by omega), Nat.add_zero]
      exact ih _ _

theorem keyLoop_eq (key : Bytes) (h : key.length = 16) :
    keyLoop key [0, 0] 0 0 = .ok [BitVec.ofNat 64 (leNat (key.take 8)), BitVec.ofNat 64 (leNat (key.drop 8))] := by
  have h1 : (key.take 8).length = 8 := by rw [List.length_take]; omega
  have h2 : (key.drop 8).length = 8 := by rw [List.length_drop]; omega
  conv => lhs; rw [← List.take_append_drop 8 key]
  rw [keyLoop_eight _ _ _ _ _ _ (by omega) (by rintro e; rw [e] at h1; cases h1) (by decide)]
  have := keyLoop_eight (key.drop 8) [] 0 1 (orBytes (key.take 8) 0 0) 0 (by omega)
    (by rintro e; rw [e] at h2; cases h2) (by decide)
  rw [List.append_nil] at this
  rw [if_pos rfl, this, if_neg (by decide), orBytes_full, orBytes_full]
  rfl

/-- **The internal function is SipHash-c-d** for every message, every key of 16 bytes (of which the memory
may be longer) and every `c`, `d`. -/
theorem doSiphash_eq (m key : Bytes) (h : 16 ≤ key.length) (c d : Nat) :
    doSiphash m key 16 c d = .ok (sipHash c d (key.take 16) m) := by
  have hk : (key.take 16).length = 16 := by rw [List.length_take]; omega
  unfold doSiphash
  rw [if_neg (by omega), keyLoop_eq _ hk, Out.bind_ok]
  generalize key.take 16 = k at hk
  show Out.ok _ = _
  congr 1
  have key0 : ∀ s : V, (rounds d { s with v2 := s.v2 ^^^ 0xFF#64 }).st =
      Nat.repeat sipRound d (s.st.1, s.st.2.1, s.st.2.2.1 ^^^ 0xff#64, s.st.2.2.2) := fun s => rounds_eq d _
  have hf := finish_eq c m.length m ⟨0x736F6D6570736575#64 ^^^ BitVec.ofNat 64 (leNat (k.take 8)),
    0x646F72616E646F6D#64 ^^^ BitVec.ofNat 64 (leNat (k.drop 8)),
    0x6C7967656E657261#64 ^^^ BitVec.ofNat 64 (leNat (k.take 8)),
    0x7465646279746573#64 ^^^ BitVec.ofNat 64 (leNat (k.drop 8))⟩ rfl
  unfold finish at hf
  unfold sipHash parse
  have hx : ∀ s : V, s.v0 ^^^ s.v1 ^^^ s.v2 ^^^ s.v3 = s.st.1 ^^^ s.st.2.1 ^^^ s.st.2.2.1 ^^^ s.st.2.2.2 := fun _ => rfl
  rw [hx, key0, hf]
  unfold V.st
  simp only [BitVec.xor_comm (0x736F6D6570736575#64), BitVec.xor_comm (0x646F72616E646F6D#64),
    BitVec.xor_comm (0x6C7967656E657261#64), BitVec.xor_comm (0x7465646279746573#64)]

/-! ### Folding the key -/

theorem foldKey_length (key : Bytes) : (foldKey key).length = 16 := by simp [foldKey]

theorem foldKey_get (key : Bytes) (i : Nat) (h : i < 16) :
    (foldKey key)[i]'(by rw [foldKey_length]; exact h) =
      ((key.zipIdx.filter fun p => p.2 % 16 = i).map (·.1)).foldl (· ^^^ ·) 0#8 := by
  simp [foldKey]

theorem foldKey_snoc (key : Bytes) (b : Byte) :
    foldKey (key ++ [b]) = (foldKey key).set (key.length % 16)
      ((foldKey key)[key.length % 16]'(by rw [foldKey_length]; exact Nat.mod_lt _ (by decide)) ^^^ b) := by
  apply List.ext_getElem
  · rw [List.length_set, foldKey_length, foldKey_length]
  · intro i h1 h2
    rw [foldKey_length] at h1
    rw [foldKey_get _ _ h1, List.getElem_set, foldKey_get _ _ h1, foldKey_get _ _ (Nat.mod_lt _ (by decide)),
      List.zipIdx_append, List.filter_append, List.map_append, List.foldl_append]
    by_cases hi : key.length % 16 = i
    · simp [hi]
    · simp [hi]

theorem foldLoop_eq : ∀ (l pre : Bytes), foldLoop l (foldKey pre) (pre.length % 16) = .ok (foldKey (pre ++ l))
  | [], pre => by rw [foldLoop, List.append_nil]
  | b :: l, pre => by
    have h : pre.length % 16 < (foldKey pre).length := by rw [foldKey_length]; exact Nat.mod_lt _ (by decide)
    rw [foldLoop, rd_eq_ok h, Out.bind_ok, wr, if_pos h, Out.bind_ok, ← foldKey_snoc]
    have := foldLoop_eq l (pre ++ [b])
    rw [List.length_append, List.length_singleton, List.append_assoc] at this
    rw [Nat.mod_add_mod]
    exact this

theorem foldKey_short (key : Bytes) : key.length ≤ 16 → foldKey key = key ++ List.replicate (16 - key.length) 0 := by
  induction key using List.reverseRecOn with
  | nil => intro _; decide
  | append_singleton key b ih =>
    intro h
    rw [List.length_append, List.length_singleton] at h
    have ih := ih (by omega)
    have hm : key.length % 16 = key.length := Nat.mod_eq_of_lt (by omega)
    have z : List.replicate (16 - key.length) (0 : Byte) = 0 :: List.replicate (15 - key.length) 0 := by
      rw [show 16 - key.length = (15 - key.length) + 1 by omega, List.replicate_succ]
    have hg : (foldKey key)[key.length % 16]'(by rw [foldKey_length]; exact Nat.mod_lt _ (by decide)) = 0 := by
      simp [hm, ih]
    rw [foldKey_snoc, hg, hm, ih, z, List.set_append_right _ _ (Nat.le_refl _), Nat.sub_self, List.set_cons_zero,
      List.length_append, List.length_singleton, List.append_assoc, List.singleton_append]
    rw [show (0 : Byte) ^^^ b = b by simp, show 15 - key.length = 16 - (key.length + 1) by omega]

/-- The key in use is the given key with every byte folded into 16 (zero padded when shorter). -/
theorem expandKey_eq (key : Bytes) : expandKey key = .ok (foldKey key) := by
  unfold expandKey
  split
  · rename_i h; rw [foldKey_short key h]
  · rename_i h
    have h16 : (key.take 16).length = 16 := by rw [List.length_take]; omega
    have := foldLoop_eq (key.drop 16) (key.take 16)
    rw [foldKey_short _ (by omega), h16, List.take_append_drop] at this
    rw [← this]
    simp

/-! ### Tasks -/

/-- The tag of C32. -/
def tag (c d : Nat) (key m : Bytes) : Bytes := be 8 (sipHash c d (foldKey key) m).toNat

theorem be8_eq (v : W64) : be 8 v.toNat = putBe64 v := by
  obtain ⟨a, b, c, d, e, f, g, h, h1, h2⟩ := be64_putBe64 v
  have ht := be64_toNat a b c d e f g h
  have t1 := be32_toNat a b c d
  have t2 := be32_toNat e f g h
  rw [h2] at ht
  rw [h1]
  have e' : ∀ (x : Byte) (n : Nat), n % 256 = x.toNat → BitVec.ofNat 8 n = x := by
    intro x n h; apply BitVec.eq_of_toNat_eq; rw [BitVec.toNat_ofNat]; exact h
  show [BitVec.ofNat 8 (v.toNat / 256 ^ 7), BitVec.ofNat 8 (v.toNat / 256 ^ 6), BitVec.ofNat 8 (v.toNat / 256 ^ 5),
    BitVec.ofNat 8 (v.toNat / 256 ^ 4), BitVec.ofNat 8 (v.toNat / 256 ^ 3), BitVec.ofNat 8 (v.toNat / 256 ^ 2),
    BitVec.ofNat 8 (v.toNat / 256 ^ 1), BitVec.ofNat 8 (v.toNat / 256 ^ 0)] = _
  simp only [Nat.reducePow]
  have := a.isLt; have := b.isLt; have := c.isLt; have := d.isLt
  have := e.isLt; have := f.isLt; have := g.isLt; have := h.isLt
  rw [e' a _ (by omega), e' b _ (by omega), e' c _ (by omega), e' d _ (by omega), e' e _ (by omega), e' f _ (by omega),
    e' g _ (by omega), e' h _ (by omega)]

theorem tag_length (c d : Nat) (key m : Bytes) : (tag c d key m).length = 8 := by
  rw [tag, be8_eq]; rfl

theorem fold_do (key m : Bytes) (c d : Nat) :
    doSiphash m (foldKey key) 16 c d = .ok (sipHash c d (foldKey key) m) := by
  rw [doSiphash_eq _ _ (by rw [foldKey_length]), List.take_of_length_le (by rw [foldKey_length])]

/-- **Tagging** (C32): for every key, message, `c` and `d` the task prepends the SipHash-c-d tag. -/
theorem siphash_tags (t : Task) (key m : Bytes) (c d : Nat) (hk : t.key = some key) (ho : t.out = some m) (hm : m ≠ [])
    (ha : t.action = .encrypt) :
    siphash t c d = .ok { t with out := some (tag c d key m ++ m), result := .success } := by
  unfold siphash
  rw [hk]
  simp only [expandKey_eq, Out.bind_ok, ha, ho, hm, if_false, fold_do]
  rw [tag, be8_eq]
  rfl

/-- **Verification** (C32): it succeeds iff the leading eight bytes are the tag of what follows, and then
leaves just the message; otherwise the input is untouched. -/
theorem siphash_verifies (t : Task) (key x m : Bytes) (c d : Nat) (hk : t.key = some key) (hi : t.inp = some (x ++ m))
    (hx : x.length = 8) (hm : m ≠ []) (ha : t.action = .decrypt) :
    siphash t c d = .ok (if x = tag c d key m then { t with inp := some m, result := .success }
      else { t with result := .siphashError }) := by
  obtain ⟨w, hw⟩ := split_be64 x (by omega)
  rw [List.drop_eq_nil_of_le (by omega), List.append_nil] at hw
  have hg : getBe64 (x ++ m) 0 = .ok w := by
    have := getBe64_at [] m w
    rw [List.nil_append, ← hw] at this
    exact this
  have hd : (x ++ m).drop 8 = m := by rw [← hx]; simp
  have hl : ¬ (x ++ m).length ≤ 8 := by
    have := List.length_pos_iff.mpr hm
    rw [List.length_append]; omega
  unfold siphash
  rw [hk]
  simp only [expandKey_eq, Out.bind_ok, ha, hi, hl, if_false, hd, fold_do, hg]
  have e : sipHash c d (foldKey key) m = w ↔ x = tag c d key m := by
    rw [tag, be8_eq, hw]
    constructor
    · intro h; rw [h]
    · intro h
      have h1 := getBe64_at [] [] w
      have h2 := getBe64_at [] [] (sipHash c d (foldKey key) m)
      rw [h, h2] at h1
      exact Out.ok.inj h1
  by_cases h : x = tag c d key m
  · rw [if_pos h, if_neg (not_not_intro (e.mpr h))]; rfl
  · rw [if_neg h, if_pos (fun h' => h (e.mp h'))]; rfl

/-- Input without room for a message is refused, as are all other actions and a missing key. -/
theorem siphash_refuses (t : Task) (c d : Nat) :
    (∀ key x, t.key = some key → t.inp = some x → x.length ≤ 8 → t.action = .decrypt →
      siphash t c d = .ok { t with result := .siphashError }) ∧
    (t.key = none → siphash t c d = .ok { t with result := .keyError }) ∧
    (∀ key, t.key = some key → t.action ≠ .encrypt → t.action ≠ .decrypt →
      siphash t c d = .ok { t with result := .noSupport }) := by
  refine ⟨?_, ?_, ?_⟩
  · intro key x hk hi hl ha
    unfold siphash
    rw [hk]
    simp only [expandKey_eq, Out.bind_ok, ha, hi, hl, if_true]
    rfl
  · intro hk; unfold siphash; rw [hk]
  · intro key hk h1 h2
    unfold siphash
    rw [hk]
    simp only [expandKey_eq, Out.bind_ok]
    revert h1 h2
    cases t.action <;> intro h1 h2 <;> first | exact absurd rfl h1 | exact absurd rfl h2 | rfl

/-- What is tagged is accepted and restored. -/
theorem siphash_roundtrip (key m : Bytes) (c d : Nat) (hm : m ≠ []) :
    ∃ t1 x t2, siphash ⟨.encrypt, some key, none, some m, .nr⟩ c d = .ok t1 ∧ t1.result = .success ∧ t1.out = some x ∧
      siphash ⟨.decrypt, some key, some x, none, .nr⟩ c d = .ok t2 ∧ t2.result = .success ∧ t2.inp = some m := by
  refine ⟨_, _, _, siphash_tags _ key m c d rfl rfl hm rfl, rfl, rfl,
    siphash_verifies _ key _ m c d rfl rfl (tag_length c d key m) hm rfl, ?_, ?_⟩
  · rw [if_pos rfl]
  · rw [if_pos rfl]

/-! ### The sum function (C33) -/

/-- **Agreement for keys of 16 bytes.**  Missing: all other key sizes, for which the claim is false: see
`siphashSum_short_unsafe` and `siphashSum_long_differs`. -/
theorem siphashSum_agrees_partial (m key : Bytes) (c d : Nat) (hk : key.length = 16) (hc : c ≠ 0) (hd : d ≠ 0) :
    ∃ v, siphashSum m (some key) c d = .ok v ∧ tag c d key m = be 8 v.toNat := by
  refine ⟨sipHash c d (foldKey key) m, ?_, rfl⟩
  unfold siphashSum
  simp only [hc, hd, hk, false_or, if_false, expandKey_eq, Out.bind_ok, show ¬ (16 = 0) by decide]
  rw [doSiphash_eq _ _ (by omega), List.take_of_length_le (by omega), foldKey_short key (by omega)]
  simp [hk]

/-- **Short keys**: the function expands the key and then reads 16 bytes from the unexpanded one. -/
theorem siphashSum_short_unsafe (m key : Bytes) (c d : Nat) (h0 : key ≠ []) (hk : key.length < 16) (hc : c ≠ 0)
    (hd : d ≠ 0) : siphashSum m (some key) c d = .ub := by
  have := List.length_pos_iff.mpr h0
  unfold siphashSum
  simp only [hc, hd, false_or, show ¬ key.length = 0 by omega, if_false, expandKey_eq, Out.bind_ok]
  unfold doSiphash
  rw [if_pos hk]

/-- **Long keys**: only the first 16 bytes count. -/
theorem siphashSum_long (m key : Bytes) (c d : Nat) (hk : 16 ≤ key.length) (hc : c ≠ 0) (hd : d ≠ 0) :
    siphashSum m (some key) c d = .ok (sipHash c d (key.take 16) m) := by
  unfold siphashSum
  simp only [hc, hd, false_or, show ¬ key.length = 0 by omega, if_false, expandKey_eq, Out.bind_ok]
  exact doSiphash_eq m key hk c d

/-- So that keys with the same beginning are interchangeable for the sum but not for the task; on this key the
two functions of the library disagree. -/
theorem siphashSum_long_differs : ∃ (m key : Bytes) (v : W64), siphashSum m (some key) 2 4 = .ok v ∧
    tag 2 4 key m ≠ be 8 v.toNat := by
  obtain ⟨key, hkey⟩ : ∃ key : Bytes, key = List.replicate 17 1#8 := ⟨_, rfl⟩
  have hl : key.length = 17 := by rw [hkey]; rfl
  refine ⟨[0x61], key, _, siphashSum_long _ key 2 4 (by omega) (by decide) (by decide), ?_⟩
  intro h
  rw [tag, be8_eq, be8_eq] at h
  have h1 := getBe64_at [] [] (sipHash 2 4 (foldKey key) [0x61])
  have h2 := getBe64_at [] [] (sipHash 2 4 (key.take 16) [0x61])
  rw [h, h2] at h1
  have h := Out.ok.inj h1
  have e1 := doSiphash_eq [0x61] key (by omega) 2 4
  have e2 := fold_do key [0x61] 2 4
  rw [← h] at e2
  have e3 := e1.trans e2.symm
  rw [hkey] at e3
  exact absurd e3 (by decide +kernel)

/-- Test: the vector of the SipHash paper (appendix A). -/
example : doSiphash ((List.range 15).map (BitVec.ofNat 8)) ((List.range 16).map (BitVec.ofNat 8)) 16 2 4 =
    .ok 0xa129ca6149be45e5#64 := by decide +kernel

end Kryptos.SipHash
