import Verif.Lemmas.Camellia
import Verif.Props.Oaep
/-
  C92.  Camellia: the code computes the cipher of RFC 3713; decryption undoes encryption (part of C29).
-/
namespace Kryptos.Camellia
open Block KeyLoad

/-! ### Words of 64 bits and their halves -/

def w (p : Pair) : W64 := p.1 ++ p.2
def u (x : W64) : Pair := (Spec.Camellia.hi32 x, Spec.Camellia.lo32 x)

theorem u_w (p : Pair) : u (w p) = p := by
  obtain ⟨a, b⟩ := p
  unfold u w Spec.Camellia.hi32 Spec.Camellia.lo32
  refine Prod.ext ?_ ?_ <;>
  · apply BitVec.eq_of_getLsbD_eq
    intro i hi
    simp only [BitVec.getLsbD_extractLsb', BitVec.getLsbD_append]
    by_cases h : i < 32 <;> simp_all
theorem w_u (x : W64) : w (u x) = x := by
  unfold u w Spec.Camellia.hi32 Spec.Camellia.lo32
  apply BitVec.eq_of_getLsbD_eq
  intro i hi
  simp only [BitVec.getLsbD_extractLsb', BitVec.getLsbD_append]
  by_cases h : i < 32
  · simp [h]
  · simp [h, show i - 32 < 32 by omega, show 32 + (i - 32) = i by omega]
theorem w_xor (p q : Pair) : w (xor p q) = w p ^^^ w q := by
  unfold w xor
  rw [BitVec.xor_append]
theorem xor_u (x y : W64) : xor (u x) (u y) = u (x ^^^ y) := by
  rw [← u_w (xor (u x) (u y)), w_xor, w_u, w_u]

theorem getU8_hi (x : W64) (i : Nat) (hi : i < 4) : getU8 (u x).1 i = Spec.Camellia.byte x i := by
  unfold getU8 u Spec.Camellia.byte Spec.Camellia.hi32
  apply BitVec.eq_of_getLsbD_eq
  intro j hj
  interval_cases i <;> interval_cases j <;> simp
theorem getU8_lo (x : W64) (i : Nat) (hi : i < 4) : getU8 (u x).2 i = Spec.Camellia.byte x (4 + i) := by
  unfold getU8 u Spec.Camellia.byte Spec.Camellia.lo32
  apply BitVec.eq_of_getLsbD_eq
  intro j hj
  interval_cases i <;> interval_cases j <;> simp

theorem word_bytes (a b c d : Byte) : a.setWidth 32 <<< 24 ||| b.setWidth 32 <<< 16 ||| c.setWidth 32 <<< 8 ||| d.setWidth 32 = (a ++ b ++ c ++ d : BitVec 32) := by
  apply BitVec.eq_of_getLsbD_eq
  intro j hj
  simp only [BitVec.getLsbD_append]
  interval_cases j <;> simp

theorem append_bytes (p : W32) (e f g h : Byte) : (p ++ e ++ f ++ g ++ h : BitVec 64) = (p ++ (e ++ f ++ g ++ h : BitVec 32) : BitVec 64) := by
  apply BitVec.eq_of_getLsbD_eq
  intro j hj
  simp only [BitVec.getLsbD_append]
  by_cases h1 : j < 8
  · simp [h1, show j < 32 by omega]
  by_cases h2 : j < 16
  · simp [h1, show j - 8 < 8 by omega, show j < 32 by omega]
  by_cases h3 : j < 24
  · simp [h1, show ¬ (j - 8 < 8) by omega, show j - 8 - 8 < 8 by omega, show j < 32 by omega]
  by_cases h4 : j < 32
  · simp [h1, show ¬ (j - 8 < 8) by omega, show ¬ (j - 8 - 8 < 8) by omega, show j - 8 - 8 - 8 < 8 by omega, show j < 32 by omega]
  · simp [h1, show ¬ (j - 8 < 8) by omega, show ¬ (j - 8 - 8 < 8) by omega, show ¬ (j - 8 - 8 - 8 < 8) by omega, h4,
      show j - 8 - 8 - 8 - 8 = j - 32 by omega]

theorem u_bytes (a b c d e f g h : Byte) : u (a ++ b ++ c ++ d ++ e ++ f ++ g ++ h : BitVec 64) = ((a ++ b ++ c ++ d : BitVec 32), (e ++ f ++ g ++ h : BitVec 32)) := by
  rw [← u_w ((a ++ b ++ c ++ d : BitVec 32), (e ++ f ++ g ++ h : BitVec 32))]
  exact congrArg u (append_bytes _ e f g h)

theorem F_eq (x k : W64) : F (u x) (u k) = .ok (u (Spec.Camellia.F x k)) := by
  have e1 : (u x).1 ^^^ (u k).1 = (u (x ^^^ k)).1 := congrArg Prod.fst (xor_u x k)
  have e2 : (u x).2 ^^^ (u k).2 = (u (x ^^^ k)).2 := congrArg Prod.snd (xor_u x k)
  unfold F Spec.Camellia.F
  dsimp only
  rw [e1, e2, u_bytes]
  generalize x ^^^ k = y
  rw [getU8_hi y 0 (by decide), getU8_hi y 1 (by decide), getU8_hi y 2 (by decide), getU8_hi y 3 (by decide),
    getU8_lo y 0 (by decide), getU8_lo y 1 (by decide), getU8_lo y 2 (by decide), getU8_lo y 3 (by decide)]
  simp only [rd_s1, rd_s2, rd_s3, rd_s4, Out.bind_ok, word_bytes]

theorem rotl_one (x : W32) : rotl x 1 = x.rotateLeft 1 := rfl

theorem FL_eq (x k : W64) : FL (u x) (u k) = u (Spec.Camellia.FL x k) := (u_w _).symm
theorem FLinv_eq (x k : W64) : FLinv (u x) (u k) = u (Spec.Camellia.FLINV x k) := (u_w _).symm

theorem double_eq (k1 k2 : W64) (d : W64 × W64) : double (u k1) (u k2) (u d.1, u d.2) =
    .ok (u (Spec.Camellia.double k1 k2 d).1, u (Spec.Camellia.double k1 k2 d).2) := by
  unfold double
  rw [F_eq, Out.bind_ok, xor_u]
  dsimp only
  rw [F_eq, Out.bind_ok, xor_u]
  rfl

/-! ### Rotations of 128 bits -/

def v (x : Four 32) : BitVec 128 := w (fst x) ++ w (snd x)

theorem hi_append (a b : W64) : Spec.Camellia.hi (a ++ b) = a := by
  unfold Spec.Camellia.hi
  apply BitVec.eq_of_getLsbD_eq
  intro i hi
  simp only [BitVec.getLsbD_extractLsb', BitVec.getLsbD_append]
  simp [hi]
theorem lo_append (a b : W64) : Spec.Camellia.lo (a ++ b) = b := by
  unfold Spec.Camellia.lo
  apply BitVec.eq_of_getLsbD_eq
  intro i hi
  simp only [BitVec.getLsbD_extractLsb', BitVec.getLsbD_append]
  simp [hi]
theorem fst_eq (x : Four 32) : fst x = u (Spec.Camellia.hi (v x)) := by rw [v, hi_append, u_w]
theorem snd_eq (x : Four 32) : snd x = u (Spec.Camellia.lo (v x)) := by rw [v, lo_append, u_w]

theorem carry (x : W32) : rotl (rotl x 1 <<< 31) 1 = x >>> 31 := by
  apply BitVec.eq_of_getLsbD_eq
  intro i hi
  unfold rotl
  interval_cases i <;> simp

theorem getLsbD_shift (a b : W32) (i : Nat) (hi : i < 32) : (a <<< 1 ||| b >>> 31).getLsbD i = if i = 0 then b.getLsbD 31 else a.getLsbD (i - 1) := by
  rw [BitVec.getLsbD_or, BitVec.getLsbD_shiftLeft, BitVec.getLsbD_ushiftRight]
  by_cases h : i = 0
  · subst h; simp
  · rw [BitVec.getLsbD_of_ge b (31 + i) (by omega)]
    simp [h, hi, show ¬ (i < 1) by omega]

theorem roll_one (a b c d : W32) : v ⟨a <<< 1 ||| b >>> 31, b <<< 1 ||| c >>> 31, c <<< 1 ||| d >>> 31, d <<< 1 ||| a >>> 31⟩ =
    (v ⟨a, b, c, d⟩).rotateLeft 1 := by
  unfold v fst snd w
  dsimp only
  apply BitVec.eq_of_getLsbD_eq
  intro i hi
  rw [BitVec.getLsbD_rotateLeft]
  simp only [BitVec.getLsbD_append]
  by_cases h1 : i < 32
  · rw [if_pos (by omega), if_pos h1, getLsbD_shift _ _ _ h1]
    by_cases h0 : i = 0
    · subst h0; simp
    · simp [h0, show ¬ (i < 1) by omega, hi, show i - 1 < 64 by omega, show i - 1 < 32 by omega]
  by_cases h2 : i < 64
  · rw [if_pos (by omega), if_neg h1, getLsbD_shift _ _ _ (by omega)]
    by_cases h0 : i = 32
    · subst h0; simp
    · simp [show ¬ (i - 32 = 0) by omega, show ¬ (i < 1) by omega, hi, show i - 1 < 64 by omega, show ¬ (i - 1 < 32) by omega,
        show i - 32 - 1 = i - 1 - 32 by omega]
  by_cases h3 : i < 96
  · rw [if_neg (by omega), if_pos (by omega), getLsbD_shift _ _ _ (by omega)]
    by_cases h0 : i = 64
    · subst h0; simp
    · simp [show ¬ (i - 64 = 0) by omega, show ¬ (i < 1) by omega, hi, show ¬ (i - 1 < 64) by omega, show i - 1 - 64 < 32 by omega,
        show i - 64 - 1 = i - 1 - 64 by omega]
  · rw [if_neg (by omega), if_neg (by omega), getLsbD_shift _ _ _ (by omega)]
    by_cases h0 : i = 96
    · subst h0; simp
    · simp [show ¬ (i - 64 - 32 = 0) by omega, show ¬ (i < 1) by omega, hi, show ¬ (i - 1 < 64) by omega, show ¬ (i - 1 - 64 < 32) by omega,
        show i - 64 - 32 - 1 = i - 1 - 64 - 32 by omega]

theorem rot_add (x : BitVec 128) (s : Nat) (hs : s + 1 < 128) : (x.rotateLeft 1).rotateLeft s = x.rotateLeft (s + 1) := by
  apply BitVec.eq_of_getLsbD_eq
  intro i hi
  rw [BitVec.getLsbD_rotateLeft, BitVec.getLsbD_rotateLeft, BitVec.getLsbD_rotateLeft, BitVec.getLsbD_rotateLeft, Nat.mod_eq_of_lt hs,
    Nat.mod_eq_of_lt (show s < 128 by omega), Nat.mod_eq_of_lt (show 1 < 128 by omega)]
  by_cases h1 : i < s
  · simp [h1, show i < s + 1 by omega, show ¬ (128 - s + i < 1) by omega, show 128 - s + i < 128 by omega, show 128 - s + i - 1 = 128 - (s + 1) + i by omega]
  by_cases h2 : i = s
  · subst h2; simp [hi, show 127 - i + i = 127 by omega]
  · simp [h1, hi, show ¬ (i < s + 1) by omega, show ¬ (i - s < 1) by omega, show i - s < 128 by omega, show i - s - 1 = i - (s + 1) by omega]

theorem roll_eq : ∀ (s : Nat) (x : Four 32), s < 128 → v (roll128b x s) = (v x).rotateLeft s
  | 0, x, _ => by
    rw [roll128b]
    apply BitVec.eq_of_getLsbD_eq
    intro i hi
    rw [BitVec.getLsbD_rotateLeft]
    simp [hi]
  | s + 1, x, h => by
    unfold roll128b
    dsimp only
    rw [roll_eq s _ (by omega), ← rot_add _ s h, carry, carry, carry, carry, roll_one]

theorem fst_roll (x : Four 32) (s : Nat) (h : s < 128) : fst (roll128b x s) = u (Spec.Camellia.hi ((v x).rotateLeft s)) := by
  rw [fst_eq, roll_eq s x h]
theorem snd_roll (x : Four 32) (s : Nat) (h : s < 128) : snd (roll128b x s) = u (Spec.Camellia.lo ((v x).rotateLeft s)) := by
  rw [snd_eq, roll_eq s x h]

/-! ### The key schedule -/

theorem v_xor (x y : Four 32) : Spec.Camellia.hi (v x ^^^ v y) = Spec.Camellia.hi (v x) ^^^ Spec.Camellia.hi (v y) ∧
    Spec.Camellia.lo (v x ^^^ v y) = Spec.Camellia.lo (v x) ^^^ Spec.Camellia.lo (v y) := by
  unfold Spec.Camellia.hi Spec.Camellia.lo
  exact ⟨BitVec.extractLsb'_xor, BitVec.extractLsb'_xor⟩

def four (x : BitVec 128) : Four 32 := ⟨(u (Spec.Camellia.hi x)).1, (u (Spec.Camellia.hi x)).2, (u (Spec.Camellia.lo x)).1, (u (Spec.Camellia.lo x)).2⟩

theorem v_four (a b : W64) : v ⟨(u a).1, (u a).2, (u b).1, (u b).2⟩ = a ++ b := by
  unfold v fst snd
  rw [show ((u a).1, (u a).2) = u a from rfl, show ((u b).1, (u b).2) = u b from rfl, w_u, w_u]

theorem sigma_eq : sigma1 = u Spec.Camellia.sigma1 ∧ sigma2 = u Spec.Camellia.sigma2 ∧ sigma3 = u Spec.Camellia.sigma3 ∧ sigma4 = u Spec.Camellia.sigma4 ∧
    sigma5 = u Spec.Camellia.sigma5 ∧ sigma6 = u Spec.Camellia.sigma6 := by decide

theorem keyA_eq (KL KR : Four 32) : ∃ x, keyA KL KR = .ok x ∧ v x = Spec.Camellia.KA (v KL) (v KR) := by
  obtain ⟨h1, h2, h3, h4, _, _⟩ := sigma_eq
  unfold keyA
  rw [h1, h2, h3, h4, fst_eq KL, fst_eq KR, snd_eq KL, snd_eq KR, xor_u, xor_u, ← (v_xor KL KR).1, ← (v_xor KL KR).2, double_eq _ _ (_, _), Out.bind_ok, xor_u, xor_u,
    double_eq _ _ (_, _), Out.bind_ok]
  exact ⟨_, rfl, v_four _ _⟩

theorem keyB_eq (KL KA KR : Four 32) (h : v KA = Spec.Camellia.KA (v KL) (v KR)) : ∃ x, keyB KA KR = .ok x ∧ v x = Spec.Camellia.KB (v KL) (v KR) := by
  obtain ⟨_, _, _, _, h5, h6⟩ := sigma_eq
  unfold keyB
  rw [h5, h6, fst_eq KA, fst_eq KR, snd_eq KA, snd_eq KR, xor_u, xor_u, ← (v_xor KA KR).1, ← (v_xor KA KR).2, double_eq _ _ (_, _), Out.bind_ok, h]
  exact ⟨_, rfl, v_four _ _⟩

/-- The subkeys of the standard as the code keeps them. -/
def keep (s : Spec.Camellia.Subkeys) : Subkeys := ⟨s.k.map u, s.ke.map u, [u s.kw1, u s.kw2, u s.kw3, u s.kw4]⟩

/-- Four words of a list. -/
def fourOf (K : List W32) : Four 32 := ⟨K.getD 0 0, K.getD 1 0, K.getD 2 0, K.getD 3 0⟩

theorem rot_zero (x : BitVec 128) : x.rotateLeft 0 = x := by
  apply BitVec.eq_of_getLsbD_eq
  intro i hi
  rw [BitVec.getLsbD_rotateLeft]
  simp [hi]

theorem subkeys128_eq (KL KA : Four 32) : subkeys128 KL KA = keep
    { kw1 := Spec.Camellia.hi (v KL), kw2 := Spec.Camellia.lo (v KL), kw3 := Spec.Camellia.hi ((v KA).rotateLeft 111),
      kw4 := Spec.Camellia.lo ((v KA).rotateLeft 111),
      k := Spec.Camellia.both (v KA) 0 ++ Spec.Camellia.both (v KL) 15 ++ Spec.Camellia.both (v KA) 15 ++ Spec.Camellia.both (v KL) 45 ++
        [Spec.Camellia.hi ((v KA).rotateLeft 45), Spec.Camellia.lo ((v KL).rotateLeft 60)] ++ Spec.Camellia.both (v KA) 60 ++ Spec.Camellia.both (v KL) 94 ++
        Spec.Camellia.both (v KA) 94 ++ Spec.Camellia.both (v KL) 111,
      ke := Spec.Camellia.both (v KA) 30 ++ Spec.Camellia.both (v KL) 77 } := by
  unfold subkeys128 Spec.Camellia.both keep
  simp only [fst_roll _ _ (show 15 < 128 by decide), fst_roll _ _ (show 111 < 128 by decide), fst_roll _ _ (show 45 < 128 by decide),
    fst_roll _ _ (show 60 < 128 by decide), fst_roll _ _ (show 94 < 128 by decide), fst_roll _ _ (show 30 < 128 by decide), fst_roll _ _ (show 77 < 128 by decide),
    snd_roll _ _ (show 15 < 128 by decide), snd_roll _ _ (show 111 < 128 by decide), snd_roll _ _ (show 45 < 128 by decide),
    snd_roll _ _ (show 60 < 128 by decide), snd_roll _ _ (show 94 < 128 by decide), snd_roll _ _ (show 30 < 128 by decide), snd_roll _ _ (show 77 < 128 by decide)]
  rw [rot_zero, fst_eq KA, snd_eq KA, fst_eq KL, snd_eq KL]
  rfl

theorem keyexp128_eq (key : Bytes) : keyexp128 key = .ok (keep (Spec.Camellia.schedule128 (v (fourOf (ldUserKey 4 4 key))))) := by
  have hl : (ldUserKey 4 4 key).length = 4 := length_ldUserKey 4 4 key
  unfold keyexp128
  generalize ldUserKey 4 4 key = K at hl ⊢
  dsimp only
  rw [rd_getD 0 (show 0 < K.length by omega), rd_getD 0 (show 1 < K.length by omega), rd_getD 0 (show 2 < K.length by omega),
    rd_getD 0 (show 3 < K.length by omega)]
  simp only [Out.bind_ok]
  change (keyA (fourOf K) ⟨0, 0, 0, 0⟩).bind (fun KA => .ok (subkeys128 (fourOf K) KA)) = _
  generalize fourOf K = KL
  obtain ⟨KA, e, hv⟩ := keyA_eq KL ⟨0, 0, 0, 0⟩
  rw [show v ⟨0, 0, 0, 0⟩ = 0 by decide] at hv
  rw [e]
  change Out.ok (subkeys128 KL KA) = _
  rw [subkeys128_eq, hv]
  rfl


theorem subkeys256_eq (KL KR KA KB : Four 32) : subkeys256 KL KR KA KB = keep
    { kw1 := Spec.Camellia.hi (v KL), kw2 := Spec.Camellia.lo (v KL), kw3 := Spec.Camellia.hi ((v KB).rotateLeft 111),
      kw4 := Spec.Camellia.lo ((v KB).rotateLeft 111),
      k := Spec.Camellia.both (v KB) 0 ++ Spec.Camellia.both (v KR) 15 ++ Spec.Camellia.both (v KA) 15 ++ Spec.Camellia.both (v KB) 30 ++
        Spec.Camellia.both (v KL) 45 ++ Spec.Camellia.both (v KA) 45 ++ Spec.Camellia.both (v KR) 60 ++ Spec.Camellia.both (v KB) 60 ++
        Spec.Camellia.both (v KL) 77 ++ Spec.Camellia.both (v KR) 94 ++ Spec.Camellia.both (v KA) 94 ++ Spec.Camellia.both (v KL) 111,
      ke := Spec.Camellia.both (v KR) 30 ++ Spec.Camellia.both (v KL) 60 ++ Spec.Camellia.both (v KA) 77 } := by
  unfold subkeys256 Spec.Camellia.both keep
  simp only [fst_roll _ _ (show 15 < 128 by decide), fst_roll _ _ (show 111 < 128 by decide), fst_roll _ _ (show 45 < 128 by decide),
    fst_roll _ _ (show 60 < 128 by decide), fst_roll _ _ (show 94 < 128 by decide), fst_roll _ _ (show 30 < 128 by decide), fst_roll _ _ (show 77 < 128 by decide),
    snd_roll _ _ (show 15 < 128 by decide), snd_roll _ _ (show 111 < 128 by decide), snd_roll _ _ (show 45 < 128 by decide),
    snd_roll _ _ (show 60 < 128 by decide), snd_roll _ _ (show 94 < 128 by decide), snd_roll _ _ (show 30 < 128 by decide), snd_roll _ _ (show 77 < 128 by decide)]
  rw [rot_zero, fst_eq KB, snd_eq KB, fst_eq KL, snd_eq KL]
  rfl

theorem keyexp256_eq (size : KeySize) (key : Bytes) (KL KR : Four 32) (h : halves size key = .ok (KL, KR)) :
    keyexp256 size key = .ok (keep (Spec.Camellia.schedule256 (v KL) (v KR))) := by
  unfold keyexp256
  obtain ⟨KA, ea, hA⟩ := keyA_eq KL KR
  obtain ⟨KB, eb, hB⟩ := keyB_eq KL KA KR hA
  rw [h, Out.bind_ok]
  dsimp only
  rw [ea, Out.bind_ok, eb, Out.bind_ok, subkeys256_eq, hA, hB]
  rfl

/-- The key of the standard, of the bytes of the loaded words. -/
def fourOf' (K : List W32) (size : KeySize) : Four 32 :=
  match size with
  | .c192 => ⟨K.getD 4 0, K.getD 5 0, ~~~ K.getD 4 0, ~~~ K.getD 5 0⟩
  | .c256 => ⟨K.getD 4 0, K.getD 5 0, K.getD 6 0, K.getD 7 0⟩

def nWords : KeySize → Nat
  | .c192 => 6
  | .c256 => 8

theorem halves_eq (size : KeySize) (key : Bytes) :
    halves size key = .ok (fourOf (ldUserKey 4 (nWords size) key), fourOf' (ldUserKey 4 (nWords size) key) size) := by
  have hl : (ldUserKey 4 (nWords size) key).length = nWords size := length_ldUserKey 4 _ key
  cases size <;>
  · unfold halves
    dsimp only [nWords] at hl ⊢
    generalize ldUserKey 4 _ key = K at hl ⊢
    simp only [rd_getD 0 (show 0 < K.length by omega), rd_getD 0 (show 1 < K.length by omega), rd_getD 0 (show 2 < K.length by omega),
      rd_getD 0 (show 3 < K.length by omega), rd_getD 0 (show 4 < K.length by omega), rd_getD 0 (show 5 < K.length by omega), Out.bind_ok]
    first
    | rfl
    | simp only [rd_getD 0 (show 6 < K.length by omega), rd_getD 0 (show 7 < K.length by omega), Out.bind_ok]
      rfl

/-! ### Blocks -/

theorem rd_map_u (l : List W64) (i : Nat) (h : i < l.length) : rd (l.map u) i = .ok (u (l.getD i 0)) := by
  apply rd_of_some
  rw [List.getElem?_map, List.getElem?_eq_getElem h, List.getD_eq_getElem?_getD, List.getElem?_eq_getElem h]
  rfl

def uu (d : W64 × W64) : Pair × Pair := (u d.1, u d.2)

theorem six_eq (s : Spec.Camellia.Subkeys) (k1 k2 k3 k4 k5 k6 : W64) (i1 i2 i3 i4 i5 i6 : Nat) (d : W64 × W64)
    (h1 : s.k[i1]? = some k1) (h2 : s.k[i2]? = some k2) (h3 : s.k[i3]? = some k3) (h4 : s.k[i4]? = some k4) (h5 : s.k[i5]? = some k5) (h6 : s.k[i6]? = some k6) :
    six (keep s) i1 i2 i3 i4 i5 i6 (uu d) = .ok (uu (Spec.Camellia.double k5 k6 (Spec.Camellia.double k3 k4 (Spec.Camellia.double k1 k2 d)))) := by
  have r : ∀ i k, s.k[i]? = some k → rd (keep s).k i = .ok (u k) := fun i k h => rd_of_some (by rw [keep, List.getElem?_map, h]; rfl)
  unfold six
  rw [r _ _ h1, r _ _ h2, r _ _ h3, r _ _ h4, r _ _ h5, r _ _ h6]
  simp only [Out.bind_ok]
  unfold uu
  rw [double_eq, Out.bind_ok, double_eq, Out.bind_ok, double_eq]

theorem layer_eq (s : Spec.Camellia.Subkeys) (k1 k2 : W64) (i j : Nat) (d : W64 × W64) (h1 : s.ke[i]? = some k1) (h2 : s.ke[j]? = some k2) :
    layer (keep s) i j (uu d) = .ok (uu (Spec.Camellia.FL d.1 k1, Spec.Camellia.FLINV d.2 k2)) := by
  have r : ∀ i k, s.ke[i]? = some k → rd (keep s).ke i = .ok (u k) := fun i k h => rd_of_some (by rw [keep, List.getElem?_map, h]; rfl)
  unfold layer uu
  rw [r _ _ h1, r _ _ h2, Out.bind_ok, Out.bind_ok, FL_eq, FLinv_eq]

/-- Sixteen bytes from a number of 128 bits. -/
def bytes (x : BitVec 128) : Bytes :=
  putBe32 (u (Spec.Camellia.hi x)).1 ++ (putBe32 (u (Spec.Camellia.hi x)).2 ++ (putBe32 (u (Spec.Camellia.lo x)).1 ++ putBe32 (u (Spec.Camellia.lo x)).2))

theorem load_eq (s : Spec.Camellia.Subkeys) (k1 k2 : W64) (i j : Nat) (x : BitVec 128) (h1 : (keep s).kw[i]? = some (u k1)) (h2 : (keep s).kw[j]? = some (u k2)) :
    load (keep s) i j (bytes x) = .ok (uu (Spec.Camellia.hi x ^^^ k1, Spec.Camellia.lo x ^^^ k2)) := by
  unfold load bytes
  rw [getBe32_0, getBe32_4, getBe32_8, getBe32_12, rd_of_some h1, rd_of_some h2]
  simp only [Out.bind_ok]
  exact congrArg Out.ok (Prod.ext (xor_u _ _) (xor_u _ _))

theorem store_eq (s : Spec.Camellia.Subkeys) (k1 k2 : W64) (i j : Nat) (d : W64 × W64) (h1 : (keep s).kw[i]? = some (u k1)) (h2 : (keep s).kw[j]? = some (u k2)) :
    store (keep s) i j (uu d) = .ok (bytes ((d.2 ^^^ k2) ++ (d.1 ^^^ k1))) := by
  unfold store uu bytes
  rw [rd_of_some h1, rd_of_some h2, Out.bind_ok, Out.bind_ok, xor_u, xor_u, hi_append, lo_append]

theorem list18 (l : List W64) (h : l.length = 18) : ∃ a b c d e f g h i j k m n o p q r s, l = [a, b, c, d, e, f, g, h, i, j, k, m, n, o, p, q, r, s] := by
  match l, h with
  | [a, b, c, d, e, f, g, h, i, j, k, m, n, o, p, q, r, s], _ => exact ⟨_, _, _, _, _, _, _, _, _, _, _, _, _, _, _, _, _, _, rfl⟩

theorem list24 (l : List W64) (h : l.length = 24) : ∃ a b c d e f g h i j k m n o p q r s t v w x y z, l = [a, b, c, d, e, f, g, h, i, j, k, m, n, o, p, q, r, s, t, v, w, x, y, z] := by
  match l, h with
  | [a, b, c, d, e, f, g, h, i, j, k, m, n, o, p, q, r, s, t, v, w, x, y, z], _ => exact ⟨_, _, _, _, _, _, _, _, _, _, _, _, _, _, _, _, _, _, _, _, _, _, _, _, rfl⟩

theorem encBlock128_eq (s : Spec.Camellia.Subkeys) (hk : s.k.length = 18) (he : s.ke.length = 4) (x : BitVec 128) :
    encBlock128 (keep s) (bytes x) = .ok (bytes (Spec.Camellia.crypt s x)) := by
  obtain ⟨kw1, kw2, kw3, kw4, k, ke⟩ := s
  obtain ⟨k0, k1, k2, k3, k4, k5, k6, k7, k8, k9, k10, k11, k12, k13, k14, k15, k16, k17, rfl⟩ := list18 k hk
  match ke, he with
  | [e0, e1, e2, e3], _ =>
    obtain ⟨s, hs⟩ : ∃ s : Spec.Camellia.Subkeys, s = ⟨kw1, kw2, kw3, kw4, [k0, k1, k2, k3, k4, k5, k6, k7, k8, k9, k10, k11, k12, k13, k14, k15, k16, k17], [e0, e1, e2, e3]⟩ := ⟨_, rfl⟩
    rw [← hs]
    unfold encBlock128
    rw [load_eq s _ _ 0 1 x (show (keep s).kw[0]? = some (u kw1) by rw [hs]; rfl) (show (keep s).kw[1]? = some (u kw2) by rw [hs]; rfl), Out.bind_ok,
      six_eq s _ _ _ _ _ _ 0 1 2 3 4 5 _ (show s.k[0]? = some k0 by rw [hs]; rfl) (show s.k[1]? = some k1 by rw [hs]; rfl) (show s.k[2]? = some k2 by rw [hs]; rfl) (show s.k[3]? = some k3 by rw [hs]; rfl) (show s.k[4]? = some k4 by rw [hs]; rfl) (show s.k[5]? = some k5 by rw [hs]; rfl), Out.bind_ok,
      layer_eq s _ _ 0 1 _ (show s.ke[0]? = some e0 by rw [hs]; rfl) (show s.ke[1]? = some e1 by rw [hs]; rfl), Out.bind_ok,
      six_eq s _ _ _ _ _ _ 6 7 8 9 10 11 _ (show s.k[6]? = some k6 by rw [hs]; rfl) (show s.k[7]? = some k7 by rw [hs]; rfl) (show s.k[8]? = some k8 by rw [hs]; rfl) (show s.k[9]? = some k9 by rw [hs]; rfl) (show s.k[10]? = some k10 by rw [hs]; rfl) (show s.k[11]? = some k11 by rw [hs]; rfl), Out.bind_ok,
      layer_eq s _ _ 2 3 _ (show s.ke[2]? = some e2 by rw [hs]; rfl) (show s.ke[3]? = some e3 by rw [hs]; rfl), Out.bind_ok,
      six_eq s _ _ _ _ _ _ 12 13 14 15 16 17 _ (show s.k[12]? = some k12 by rw [hs]; rfl) (show s.k[13]? = some k13 by rw [hs]; rfl) (show s.k[14]? = some k14 by rw [hs]; rfl) (show s.k[15]? = some k15 by rw [hs]; rfl) (show s.k[16]? = some k16 by rw [hs]; rfl) (show s.k[17]? = some k17 by rw [hs]; rfl), Out.bind_ok,
      store_eq s _ _ 3 2 _ (show (keep s).kw[3]? = some (u kw4) by rw [hs]; rfl) (show (keep s).kw[2]? = some (u kw3) by rw [hs]; rfl), hs]
    rfl

theorem decBlock128_eq (s : Spec.Camellia.Subkeys) (hk : s.k.length = 18) (he : s.ke.length = 4) (x : BitVec 128) :
    decBlock128 (keep s) (bytes x) = .ok (bytes (Spec.Camellia.crypt (Spec.Camellia.reverse s) x)) := by
  obtain ⟨kw1, kw2, kw3, kw4, k, ke⟩ := s
  obtain ⟨k0, k1, k2, k3, k4, k5, k6, k7, k8, k9, k10, k11, k12, k13, k14, k15, k16, k17, rfl⟩ := list18 k hk
  match ke, he with
  | [e0, e1, e2, e3], _ =>
    obtain ⟨s, hs⟩ : ∃ s : Spec.Camellia.Subkeys, s = ⟨kw1, kw2, kw3, kw4, [k0, k1, k2, k3, k4, k5, k6, k7, k8, k9, k10, k11, k12, k13, k14, k15, k16, k17], [e0, e1, e2, e3]⟩ := ⟨_, rfl⟩
    rw [← hs]
    unfold decBlock128
    rw [load_eq s _ _ 2 3 x (show (keep s).kw[2]? = some (u kw3) by rw [hs]; rfl) (show (keep s).kw[3]? = some (u kw4) by rw [hs]; rfl), Out.bind_ok,
      six_eq s _ _ _ _ _ _ 17 16 15 14 13 12 _ (show s.k[17]? = some k17 by rw [hs]; rfl) (show s.k[16]? = some k16 by rw [hs]; rfl) (show s.k[15]? = some k15 by rw [hs]; rfl) (show s.k[14]? = some k14 by rw [hs]; rfl) (show s.k[13]? = some k13 by rw [hs]; rfl) (show s.k[12]? = some k12 by rw [hs]; rfl), Out.bind_ok,
      layer_eq s _ _ 3 2 _ (show s.ke[3]? = some e3 by rw [hs]; rfl) (show s.ke[2]? = some e2 by rw [hs]; rfl), Out.bind_ok,
      six_eq s _ _ _ _ _ _ 11 10 9 8 7 6 _ (show s.k[11]? = some k11 by rw [hs]; rfl) (show s.k[10]? = some k10 by rw [hs]; rfl) (show s.k[9]? = some k9 by rw [hs]; rfl) (show s.k[8]? = some k8 by rw [hs]; rfl) (show s.k[7]? = some k7 by rw [hs]; rfl) (show s.k[6]? = some k6 by rw [hs]; rfl), Out.bind_ok,
      layer_eq s _ _ 1 0 _ (show s.ke[1]? = some e1 by rw [hs]; rfl) (show s.ke[0]? = some e0 by rw [hs]; rfl), Out.bind_ok,
      six_eq s _ _ _ _ _ _ 5 4 3 2 1 0 _ (show s.k[5]? = some k5 by rw [hs]; rfl) (show s.k[4]? = some k4 by rw [hs]; rfl) (show s.k[3]? = some k3 by rw [hs]; rfl) (show s.k[2]? = some k2 by rw [hs]; rfl) (show s.k[1]? = some k1 by rw [hs]; rfl) (show s.k[0]? = some k0 by rw [hs]; rfl), Out.bind_ok,
      store_eq s _ _ 1 0 _ (show (keep s).kw[1]? = some (u kw2) by rw [hs]; rfl) (show (keep s).kw[0]? = some (u kw1) by rw [hs]; rfl), hs]
    rfl

theorem encBlock256_eq (s : Spec.Camellia.Subkeys) (hk : s.k.length = 24) (he : s.ke.length = 6) (x : BitVec 128) :
    encBlock256 (keep s) (bytes x) = .ok (bytes (Spec.Camellia.crypt s x)) := by
  obtain ⟨kw1, kw2, kw3, kw4, k, ke⟩ := s
  obtain ⟨k0, k1, k2, k3, k4, k5, k6, k7, k8, k9, k10, k11, k12, k13, k14, k15, k16, k17, k18, k19, k20, k21, k22, k23, rfl⟩ := list24 k hk
  match ke, he with
  | [e0, e1, e2, e3, e4, e5], _ =>
    obtain ⟨s, hs⟩ : ∃ s : Spec.Camellia.Subkeys, s = ⟨kw1, kw2, kw3, kw4, [k0, k1, k2, k3, k4, k5, k6, k7, k8, k9, k10, k11, k12, k13, k14, k15, k16, k17, k18, k19, k20, k21, k22, k23], [e0, e1, e2, e3, e4, e5]⟩ := ⟨_, rfl⟩
    rw [← hs]
    unfold encBlock256
    rw [load_eq s _ _ 0 1 x (show (keep s).kw[0]? = some (u kw1) by rw [hs]; rfl) (show (keep s).kw[1]? = some (u kw2) by rw [hs]; rfl), Out.bind_ok,
      six_eq s _ _ _ _ _ _ 0 1 2 3 4 5 _ (show s.k[0]? = some k0 by rw [hs]; rfl) (show s.k[1]? = some k1 by rw [hs]; rfl) (show s.k[2]? = some k2 by rw [hs]; rfl) (show s.k[3]? = some k3 by rw [hs]; rfl) (show s.k[4]? = some k4 by rw [hs]; rfl) (show s.k[5]? = some k5 by rw [hs]; rfl), Out.bind_ok,
      layer_eq s _ _ 0 1 _ (show s.ke[0]? = some e0 by rw [hs]; rfl) (show s.ke[1]? = some e1 by rw [hs]; rfl), Out.bind_ok,
      six_eq s _ _ _ _ _ _ 6 7 8 9 10 11 _ (show s.k[6]? = some k6 by rw [hs]; rfl) (show s.k[7]? = some k7 by rw [hs]; rfl) (show s.k[8]? = some k8 by rw [hs]; rfl) (show s.k[9]? = some k9 by rw [hs]; rfl) (show s.k[10]? = some k10 by rw [hs]; rfl) (show s.k[11]? = some k11 by rw [hs]; rfl), Out.bind_ok,
      layer_eq s _ _ 2 3 _ (show s.ke[2]? = some e2 by rw [hs]; rfl) (show s.ke[3]? = some e3 by rw [hs]; rfl), Out.bind_ok,
      six_eq s _ _ _ _ _ _ 12 13 14 15 16 17 _ (show s.k[12]? = some k12 by rw [hs]; rfl) (show s.k[13]? = some k13 by rw [hs]; rfl) (show s.k[14]? = some k14 by rw [hs]; rfl) (show s.k[15]? = some k15 by rw [hs]; rfl) (show s.k[16]? = some k16 by rw [hs]; rfl) (show s.k[17]? = some k17 by rw [hs]; rfl), Out.bind_ok,
      layer_eq s _ _ 4 5 _ (show s.ke[4]? = some e4 by rw [hs]; rfl) (show s.ke[5]? = some e5 by rw [hs]; rfl), Out.bind_ok,
      six_eq s _ _ _ _ _ _ 18 19 20 21 22 23 _ (show s.k[18]? = some k18 by rw [hs]; rfl) (show s.k[19]? = some k19 by rw [hs]; rfl) (show s.k[20]? = some k20 by rw [hs]; rfl) (show s.k[21]? = some k21 by rw [hs]; rfl) (show s.k[22]? = some k22 by rw [hs]; rfl) (show s.k[23]? = some k23 by rw [hs]; rfl), Out.bind_ok,
      store_eq s _ _ 3 2 _ (show (keep s).kw[3]? = some (u kw4) by rw [hs]; rfl) (show (keep s).kw[2]? = some (u kw3) by rw [hs]; rfl), hs]
    rfl

theorem decBlock256_eq (s : Spec.Camellia.Subkeys) (hk : s.k.length = 24) (he : s.ke.length = 6) (x : BitVec 128) :
    decBlock256 (keep s) (bytes x) = .ok (bytes (Spec.Camellia.crypt (Spec.Camellia.reverse s) x)) := by
  obtain ⟨kw1, kw2, kw3, kw4, k, ke⟩ := s
  obtain ⟨k0, k1, k2, k3, k4, k5, k6, k7, k8, k9, k10, k11, k12, k13, k14, k15, k16, k17, k18, k19, k20, k21, k22, k23, rfl⟩ := list24 k hk
  match ke, he with
  | [e0, e1, e2, e3, e4, e5], _ =>
    obtain ⟨s, hs⟩ : ∃ s : Spec.Camellia.Subkeys, s = ⟨kw1, kw2, kw3, kw4, [k0, k1, k2, k3, k4, k5, k6, k7, k8, k9, k10, k11, k12, k13, k14, k15, k16, k17, k18, k19, k20, k21, k22, k23], [e0, e1, e2, e3, e4, e5]⟩ := ⟨_, rfl⟩
    rw [← hs]
    unfold decBlock256
    rw [load_eq s _ _ 2 3 x (show (keep s).kw[2]? = some (u kw3) by rw [hs]; rfl) (show (keep s).kw[3]? = some (u kw4) by rw [hs]; rfl), Out.bind_ok,
      six_eq s _ _ _ _ _ _ 23 22 21 20 19 18 _ (show s.k[23]? = some k23 by rw [hs]; rfl) (show s.k[22]? = some k22 by rw [hs]; rfl) (show s.k[21]? = some k21 by rw [hs]; rfl) (show s.k[20]? = some k20 by rw [hs]; rfl) (show s.k[19]? = some k19 by rw [hs]; rfl) (show s.k[18]? = some k18 by rw [hs]; rfl), Out.bind_ok,
      layer_eq s _ _ 5 4 _ (show s.ke[5]? = some e5 by rw [hs]; rfl) (show s.ke[4]? = some e4 by rw [hs]; rfl), Out.bind_ok,
      six_eq s _ _ _ _ _ _ 17 16 15 14 13 12 _ (show s.k[17]? = some k17 by rw [hs]; rfl) (show s.k[16]? = some k16 by rw [hs]; rfl) (show s.k[15]? = some k15 by rw [hs]; rfl) (show s.k[14]? = some k14 by rw [hs]; rfl) (show s.k[13]? = some k13 by rw [hs]; rfl) (show s.k[12]? = some k12 by rw [hs]; rfl), Out.bind_ok,
      layer_eq s _ _ 3 2 _ (show s.ke[3]? = some e3 by rw [hs]; rfl) (show s.ke[2]? = some e2 by rw [hs]; rfl), Out.bind_ok,
      six_eq s _ _ _ _ _ _ 11 10 9 8 7 6 _ (show s.k[11]? = some k11 by rw [hs]; rfl) (show s.k[10]? = some k10 by rw [hs]; rfl) (show s.k[9]? = some k9 by rw [hs]; rfl) (show s.k[8]? = some k8 by rw [hs]; rfl) (show s.k[7]? = some k7 by rw [hs]; rfl) (show s.k[6]? = some k6 by rw [hs]; rfl), Out.bind_ok,
      layer_eq s _ _ 1 0 _ (show s.ke[1]? = some e1 by rw [hs]; rfl) (show s.ke[0]? = some e0 by rw [hs]; rfl), Out.bind_ok,
      six_eq s _ _ _ _ _ _ 5 4 3 2 1 0 _ (show s.k[5]? = some k5 by rw [hs]; rfl) (show s.k[4]? = some k4 by rw [hs]; rfl) (show s.k[3]? = some k3 by rw [hs]; rfl) (show s.k[2]? = some k2 by rw [hs]; rfl) (show s.k[1]? = some k1 by rw [hs]; rfl) (show s.k[0]? = some k0 by rw [hs]; rfl), Out.bind_ok,
      store_eq s _ _ 1 0 _ (show (keep s).kw[1]? = some (u kw2) by rw [hs]; rfl) (show (keep s).kw[0]? = some (u kw1) by rw [hs]; rfl), hs]
    rfl

/-! ### Decryption -/

theorem hi_lo (x : BitVec 128) : Spec.Camellia.hi x ++ Spec.Camellia.lo x = x := by
  unfold Spec.Camellia.hi Spec.Camellia.lo
  apply BitVec.eq_of_getLsbD_eq
  intro i hi
  simp only [BitVec.getLsbD_extractLsb', BitVec.getLsbD_append]
  by_cases h : i < 64
  · simp [h]
  · simp [h, show i - 64 < 64 by omega, show 64 + (i - 64) = i by omega]

theorem FLINV_FL (x k : W64) : Spec.Camellia.FLINV (Spec.Camellia.FL x k) k = x := by
  have e : u (Spec.Camellia.FLINV (Spec.Camellia.FL x k) k) = u x := by
    rw [← FLinv_eq, ← FL_eq]
    unfold FL FLinv
    dsimp only
    rw [xor_cancel_right, xor_cancel_right]
  rw [← w_u (Spec.Camellia.FLINV _ k), e, w_u]
theorem FL_FLINV (x k : W64) : Spec.Camellia.FL (Spec.Camellia.FLINV x k) k = x := by
  have e : u (Spec.Camellia.FL (Spec.Camellia.FLINV x k) k) = u x := by
    rw [← FL_eq, ← FLinv_eq]
    unfold FL FLinv
    dsimp only
    rw [xor_cancel_right, xor_cancel_right]
  rw [← w_u (Spec.Camellia.FL _ k), e, w_u]

theorem double_swap (k1 k2 : W64) (d : W64 × W64) :
    Spec.Camellia.double k2 k1 (Prod.swap (Spec.Camellia.double k1 k2 d)) = d.swap := by
  unfold Spec.Camellia.double Prod.swap
  dsimp only
  rw [xor_cancel_right, xor_cancel_right]

/-- Six rounds. -/
def s6 (k1 k2 k3 k4 k5 k6 : W64) (d : W64 × W64) : W64 × W64 := Spec.Camellia.double k5 k6 (Spec.Camellia.double k3 k4 (Spec.Camellia.double k1 k2 d))
/-- The layer between rounds. -/
def fl (e1 e2 : W64) (d : W64 × W64) : W64 × W64 := (Spec.Camellia.FL d.1 e1, Spec.Camellia.FLINV d.2 e2)

theorem s6_swap (k1 k2 k3 k4 k5 k6 : W64) (d : W64 × W64) : s6 k6 k5 k4 k3 k2 k1 (Prod.swap (s6 k1 k2 k3 k4 k5 k6 d)) = d.swap := by
  unfold s6
  rw [double_swap, double_swap, double_swap]
theorem fl_swap (e1 e2 : W64) (d : W64 × W64) : fl e2 e1 (Prod.swap (fl e1 e2 d)) = d.swap := by
  unfold fl
  show (Spec.Camellia.FL (Spec.Camellia.FLINV d.2 e2) e2, Spec.Camellia.FLINV (Spec.Camellia.FL d.1 e1) e1) = _
  rw [FL_FLINV, FLINV_FL]
  rfl

theorem crypt_of_rounds (s t : Spec.Camellia.Subkeys) (h1 : t.kw1 = s.kw3) (h2 : t.kw2 = s.kw4) (h3 : t.kw3 = s.kw1) (h4 : t.kw4 = s.kw2)
    (hr : ∀ d, Spec.Camellia.rounds t.k t.ke (Prod.swap (Spec.Camellia.rounds s.k s.ke d)) = d.swap) (x : BitVec 128) :
    Spec.Camellia.crypt t (Spec.Camellia.crypt s x) = x := by
  unfold Spec.Camellia.crypt
  dsimp only
  generalize hd : Spec.Camellia.rounds s.k s.ke (Spec.Camellia.hi x ^^^ s.kw1, Spec.Camellia.lo x ^^^ s.kw2) = d
  have e := hr (Spec.Camellia.hi x ^^^ s.kw1, Spec.Camellia.lo x ^^^ s.kw2)
  rw [hd] at e
  rw [hi_append, lo_append, h1, h2, h3, h4, xor_cancel_right, xor_cancel_right]
  rw [show (d.2, d.1) = d.swap from rfl, e]
  show (Spec.Camellia.hi x ^^^ s.kw1 ^^^ s.kw1) ++ (Spec.Camellia.lo x ^^^ s.kw2 ^^^ s.kw2) = x
  rw [xor_cancel_right, xor_cancel_right, hi_lo]

theorem crypt_reverse128 (s : Spec.Camellia.Subkeys) (hk : s.k.length = 18) (he : s.ke.length = 4) (x : BitVec 128) :
    Spec.Camellia.crypt (Spec.Camellia.reverse s) (Spec.Camellia.crypt s x) = x := by
  refine crypt_of_rounds s _ rfl rfl rfl rfl (fun d => ?_) x
  obtain ⟨kw1, kw2, kw3, kw4, k, ke⟩ := s
  obtain ⟨k0, k1, k2, k3, k4, k5, k6, k7, k8, k9, k10, k11, k12, k13, k14, k15, k16, k17, rfl⟩ := list18 k hk
  match ke, he with
  | [e0, e1, e2, e3], _ =>
    show s6 k5 k4 k3 k2 k1 k0 (fl e1 e0 (s6 k11 k10 k9 k8 k7 k6 (fl e3 e2 (s6 k17 k16 k15 k14 k13 k12 (Prod.swap (
      s6 k12 k13 k14 k15 k16 k17 (fl e2 e3 (s6 k6 k7 k8 k9 k10 k11 (fl e0 e1 (s6 k0 k1 k2 k3 k4 k5 d)))))))))) = _
    rw [s6_swap, fl_swap, s6_swap, fl_swap, s6_swap]

theorem crypt_reverse256 (s : Spec.Camellia.Subkeys) (hk : s.k.length = 24) (he : s.ke.length = 6) (x : BitVec 128) :
    Spec.Camellia.crypt (Spec.Camellia.reverse s) (Spec.Camellia.crypt s x) = x := by
  refine crypt_of_rounds s _ rfl rfl rfl rfl (fun d => ?_) x
  obtain ⟨kw1, kw2, kw3, kw4, k, ke⟩ := s
  obtain ⟨k0, k1, k2, k3, k4, k5, k6, k7, k8, k9, k10, k11, k12, k13, k14, k15, k16, k17, k18, k19, k20, k21, k22, k23, rfl⟩ := list24 k hk
  match ke, he with
  | [e0, e1, e2, e3, e4, e5], _ =>
    show s6 k5 k4 k3 k2 k1 k0 (fl e1 e0 (s6 k11 k10 k9 k8 k7 k6 (fl e3 e2 (s6 k17 k16 k15 k14 k13 k12 (fl e5 e4 (s6 k23 k22 k21 k20 k19 k18 (Prod.swap (
      s6 k18 k19 k20 k21 k22 k23 (fl e4 e5 (s6 k12 k13 k14 k15 k16 k17 (fl e2 e3 (s6 k6 k7 k8 k9 k10 k11 (fl e0 e1 (s6 k0 k1 k2 k3 k4 k5 d)))))))))))))) = _
    rw [s6_swap, fl_swap, s6_swap, fl_swap, s6_swap, fl_swap, s6_swap]

theorem reverse_reverse (s : Spec.Camellia.Subkeys) : Spec.Camellia.reverse (Spec.Camellia.reverse s) = s := by
  unfold Spec.Camellia.reverse
  rw [List.reverse_reverse, List.reverse_reverse]

theorem bytes_surj (b : Bytes) (h : b.length = 16) : ∃ x, bytes x = b := by
  obtain ⟨x, y, z, t, rfl⟩ := block4_be32 b h
  refine ⟨w (x, y) ++ w (z, t), ?_⟩
  unfold bytes
  rw [hi_append, lo_append, u_w, u_w]
theorem bytes_len (x : BitVec 128) : (bytes x).length = 16 := rfl

/-- Part of C29. -/
theorem camellia128_invertible (key : Bytes) : Invertible 16 (enc128 key) (dec128 key) := by
  have e := keyexp128_eq key
  generalize hs : Spec.Camellia.schedule128 (v (fourOf (ldUserKey 4 4 key))) = s at e
  have hk : s.k.length = 18 := by rw [← hs]; rfl
  have he : s.ke.length = 4 := by rw [← hs]; rfl
  refine Invertible.ofState bytes bytes_surj bytes_len (Spec.Camellia.crypt s) (Spec.Camellia.crypt (Spec.Camellia.reverse s)) (fun x => ?_) (fun x => ?_)
    (crypt_reverse128 s hk he) (fun x => ?_)
  · unfold enc128; rw [e, Out.bind_ok, encBlock128_eq s hk he]
  · unfold dec128; rw [e, Out.bind_ok, decBlock128_eq s hk he]
  · have h := crypt_reverse128 (Spec.Camellia.reverse s) (by rw [Spec.Camellia.reverse, List.length_reverse, hk])
      (by rw [Spec.Camellia.reverse, List.length_reverse, he]) x
    rwa [reverse_reverse] at h

/-- Part of C29. -/
theorem camellia256_invertible (size : KeySize) (key : Bytes) : Invertible 16 (enc256 size key) (dec256 size key) := by
  have e := keyexp256_eq size key _ _ (halves_eq size key)
  generalize hs : Spec.Camellia.schedule256 (v (fourOf (ldUserKey 4 (nWords size) key))) (v (fourOf' (ldUserKey 4 (nWords size) key) size)) = s at e
  have hk : s.k.length = 24 := by rw [← hs]; rfl
  have he : s.ke.length = 6 := by rw [← hs]; rfl
  refine Invertible.ofState bytes bytes_surj bytes_len (Spec.Camellia.crypt s) (Spec.Camellia.crypt (Spec.Camellia.reverse s)) (fun x => ?_) (fun x => ?_)
    (crypt_reverse256 s hk he) (fun x => ?_)
  · unfold enc256; rw [e, Out.bind_ok, encBlock256_eq s hk he]
  · unfold dec256; rw [e, Out.bind_ok, decBlock256_eq s hk he]
  · have h := crypt_reverse256 (Spec.Camellia.reverse s) (by rw [Spec.Camellia.reverse, List.length_reverse, hk])
      (by rw [Spec.Camellia.reverse, List.length_reverse, he]) x
    rwa [reverse_reverse] at h

/-! ### Bytes -/

open Spec.MD (beNat be)

theorem be_bytes (x : BitVec 128) : be 16 x.toNat = bytes x := by
  rw [show be 16 x.toNat = be 4 (x.toNat / 256 ^ 12) ++ be 12 x.toNat from Hash.be_add 4 12 _,
    show be 12 x.toNat = be 4 (x.toNat / 256 ^ 8) ++ be 8 x.toNat from Hash.be_add 4 8 _,
    show be 8 x.toNat = be 4 (x.toNat / 256 ^ 4) ++ be 4 x.toNat from Hash.be_add 4 4 _]
  rw [← Oaep.putBe32_be, ← Oaep.putBe32_be, ← Oaep.putBe32_be, ← Oaep.putBe32_be]
  have e : ∀ (a b c d a' b' c' d' : W32), a = a' → b = b' → c = c' → d = d' →
      putBe32 a ++ (putBe32 b ++ (putBe32 c ++ putBe32 d)) = putBe32 a' ++ (putBe32 b' ++ (putBe32 c' ++ putBe32 d')) := by
    rintro a b c d _ _ _ _ rfl rfl rfl rfl; rfl
  unfold bytes u Spec.Camellia.hi Spec.Camellia.lo Spec.Camellia.hi32 Spec.Camellia.lo32
  have hx := x.isLt
  apply e <;>
  · apply BitVec.eq_of_toNat_eq
    simp only [BitVec.toNat_ofNat, BitVec.extractLsb'_toNat, Nat.shiftRight_eq_div_pow]
    omega

theorem word_bytes128 (x : BitVec 128) : Spec.Camellia.word 128 (bytes x) = x := by
  rw [← be_bytes, Spec.Camellia.word, Hash.beNat_be, Nat.mod_eq_of_lt x.isLt, BitVec.ofNat_toNat, BitVec.setWidth_eq]

theorem word_be4 (a b c d : W32) : Spec.Camellia.word 128 (putBe32 a ++ (putBe32 b ++ (putBe32 c ++ putBe32 d))) = v ⟨a, b, c, d⟩ := by
  have e : putBe32 a ++ (putBe32 b ++ (putBe32 c ++ putBe32 d)) = bytes (v ⟨a, b, c, d⟩) := by
    unfold bytes
    rw [← fst_eq, ← snd_eq]
    rfl
  rw [e, word_bytes128]

theorem word_be2 (a b : W32) : Spec.Camellia.word 64 (putBe32 a ++ putBe32 b) = w (a, b) := by
  rw [Spec.Camellia.word, beNat_append, beNat_putBe32, beNat_putBe32, putBe32_length, w]
  apply BitVec.eq_of_toNat_eq
  rw [BitVec.toNat_ofNat, BitVec.toNat_append, ← Nat.shiftLeft_add_eq_or_of_lt b.isLt, Nat.shiftLeft_eq]
  dsimp only
  have := a.isLt
  have := b.isLt
  omega

theorem subkeys_words128 (a b c d : W32) : Spec.Camellia.subkeys (putBe32 a ++ (putBe32 b ++ (putBe32 c ++ putBe32 d))) =
    Spec.Camellia.schedule128 (v ⟨a, b, c, d⟩) := by
  rw [← word_be4]; rfl

theorem subkeys_words192 (a b c d e f : W32) :
    Spec.Camellia.subkeys ((putBe32 a ++ (putBe32 b ++ (putBe32 c ++ putBe32 d))) ++ (putBe32 e ++ putBe32 f)) =
    Spec.Camellia.schedule256 (v ⟨a, b, c, d⟩) (v ⟨e, f, ~~~ e, ~~~ f⟩) := by
  have h : v ⟨e, f, ~~~ e, ~~~ f⟩ = w (e, f) ++ ~~~ w (e, f) := by
    unfold v w fst snd
    dsimp only
    rw [BitVec.not_append]
  rw [h, ← word_be4, ← word_be2]; rfl

theorem subkeys_words256 (a b c d e f g h : W32) :
    Spec.Camellia.subkeys ((putBe32 a ++ (putBe32 b ++ (putBe32 c ++ putBe32 d))) ++ (putBe32 e ++ (putBe32 f ++ (putBe32 g ++ putBe32 h)))) =
    Spec.Camellia.schedule256 (v ⟨a, b, c, d⟩) (v ⟨e, f, g, h⟩) := by
  rw [← word_be4, ← word_be4]; rfl

/-! ### The standard -/

/-- Shorter keys, which RFC 3713 does not have, are filled up with zeros and longer ones cut; not so for short keys of odd length (`camellia_odd_key`). -/
theorem camellia128_padded_partial (key : Bytes) (hk : 16 ≤ key.length ∨ key.length % 2 = 0) (b : Bytes) (hb : b.length = 16) :
    enc128 key b = .ok (Spec.Camellia.encrypt (zeroPad 16 key) b) ∧ dec128 key b = .ok (Spec.Camellia.decrypt (zeroPad 16 key) b) := by
  obtain ⟨x, rfl⟩ := bytes_surj b hb
  have hl : (ldUserKey 4 4 key).length = 4 := length_ldUserKey 4 4 key
  have e := keyexp128_eq key
  have hz : Spec.Camellia.subkeys (zeroPad 16 key) = Spec.Camellia.schedule128 (v (fourOf (ldUserKey 4 4 key))) := by
    rw [← ldUserKey_bytes 4 key hk]
    generalize ldUserKey 4 4 key = K at hl
    match K, hl with
    | [a, b, c, d], _ =>
      rw [show fourOf [a, b, c, d] = ⟨a, b, c, d⟩ from rfl, ← subkeys_words128]
      rfl
  unfold enc128 dec128 Spec.Camellia.encrypt Spec.Camellia.decrypt
  rw [e, Out.bind_ok, Out.bind_ok, hz, be_bytes, be_bytes, word_bytes128]
  exact ⟨encBlock128_eq _ rfl rfl x, decBlock128_eq _ rfl rfl x⟩

/-- The same for keys of 192 and 256 bits. -/
theorem camellia256_padded_partial (size : KeySize) (key : Bytes) (hk : 4 * nWords size ≤ key.length ∨ key.length % 2 = 0) (b : Bytes) (hb : b.length = 16) :
    enc256 size key b = .ok (Spec.Camellia.encrypt (zeroPad (4 * nWords size) key) b) ∧
    dec256 size key b = .ok (Spec.Camellia.decrypt (zeroPad (4 * nWords size) key) b) := by
  obtain ⟨x, rfl⟩ := bytes_surj b hb
  have hl : (ldUserKey 4 (nWords size) key).length = nWords size := length_ldUserKey 4 _ key
  have e := keyexp256_eq size key _ _ (halves_eq size key)
  have hz : Spec.Camellia.subkeys (zeroPad (4 * nWords size) key) =
      Spec.Camellia.schedule256 (v (fourOf (ldUserKey 4 (nWords size) key))) (v (fourOf' (ldUserKey 4 (nWords size) key) size)) := by
    rw [← ldUserKey_bytes (nWords size) key hk]
    generalize ldUserKey 4 (nWords size) key = K at hl
    match size, K, hl with
    | .c192, [a, b, c, d, e, f], _ =>
      rw [show fourOf [a, b, c, d, e, f] = ⟨a, b, c, d⟩ from rfl, show fourOf' [a, b, c, d, e, f] .c192 = ⟨e, f, ~~~ e, ~~~ f⟩ from rfl, ← subkeys_words192]
      rfl
    | .c256, [a, b, c, d, e, f, g, h], _ =>
      rw [show fourOf [a, b, c, d, e, f, g, h] = ⟨a, b, c, d⟩ from rfl, show fourOf' [a, b, c, d, e, f, g, h] .c256 = ⟨e, f, g, h⟩ from rfl, ← subkeys_words256]
      rfl
  unfold enc256 dec256 Spec.Camellia.encrypt Spec.Camellia.decrypt
  rw [e, Out.bind_ok, Out.bind_ok, hz, be_bytes, be_bytes, word_bytes128]
  exact ⟨encBlock256_eq _ rfl rfl x, decBlock256_eq _ rfl rfl x⟩

theorem zeroPad_full (n : Nat) (key : Bytes) (h : key.length = n) : zeroPad n key = key := by
  unfold zeroPad
  rw [← h, List.take_length, Nat.sub_self, List.replicate_zero, List.append_nil]

/-- C92 for keys of 128 bits. -/
theorem camellia128_standard (key : Bytes) (hk : key.length = 16) (b : Bytes) (hb : b.length = 16) :
    enc128 key b = .ok (Spec.Camellia.encrypt key b) ∧ dec128 key b = .ok (Spec.Camellia.decrypt key b) := by
  have h := camellia128_padded_partial key (.inl (by omega)) b hb
  rwa [zeroPad_full 16 key hk] at h

/-- C92 for keys of 192 bits. -/
theorem camellia192_standard (key : Bytes) (hk : key.length = 24) (b : Bytes) (hb : b.length = 16) :
    enc256 .c192 key b = .ok (Spec.Camellia.encrypt key b) ∧ dec256 .c192 key b = .ok (Spec.Camellia.decrypt key b) := by
  have h := camellia256_padded_partial .c192 key (.inl (by rw [nWords]; omega)) b hb
  rwa [show 4 * nWords .c192 = 24 from rfl, zeroPad_full 24 key hk] at h

/-- C92 for keys of 256 bits. -/
theorem camellia256_standard (key : Bytes) (hk : key.length = 32) (b : Bytes) (hb : b.length = 16) :
    enc256 .c256 key b = .ok (Spec.Camellia.encrypt key b) ∧ dec256 .c256 key b = .ok (Spec.Camellia.decrypt key b) := by
  have h := camellia256_padded_partial .c256 key (.inl (by rw [nWords]; omega)) b hb
  rwa [show 4 * nWords .c256 = 32 from rfl, zeroPad_full 32 key hk] at h

/-- A short key of odd length is not filled up with zeros at its end. -/
theorem camellia_odd_key : enc128 [1] (List.replicate 16 0) ≠ .ok (Spec.Camellia.encrypt (zeroPad 16 [1]) (List.replicate 16 0)) := by
  intro h
  have e := (camellia128_standard (zeroPad 16 [1]) rfl (List.replicate 16 0) rfl).1
  rw [← h] at e
  revert e
  decide +kernel

/-! ## Cases -/

def k16 : Bytes := [0x01, 0x23, 0x45, 0x67, 0x89, 0xAB, 0xCD, 0xEF, 0xFE, 0xDC, 0xBA, 0x98, 0x76, 0x54, 0x32, 0x10]
def k24 : Bytes := k16 ++ [0x00, 0x11, 0x22, 0x33, 0x44, 0x55, 0x66, 0x77]
def k32 : Bytes := k24 ++ [0x88, 0x99, 0xAA, 0xBB, 0xCC, 0xDD, 0xEE, 0xFF]

/-- The vectors of RFC 3713. -/
example : enc128 k16 k16 = .ok [0x67, 0x67, 0x31, 0x38, 0x54, 0x96, 0x69, 0x73, 0x08, 0x57, 0x06, 0x56, 0x48, 0xEA, 0xBE, 0x43] := by decide +kernel
example : enc256 .c192 k24 k16 = .ok [0xB4, 0x99, 0x34, 0x01, 0xB3, 0xE9, 0x96, 0xF8, 0x4E, 0xE5, 0xCE, 0xE7, 0xD7, 0x9B, 0x09, 0xB9] := by decide +kernel
example : enc256 .c256 k32 k16 = .ok [0x9A, 0xCC, 0x23, 0x7D, 0xFF, 0x16, 0xD7, 0x6C, 0x20, 0xEF, 0x7C, 0x91, 0x9E, 0x3A, 0x75, 0x09] := by decide +kernel

example : enc128 k16 k16 = .ok (Spec.Camellia.encrypt k16 k16) := (camellia128_standard k16 rfl k16 rfl).1
example : dec256 .c192 k24 k16 = .ok (Spec.Camellia.decrypt k24 k16) := (camellia192_standard k24 rfl k16 rfl).2
example : enc256 .c256 k32 k16 = .ok (Spec.Camellia.encrypt k32 k16) := (camellia256_standard k32 rfl k16 rfl).1
example : dec256 .c192 (k24.take 18) k16 = .ok (Spec.Camellia.decrypt (k24.take 18 ++ List.replicate 6 0) k16) :=
  (camellia256_padded_partial .c192 (k24.take 18) (.inr (by decide)) k16 rfl).2
example : Invertible 16 (enc256 .c256 (ascii "odd")) (dec256 .c256 (ascii "odd")) := camellia256_invertible .c256 (ascii "odd")

end Kryptos.Camellia
