import Verif.Lemmas.Keccak
import Verif.Props.Sha
import Verif.Lemmas.Tiger
import Mathlib.Tactic.Ring
/-
  C104, KECCAK and SHA-3: for every message the digests are those of FIPS 202.
-/
namespace Kryptos.Keccak
open Spec.Keccak (Arr bits pad101 add trunc blocks)

theorem bits_append (a b : Bytes) : bits (a ++ b) = bits a ++ bits b := by simp [bits]
theorem bits_cons (a : Byte) (b : Bytes) : bits (a :: b) = (List.range 8).map a.getLsbD ++ bits b := by simp [bits]

theorem bits_length (m : Bytes) : (bits m).length = 8 * m.length := by
  induction m with
  | nil => rfl
  | cons a m ih => rw [bits_cons, List.length_append, ih]; simp; omega

theorem bits_get (m : Bytes) : ∀ k, (bits m).getD k false = (m.getD (k / 8) 0).getLsbD (k % 8) := by
  induction m with
  | nil => intro k; simp [bits]
  | cons a m ih =>
    intro k
    rw [bits_cons]
    by_cases h : k < 8
    · have : k / 8 = 0 := by omega
      rw [this, Nat.mod_eq_of_lt h, List.getD_eq_getElem?_getD, List.getElem?_append_left (by simpa using h)]
      simp [h]
    · have hk : k / 8 = (k - 8) / 8 + 1 := by omega
      rw [List.getD_eq_getElem?_getD, List.getElem?_append_right (by simpa using h), List.length_map, List.length_range,
        ← List.getD_eq_getElem?_getD, ih, hk, List.getD_cons_succ]
      congr 1
      omega

theorem bits_zeros (n : Nat) : bits (List.replicate n 0#8) = List.replicate (8 * n) false := by
  induction n with
  | zero => rfl
  | succ n ih =>
    rw [List.replicate_succ, bits_cons, ih, Nat.mul_succ, Nat.add_comm, List.replicate_add]
    rfl

theorem mod8 (n R a : Nat) (hR : 0 < R) (ha : a < 8) : (8 * n + a) % (8 * R) = 8 * (n % R) + a := by
  have hlt := Nat.mod_lt n hR
  have h := Nat.div_add_mod n R
  generalize n % R = t at *
  generalize n / R = q at *
  subst h
  rw [show 8 * (R * q + t) + a = (8 * t + a) + 8 * R * q by ring, Nat.add_mul_mod_self_left, Nat.mod_eq_of_lt (by omega)]

/-- The bits of the padding are the suffix and pad10*1. -/
theorem padding_sha3 (R n : Nat) (hR : 0 < R) : bits (padding (R - n % R) true) = [false, true] ++ pad101 (8 * R) (8 * n + 2) := by
  have hlt := Nat.mod_lt n hR
  have hj : (8 * R - (8 * n + 2 + 2) % (8 * R)) % (8 * R) = 8 * (R - n % R) - 4 := by
    rw [show 8 * n + 2 + 2 = 8 * n + 4 by omega, mod8 n R 4 hR (by omega), Nat.mod_eq_of_lt (by omega)]
    omega
  unfold pad101
  rw [hj]
  generalize hd : R - n % R = d
  have hd0 : 0 < d := by omega
  unfold padding
  split
  · rename_i h; subst h; rfl
  · rw [bits_cons, bits_append, bits_zeros]
    have : 8 * d - 4 = 5 + 8 * (d - 2) + 7 := by omega
    rw [this, List.replicate_add, List.replicate_add]
    simp only [List.append_assoc, if_true]
    rfl

theorem padding_keccak (R n : Nat) (hR : 0 < R) : bits (padding (R - n % R) false) = pad101 (8 * R) (8 * n) := by
  have hlt := Nat.mod_lt n hR
  have hj : (8 * R - (8 * n + 2) % (8 * R)) % (8 * R) = 8 * (R - n % R) - 2 := by
    rw [mod8 n R 2 hR (by omega), Nat.mod_eq_of_lt (by omega)]
    omega
  unfold pad101
  rw [hj]
  generalize hd : R - n % R = d
  have hd0 : 0 < d := by omega
  unfold padding
  split
  · rename_i h; subst h; rfl
  · rw [bits_cons, bits_append, bits_zeros]
    have : 8 * d - 2 = 7 + 8 * (d - 2) + 7 := by omega
    rw [this, List.replicate_add, List.replicate_add]
    simp only [List.append_assoc]
    rfl

/-! ### Absorbing -/

def chunk (m : Bytes) (o : Nat) : W64 :=
  be64 (m.getD (o + 7) 0) (m.getD (o + 6) 0) (m.getD (o + 5) 0) (m.getD (o + 4) 0) (m.getD (o + 3) 0) (m.getD (o + 2) 0) (m.getD (o + 1) 0)
    (m.getD o 0)

theorem chunk_bit (m : Bytes) (o z : Nat) (hz : z < 64) : (chunk m o).getLsbD z = (m.getD (o + z / 8) 0).getLsbD (z % 8) := by
  unfold chunk
  unfold be64
  simp only [BitVec.getLsbD_or, BitVec.getLsbD_shiftLeft, BitVec.getLsbD_setWidth]
  generalize hq : z / 8 = q
  have hz8 : z = 8 * q + z % 8 := by omega
  generalize hr : z % 8 = r at hz8
  have hr8 : r < 8 := by omega
  subst hz8
  have hq8 : q < 8 := by omega
  interval_cases q <;> interval_cases r <;> simp

theorem rd_getD (m : Bytes) (i : Nat) (h : i < m.length) : rd m i = .ok (m.getD i 0) := by
  unfold rd
  simp [h, Out.ofOption]

theorem fold1 {σ : Type} (f : σ → Nat → Out σ) (s : σ) (a : Nat) : [a].foldlM f s = f s a := by
  rw [List.foldlM_cons]
  cases f s a <;> rfl

theorem absorb_eq (m : Bytes) (mp : Nat) (A : Lanes) : ∀ n, n ≤ 25 → mp + 8 * n ≤ m.length →
    absorb m n mp (lanes A) = .ok (lanes fun x y => if 5 * y.val + x.val < n then A x y ^^^ chunk m (mp + 8 * (5 * y.val + x.val)) else A x y) := by
  intro n
  induction n with
  | zero => intro _ _; simp [absorb]
  | succ n ih =>
    intro hn hm
    have ih := ih (by omega) (by omega)
    unfold absorb at ih ⊢
    rw [List.range_succ, List.foldlM_append, ih, Out.bind_ok, fold1]
    rw [rd_getD m _ (by omega), Out.bind_ok, rd_getD m _ (by omega), Out.bind_ok, rd_getD m _ (by omega), Out.bind_ok,
      rd_getD m _ (by omega), Out.bind_ok, rd_getD m _ (by omega), Out.bind_ok, rd_getD m _ (by omega), Out.bind_ok,
      rd_getD m _ (by omega), Out.bind_ok, rd_getD m _ (by omega), Out.bind_ok]
    dsimp only
    have hx : n % 5 < 5 := Nat.mod_lt _ (by omega)
    have hy : n / 5 < 5 := by omega
    rw [show ∀ B : Lanes, rd (lanes B) (5 * (n % 5) + n / 5) = _ from fun B => rd_lanes B ⟨n % 5, hx⟩ ⟨n / 5, hy⟩, Out.bind_ok,
      show ∀ (B : Lanes) v, wr (lanes B) (5 * (n % 5) + n / 5) v = _ from fun B v => wr_lanes B ⟨n % 5, hx⟩ ⟨n / 5, hy⟩ v]
    show Out.ok (lanes _) = _
    congr 2
    funext x y
    unfold upd
    have hxl := x.isLt
    have hyl := y.isLt
    by_cases h : x = ⟨n % 5, hx⟩ ∧ y = ⟨n / 5, hy⟩
    · obtain ⟨rfl, rfl⟩ := h
      have e : 5 * (n / 5) + n % 5 = n := Nat.div_add_mod n 5
      simp only [e, and_self, if_true, Nat.lt_irrefl, if_false, Nat.lt_succ_self]
      rfl
    · rw [if_neg h]
      dsimp only
      have hne : 5 * y.val + x.val ≠ n := by
        intro he
        apply h
        constructor
        · apply Fin.ext; show x.val = n % 5; omega
        · apply Fin.ext; show y.val = n / 5; omega
      by_cases hlt : 5 * y.val + x.val < n
      · rw [if_pos hlt, if_pos (by omega)]
      · rw [if_neg hlt, if_neg (by omega)]

theorem absorb_bits (m : Bytes) (mp rw : Nat) (A : Lanes) (hrw : rw ≤ 25) (hm : mp + 8 * rw ≤ m.length) :
    ∃ B : Lanes, absorb m rw mp (lanes A) = .ok (lanes B) ∧ arr B = add (((bits m).drop (8 * mp)).take (64 * rw)) (arr A) := by
  refine ⟨_, absorb_eq m mp A rw hrw hm, ?_⟩
  funext x y z
  have hz := z.isLt
  unfold add arr
  dsimp only
  rw [List.getD_eq_getElem?_getD, List.getElem?_take, List.getElem?_drop]
  by_cases h : 5 * y.val + x.val < rw
  · rw [if_pos h, if_pos (by omega), BitVec.getLsbD_xor, chunk_bit _ _ _ hz, ← List.getD_eq_getElem?_getD, bits_get]
    congr 2
    · congr 1; omega
    · omega
  · rw [if_neg h, if_neg (by omega)]
    simp

theorem blocks_bits (m : Bytes) (R : Nat) (hR : 0 < R) (hR8 : R % 8 = 0) (hR2 : R ≤ 200) : ∀ n, n * R ≤ m.length → ∀ A : Lanes, ∃ B : Lanes,
    (List.range n).foldlM (fun s i => do
      let s ← absorb m (R / 8) (i * R) s
      r1600 s) (lanes A) = .ok (lanes B) ∧
    arr B = ((List.range n).map fun i => ((bits m).drop (i * (8 * R))).take (8 * R)).foldl (fun A P => Spec.Keccak.f (add P A)) (arr A) := by
  intro n
  induction n with
  | zero => intro _ A; exact ⟨A, rfl, rfl⟩
  | succ n ih =>
    intro hn A
    rw [Nat.succ_mul] at hn
    obtain ⟨B, h1, h2⟩ := ih (by omega) A
    obtain ⟨B', h3, h4⟩ := absorb_bits m (n * R) (R / 8) B (by omega) (by omega)
    obtain ⟨B'', h5, h6⟩ := r1600_bits B'
    refine ⟨B'', ?_, ?_⟩
    · rw [List.range_succ, List.foldlM_append, h1, Out.bind_ok, fold1, h3, Out.bind_ok, h5]
    · rw [h6, h4, h2, List.range_succ, List.map_append, List.foldl_append, show 64 * (R / 8) = 8 * R by omega,
        show 8 * (n * R) = n * (8 * R) by ring, List.map_cons, List.map_nil, List.foldl_cons, List.foldl_nil]

/-! ### Squeezing -/

theorem squeeze_eq (D : Nat) (hD : D = 28 ∨ D = 32 ∨ D = 48 ∨ D = 64) (B : Lanes) :
    ∃ z, squeeze D (lanes B) = .ok z ∧ z.length = D ∧ bits z = trunc (8 * D) (arr B) := by
  have hD64 : D ≤ 64 := by omega
  refine ⟨(List.range D).map fun i => (((B (Fin.ofNat 5 (i / 8)) (Fin.ofNat 5 (i / 8 / 5))) >>> (8 * (i % 8))) &&& 0xFF#64).setWidth 8, ?_, ?_, ?_⟩
  · unfold squeeze
    rw [if_pos hD]
    apply mapM_ok
    intro i hi
    rw [List.mem_range] at hi
    have e2 : i / 8 / 5 = (Fin.ofNat 5 (i / 8 / 5)).val := by
      show _ = _ % 5
      omega
    rw [show 5 * (i / 8 % 5) + i / 8 / 5 = 5 * (Fin.ofNat 5 (i / 8)).val + (Fin.ofNat 5 (i / 8 / 5)).val by rw [← e2]; rfl, rd_lanes, Out.bind_ok]
    rfl
  · simp
  · apply List.ext_getElem
    · rw [bits_length]; simp [trunc]
    · intro k h1 h2
      have hk : k < 8 * D := by rw [bits_length] at h1; simpa using h1
      have hb := bits_get ((List.range D).map fun i => (((B (Fin.ofNat 5 (i / 8)) (Fin.ofNat 5 (i / 8 / 5))) >>> (8 * (i % 8))) &&& 0xFF#64).setWidth 8) k
      have hk8 : k / 8 < D := by omega
      rw [List.getD_eq_getElem?_getD, List.getElem?_eq_getElem h1, Option.getD_some] at hb
      rw [hb]
      simp only [trunc, arr, List.getElem_map, List.getElem_range]
      rw [List.getD_eq_getElem?_getD, List.getElem?_map, List.getElem?_range hk8]
      simp only [Option.map_some, Option.getD_some]
      have hlt : k % 8 < 8 := Nat.mod_lt _ (by omega)
      rw [BitVec.getLsbD_setWidth, BitVec.getLsbD_and, BitVec.getLsbD_ushiftRight]
      have hff : (255#64).getLsbD (k % 8) = true := by
        generalize k % 8 = j at hlt
        interval_cases j <;> rfl
      rw [hff, decide_eq_true hlt, Bool.true_and, Bool.and_true, Nat.div_div_eq_div_mul]
      congr 1
      show _ = k % 64
      omega

/-! ### The sponge -/

theorem sponge_bits (m : Bytes) (R D : Nat) (sha3 : Bool) (sfx : List Bool) (hR : 0 < R) (hR8 : R % 8 = 0) (hR2 : R ≤ 200)
    (hD : D = 28 ∨ D = 32 ∨ D = 48 ∨ D = 64) (hp : bits (padding (R - m.length % R) sha3) = sfx ++ pad101 (8 * R) ((bits m ++ sfx).length)) :
    ∃ z, sponge m (8 * R) (16 * D) sha3 = .ok z ∧ z.length = D ∧ bits z = Spec.Keccak.sponge (8 * R) (bits m ++ sfx) (8 * D) := by
  have e1 : 8 * R / 8 = R := by omega
  have e2 : 8 * R / 64 * 8 = R := by omega
  have e3 : 8 * R / 64 = R / 8 := by omega
  have e4 : 16 * D / 2 / 8 = D := by omega
  have hlt := Nat.mod_lt m.length hR
  have hpl : (padding (R - m.length % R) sha3).length = R - m.length % R := by
    unfold padding
    split <;> simp <;> omega
  have hM : ∃ q, (m ++ padding (R - m.length % R) sha3).length = q * R := by
    refine ⟨m.length / R + 1, ?_⟩
    rw [List.length_append, hpl, Nat.succ_mul]
    have := Nat.div_add_mod m.length R
    rw [Nat.mul_comm] at this
    omega
  obtain ⟨q, hq⟩ := hM
  have hP : bits (m ++ padding (R - m.length % R) sha3) = (bits m ++ sfx) ++ pad101 (8 * R) ((bits m ++ sfx).length) := by
    rw [bits_append, hp, List.append_assoc]
  unfold sponge
  dsimp only
  rw [e1, e2, e3, e4]
  generalize m ++ padding (R - m.length % R) sha3 = M at hq hP
  have hn : (M.length + R - 1) / R = q := by
    rw [hq, show q * R + R - 1 = (R - 1) + R * q by rw [Nat.mul_comm]; omega, Nat.add_mul_div_left _ _ hR, Nat.div_eq_of_lt (by omega), Nat.zero_add]
  rw [hn]
  obtain ⟨B, h1, h2⟩ := blocks_bits M R hR hR8 hR2 q (by omega) (fun _ _ => 0)
  rw [show List.replicate 25 0#64 = lanes fun _ _ => 0 from rfl, h1, Out.bind_ok]
  obtain ⟨z, h3, h4, h5⟩ := squeeze_eq D hD B
  refine ⟨z, h3, h4, ?_⟩
  rw [h5, h2]
  unfold Spec.Keccak.sponge blocks
  rw [← hP, bits_length, hq]
  have hb : 8 * (q * R) / (8 * R) = q := by
    rw [show 8 * (q * R) = q * (8 * R) by ring]
    exact Nat.mul_div_cancel _ (by omega)
  rw [hb]
  congr 2
  funext x y z
  simp [arr]

theorem sha3_bits (m : Bytes) (r d : Nat) (hd : d = 224 ∨ d = 256 ∨ d = 384 ∨ d = 512) (hr : r = 1600 - 2 * d) :
    ∃ z, hash r (2 * d) true m false = .ok z ∧ z.length = d / 8 ∧ bits z = Spec.Keccak.sha3 d m := by
  have h := sponge_bits m (r / 8) (d / 8) true [false, true] (by omega) (by omega) (by omega) (by omega) (by
    rw [padding_sha3 _ _ (by omega), List.length_append, bits_length]
    rfl)
  rw [show 8 * (r / 8) = r by omega, show 16 * (d / 8) = 2 * d by omega, show 8 * (d / 8) = d by omega] at h
  obtain ⟨z, h1, h2, h3⟩ := h
  refine ⟨z, ?_, h2, ?_⟩
  · unfold hash
    rw [h1]
    rfl
  · rw [h3, hr]
    rfl

theorem keccak_bits (m : Bytes) (r d : Nat) (hd : d = 224 ∨ d = 256 ∨ d = 384 ∨ d = 512) (hr : r = 1600 - 2 * d) :
    ∃ z, hash r (2 * d) false m false = .ok z ∧ z.length = d / 8 ∧ bits z = Spec.Keccak.keccakSub d m := by
  have h := sponge_bits m (r / 8) (d / 8) false [] (by omega) (by omega) (by omega) (by omega) (by
    rw [padding_keccak _ _ (by omega), List.append_nil, bits_length]
    rfl)
  rw [show 8 * (r / 8) = r by omega, show 16 * (d / 8) = 2 * d by omega, show 8 * (d / 8) = d by omega] at h
  obtain ⟨z, h1, h2, h3⟩ := h
  refine ⟨z, ?_, h2, ?_⟩
  · unfold hash
    rw [h1]
    rfl
  · rw [h3, hr, List.append_nil]
    rfl

/-- **C104**, SHA-3: for every message the digests have the bits that FIPS 202 gives. -/
theorem sha3_fips (m : Bytes) :
    (∃ z, sha3_224 m false = .ok z ∧ z.length = 28 ∧ bits z = Spec.Keccak.sha3 224 m) ∧
    (∃ z, sha3_256 m false = .ok z ∧ z.length = 32 ∧ bits z = Spec.Keccak.sha3 256 m) ∧
    (∃ z, sha3_384 m false = .ok z ∧ z.length = 48 ∧ bits z = Spec.Keccak.sha3 384 m) ∧
    (∃ z, sha3_512 m false = .ok z ∧ z.length = 64 ∧ bits z = Spec.Keccak.sha3 512 m) :=
  ⟨sha3_bits m 1152 224 (by omega) rfl, sha3_bits m 1088 256 (by omega) rfl, sha3_bits m 832 384 (by omega) rfl,
    sha3_bits m 576 512 (by omega) rfl⟩

/-- **C104**, KECCAK: the same without the suffix 01. -/
theorem keccak_sub (m : Bytes) :
    (∃ z, keccak224 m false = .ok z ∧ z.length = 28 ∧ bits z = Spec.Keccak.keccakSub 224 m) ∧
    (∃ z, keccak256 m false = .ok z ∧ z.length = 32 ∧ bits z = Spec.Keccak.keccakSub 256 m) ∧
    (∃ z, keccak384 m false = .ok z ∧ z.length = 48 ∧ bits z = Spec.Keccak.keccakSub 384 m) ∧
    (∃ z, keccak512 m false = .ok z ∧ z.length = 64 ∧ bits z = Spec.Keccak.keccakSub 512 m) :=
  ⟨keccak_bits m 1152 224 (by omega) rfl, keccak_bits m 1088 256 (by omega) rfl, keccak_bits m 832 384 (by omega) rfl,
    keccak_bits m 576 512 (by omega) rfl⟩

/-- Bytes are determined by their bits. -/
theorem bits_inj : ∀ a b : Bytes, bits a = bits b → a = b := by
  intro a
  induction a with
  | nil =>
    intro b h
    have := congrArg List.length h
    rw [bits_length, bits_length] at this
    rw [List.length_nil] at this
    exact (List.eq_nil_of_length_eq_zero (by omega)).symm
  | cons x a ih =>
    intro b h
    cases b with
    | nil =>
      have := congrArg List.length h
      rw [bits_length, bits_length] at this
      simp at this
    | cons y b =>
      rw [bits_cons, bits_cons] at h
      obtain ⟨h1, h2⟩ := List.append_inj h (by simp)
      rw [ih b h2]
      congr 1
      apply BitVec.eq_of_getLsbD_eq
      intro i hi
      have := congrArg (fun l => l[i]?) h1
      simpa [hi] using this

end Kryptos.Keccak

namespace Kryptos.Keccak
open Spec.MD (be)
open Spec Hash

/-- The base16 text of bytes. -/
def b16 (z : Bytes) : List (Option Byte) := z.flatMap fun b => [base16Alphabet[b.toNat / 16]?, base16Alphabet[b.toNat % 16]?]

theorem be4_toNat (a b c d : Byte) : be 4 (be32 a b c d).toNat = [a, b, c, d] := by
  rw [be32_toNat]
  have := a.isLt; have := b.isLt; have := c.isLt; have := d.isLt
  simp only [be_succ, be_zero]
  congr 1 <;> [skip; congr 1 <;> [skip; congr 1 <;> [skip; congr 1]]] <;>
    (apply BitVec.eq_of_toNat_eq; rw [BitVec.toNat_ofNat]; omega)

theorem slice8 (z : Bytes) (o : Nat) (h : o + 8 ≤ z.length) : (z.drop o).take 8 =
    [z.getD o 0, z.getD (o + 1) 0, z.getD (o + 2) 0, z.getD (o + 3) 0, z.getD (o + 4) 0, z.getD (o + 5) 0, z.getD (o + 6) 0, z.getD (o + 7) 0] := by
  apply List.ext_getElem
  · simp; omega
  · intro i h1 h2
    have hi : i < 8 := h2
    interval_cases i <;> simp <;> rw [List.getElem?_eq_getElem (by omega)] <;> rfl

theorem slice4 (z : Bytes) (o : Nat) (h : o + 4 = z.length) : z.drop o = [z.getD o 0, z.getD (o + 1) 0, z.getD (o + 2) 0, z.getD (o + 3) 0] := by
  apply List.ext_getElem
  · simp; omega
  · intro i h1 h2
    have hi : i < 4 := h2
    interval_cases i <;> simp <;> rw [List.getElem?_eq_getElem (by omega)] <;> rfl

theorem slices (z : Bytes) : ∀ q, 8 * q ≤ z.length → (List.range q).flatMap (fun i => (z.drop (8 * i)).take 8) = z.take (8 * q) := by
  intro q
  induction q with
  | zero => intro _; simp
  | succ q ih =>
    intro h
    rw [List.range_succ, List.flatMap_append, ih (by omega), Nat.mul_succ, List.take_add]
    simp

theorem b16_flatMap {α : Type} (l : List α) (f : α → Bytes) : b16 (l.flatMap f) = l.flatMap fun a => b16 (f a) := by
  unfold b16
  rw [List.flatMap_assoc]

/-- **C104**, hexadecimal output: with `to_hex` set the output is the base16 text of the raw digest. -/
theorem hexOut_eq (z : Bytes) (h : z.length % 8 = 0 ∨ z.length % 8 = 4) : ∃ hx, hexOut z = .ok hx ∧ hx.map some = b16 z := by
  have hm : ((List.range (z.length / 8)).mapM fun i => do
      let w ← getBe64 z (8 * i)
      return toHex 8 w) = .ok ((List.range (z.length / 8)).map fun i => toHex 8 (be64 (z.getD (8 * i) 0) (z.getD (8 * i + 1) 0)
        (z.getD (8 * i + 2) 0) (z.getD (8 * i + 3) 0) (z.getD (8 * i + 4) 0) (z.getD (8 * i + 5) 0) (z.getD (8 * i + 6) 0) (z.getD (8 * i + 7) 0))) := by
    apply mapM_ok
    intro i hi
    rw [List.mem_range] at hi
    unfold getBe64
    rw [rd_getD z _ (by omega), Out.bind_ok, rd_getD z _ (by omega), Out.bind_ok, rd_getD z _ (by omega), Out.bind_ok,
      rd_getD z _ (by omega), Out.bind_ok, rd_getD z _ (by omega), Out.bind_ok, rd_getD z _ (by omega), Out.bind_ok,
      rd_getD z _ (by omega), Out.bind_ok, rd_getD z _ (by omega), Out.bind_ok]
    rfl
  have hf : (((List.range (z.length / 8)).map fun i => toHex 8 (be64 (z.getD (8 * i) 0) (z.getD (8 * i + 1) 0)
        (z.getD (8 * i + 2) 0) (z.getD (8 * i + 3) 0) (z.getD (8 * i + 4) 0) (z.getD (8 * i + 5) 0) (z.getD (8 * i + 6) 0)
        (z.getD (8 * i + 7) 0))).flatten).map some = b16 (z.take (8 * (z.length / 8))) := by
    rw [← slices z _ (by omega), b16_flatMap, List.map_flatten, List.map_map, List.flatMap_def]
    congr 1
    apply List.map_congr_left
    intro i hi
    rw [List.mem_range] at hi
    show List.map some (toHex 8 _) = _
    rw [toHex_eq (by decide), Tiger.be8_toNat, slice8 z (8 * i) (by omega)]
    rfl
  unfold hexOut
  rw [hm, Out.bind_ok]
  rcases h with h | h
  · rw [if_neg (by omega)]
    refine ⟨_, rfl, ?_⟩
    rw [hf, List.take_of_length_le (by omega)]
  · rw [if_pos h]
    have hg : getBe32 z (8 * (z.length / 8)) = .ok (be32 (z.getD (8 * (z.length / 8)) 0) (z.getD (8 * (z.length / 8) + 1) 0)
        (z.getD (8 * (z.length / 8) + 2) 0) (z.getD (8 * (z.length / 8) + 3) 0)) := by
      unfold getBe32
      rw [rd_getD z _ (by omega), Out.bind_ok, rd_getD z _ (by omega), Out.bind_ok, rd_getD z _ (by omega), Out.bind_ok,
        rd_getD z _ (by omega), Out.bind_ok]
      rfl
    rw [hg, Out.bind_ok]
    refine ⟨_, rfl, ?_⟩
    rw [List.map_append, hf, toHex_eq (by decide), be4_toNat, ← slice4 z _ (by omega)]
    conv_rhs => rw [← List.take_append_drop (8 * (z.length / 8)) z]
    unfold b16
    rw [List.flatMap_append]

theorem keccak_hex (r c : Nat) (sha3 : Bool) (m z : Bytes) (h : hash r c sha3 m false = .ok z) (hz : z.length % 8 = 0 ∨ z.length % 8 = 4) :
    ∃ hx, hash r c sha3 m true = .ok hx ∧ hx.map some = b16 z := by
  unfold hash at h ⊢
  cases hs : sponge m r c sha3 with
  | ub => rw [hs] at h; cases h
  | ok z' =>
    rw [hs] at h
    simp only [Out.bind_ok, Out.pure_eq, Bool.false_eq_true, if_false] at h
    have := Out.ok.inj h
    subst this
    exact hexOut_eq z' hz

/-! The example of FIPS 202 for `abc`, which is also a case of the theorems (they have no hypotheses on the message). -/
example : sha3_256 (ascii "abc") true = .ok (ascii "3A985DA74FE225B2045C172D6BD390BD855F086E3E9D525B46BFE24511431532") := by decide +kernel
example : (ascii "abc").length % 136 = 3 ∧ 136 - 3 ≠ 1 := by decide

end Kryptos.Keccak
