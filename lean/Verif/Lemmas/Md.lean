import Verif.Lemmas.Sha
import Verif.Lemmas.Endian
import Verif.Model.MdCommon
import Verif.Spec.Md
/-
  What the proofs about MD4, MD5 and RIPEMD have in common.
-/
namespace Kryptos.Md
open Spec Spec.MD Spec.Md Hash

theorem rev_be32 (a b c d : Byte) : rev (be32 a b c d) = be32 d c b a := by
  unfold rev be32
  apply BitVec.eq_of_getLsbD_eq; intro i hi
  interval_cases i <;> simp

theorem ofNat_beNat4 (a b c d : Byte) : BitVec.ofNat 32 (beNat [a, b, c, d]) = be32 a b c d := by
  apply BitVec.eq_of_toNat_eq
  rw [be32_toNat, BitVec.toNat_ofNat]
  simp only [beNat, List.foldl_cons, List.foldl_nil]
  have := a.isLt; have := b.isLt; have := c.isLt; have := d.isLt
  omega

/-- Reversing the bytes of a word. -/
theorem rev_beNat (l : Bytes) (h : l.length = 4) : rev (BitVec.ofNat 32 (beNat l)) = BitVec.ofNat 32 (leNat l) := by
  match l, h with
  | [a, b, c, d], _ => rw [ofNat_beNat4, rev_be32, ← ofNat_beNat4]; rfl

theorem rev_rev (x : W32) : rev (rev x) = x := by
  obtain ⟨a, b, c, d, -, rfl⟩ := be32_putBe32 x
  rw [rev_be32, rev_be32]

theorem revBlock_eq (blk : Bytes) (h : blk.length = 64) :
    revBlock (ws 32 4 16 blk) = .ok ((List.range 16).map (word blk)) := by
  unfold revBlock
  rw [if_neg (by simp [ws_length])]
  refine congrArg Out.ok ?_
  unfold ws
  rw [List.map_map]
  apply List.map_congr_left
  intro i hi
  rw [List.mem_range] at hi
  rw [Function.comp, rev_beNat _ (by rw [List.length_take, List.length_drop]; omega), word, Nat.mul_comm]

theorem le_eq (n v : Nat) : le n v = (be n v).reverse := by
  unfold le be
  rw [List.map_reverse, List.reverse_reverse]

theorem le_length (n v : Nat) : (le n v).length = n := by simp [le]

theorem be4_toNat (a b c d : Byte) : be 4 (be32 a b c d).toNat = [a, b, c, d] := by
  rw [be32_toNat]
  have := a.isLt; have := b.isLt; have := c.isLt; have := d.isLt
  simp only [be, List.range, List.range.loop, List.reverse_cons, List.reverse_nil, List.nil_append, List.cons_append, List.map_cons, List.map_nil]
  congr 1
  · apply BitVec.eq_of_toNat_eq; rw [BitVec.toNat_ofNat]; omega
  congr 1
  · apply BitVec.eq_of_toNat_eq; rw [BitVec.toNat_ofNat]; omega
  congr 1
  · apply BitVec.eq_of_toNat_eq; rw [BitVec.toNat_ofNat]; omega
  congr 1
  · apply BitVec.eq_of_toNat_eq; rw [BitVec.toNat_ofNat]; omega

theorem be_rev (x : W32) : be 4 (rev x).toNat = le 4 x.toNat := by
  obtain ⟨a, b, c, d, -, rfl⟩ := be32_putBe32 x
  rw [rev_be32, be4_toNat, le_eq, be4_toNat]
  rfl

theorem raw_eq (l : List W32) : raw l = output l := by
  unfold raw output
  congr 1
  funext x
  rw [cpyBe_eq, be_rev]

theorem slice (p : Bytes) (n : Nat) (hp : p.length = 56) (f : Nat → Nat → Bytes) (k : Nat) :
    ((p ++ f 8 n).drop ((14 + k) * 4)).take 4 = ((f 8 n).drop (4 * k)).take 4 := by
  rw [List.drop_append, List.drop_eq_nil_of_le (by omega), hp, List.nil_append]
  congr 2
  omega

/-- What becomes of the length. -/
theorem fix_fin (p : Bytes) (n : Nat) (hp : p.length = 56) :
    Md.fix (ws 32 4 16 (p ++ be 8 n)) = .ok (ws 32 4 16 (p ++ le 8 n)) := by
  have hb : be 8 n = be 4 (n / 256 ^ 4) ++ be 4 n := be_add 4 4 n
  have hl : le 8 n = le 4 n ++ le 4 (n / 256 ^ 4) := by rw [le_eq, le_eq, le_eq, hb, List.reverse_append]
  have r1 : rd (ws 32 4 16 (p ++ be 8 n)) 14 = .ok (BitVec.ofNat 32 (beNat (be 4 (n / 256 ^ 4)))) := by
    unfold rd
    rw [ws_get _ _ _ _ _ (by omega), slice p n hp be 0, hb, Nat.mul_zero, List.drop_zero, List.take_append_of_le_length (by simp [be_length]),
      List.take_of_length_le (by simp [be_length])]
    rfl
  have r2 : rd (ws 32 4 16 (p ++ be 8 n)) 15 = .ok (BitVec.ofNat 32 (beNat (be 4 n))) := by
    unfold rd
    rw [ws_get _ _ _ _ _ (by omega), slice p n hp be 1, hb, List.drop_append, List.drop_eq_nil_of_le (by simp [be_length]),
      List.nil_append, be_length, Nat.mul_one, Nat.sub_self, List.drop_zero, List.take_of_length_le (by simp [be_length])]
    rfl
  have l1 : ((p ++ le 8 n).drop (14 * 4)).take 4 = le 4 n := by
    rw [slice p n hp le 0, hl, Nat.mul_zero, List.drop_zero, List.take_append_of_le_length (by simp [le_length]),
      List.take_of_length_le (by simp [le_length])]
  have l2 : ((p ++ le 8 n).drop (15 * 4)).take 4 = le 4 (n / 256 ^ 4) := by
    rw [slice p n hp le 1, hl, List.drop_append, List.drop_eq_nil_of_le (by simp [le_length]),
      List.nil_append, le_length, Nat.mul_one, Nat.sub_self, List.drop_zero, List.take_of_length_le (by simp [le_length])]
  unfold Md.fix
  rw [r1, Out.bind_ok, r2, Out.bind_ok]
  simp only [wr, ws_length]
  simp only [Nat.reduceLT, if_true, Out.bind_ok, ws_length, List.length_set]
  refine congrArg Out.ok ?_
  apply List.ext_getElem?
  intro j
  by_cases hj : j < 16
  · rw [ws_get _ _ _ _ _ hj, List.getElem?_set, List.getElem?_set]
    simp only [List.length_set, ws_length]
    by_cases h15 : 15 = j
    · subst h15
      rw [if_pos rfl, if_pos (by omega), l2, rev_beNat _ (be_length _ _), le_eq]
      rfl
    · rw [if_neg h15]
      by_cases h14 : 14 = j
      · subst h14
        rw [if_pos rfl, if_pos (by omega), l1, rev_beNat _ (be_length _ _), le_eq]
        rfl
      · rw [if_neg h14, ws_get _ _ _ _ _ hj, slice_other _ _ _ _ (by left; omega), slice_other _ _ _ _ (by left; omega)]
  · simp [ws, hj]

/-- The registers in their order of use after `i` steps. -/
def view (i : Nat) (s : Four 32) : Four 32 :=
  if i % 4 = 0 then s else if i % 4 = 1 then ⟨s.d, s.a, s.b, s.c⟩ else if i % 4 = 2 then ⟨s.c, s.d, s.a, s.b⟩ else ⟨s.b, s.c, s.d, s.a⟩

def row (i : Nat) : Row := if i % 4 = 0 then .A else if i % 4 = 1 then .D else if i % 4 = 2 then .C else .B

/-- Steps on registers whose names are permuted are steps on rotated registers. -/
theorem steps_view {φ : Type} (line : φ → W32 → W32 → W32 → W32 → W32 → W32 → Nat → W32) (X : List W32) (f : Nat → φ) (k : Nat → Nat)
    (t : Nat → W32) (s : Nat → Nat) (L : Nat → W32 → W32 → W32 → W32 → W32) (st : Four 32) : ∀ n,
    (∀ i, i < n → ∃ x, rd X (k i) = .ok x ∧ ∀ a b c d, line (f i) a b c d x (t i) (s i) = L i a b c d) →
    ∃ r, ((List.range n).map fun i => (⟨row i, f i, k i, t i, s i⟩ : Step φ)).foldlM (step line X) st = .ok r ∧ view n r = steps4 L n st
  | 0, _ => ⟨st, rfl, rfl⟩
  | n + 1, h => by
    obtain ⟨r, h1, h2⟩ := steps_view line X f k t s L st n fun i hi => h i (by omega)
    obtain ⟨x, hx, hl⟩ := h n (by omega)
    have e : steps4 L (n + 1) st = ⟨(steps4 L n st).d, L n (steps4 L n st).a (steps4 L n st).b (steps4 L n st).c (steps4 L n st).d,
        (steps4 L n st).b, (steps4 L n st).c⟩ := by
      unfold steps4
      rw [List.range_succ, List.foldl_append]
      rfl
    rw [e, ← h2, List.range_succ, List.map_append, List.foldlM_append, h1, Out.bind_ok, List.map_cons, List.map_nil, List.foldlM_cons]
    unfold step
    simp only [hx, Out.bind_ok, Out.pure_eq, List.foldlM_nil, hl]
    refine ⟨_, rfl, ?_⟩
    have h4 : n % 4 < 4 := Nat.mod_lt _ (by omega)
    unfold view row
    obtain h | h | h | h : n % 4 = 0 ∨ n % 4 = 1 ∨ n % 4 = 2 ∨ n % 4 = 3 := by omega
    · simp [h, show (n + 1) % 4 = 1 by omega]
    · simp [h, show (n + 1) % 4 = 2 by omega]
    · simp [h, show (n + 1) % 4 = 3 by omega]
    · simp [h, show (n + 1) % 4 = 0 by omega]

theorem rd_words (blk : Bytes) (i : Nat) (h : i < 16) : rd ((List.range 16).map (word blk)) i = .ok (word blk i) :=
  rd_map_range _ _ _ h

theorem rotl_rot (x : W32) (s : Nat) (h : s < 32) : rotl x s = x.rotateLeft s := rotl_eq x s h

theorem root_unique {k n r r' : Nat} (h : IsRoot k n r) (h' : IsRoot k n r') : r = r' := by
  obtain ⟨a, b⟩ := h
  obtain ⟨a', b'⟩ := h'
  have h1 := lt_of_pow_lt_pow_left₀ k (by omega) (lt_of_le_of_lt a b')
  have h2 := lt_of_pow_lt_pow_left₀ k (by omega) (lt_of_le_of_lt a' b)
  omega

theorem init4_eq : init4 = ⟨0x67452301#32, 0xEFCDAB89#32, 0x98BADCFE#32, 0x10325476#32⟩ := by decide

/-- The iteration through another, proved equal, compression function. -/
theorem iterate_run {σ : Type} (comp : σ → List W32 → Out σ) (f : σ → Bytes → σ)
    (h : ∀ st blk, blk.length = 64 → comp st (ws 32 4 16 blk) = .ok (f st blk)) (p : Bytes) :
    ∀ st, (chunks 64 p).foldlM (fun st blk => comp st (ws 32 4 16 blk)) st = .ok (iterate 64 f st p) := by
  have hc : ∀ x ∈ chunks 64 p, x.length = 64 := by
    intro x hx
    obtain ⟨i, hi, rfl⟩ := List.mem_map.1 hx
    rw [List.mem_range] at hi
    rw [List.length_take, List.length_drop]
    have := Nat.div_mul_le_self p.length 64
    have : (i + 1) * 64 ≤ p.length / 64 * 64 := Nat.mul_le_mul_right _ hi
    omega
  unfold iterate
  generalize chunks 64 p = l at hc
  induction l with
  | nil => intro st; rfl
  | cons x l ih =>
    intro st
    rw [List.foldlM_cons, h _ _ (hc x (by simp)), Out.bind_ok, List.foldl_cons]
    exact ih (fun y hy => hc y (by simp [hy])) (f st x)

theorem tab_ok : TabOk tab 4 16 := by unfold TabOk; decide +kernel

/-- The state after a message with padding, and after one that is a positive multiple of the block. -/
theorem process (σ : Type) (A : Alg 32 σ) (i : σ) (c : σ → List W32 → Out σ)
    (hA : A = ⟨4, 16, tab, 56, 0x80#8, putLen32, Md.fix, i, c⟩) (f : σ → Bytes → σ)
    (h : ∀ st blk, blk.length = 64 → c st (ws 32 4 16 blk) = .ok (f st blk)) (m : Bytes) (stale : List W32) (hm : m.length < 2 ^ 61) :
    ((m.length % 64 ≠ 0 ∨ m = []) → processMessage A m stale = .ok (iterate 64 f i (padMd m))) ∧
    (m ≠ [] → m.length % 64 = 0 → processMessage A m stale = .ok (iterate 64 f i m)) := by
  have wf : Wf A := by
    subst hA
    exact ⟨by decide, by show 0 < 4; decide, by show 0 < 16; decide, tab_ok, by show 56 < 4 * 16; decide, by show 0 < 56; decide⟩
  subst hA
  exact ⟨fun ha => process_padded _ wf f h (le 8) (fun n => le_length 8 n) (fun _ => True)
      (fun p n hp hn _ => by
        have := putLen32_fin p n hp hn
        exact (congrArg (fun o => o >>= Md.fix) this).trans (fix_fin p n hp))
      trivial m stale hm ha (fun _ => trivial),
    fun hne ha => process_aligned _ wf f h m stale hm hne ha⟩

end Kryptos.Md
