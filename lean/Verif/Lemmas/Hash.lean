import Verif.Model.HashCommon
import Verif.Spec.MerkleDamgard
/- The message processing loop of the hash macros iterates the compression function. -/
namespace Kryptos.Hash
open Kryptos.Spec.MD

theorem beNat_append_single (l : Bytes) (x : Byte) : beNat (l ++ [x]) = 256 * beNat l + x.toNat := by
  simp [beNat]

theorem beNat_append_zeros (l : Bytes) (k : Nat) :
    beNat (l ++ List.replicate k 0#8) = beNat l * 256 ^ k := by
  induction k with
  | zero => simp
  | succ k ih =>
    rw [List.replicate_succ', ← List.append_assoc, beNat_append_single, ih]
    simp [Nat.pow_succ]
    rw [Nat.mul_comm 256, Nat.mul_assoc]

theorem beNat_zeros (k : Nat) : beNat (List.replicate k 0#8) = 0 := by
  have := beNat_append_zeros [] k
  simpa [beNat] using this

theorem shl_or {w : Nat} (hw : 8 ≤ w) (n : Nat) (x : Byte) :
    (BitVec.ofNat w n <<< 8) ||| x.setWidth w = BitVec.ofNat w (256 * n + x.toNat) := by
  have hand : (BitVec.ofNat w n <<< 8) &&& x.setWidth w = 0#w := by
    apply BitVec.eq_of_getLsbD_eq
    intro i hi
    simp only [BitVec.getLsbD_and, BitVec.getLsbD_shiftLeft, BitVec.getLsbD_setWidth,
      BitVec.getLsbD_zero]
    by_cases h8 : i < 8
    · simp [h8]
    · rw [BitVec.getLsbD_of_ge x i (by omega)]; simp
  rw [← BitVec.add_eq_or_of_and_eq_zero _ _ hand]
  apply BitVec.eq_of_toNat_eq
  simp only [BitVec.toNat_add, BitVec.toNat_shiftLeft, BitVec.toNat_ofNat, BitVec.toNat_setWidth,
    Nat.shiftLeft_eq]
  have hx : x.toNat % 2 ^ w = x.toNat := Nat.mod_eq_of_lt
    (Nat.lt_of_lt_of_le x.isLt (Nat.pow_le_pow_right (by omega) hw))
  rw [hx, Nat.add_mod, Nat.mod_mod, Nat.mod_mul_mod, ← Nat.add_mod]
  congr 1
  omega

theorem shl_ofNat {w : Nat} (n k : Nat) :
    BitVec.ofNat w n <<< (8 * k) = BitVec.ofNat w (n * 256 ^ k) := by
  apply BitVec.eq_of_toNat_eq
  simp only [BitVec.toNat_shiftLeft, BitVec.toNat_ofNat, Nat.shiftLeft_eq]
  rw [Nat.mod_mul_mod, Nat.pow_mul]

/-- The words of a buffer that may be shorter than `n` words, incomplete words right adjusted. -/
def ws (w wb n : Nat) (buf : Bytes) : List (BitVec w) :=
  (List.range n).map fun j => BitVec.ofNat w (beNat ((buf.drop (j * wb)).take wb))

theorem ws_length (w wb n : Nat) (buf : Bytes) : (ws w wb n buf).length = n := by simp [ws]

theorem ws_get (w wb n : Nat) (buf : Bytes) (j : Nat) (hj : j < n) :
    (ws w wb n buf)[j]? = some (BitVec.ofNat w (beNat ((buf.drop (j * wb)).take wb))) := by
  simp [ws, List.getElem?_map, List.getElem?_range hj]

theorem ws_beWords (w wb n : Nat) (hwb : 0 < wb) (buf : Bytes) (h : buf.length = n * wb) :
    ws w wb n buf = beWords w wb buf := by
  unfold ws beWords chunks
  rw [h, Nat.mul_div_cancel _ hwb, List.map_map]; rfl

theorem ws_nil (w wb n : Nat) : ws w wb n [] = List.replicate n 0 := by
  apply List.ext_getElem?
  intro j
  by_cases hj : j < n
  · rw [ws_get _ _ _ _ _ hj]; simp [hj, beNat]
  · simp [ws, hj]

theorem ws_zeros (w wb n k : Nat) : ws w wb n (List.replicate k 0#8) = List.replicate n 0 := by
  apply List.ext_getElem?
  intro j
  by_cases hj : j < n
  · rw [ws_get _ _ _ _ _ hj]
    simp [hj, List.drop_replicate, List.take_replicate, beNat_zeros]
  · simp [ws, hj]

/-- Writing one word. -/
theorem ws_set (w wb n : Nat) (a b : Bytes) (i : Nat) (v : BitVec w)
    (hi : i < n → v = BitVec.ofNat w (beNat ((b.drop (i * wb)).take wb)))
    (ho : ∀ j, j < n → j ≠ i → beNat ((a.drop (j * wb)).take wb) = beNat ((b.drop (j * wb)).take wb)) :
    (ws w wb n a).set i v = ws w wb n b := by
  apply List.ext_getElem?
  intro j
  by_cases hj : j < n
  · rw [List.getElem?_set, ws_length, ws_get _ _ _ _ _ hj, ws_get _ _ _ _ _ hj]
    by_cases hij : i = j
    · subst hij; simp [hj, hi hj]
    · simp [hij, ho j hj (fun h => hij h.symm)]
  · rw [List.getElem?_eq_none (by simp [ws]; omega), List.getElem?_eq_none (by simp [ws]; omega)]

theorem ldLoop_append {w : Nat} (tab : List Nat) (xs : Bytes) (x : Byte) :
    ∀ (b : Nat) (inp : List (BitVec w)), ldLoop tab (xs ++ [x]) b inp = (do
      let inp ← ldLoop tab xs b inp
      let i ← rd tab (b + xs.length)
      let v ← rd inp i
      .ok (inp.set i ((v <<< 8) ||| x.setWidth w))) := by
  induction xs with
  | nil =>
    intro b inp
    simp only [List.nil_append, ldLoop, Out.bind_ok, List.length_nil, Nat.add_zero]
  | cons y ys ih =>
    intro b inp
    simp only [List.cons_append, ldLoop, List.length_cons]
    cases rd tab b with
    | ub => simp
    | ok i =>
      simp only [Out.bind_ok]
      cases rd inp i with
      | ub => simp
      | ok v => simp only [Out.bind_ok, ih]; rw [show b + 1 + ys.length = b + (ys.length + 1) by omega]

/-- A correct index table. -/
def TabOk (tab : List Nat) (wb nr : Nat) : Prop := ∀ b, b < nr * wb → tab[b]? = some (b / wb)

theorem TabOk.rd {tab : List Nat} {wb nr : Nat} (h : TabOk tab wb nr) {b : Nat} (hb : b < nr * wb) :
    rd tab b = .ok (b / wb) := by simp [Kryptos.rd, h b hb]

theorem slice_other (buf t : Bytes) (wb j : Nat)
    (h : (j + 1) * wb ≤ buf.length ∨ buf.length + t.length ≤ j * wb) :
    ((buf ++ t).drop (j * wb)).take wb = (buf.drop (j * wb)).take wb := by
  rcases h with h | h
  · rw [Nat.succ_mul] at h
    rw [List.drop_append_of_le_length (by omega), List.take_append_of_le_length (by simp; omega)]
  · rw [List.drop_eq_nil_of_le (by simp; omega), List.drop_eq_nil_of_le (by omega)]

theorem slice_same (buf t : Bytes) (wb j : Nat) (h1 : j * wb ≤ buf.length)
    (h2 : buf.length + t.length ≤ (j + 1) * wb) :
    ((buf ++ t).drop (j * wb)).take wb = (buf.drop (j * wb)).take wb ++ t := by
  rw [Nat.succ_mul] at h2
  rw [List.drop_append_of_le_length h1, List.take_of_length_le (by simp; omega),
    List.take_of_length_le (by simp; omega)]

theorem div_bounds (b wb : Nat) (hwb : 0 < wb) : b / wb * wb ≤ b ∧ b < (b / wb + 1) * wb := by
  have h1 := Nat.div_mul_le_self b wb
  have h2 := Nat.lt_div_mul_add (a := b) hwb
  rw [Nat.succ_mul]; omega

theorem ldLoop_eq {w : Nat} (hw : 8 ≤ w) (tab : List Nat) (wb nr : Nat) (hwb : 0 < wb)
    (ht : TabOk tab wb nr) (buf : Bytes) (h : buf.length ≤ nr * wb) :
    ldLoop tab buf 0 (List.replicate nr 0) = .ok (ws w wb nr buf) := by
  induction hn : buf.length generalizing buf with
  | zero =>
    have : buf = [] := List.length_eq_zero_iff.mp hn
    subst this; rw [ws_nil]; rfl
  | succ n ih =>
    obtain ⟨xs, x, rfl⟩ : ∃ xs x, buf = xs ++ [x] := by
      have hne : buf ≠ [] := by intro h0; subst h0; simp at hn
      exact ⟨buf.dropLast, buf.getLast hne, (List.dropLast_concat_getLast hne).symm⟩
    have hl : xs.length = n := by simpa using hn
    simp only [List.length_append, List.length_cons, List.length_nil] at h
    have hi : xs.length / wb < nr := Nat.div_lt_of_lt_mul (by rw [Nat.mul_comm]; omega)
    have hd := div_bounds xs.length wb hwb
    rw [ldLoop_append, ih xs (by omega) hl]
    simp only [Out.bind_ok, Nat.zero_add]
    rw [ht.rd (by omega)]
    simp only [Out.bind_ok]
    have hr : rd (ws w wb nr xs) (xs.length / wb) = .ok (BitVec.ofNat w
        (beNat ((xs.drop (xs.length / wb * wb)).take wb))) := by
      simp [rd, ws_get _ _ _ _ _ hi]
    rw [hr]
    simp only [Out.bind_ok]
    rw [shl_or hw]
    congr 1
    refine ws_set w wb nr xs (xs ++ [x]) _ _ ?_ ?_
    · intro _
      rw [slice_same xs [x] wb _ hd.1 (by simp; omega), beNat_append_single]
    · intro j _ hne
      rw [slice_other]
      by_cases hj : j < xs.length / wb
      · left
        have := Nat.mul_le_mul_right wb (show j + 1 ≤ xs.length / wb by omega)
        omega
      · right
        have := Nat.mul_le_mul_right wb (show xs.length / wb + 1 ≤ j by omega)
        simp only [List.length_cons, List.length_nil]
        omega

theorem ld_eq {w : Nat} (hw : 8 ≤ w) (tab : List Nat) (wb nr : Nat) (hwb : 0 < wb)
    (ht : TabOk tab wb nr) (buf : Bytes) (h : buf.length ≤ nr * wb) (input : List (BitVec w)) :
    ld wb nr tab buf input = .ok (ws w wb nr buf) := by
  unfold ld
  rw [if_neg (by omega), ldLoop_eq hw tab wb nr hwb ht buf h]

variable {w : Nat} {σ : Type}

/-- General conditions on an instantiation: word size at least a byte, correct index table, room
for the length. -/
structure Wf (A : Alg w σ) : Prop where
  w8 : 8 ≤ w
  wb_pos : 0 < A.wb
  nr_pos : 0 < A.nr
  tab : TabOk A.tab A.wb A.nr
  off : A.lenOff < A.bs
  off_pos : 0 < A.lenOff

/-- Writing the padding marker. -/
theorem tok_eq (A : Alg w σ) (h : Wf A) (buf : Bytes) (hb : buf.length < A.bs) :
    (do let v ← rd (ws w A.wb A.nr buf) (buf.length / A.wb)
        wr (ws w A.wb A.nr buf) (buf.length / A.wb)
          (((v <<< 8) ||| A.tok.setWidth w) <<< (8 * (A.wb - 1) - (buf.length % A.wb) * 8))) =
    .ok (ws w A.wb A.nr (buf ++ A.tok :: List.replicate (A.bs - 1 - buf.length) 0#8)) := by
  have hb' : buf.length < A.nr * A.wb := hb
  have hi : buf.length / A.wb < A.nr := Nat.div_lt_of_lt_mul (by rw [Nat.mul_comm]; exact hb)
  have hd := div_bounds buf.length A.wb h.wb_pos
  have hm := Nat.div_add_mod buf.length A.wb
  have hml := Nat.mod_lt buf.length h.wb_pos
  rw [Nat.mul_comm] at hm
  have hr : rd (ws w A.wb A.nr buf) (buf.length / A.wb) = .ok (BitVec.ofNat w
        (beNat ((buf.drop (buf.length / A.wb * A.wb)).take A.wb))) := by
    simp [rd, ws_get _ _ _ _ _ hi]
  rw [hr]
  simp only [Out.bind_ok, wr, ws_length]
  rw [if_pos hi, shl_or h.w8]
  congr 1
  have hk : 8 * (A.wb - 1) - buf.length % A.wb * 8 = 8 * (A.wb - 1 - buf.length % A.wb) := by omega
  rw [hk, shl_ofNat]
  have hle := Nat.mul_le_mul_right A.wb (show buf.length / A.wb + 1 ≤ A.nr by omega)
  have hbs : A.bs = A.nr * A.wb := rfl
  -- split the padding at the end of the word
  have hsplit : List.replicate (A.bs - 1 - buf.length) 0#8 =
      List.replicate (A.wb - 1 - buf.length % A.wb) 0#8 ++
        List.replicate (A.bs - (buf.length / A.wb + 1) * A.wb) 0#8 := by
    rw [List.replicate_append_replicate]
    congr 1
    rw [Nat.succ_mul] at hle ⊢
    omega
  refine ws_set w A.wb A.nr buf _ _ _ ?_ ?_
  · intro _
    rw [hsplit, ← List.cons_append, ← List.append_assoc, slice_other, slice_same _ _ _ _ hd.1,
      show A.tok :: List.replicate (A.wb - 1 - buf.length % A.wb) 0#8 =
        [A.tok] ++ List.replicate (A.wb - 1 - buf.length % A.wb) 0#8 from rfl,
      ← List.append_assoc, beNat_append_zeros, beNat_append_single]
    · simp only [List.length_cons, List.length_replicate]
      rw [Nat.succ_mul]; omega
    · left
      simp only [List.length_append, List.length_cons, List.length_replicate]
      rw [Nat.succ_mul]; omega
  · intro j hjn hne
    by_cases hj : j < buf.length / A.wb
    · rw [slice_other]
      left
      have := Nat.mul_le_mul_right A.wb (show j + 1 ≤ buf.length / A.wb by omega)
      omega
    · have hjw := Nat.mul_le_mul_right A.wb (show buf.length / A.wb + 1 ≤ j by omega)
      rw [List.drop_eq_nil_of_le (by omega), List.append_cons, List.drop_append,
        List.drop_eq_nil_of_le (by simp; omega)]
      rw [List.nil_append, List.drop_replicate, List.take_replicate, beNat_zeros]; simp [beNat]

/-- The result of storing the length and of the adjustment. -/
def fin (A : Alg w σ) (total : W64) (input : List (BitVec w)) : Out (List (BitVec w)) := do
  let i ← A.putLen input total
  A.fix i

theorem lastBlock_one (A : Alg w σ) (h : Wf A) (f : σ → Bytes → σ) (total : W64)
    (hf : ∀ st blk, blk.length = A.bs → A.compress st (ws w A.wb A.nr blk) = .ok (f st blk))
    (buf : Bytes) (hb : buf.length < A.lenOff) (blk : Bytes) (hblk : blk.length = A.bs)
    (hfin : fin A total (ws w A.wb A.nr (buf ++ A.tok :: List.replicate (A.bs - 1 - buf.length) 0#8)) =
      .ok (ws w A.wb A.nr blk)) (st : σ) :
    doBlock A total st (ws w A.wb A.nr buf) buf.length = .ok (f st blk) := by
  have hb' : buf.length < A.bs := Nat.lt_trans hb h.off
  unfold fin at hfin
  unfold doBlock pass
  rw [if_pos hb']
  unfold applyPad
  rw [h.tab.rd hb']
  simp only [Out.bind_ok, Bool.false_eq_true, if_false]
  rw [tok_eq A h buf hb']
  simp only [Out.bind_ok]
  rw [if_pos (Or.inl hb)]
  cases hp : A.putLen (ws w A.wb A.nr (buf ++ A.tok :: List.replicate (A.bs - 1 - buf.length) 0#8)) total with
  | ub => rw [hp] at hfin; cases hfin
  | ok i =>
    rw [hp] at hfin
    simp only [Out.bind_ok] at hfin
    simp only [Out.bind_ok, Out.pure_eq, Bool.false_eq_true, if_false, hfin]
    rw [hf st blk hblk]
    simp

theorem lastBlock_two (A : Alg w σ) (h : Wf A) (f : σ → Bytes → σ) (total : W64)
    (hf : ∀ st blk, blk.length = A.bs → A.compress st (ws w A.wb A.nr blk) = .ok (f st blk))
    (buf : Bytes) (hlo : A.lenOff ≤ buf.length) (hb' : buf.length < A.bs) (blk : Bytes)
    (hblk : blk.length = A.bs)
    (hfin : fin A total (ws w A.wb A.nr (List.replicate A.bs 0#8)) = .ok (ws w A.wb A.nr blk)) (st : σ) :
    doBlock A total st (ws w A.wb A.nr buf) buf.length =
      .ok (f (f st (buf ++ A.tok :: List.replicate (A.bs - 1 - buf.length) 0#8)) blk) := by
  unfold fin at hfin
  unfold doBlock pass
  rw [if_pos hb']
  unfold applyPad
  rw [h.tab.rd hb']
  simp only [Out.bind_ok, Bool.false_eq_true, if_false]
  rw [tok_eq A h buf hb']
  simp only [Out.bind_ok]
  rw [if_neg (by simp; omega)]
  simp only [Out.pure_eq, Out.bind_ok, if_true]
  rw [hf st _ (by simp; omega), ld_eq h.w8 A.tab A.wb A.nr h.wb_pos h.tab [] (by simp), ws_nil,
    ← ws_zeros w A.wb A.nr A.bs]
  simp only [Out.bind_ok, if_true, or_true]
  cases hp : A.putLen (ws w A.wb A.nr (List.replicate A.bs 0#8)) total with
  | ub => rw [hp] at hfin; cases hfin
  | ok i =>
    rw [hp] at hfin
    simp only [Out.bind_ok] at hfin
    simp only [Out.bind_ok, Bool.false_eq_true, if_false, hfin]
    rw [if_pos hb']
    simp only [Out.bind_ok]
    rw [hf _ blk hblk]
    simp

theorem fullBlock (A : Alg w σ) (f : σ → Bytes → σ) (total : W64)
    (hf : ∀ st blk, blk.length = A.bs → A.compress st (ws w A.wb A.nr blk) = .ok (f st blk))
    (blk : Bytes) (hb : blk.length = A.bs) (st : σ) :
    doBlock A total st (ws w A.wb A.nr blk) blk.length = .ok (f st blk) := by
  unfold doBlock pass
  rw [if_neg (by omega)]
  simp only [Out.bind_ok, hf st blk hb, Out.pure_eq, Bool.false_eq_true, if_false]

theorem chunks_append {α : Type} (n : Nat) (hn : 0 < n) (a l : List α) (h : a.length = n) :
    chunks n (a ++ l) = a :: chunks n l := by
  unfold chunks
  rw [List.length_append, h, Nat.add_div_left _ hn, List.range_succ_eq_map, List.map_cons]
  congr 1
  · simp [← h]
  · rw [List.map_map]
    apply List.map_congr_left
    intro i _
    simp only [Function.comp, Nat.succ_eq_add_one]
    rw [Nat.succ_mul, Nat.add_comm (i * n) n, ← h, ← List.drop_drop, List.drop_left]

theorem chunks_nil {α : Type} (n : Nat) : chunks n ([] : List α) = [] := by simp [chunks]

theorem chunks_append_multi {α : Type} (n : Nat) (hn : 0 < n) (a l : List α)
    (h : a.length % n = 0) : chunks n (a ++ l) = chunks n a ++ chunks n l := by
  induction hk : a.length using Nat.strongRecOn generalizing a with
  | ind k ih =>
    by_cases h0 : a = []
    · subst h0; simp [chunks_nil]
    · have hpos := List.length_pos_iff.mpr h0
      have hge : n ≤ a.length := by
        apply Nat.le_of_not_lt; intro hlt
        rw [Nat.mod_eq_of_lt hlt] at h; omega
      have hs : a = a.take n ++ a.drop n := (List.take_append_drop n a).symm
      have hl : (a.take n).length = n := by simp; omega
      have hm : (a.drop n).length % n = 0 := by
        rw [List.length_drop]
        have := Nat.mod_eq_sub_mod hge
        omega
      conv => lhs; rw [hs, List.append_assoc, chunks_append n hn _ _ hl,
        ih _ (by simp; omega) _ hm rfl]
      conv => rhs; rw [hs, chunks_append n hn _ _ hl]
      rfl

/-- The loop fills the buffer. -/
theorem procLoop_fill (A : Alg w σ) (total : W64) (xs : Bytes) :
    ∀ (buf rest : Bytes) (input : List (BitVec w)) (st : σ), buf.length + xs.length ≤ A.bs →
      procLoop A total (xs ++ rest) buf input st = procLoop A total rest (buf ++ xs) input st := by
  induction xs with
  | nil => intro buf rest input st _; simp
  | cons x xs ih =>
    intro buf rest input st h
    simp only [List.length_cons] at h
    simp only [List.cons_append, procLoop]
    rw [if_pos (by omega), ih _ _ _ _ (by simp; omega)]
    simp

/-- The loop on a message of full blocks followed by a last block, which is handled by
`doBlock`. -/
theorem procLoop_eq (A : Alg w σ) (h : Wf A) (f : σ → Bytes → σ) (total : W64)
    (hf : ∀ st blk, blk.length = A.bs → A.compress st (ws w A.wb A.nr blk) = .ok (f st blk))
    (m : Bytes) : ∀ (last : Bytes) (input : List (BitVec w)) (st : σ), m.length % A.bs = 0 →
      last.length ≤ A.bs → (0 < last.length ∨ m = []) →
      procLoop A total (m ++ last) [] input st =
        doBlock A total ((chunks A.bs m).foldl f st) (ws w A.wb A.nr last) last.length := by
  have hbs : 0 < A.bs := Nat.mul_pos h.nr_pos h.wb_pos
  -- with a full buffer pending
  have key : ∀ (n : Nat) (m : Bytes), m.length = n → ∀ (blk last : Bytes)
      (input : List (BitVec w)) (st : σ), m.length % A.bs = 0 → blk.length = A.bs →
      last.length ≤ A.bs → 0 < last.length →
      procLoop A total (m ++ last) blk input st =
        doBlock A total ((chunks A.bs (blk ++ m)).foldl f st) (ws w A.wb A.nr last) last.length := by
    intro n
    induction n using Nat.strongRecOn with
    | ind n ih =>
      intro m hn blk last input st hm hblk hlast hpos
      rw [chunks_append _ hbs _ _ hblk, List.foldl_cons]
      by_cases h0 : m = []
      · subst h0
        cases last with
        | nil => simp at hpos
        | cons x xs =>
          simp only [List.nil_append, procLoop]
          rw [if_neg (by omega), ld_eq h.w8 A.tab A.wb A.nr h.wb_pos h.tab blk (by rw [hblk]; exact Nat.le_refl _)]
          simp only [Out.bind_ok]
          rw [fullBlock A f total hf blk hblk st]
          simp only [Out.bind_ok]
          have := procLoop_fill A total xs [x] [] (ws w A.wb A.nr blk) (f st blk)
            (by simp at hlast ⊢; omega)
          rw [List.append_nil] at this
          rw [this]
          simp only [List.singleton_append, procLoop]
          rw [ld_eq h.w8 A.tab A.wb A.nr h.wb_pos h.tab (x :: xs) hlast]
          simp [chunks_nil]
      · have hp := List.length_pos_iff.mpr h0
        have hge : A.bs ≤ m.length := by
          apply Nat.le_of_not_lt; intro hlt
          rw [Nat.mod_eq_of_lt hlt] at hm; omega
        have hl : (m.take A.bs).length = A.bs := by simp; omega
        have hm' : (m.drop A.bs).length % A.bs = 0 := by
          rw [List.length_drop]
          have := Nat.mod_eq_sub_mod hge
          omega
        have hrec := ih (m.drop A.bs).length (by simp; omega) (m.drop A.bs) rfl (m.take A.bs) last
          (ws w A.wb A.nr blk) (f st blk) hm' hl hlast hpos
        rw [List.take_append_drop] at hrec
        rw [← hrec]
        -- split the first byte
        match hmt : m.take A.bs, hl with
        | x :: xs, hl =>
          have hmm : m = x :: (xs ++ m.drop A.bs) := by
            rw [← List.cons_append, ← hmt, List.take_append_drop]
          conv => lhs; rw [hmm]
          simp only [List.cons_append, procLoop]
          rw [if_neg (by omega), ld_eq h.w8 A.tab A.wb A.nr h.wb_pos h.tab blk (by rw [hblk]; exact Nat.le_refl _)]
          simp only [Out.bind_ok]
          rw [fullBlock A f total hf blk hblk st]
          simp only [Out.bind_ok]
          rw [List.append_assoc, procLoop_fill A total xs [x] _ _ _ (by simp at hl ⊢; omega)]
          rfl
        | [], hl => simp at hl; omega
  intro last input st hm hlast hne
  by_cases h0 : m = []
  · subst h0
    have := procLoop_fill A total last [] [] input st (by simpa using hlast)
    rw [List.append_nil] at this
    rw [List.nil_append, this]
    simp only [List.nil_append, procLoop]
    rw [ld_eq h.w8 A.tab A.wb A.nr h.wb_pos h.tab last hlast]
    simp [chunks_nil]
  · have hpos : 0 < last.length := hne.resolve_right h0
    have hp := List.length_pos_iff.mpr h0
    have hge : A.bs ≤ m.length := by
      apply Nat.le_of_not_lt; intro hlt
      rw [Nat.mod_eq_of_lt hlt] at hm; omega
    have hl : (m.take A.bs).length = A.bs := by simp; omega
    have hm' : (m.drop A.bs).length % A.bs = 0 := by
      rw [List.length_drop]
      have := Nat.mod_eq_sub_mod hge
      omega
    have := key (m.drop A.bs).length (m.drop A.bs) rfl (m.take A.bs) last input st hm' hl hlast hpos
    rw [List.take_append_drop] at this
    rw [← this]
    have hs : m ++ last = m.take A.bs ++ (m.drop A.bs ++ last) := by
      rw [← List.append_assoc, List.take_append_drop]
    rw [hs, procLoop_fill A total (m.take A.bs) [] _ _ _ (by simp; omega)]
    rfl

/-- The bit length as the code computes it. -/
theorem total_eq (n : Nat) (h : n < 2 ^ 61) :
    ((BitVec.ofNat 64 n <<< 3 : W64) >>> 3).toNat = n ∧
    (BitVec.ofNat 64 n <<< 3 : W64) = BitVec.ofNat 64 (8 * n) := by
  constructor
  · rw [BitVec.toNat_ushiftRight, BitVec.toNat_shiftLeft, BitVec.toNat_ofNat, Nat.shiftLeft_eq,
      Nat.shiftRight_eq_div_pow]
    have : n % 2 ^ 64 = n := Nat.mod_eq_of_lt (by omega)
    rw [this, Nat.mod_eq_of_lt (by omega)]
    omega
  · apply BitVec.eq_of_toNat_eq
    rw [BitVec.toNat_shiftLeft, BitVec.toNat_ofNat, BitVec.toNat_ofNat, Nat.shiftLeft_eq]
    omega

/-- A message whose length is a positive multiple of the block size is hashed without padding. -/
theorem process_aligned (A : Alg w σ) (h : Wf A) (f : σ → Bytes → σ)
    (hf : ∀ st blk, blk.length = A.bs → A.compress st (ws w A.wb A.nr blk) = .ok (f st blk))
    (m : Bytes) (stale : List (BitVec w)) (hm : m.length < 2 ^ 61) (hne : m ≠ [])
    (hmod : m.length % A.bs = 0) :
    processMessage A m stale = .ok (iterate A.bs f A.init m) := by
  have hbs : 0 < A.bs := Nat.mul_pos h.nr_pos h.wb_pos
  have hp := List.length_pos_iff.mpr hne
  unfold processMessage iterate
  have ht := total_eq m.length hm
  simp only [ht.1]
  rw [if_pos hp, List.take_length]
  have hge : A.bs ≤ m.length := by
    apply Nat.le_of_not_lt; intro hlt
    rw [Nat.mod_eq_of_lt hlt] at hmod; omega
  have hlast : (m.drop (m.length - A.bs)).length = A.bs := by simp; omega
  have hfm : (m.take (m.length - A.bs)).length % A.bs = 0 := by
    simp only [List.length_take]
    rw [Nat.min_eq_left (by omega)]
    have := Nat.mod_eq_sub_mod hge
    omega
  have := procLoop_eq A h f (BitVec.ofNat 64 m.length <<< 3) hf (m.take (m.length - A.bs))
    (m.drop (m.length - A.bs)) stale A.init hfm (by omega) (by omega)
  rw [List.take_append_drop] at this
  rw [this, fullBlock A f _ hf _ hlast]
  congr 1
  conv => rhs; rw [← List.take_append_drop (m.length - A.bs) m]
  rw [chunks_append_multi _ hbs _ _ hfm, List.foldl_append]
  have hc := chunks_append A.bs hbs (m.drop (m.length - A.bs)) [] hlast
  rw [List.append_nil] at hc
  rw [hc]
  simp [chunks_nil]

/-- Any other message is padded. -/
theorem process_padded (A : Alg w σ) (h : Wf A) (f : σ → Bytes → σ)
    (hf : ∀ st blk, blk.length = A.bs → A.compress st (ws w A.wb A.nr blk) = .ok (f st blk))
    (len : Nat → Bytes) (hlen : ∀ n, (len n).length = A.bs - A.lenOff) (P : Bytes → Prop)
    (hP : ∀ p n, List.length p = A.lenOff → n < 2 ^ 64 → P p →
      fin A (BitVec.ofNat 64 n) (ws w A.wb A.nr (p ++ List.replicate (A.bs - A.lenOff) 0#8)) =
        .ok (ws w A.wb A.nr (p ++ len n)))
    (hP0 : P (List.replicate A.lenOff 0#8))
    (m : Bytes) (stale : List (BitVec w)) (hm : m.length < 2 ^ 61)
    (hmod : m.length % A.bs ≠ 0 ∨ m = [])
    (hPm : m.length % A.bs < A.lenOff → P (m.drop (m.length - m.length % A.bs) ++
      A.tok :: List.replicate (A.lenOff - 1 - m.length % A.bs) 0#8)) :
    processMessage A m stale =
      .ok (iterate A.bs f A.init (pad A.bs (A.bs - A.lenOff) A.tok len m)) := by
  have hbs : 0 < A.bs := Nat.mul_pos h.nr_pos h.wb_pos
  have hoff := h.off
  have hoff0 := h.off_pos
  have ht := total_eq m.length hm
  generalize htot : (BitVec.ofNat 64 m.length <<< 3 : W64) = total at ht
  have hrlt : m.length % A.bs < A.bs := Nat.mod_lt _ hbs
  have hrle : m.length % A.bs ≤ m.length := Nat.mod_le _ _
  -- the part after the last full block
  obtain ⟨full, buf, hfb, hfm, hbl⟩ : ∃ full buf : Bytes, m = full ++ buf ∧
      full.length % A.bs = 0 ∧ buf = m.drop (m.length - m.length % A.bs) := by
    refine ⟨m.take (m.length - m.length % A.bs), m.drop (m.length - m.length % A.bs),
      (List.take_append_drop _ m).symm, ?_, rfl⟩
    simp only [List.length_take]
    rw [Nat.min_eq_left (by omega)]
    exact Nat.mod_eq_zero_of_dvd (Nat.dvd_sub_mod _)
  have hblen : buf.length = m.length % A.bs := by rw [hbl]; simp; omega
  have hproc : processMessage A m stale = doBlock A total ((chunks A.bs full).foldl f A.init)
      (ws w A.wb A.nr buf) buf.length := by
    unfold processMessage
    simp only [htot, ht.1]
    by_cases h0 : m = []
    · have hl0 : ¬ (m.length > 0) := by rw [h0]; simp
      have hf0 : full = [] ∧ buf = [] := by rw [h0] at hfb; simpa using hfb.symm
      rw [if_neg hl0, ld_eq h.w8 A.tab A.wb A.nr h.wb_pos h.tab [] (by simp), hf0.1, hf0.2]
      simp [chunks_nil]
    · have hpos := List.length_pos_iff.mpr h0
      rw [if_pos hpos, List.take_length]
      rcases hmod with hmod | hmod
      · conv => lhs; rw [hfb]
        exact procLoop_eq A h f total hf full buf stale A.init hfm (by omega) (by omega)
      · exact absurd hmod h0
  rw [hproc]
  -- the padded message
  have hmlen : m.length = full.length + buf.length := by
    rw [← List.length_append, ← hfb]
  have hpadeq : ∀ k, (A.bs - (m.length + 1 + (A.bs - A.lenOff)) % A.bs) % A.bs = k →
      pad A.bs (A.bs - A.lenOff) A.tok len m =
        full ++ (buf ++ A.tok :: (List.replicate k 0#8 ++ len (8 * m.length))) := by
    intro k hk
    unfold pad
    rw [hk]
    conv => lhs; rw [show m ++ A.tok :: (List.replicate k 0#8 ++ len (8 * m.length)) =
      (full ++ buf) ++ A.tok :: (List.replicate k 0#8 ++ len (8 * m.length)) by rw [← hfb]]
    rw [List.append_assoc]
  have hmodk : (m.length + 1 + (A.bs - A.lenOff)) % A.bs =
      (buf.length + 1 + (A.bs - A.lenOff)) % A.bs := by
    rw [hmlen, Nat.add_assoc full.length, Nat.add_assoc full.length, Nat.add_mod, hfm, Nat.zero_add,
      Nat.mod_mod]
  unfold iterate
  by_cases hlo : buf.length < A.lenOff
  · have hk : (A.bs - (m.length + 1 + (A.bs - A.lenOff)) % A.bs) % A.bs = A.lenOff - 1 - buf.length := by
      rw [hmodk]
      by_cases he : buf.length + 1 = A.lenOff
      · rw [he, show A.lenOff + (A.bs - A.lenOff) = A.bs by omega, Nat.mod_self, Nat.sub_zero,
          Nat.mod_self]; omega
      · rw [Nat.mod_eq_of_lt (show buf.length + 1 + (A.bs - A.lenOff) < A.bs by omega),
          Nat.mod_eq_of_lt (by omega)]
        omega
    rw [hpadeq _ hk, chunks_append_multi _ hbs _ _ hfm, List.foldl_append]
    have hblk : (buf ++ A.tok :: (List.replicate (A.lenOff - 1 - buf.length) 0#8 ++
        len (8 * m.length))).length = A.bs := by
      simp [hlen]; omega
    have hc := chunks_append A.bs hbs _ [] hblk
    rw [List.append_nil] at hc
    rw [hc]
    simp only [chunks_nil, List.foldl_cons, List.foldl_nil]
    refine lastBlock_one A h f total hf buf hlo _ hblk ?_ _
    have := hP (buf ++ A.tok :: List.replicate (A.lenOff - 1 - buf.length) 0#8) (8 * m.length)
      (by simp; omega) (by omega)
      (by rw [hblen] at hlo; have := hPm hlo; rw [← hbl, ← hblen] at this; exact this)
    rw [← ht.2] at this
    rw [show A.bs - 1 - buf.length = (A.lenOff - 1 - buf.length) + (A.bs - A.lenOff) by omega,
      ← List.replicate_append_replicate]
    simpa using this
  · have hk : (A.bs - (m.length + 1 + (A.bs - A.lenOff)) % A.bs) % A.bs =
        (A.bs - 1 - buf.length) + A.lenOff := by
      rw [hmodk]
      have hm1 : (buf.length + 1 + (A.bs - A.lenOff)) % A.bs =
          buf.length + 1 + (A.bs - A.lenOff) - A.bs := by
        rw [Nat.mod_eq_sub_mod (by omega), Nat.mod_eq_of_lt (by omega)]
      rw [hm1, Nat.mod_eq_of_lt (by omega)]
      omega
    rw [hpadeq _ hk, chunks_append_multi _ hbs _ _ hfm, List.foldl_append]
    have hre : buf ++ A.tok :: (List.replicate (A.bs - 1 - buf.length + A.lenOff) 0#8 ++
          len (8 * m.length)) =
        (buf ++ A.tok :: List.replicate (A.bs - 1 - buf.length) 0#8) ++
          (List.replicate A.lenOff 0#8 ++ len (8 * m.length)) := by
      rw [← List.replicate_append_replicate]; simp only [List.append_assoc, List.cons_append]
    rw [hre]
    have hb1 : (buf ++ A.tok :: List.replicate (A.bs - 1 - buf.length) 0#8).length = A.bs := by
      simp; omega
    have hb2 : (List.replicate A.lenOff 0#8 ++ len (8 * m.length)).length = A.bs := by
      simp [hlen]; omega
    have hc := chunks_append A.bs hbs _ [] hb2
    rw [List.append_nil] at hc
    rw [chunks_append _ hbs _ _ hb1, hc]
    simp only [chunks_nil, List.foldl_cons, List.foldl_nil]
    refine lastBlock_two A h f total hf buf (by omega) (by omega) _ hb2 ?_ _
    have := hP (List.replicate A.lenOff 0#8) (8 * m.length) (by simp) (by omega) hP0
    rw [← ht.2, List.replicate_append_replicate,
      show A.lenOff + (A.bs - A.lenOff) = A.bs by omega] at this
    exact this

end Kryptos.Hash
