import Verif.Model.Huffman
import Mathlib.Tactic.Ring
import Mathlib.Data.List.Basic
/-
  Huffman coding: codes, the deflated text, inflating.
-/
namespace Kryptos.Huffman

/-- The character of a bit. -/
def chr (b : Bool) : Byte := if b then 0x31 else 0x30

/-- The characters of a list of bits. -/
def chars (l : List Bool) : Bytes := l.map chr

@[simp] theorem chars_length (l : List Bool) : (chars l).length = l.length := by simp [chars]
@[simp] theorem chars_append (l m : List Bool) : chars (l ++ m) = chars l ++ chars m := by simp [chars]
@[simp] theorem chars_cons (b : Bool) (l : List Bool) : chars (b :: l) = chr b :: chars l := rfl
@[simp] theorem chars_nil : chars [] = [] := rfl

theorem chr_ne_zero (b : Bool) : chr b ≠ 0 := by cases b <;> decide

/-- A table of codes as a function; bytes without code have the empty one. -/
def table (C : Byte → List Bool) : Codes :=
  (List.range 256).map fun c => if C (BitVec.ofNat 8 c) = [] then none else some (chars (C (BitVec.ofNat 8 c)))

theorem table_rd (C : Byte → List Bool) (b : Byte) :
    rd (table C) b.toNat = .ok (if C b = [] then none else some (chars (C b))) := by
  have hb := b.isLt
  rw [rd_eq_ok (by simp [table]; omega)]
  simp [table]

theorem codeOf_table (C : Byte → List Bool) (b : Byte) (h : C b ≠ []) : codeOf (table C) b = .ok (chars (C b)) := by
  rw [codeOf, table_rd, Out.bind_ok, if_neg h]

/-! ## Packing -/

theorem packByte_bits (b0 b1 b2 b3 b4 b5 b6 b7 : Bool) :
    bitsOf (codeBit (chr b0) <<< 7 ||| codeBit (chr b1) <<< 6 ||| codeBit (chr b2) <<< 5 ||| codeBit (chr b3) <<< 4 |||
      codeBit (chr b4) <<< 3 ||| codeBit (chr b5) <<< 2 ||| codeBit (chr b6) <<< 1 ||| codeBit (chr b7)) =
      [b0, b1, b2, b3, b4, b5, b6, b7] := by
  revert b0 b1 b2 b3 b4 b5 b6 b7
  decide +kernel

theorem packByte_run (l : List Bool) (p : Nat) (h : p + 8 ≤ l.length) :
    ∃ b, packByte (chars l) p = .ok b ∧ bitsOf b = (l.drop p).take 8 := by
  have hr : ∀ i (hi : i < l.length), rd (chars l) i = .ok (chr l[i]) := by
    intro i hi
    rw [rd_eq_ok (by simpa using hi)]
    simp [chars]
  have hp : packByte (chars l) p = .ok (codeBit (chr l[p]) <<< 7 ||| codeBit (chr l[p + 1]) <<< 6 ||| codeBit (chr l[p + 2]) <<< 5 |||
      codeBit (chr l[p + 3]) <<< 4 ||| codeBit (chr l[p + 4]) <<< 3 ||| codeBit (chr l[p + 5]) <<< 2 ||| codeBit (chr l[p + 6]) <<< 1 |||
      codeBit (chr l[p + 7])) := by
    simp only [packByte, hr p (by omega), hr (p + 1) (by omega), hr (p + 2) (by omega), hr (p + 3) (by omega), hr (p + 4) (by omega),
      hr (p + 5) (by omega), hr (p + 6) (by omega), hr (p + 7) (by omega), Out.bind_ok, Out.pure_eq]
  refine ⟨_, hp, ?_⟩
  rw [packByte_bits]
  rw [List.drop_eq_getElem_cons (by omega), List.drop_eq_getElem_cons (by omega), List.drop_eq_getElem_cons (by omega),
    List.drop_eq_getElem_cons (by omega), List.drop_eq_getElem_cons (by omega), List.drop_eq_getElem_cons (by omega),
    List.drop_eq_getElem_cons (by omega), List.drop_eq_getElem_cons (by omega)]
  rfl

theorem packLoop_run (cap : Nat) (l : List Bool) : ∀ (n p : Nat) (out : Bytes), p + 8 * n ≤ l.length → out.length + n ≤ cap →
    ∃ pl, packLoop cap (chars l) n p out = .ok (out ++ pl) ∧ pl.length = n ∧ pl.flatMap bitsOf = (l.drop p).take (8 * n)
  | 0, p, out, _, _ => ⟨[], by simp [packLoop], rfl, by simp⟩
  | n + 1, p, out, h, hc => by
    obtain ⟨b, h1, h2⟩ := packByte_run l p (by omega)
    obtain ⟨pl, h3, h4, h5⟩ := packLoop_run cap l n (p + 8) (out ++ [b]) (by omega) (by simp; omega)
    refine ⟨b :: pl, ?_, by simp [h4], ?_⟩
    · rw [packLoop, h1, Out.bind_ok, push, if_pos (by simp; omega), Out.bind_ok, h3]
      simp
    · rw [List.flatMap_cons, h2, h5, ← List.drop_drop, show 8 * (n + 1) = 8 + 8 * n by omega, List.take_add]

/-! ## The buffer -/

/-- The buffer holding some bits. -/
def bufOf (q : List Bool) : Bytes := chars q ++ List.replicate (1024 - q.length) 0x30#8

theorem bufOf_nil : bufOf [] = freshBuf := by
  rw [bufOf, freshBuf, chars_nil, List.nil_append, List.length_nil, Nat.sub_zero]

theorem bufOf_eq (q : List Bool) : bufOf q = chars (q ++ List.replicate (1024 - q.length) false) := by
  simp [bufOf, chars, chr]

theorem bufOf_wr (q : List Bool) (b : Bool) (h : q.length < 1024) : wr (bufOf q) q.length (chr b) = .ok (bufOf (q ++ [b])) := by
  rw [wr, if_pos (by simp [bufOf]; omega)]
  simp only [bufOf, Out.ok.injEq]
  rw [List.set_append_right _ _ (by simp), show 1024 - q.length = (1024 - q.length - 1) + 1 by omega]
  simp [List.replicate_succ, show 1024 - (q.length + 1) = 1024 - q.length - 1 by omega]

theorem fill_run (z : Bytes) : ∀ (cs q : List Bool), q.length ≤ 1024 → 1024 ≤ q.length + cs.length →
    fill (bufOf q) q.length (chars cs ++ z) =
      .ok (chars (q ++ cs.take (1024 - q.length)), 1024, chars (cs.drop (1024 - q.length)) ++ z)
  | [], q, h1, h2 => by
    have : q.length = 1024 := by simpa using Nat.le_antisymm h1 h2
    cases z with
    | nil => simp [fill, this, bufOf]
    | cons c z => simp [fill, this, bufOf]
  | b :: cs, q, h1, h2 => by
    by_cases h : q.length = 1024
    · simp [fill, h, bufOf]
    · have hlt : q.length < 1024 := by omega
      rw [chars_cons, List.cons_append, fill, if_neg (by rintro (h' | h'); exacts [h h', chr_ne_zero b h']), bufOf_wr q b hlt, Out.bind_ok]
      have ih := fill_run z cs (q ++ [b]) (by simp; omega) (by simp at h2 ⊢; omega)
      rw [show q.length + 1 = (q ++ [b]).length by simp, ih]
      have e : 1024 - q.length = (1024 - (q ++ [b]).length) + 1 := by simp; omega
      rw [e, List.take_succ_cons, List.drop_succ_cons]
      simp

theorem carry_run (z : Bytes) : ∀ (cs q : List Bool), q.length + cs.length ≤ 1024 →
    carry (bufOf q) q.length (chars cs ++ 0 :: z) = .ok (bufOf (q ++ cs), q.length + cs.length)
  | [], q, _ => by simp [carry]
  | b :: cs, q, h => by
    rw [chars_cons, List.cons_append, carry, if_neg (chr_ne_zero b), bufOf_wr q b (by simp at h; omega), Out.bind_ok]
    have ih := carry_run z cs (q ++ [b]) (by simp at h ⊢; omega)
    rw [show q.length + 1 = (q ++ [b]).length by simp, ih]
    simp [Nat.add_assoc, Nat.add_comm 1]

theorem copyCode_run (q c : List Bool) (out : Bytes) (h : q.length + c.length ≤ 1024) :
    copyCode ⟨bufOf q, q.length, out⟩ (chars c) = .ok ⟨bufOf (q ++ c), q.length + c.length, out⟩ := by
  have hl : (bufOf q).length = 1024 := by simp [bufOf]; omega
  rw [copyCode, if_pos (by rw [hl]; simpa using h)]
  simp only [bufOf, chars_length, Out.ok.injEq, St.mk.injEq, and_true]
  rw [List.take_append_of_le_length (by simp), List.take_of_length_le (by simp),
    List.drop_append, List.drop_eq_nil_of_le (by simp)]
  simp [Nat.sub_sub]

/-- Where the loop stands: after the header, whole bytes `pl` and the bits `q` in the buffer make up the bits `bits`. -/
structure Inv (hdr : Bytes) (s : St) (bits : List Bool) : Prop where
  ex : ∃ pl q, s = ⟨bufOf q, q.length, hdr ++ pl⟩ ∧ q.length < 1024 ∧ pl.flatMap bitsOf ++ q = bits ∧ 8 * pl.length + q.length = bits.length

theorem spill_run {hdr : Bytes} {pl : Bytes} {q c : List Bool} {cap : Nat} (hq : q.length < 1024) (hc : c.length < 255)
    (h : 1024 ≤ q.length + c.length) (hcap : hdr.length + pl.length + 128 ≤ cap) :
    ∃ pl' q', spill cap ⟨bufOf q, q.length, hdr ++ pl⟩ (chars c) = .ok ⟨bufOf q', q'.length, hdr ++ (pl ++ pl')⟩ ∧ q'.length < 255 ∧
      pl'.flatMap bitsOf ++ q' = q ++ c ∧ pl'.length = 128 := by
  have hz : codeData (chars c) = chars c ++ 0 :: List.replicate (254 - c.length) 0 := by
    rw [codeData, maxCode, chars_length, show 255 - c.length = (254 - c.length) + 1 by omega, List.replicate_succ]
  have hf := fill_run (0 :: List.replicate (254 - c.length) 0) c q (by omega) h
  have hlen : (q ++ c.take (1024 - q.length)).length = 1024 := by simp; omega
  obtain ⟨pl', p1, p2, p3⟩ := packLoop_run cap (q ++ c.take (1024 - q.length)) 128 0 (hdr ++ pl) (by omega) (by simp; omega)
  have hk := carry_run (List.replicate (254 - c.length) 0) (c.drop (1024 - q.length)) [] (by simp; omega)
  rw [bufOf_nil, List.nil_append, List.length_nil, Nat.zero_add] at hk
  refine ⟨pl', c.drop (1024 - q.length), ?_, by simp; omega, ?_, p2⟩
  · simp only [spill, hz, hf, Out.bind_ok, p1, hk, Out.pure_eq, List.append_assoc]
  · rw [p3, List.drop_zero, List.take_of_length_le (by omega), List.append_assoc, List.take_append_drop]

theorem encLoop_run (C : Byte → List Bool) (hC : ∀ b, (C b).length < 255) (cap : Nat) (hdr : Bytes) :
    ∀ (inp : Bytes) (s : St) (bits : List Bool), (∀ b ∈ inp, C b ≠ []) → Inv hdr s bits →
      hdr.length + (bits ++ inp.flatMap C).length / 8 ≤ cap →
      ∃ s', encLoop cap (table C) inp s = .ok s' ∧ Inv hdr s' (bits ++ inp.flatMap C) := by
  intro inp
  induction hn : inp.length using Nat.strong_induction_on generalizing inp with
  | _ n ih =>
    intro s bits hu hi hcap
    cases inp with
    | nil => exact ⟨s, rfl, by simpa using hi⟩
    | cons b bs =>
      obtain ⟨pl, q, rfl, hq, hb, hl⟩ := hi.ex
      have hcb := hC b
      rw [encLoop, codeOf_table C b (hu b (by simp)), Out.bind_ok]
      simp only [chars_length]
      have htot : (bits ++ (b :: bs).flatMap C).length = 8 * pl.length + q.length + (C b).length + (bs.flatMap C).length := by
        rw [List.length_append, List.flatMap_cons, List.length_append, hl]
        omega
      by_cases hs : q.length + (C b).length ≥ 1024
      · rw [if_pos hs]
        obtain ⟨pl', q', s1, s2, s3, s4⟩ := spill_run (hdr := hdr) (pl := pl) hq hcb hs (cap := cap) (by omega)
        rw [s1, Out.bind_ok]
        have hbits : (pl ++ pl').flatMap bitsOf ++ q' = bits ++ C b := by
          rw [List.flatMap_append, List.append_assoc, s3, ← List.append_assoc, hb]
        have hlen : 8 * (pl ++ pl').length + q'.length = (bits ++ C b).length := by
          have := congrArg List.length s3
          simp [s4] at this ⊢
          have h8 : (pl'.flatMap bitsOf).length = 8 * 128 := by
            rw [List.length_flatMap, ← s4]
            clear * -
            induction pl' with
            | nil => rfl
            | cons x l ih => simp [bitsOf] at ih ⊢; omega
          rw [List.length_flatMap] at h8
          omega
        cases bs with
        | nil => exact ⟨_, rfl, ⟨_, _, rfl, by omega, by simpa using hbits, by simpa using hlen⟩⟩
        | cons b' bs' =>
          have hcb' := hC b'
          simp only
          rw [codeOf_table C b' (hu b' (by simp)), Out.bind_ok, copyCode_run q' (C b') _ (by omega), Out.bind_ok]
          have := ih bs'.length (by simp at hn; omega) bs' rfl ⟨bufOf (q' ++ C b'), q'.length + (C b').length, hdr ++ (pl ++ pl')⟩
            (bits ++ C b ++ C b') (fun x hx => hu x (by simp [hx]))
            ⟨pl ++ pl', q' ++ C b', by simp, by simp; omega, by rw [← List.append_assoc, hbits], by simp at hlen ⊢; omega⟩
            (by simpa [List.append_assoc] using hcap)
          simpa [List.append_assoc] using this
      · rw [if_neg hs, copyCode_run q (C b) _ (by omega), Out.bind_ok]
        have := ih bs.length (by simp at hn; omega) bs rfl ⟨bufOf (q ++ C b), q.length + (C b).length, hdr ++ pl⟩
          (bits ++ C b) (fun x hx => hu x (by simp [hx]))
          ⟨pl, q ++ C b, by simp, by simp; omega, by rw [← List.append_assoc, hb], by simp; omega⟩
          (by simpa [List.append_assoc] using hcap)
        simpa [List.append_assoc] using this

theorem flush_run {hdr : Bytes} {s : St} {bits : List Bool} {cap : Nat} (hi : Inv hdr s bits) (hcap : hdr.length + bits.length / 8 + 1 ≤ cap) :
    ∃ pl pad, flush cap s = .ok (hdr ++ pl) ∧ pl.flatMap bitsOf = bits ++ pad := by
  obtain ⟨pl, q, rfl, hq, hb, hl⟩ := hi.ex
  rw [flush]
  by_cases h0 : q.length = 0
  · rw [if_pos h0]
    refine ⟨pl, [], rfl, ?_⟩
    rw [← hb, List.length_eq_zero_iff.1 h0, List.append_nil, List.append_nil]
  · simp only [if_neg h0]
    rw [bufOf_eq]
    obtain ⟨pl', p1, p2, p3⟩ := packLoop_run cap (q ++ List.replicate (1024 - q.length) false) (q.length / 8 + 1) 0 (hdr ++ pl)
      (by simp; omega) (by simp; omega)
    refine ⟨pl ++ pl', (List.replicate (1024 - q.length) false).take (8 * (q.length / 8 + 1) - q.length), by rw [p1, List.append_assoc], ?_⟩
    rw [List.flatMap_append, p3, List.drop_zero, List.take_append, List.take_of_length_le (by omega), ← List.append_assoc, hb]

/-! ## The table in the text -/

/-- The text of the table. -/
def dump (es : List (List Bool × Byte)) : Bytes := es.flatMap fun e => chars e.1 ++ [e.2]

/-- The entries of a table of codes in the order of the bytes. -/
def entries (C : Byte → List Bool) : List (List Bool × Byte) :=
  ((List.range 256).map fun c => (C (BitVec.ofNat 8 c), BitVec.ofNat 8 c)).filter fun e => e.1 ≠ []

theorem mem_entries {C : Byte → List Bool} {e : List Bool × Byte} : e ∈ entries C ↔ e.1 = C e.2 ∧ e.1 ≠ [] := by
  simp only [entries, List.mem_filter, List.mem_map, List.mem_range, decide_eq_true_eq]
  constructor
  · rintro ⟨⟨c, -, rfl⟩, h⟩
    exact ⟨rfl, h⟩
  · rintro ⟨h1, h2⟩
    refine ⟨⟨e.2.toNat, e.2.isLt, ?_⟩, h2⟩
    rw [BitVec.ofNat_toNat, BitVec.setWidth_eq, ← h1]

/-- Appending within the capacity. -/
theorem push_ok {cap : Nat} {out bs : Bytes} (h : out.length + bs.length ≤ cap) : push cap out bs = .ok (out ++ bs) := by
  rw [push, if_pos h]

theorem dumpLoop_run (C : Byte → List Bool) (cap : Nat) : ∀ (n c : Nat) (out : Bytes),
    out.length + (dump (((List.range' c n).map fun c => (C (BitVec.ofNat 8 c), BitVec.ofNat 8 c)).filter fun e => e.1 ≠ [])).length ≤ cap →
    dumpLoop cap c ((List.range' c n).map fun c => if C (BitVec.ofNat 8 c) = [] then none else some (chars (C (BitVec.ofNat 8 c)))) out =
      .ok (out ++ dump (((List.range' c n).map fun c => (C (BitVec.ofNat 8 c), BitVec.ofNat 8 c)).filter fun e => e.1 ≠ []))
  | 0, c, out, _ => by simp [dumpLoop, dump]
  | n + 1, c, out, h => by
    rw [List.range'_succ] at h ⊢
    simp only [List.map_cons] at h ⊢
    rw [dumpLoop]
    by_cases hc : C (BitVec.ofNat 8 c) = []
    · rw [if_pos hc, List.filter_cons_of_neg (by simp [hc])] at *
      rw [dumpEntry, Out.bind_ok, dumpLoop_run C cap n (c + 1) out h]
    · rw [List.filter_cons_of_pos (by simp [hc])] at *
      rw [if_neg hc, dumpEntry]
      simp only [dump, List.flatMap_cons, List.length_append] at h
      rw [push_ok (by simp at h ⊢; omega), Out.bind_ok, dumpLoop_run C cap n (c + 1) _ (by simp [dump] at h ⊢; omega)]
      simp [dump]

theorem dumpTree_run (C : Byte → List Bool) (cap : Nat) (h : (dump (entries C)).length + 2 ≤ cap) :
    dumpTree cap (table C) [] = .ok (dump (entries C) ++ [0, 0]) := by
  have := dumpLoop_run C cap 256 0 []
  rw [← List.range_eq_range'] at this
  rw [dumpTree, table, this (by rw [List.length_nil, Nat.zero_add]; exact Nat.le_of_add_right_le h), Out.bind_ok, List.nil_append, push_ok (by simpa [entries] using h)]
  rfl

theorem deflatedSize_run (C : Byte → List Bool) (inp : Bytes) :
    deflatedSize (table C) inp = .ok ((10 + (inp.flatMap C).length + 7) / 8 * 8 + (dump (entries C)).length) := by
  have h1 : ∀ (l : Bytes) t, l.foldlM (fun t b => do return t + sizeOf (← rd (table C) b.toNat)) t = .ok (t + (l.flatMap C).length) := by
    intro l
    induction l with
    | nil => intro t; simp
    | cons b l ih =>
      intro t
      rw [List.foldlM_cons, table_rd, Out.bind_ok, Out.pure_eq, Out.bind_ok, ih]
      have : sizeOf (if C b = [] then none else some (chars (C b))) = (C b).length := by
        split
        · rename_i h; simp [sizeOf, h]
        · simp [sizeOf]
      rw [this, List.flatMap_cons, List.length_append, Nat.add_assoc]
  have h2 : ((table C).map fun c => if sizeOf c = 0 then 0 else 1 + sizeOf c).sum = (dump (entries C)).length := by
    rw [table, entries, dump]
    generalize List.range 256 = L
    induction L with
    | nil => rfl
    | cons c L ih =>
      simp only [List.map_cons, List.sum_cons, ih]
      by_cases hc : C (BitVec.ofNat 8 c) = []
      · rw [List.filter_cons_of_neg (by simp [hc]), if_pos hc]
        simp [sizeOf]
      · rw [List.filter_cons_of_pos (by simp [hc]), if_neg hc]
        simp [sizeOf, hc]
        omega
  rw [deflatedSize, h1, Out.bind_ok, h2]
  rfl

theorem sizeBytes_length (n : Nat) : (sizeBytes n).length = 8 := by simp [sizeBytes]

/-- What deflating writes. -/
theorem deflateWith_run (C : Byte → List Bool) (hC : ∀ b, (C b).length < 255) (h : Tree) (hh : getCodes h = .ok (table C)) (inp : Bytes)
    (hne : inp ≠ []) (hu : ∀ b ∈ inp, C b ≠ []) :
    ∃ pl pad, deflateWith h inp = .ok (dump (entries C) ++ 0 :: 0 :: (sizeBytes inp.length ++ pl)) ∧
      pl.flatMap bitsOf = inp.flatMap C ++ pad := by
  have hpos : 0 < (inp.flatMap C).length := by
    obtain ⟨b, l, rfl⟩ := List.exists_cons_of_ne_nil hne
    rw [List.flatMap_cons, List.length_append]
    have := List.length_pos_iff.2 (hu b (by simp))
    omega
  rw [deflateWith, hh, Out.bind_ok, deflatedSize_run, Out.bind_ok]
  generalize hcap : (10 + (inp.flatMap C).length + 7) / 8 * 8 + (dump (entries C)).length = cap
  have hs := sizeBytes_length inp.length
  rw [dumpTree_run C cap (by omega), Out.bind_ok, push_ok (by simp [hs]; omega), Out.bind_ok]
  obtain ⟨s, e1, e2⟩ := encLoop_run C hC cap (dump (entries C) ++ [0, 0] ++ sizeBytes inp.length) inp
    ⟨freshBuf, 0, dump (entries C) ++ [0, 0] ++ sizeBytes inp.length⟩ [] hu
    ⟨[], [], by simp [bufOf_nil], by decide, rfl, rfl⟩
    (by simp only [List.length_append, hs, List.length_cons, List.length_nil]; omega)
  rw [e1, Out.bind_ok]
  rw [List.nil_append] at e2
  obtain ⟨pl, pad, f1, f2⟩ := flush_run (cap := cap) e2 (by simp only [List.length_append, hs, List.length_cons, List.length_nil]; omega)
  exact ⟨pl, pad, by rw [f1]; simp, f2⟩

/-! ## Rebuilding the tree -/

/-- Where a path leads. -/
def follow : Tree → List Bool → Tree
  | t, [] => t
  | .nil, _ :: _ => .nil
  | .node l r _, b :: p => follow (if b then r else l) p

/-- The tree with a byte put at a path. -/
def ins (t : Tree) : List Bool → Byte → Tree
  | [], b => .node (fresh t).1 (fresh t).2.1 b
  | true :: p, b => .node (fresh t).1 (ins (fresh t).2.1 p b) (fresh t).2.2
  | false :: p, b => .node (ins (fresh t).1 p b) (fresh t).2.1 (fresh t).2.2

@[simp] theorem follow_nil (p : List Bool) : follow .nil p = .nil := by cases p <;> rfl

theorem follow_cons (t : Tree) (b : Bool) (p : List Bool) : follow t (b :: p) = follow (if b then (fresh t).2.1 else (fresh t).1) p := by
  cases t with
  | nil => cases b <;> simp [fresh, follow]
  | node l r c => rfl

theorem follow_ins_same : ∀ (p : List Bool) (t : Tree) (b : Byte), follow t p = .nil → follow (ins t p b) p = .node .nil .nil b
  | [], t, b, h => by
    simp only [follow] at h
    subst h
    rfl
  | true :: p, t, b, h => by
    rw [follow_cons] at h
    simp only [ins, follow, if_true]
    exact follow_ins_same p _ b h
  | false :: p, t, b, h => by
    rw [follow_cons] at h
    simp only [ins, follow]
    exact follow_ins_same p _ b h

theorem follow_ins_other : ∀ (p q : List Bool) (t : Tree) (b : Byte), ¬ p <+: q → ¬ q <+: p → follow (ins t p b) q = follow t q
  | [], q, t, b, h, _ => absurd List.nil_prefix h
  | _ :: _, [], t, b, _, h => absurd List.nil_prefix h
  | x :: p, y :: q, t, b, h1, h2 => by
    rw [follow_cons t]
    cases x <;> cases y <;> simp only [ins, follow, if_true, Bool.false_eq_true, if_false]
    · exact follow_ins_other p q _ b (fun h => h1 (by simpa using h)) (fun h => h2 (by simpa using h))
    · exact follow_ins_other p q _ b (fun h => h1 (by simpa using h)) (fun h => h2 (by simpa using h))

theorem follow_ins_ne : ∀ (p q : List Bool) (t : Tree) (b : Byte), follow (ins t p b) q ≠ .nil → q <+: p ∨ follow t q ≠ .nil
  | _, [], t, b, _ => .inl List.nil_prefix
  | [], y :: q, t, b, h => by
    right
    rw [follow_cons]
    simpa [ins, follow] using h
  | x :: p, y :: q, t, b, h => by
    rw [follow_cons t]
    cases x <;> cases y <;> simp only [ins, follow, if_true, Bool.false_eq_true, if_false] at h ⊢
    · rcases follow_ins_ne p q _ b h with h' | h'
      · exact .inl (by simpa using h')
      · exact .inr h'
    · exact .inr h
    · exact .inr h
    · rcases follow_ins_ne p q _ b h with h' | h'
      · exact .inl (by simpa using h')
      · exact .inr h'

theorem addNode_chr (t : Tree) (x : Bool) (s : Bytes) :
    addNode t (chr x :: s) = (do
      let (u, s) ← addNode (if x then (fresh t).2.1 else (fresh t).1) s
      return ((if x then .node (fresh t).1 u (fresh t).2.2 else .node u (fresh t).2.1 (fresh t).2.2), s)) := by
  cases x <;> rw [addNode] <;> simp [chr]

/-- An entry whose byte is not a digit 0 or 1. -/
theorem addNode_run : ∀ (p : List Bool) (t : Tree) (b : Byte) (s : Bytes), b ≠ 0x30 → b ≠ 0x31 →
    (b = 0 → ∃ c s', s = c :: s' ∧ c ≠ 0) → addNode t (chars p ++ b :: s) = .ok (ins t p b, s)
  | [], t, b, s, h0, h1, hz => by
    rw [chars_nil, List.nil_append, addNode]
    by_cases hb : b = 0
    · obtain ⟨c, s', rfl, hc⟩ := hz hb
      subst hb
      simp only [if_true, if_neg hc, ins]
    · simp only [if_neg hb, if_neg h0, if_neg h1, ins]
  | x :: p, t, b, s, h0, h1, hz => by
    rw [chars_cons, List.cons_append, addNode_chr, addNode_run p _ b s h0 h1 hz]
    cases x <;> rfl

/-- An entry whose byte is a digit 0 or 1, before two zeros: a leaf with the byte 0. -/
theorem addNode_digit (x : Bool) : ∀ (p : List Bool) (t : Tree) (s : Bytes), follow t p = .nil →
    addNode t (chars p ++ chr x :: 0 :: 0 :: s) = .ok (ins t p 0, 0 :: 0 :: s)
  | [], t, s, h => by
    simp only [follow] at h
    subst h
    rw [chars_nil, List.nil_append, addNode_chr]
    cases x <;> simp [fresh, addNode, ins]
  | y :: p, t, s, h => by
    rw [follow_cons] at h
    rw [chars_cons, List.cons_append, addNode_chr, addNode_digit x p _ s h]
    cases y <;> rfl

/-- No code begins another one. -/
def PrefixFree (es : List (List Bool × Byte)) : Prop := es.Pairwise fun e f => ¬ e.1 <+: f.1 ∧ ¬ f.1 <+: e.1

/-- The tree holds the entries and nothing else. -/
structure Holds (t : Tree) (es : List (List Bool × Byte)) : Prop where
  has : ∀ e ∈ es, follow t e.1 = .node .nil .nil e.2
  only : ∀ q, follow t q ≠ .nil → ∃ e ∈ es, q <+: e.1

theorem Holds.none {t : Tree} {es : List (List Bool × Byte)} (h : Holds t es) (p : List Bool) (hp : ∀ e ∈ es, ¬ p <+: e.1) :
    follow t p = .nil := by
  by_contra hn
  obtain ⟨e, he, hpe⟩ := h.only p hn
  exact hp e he hpe

theorem Holds.ins {t : Tree} {es : List (List Bool × Byte)} (h : Holds t es) (p : List Bool) (b : Byte)
    (hp : ∀ e ∈ es, ¬ e.1 <+: p ∧ ¬ p <+: e.1) : Holds (ins t p b) (es ++ [(p, b)]) := by
  refine ⟨fun e he => ?_, fun q hq => ?_⟩
  · rw [List.mem_append, List.mem_singleton] at he
    rcases he with he | rfl
    · rw [follow_ins_other p e.1 t b (hp e he).2 (hp e he).1]
      exact h.has e he
    · exact follow_ins_same p t b (h.none p fun e he => (hp e he).2)
  · rcases follow_ins_ne p q t b hq with h' | h'
    · exact ⟨(p, b), by simp, h'⟩
    · obtain ⟨e, he, h''⟩ := h.only q h'
      exact ⟨e, by simp [he], h''⟩

/-- The loop of the rebuilding stops at the zeros, or takes an entry. -/
theorem rebuildLoop_zeros (fuel : Nat) (t : Tree) (s : Bytes) : rebuildLoop (fuel + 1) t (0 :: 0 :: s) = .ok (t, 0 :: 0 :: s) := by
  simp [rebuildLoop]

theorem rebuildLoop_step (fuel : Nat) (t : Tree) (x : Bool) (s : Bytes) :
    rebuildLoop (fuel + 1) t (chr x :: s) = (do
      let (t, s) ← addNode t (chr x :: s)
      rebuildLoop fuel t s) := by
  cases s with
  | nil => rw [rebuildLoop, if_neg (chr_ne_zero x)]
  | cons c s => rw [rebuildLoop, if_neg (fun h => chr_ne_zero x h.1)]

theorem rebuildLoop_entries (rest : Bytes) : ∀ (es done : List (List Bool × Byte)) (t : Tree) (k fuel : Nat), Holds t done → PrefixFree (done ++ es) →
    (∀ e ∈ es, e.1 ≠ [] ∧ e.2 ≠ 0x30 ∧ e.2 ≠ 0x31) → fuel = es.length + k →
    (∀ e ∈ es, e.2 = 0 → ∃ c s', rest = c :: s' ∧ c ≠ 0 ∨ es.getLast? ≠ some e) →
    ∃ t', rebuildLoop fuel t (dump es ++ rest) = rebuildLoop k t' rest ∧ Holds t' (done ++ es)
  | [], done, t, k, fuel, h, _, _, hf, _ => ⟨t, by simp [dump, hf], by simpa using h⟩
  | e :: es, done, t, k, fuel, h, hp, hne, hf, hz => by
    obtain ⟨he1, he2, he3⟩ := hne e (by simp)
    obtain ⟨x, p, hxp⟩ := List.exists_cons_of_ne_nil he1
    have hp' : ∀ f ∈ done, ¬ f.1 <+: e.1 ∧ ¬ e.1 <+: f.1 := by
      intro f hf
      rw [PrefixFree, List.pairwise_append] at hp
      exact hp.2.2 f hf e (by simp)
    obtain rfl : fuel = es.length + k + 1 := by simp at hf; omega
    have hadd : addNode t (chars e.1 ++ e.2 :: (dump es ++ rest)) = .ok (Huffman.ins t e.1 e.2, dump es ++ rest) := by
      refine addNode_run e.1 t e.2 _ he2 he3 fun h0 => ?_
      cases es with
      | nil =>
        obtain ⟨c, s', h' | h'⟩ := hz e (by simp) h0
        · exact ⟨c, s', by simpa [dump] using h'.1, h'.2⟩
        · exact absurd rfl h'
      | cons f es =>
        obtain ⟨y, q, hyq⟩ := List.exists_cons_of_ne_nil (hne f (by simp)).1
        have hd : dump (f :: es) ++ rest = chr y :: (chars q ++ [f.2] ++ dump es ++ rest) := by
          simp only [dump, List.flatMap_cons, hyq, chars_cons, List.cons_append]
        exact ⟨_, _, hd, chr_ne_zero y⟩
    obtain ⟨t', h1, h2⟩ := rebuildLoop_entries rest es (done ++ [e]) (Huffman.ins t e.1 e.2) k (es.length + k) (h.ins e.1 e.2 hp')
      (by simpa using hp) (fun f hf => hne f (by simp [hf])) rfl (fun f hf h0 => by
        obtain ⟨c, s', h' | h'⟩ := hz f (by simp [hf]) h0
        · exact ⟨c, s', .inl h'⟩
        · refine ⟨c, s', .inr ?_⟩
          rw [List.getLast?_cons] at h'
          cases hl : es.getLast? with
          | none => simp
          | some g => rw [hl] at h'; simpa using h')
    refine ⟨t', ?_, by simpa using h2⟩
    have hd : dump (e :: es) ++ rest = chars e.1 ++ e.2 :: (dump es ++ rest) := by simp [dump]
    rw [hd]
    rw [hxp] at hadd ⊢
    simp only [chars_cons, List.cons_append] at hadd ⊢
    rw [rebuildLoop_step, hadd, Out.bind_ok]
    rw [← hxp]
    exact h1

/-! ## Decoding -/

theorem decBits_append (cap n : Nat) (h : Tree) : ∀ (a b : List Bool) (tp : Tree) (out : Bytes),
    decBits cap n h (a ++ b) tp out = (do let (tp, out) ← decBits cap n h a tp out; decBits cap n h b tp out)
  | [], b, tp, out => rfl
  | x :: a, b, tp, out => by
    rw [List.cons_append, decBits, decBits]
    by_cases hl : out.length = n
    · rw [if_pos hl, if_pos hl, Out.bind_ok]
      cases b with
      | nil => rfl
      | cons y b => simp only [decBits, if_pos hl]
    · rw [if_neg hl, if_neg hl, bind_assoc]
      congr 1
      funext r
      obtain ⟨tp', w⟩ := r
      simp only
      rw [bind_assoc]
      congr 1
      funext out'
      exact decBits_append cap n h a b tp' out'

theorem decLoop_eq (cap n : Nat) (h : Tree) : ∀ (bs : Bytes) (tp : Tree) (out : Bytes),
    decLoop cap n h bs tp out = (do let (_, out) ← decBits cap n h (bs.flatMap bitsOf) tp out; return out)
  | [], tp, out => rfl
  | b :: bs, tp, out => by
    rw [decLoop, List.flatMap_cons, decBits_append]
    by_cases hl : out.length = n
    · have hd : ∀ l tp, decBits cap n h l tp out = .ok (tp, out) := by
        intro l tp
        cases l <;> simp [decBits, hl]
      rw [if_pos hl, hd, Out.bind_ok]
      simp only
      rw [hd]
      rfl
    · rw [if_neg hl, bind_assoc]
      congr 1
      funext r
      exact decLoop_eq cap n h bs r.1 r.2

/-- A code is decoded. -/
theorem decBits_code (cap n : Nat) (h : Tree) (c : Byte) (rest : List Bool) (out : Bytes) (hn : out.length < n) (hc : n ≤ cap) :
    ∀ (p : List Bool) (tp : Tree), p ≠ [] → follow tp p = .node .nil .nil c →
      decBits cap n h (p ++ rest) tp out = decBits cap n h rest h (out ++ [c])
  | [], _, hp, _ => absurd rfl hp
  | x :: p, tp, _, hf => by
    have hout : out.length ≠ n := by omega
    cases tp with
    | nil => simp at hf
    | node l r y =>
      have hstep : decBit h (.node l r y) x = (match (if x then r else l) with
          | .nil => .ub
          | .node .nil .nil b => .ok (h, [b])
          | tp => .ok (tp, [])) := by
        cases x <;> rfl
      rw [follow] at hf
      rw [List.cons_append, decBits, if_neg hout, hstep]
      generalize hu : (if x then r else l) = u at hf ⊢
      cases p with
      | nil =>
        simp only [follow] at hf
        subst hf
        simp only [Out.bind_ok]
        rw [push_ok (by simp; omega), Out.bind_ok, List.nil_append]
      | cons y' p =>
        cases u with
        | nil => simp at hf
        | node a b z =>
          have hne : ¬ (a = .nil ∧ b = .nil) := by
            rintro ⟨rfl, rfl⟩
            cases y' <;> simp [follow] at hf
          have : (match (Tree.node a b z) with
              | .nil => (.ub : Out (Tree × Bytes))
              | .node .nil .nil b => .ok (h, [b])
              | tp => .ok (tp, [])) = .ok (.node a b z, []) := by
            cases a with
            | nil => cases b with
              | nil => simp at hne
              | node => rfl
            | node => rfl
          rw [this, Out.bind_ok]
          simp only
          rw [push_ok (by simp; omega), Out.bind_ok, List.append_nil]
          exact decBits_code cap n h c rest out hn hc (y' :: p) _ (by simp) hf

theorem decBits_all (cap n : Nat) (h : Tree) (C : Byte → List Bool) (ρ : Byte → Byte) (pad : List Bool) (hc : n ≤ cap) : ∀ (inp out : Bytes),
    (∀ b ∈ inp, C b ≠ [] ∧ follow h (C b) = .node .nil .nil (ρ b)) → out.length + inp.length = n →
    decBits cap n h (inp.flatMap C ++ pad) h out = .ok (h, out ++ inp.map ρ)
  | [], out, _, hl => by
    have : out.length = n := by simpa using hl
    cases pad <;> simp [decBits, this]
  | b :: inp, out, hf, hl => by
    obtain ⟨h1, h2⟩ := hf b (by simp)
    rw [List.flatMap_cons, List.append_assoc, decBits_code cap n h (ρ b) _ out (by simp at hl; omega) hc (C b) h h1 h2,
      decBits_all cap n h C ρ pad hc inp (out ++ [ρ b]) (fun x hx => hf x (by simp [hx])) (by simp at hl ⊢; omega)]
    simp

theorem sizeOfBytes_sizeBytes (n : Nat) (hn : n < 2 ^ 64) : sizeOfBytes (sizeBytes n) = n := by
  have : List.range 8 = [0, 1, 2, 3, 4, 5, 6, 7] := by decide
  simp only [sizeBytes, this, List.map_cons, List.map_nil, sizeOfBytes, List.foldr_cons, List.foldr_nil, BitVec.toNat_ofNat]
  omega

/-- Inflating a text whose table makes the tree `h`. -/
theorem inflate_run (C : Byte → List Bool) (ρ : Byte → Byte) (D inp pl : Bytes) (pad : List Bool) (h : Tree)
    (hr : rebuild (D ++ 0 :: 0 :: (sizeBytes inp.length ++ pl)) = .ok (h, sizeBytes inp.length ++ pl)) (hn : inp.length < 2 ^ 64 - 1)
    (hpl : pl.flatMap bitsOf = inp.flatMap C ++ pad) (hf : ∀ b ∈ inp, C b ≠ [] ∧ follow h (C b) = .node .nil .nil (ρ b)) :
    inflate (D ++ 0 :: 0 :: (sizeBytes inp.length ++ pl)) = .ok (inp.map ρ) := by
  have hs := sizeBytes_length inp.length
  rw [inflate, hr, Out.bind_ok]
  simp only
  rw [if_neg (by simp [hs]), List.take_append_of_le_length (by omega), List.take_of_length_le (by omega),
    List.drop_append_of_le_length (by omega), List.drop_of_length_le (by omega), List.nil_append, sizeOfBytes_sizeBytes _ (by omega),
    decLoop_eq, hpl, decBits_all _ _ h C ρ pad (by omega) inp [] hf (by simp)]
  simp

/-! ## Codes of a tree -/

/-- Trees whose inner nodes have two subtrees. -/
inductive Full : Tree → Prop
  | leaf (b : Byte) : Full (.node .nil .nil b)
  | node {l r : Tree} (b : Byte) (hl : Full l) (hr : Full r) : Full (.node l r b)

/-- The leaves with their paths. -/
def paths : Tree → List (List Bool × Byte)
  | .nil => []
  | .node .nil .nil b => [([], b)]
  | .node l r _ => (paths l).map (fun e => (false :: e.1, e.2)) ++ (paths r).map (fun e => (true :: e.1, e.2))

/-- The height of a tree. -/
def height : Tree → Nat
  | .nil => 0
  | .node .nil .nil _ => 0
  | .node l r _ => max (height l) (height r) + 1

theorem Full.ne_nil {t : Tree} (h : Full t) : t ≠ .nil := by cases h <;> simp

theorem paths_node {l r : Tree} (b : Byte) (hl : Full l) :
    paths (.node l r b) = (paths l).map (fun e => (false :: e.1, e.2)) ++ (paths r).map (fun e => (true :: e.1, e.2)) := by
  cases hl <;> rfl

theorem height_node {l r : Tree} (b : Byte) (hl : Full l) : height (.node l r b) = max (height l) (height r) + 1 := by
  cases hl <;> rfl

theorem height_path {t : Tree} (h : Full t) : ∀ e ∈ paths t, e.1.length ≤ height t := by
  induction h with
  | leaf b => simp [paths]
  | node b hl hr ihl ihr =>
    intro e he
    rw [paths_node b hl, List.mem_append, List.mem_map, List.mem_map] at he
    rw [height_node b hl]
    rcases he with ⟨f, hf, rfl⟩ | ⟨f, hf, rfl⟩
    · have := ihl f hf
      simp
      omega
    · have := ihr f hf
      simp
      omega

theorem paths_prefixFree {t : Tree} (h : Full t) : PrefixFree (paths t) := by
  induction h with
  | leaf b => simp [paths, PrefixFree]
  | node b hl hr ihl ihr =>
    rw [PrefixFree, paths_node b hl, List.pairwise_append, List.pairwise_map, List.pairwise_map]
    refine ⟨ihl.imp (by simp), ihr.imp (by simp), fun e he f hf => ?_⟩
    rw [List.mem_map] at he hf
    obtain ⟨e, -, rfl⟩ := he
    obtain ⟨f, -, rfl⟩ := hf
    simp

/-- Writing codes into a table. -/
def setCodes (path : List Bool) (es : List (List Bool × Byte)) (codes : Codes) : Codes :=
  es.foldl (fun c e => c.set e.2.toNat (some (chars (path ++ e.1)))) codes

theorem setCodes_length (path : List Bool) (es : List (List Bool × Byte)) : ∀ codes : Codes, (setCodes path es codes).length = codes.length := by
  induction es with
  | nil => intro codes; rfl
  | cons e es ih => intro codes; rw [setCodes, List.foldl_cons]; exact (ih _).trans (by simp)

theorem setCodes_map (path : List Bool) (x : Bool) (es : List (List Bool × Byte)) (codes : Codes) :
    setCodes path (es.map fun e => (x :: e.1, e.2)) codes = setCodes (path ++ [x]) es codes := by
  rw [setCodes, setCodes, List.foldl_map]
  simp

theorem scan_run {t : Tree} (h : Full t) : ∀ (path : List Bool) (codes : Codes), path.length + height t < 255 → codes.length = 256 →
    (path = [] → height t ≠ 0) → scan t (chars path) codes = .ok (setCodes path (paths t) codes) := by
  induction h with
  | leaf b =>
    intro path codes hp hc hne
    have hb := b.isLt
    have hpath : path ≠ [] := fun h => hne h rfl
    rw [scan, if_neg (by simp [maxCode]; omega), if_pos ⟨rfl, rfl⟩, wr, if_pos (by omega),
      if_neg (by simpa using hpath)]
    simp [paths, setCodes]
  | @node l r b hl hr ihl ihr =>
    intro path codes hp hc hne
    rw [height_node b hl] at hp
    have h1 := ihl (path ++ [false]) codes (by simp; omega) hc (by simp)
    have h2 := ihr (path ++ [true]) (setCodes (path ++ [false]) (paths l) codes) (by simp; omega) (by rw [setCodes_length, hc]) (by simp)
    rw [chars_append] at h1 h2
    rw [scan, if_neg (by simp [maxCode]; omega), if_neg (fun h => hl.ne_nil h.1), if_neg hl.ne_nil,
      if_pos (by simp [maxCode]; omega)]
    rw [show [0x30#8] = chars [false] from rfl, h1, Out.bind_ok]
    simp only
    rw [if_neg hr.ne_nil, if_pos (by simp [maxCode]; omega), show [0x31#8] = chars [true] from rfl, h2, paths_node b hl]
    rw [← setCodes_map, ← setCodes_map, setCodes, setCodes, setCodes, List.foldl_append]

/-- The code of a byte in a list of entries. -/
def codeIn (es : List (List Bool × Byte)) (b : Byte) : List Bool := match es.find? fun e => e.2 = b with
  | some e => e.1
  | none => []

theorem codeIn_mem {es : List (List Bool × Byte)} (hn : (es.map Prod.snd).Nodup) {e : List Bool × Byte} (he : e ∈ es) : codeIn es e.2 = e.1 := by
  induction es with
  | nil => simp at he
  | cons f es ih =>
    rw [List.map_cons, List.nodup_cons] at hn
    rw [codeIn, List.find?_cons]
    rw [List.mem_cons] at he
    rcases he with rfl | he
    · simp
    · have : f.2 ≠ e.2 := fun h => hn.1 (h ▸ List.mem_map_of_mem he)
      rw [decide_eq_false this]
      exact ih hn.2 he

theorem codeIn_none {es : List (List Bool × Byte)} {b : Byte} (h : b ∉ es.map Prod.snd) : codeIn es b = [] := by
  rw [codeIn]
  cases hf : es.find? fun e => e.2 = b with
  | none => rfl
  | some e =>
    have h1 := List.mem_of_find?_eq_some hf
    have h2 := List.find?_some hf
    simp only [decide_eq_true_eq] at h2
    exact absurd (h2 ▸ List.mem_map_of_mem h1) h

theorem setCodes_get (es : List (List Bool × Byte)) (hn : (es.map Prod.snd).Nodup) (hne : ∀ e ∈ es, e.1 ≠ []) :
    ∀ codes : Codes, codes.length = 256 → ∀ b : Byte, (setCodes [] es codes)[b.toNat]? =
      if codeIn es b = [] then codes[b.toNat]? else some (some (chars (codeIn es b))) := by
  induction es with
  | nil => intro codes _ b; rfl
  | cons e es ih =>
    intro codes hc b
    rw [List.map_cons, List.nodup_cons] at hn
    have hb := b.isLt
    have he := e.2.isLt
    rw [setCodes, List.foldl_cons, ← setCodes, ih hn.2 (fun f hf => hne f (by simp [hf])) _ (by simpa using hc)]
    by_cases hbe : e.2 = b
    · have h1 : codeIn es b = [] := codeIn_none (hbe ▸ hn.1)
      have h2 : codeIn (e :: es) b = e.1 := by simp [codeIn, hbe]
      rw [if_pos h1, h2, if_neg (hne e (by simp)), hbe, List.nil_append, List.getElem?_set_self (by omega)]
    · have h2 : codeIn (e :: es) b = codeIn es b := by
        rw [codeIn, List.find?_cons, decide_eq_false hbe]
        rfl
      rw [h2, List.getElem?_set_ne (fun h => hbe (BitVec.eq_of_toNat_eq h))]

theorem getCodes_run {t : Tree} (h : Full t) (h0 : height t ≠ 0) (hh : height t < 255) (hn : ((paths t).map Prod.snd).Nodup) :
    getCodes t = .ok (table (codeIn (paths t))) := by
  have hne : ∀ e ∈ paths t, e.1 ≠ [] := by
    cases h with
    | leaf b => exact absurd rfl h0
    | node b hl hr =>
      intro e he
      rw [paths_node b hl, List.mem_append, List.mem_map, List.mem_map] at he
      rcases he with ⟨f, -, rfl⟩ | ⟨f, -, rfl⟩ <;> simp
  have hs := scan_run h [] (List.replicate 256 none) (by simpa using hh) List.length_replicate (fun _ => h0)
  rw [chars_nil] at hs
  rw [getCodes, hs]
  congr 1
  apply List.ext_getElem?
  intro i
  by_cases hi : i < 256
  · have hb : (BitVec.ofNat 8 i).toNat = i := by simp; omega
    have hg := setCodes_get (paths t) hn hne (List.replicate 256 none) List.length_replicate (BitVec.ofNat 8 i)
    rw [hb] at hg
    rw [hg]
    simp only [table, List.getElem?_map, List.getElem?_range hi, Option.map_some]
    split
    · rw [List.getElem?_replicate, if_pos hi]
    · rfl
  · rw [List.getElem?_eq_none (by rw [setCodes_length, List.length_replicate]; omega), List.getElem?_eq_none (by simp [table]; omega)]

end Kryptos.Huffman
