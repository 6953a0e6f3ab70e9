import Verif.Model.BlockModes
import Verif.Spec.Modes
import Mathlib.Tactic.IntervalCases
/-
  Helper lemmas for the block modes: what each loop computes on a list of whole blocks.
-/
namespace Kryptos.Block

/-- The functions of a correct block cipher: they keep the block length and decryption undoes
encryption (on blocks). -/
structure Lawful (C : Cipher) : Prop where
  enc_len : ∀ b : Bytes, b.length = C.bs → (C.enc b).length = C.bs
  dec_len : ∀ b : Bytes, b.length = C.bs → (C.dec b).length = C.bs
  dec_enc : ∀ b : Bytes, b.length = C.bs → C.dec (C.enc b) = b

/-- Every element of the list is a whole block. -/
def Blocks (bs : Nat) (ps : List Bytes) : Prop := ∀ p ∈ ps, List.length p = bs

theorem Blocks.cons {bs : Nat} {p : Bytes} {ps : List Bytes} (h : Blocks bs (p :: ps)) :
    p.length = bs ∧ Blocks bs ps :=
  ⟨h p (by simp), fun q hq => h q (by simp [hq])⟩

theorem Blocks.flatten_length {bs : Nat} {ps : List Bytes} (h : Blocks bs ps) :
    ps.flatten.length = ps.length * bs := by
  induction ps with
  | nil => simp
  | cons p ps ih =>
    have := h.cons
    simp [ih this.2, this.1, Nat.succ_mul]; omega

/-- Every buffer whose length is a multiple of the block size is a sequence of blocks. -/
theorem exists_blocks (bs : Nat) (hbs : 0 < bs) (p : Bytes) (h : p.length % bs = 0) :
    ∃ ps, Blocks bs ps ∧ ps.flatten = p := by
  induction hn : p.length using Nat.strongRecOn generalizing p with
  | ind n ih =>
    by_cases h0 : p = []
    · subst h0; exact ⟨[], by simp [Blocks], rfl⟩
    · have hpos := List.length_pos_iff.mpr h0
      have hge : bs ≤ p.length := by
        rcases Nat.lt_or_ge p.length bs with hlt | hge
        · rw [Nat.mod_eq_of_lt hlt] at h; omega
        · exact hge
      obtain ⟨ps, h1, h2⟩ := ih (p.drop bs).length (by simp; omega) (p.drop bs)
        (by rw [List.length_drop]
            have := Nat.mod_eq_sub_mod hge
            omega) rfl
      refine ⟨p.take bs :: ps, ?_, by simp [h2]⟩
      intro q hq
      rcases List.mem_cons.mp hq with rfl | hq
      · simp; omega
      · exact h1 q hq

theorem blockParser_nil (outb : Bytes) (bs : Nat) : blockParser outb bs [] = none := by
  simp [blockParser]

theorem blockParser_cons (outb p rest : Bytes) (bs : Nat) (hbs : 0 < bs) (ho : outb.length ≤ bs)
    (hp : p.length = bs) : blockParser outb bs (p ++ rest) = some (p, rest) := by
  have hne : p ++ rest ≠ [] := by
    intro h0
    have := congrArg List.length h0
    rw [List.length_append, List.length_nil] at this; omega
  unfold blockParser
  rw [if_neg hne]
  have : outb.drop (min bs (p ++ rest).length) = [] := by
    apply List.drop_eq_nil_of_le
    rw [List.length_append]; omega
  rw [this]
  subst hp
  simp

theorem applyIv_length (a b : Bytes) (h : a.length = b.length) : (applyIv a b).length = a.length := by
  simp [applyIv, h]

theorem applyIv_eq (a b : Bytes) : applyIv a b = Spec.xorBlock a b := rfl

theorem xor_cancel (a b : Bytes) (h : a.length = b.length) :
    Spec.xorBlock (Spec.xorBlock a b) b = a := by
  unfold Spec.xorBlock
  induction a generalizing b with
  | nil => cases b <;> simp
  | cons x xs ih =>
    cases b with
    | nil => simp at h
    | cons y ys =>
      have hx : x ^^^ y ^^^ y = x := by rw [BitVec.xor_assoc, BitVec.xor_self, BitVec.xor_zero]
      simp only [List.zipWith_cons_cons, hx, List.cons.injEq, true_and]
      exact ih ys (by simpa using h)

theorem ecbLoop_blocks (f : Bytes → Bytes) (bs : Nat) (hbs : 0 < bs)
    (hf : ∀ b : Bytes, b.length = bs → (f b).length = bs) (ps : List Bytes) (hps : Blocks bs ps) :
    ∀ (outb : Bytes) (cap : Nat), outb.length ≤ bs → ps.flatten.length ≤ cap →
    ecbLoop f bs hbs outb ps.flatten cap = .ok (Spec.ecb f ps).flatten := by
  induction ps with
  | nil =>
    intro outb cap _ _
    rw [ecbLoop]
    split
    · rfl
    · rename_i h; simp [blockParser_nil] at h
  | cons p ps ih =>
    intro outb cap ho hc
    have hp := hps.cons
    rw [ecbLoop]
    simp only [List.flatten_cons, List.length_append] at hc ⊢
    split
    · rename_i h; rw [blockParser_cons _ _ _ _ hbs ho hp.1] at h; cases h
    · rename_i blk rest h
      rw [blockParser_cons _ _ _ _ hbs ho hp.1] at h
      injection h with h; injection h with h1 h2
      subst h1 h2
      rw [if_neg (by omega), ih hp.2 _ _ (by rw [hf p hp.1]) (by omega)]
      simp [Spec.ecb]

theorem ofbLoop_blocks (f : Bytes → Bytes) (bs : Nat) (hbs : 0 < bs)
    (hf : ∀ b : Bytes, b.length = bs → (f b).length = bs) (ps : List Bytes) (hps : Blocks bs ps) :
    ∀ (outb : Bytes) (cap : Nat), outb.length = bs → ps.flatten.length ≤ cap →
    ofbLoop f bs hbs outb ps.flatten cap = .ok (Spec.ofb f outb ps).flatten := by
  induction ps with
  | nil =>
    intro outb cap _ _
    rw [ofbLoop]
    simp only
    split
    · simp [Spec.ofb]
    · rename_i h; simp [blockParser_nil] at h
  | cons p ps ih =>
    intro outb cap ho hc
    have hp := hps.cons
    have hfo := hf outb ho
    rw [ofbLoop]
    simp only [List.flatten_cons, List.length_append] at hc ⊢
    split
    · rename_i h; rw [blockParser_cons _ _ _ _ hbs (by omega) hp.1] at h; cases h
    · rename_i blk rest h
      rw [blockParser_cons _ _ _ _ hbs (by omega) hp.1] at h
      injection h with h; injection h with h1 h2
      subst h1 h2
      rw [if_neg (by omega), ih hp.2 _ _ hfo (by omega)]
      simp [Spec.ofb, applyIv_eq]

/-- The counter block stored in the IV: everything but the last four bytes, then the counter. -/
theorem be32_fields (c : W32) :
    [ ((c >>> 24) &&& 0xFF#32).setWidth 8,
      (((c &&& 0xFF0000#32) >>> 16) &&& 0xFF#32).setWidth 8,
      (((c &&& 0xFF00#32) >>> 8) &&& 0xFF#32).setWidth 8,
      (c &&& 0xFF#32).setWidth 8 ] = Spec.be32 c := by
  simp only [Spec.be32, List.cons.injEq, and_true]
  refine ⟨?_, ?_, ?_, ?_⟩ <;>
  · apply BitVec.eq_of_getLsbD_eq
    intro i hi
    interval_cases i <;> simp

theorem be32_length (c : W32) : (Spec.be32 c).length = 4 := rfl

theorem putCounter_eq (nonce old : Bytes) (c : W32) (h : old.length = 4) :
    putCounter (nonce ++ old) c = .ok (nonce ++ Spec.be32 c) := by
  unfold putCounter
  rw [if_neg (by simp [h]), be32_fields]
  have : (nonce ++ old).length - 4 = nonce.length := by simp [h]
  rw [this]; simp

theorem ivCounter_eq (nonce : Bytes) (c : W32) : ivCounter (nonce ++ Spec.be32 c) = .ok c := by
  unfold ivCounter
  have hl : (nonce ++ Spec.be32 c).length = nonce.length + 4 := by simp [be32_length]
  have hr : ∀ k (hk : k < 4), rd (nonce ++ Spec.be32 c) (nonce.length + 4 - (4 - k)) =
      .ok ((Spec.be32 c)[k]'(by rw [be32_length]; exact hk)) := by
    intro k hk
    rw [rd_eq_ok (by rw [hl]; omega)]
    congr 1
    rw [List.getElem_append_right (by omega)]
    congr 1
    omega
  have r0 := hr 0 (by omega)
  have r1 := hr 1 (by omega)
  have r2 := hr 2 (by omega)
  have r3 := hr 3 (by omega)
  simp only [Nat.sub_zero, Nat.reduceSub, Spec.be32, List.getElem_cons_zero,
    List.getElem_cons_succ] at r0 r1 r2 r3
  simp only [Spec.be32] at hl ⊢
  simp only [hl]
  rw [if_neg (by omega), r0, r1, r2, r3]
  simp only [Out.bind_ok, Out.pure_eq, Out.ok.injEq]
  apply BitVec.eq_of_getLsbD_eq
  intro i hi
  interval_cases i <;> simp

theorem ivInc_eq (nonce : Bytes) (c : W32) :
    ivInc (nonce ++ Spec.be32 c) = .ok (nonce ++ Spec.be32 (c + 1#32)) := by
  unfold ivInc
  rw [ivCounter_eq]
  simp only [Out.bind_ok]
  exact putCounter_eq _ _ _ (be32_length c)

/-- Every block of at least four bytes is a nonce followed by a counter. -/
theorem exists_counter (iv : Bytes) (h : 4 ≤ iv.length) :
    ∃ nonce c, iv = nonce ++ Spec.be32 c := by
  have hd : (iv.drop (iv.length - 4)).length = 4 := by simp; omega
  match hm : iv.drop (iv.length - 4), hd with
  | [a, b, c, d], _ =>
    refine ⟨iv.take (iv.length - 4), (a.setWidth 32 <<< 24 ||| b.setWidth 32 <<< 16 ||| c.setWidth 32 <<< 8 |||
      d.setWidth 32), ?_⟩
    have : Spec.be32 (a.setWidth 32 <<< 24 ||| b.setWidth 32 <<< 16 ||| c.setWidth 32 <<< 8 |||
      d.setWidth 32) = [a, b, c, d] := by
      simp only [Spec.be32, List.cons.injEq, and_true]
      refine ⟨?_, ?_, ?_, ?_⟩ <;>
      · apply BitVec.eq_of_getLsbD_eq
        intro i hi
        interval_cases i <;> simp
    rw [this, ← hm, List.take_append_drop]

theorem ctrLoop_blocks (f : Bytes → Bytes) (bs : Nat) (hbs : 0 < bs)
    (hf : ∀ b : Bytes, b.length = bs → (f b).length = bs) (nonce : Bytes) (ps : List Bytes)
    (hps : Blocks bs ps) (hn : nonce.length + 4 = bs) :
    ∀ (c : W32) (cap : Nat), ps.flatten.length ≤ cap →
    ctrLoop f bs hbs (nonce ++ Spec.be32 c) ps.flatten cap =
      .ok ((Spec.ctr f nonce c ps).flatten, nonce ++ Spec.be32 (c + BitVec.ofNat 32 ps.length)) := by
  induction ps with
  | nil =>
    intro c cap _
    rw [ctrLoop]
    simp only
    split
    · simp [Spec.ctr]
    · rename_i h; simp [blockParser_nil] at h
  | cons p ps ih =>
    intro c cap hc
    have hp := hps.cons
    have hfo := hf (nonce ++ Spec.be32 c) (by simp [be32_length, hn])
    rw [ctrLoop]
    simp only [List.flatten_cons, List.length_append] at hc ⊢
    split
    · rename_i h; rw [blockParser_cons _ _ _ _ hbs (by omega) hp.1] at h; cases h
    · rename_i blk rest h
      rw [blockParser_cons _ _ _ _ hbs (by omega) hp.1] at h
      injection h with h; injection h with h1 h2
      subst h1 h2
      rw [if_neg (by omega), ivInc_eq]
      simp only [Out.bind_ok]
      rw [ih hp.2 _ _ (by omega)]
      have e : c + 1#32 + BitVec.ofNat 32 ps.length = c + BitVec.ofNat 32 (p :: ps).length := by
        apply BitVec.eq_of_toNat_eq
        simp [BitVec.toNat_add]
        omega
      simp [Spec.ctr, applyIv_eq, e]

theorem cbcLoop_nil (f : Bytes → Bytes) (bs : Nat) (hbs : 0 < bs) (a : Action) (iv outb : Bytes)
    (cap : Nat) : cbcLoop f bs hbs a iv outb [] cap = .ok [] := by
  rw [cbcLoop]
  split
  · rfl
  · rename_i h; simp [blockParser_nil] at h

/-- CBC encryption.  The first block has already been xored with the IV. -/
theorem cbcLoop_enc (f : Bytes → Bytes) (bs : Nat) (hbs : 0 < bs)
    (hf : ∀ b : Bytes, b.length = bs → (f b).length = bs) (ps : List Bytes) :
    ∀ (p iv iv' outb : Bytes) (cap : Nat), Blocks bs (p :: ps) → iv.length = bs →
      outb.length ≤ bs → (p :: ps).flatten.length ≤ cap →
    cbcLoop f bs hbs .encrypt iv' outb (applyIv p iv ++ ps.flatten) cap =
      .ok (Spec.cbc f iv (p :: ps)).flatten := by
  induction ps with
  | nil =>
    intro p iv iv' outb cap hps hiv ho hc
    have hp := hps.cons
    have hl : (applyIv p iv).length = bs := by rw [applyIv_length _ _ (by omega)]; exact hp.1
    rw [cbcLoop]
    simp only [List.flatten_cons, List.length_append, List.flatten_nil, List.length_nil] at hc ⊢
    split
    · rename_i h; rw [blockParser_cons _ _ _ _ hbs ho hl] at h; cases h
    · rename_i blk rest h
      rw [blockParser_cons _ _ _ _ hbs ho hl] at h
      injection h with h; injection h with h1 h2
      subst h1 h2
      simp only [reduceCtorEq, if_false, ne_eq, not_true_eq_false, and_false]
      rw [if_neg (by omega), cbcLoop_nil]
      simp [Spec.cbc, applyIv_eq]
  | cons q ps ih =>
    intro p iv iv' outb cap hps hiv ho hc
    have hp := hps.cons
    have hq := hp.2.cons
    have hl : (applyIv p iv).length = bs := by rw [applyIv_length _ _ (by omega)]; exact hp.1
    have hfl := hf _ hl
    rw [cbcLoop]
    rw [List.flatten_cons, List.length_append] at hc
    split
    · rename_i h; rw [blockParser_cons _ _ _ _ hbs ho hl] at h; cases h
    · rename_i blk rest h
      rw [blockParser_cons _ _ _ _ hbs ho hl] at h
      injection h with h; injection h with h1 h2
      subst h1 h2
      have hne : (q :: ps).flatten ≠ [] := by
        intro h0
        have := congrArg List.length h0
        simp only [List.flatten_cons, List.length_append, List.length_nil] at this
        omega
      simp only [reduceCtorEq, if_false]
      rw [if_neg (by omega), if_pos ⟨trivial, hne⟩, if_neg (by simp; omega)]
      have ht : (q :: ps).flatten.take bs = q := by
        rw [List.flatten_cons, ← hq.1]; simp
      have hd : (q :: ps).flatten.drop bs = ps.flatten := by
        rw [List.flatten_cons, ← hq.1]; simp
      rw [ht, hd, ih q (f (applyIv p iv)) _ _ _ hp.2 hfl (by omega) (by omega)]
      simp [Spec.cbc, applyIv_eq]

/-- CBC decryption of blocks as the textbook defines it. -/
def cbcDec (D : Bytes → Bytes) : Bytes → List Bytes → List Bytes
  | _, [] => []
  | iv, c :: cs => Spec.xorBlock (D c) iv :: cbcDec D c cs

theorem cbcLoop_dec (f : Bytes → Bytes) (bs : Nat) (hbs : 0 < bs)
    (hf : ∀ b : Bytes, b.length = bs → (f b).length = bs) (cs : List Bytes) (hcs : Blocks bs cs) :
    ∀ (iv outb : Bytes) (cap : Nat), iv.length = bs → outb.length ≤ bs →
      cs.flatten.length ≤ cap →
    cbcLoop f bs hbs .decrypt iv outb cs.flatten cap = .ok (cbcDec f iv cs).flatten := by
  induction cs with
  | nil =>
    intro iv outb cap _ _ _
    exact cbcLoop_nil _ _ _ _ _ _ _
  | cons p ps ih =>
    intro iv outb cap hiv ho hc
    have hp := hcs.cons
    have hfl := hf p hp.1
    rw [cbcLoop]
    rw [List.flatten_cons, List.length_append] at hc
    rw [List.flatten_cons]
    split
    · rename_i h; rw [blockParser_cons _ _ _ _ hbs ho hp.1] at h; cases h
    · rename_i blk rest h
      rw [blockParser_cons _ _ _ _ hbs ho hp.1] at h
      injection h with h; injection h with h1 h2
      subst h1 h2
      simp only [reduceCtorEq, if_false, if_true, false_and]
      have ht : (p ++ ps.flatten).take bs = p := by rw [← hp.1]; simp
      rw [if_neg (by omega), ht, ih hp.2 p _ _ hp.1
        (by rw [applyIv_length _ _ (by omega)]; omega) (by omega)]
      simp [cbcDec, applyIv_eq]

theorem cbcDec_cbc (C : Cipher) (hC : Lawful C) (ps : List Bytes) (hps : Blocks C.bs ps) :
    ∀ iv : Bytes, iv.length = C.bs → cbcDec C.dec iv (Spec.cbc C.enc iv ps) = ps := by
  induction ps with
  | nil => intro iv _; rfl
  | cons p ps ih =>
    intro iv hiv
    have hp := hps.cons
    have hl : (Spec.xorBlock p iv).length = C.bs := by
      rw [← applyIv_eq, applyIv_length _ _ (by omega)]; exact hp.1
    simp only [Spec.cbc, cbcDec]
    rw [hC.dec_enc _ hl, xor_cancel _ _ (by omega), ih hp.2 _ (hC.enc_len _ hl)]

theorem cbc_blocks (C : Cipher) (hC : Lawful C) (ps : List Bytes) (hps : Blocks C.bs ps) :
    ∀ iv : Bytes, iv.length = C.bs → Blocks C.bs (Spec.cbc C.enc iv ps) ∧
      (Spec.cbc C.enc iv ps).length = ps.length := by
  induction ps with
  | nil => intro iv _; exact ⟨by simp [Blocks, Spec.cbc], rfl⟩
  | cons p ps ih =>
    intro iv hiv
    have hp := hps.cons
    have hl : (Spec.xorBlock p iv).length = C.bs := by
      rw [← applyIv_eq, applyIv_length _ _ (by omega)]; exact hp.1
    have hi := ih hp.2 _ (hC.enc_len _ hl)
    refine ⟨?_, by simp [Spec.cbc, hi.2]⟩
    intro q hq
    rcases List.mem_cons.mp hq with rfl | hq
    · exact hC.enc_len _ hl
    · exact hi.1 q hq

theorem ecb_blocks (f : Bytes → Bytes) (bs : Nat)
    (hf : ∀ b : Bytes, b.length = bs → (f b).length = bs) (ps : List Bytes) (hps : Blocks bs ps) :
    Blocks bs (Spec.ecb f ps) := by
  intro q hq
  simp only [Spec.ecb, List.mem_map] at hq
  obtain ⟨p, hp, rfl⟩ := hq
  exact hf p (hps p hp)

theorem ofb_blocks (f : Bytes → Bytes) (bs : Nat)
    (hf : ∀ b : Bytes, b.length = bs → (f b).length = bs) (ps : List Bytes) (hps : Blocks bs ps) :
    ∀ iv : Bytes, iv.length = bs → Blocks bs (Spec.ofb f iv ps) ∧
      (Spec.ofb f iv ps).length = ps.length ∧ Spec.ofb f iv (Spec.ofb f iv ps) = ps := by
  induction ps with
  | nil => intro iv _; exact ⟨by simp [Blocks, Spec.ofb], rfl, rfl⟩
  | cons p ps ih =>
    intro iv hiv
    have hp := hps.cons
    have hl := hf iv hiv
    have hi := ih hp.2 _ hl
    refine ⟨?_, by simp [Spec.ofb, hi.2.1], ?_⟩
    · intro q hq
      rcases List.mem_cons.mp hq with rfl | hq
      · rw [← applyIv_eq, applyIv_length _ _ (by omega)]; exact hp.1
      · exact hi.1 q hq
    · simp only [Spec.ofb]
      rw [xor_cancel _ _ (by omega), hi.2.2]

theorem ctr_blocks (f : Bytes → Bytes) (bs : Nat)
    (hf : ∀ b : Bytes, b.length = bs → (f b).length = bs) (nonce : Bytes)
    (hn : nonce.length + 4 = bs) (ps : List Bytes) (hps : Blocks bs ps) :
    ∀ c : W32, Blocks bs (Spec.ctr f nonce c ps) ∧
      (Spec.ctr f nonce c ps).length = ps.length ∧
      Spec.ctr f nonce c (Spec.ctr f nonce c ps) = ps := by
  induction ps with
  | nil => intro c; exact ⟨by simp [Blocks, Spec.ctr], rfl, rfl⟩
  | cons p ps ih =>
    intro c
    have hp := hps.cons
    have hl := hf (nonce ++ Spec.be32 c) (by simp [be32_length, hn])
    have hi := ih hp.2 (c + 1#32)
    refine ⟨?_, by simp [Spec.ctr, hi.2.1], ?_⟩
    · intro q hq
      rcases List.mem_cons.mp hq with rfl | hq
      · rw [← applyIv_eq, applyIv_length _ _ (by omega)]; exact hp.1
      · exact hi.1 q hq
    · simp only [Spec.ctr]
      rw [xor_cancel _ _ (by omega), hi.2.2]

/-- Removing a correct padding. -/
theorem unpad_x923 (bs : Nat) (hbs : bs ≤ 255) (m p : Bytes) (h : Spec.X923 bs m p)
    (hbig : p.length < 2 ^ 64) :
    ∃ o, unpad p = .ok (o, m.length) ∧ o.take m.length = m := by
  obtain ⟨k, filler, hk1, hk2, hfl, hpe, _⟩ := h
  have hlen : p.length = m.length + k := by rw [hpe]; simp; omega
  have hlast : p[p.length - 1]? = some (BitVec.ofNat 8 k) := by
    rw [← List.getLast?_eq_getElem?, hpe]; simp
  refine ⟨p.set (p.length - 1) 0#8, ?_, ?_⟩
  · unfold unpad
    rw [if_neg (by omega)]
    simp only [rd, hlast, Out.ofOption_some, Out.bind_ok, Out.pure_eq, Out.ok.injEq,
      Prod.mk.injEq, true_and]
    have hk : (BitVec.ofNat 8 k).toNat = k := by simp; omega
    rw [hk, hlen, show m.length + k + (2 ^ 64 - k) = m.length + 2 ^ 64 by omega,
      Nat.add_mod_right]
    exact Nat.mod_eq_of_lt (by omega)
  · rw [List.take_set_of_le (by omega), hpe]
    simp

end Kryptos.Block
