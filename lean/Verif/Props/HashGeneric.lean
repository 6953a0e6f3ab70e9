import Verif.Props.Sha
/-
  C17 (the blocks given to the compression function determine the message) and C18 (incremental
  hashing), for every instantiation of the hash macros.
-/
namespace Kryptos
open Spec Spec.MD Hash

/-! ### C17 -/

/-- An instantiation with the compression function replaced by one that records its arguments: the
result of `processMessage (recording A)` is the list of blocks given to the compression function. -/
def recording {w : Nat} {σ : Type} (A : Alg w σ) : Alg w (List (List (BitVec w))) where
  wb := A.wb
  nr := A.nr
  tab := A.tab
  lenOff := A.lenOff
  tok := A.tok
  putLen := A.putLen
  fix := A.fix
  init := []
  compress st b := .ok (st ++ [b])

/-- The blocks a hash function feeds to its compression function. -/
def blocksOf {w : Nat} {σ : Type} (A : Alg w σ) (m : Bytes) (stale : List (BitVec w)) :
    Out (List (List (BitVec w))) := processMessage (recording A) m stale

theorem foldl_record {w wb nr : Nat} (l : List Bytes) :
    ∀ st : List (List (BitVec w)), l.foldl (fun st blk => st ++ [ws w wb nr blk]) st =
      st ++ l.map (ws w wb nr) := by
  induction l with
  | nil => intro st; simp
  | cons x l ih => intro st; rw [List.foldl_cons, ih]; simp

theorem wf_record {w : Nat} {σ : Type} (A : Alg w σ) (h : Wf A) : Wf (recording A) :=
  ⟨h.w8, h.wb_pos, h.nr_pos, h.tab, h.off, h.off_pos⟩

/-- A hash with big-endian length field in its last `L = bs - lenOff` bytes. -/
structure BeLen {w : Nat} {σ : Type} (A : Alg w σ) : Prop where
  wf : Wf A
  fin : ∀ p n, List.length p = A.lenOff → n < 2 ^ 64 →
      fin A (BitVec.ofNat 64 n) (ws w A.wb A.nr (p ++ List.replicate (A.bs - A.lenOff) 0#8)) =
        .ok (ws w A.wb A.nr (p ++ be (A.bs - A.lenOff) n))

theorem blocks_padded {w : Nat} {σ : Type} (A : Alg w σ) (h : BeLen A) (m : Bytes)
    (stale : List (BitVec w)) (hm : m.length < 2 ^ 61) (ha : m.length % A.bs ≠ 0 ∨ m = []) :
    blocksOf A m stale =
      .ok ((chunks A.bs (pad A.bs (A.bs - A.lenOff) A.tok (be (A.bs - A.lenOff)) m)).map
        (ws w A.wb A.nr)) := by
  have := process_padded (recording A) (wf_record A h.wf) (fun st blk => st ++ [ws w A.wb A.nr blk])
    (fun st blk _ => rfl) (be (A.bs - A.lenOff)) (fun n => be_length _ n) (fun _ => True)
    (fun p n hp hn _ => h.fin p n hp hn) trivial m stale hm ha (fun _ => trivial)
  unfold blocksOf
  rw [this]
  unfold iterate
  rw [foldl_record]
  rfl

theorem blocks_aligned {w : Nat} {σ : Type} (A : Alg w σ) (h : Wf A) (m : Bytes)
    (stale : List (BitVec w)) (hm : m.length < 2 ^ 61) (hne : m ≠ []) (ha : m.length % A.bs = 0) :
    blocksOf A m stale = .ok ((chunks A.bs m).map (ws w A.wb A.nr)) := by
  have := process_aligned (recording A) (wf_record A h) (fun st blk => st ++ [ws w A.wb A.nr blk])
    (fun st blk _ => rfl) m stale hm hne ha
  unfold blocksOf
  rw [this]
  unfold iterate
  rw [foldl_record]
  rfl

/-- Length of a padded message. -/
theorem pad_length_mod (B L : Nat) (hB : 0 < B) (tok : Byte) (len : Nat → Bytes)
    (hl : ∀ n, (len n).length = L) (m : Bytes) : (pad B L tok len m).length % B = 0 := by
  unfold pad
  simp only [List.length_append, List.length_cons, List.length_replicate, hl]
  rw [show m.length + ((B - (m.length + 1 + L) % B) % B + L + 1) =
    (m.length + 1 + L) + (B - (m.length + 1 + L) % B) % B by omega]
  generalize m.length + 1 + L = x
  have := Nat.mod_lt x hB
  by_cases h0 : x % B = 0
  · rw [h0, Nat.sub_zero, Nat.mod_self, Nat.add_zero, h0]
  · rw [Nat.mod_eq_of_lt (a := B - x % B) (by omega), Nat.add_mod, Nat.mod_eq_of_lt (a := B - x % B) (by omega)]
    rw [show x % B + (B - x % B) = B by omega, Nat.mod_self]

/-- **C17 is violated by every hash of the family.**  A message (whose length is not a positive
multiple of the block size) and its own padded form give the same sequence of blocks, hence the
same digest whatever the compression function is: an explicit collision for every message. -/
theorem padding_collision {w : Nat} {σ : Type} (A : Alg w σ) (h : BeLen A) (m : Bytes)
    (stale stale' : List (BitVec w)) (ha : m.length % A.bs ≠ 0 ∨ m = [])
    (hm : (pad A.bs (A.bs - A.lenOff) A.tok (be (A.bs - A.lenOff)) m).length < 2 ^ 61) :
    m ≠ pad A.bs (A.bs - A.lenOff) A.tok (be (A.bs - A.lenOff)) m ∧
    blocksOf A m stale =
      blocksOf A (pad A.bs (A.bs - A.lenOff) A.tok (be (A.bs - A.lenOff)) m) stale' := by
  have hlen : m.length < (pad A.bs (A.bs - A.lenOff) A.tok (be (A.bs - A.lenOff)) m).length := by
    unfold pad; simp only [List.length_append, List.length_cons]; omega
  constructor
  · intro he
    rw [← he] at hlen
    exact Nat.lt_irrefl _ hlen
  · rw [blocks_padded A h m stale (by omega) ha, blocks_aligned A h.wf _ stale' hm _ _]
    · intro h0; rw [h0] at hlen; simp at hlen
    · exact pad_length_mod _ _ (Nat.mul_pos h.wf.nr_pos h.wf.wb_pos) _ _ (fun n => be_length _ n) m

theorem ws_inj {w wb nr : Nat} (hw : w = 8 * wb) {a b : Bytes} (ha : a.length = nr * wb)
    (hb : b.length = nr * wb) (h : ws w wb nr a = ws w wb nr b) : a = b := by
  have beNat_inj : ∀ (x y : Bytes), x.length = y.length → beNat x = beNat y → x = y := by
    intro x
    induction x with
    | nil => intro y hl _; exact (List.length_eq_zero_iff.mp hl.symm).symm
    | cons a x ih =>
      intro y hl he
      cases y with
      | nil => simp at hl
      | cons b y =>
        simp only [List.length_cons, Nat.add_right_cancel_iff] at hl
        rw [beNat_cons, beNat_cons, hl] at he
        have lt : ∀ z : Bytes, beNat z < 256 ^ z.length := by
          intro z
          induction z with
          | nil => simp [beNat]
          | cons c z ihz =>
            rw [beNat_cons, List.length_cons, Nat.pow_succ]
            have hc := c.isLt
            have : c.toNat * 256 ^ z.length ≤ 255 * 256 ^ z.length :=
              Nat.mul_le_mul_right _ (by omega)
            omega
        have hx := lt x
        have hy := lt y
        rw [hl] at hx
        have h1 : beNat x = beNat y := by
          have := congrArg (· % 256 ^ y.length) he
          simp only [Nat.mul_comm _ (256 ^ y.length), Nat.mul_add_mod] at this
          rwa [Nat.mod_eq_of_lt hx, Nat.mod_eq_of_lt hy] at this
        rw [h1, Nat.add_right_cancel_iff] at he
        have h2 : a = b := by
          apply BitVec.eq_of_toNat_eq
          exact Nat.eq_of_mul_eq_mul_right (Nat.pow_pos (by decide)) he
        rw [h2, ih y hl h1]
  have key : ∀ j, j < nr → (a.drop (j * wb)).take wb = (b.drop (j * wb)).take wb := by
    intro j hj
    have h1 : (j + 1) * wb ≤ nr * wb := Nat.mul_le_mul_right _ hj
    rw [Nat.succ_mul] at h1
    have e := congrArg (fun l => l[j]?) h
    simp only [ws_get _ _ _ _ _ hj, Option.some.injEq] at e
    apply beNat_inj
    · simp; omega
    · have lt : ∀ z : Bytes, z.length ≤ wb → beNat z < 2 ^ w := by
        intro z hz
        have : beNat z < 256 ^ z.length := by
          clear hz
          induction z with
          | nil => simp [beNat]
          | cons c z ihz =>
            rw [beNat_cons, List.length_cons, Nat.pow_succ]
            have hc := c.isLt
            have : c.toNat * 256 ^ z.length ≤ 255 * 256 ^ z.length :=
              Nat.mul_le_mul_right _ (by omega)
            omega
        rw [hw, Nat.pow_mul]
        exact Nat.lt_of_lt_of_le this (Nat.pow_le_pow_right (by decide) hz)
      have e2 := congrArg BitVec.toNat e
      rwa [BitVec.toNat_ofNat, BitVec.toNat_ofNat, Nat.mod_eq_of_lt (lt _ (by simp; omega)),
        Nat.mod_eq_of_lt (lt _ (by simp; omega))] at e2
  have hpre : ∀ j, j ≤ nr → a.take (j * wb) = b.take (j * wb) := by
    intro j
    induction j with
    | zero => intro _; simp
    | succ j ih =>
      intro hj
      rw [Nat.succ_mul, List.take_add, List.take_add, ih (by omega), key j (by omega)]
  have := hpre nr (Nat.le_refl _)
  rwa [← ha, List.take_length, ha, ← hb, List.take_length] at this

/-- Blocks determine the padded message. -/
theorem chunks_inj {B : Nat} {w wb nr : Nat} (hw : w = 8 * wb) (hB : B = nr * wb) (hpos : 0 < B) :
    ∀ (a b : Bytes), a.length % B = 0 → b.length % B = 0 →
      (chunks B a).map (ws w wb nr) = (chunks B b).map (ws w wb nr) → a = b := by
  intro a
  induction hn : a.length using Nat.strongRecOn generalizing a with
  | ind n ih =>
    intro b ha hb h
    have hlen : a.length = b.length := by
      have := congrArg List.length h
      simp only [List.length_map, chunks, List.length_range] at this
      have h1 := Nat.div_add_mod a.length B
      have h2 := Nat.div_add_mod b.length B
      rw [hn] at this h1
      rw [this] at h1
      omega
    by_cases h0 : a.length = 0
    · have hb0 : b.length = 0 := by omega
      rw [List.length_eq_zero_iff.mp h0, List.length_eq_zero_iff.mp hb0]
    · have hge : B ≤ a.length := by
        apply Nat.le_of_not_lt; intro hlt; rw [hn] at hlt h0; rw [Nat.mod_eq_of_lt hlt] at ha; omega
      rw [← List.take_append_drop B a, ← List.take_append_drop B b] at h
      rw [chunks_append B hpos _ _ (by simp; omega), chunks_append B hpos _ _ (by simp; omega)] at h
      simp only [List.map_cons, List.cons.injEq] at h
      have h1 := ws_inj hw (by simp; omega) (by simp; omega) h.1
      have h2 := ih (a.drop B).length (by simp; omega) (a.drop B) rfl (b.drop B)
        (by rw [List.length_drop, hn, ← Nat.mod_eq_sub_mod (by omega)]; exact ha)
        (by rw [List.length_drop, ← Nat.mod_eq_sub_mod (by omega)]; exact hb) h.2
      rw [← List.take_append_drop B a, ← List.take_append_drop B b, h1, h2]

theorem pad_inj (B L : Nat) (hL : 8 ≤ L) (tok : Byte) (a b : Bytes)
    (ha : a.length < 2 ^ 61) (hb : b.length < 2 ^ 61)
    (h : pad B L tok (be L) a = pad B L tok (be L) b) : a = b := by
  unfold pad at h
  have hlen : a.length = b.length := by
    have e := congrArg (fun l => (l.drop (l.length - L))) h
    have drop_eq : ∀ m : Bytes, ∀ k, (m ++ tok :: (List.replicate k 0#8 ++ be L (8 * m.length))).drop
        ((m ++ tok :: (List.replicate k 0#8 ++ be L (8 * m.length))).length - L) = be L (8 * m.length) := by
      intro m k
      rw [← List.cons_append, ← List.append_assoc, List.length_append (bs := be L _), be_length,
        Nat.add_sub_cancel, List.drop_left]
    simp only [drop_eq] at e
    have e2 := congrArg beNat e
    rw [beNat_be, beNat_be] at e2
    have hp : 2 ^ 64 ≤ 256 ^ L := by
      rw [show 2 ^ 64 = 256 ^ 8 from rfl]; exact Nat.pow_le_pow_right (by decide) hL
    rw [Nat.mod_eq_of_lt (by omega), Nat.mod_eq_of_lt (by omega)] at e2
    omega
  have := congrArg (List.take a.length) h
  rwa [List.take_left, hlen, List.take_left] at this

/-- C17 for messages that get padded: their blocks determine them.  Missing with respect to C17:
messages of a positive multiple of the block size, where it is false (`padding_collision`). -/
theorem blocks_injective_partial {w : Nat} {σ : Type} (A : Alg w σ) (h : BeLen A)
    (hw : w = 8 * A.wb) (hL : 8 ≤ A.bs - A.lenOff) (m m' : Bytes) (stale stale' : List (BitVec w))
    (hm : m.length < 2 ^ 61) (hm' : m'.length < 2 ^ 61)
    (ha : m.length % A.bs ≠ 0 ∨ m = []) (ha' : m'.length % A.bs ≠ 0 ∨ m' = [])
    (he : blocksOf A m stale = blocksOf A m' stale') : m = m' := by
  rw [blocks_padded A h m stale hm ha, blocks_padded A h m' stale' hm' ha'] at he
  have hpos : 0 < A.bs := Nat.mul_pos h.wf.nr_pos h.wf.wb_pos
  exact pad_inj _ _ hL _ _ _ hm hm' (chunks_inj hw rfl hpos _ _
    (pad_length_mod _ _ hpos _ _ (fun n => be_length _ n) m)
    (pad_length_mod _ _ hpos _ _ (fun n => be_length _ n) m') (Out.ok.inj he))

theorem sha1_BeLen : BeLen Sha1.alg :=
  ⟨Sha1.wf, fun p n hp hn => congrArg (fun o => o >>= fun i => Out.ok i) (putLen32_fin p n hp hn)⟩
theorem sha256_BeLen (init : Eight 32) : BeLen (Sha256.alg init) :=
  ⟨Sha256.wf init, fun p n hp hn => congrArg (fun o => o >>= fun i => Out.ok i) (putLen32_fin p n hp hn)⟩
set_option maxRecDepth 4000 in
theorem sha512_BeLen (init : Eight 64) : BeLen (Sha512.alg init) :=
  ⟨Sha512.wf init, fun p n hp _ =>
    congrArg (fun o => o >>= fun i => Out.ok i) (putLen64_fin 16 (by decide) p n hp)⟩

/-- Two different messages with the same SHA-256 digest, for every message to start from: an
immediate consequence for the digests themselves. -/
theorem sha256_collision (m : Bytes) (stale stale' : List W32) (ha : m.length % 64 ≠ 0 ∨ m = [])
    (hm : (pad 64 8 0x80#8 (be 8) m).length < 2 ^ 61) (hex : Bool) :
    m ≠ pad 64 8 0x80#8 (be 8) m ∧
      Sha256.hash stale m hex = Sha256.hash stale' (pad 64 8 0x80#8 (be 8) m) hex := by
  have hc := padding_collision (Sha256.alg Sha256.init256) (sha256_BeLen _) m stale stale' ha hm
  refine ⟨hc.1, ?_⟩
  have hlen : m.length < (pad 64 8 0x80#8 (be 8) m).length := by
    unfold pad; simp only [List.length_append, List.length_cons]; omega
  have e1 := sha256_process Sha256.init256 m stale (by omega) ha
  have e2 := process_aligned (Sha256.alg Sha256.init256) (Sha256.wf _) Sha.p256.compress
    (fun st blk _ => Sha256.compress_eq st blk) (pad 64 8 0x80#8 (be 8) m) stale' hm
    (by intro h0; rw [h0] at hlen; simp at hlen)
    (pad_length_mod 64 8 (by decide) _ _ (fun n => be_length 8 n) m)
  unfold Sha256.hash hashOf
  rw [e1, e2]; rfl

/-- Concrete case: the empty message collides with a message of 64 bytes. -/
example : Sha256.hash [] [] true = Sha256.hash [] (0x80#8 :: List.replicate 63 0#8) true := by
  decide +kernel

/-! ### C18 -/

/-- Updating with chunks accumulates them. -/
theorem updates_inp (chunks : List Bytes) : ∀ (t : HTask) (H : HashFn), t.fn = some H →
    ∃ inp, (chunks.foldl (fun t c => hashUpdate t (some c)) t) =
        { t with inp := inp, result := if chunks = [] then t.result else .success } ∧
      (match inp with | none => [] | some y => y) =
        (match t.inp with | none => [] | some y => y) ++ chunks.flatten ∧
      (inp = none ↔ t.inp = none ∧ chunks = []) := by
  induction chunks with
  | nil => intro t H _; exact ⟨t.inp, by simp⟩
  | cons c cs ih =>
    intro t H hf
    rw [List.foldl_cons]
    have hu : hashUpdate t (some c) = { t with
        inp := some ((match t.inp with | none => [] | some y => y) ++ c), result := .success } := by
      unfold hashUpdate; rw [hf]; rfl
    obtain ⟨inp, h1, h2, h3⟩ := ih (hashUpdate t (some c)) H (by rw [hu]; exact hf)
    refine ⟨inp, ?_, ?_, ?_⟩
    · rw [h1, hu]; simp
    · rw [h2, hu]; simp
    · rw [h3, hu]; simp

/-- **C18**: initialise, update with any list of chunks, finalize: the output is the hash of the
concatenation of the chunks, whatever the hash function and however the message was cut; the task
is left without input. -/
theorem incremental (H : HashFn) (t0 : HTask) (chunks : List Bytes) (hex : Bool) :
    hashFinalize (chunks.foldl (fun t c => hashUpdate t (some c)) (hashInit H t0)) hex =
      (do let d ← H chunks.flatten hex
          .ok { inp := none, out := some d, result := .success, fn := some H }) := by
  obtain ⟨inp, h1, h2, _⟩ := updates_inp chunks (hashInit H t0) H rfl
  rw [h1]
  unfold hashFinalize hashInit hashTask
  simp only [hashInit, List.nil_append] at h2
  cases inp with
  | none =>
    simp only at h2 ⊢
    rw [← h2]
    cases H [] hex <;> rfl
  | some y =>
    simp only at h2 ⊢
    rw [← h2]
    cases H y hex <;> rfl

/-- In particular the chunking does not matter. -/
theorem incremental_chunking (H : HashFn) (t0 t1 : HTask) (c1 c2 : List Bytes) (hex : Bool)
    (h : c1.flatten = c2.flatten) :
    hashFinalize (c1.foldl (fun t c => hashUpdate t (some c)) (hashInit H t0)) hex =
      hashFinalize (c2.foldl (fun t c => hashUpdate t (some c)) (hashInit H t1)) hex := by
  rw [incremental, incremental, h]

/-- It is also what the one-shot task computes for a supplied input. -/
theorem incremental_oneshot (H : HashFn) (t0 t1 : HTask) (m : Bytes) (chunks : List Bytes)
    (hex : Bool) (h : chunks.flatten = m) (t2 t3 : HTask)
    (h2 : hashFinalize (chunks.foldl (fun t c => hashUpdate t (some c)) (hashInit H t0)) hex = .ok t2)
    (h3 : hashTask H { t1 with inp := some m } hex = .ok t3) :
    t2.out = t3.out ∧ t2.result = .success ∧ t3.result = .success := by
  rw [incremental, h] at h2
  unfold hashTask at h3
  simp only at h3
  cases hd : H m hex with
  | ub => rw [hd] at h2; simp at h2
  | ok d =>
    rw [hd] at h2 h3
    simp only [Out.bind_ok, Out.pure_eq, Out.ok.injEq] at h2 h3
    rw [← h2, ← h3]
    exact ⟨rfl, rfl, rfl⟩

/-- A finalized task can be used again: a second series of updates starts from nothing. -/
theorem incremental_reuse (H : HashFn) (t0 t1 t2 : HTask) (c1 c2 : List Bytes) (hex : Bool)
    (h1 : hashFinalize (c1.foldl (fun t c => hashUpdate t (some c)) (hashInit H t0)) hex = .ok t1)
    (h2 : hashFinalize (c2.foldl (fun t c => hashUpdate t (some c)) t1) hex = .ok t2) :
    ∃ d, H c2.flatten hex = .ok d ∧ t2.out = some d := by
  rw [incremental] at h1
  cases hd : H c1.flatten hex with
  | ub => rw [hd] at h1; simp at h1
  | ok d1 =>
    rw [hd] at h1
    simp only [Out.bind_ok, Out.ok.injEq] at h1
    subst h1
    obtain ⟨inp, g1, g2, _⟩ := updates_inp c2
      { inp := none, out := some d1, result := .success, fn := some H } H rfl
    rw [g1] at h2
    unfold hashFinalize hashTask at h2
    simp only [List.nil_append] at g2
    cases inp with
    | none =>
      simp only at h2 g2
      rw [← g2]
      cases hd2 : H [] hex with
      | ub => rw [hd2] at h2; simp at h2
      | ok d2 => rw [hd2] at h2; simp only [Out.bind_ok, Out.pure_eq, Out.ok.injEq] at h2; exact ⟨d2, rfl, by rw [← h2]⟩
    | some y =>
      simp only at h2 g2
      rw [← g2]
      cases hd2 : H y hex with
      | ub => rw [hd2] at h2; simp at h2
      | ok d2 => rw [hd2] at h2; simp only [Out.bind_ok, Out.pure_eq, Out.ok.injEq] at h2; exact ⟨d2, rfl, by rw [← h2]⟩

/-- Concrete case: three chunks, one of them empty. -/
example : (do let t ← hashFinalize ([ascii "a", [], ascii "bc"].foldl (fun t c => hashUpdate t (some c))
              (hashInit (Sha1.hash []) ⟨some [1], none, .nr, none⟩)) true
              pure t.out) =
    .ok (some (ascii "A9993E364706816ABA3E25717850C26C9CD0D89D")) := by decide +kernel

end Kryptos
