import Verif.Lemmas.Blake3Loop
/-
  BLAKE3 (src/kryptos_blake3.c) is the function of the specification of BLAKE3, but for the derivation of keys from contexts of several chunks.
-/
namespace Kryptos.Blake3
open Spec.Blake3 (Vec put IV Node outBlock output parent chunk tree words)
open Spec.MD (leNat le be)
open Blake2 (Shows)
open Hash (toHex)

theorem getLe32_drop (x : Bytes) (o : Nat) : getLe32 x o = getLe32 (x.drop o) 0 := by
  unfold getLe32 getBe32 rd
  simp only [List.getElem?_drop, Nat.add_zero, Nat.zero_add]

theorem words_eq (key : Bytes) (h : key.length = 32) : ((List.range 8).mapM fun i => getLe32 key (4 * i)) = .ok (vec 8 (words key)) := by
  apply mapM_vec
  intro i hi
  rw [getLe32_drop, Blake2.getLe32_eq _ (by rw [List.length_drop]; omega)]
  rfl

/-- The context with which the loop begins. -/
def begun (c : Ctx) (k : Vec) : Ctx :=
  let c := { c with k := vec 8 k, d := modeFlag c.mode ||| CHUNK_START, h := vec 8 k, v := vec 8 k ++ c.v.drop 8, m := List.replicate 16 0 }
  { c with t := 0, stack := [], getR := false, chunkNr := 0, cur := 0 }

theorem begun_at (c : Ctx) (k : Vec) (input : Bytes) (hb : c.b = 0) : AtChunk ⟨begun c k, input, 0, 0, none⟩ k [] := by
  refine ⟨⟨rfl, ?_, rfl, hb, rfl, rfl, rfl⟩, ⟨rfl, ?_, rfl, rfl⟩, rfl, rfl, rfl⟩
  · show (vec 8 k ++ c.v.drop 8).take 8 = _
    rw [List.take_left' (vec_length 8 k)]
  · show [] = (stk []).map _
    rw [stk]; rfl

theorem doChunks_eq (strict : Bool) (c : Ctx) (key input : Bytes) (k : Vec) (hk : keyWords c key = .ok (vec 8 k)) (hw : 0 < c.wanted) (hc : c.cur = 0) :
    doChunks strict c key input = (do
      let s ← chunkLoop strict (decide (input.length ≤ 1024)) (decide (input.length ≤ 1024) && decide (c.mode ≠ .derive1)) (input.length + 1)
        ⟨begun c k, input, 0, 0, none⟩
      return (s.c, s.out)) := by
  unfold doChunks
  rw [if_neg (by omega)]
  dsimp only
  rw [hk, Out.bind_ok]
  rfl

theorem tree_small (k : Vec) (f : W32) (d : Bytes) (h : d.length ≤ 1024) : tree k f 0 d = chunk k f 0 d := by
  rw [tree, if_neg (by omega)]
  rfl

/-- A stage that gives an output. -/
theorem chunks_out (strict : Bool) (c : Ctx) (key input : Bytes) (k : Vec) (hm : c.mode ≠ .derive1) (hk : keyWords c key = .ok (vec 8 k))
    (hw : 0 < c.wanted) (hc : c.cur = 0) (hb : c.b = 0) (hs : strict = false ∨ input ≠ []) :
    ∃ c' out, doChunks strict c key input = .ok (c', some out) ∧ c'.wanted = c.wanted ∧ out.length = outSizeOf c.wanted ∧
      out.take c.wanted = output (tree k (modeFlag c.mode) 0 input) c.wanted := by
  rw [doChunks_eq strict c key input k hk hw hc, decide_eq_true hm, Bool.and_true]
  have hA := begun_at c k input hb
  rcases Nat.lt_or_ge 1024 input.length with g | g
  · rw [decide_eq_false (by omega)]
    obtain ⟨s2, l, r, e1, e2, e3, e4, -⟩ := many_run strict _ _ k [] (input.length + 1) rfl hA
      (List.ne_nil_of_length_pos (show 0 < input.length by omega)) hw (Or.inr g) (Nat.lt_succ_self _)
    obtain ⟨out, f1, f2, f3⟩ := e4 hm
    rw [e1, Out.bind_ok, Out.pure_eq, f1]
    refine ⟨_, out, rfl, e3, f2, ?_⟩
    refine f3.trans ?_
    rw [root_eq k (modeFlag c.mode) input g 0 l r (by rw [List.nil_append] at e2; exact e2)]
    rfl
  · rw [decide_eq_true g]
    obtain ⟨s2, out, e1, e2, e3, e4, e5⟩ := single_run strict _ k (input.length + 1) hA hs hw g (Nat.lt_succ_self _)
    rw [e1, Out.bind_ok, Out.pure_eq, e3]
    refine ⟨_, out, rfl, e2, e4, ?_⟩
    rw [tree_small _ _ _ g]
    exact e5

theorem outSizeOf_ge (w : Nat) : w ≤ outSizeOf w := by unfold outSizeOf; omega

theorem stage_out (strict : Bool) (c : Ctx) (key input : Bytes) (k : Vec) (hm : c.mode ≠ .derive1) (hk : keyWords c key = .ok (vec 8 k))
    (hw : 0 < c.wanted) (hc : c.cur = 0) (hb : c.b = 0) (hs : strict = false ∨ input ≠ []) :
    ∃ c' out, doBlake3 strict c key input = .ok (c', some out) ∧ out.length = outSizeOf c.wanted ∧
      out.take c.wanted = output (tree k (modeFlag c.mode) 0 input) c.wanted := by
  obtain ⟨c', out, e1, e2, e3, e4⟩ := chunks_out strict c key input k hm hk hw hc hb hs
  have := outSizeOf_ge c.wanted
  unfold doBlake3
  rw [e1, Out.bind_ok]
  refine ⟨_, _, rfl, ?_, ?_⟩
  · rw [List.length_append, List.length_take, List.length_replicate, e2]
    omega
  · rw [e2, List.take_left' (by rw [List.length_take]; omega), e4]

/-! The task-level functions. -/

theorem slice4 (z : Bytes) (o : Nat) (h : o + 4 ≤ z.length) : (z.drop o).take 4 = [z.getD o 0, z.getD (o + 1) 0, z.getD (o + 2) 0, z.getD (o + 3) 0] := by
  apply List.ext_getElem
  · simp; omega
  · intro i h1 h2
    have hi : i < 4 := h2
    interval_cases i <;> simp <;> rw [List.getElem?_eq_getElem (by omega)] <;> rfl

theorem slices4 (z : Bytes) : ∀ q, 4 * q ≤ z.length → (List.range q).flatMap (fun i => (z.drop (4 * i)).take 4) = z.take (4 * q) := by
  intro q
  induction q with
  | zero => intro _; simp
  | succ q ih =>
    intro h
    rw [List.range_succ, List.flatMap_append, ih (by omega), List.flatMap_singleton, ← List.take_add]
    rfl

theorem hex4_eq (z : Bytes) (h : z.length = 32) : ∃ ws, ((List.range 8).mapM fun i => do
      let x ← getBe32 z (4 * i)
      return toHex 4 x) = .ok ws ∧ ws.flatten.map some = Keccak.b16 z := by
  refine ⟨(List.range 8).map fun i => toHex 4 (be32 (z.getD (4 * i) 0) (z.getD (4 * i + 1) 0) (z.getD (4 * i + 2) 0) (z.getD (4 * i + 3) 0)), ?_, ?_⟩
  · apply mapM_ok
    intro i hi
    rw [List.mem_range] at hi
    unfold getBe32
    rw [Keccak.rd_getD z _ (by omega), Out.bind_ok, Keccak.rd_getD z _ (by omega), Out.bind_ok, Keccak.rd_getD z _ (by omega), Out.bind_ok,
      Keccak.rd_getD z _ (by omega), Out.bind_ok]
    rfl
  · have e : z = (List.range 8).flatMap (fun i => (z.drop (4 * i)).take 4) := by
      rw [slices4 z 8 (by omega), List.take_of_length_le (by omega)]
    conv => rhs; rw [e]
    rw [Keccak.b16_flatMap, List.map_flatten, List.map_map, List.flatMap_def]
    congr 1
    apply List.map_congr_left
    intro i hi
    rw [List.mem_range] at hi
    show List.map some (toHex 4 _) = _
    rw [toHex_eq (by decide), Md.be4_toNat, slice4 z (4 * i) (by omega)]
    rfl

/-- The function of the specification for an optional key. -/
def spec (key : Option Bytes) (msg : Bytes) (l : Nat) : Bytes :=
  match key with
  | none => Spec.Blake3.hash msg l
  | some k => Spec.Blake3.keyedHash k msg l

theorem stage_key (strict : Bool) (key : Option Bytes) (msg : Bytes) (n : Nat) (hk : ∀ k, key = some k → k.length = 32) (hn : 0 < n)
    (hs : strict = false ∨ msg ≠ []) : ∃ c' out, doBlake3 strict (fresh (if key = none then .hash else .keyed) n) (key.getD []) msg = .ok (c', some out) ∧
      out.length = outSizeOf n ∧ out.take n = spec key msg n := by
  cases key with
  | none =>
    rw [if_pos rfl]
    refine stage_out strict (fresh .hash n) [] msg IV (by show BMode.hash ≠ .derive1; decide) ?_ hn rfl rfl hs
    show (List.range 8).mapM (fun i => rd iv i) = _
    rw [iv_eq]
    exact mapM_rd 8 IV 8 (Nat.le_refl _)
  | some k =>
    rw [if_neg (by simp)]
    exact stage_out strict (fresh .keyed n) k msg (words k) (by show BMode.keyed ≠ .derive1; decide) (words_eq k (hk k rfl)) hn rfl rfl hs

theorem any_false (key : Option Bytes) (hk : ∀ k, key = some k → k.length = 32) : ¬ (key.any fun k => decide (k.length ≠ 32)) = true := by
  cases key with
  | none => simp
  | some k => simp [hk k rfl]

/-- C108: `kryptos_blake3_hash` gives the 32 bytes of `hash`, or of `keyed_hash` with a key of 32 bytes, for every input (of no bytes too, if
shifting by 32 bits, undefined in C, is taken to have no effect on zero). -/
theorem blake3_task (strict : Bool) (key : Option Bytes) (msg : Bytes) (hex : Bool) (hk : ∀ k, key = some k → k.length = 32)
    (hs : strict = false ∨ msg ≠ []) : ∃ out, blake3 strict key (some msg) hex = .ok ⟨.success, out⟩ ∧ Shows hex (spec key msg 32) out := by
  obtain ⟨c', z, e1, e2, e3⟩ := stage_key strict key msg 32 hk (by decide) hs
  have hz : z.length = 32 := e2
  rw [List.take_of_length_le (by omega)] at e3
  unfold blake3
  dsimp only
  rw [if_neg (any_false key hk), e1, Out.bind_ok]
  dsimp only
  rw [if_neg (by omega), ← e3]
  cases hex
  · exact ⟨z, rfl, rfl⟩
  · obtain ⟨ws, f1, f2⟩ := hex4_eq z hz
    refine ⟨_, ?_, f2⟩
    rw [if_pos rfl, f1]
    rfl

/-- C108: `kryptos_blake3N_hash` gives an output of every size. -/
theorem blake3N_task (strict : Bool) (key : Option Bytes) (msg : Bytes) (n : Nat) (hex : Bool) (hk : ∀ k, key = some k → k.length = 32) (hn : 0 < n)
    (hs : strict = false ∨ msg ≠ []) : ∃ out, blake3N strict key (some msg) n hex = .ok ⟨.success, out⟩ ∧ Shows hex (spec key msg n) out := by
  obtain ⟨c', z, e1, e2, e3⟩ := stage_key strict key msg n hk hn hs
  have := outSizeOf_ge n
  unfold blake3N
  dsimp only
  rw [if_neg (any_false key hk), if_neg (by omega), e1, Out.bind_ok]
  dsimp only
  rw [if_neg (by omega), ← e3]
  cases hex
  · exact ⟨_, rfl, rfl⟩
  · obtain ⟨hx, f1, f2⟩ := Blake2.ptrToHex_eq (z.take n)
    refine ⟨hx, ?_, f2⟩
    rw [if_pos rfl, f1]
    rfl

/-- C108: what is refused: no input, a key of another size, an output of no bytes. -/
theorem blake3_refused (strict : Bool) (key : Option Bytes) (k msg : Bytes) (n : Nat) (hex : Bool) (h : k.length ≠ 32) :
    blake3 strict key none hex = .ok ⟨.invalidParams, []⟩ ∧ blake3N strict key none n hex = .ok ⟨.invalidParams, []⟩ ∧
    blake3 strict (some k) (some msg) hex = .ok ⟨.keyError, []⟩ ∧ blake3N strict (some k) (some msg) n hex = .ok ⟨.keyError, []⟩ ∧
    blake3N strict none (some msg) 0 hex = .ok ⟨.processError, []⟩ := by
  refine ⟨rfl, rfl, ?_, ?_, rfl⟩ <;> simp [blake3, blake3N, h]

/-- C108: **hashing nothing shifts a word of 32 bits by 32 bits**, which is undefined in C. -/
theorem blake3_empty_ub (key : Option Bytes) (hk : ∀ k, key = some k → k.length = 32) (hex : Bool) (n : Nat) (hn : 0 < n) :
    blake3 true key (some []) hex = .ub ∧ blake3N true key (some []) n hex = .ub := by
  have h : ∀ w, 0 < w → doBlake3 true (fresh (if key = none then .hash else .keyed) w) (key.getD []) [] = .ub := by
    intro w hw
    have q : ∀ c : Ctx, ∀ kk x, keyWords c kk = .ok (vec 8 x) → 0 < c.wanted → c.cur = 0 → doBlake3 true c kk [] = .ub := by
      intro c kk x h1 h2 h3
      unfold doBlake3
      rw [doChunks_eq true c kk [] x h1 h2 h3]
      rfl
    cases key with
    | none =>
      refine q _ _ IV ?_ hw rfl
      show (List.range 8).mapM (fun i => rd iv i) = _
      rw [iv_eq]
      exact mapM_rd 8 IV 8 (Nat.le_refl _)
    | some k => exact q _ _ (words k) (words_eq k (hk k rfl)) hw rfl
  unfold blake3 blake3N
  dsimp only
  rw [if_neg (any_false key hk), if_neg (any_false key hk), if_neg (show ¬ n = 0 by omega), h 32 (by decide), h n hn]
  exact ⟨rfl, rfl⟩

/-! The derivation of keys. -/

theorem words_output (n : Node) : vec 8 (words (output n 32)) = vec 8 (Spec.Blake3.compress (outNode n 0)) := by
  apply vec_congr
  intro i hi
  have e : output n 32 = ((List.range 16).flatMap fun i => le 4 (Spec.Blake3.compress (outNode n 0) i).toNat).take 32 := by
    unfold output
    rw [show (32 + 63) / 64 = 1 from rfl, show List.range 1 = [0] from rfl, List.flatMap_singleton]
    rfl
  unfold words
  rw [e]
  generalize Spec.Blake3.compress (outNode n 0) = A
  have q : ((((List.range 16).flatMap fun i => le 4 (A i).toNat).take 32).drop (4 * i)).take 4 = le 4 (A i).toNat := by
    interval_cases i <;> rfl
  rw [q]
  obtain ⟨a, b, c, d, -, h⟩ := be32_putBe32 (A i)
  rw [← h, Md.le_eq, Md.be4_toNat]
  unfold leNat
  rw [List.reverse_reverse, Md.ofNat_beNat4]

theorem key_iv (c : Ctx) (key : Bytes) (h : c.mode = .derive1) : keyWords c key = .ok (vec 8 IV) := by
  unfold keyWords
  rw [h]
  show (List.range 8).mapM (fun i => rd iv i) = _
  rw [iv_eq]
  exact mapM_rd 8 IV 8 (Nat.le_refl _)

/-- The last chunk of a context. -/
def lastChunk (d : Bytes) : Bytes := d.drop ((d.length - 1) / 1024 * 1024)

/-- The first stage. -/
theorem stage_context (strict : Bool) (n : Nat) (context : Bytes) (hn : 0 < n) (hs : strict = false ∨ context ≠ []) :
    ∃ c', doBlake3 strict (fresh .derive1 n) [] context = .ok (c', none) ∧ c'.wanted = n ∧ c'.cur = 0 ∧ c'.b = 0 ∧
      ((∃ e, (context.length - 1) / 1024 + 1 = 2 ^ e) →
        c'.h = vec 8 (Spec.Blake3.compress (outNode (tree IV Spec.Blake3.DERIVE_KEY_CONTEXT 0 context) 0))) ∧
      (1024 < context.length → (context.length - 1) / 1024 % 2 = 0 → c'.h = vec 8 (Spec.Blake3.compress (chunk IV Spec.Blake3.DERIVE_KEY_CONTEXT
        (BitVec.ofNat _ ((context.length - 1) / 1024)) (lastChunk context)))) := by
  have hA := begun_at (fresh .derive1 n) IV context rfl
  unfold doBlake3
  rw [doChunks_eq strict (fresh .derive1 n) [] context IV (key_iv _ _ rfl) hn rfl, decide_eq_false (show ¬ (fresh .derive1 n).mode ≠ .derive1 from fun h => h rfl), Bool.and_false]
  rcases Nat.lt_or_ge 1024 context.length with g | g
  · rw [decide_eq_false (by omega)]
    obtain ⟨s2, l, r, e1, e2, e3, -, e4⟩ := many_run strict _ _ IV [] (context.length + 1) rfl hA
      (List.ne_nil_of_length_pos (show 0 < context.length by omega)) hn (Or.inr g) (Nat.lt_succ_self _)
    obtain ⟨f1, f2, f3, f4⟩ := e4 rfl
    rw [e1, Out.bind_ok, Out.pure_eq, Out.bind_ok]
    dsimp only
    rw [f1]
    have hl : ([] ++ leaves IV (modeFlag BMode.derive1) 0 context).length = (context.length - 1) / 1024 + 1 := by
      rw [List.nil_append, leaves_length _ _ _ _ _ rfl]
    refine ⟨_, rfl, e3, f2, rfl, fun ⟨e, he⟩ => ?_, fun _ ho => ?_⟩
    · refine (f3 (stk_pow e _ (hl.trans he))).trans ?_
      rw [root_eq IV Spec.Blake3.DERIVE_KEY_CONTEXT context g 0 l r (by rw [List.nil_append] at e2; exact e2), ← with_root _ rfl]
      rfl
    · refine (f4 ((congrArg (· % 2) hl).trans (show ((context.length - 1) / 1024 + 1) % 2 = 1 by omega))).trans ?_
      show vec 8 (Spec.Blake3.compress (chunk IV _ (BitVec.ofNat _ (0 + _)) _)) = _
      rw [Nat.zero_add]
      rfl
  · rw [decide_eq_true g]
    obtain ⟨s2, e1, e2, e3, e4, e5⟩ := context_run strict _ IV (context.length + 1) hA hs g (Nat.lt_succ_self _) rfl
    rw [e1, Out.bind_ok, Out.pure_eq, Out.bind_ok]
    dsimp only
    rw [e4]
    refine ⟨_, rfl, e2, e3, rfl, fun _ => ?_, fun h => by omega⟩
    rw [tree_small _ _ _ g]
    exact e5

/-- The second stage. -/
theorem kdf_stages (strict : Bool) (n : Nat) (context key : Bytes) (c' : Ctx) (x : Vec) (hn : 0 < n) (hk : strict = false ∨ key ≠ [])
    (h : doBlake3 strict (fresh .derive1 n) [] context = .ok (c', none)) (hw : c'.wanted = n) (hc : c'.cur = 0) (hb : c'.b = 0) (hx : c'.h = vec 8 x) :
    kdf strict context key n = .ok (some (output (tree x Spec.Blake3.DERIVE_KEY_MATERIAL 0 key) n)) := by
  unfold kdf
  rw [if_neg (by omega), h, Out.bind_ok]
  dsimp only
  have hm : ({ c' with mode := .derive2 } : Ctx).mode = .derive2 := rfl
  obtain ⟨c2, out, e1, e2, e3⟩ := stage_out strict { c' with mode := .derive2 } [] key x (by rw [hm]; decide) (by
    show (List.range 8).mapM (fun i => rd c'.h i) = _
    rw [hx]
    exact mapM_rd 8 x 8 (Nat.le_refl _)) (by show 0 < c'.wanted; omega) hc hb hk
  rw [e1, Out.bind_ok]
  dsimp only at e3
  rw [hw] at e3
  show Out.ok (some (out.take n)) = _
  rw [e3]
  rfl

/-- The number of chunks of a context is a power of two. -/
def Full (context : Bytes) : Prop := ∃ e, (context.length - 1) / 1024 + 1 = 2 ^ e

/-- C108: `kryptos_blake3` is the function `derive_key` for contexts of which the number of chunks is a power of two, in particular those of up to
2048 bytes.  It is not proved for others; `kdf_last_chunk` tells what is derived instead if the number is odd. -/
theorem kdf_derive_key_partial (strict : Bool) (n : Nat) (context key : Bytes) (hn : 0 < n) (h : Full context) (hs : strict = false ∨ context ≠ [])
    (hk : strict = false ∨ key ≠ []) : kdf strict context key n = .ok (some (Spec.Blake3.deriveKey context key n)) := by
  obtain ⟨c', e1, e2, e3, e4, e5, -⟩ := stage_context strict n context hn hs
  refine kdf_stages strict n context key c' _ hn hk e1 e2 e3 e4 ?_
  rw [words_output]
  exact e5 h

theorem full_short (context : Bytes) (h : context.length ≤ 2048) : Full context := by
  rcases Nat.lt_or_ge 1024 context.length with g | g
  · exact ⟨1, by omega⟩
  · exact ⟨0, by omega⟩

/-- C108: **the key derived with a context of an odd number of chunks depends on the length of the context and its last chunk only**: what is left on
the stack of parents is dropped. -/
theorem kdf_last_chunk (strict : Bool) (n : Nat) (context key : Bytes) (hn : 0 < n) (hl : 1024 < context.length)
    (ho : (context.length - 1) / 1024 % 2 = 0) (hk : strict = false ∨ key ≠ []) :
    kdf strict context key n = .ok (some (output (tree (Spec.Blake3.compress (chunk IV Spec.Blake3.DERIVE_KEY_CONTEXT
      (BitVec.ofNat _ ((context.length - 1) / 1024)) (lastChunk context))) Spec.Blake3.DERIVE_KEY_MATERIAL 0 key) n)) := by
  obtain ⟨c', e1, e2, e3, e4, -, e5⟩ := stage_context strict n context hn (Or.inr (List.ne_nil_of_length_pos (by omega)))
  exact kdf_stages strict n context key c' _ hn hk e1 e2 e3 e4 (e5 hl ho)

/-- C108: **different contexts derive the same keys**: here the first 2048 of up to 3072 bytes do not matter. -/
theorem kdf_collision (strict : Bool) (n : Nat) (a b tail key : Bytes) (hn : 0 < n) (ha : a.length = 2048) (hb : b.length = 2048) (ht : tail ≠ [])
    (hl : tail.length ≤ 1024) (hk : strict = false ∨ key ≠ []) : kdf strict (a ++ tail) key n = kdf strict (b ++ tail) key n := by
  have h0 : 0 < tail.length := List.length_pos_iff.mpr ht
  have q : ∀ x : Bytes, x.length = 2048 → ((x ++ tail).length - 1) / 1024 = 2 ∧ lastChunk (x ++ tail) = tail := by
    intro x hx
    have e : ((x ++ tail).length - 1) / 1024 = 2 := by rw [List.length_append]; omega
    refine ⟨e, ?_⟩
    unfold lastChunk
    rw [e]
    exact List.drop_left' hx
  have la : 1024 < (a ++ tail).length := by rw [List.length_append]; omega
  have lb : 1024 < (b ++ tail).length := by rw [List.length_append]; omega
  rw [kdf_last_chunk strict n _ key hn la (by rw [(q a ha).1]) hk, kdf_last_chunk strict n _ key hn lb (by rw [(q b hb).1]) hk,
    (q a ha).1, (q a ha).2, (q b hb).1, (q b hb).2]

example : let c := fun x => List.replicate 2048 x ++ ([9] : Bytes)
    c 1 ≠ c 2 ∧ kdf true (c 1) [7] 32 = kdf true (c 2) [7] 32 :=
  ⟨by decide +kernel, kdf_collision true 32 _ _ [9] [7] (by decide) (List.length_replicate ..) (List.length_replicate ..) (by decide) (by decide) (Or.inr (by decide))⟩

/-! The official vectors for an input of one byte (src/tests/blake3_test_vector.h:71-108), here up to 32 bytes. -/
example : blake3 true none (some [0]) true = .ok ⟨.success, ascii "2D3ADEDFF11B61F14C886E35AFA036736DCD87A74D27B5C1510225D0F592E213"⟩ := by
  decide +kernel
example : blake3N true (some (ascii "whats the Elvish word for friend")) (some [0]) 16 true = .ok ⟨.success, ascii "6D7878DFFF2F485635D39013278AE14F"⟩ := by
  decide +kernel
example : kdf true (ascii "BLAKE3 2019-12-27 16:29:52 test vectors context") [0] 8 = .ok (some [0xB3, 0xE2, 0xE3, 0x40, 0xA1, 0x17, 0xA4, 0x99]) := by
  decide +kernel
example : Full (List.replicate 4000 0) := ⟨2, by rw [List.length_replicate]; rfl⟩

end Kryptos.Blake3
