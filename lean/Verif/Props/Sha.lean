import Verif.Lemmas.ShaInst
/-
  C16 (SHA-1/SHA-2 digests are those of FIPS 180-4), C17 (padding), C18 (incremental hashing).
-/
namespace Kryptos
open Spec Spec.MD Hash

/-! ### C16: conformance for messages that get padded -/

/-- SHA-1 of the library is SHA-1 of FIPS 180-4 for every message whose length is not a positive
multiple of the block size.  Missing with respect to C16: positive multiples of 64 bytes, where it
is false, see `sha1_fips_fails` and `sha1_aligned`. -/
theorem sha1_fips_partial (m : Bytes) (stale : List W32) (hm : m.length < 2 ^ 61)
    (ha : m.length % 64 ≠ 0 ∨ m = []) : Sha1.hash stale m false = .ok (Sha.sha1 m) := by
  have h := process_padded Sha1.alg Sha1.wf Sha.sha1Compress (fun st blk _ => Sha1.compress_eq st blk)
    (be 8) (fun n => be_length 8 n) (fun _ => True)
    (fun p n hp hn _ => congrArg (fun o => o >>= fun i => Out.ok i) (putLen32_fin p n hp hn))
    trivial m stale hm ha (fun _ => trivial)
  unfold Sha1.hash hashOf
  rw [h]
  simp only [Out.bind_ok, Out.pure_eq, Bool.false_eq_true, if_false]
  unfold Sha.sha1 Sha1.raw
  congr 2
  funext x
  exact cpyBe_eq 4 x

/-- The words after processing with SHA-224/256. -/
theorem sha256_process (init : Eight 32) (m : Bytes) (stale : List W32) (hm : m.length < 2 ^ 61)
    (ha : m.length % 64 ≠ 0 ∨ m = []) :
    processMessage (Sha256.alg init) m stale =
      .ok (iterate 64 Sha.p256.compress init (pad 64 8 0x80#8 (be 8) m)) :=
  process_padded (Sha256.alg init) (Sha256.wf init) Sha.p256.compress
    (fun st blk _ => Sha256.compress_eq st blk)
    (be 8) (fun n => be_length 8 n) (fun _ => True)
    (fun p n hp hn _ => congrArg (fun o => o >>= fun i => Out.ok i) (putLen32_fin p n hp hn))
    trivial m stale hm ha (fun _ => trivial)

theorem flatMap_cpyBe {w : Nat} (wb : Nat) (l : List (BitVec w)) :
    l.flatMap (cpyBe wb) = l.flatMap fun x => be wb x.toNat := by
  congr 1; funext x; exact cpyBe_eq wb x

/-- SHA-256 likewise (missing: positive multiples of 64 bytes). -/
theorem sha256_fips_partial (m : Bytes) (stale : List W32) (hm : m.length < 2 ^ 61)
    (ha : m.length % 64 ≠ 0 ∨ m = []) : ∃ d, Sha256.hash stale m false = .ok d ∧ Sha.Sha256 m d := by
  refine ⟨_, ?_, Sha256.init256, Sha256.init256_spec, rfl⟩
  unfold Sha256.hash hashOf
  rw [sha256_process _ m stale hm ha]
  simp only [Out.bind_ok, Out.pure_eq, Bool.false_eq_true, if_false]
  unfold Sha256.raw256
  rw [flatMap_cpyBe]; rfl

theorem take_words {w : Nat} (wb k : Nat) (l : List (BitVec w)) :
    (l.take k).flatMap (fun x => be wb x.toNat) = (l.flatMap fun x => be wb x.toNat).take (k * wb) := by
  induction l generalizing k with
  | nil => simp
  | cons x l ih =>
    cases k with
    | zero => simp
    | succ k =>
      rw [List.take_succ_cons, List.flatMap_cons, List.flatMap_cons, ih, Nat.succ_mul, List.take_append,
        List.take_of_length_le (l := be wb x.toNat) (by rw [be_length]; omega), be_length,
        Nat.add_sub_cancel]

/-- SHA-224 likewise (missing: positive multiples of 64 bytes). -/
theorem sha224_fips_partial (m : Bytes) (stale : List W32) (hm : m.length < 2 ^ 61)
    (ha : m.length % 64 ≠ 0 ∨ m = []) : ∃ d, Sha224.hash stale m false = .ok d ∧ Sha.Sha224 m d := by
  refine ⟨_, ?_, Sha256.init224, Sha256.init224_spec, rfl⟩
  unfold Sha224.hash hashOf
  rw [sha256_process _ m stale hm ha]
  simp only [Out.bind_ok, Out.pure_eq, Bool.false_eq_true, if_false]
  unfold Sha256.raw224
  rw [flatMap_cpyBe, take_words]; rfl

set_option maxRecDepth 4000 in
theorem sha512_process8 (init : Eight 64) (m : Bytes) (stale : List W64) (hm : m.length < 2 ^ 61)
    (ha : m.length % 128 ≠ 0 ∨ m = []) :
    processMessage (Sha512.alg init) m stale =
      .ok (iterate 128 Sha.p512.compress init (pad 128 8 0x80#8 (be 8) m)) :=
  process_padded (Sha512.alg init) (Sha512.wf init) Sha.p512.compress
    (fun st blk _ => Sha512.compress_eq st blk)
    (be 8) (fun n => be_length 8 n) (fun _ => True)
    (fun p n hp _ _ => congrArg (fun o => o >>= fun i => Out.ok i) (putLen64_fin 16 (by decide) p n hp))
    trivial m stale hm ha (fun _ => trivial)

theorem be_small (n : Nat) (hn : n < 2 ^ 64) : be 16 n = List.replicate 8 0#8 ++ be 8 n := by
  rw [show be 16 n = be 8 (n / 256 ^ 8) ++ be 8 n from be_add 8 8 n, Nat.div_eq_of_lt (by omega)]
  rfl

/-- The library's padding (64-bit length field from offset 120) is that of the standard (128-bit
field from offset 112) outside the residues 112 to 119. -/
theorem pad_128 (m : Bytes) (hm : m.length < 2 ^ 61) (hr : m.length % 128 < 112 ∨ 120 ≤ m.length % 128) :
    pad 128 8 0x80#8 (be 8) m = pad 128 16 0x80#8 (be 16) m := by
  unfold pad
  rw [be_small _ (by omega), ← List.append_assoc (List.replicate _ _), List.replicate_append_replicate]
  congr 4
  omega

/-- SHA-512: besides positive multiples of the block size, messages with a length of 112 to 119
modulo 128 are missing (false: `sha512_len_fails`). -/
theorem sha512_fips_partial (m : Bytes) (stale : List W64) (hm : m.length < 2 ^ 61)
    (ha : m.length % 128 ≠ 0 ∨ m = []) (hr : m.length % 128 < 112 ∨ 120 ≤ m.length % 128) :
    ∃ d, Sha512.hash stale m false = .ok d ∧ Sha.Sha512 m d := by
  refine ⟨_, ?_, Sha512.init512, Sha512.init512_spec, rfl⟩
  unfold Sha512.hash hashOf
  rw [sha512_process8 _ m stale hm ha, pad_128 m hm hr]
  simp only [Out.bind_ok, Out.pure_eq, Bool.false_eq_true, if_false]
  unfold Sha512.raw512
  rw [flatMap_cpyBe]; rfl

/-- SHA-384: as SHA-512. -/
theorem sha384_fips_partial (m : Bytes) (stale : List W64) (hm : m.length < 2 ^ 61)
    (ha : m.length % 128 ≠ 0 ∨ m = []) (hr : m.length % 128 < 112 ∨ 120 ≤ m.length % 128) :
    ∃ d, Sha384.hash stale m false = .ok d ∧ Sha.Sha384 m d := by
  refine ⟨_, ?_, Sha512.init384, Sha512.init384_spec, rfl⟩
  unfold Sha384.hash hashOf
  rw [sha512_process8 _ m stale hm ha, pad_128 m hm hr]
  simp only [Out.bind_ok, Out.pure_eq, Bool.false_eq_true, if_false]
  unfold Sha512.raw384
  rw [flatMap_cpyBe, take_words]; rfl

/-- The initial values are determined by the standard, so the digests above are unique. -/
theorem sha512_functional {m d d' : Bytes} (h : Sha.Sha512 m d) (h' : Sha.Sha512 m d') : d = d' := by
  obtain ⟨a, ha, rfl⟩ := h
  obtain ⟨b, hb, rfl⟩ := h'
  have : a = b := by
    unfold Sha.IsSha512Init at ha hb
    rw [← hb] at ha
    cases a; cases b
    simpa [Eight.words] using ha
  rw [this]

theorem sha256_functional {m d d' : Bytes} (h : Sha.Sha256 m d) (h' : Sha.Sha256 m d') : d = d' := by
  obtain ⟨a, ha, rfl⟩ := h
  obtain ⟨b, hb, rfl⟩ := h'
  have : a = b := by
    unfold Sha.IsSha256Init at ha hb
    rw [← hb] at ha
    cases a; cases b
    simpa [Eight.words] using ha
  rw [this]


/-- Sanity of the specification: `rootAux` is the integer part of the `k`-th root. -/
theorem rootAux_root (k n : Nat) : ∀ (b r : Nat), r ^ k ≤ n → n < (r + 2 ^ b) ^ k →
    (Sha.rootAux k n b r) ^ k ≤ n ∧ n < (Sha.rootAux k n b r + 1) ^ k
  | 0, r, h1, h2 => ⟨h1, h2⟩
  | b + 1, r, h1, h2 => by
    rw [Sha.rootAux]
    split
    · next h => exact rootAux_root k n b _ h (by rwa [Nat.add_assoc, ← Nat.mul_two, ← Nat.pow_succ])
    · next h => exact rootAux_root k n b _ h1 (Nat.lt_of_not_le h)

/-- Non-vacuity: the root scaled for the constants used does have less than `w + 8` bits. -/
example : ∀ p ∈ Sha.primesBelow 410, p * 2 ^ (3 * 64) < (0 + 2 ^ (64 + 8)) ^ 3 := by decide +kernel

/-! ### C16: positive multiples of the block size -/

/-- For a positive multiple of the block size the library emits the state after the message blocks
themselves: no padding is appended. -/
theorem sha1_aligned (m : Bytes) (stale : List W32) (hm : m.length < 2 ^ 61) (hne : m ≠ [])
    (ha : m.length % 64 = 0) :
    Sha1.hash stale m false =
      .ok ((iterate 64 Sha.sha1Compress Sha.sha1Init m).words.flatMap fun x => be 4 x.toNat) := by
  unfold Sha1.hash hashOf
  rw [process_aligned Sha1.alg Sha1.wf Sha.sha1Compress (fun st blk _ => Sha1.compress_eq st blk) m
    stale hm hne ha]
  simp only [Out.bind_ok, Out.pure_eq, Bool.false_eq_true, if_false]
  unfold Sha1.raw
  rw [flatMap_cpyBe]; rfl

theorem sha256_aligned (m : Bytes) (stale : List W32) (hm : m.length < 2 ^ 61) (hne : m ≠ [])
    (ha : m.length % 64 = 0) :
    Sha256.hash stale m false = .ok (Sha.p256.final Sha256.init256 m) := by
  unfold Sha256.hash hashOf
  rw [process_aligned (Sha256.alg _) (Sha256.wf _) Sha.p256.compress
    (fun st blk _ => Sha256.compress_eq st blk) m stale hm hne ha]
  simp only [Out.bind_ok, Out.pure_eq, Bool.false_eq_true, if_false]
  unfold Sha256.raw256
  rw [flatMap_cpyBe]; rfl

set_option maxRecDepth 4000 in
theorem sha512_aligned (m : Bytes) (stale : List W64) (hm : m.length < 2 ^ 61) (hne : m ≠ [])
    (ha : m.length % 128 = 0) :
    Sha512.hash stale m false = .ok (Sha.p512.final Sha512.init512 m) := by
  unfold Sha512.hash hashOf
  rw [process_aligned (Sha512.alg _) (Sha512.wf _) Sha.p512.compress
    (fun st blk _ => Sha512.compress_eq st blk) m stale hm hne ha]
  simp only [Out.bind_ok, Out.pure_eq, Bool.false_eq_true, if_false]
  unfold Sha512.raw512
  rw [flatMap_cpyBe]; rfl

/-- The specification evaluated with the (proved equal) compression functions of the model. -/
theorem iterate_run {w : Nat} {σ : Type} (comp : σ → List (BitVec w) → Out σ) (f : σ → Bytes → σ)
    (wb nr : Nat) (h : ∀ st blk, comp st (ws w wb nr blk) = .ok (f st blk)) (B : Nat) (p : Bytes) :
    ∀ st, (chunks B p).foldlM (fun st blk => comp st (ws w wb nr blk)) st = .ok (iterate B f st p) := by
  unfold iterate
  induction chunks B p with
  | nil => intro st; rfl
  | cons x l ih =>
    intro st
    rw [List.foldlM_cons, h, Out.bind_ok, List.foldl_cons]
    exact ih (f st x)

/-- Evaluation of the standard's digest through the model's compression function. -/
def run1 (padded : Bytes) : Out Bytes := do
  let st ← (chunks 64 padded).foldlM (fun st blk => Sha1.compress st (ws 32 4 16 blk)) Sha.sha1Init
  return st.words.flatMap fun x => be 4 x.toNat
def run256 (padded : Bytes) : Out Bytes := do
  let st ← (chunks 64 padded).foldlM (fun st blk => Sha256.compress st (ws 32 4 16 blk)) Sha256.init256
  return st.words.flatMap fun x => be 4 x.toNat
def run512 (padded : Bytes) : Out Bytes := do
  let st ← (chunks 128 padded).foldlM (fun st blk => Sha512.compress st (ws 64 8 16 blk)) Sha512.init512
  return st.words.flatMap fun x => be 8 x.toNat

theorem run1_spec (m : Bytes) : run1 (pad 64 8 0x80#8 (be 8) m) = .ok (Sha.sha1 m) := by
  unfold run1; rw [iterate_run Sha1.compress Sha.sha1Compress 4 16 Sha1.compress_eq]; rfl
theorem run256_spec (m d : Bytes) (h : Sha.Sha256 m d) : run256 (pad 64 8 0x80#8 (be 8) m) = .ok d := by
  unfold run256; rw [iterate_run Sha256.compress Sha.p256.compress 4 16 Sha256.compress_eq]
  rw [sha256_functional h ⟨Sha256.init256, Sha256.init256_spec, rfl⟩]; rfl
set_option maxRecDepth 4000 in
theorem run512_spec (m d : Bytes) (h : Sha.Sha512 m d) :
    run512 (pad 128 16 0x80#8 (be 16) m) = .ok d := by
  unfold run512; rw [iterate_run Sha512.compress Sha.p512.compress 8 16 Sha512.compress_eq]
  rw [sha512_functional h ⟨Sha512.init512, Sha512.init512_spec, rfl⟩]; rfl

/-- C16 fails for SHA-1: witness, 64 bytes. -/
theorem sha1_fips_fails : ¬ ∀ m, m.length < 2 ^ 61 → Sha1.hash [] m false = .ok (Sha.sha1 m) := by
  intro h
  have h1 := h (List.replicate 64 0x61#8) (by decide)
  rw [← run1_spec] at h1
  exact absurd h1 (by decide +kernel)

/-- C16 fails for SHA-256: witness, 64 bytes. -/
theorem sha256_fips_fails :
    ¬ ∀ m, m.length < 2 ^ 61 → ∃ d, Sha256.hash [] m false = .ok d ∧ Sha.Sha256 m d := by
  intro h
  obtain ⟨d, h1, h2⟩ := h (List.replicate 64 0x61#8) (by decide)
  rw [← run256_spec _ _ h2] at h1
  exact absurd h1 (by decide +kernel)

/-- C16 fails for SHA-512 also for messages that are not a multiple of the block size: witness,
112 bytes.  (`LEN_BLOCK_OFFSET` is 120 where the 128-bit length field starts at 112.) -/
theorem sha512_len_fails :
    ¬ ∀ m, m.length < 2 ^ 61 → m.length % 128 ≠ 0 →
      ∃ d, Sha512.hash [] m false = .ok d ∧ Sha.Sha512 m d := by
  intro h
  obtain ⟨d, h1, h2⟩ := h (List.replicate 112 0x61#8) (by decide) (by decide)
  rw [← run512_spec _ _ h2] at h1
  exact absurd h1 (by decide +kernel)

/-- What SHA-512 computes for those: the length occupies 64 bits. -/
theorem sha512_len64 (m : Bytes) (stale : List W64) (hm : m.length < 2 ^ 61)
    (ha : m.length % 128 ≠ 0 ∨ m = []) :
    Sha512.hash stale m false = .ok (Sha.p512.final Sha512.init512 (pad 128 8 0x80#8 (be 8) m)) := by
  unfold Sha512.hash hashOf
  rw [sha512_process8 _ m stale hm ha]
  simp only [Out.bind_ok, Out.pure_eq, Bool.false_eq_true, if_false]
  unfold Sha512.raw512
  rw [flatMap_cpyBe]; rfl

/-! ### Hexadecimal output -/

theorem nibble_ascii (n : Byte) (h : n.toNat < 16) :
    some (nibble2ascii n) = base16Alphabet[n.toNat]? := by
  have : ∀ n : BitVec 8, n.toNat < 16 → some (nibble2ascii n) = base16Alphabet[n.toNat]? := by
    decide +kernel
  exact this n h

/-- The hexadecimal form of a word is the base16 text of its big-endian bytes. -/
theorem toHex_eq {w : Nat} (hw : 8 ≤ w) (wb : Nat) (v : BitVec w) :
    (toHex wb v).map some = (be wb v.toNat).flatMap fun b =>
      [base16Alphabet[b.toNat / 16]?, base16Alphabet[b.toNat % 16]?] := by
  have hnib : ∀ k, ((v >>> (4 * k) &&& 0xF#w).setWidth 8 : Byte).toNat = v.toNat / 16 ^ k % 16 := by
    intro k
    have hF : (0xF#w).toNat = 2 ^ 4 - 1 := by
      rw [BitVec.toNat_ofNat, Nat.mod_eq_of_lt]
      exact Nat.lt_of_lt_of_le (by decide : 15 < 2 ^ 8) (Nat.pow_le_pow_right (by decide) hw)
    rw [BitVec.toNat_setWidth, BitVec.toNat_and, hF, Nat.and_two_pow_sub_one_eq_mod,
      BitVec.toNat_ushiftRight, Nat.shiftRight_eq_div_pow, Nat.pow_mul,
      show 2 ^ 4 = 16 from rfl, show 2 ^ 8 = 256 from rfl]
    omega
  induction wb with
  | zero => rfl
  | succ n ih =>
    rw [be_succ, List.flatMap_cons, ← ih]
    unfold toHex
    rw [show 2 * (n + 1) = (2 * n + 1) + 1 by omega, List.range_succ_eq_map, List.range_succ_eq_map]
    simp only [List.map_cons, List.map_map, List.cons_append, List.nil_append]
    rw [nibble_ascii _ (by rw [hnib]; omega), nibble_ascii _ (by rw [hnib]; omega), hnib, hnib]
    have e1 : v.toNat / 16 ^ (2 * n + 1 + 1 - 1 - 0) % 16 =
        (BitVec.ofNat 8 (v.toNat / 256 ^ n)).toNat / 16 := by
      rw [BitVec.toNat_ofNat, show 2 * n + 1 + 1 - 1 - 0 = 2 * n + 1 by omega, Nat.pow_succ,
        Nat.pow_mul, ← Nat.div_div_eq_div_mul, show 16 ^ 2 = 256 from rfl]
      omega
    have e2 : v.toNat / 16 ^ (2 * n + 1 + 1 - 1 - Nat.succ 0) % 16 =
        (BitVec.ofNat 8 (v.toNat / 256 ^ n)).toNat % 16 := by
      rw [BitVec.toNat_ofNat, show 2 * n + 1 + 1 - 1 - Nat.succ 0 = 2 * n by omega, Nat.pow_mul,
        show 16 ^ 2 = 256 from rfl]
      omega
    rw [e1, e2]
    congr 2
    apply List.map_congr_left
    intro i _
    simp only [Function.comp]
    rw [show 2 * n + 1 + 1 - 1 - (i + 1).succ = 2 * n - 1 - i by omega]

/-- With `to_hex` set, the hash functions emit the base16 text of the raw digest. -/
theorem hashOf_hex {w : Nat} {σ : Type} (hw : 8 ≤ w) (A : Alg w σ) (words : σ → List (BitVec w))
    (wb : Nat) (stale : List (BitVec w)) (m raw hx : Bytes)
    (h1 : hashOf A (fun s => (words s).flatMap (cpyBe wb)) (fun s => (words s).flatMap (toHex wb))
      stale m false = .ok raw)
    (h2 : hashOf A (fun s => (words s).flatMap (cpyBe wb)) (fun s => (words s).flatMap (toHex wb))
      stale m true = .ok hx) :
    hx.map some = raw.flatMap fun b =>
      [base16Alphabet[b.toNat / 16]?, base16Alphabet[b.toNat % 16]?] := by
  unfold hashOf at h1 h2
  cases hp : processMessage A m stale with
  | ub => rw [hp] at h1; simp at h1
  | ok st =>
    rw [hp] at h1 h2
    simp only [Out.bind_ok, Out.pure_eq, Bool.false_eq_true, if_false, if_true] at h1 h2
    rw [← Out.ok.inj h1, ← Out.ok.inj h2]
    induction words st with
    | nil => rfl
    | cons x l ih =>
      simp only [List.flatMap_cons, List.map_append, List.flatMap_append]
      rw [ih, toHex_eq hw, cpyBe_eq]

/-- Instance for SHA-256 (the other members of the family are instances in the same way). -/
theorem sha256_hex (stale : List W32) (m raw hx : Bytes) (h1 : Sha256.hash stale m false = .ok raw)
    (h2 : Sha256.hash stale m true = .ok hx) :
    hx.map some = raw.flatMap fun b =>
      [base16Alphabet[b.toNat / 16]?, base16Alphabet[b.toNat % 16]?] :=
  hashOf_hex (by decide) _ Eight.words 4 stale m raw hx h1 h2
theorem sha1_hex (stale : List W32) (m raw hx : Bytes) (h1 : Sha1.hash stale m false = .ok raw)
    (h2 : Sha1.hash stale m true = .ok hx) :
    hx.map some = raw.flatMap fun b =>
      [base16Alphabet[b.toNat / 16]?, base16Alphabet[b.toNat % 16]?] :=
  hashOf_hex (by decide) _ Five.words 4 stale m raw hx h1 h2
theorem sha512_hex (stale : List W64) (m raw hx : Bytes) (h1 : Sha512.hash stale m false = .ok raw)
    (h2 : Sha512.hash stale m true = .ok hx) :
    hx.map some = raw.flatMap fun b =>
      [base16Alphabet[b.toNat / 16]?, base16Alphabet[b.toNat % 16]?] :=
  hashOf_hex (by decide) _ Eight.words 8 stale m raw hx h1 h2
theorem sha224_hex (stale : List W32) (m raw hx : Bytes) (h1 : Sha224.hash stale m false = .ok raw)
    (h2 : Sha224.hash stale m true = .ok hx) :
    hx.map some = raw.flatMap fun b =>
      [base16Alphabet[b.toNat / 16]?, base16Alphabet[b.toNat % 16]?] :=
  hashOf_hex (by decide) _ (fun s => (Eight.words s).take 7) 4 stale m raw hx h1 h2
theorem sha384_hex (stale : List W64) (m raw hx : Bytes) (h1 : Sha384.hash stale m false = .ok raw)
    (h2 : Sha384.hash stale m true = .ok hx) :
    hx.map some = raw.flatMap fun b =>
      [base16Alphabet[b.toNat / 16]?, base16Alphabet[b.toNat % 16]?] :=
  hashOf_hex (by decide) _ (fun s => (Eight.words s).take 6) 8 stale m raw hx h1 h2

/-! ### Published vectors (tests of the model), also the non-trivial cases of the theorems -/

example : (ascii "abc").length < 2 ^ 61 ∧ (ascii "abc").length % 64 ≠ 0 := by decide
example : Sha1.hash [] (ascii "abc") true =
    .ok (ascii "A9993E364706816ABA3E25717850C26C9CD0D89D") := by decide +kernel
example : Sha1.hash [] [] true =
    .ok (ascii "DA39A3EE5E6B4B0D3255BFEF95601890AFD80709") := by decide +kernel
example : Sha256.hash [] (ascii "abcdbcdecdefdefgefghfghighijhijkijkljklmklmnlmnomnopnopq") true =
    .ok (ascii "248D6A61D20638B8E5C026930C3E6039A33CE45964FF2167F6ECEDD419DB06C1") := by decide +kernel
example : Sha224.hash [] (ascii "abc") true =
    .ok (ascii "23097D223405D8228642A477BDA255B32AADBCE4BDA0B3F7E36C9DA7") := by decide +kernel
example : Sha512.hash [] (ascii "abc") true =
    .ok (ascii ("DDAF35A193617ABACC417349AE20413112E6FA4E89A97EA20A9EEEE64B55D39A" ++
      "2192992A274FC1A836BA3C23A3FEEBBD454D4423643CE80E2A9AC94FA54CA49F")) := by decide +kernel

end Kryptos
