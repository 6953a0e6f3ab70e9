import Verif.Props.Salsa20
/-
  ChaCha20 and Salsa20 tasks: conformance, involution (C31), ownership of the nonce (C58).
-/
namespace Kryptos.Stream
open Spec.Salsa Spec.MD

attribute [local irreducible] xorStream salsaWith chachaBlock salsaFeed chachaFeed salsaNonce chachaStream

/-! ### Tasks -/

theorem taskCheck_ok (n : Nat) (t : Task) (key inp : Bytes) (hk : t.key = some key) (hk' : key ≠ [])
    (hi : t.inp = some inp) (hi' : inp ≠ []) (hv : (t.iv = .null ∧ t.ivSize = 0) ∨ (t.iv ≠ .null ∧ t.ivSize = n)) :
    taskCheck n t = .success := by
  unfold taskCheck
  rw [if_neg (by simp [hk, hk']), if_neg (not_not_intro hv), if_neg (by simp [hi, hi'])]

/-- **ChaCha20 with a nonce of the caller** is RFC 8439 encryption, whatever the action, and leaves the
nonce as it was. -/
theorem chacha20_live (t : Task) (key inp iv fresh : Bytes) (hk : t.key = some key) (hk32 : key.length = 32)
    (hi : t.inp = some inp) (hi' : inp ≠ []) (hf : t.inFreed = false) (hv : t.iv = .live iv) (hiv : iv.length = 12)
    (hs : t.ivSize = 12) :
    chacha20 t fresh = .ok { t with
      out := some (xorStream (chachaStream key iv (t.ctr.getD 0)) inp)
      result := .success
      ctr := t.ctr.map fun c => c + BitVec.ofNat 32 ((inp.length + 63) / 64) } := by
  have hc := taskCheck_ok 12 t key inp hk (by rintro rfl; cases hk32) hi hi' (.inr ⟨by rw [hv]; nofun, hs⟩)
  obtain ⟨tk, act, ti, fr, tv, tvs, ctr, out, res⟩ := t
  simp only at hk hi hf hv hs
  subst hk hi hf hv hs
  unfold chacha20
  rw [hc, if_neg (by decide)]
  simp only [Bool.false_eq_true, if_false, hk32, ne_eq, not_true_eq_false, chachaLoop_eq key iv inp hk32 hiv, Out.bind_ok]
  cases ctr <;> rfl

/-- **ChaCha20 encryption with a nonce of its own**: the output is the nonce followed by the RFC 8439
ciphertext; the pointer to the nonce dangles. -/
theorem chacha20_own (t : Task) (key inp fresh : Bytes) (hk : t.key = some key) (hk32 : key.length = 32)
    (hi : t.inp = some inp) (hi' : inp ≠ []) (hf : t.inFreed = false) (hv : t.iv = .null) (hfr : fresh.length = 12)
    (hs : t.ivSize = 0) (ha : t.action = .encrypt) :
    chacha20 t fresh = .ok { t with
      out := some (fresh ++ xorStream (chachaStream key fresh (t.ctr.getD 0)) inp)
      result := .success
      ctr := t.ctr.map fun c => c + BitVec.ofNat 32 ((inp.length + 63) / 64)
      iv := .dangling
      ivSize := 12 } := by
  have hc := taskCheck_ok 12 t key inp hk (by rintro rfl; cases hk32) hi hi' (.inl ⟨hv, hs⟩)
  obtain ⟨tk, act, ti, fr, tv, tvs, ctr, out, res⟩ := t
  simp only at hk hi hf hv hs ha
  subst hk hi hf hv hs ha
  unfold chacha20
  rw [hc, if_neg (by decide)]
  simp only [Bool.false_eq_true, if_false, if_true, hk32, ne_eq, not_true_eq_false,
    chachaLoop_eq key fresh inp hk32 hfr, Out.bind_ok]
  cases ctr <;> rfl

/-- **ChaCha20 decryption of nonce and ciphertext.** -/
theorem chacha20_dec (t : Task) (key n ct fresh : Bytes) (hk : t.key = some key) (hk32 : key.length = 32)
    (hi : t.inp = some (n ++ ct)) (hn : n.length = 12) (hf : t.inFreed = false) (hv : t.iv = .null)
    (hs : t.ivSize = 0) (ha : t.action = .decrypt) :
    chacha20 t fresh = .ok { t with
      out := some (xorStream (chachaStream key n (t.ctr.getD 0)) ct)
      result := .success
      ctr := t.ctr.map fun c => c + BitVec.ofNat 32 ((ct.length + 63) / 64) } := by
  have hc := taskCheck_ok 12 t key (n ++ ct) hk (by rintro rfl; cases hk32) hi (by rintro h; simp at h; simp [h.1] at hn)
    (.inl ⟨hv, hs⟩)
  obtain ⟨tk, act, ti, fr, tv, tvs, ctr, out, res⟩ := t
  simp only at hk hi hf hv hs ha
  subst hk hi hf hv hs ha
  unfold chacha20
  rw [hc, if_neg (by decide)]
  have h1 : (n ++ ct).take 12 = n := by rw [← hn]; simp
  have h2 : (n ++ ct).drop 12 = ct := by rw [← hn]; simp
  have h3 : ¬ (n ++ ct).length < 12 := by simp; omega
  simp only [Bool.false_eq_true, if_false, if_true, hk32, ne_eq, not_true_eq_false, reduceCtorEq, h1, h2, h3,
    chachaLoop_eq key n ct hk32 hn, Out.bind_ok]
  cases ctr <;> rfl

/-- A task as made by `kryptos_task_init_as_null`, the setup macro and the action and input macros. -/
def mkTask (n : Nat) (key : Bytes) (iv : Option Bytes) (ctr : Option W32) (action : Action) (inp : Bytes) : Task :=
  setup n ⟨none, action, some inp, false, .null, 0, none, none, .success⟩ key iv ctr

theorem mkTask_some (n : Nat) (key iv : Bytes) (ctr : Option W32) (action : Action) (inp : Bytes) :
    mkTask n key (some iv) ctr action inp = ⟨some key, action, some inp, false, .live iv, n, ctr, none, .success⟩ := rfl

theorem mkTask_none (n : Nat) (key : Bytes) (ctr : Option W32) (action : Action) (inp : Bytes) :
    mkTask n key none ctr action inp = ⟨some key, action, some inp, false, .null, 0, ctr, none, .success⟩ := rfl

/-- **Round trip, nonce of the caller**, for every start of the counter. -/
theorem chacha20_roundtrip (key iv inp f1 f2 : Bytes) (ctr : Option W32) (hk : key.length = 32) (hv : iv.length = 12)
    (hi : inp ≠ []) :
    ∃ t1 ct t2, chacha20 (mkTask 12 key (some iv) ctr .encrypt inp) f1 = .ok t1 ∧ t1.out = some ct ∧
      t1.result = .success ∧ ct.length = inp.length ∧
      chacha20 (mkTask 12 key (some iv) ctr .decrypt ct) f2 = .ok t2 ∧ t2.result = .success ∧ t2.out = some inp := by
  have hl := xorStream_length (chachaStream key iv (ctr.getD 0)) inp
  refine ⟨_, _, _, chacha20_live _ key inp iv f1 rfl hk rfl hi rfl rfl hv rfl, rfl, rfl, hl,
    chacha20_live _ key _ iv f2 rfl hk rfl ?_ rfl rfl hv rfl, rfl, ?_⟩
  · rintro h
    have := List.length_eq_zero_iff.mpr h
    rw [show (mkTask 12 key (some iv) ctr .encrypt inp).ctr.getD 0 = ctr.getD 0 from rfl, hl] at this
    exact hi (List.length_eq_zero_iff.mp this)
  · exact congrArg some (xorStream_twice _ _)

/-- **Round trip, nonce of the cipher.** -/
theorem chacha20_roundtrip_own (key inp fresh f2 : Bytes) (ctr : Option W32) (hk : key.length = 32)
    (hf : fresh.length = 12) (hi : inp ≠ []) :
    ∃ t1 ct t2, chacha20 (mkTask 12 key none ctr .encrypt inp) fresh = .ok t1 ∧ t1.out = some ct ∧
      t1.result = .success ∧ ct.length = inp.length + 12 ∧
      chacha20 (mkTask 12 key none ctr .decrypt ct) f2 = .ok t2 ∧ t2.result = .success ∧ t2.out = some inp := by
  refine ⟨_, _, _, chacha20_own _ key inp fresh rfl hk rfl hi rfl rfl hf rfl rfl, rfl, rfl, ?_,
    chacha20_dec _ key fresh _ f2 rfl hk rfl hf rfl rfl rfl rfl, rfl, ?_⟩
  · rw [List.length_append, xorStream_length]; omega
  · exact congrArg some (xorStream_twice _ _)

/-- **Counters.**  Within a message of at most `2^32` blocks, that is 256 GiB, no two blocks share a counter.
Missing for the claim as worded: longer messages, see `chacha20_counter_wraps`. -/
theorem chacha20_counters_partial (start : W32) (i j : Nat) (hi : i < 2 ^ 32) (hj : j < 2 ^ 32) (hij : i ≠ j) :
    start + BitVec.ofNat 32 i ≠ start + BitVec.ofNat 32 j := by
  intro h
  have h := congrArg (fun x => (x - start).toNat) h
  simp only [BitVec.add_comm start, BitVec.add_sub_cancel, BitVec.toNat_ofNat] at h
  rw [Nat.mod_eq_of_lt hi, Nat.mod_eq_of_lt hj] at h
  exact hij h

/-- Beyond, the key stream repeats: the counter has 32 bits and nothing limits the message. -/
theorem chacha20_counter_wraps (key n : Bytes) (start : W32) (i : Nat) :
    chachaStream key n start (i + 2 ^ 32) = chachaStream key n start i := by
  have e : BitVec.ofNat 32 (i + 2 ^ 32) = BitVec.ofNat 32 i := by
    apply BitVec.eq_of_toNat_eq
    rw [BitVec.toNat_ofNat, BitVec.toNat_ofNat, Nat.add_mod_right]
  unfold chachaStream
  rw [e]

/-- **Continuation**: two tasks which share the counter cell encrypt like one task does the concatenation,
provided the first input is a whole number of blocks. -/
theorem chacha20_continue (key iv a b f1 f2 f3 : Bytes) (c : W32) (hk : key.length = 32) (hv : iv.length = 12)
    (ha : a ≠ []) (hb : b ≠ []) (hal : a.length % 64 = 0) :
    ∃ t1 t2 t3 x y, chacha20 (mkTask 12 key (some iv) (some c) .encrypt a) f1 = .ok t1 ∧ t1.out = some x ∧
      chacha20 (mkTask 12 key (some iv) t1.ctr .encrypt b) f2 = .ok t2 ∧ t2.out = some y ∧
      chacha20 (mkTask 12 key (some iv) (some c) .encrypt (a ++ b)) f3 = .ok t3 ∧ t3.out = some (x ++ y) ∧
      t3.ctr = t2.ctr := by
  refine ⟨_, _, _, _, _, chacha20_live _ key a iv f1 rfl hk rfl ha rfl rfl hv rfl, rfl,
    chacha20_live _ key b iv f2 rfl hk rfl hb rfl rfl hv rfl, rfl,
    chacha20_live _ key (a ++ b) iv f3 rfl hk rfl (by simp [ha]) rfl rfl hv rfl, ?_, ?_⟩
  · exact congrArg some (chachaStream_append key iv a b c hal)
  · show some (c + BitVec.ofNat 32 (((a ++ b).length + 63) / 64)) =
      some (c + BitVec.ofNat 32 ((a.length + 63) / 64) + BitVec.ofNat 32 ((b.length + 63) / 64))
    have := (split64 a.length hal (b.length + 63)).1
    rw [List.length_append, Nat.add_assoc, this, BitVec.ofNat_add, BitVec.add_assoc]

/-- **Salsa20 with a nonce of the caller.** -/
theorem salsa20_live (t : Task) (key inp iv fresh : Bytes) (hk : t.key = some key)
    (hkl : key.length = 16 ∨ key.length = 32) (hi : t.inp = some inp) (hi' : inp ≠ []) (hil : inp.length < 2 ^ 64)
    (hf : t.inFreed = false) (hv : t.iv = .live iv) (hiv : iv.length = 8) (hs : t.ivSize = 8) :
    salsa20 t fresh = .ok { t with out := some (xorStream (salsaWith key iv) inp), result := .success } := by
  have hc := taskCheck_ok 8 t key inp hk (by rintro rfl; simp at hkl) hi hi' (.inr ⟨by rw [hv]; nofun, hs⟩)
  obtain ⟨tk, act, ti, fr, tv, tvs, ctr, out, res⟩ := t
  simp only at hk hi hf hv hs
  subst hk hi hf hv hs
  unfold salsa20
  rw [hc, if_neg (by decide)]
  have h := salsaLoop_eq key iv inp hkl hiv hil
  have hkl' : ¬ (key.length ≠ 32 ∧ key.length ≠ 16) := by omega
  cases h0 : salsaNonce iv with
  | ub => rw [h0] at h; cases h
  | ok n =>
    rw [h0, Out.bind_ok] at h
    simp only [Bool.false_eq_true, if_false, hkl', h0, Out.bind_ok, h]
    rfl

theorem salsa20_own (t : Task) (key inp fresh : Bytes) (hk : t.key = some key)
    (hkl : key.length = 16 ∨ key.length = 32) (hi : t.inp = some inp) (hi' : inp ≠ []) (hil : inp.length < 2 ^ 64)
    (hf : t.inFreed = false) (hv : t.iv = .null) (hfr : fresh.length = 8) (hs : t.ivSize = 0) (ha : t.action = .encrypt) :
    salsa20 t fresh = .ok { t with
      out := some (fresh ++ xorStream (salsaWith key fresh) inp), result := .success, iv := .dangling, ivSize := 8 } := by
  have hc := taskCheck_ok 8 t key inp hk (by rintro rfl; simp at hkl) hi hi' (.inl ⟨hv, hs⟩)
  obtain ⟨tk, act, ti, fr, tv, tvs, ctr, out, res⟩ := t
  simp only at hk hi hf hv hs ha
  subst hk hi hf hv hs ha
  unfold salsa20
  rw [hc, if_neg (by decide)]
  have h := salsaLoop_eq key fresh inp hkl hfr hil
  have hkl' : ¬ (key.length ≠ 32 ∧ key.length ≠ 16) := by omega
  cases h0 : salsaNonce fresh with
  | ub => rw [h0] at h; cases h
  | ok n =>
    rw [h0, Out.bind_ok] at h
    simp only [Bool.false_eq_true, if_false, if_true, hkl', Out.bind_ok, h]
    rfl

theorem salsaNonce_append (v x : Bytes) (h : v.length = 8) : salsaNonce (v ++ x) = salsaNonce v := by
  obtain ⟨n, hn⟩ := split_be64 v (by omega)
  rw [List.drop_eq_nil_of_le (by omega), List.append_nil] at hn
  have h1 := getBe64_at [] x n
  have h2 := getBe64_at [] [] n
  rw [List.append_nil] at h2
  rw [List.nil_append] at h1 h2
  rw [hn]
  unfold salsaNonce
  exact h1.trans h2.symm

theorem salsa20_dec (t : Task) (key n ct fresh : Bytes) (hk : t.key = some key)
    (hkl : key.length = 16 ∨ key.length = 32) (hi : t.inp = some (n ++ ct)) (hn : n.length = 8) (hil : ct.length < 2 ^ 64)
    (hf : t.inFreed = false) (hv : t.iv = .null) (hs : t.ivSize = 0) (ha : t.action = .decrypt) :
    salsa20 t fresh = .ok { t with out := some (xorStream (salsaWith key n) ct), result := .success } := by
  have hc := taskCheck_ok 8 t key (n ++ ct) hk (by rintro rfl; simp at hkl) hi (by rintro h; simp at h; simp [h.1] at hn)
    (.inl ⟨hv, hs⟩)
  obtain ⟨tk, act, ti, fr, tv, tvs, ctr, out, res⟩ := t
  simp only at hk hi hf hv hs ha
  subst hk hi hf hv hs ha
  unfold salsa20
  rw [hc, if_neg (by decide)]
  have h := salsaLoop_eq key n ct hkl hn hil
  have hkl' : ¬ (key.length ≠ 32 ∧ key.length ≠ 16) := by omega
  have h2 : (n ++ ct).drop 8 = ct := by rw [← hn]; simp
  have h3 : ¬ (n ++ ct).length < 8 := by simp; omega
  cases h0 : salsaNonce n with
  | ub => rw [h0] at h; cases h
  | ok v =>
    rw [h0, Out.bind_ok] at h
    simp only [Bool.false_eq_true, if_false, hkl', h2, h3, salsaNonce_append n ct hn, h0, Out.bind_ok, h,
      reduceCtorEq]
    rfl

/-- **Round trip, Salsa20, nonce of the caller.** -/
theorem salsa20_roundtrip (key iv inp f1 f2 : Bytes) (hk : key.length = 16 ∨ key.length = 32) (hv : iv.length = 8)
    (hi : inp ≠ []) (hil : inp.length < 2 ^ 64) :
    ∃ t1 ct t2, salsa20 (mkTask 8 key (some iv) none .encrypt inp) f1 = .ok t1 ∧ t1.out = some ct ∧
      t1.result = .success ∧ ct.length = inp.length ∧
      salsa20 (mkTask 8 key (some iv) none .decrypt ct) f2 = .ok t2 ∧ t2.result = .success ∧ t2.out = some inp := by
  have hl := xorStream_length (salsaWith key iv) inp
  refine ⟨_, _, _, salsa20_live _ key inp iv f1 rfl hk rfl hi hil rfl rfl hv rfl, rfl, rfl, hl,
    salsa20_live _ key _ iv f2 rfl hk rfl ?_ (by omega) rfl rfl hv rfl, rfl, ?_⟩
  · rintro h
    have := List.length_eq_zero_iff.mpr h
    rw [hl] at this
    exact hi (List.length_eq_zero_iff.mp this)
  · exact congrArg some (xorStream_twice _ _)

/-- **Round trip, Salsa20, nonce of the cipher.** -/
theorem salsa20_roundtrip_own (key inp fresh f2 : Bytes) (hk : key.length = 16 ∨ key.length = 32)
    (hf : fresh.length = 8) (hi : inp ≠ []) (hil : inp.length < 2 ^ 64) :
    ∃ t1 ct t2, salsa20 (mkTask 8 key none none .encrypt inp) fresh = .ok t1 ∧ t1.out = some ct ∧
      t1.result = .success ∧ ct.length = inp.length + 8 ∧
      salsa20 (mkTask 8 key none none .decrypt ct) f2 = .ok t2 ∧ t2.result = .success ∧ t2.out = some inp := by
  refine ⟨_, _, _, salsa20_own _ key inp fresh rfl hk rfl hi hil rfl rfl hf rfl rfl, rfl, rfl, ?_,
    salsa20_dec _ key fresh _ f2 rfl hk rfl hf (by rw [xorStream_length]; omega) rfl rfl rfl rfl, rfl, ?_⟩
  · rw [List.length_append, xorStream_length]; omega
  · exact congrArg some (xorStream_twice _ _)

/-- **Salsa20 conforms for keys of 32 bytes** (with a nonce of the caller).  Missing: keys of 16 bytes,
see `salsa20_16_differs`. -/
theorem salsa20_conforms_partial (key iv inp f : Bytes) (hk : key.length = 32) (hv : iv.length = 8) (hi : inp ≠ [])
    (hil : inp.length < 2 ^ 64) (a : Action) :
    ∃ t1, salsa20 (mkTask 8 key (some iv) none a inp) f = .ok t1 ∧
      t1.out = some (xorStream (salsaBlock key iv) inp) ∧ t1.result = .success := by
  refine ⟨_, salsa20_live _ key inp iv f rfl (.inr hk) rfl hi hil rfl rfl hv rfl, ?_, rfl⟩
  have e : salsaWith key iv = salsaBlock key iv := funext fun i => salsaWith_32 key iv hk i
  rw [← e]

/-- **Salsa20 with a key of 16 bytes is not Salsa20**: the code keeps the constants of 32-byte keys, and is
the Salsa20 of the key written twice. -/
theorem salsa20_16_is_doubled (key v : Bytes) (hk : key.length = 16) (i : Nat) :
    salsaWith key v i = salsaBlock (key ++ key) v i := by
  unfold salsaWith salsaBlock expand
  rw [if_pos hk, if_pos (by simp [hk]), List.take_of_length_le (by omega), List.take_left' hk, List.drop_left' hk]

/-- So a 16-byte key and the 32-byte key made of two copies of it encrypt alike. -/
theorem salsa20_equivalent_keys (key iv inp f : Bytes) (hk : key.length = 16) (hv : iv.length = 8) (hi : inp ≠ [])
    (hil : inp.length < 2 ^ 64) (a : Action) :
    ∃ t1 t2, salsa20 (mkTask 8 key (some iv) none a inp) f = .ok t1 ∧
      salsa20 (mkTask 8 (key ++ key) (some iv) none a inp) f = .ok t2 ∧ t1.out = t2.out := by
  refine ⟨_, _, salsa20_live _ key inp iv f rfl (.inl hk) rfl hi hil rfl rfl hv rfl,
    salsa20_live _ (key ++ key) inp iv f rfl (.inr (by simp [hk])) rfl hi hil rfl rfl hv rfl, ?_⟩
  show some (xorStream (salsaWith key iv) inp) = some (xorStream (salsaWith (key ++ key) iv) inp)
  congr 2
  funext i
  rw [salsa20_16_is_doubled key iv hk, salsaWith_32 _ _ (by simp [hk])]

theorem hash_byte (x : Bytes) (hx : x.length = 64) (b : Byte) (h : (salsaH x >>= fun y => rd y 0) = .ok b) :
    (Spec.Salsa.hash x).getD 0 0 = b := by
  rw [salsaH_eq x hx, Out.bind_ok] at h
  unfold rd at h
  revert h
  cases Spec.Salsa.hash x with
  | nil => intro h; cases h
  | cons c l => intro h; cases h; rfl

/-- The witness: one byte of plaintext, the key 80 00 ... 00 of the eSTREAM test vectors; the standard gives
`4d`, the code `0c`. -/
theorem salsa20_16_differs :
    ∃ key iv inp : Bytes, key.length = 16 ∧ iv.length = 8 ∧
      ∃ t1, salsa20 (mkTask 8 key (some iv) none .encrypt inp) [] = .ok t1 ∧
        t1.out ≠ some (xorStream (salsaBlock key iv) inp) := by
  obtain ⟨key, hkey⟩ : ∃ key : Bytes, key = 0x80#8 :: List.replicate 15 0 := ⟨_, rfl⟩
  obtain ⟨iv, hiv⟩ : ∃ iv : Bytes, iv = List.replicate 8 0 := ⟨_, rfl⟩
  have hk : key.length = 16 := by rw [hkey]; rfl
  have hv : iv.length = 8 := by rw [hiv]; rfl
  refine ⟨key, iv, [0], hk, hv, _,
    salsa20_live _ key [0] iv [] rfl (.inl hk) rfl (by simp) (by simp) rfl rfl hv rfl, ?_⟩
  intro h
  have h : xorStream (salsaWith key iv) [0] = xorStream (salsaBlock key iv) [0] := Option.some.inj h
  have e : ∀ f : Nat → Bytes, xorStream f [0] = [0 ^^^ (f 0).getD 0 0] := by
    intro f; unfold xorStream; rfl
  rw [e, e] at h
  have h := (List.cons.inj h).1
  have a1 : (salsaWith key iv 0).getD 0 0 = 0x0c#8 := by
    unfold salsaWith
    apply hash_byte
    · rw [hkey, hiv]; rfl
    · rw [hkey, hiv]; decide +kernel
  have a2 : (salsaBlock key iv 0).getD 0 0 = 0x4d#8 := by
    unfold salsaBlock expand
    rw [if_neg (by omega)]
    apply hash_byte
    · rw [hkey, hiv]; rfl
    · rw [hkey, hiv]; decide +kernel
  rw [a1, a2] at h
  revert h; decide

/-! ### Ownership of the nonce (C58) -/

/-- The claim of C58 for one run. -/
def NonceOwned (t : Task) : Prop := t.iv = .null ∨ ∃ b, t.iv = .live b

/-- **C58 fails, ChaCha20**: whenever the cipher draws its own nonce the pointer dangles afterwards; running
the same task again, with any new input, is undefined and so is releasing the nonce with
`kryptos_task_free`. -/
theorem chacha20_dangling (key inp fresh : Bytes) (ctr : Option W32) (hk : key.length = 32) (hf : fresh.length = 12)
    (hi : inp ≠ []) :
    ∃ t1, chacha20 (mkTask 12 key none ctr .encrypt inp) fresh = .ok t1 ∧ ¬ NonceOwned t1 ∧ freeIv t1 = .ub ∧
      ∀ inp' f', inp' ≠ [] → chacha20 { t1 with inp := some inp' } f' = .ub := by
  refine ⟨_, chacha20_own _ key inp fresh rfl hk rfl hi rfl rfl hf rfl rfl, ?_, rfl, ?_⟩
  · rintro (h | ⟨b, h⟩) <;> cases h
  · intro inp' f' h'
    unfold chacha20
    rw [taskCheck_ok 12 _ key inp' rfl (by rintro rfl; cases hk) rfl h' (.inr ⟨by nofun, rfl⟩), if_neg (by decide)]
    show (if false = true then Out.ub else if key.length ≠ 32 then _ else _) = _
    rw [if_neg (by decide), if_neg (by omega)]

theorem salsa20_dangling (key inp fresh : Bytes) (hk : key.length = 16 ∨ key.length = 32) (hf : fresh.length = 8)
    (hi : inp ≠ []) (hil : inp.length < 2 ^ 64) :
    ∃ t1, salsa20 (mkTask 8 key none none .encrypt inp) fresh = .ok t1 ∧ ¬ NonceOwned t1 ∧ freeIv t1 = .ub ∧
      ∀ inp' f', inp' ≠ [] → salsa20 { t1 with inp := some inp' } f' = .ub := by
  refine ⟨_, salsa20_own _ key inp fresh rfl hk rfl hi hil rfl rfl hf rfl rfl, ?_, rfl, ?_⟩
  · rintro (h | ⟨b, h⟩) <;> cases h
  · intro inp' f' h'
    unfold salsa20
    rw [taskCheck_ok 8 _ key inp' rfl (by rintro rfl; simp at hk) rfl h' (.inr ⟨by nofun, rfl⟩), if_neg (by decide)]
    show (if false = true then Out.ub else if key.length ≠ 32 ∧ key.length ≠ 16 then _ else _) = _
    rw [if_neg (by decide), if_neg (by omega)]

/-- The steps in the life of a task: `run` with a given action and input, `free` of the nonce, `setIv` by the
caller. -/
inductive Step where
  | run (a : Action) (inp : Bytes) (fresh : Bytes)
  | free
  | setIv (iv : Bytes)

def step (cipher : Task → Bytes → Out Task) (n : Nat) (t : Task) : Step → Out Task
  | .run a inp f => cipher { t with action := a, inp := some inp } f
  | .free => freeIv t
  | .setIv iv => .ok { t with iv := .live iv, ivSize := n }

/-- A nonce of the caller, of the right size, is in place. -/
def CallerNonce (n : Nat) (t : Task) : Prop := (∃ b, t.iv = .live b ∧ b.length = n ∧ t.ivSize = n) ∧ t.inFreed = false

/-- **What holds of C58**: as long as the caller provides the nonce (and puts another one when it has released
one), no sequence of runs, with any actions and inputs, leaves a dangling pointer or reaches undefined
behaviour.  Missing: nonces drawn by the cipher, for which the claim is false. -/
theorem chacha20_caller_nonce_partial (steps : List Step) : ∀ (t : Task) (key : Bytes), t.key = some key →
    CallerNonce 12 t → (∀ s ∈ steps, s ≠ .free ∧ ∀ iv, s = .setIv iv → iv.length = 12) →
    ∃ t', steps.foldlM (step chacha20 12) t = .ok t' ∧ CallerNonce 12 t' ∧ NonceOwned t' ∧ t'.key = some key := by
  induction steps with
  | nil => intro t key hk h _; exact ⟨t, rfl, h, .inr (by obtain ⟨⟨b, hb, _⟩, _⟩ := h; exact ⟨b, hb⟩), hk⟩
  | cons s steps ih =>
    intro t key hk h hs
    rw [List.foldlM_cons]
    have hs' : ∀ s ∈ steps, s ≠ .free ∧ ∀ iv, s = .setIv iv → iv.length = 12 :=
      fun s h => hs s (List.mem_cons_of_mem _ h)
    have hst : ∃ t1, step chacha20 12 t s = .ok t1 ∧ CallerNonce 12 t1 ∧ t1.key = some key := by
      cases s with
      | free => exact absurd rfl (hs _ (List.mem_cons_self)).1
      | setIv iv => exact ⟨_, rfl, ⟨⟨iv, rfl, (hs _ List.mem_cons_self).2 iv rfl, rfl⟩, h.2⟩, hk⟩
      | run a inp f =>
        obtain ⟨⟨b, h1, h2, h3⟩, h4⟩ := h
        by_cases hc : taskCheck 12 { t with action := a, inp := some inp } = .success
        · by_cases h32 : key.length = 32
          · have hi : inp ≠ [] := by
              rintro rfl
              unfold taskCheck at hc
              split at hc
              · cases hc
              · split at hc
                · cases hc
                · simp at hc
            exact ⟨_, chacha20_live _ key inp b f hk h32 rfl hi h4 h1 h2 h3, ⟨⟨b, h1, h2, h3⟩, h4⟩, hk⟩
          · refine ⟨{ t with action := a, inp := some inp, result := .keyError }, ?_, ⟨⟨b, h1, h2, h3⟩, h4⟩, hk⟩
            show chacha20 _ f = _
            unfold chacha20
            rw [hc, if_neg (by decide)]
            simp only [hk, h4, Bool.false_eq_true, if_false, ne_eq, h32, not_false_eq_true, if_true]
        · refine ⟨{ t with action := a, inp := some inp, result := taskCheck 12 { t with action := a, inp := some inp } },
            ?_, ⟨⟨b, h1, h2, h3⟩, h4⟩, hk⟩
          show chacha20 _ f = _
          unfold chacha20
          rw [if_pos hc]
    obtain ⟨t1, e1, e2, e3⟩ := hst
    rw [e1, Out.bind_ok]
    exact ih t1 key e3 e2 hs'

/-- **Decrypting an input shorter than the nonce** is undefined: the input pointer is moved past the end and
never meets `ip_end`. -/
theorem chacha20_short_unsafe (key inp f : Bytes) (ctr : Option W32) (hk : key.length = 32) (hi : inp ≠ [])
    (h : inp.length < 12) : chacha20 (mkTask 12 key none ctr .decrypt inp) f = .ub := by
  unfold chacha20
  rw [taskCheck_ok 12 _ key inp rfl (by rintro rfl; cases hk) rfl hi (.inl ⟨rfl, rfl⟩), if_neg (by decide)]
  show (if false = true then Out.ub else if key.length ≠ 32 then _ else
    if Action.decrypt = Action.encrypt then _ else if inp.length < 12 then Out.ub else _) = _
  rw [if_neg (by decide), if_neg (by omega), if_neg (by decide), if_pos h]

theorem salsa20_short_unsafe (key inp f : Bytes) (hk : key.length = 16 ∨ key.length = 32) (hi : inp ≠ [])
    (h : inp.length < 8) : salsa20 (mkTask 8 key none none .decrypt inp) f = .ub := by
  unfold salsa20
  rw [taskCheck_ok 8 _ key inp rfl (by rintro rfl; simp at hk) rfl hi (.inl ⟨rfl, rfl⟩), if_neg (by decide)]
  show (if false = true then Out.ub else if key.length ≠ 32 ∧ key.length ≠ 16 then _ else
    if Action.decrypt = Action.encrypt then _ else if inp.length < 8 then Out.ub else _) = _
  rw [if_neg (by decide), if_neg (by omega), if_neg (by decide), if_pos h]

/-- **An action which is neither encryption nor decryption** is not refused: the input is read as nonce and
ciphertext, and then the memory of the caller's input is released, because `iv` points to it. -/
theorem chacha20_odd_action (key n ct f : Bytes) (ctr : Option W32) (a : Action) (hk : key.length = 32)
    (hn : n.length = 12) (h1 : a ≠ .encrypt) (h2 : a ≠ .decrypt) :
    ∃ t1, chacha20 (mkTask 12 key none ctr a (n ++ ct)) f = .ok t1 ∧ t1.inFreed = true ∧ t1.result = .success ∧
      ∀ f', chacha20 t1 f' = .ok { t1 with result := .invalidParams } := by
  have hi : n ++ ct ≠ [] := by rintro h; simp at h; simp [h.1] at hn
  have e1 : (n ++ ct).take 12 = n := by rw [← hn]; simp
  have e2 : (n ++ ct).drop 12 = ct := by rw [← hn]; simp
  have e3 : ¬ (n ++ ct).length < 12 := by simp; omega
  rw [mkTask_none]
  refine ⟨{ (⟨some key, a, some (n ++ ct), false, .null, 0, ctr, none, .success⟩ : Task) with
      out := some (xorStream (chachaStream key n (ctr.getD 0)) ct), result := .success,
      ctr := ctr.map fun c => c + BitVec.ofNat 32 ((ct.length + 63) / 64), iv := .dangling, inFreed := true },
    ?_, rfl, rfl, ?_⟩
  · unfold chacha20
    rw [taskCheck_ok 12 _ key (n ++ ct) rfl (by rintro rfl; cases hk) rfl hi (.inl ⟨rfl, rfl⟩), if_neg (by decide)]
    simp only [Bool.false_eq_true, if_false, hk, ne_eq, not_true_eq_false, h1, h2, e1, e2, e3,
      chachaLoop_eq key n ct hk hn, Out.bind_ok]
    cases ctr <;> rfl
  · intro f'
    have : taskCheck 12 { (⟨some key, a, some (n ++ ct), false, .null, 0, ctr, none, .success⟩ : Task) with
      out := some (xorStream (chachaStream key n (ctr.getD 0)) ct), result := .success,
      ctr := ctr.map fun c => c + BitVec.ofNat 32 ((ct.length + 63) / 64), iv := .dangling, inFreed := true } =
        .invalidParams := by
      unfold taskCheck
      rw [if_neg (by simp; rintro rfl; cases hk), if_pos (by simp)]
    unfold chacha20
    rw [this, if_pos (by decide)]

/-! ### Test vectors -/

/-- Test: RFC 8439, section 2.3.2, first words of the block; counter 1. -/
example : ((chachaFeed ((List.range 32).map (BitVec.ofNat 8)) [0, 0, 0, 9, 0, 0, 0, 0x4a, 0, 0, 0, 0] 1) >>=
      fun b => .ok (b.take 16)) =
    .ok [0x10, 0xf1, 0xe7, 0xe4, 0xd1, 0x3b, 0x59, 0x15, 0x50, 0x0f, 0xdd, 0x1f, 0xa3, 0x20, 0x71, 0xc4] := by
  decide +kernel

/-- Test: the Salsa20 specification, section 9, with a 32-byte key. -/
example : ((salsaH (ascii "expa" ++ (List.range 16).map (fun i => BitVec.ofNat 8 (i + 1)) ++ ascii "nd 3" ++
      (List.range 16).map (fun i => BitVec.ofNat 8 (i + 101)) ++ ascii "2-by" ++
      (List.range 16).map (fun i => BitVec.ofNat 8 (i + 201)) ++ ascii "te k")) >>= fun b => .ok (b.take 8)) =
    .ok [69, 37, 68, 39, 41, 15, 107, 193] := by
  decide +kernel

/-- The hypotheses of the round trips hold of ordinary keys and nonces. -/
example : ∃ key iv inp : Bytes, key.length = 32 ∧ iv.length = 12 ∧ inp ≠ [] ∧ inp.length % 64 = 0 :=
  ⟨List.replicate 32 7, List.replicate 12 9, List.replicate 128 1, rfl, rfl, by simp, by simp⟩

end Kryptos.Stream
