import Verif.Model.Hmac
import Verif.Spec.Kdf
import Verif.Props.HashGeneric
/-
  C19 (HMAC is RFC 2104) and C20 (verification accepts exactly authentic data).

  The theorems are generic in the hash function.  `Sound h F size P`: on messages whose length
  satisfies `P` the C hash function `h` computes `F`, of `size` bytes.
-/
namespace Kryptos
open Hash Hmac

structure Sound (h : HashFn) (F : Bytes → Bytes) (size : Nat) (P : Nat → Prop) : Prop where
  ok : ∀ m, P m.length → h m false = .ok (F m)
  len : ∀ m, P m.length → (F m).length = size

/-- The lengths of the messages hashed while computing the HMAC of `n` bytes under a key of `k`
bytes are in the domain `P`. -/
def HmacDom (P : Nat → Prop) (B size k n : Nat) : Prop := (B < k → P k) ∧ P (B + n) ∧ P (B + size)

theorem runHash_ok {h : HashFn} {F : Bytes → Bytes} {size : Nat} {P : Nat → Prop} (s : Sound h F size P)
    (m : Bytes) (hm : P m.length) : runHash h m = .ok (some (F m)) := by
  unfold runHash hashTask
  simp only [s.ok m hm, Out.bind_ok, Out.pure_eq, if_true]

theorem keyXor_eq (B : Nat) (k : Bytes) (p : Byte) (hk : k.length ≤ B) :
    keyXor B k p =
      .ok (List.zipWith (· ^^^ ·) (k ++ List.replicate (B - k.length) 0#8) (List.replicate B p)) := by
  unfold keyXor
  rw [if_neg (by omega)]
  congr 1
  apply List.ext_getElem
  · simp; omega
  · intro i h1 h2
    rw [List.getElem_map, List.getElem_zipWith, List.getElem_replicate]

theorem keyXor_length (B : Nat) (k : Bytes) (p : Byte) (hk : k.length ≤ B) :
    (List.zipWith (· ^^^ ·) (k ++ List.replicate (B - k.length) 0#8) (List.replicate B p)).length = B := by
  simp; omega

/-- The generator computes the MAC of RFC 2104 and puts it before the message. -/
theorem gen_eq {h : HashFn} {F : Bytes → Bytes} {size : Nat} {P : Nat → Prop} (s : Sound h F size P)
    {B : Nat} (hB : size ≤ B) (key x : Bytes) (hd : HmacDom P B size key.length x.length) :
    gen h B key x = .ok (some (Spec.hmac F B key x ++ x)) := by
  obtain ⟨d1, d2, d3⟩ := hd
  have hk : (if B < key.length then runHash h key else Out.ok (some key)) =
      .ok (some (if key.length > B then F key else key)) := by
    split
    · next hl => rw [runHash_ok s key (d1 hl)]
    · rfl
  have hlen : (if key.length > B then F key else key).length ≤ B := by
    split
    · next hl => rw [s.len key (d1 hl)]; exact hB
    · omega
  unfold gen Spec.hmac
  rw [hk, Out.bind_ok]
  simp only [keyXor_eq _ _ _ hlen, Out.bind_ok]
  rw [runHash_ok s _ (by rw [List.length_append, keyXor_length _ _ _ hlen]; exact d2), Out.bind_ok]
  simp only
  rw [runHash_ok s _ (by
    rw [List.length_append, keyXor_length _ _ _ hlen, s.len _ (by
      rw [List.length_append, keyXor_length _ _ _ hlen]; exact d2)]
    exact d3), Out.bind_ok]
  rfl

/-- The MAC has the size of the hash. -/
theorem hmac_length {h : HashFn} {F : Bytes → Bytes} {size : Nat} {P : Nat → Prop} (s : Sound h F size P)
    {B : Nat} (hB : size ≤ B) (key x : Bytes) (hd : HmacDom P B size key.length x.length) :
    (Spec.hmac F B key x).length = size := by
  obtain ⟨d1, d2, d3⟩ := hd
  have hlen : (if key.length > B then F key else key).length ≤ B := by
    split
    · next hl => rw [s.len key (d1 hl)]; exact hB
    · omega
  unfold Spec.hmac
  refine s.len _ ?_
  rw [List.length_append, keyXor_length _ _ _ hlen, s.len _ (by
      rw [List.length_append, keyXor_length _ _ _ hlen]; exact d2)]
  exact d3

/-- C19: an HMAC task with the encrypt action and a non-empty `out` succeeds and replaces `out` by
the RFC 2104 MAC followed by the data. -/
theorem hmac_rfc2104 {h : HashFn} {F : Bytes → Bytes} {size : Nat} {P : Nat → Prop}
    (s : Sound h F size P) {B : Nat} (hB : size ≤ B) (key x : Bytes) (t : MTask)
    (ha : t.action = .encrypt) (hk : t.key = some key) (ho : t.out = some x) (hx : x ≠ [])
    (hd : HmacDom P B size key.length x.length) :
    hmac (some h) (some B) (some size) t =
      .ok { t with out := some (Spec.hmac F B key x ++ x), result := .success } := by
  unfold hmac
  simp only [hk, ha, ho, if_neg hx, gen_eq s hB key x hd, Out.bind_ok]
  rfl

/-- C20: an HMAC task with the decrypt action succeeds exactly when the first `size` bytes are the
RFC 2104 MAC of the rest, which must not be empty; then the MAC is stripped.  Otherwise an HMAC error
is reported, nothing else changes, and the input is not a MAC followed by its message. -/
theorem hmac_check_iff {h : HashFn} {F : Bytes → Bytes} {size : Nat} {P : Nat → Prop}
    (s : Sound h F size P) {B : Nat} (hB : size ≤ B) (key i : Bytes) (t : MTask)
    (ha : t.action = .decrypt) (hk : t.key = some key) (hi : t.inp = some i)
    (hd : size < i.length → HmacDom P B size key.length (i.length - size)) :
    (size < i.length ∧ i.take size = Spec.hmac F B key (i.drop size) ∧
      hmac (some h) (some B) (some size) t =
        .ok { t with inp := some (i.drop size), result := .success }) ∨
    ((∀ x, x ≠ [] → HmacDom P B size key.length x.length → i ≠ Spec.hmac F B key x ++ x) ∧
      hmac (some h) (some B) (some size) t = .ok { t with result := .hmacError }) := by
  obtain ⟨a, k, inp, o, r⟩ := t
  simp only at ha hk hi
  subst ha hk hi
  unfold hmac
  simp only
  by_cases he : i = []
  · rw [if_pos he]
    refine Or.inr ⟨fun x hx _ h => ?_, rfl⟩
    rw [he] at h
    exact hx (List.append_eq_nil_iff.mp h.symm).2
  rw [if_neg he]
  unfold check
  by_cases hl : i.length ≤ size
  · rw [if_pos hl]
    refine Or.inr ⟨fun x hx hdx h => ?_, rfl⟩
    have := congrArg List.length h
    rw [List.length_append, hmac_length s hB key x hdx] at this
    have : 0 < x.length := List.length_pos_iff.mpr hx
    omega
  rw [if_neg hl]
  have hdl : (i.drop size).length = i.length - size := List.length_drop
  have hd' : HmacDom P B size key.length (i.drop size).length := by rw [hdl]; exact hd (by omega)
  have hml := hmac_length s hB key (i.drop size) hd'
  simp only [gen_eq s hB key _ hd', Out.bind_ok]
  rw [if_neg (by rw [List.length_append, hml]; omega), List.take_left' hml]
  by_cases hc : Spec.hmac F B key (i.drop size) = i.take size
  · rw [if_neg (by simp [hc])]
    exact Or.inl ⟨by omega, hc.symm, rfl⟩
  · rw [if_pos (by simpa using hc)]
    refine Or.inr ⟨fun x hx hdx h => hc ?_, rfl⟩
    have hxl := hmac_length s hB key x hdx
    rw [h, List.drop_left' hxl, List.take_left' hxl]

/-- C20: what a generation task produced is accepted by a verification task with the same key, which
gives the data back. -/
theorem hmac_accepts_generated {h : HashFn} {F : Bytes → Bytes} {size : Nat} {P : Nat → Prop}
    (s : Sound h F size P) {B : Nat} (hB : size ≤ B) (key x : Bytes) (hx : x ≠ [])
    (hd : HmacDom P B size key.length x.length) (t t' u : MTask)
    (ht : t.action = .encrypt ∧ t.key = some key ∧ t.out = some x)
    (hg : hmac (some h) (some B) (some size) t = .ok t')
    (hu : u.action = .decrypt ∧ u.key = some key ∧ u.inp = t'.out) :
    hmac (some h) (some B) (some size) u = .ok { u with inp := some x, result := .success } := by
  rw [hmac_rfc2104 s hB key x t ht.1 ht.2.1 ht.2.2 hx hd] at hg
  have hi : u.inp = some (Spec.hmac F B key x ++ x) := by rw [hu.2.2, ← Out.ok.inj hg]
  have hl := hmac_length s hB key x hd
  rcases hmac_check_iff s hB key _ u hu.1 hu.2.1 hi (by
    intro _; rw [List.length_append, hl, Nat.add_sub_cancel_left]; exact hd) with ⟨_, _, h1⟩ | ⟨h1, _⟩
  · rw [h1, List.drop_left' hl]
  · exact absurd rfl (h1 x hx hd)

/-- C19, C20: every other call reports an HMAC error and changes nothing else. -/
theorem hmac_rejects (h : Option HashFn) (hin hsz : Option Nat) (t : MTask)
    (hbad : h = none ∨ hin = none ∨ hsz = none ∨ t.key = none ∨
      (t.action = .encrypt ∧ (t.out = none ∨ t.out = some [])) ∨
      (t.action = .decrypt ∧ (t.inp = none ∨ t.inp = some [])) ∨
      (t.action ≠ .encrypt ∧ t.action ≠ .decrypt)) :
    hmac h hin hsz t = .ok { t with result := .hmacError } := by
  obtain ⟨a, k, i, o, r⟩ := t
  unfold hmac
  cases h with
  | none => rfl
  | some h =>
  cases hin with
  | none => rfl
  | some hin =>
  cases hsz with
  | none => rfl
  | some hsz =>
  cases k with
  | none => rfl
  | some k =>
  simp only [reduceCtorEq, false_or] at hbad
  cases a <;> simp at hbad ⊢ <;> rcases hbad with rfl | rfl <;> rfl

/-! ### The hashes of the library -/

/-- Lengths for which the library's 64-byte-block hashes pad as the standard says. -/
def Dom64 (n : Nat) : Prop := n < 2 ^ 61 ∧ (n % 64 ≠ 0 ∨ n = 0)
/-- Likewise for the 128-byte-block hashes. -/
def Dom128 (n : Nat) : Prop := n < 2 ^ 61 ∧ (n % 128 ≠ 0 ∨ n = 0) ∧ (n % 128 < 112 ∨ 120 ≤ n % 128)

theorem sha1_sound (stale : List W32) : Sound (Sha1.hash stale) Spec.Sha.sha1 20 Dom64 where
  ok := fun m hm => sha1_fips_partial m stale hm.1 (by
    rcases hm.2 with h | h
    · exact Or.inl h
    · exact Or.inr (List.length_eq_zero_iff.mp h))
  len := fun m _ => by simp [Spec.Sha.sha1, Five.words, be_length]

theorem final_length {w : Nat} (p : Spec.Sha.Sha2 w) (H0 : Eight w) (m : Bytes) :
    (p.final H0 m).length = 8 * p.wb := by
  simp [Spec.Sha.Sha2.final, Eight.words, be_length]; omega

theorem dom64_cases {m : Bytes} (h : m.length % 64 ≠ 0 ∨ m.length = 0) : m.length % 64 ≠ 0 ∨ m = [] :=
  h.imp_right List.length_eq_zero_iff.mp
theorem dom128_cases {m : Bytes} (h : m.length % 128 ≠ 0 ∨ m.length = 0) :
    m.length % 128 ≠ 0 ∨ m = [] :=
  h.imp_right List.length_eq_zero_iff.mp

theorem sha256_sound (stale : List W32) (F : Bytes → Bytes) (hF : ∀ m, Spec.Sha.Sha256 m (F m)) :
    Sound (Sha256.hash stale) F 32 Dom64 where
  ok := fun m hm => by
    obtain ⟨d, h1, h2⟩ := sha256_fips_partial m stale hm.1 (dom64_cases hm.2)
    rw [h1, sha256_functional h2 (hF m)]
  len := fun m _ => by
    obtain ⟨a, _, h⟩ := hF m
    rw [h]
    exact final_length Spec.Sha.p256 a _

theorem sha512_sound (stale : List W64) (F : Bytes → Bytes) (hF : ∀ m, Spec.Sha.Sha512 m (F m)) :
    Sound (Sha512.hash stale) F 64 Dom128 where
  ok := fun m hm => by
    obtain ⟨d, h1, h2⟩ := sha512_fips_partial m stale hm.1 (dom128_cases hm.2.1) hm.2.2
    rw [h1, sha512_functional h2 (hF m)]
  len := fun m _ => by
    obtain ⟨a, _, h⟩ := hF m
    rw [h]
    exact final_length Spec.Sha.p512 a _

theorem sha224_functional {m d d' : Bytes} (h : Spec.Sha.Sha224 m d) (h' : Spec.Sha.Sha224 m d') :
    d = d' := by
  obtain ⟨a, ha, rfl⟩ := h
  obtain ⟨b, hb, rfl⟩ := h'
  have : a = b := by
    unfold Spec.Sha.IsSha224Init at ha hb
    rw [← hb] at ha
    cases a; cases b
    simpa [Eight.words] using ha
  rw [this]

theorem sha384_functional {m d d' : Bytes} (h : Spec.Sha.Sha384 m d) (h' : Spec.Sha.Sha384 m d') :
    d = d' := by
  obtain ⟨a, ha, rfl⟩ := h
  obtain ⟨b, hb, rfl⟩ := h'
  have : a = b := by
    unfold Spec.Sha.IsSha384Init at ha hb
    rw [← hb] at ha
    cases a; cases b
    simpa [Eight.words] using ha
  rw [this]

theorem sha224_sound (stale : List W32) (F : Bytes → Bytes) (hF : ∀ m, Spec.Sha.Sha224 m (F m)) :
    Sound (Sha224.hash stale) F 28 Dom64 where
  ok := fun m hm => by
    obtain ⟨d, h1, h2⟩ := sha224_fips_partial m stale hm.1 (dom64_cases hm.2)
    rw [h1, sha224_functional h2 (hF m)]
  len := fun m _ => by
    obtain ⟨a, _, h⟩ := hF m
    rw [h, List.length_take]
    have := final_length Spec.Sha.p256 a
    rw [Spec.Sha.Sha2.digest, this]
    rfl

theorem sha384_sound (stale : List W64) (F : Bytes → Bytes) (hF : ∀ m, Spec.Sha.Sha384 m (F m)) :
    Sound (Sha384.hash stale) F 48 Dom128 where
  ok := fun m hm => by
    obtain ⟨d, h1, h2⟩ := sha384_fips_partial m stale hm.1 (dom128_cases hm.2.1) hm.2.2
    rw [h1, sha384_functional h2 (hF m)]
  len := fun m _ => by
    obtain ⟨a, _, h⟩ := hF m
    rw [h, List.length_take]
    have := final_length Spec.Sha.p512 a
    rw [Spec.Sha.Sha2.digest, this]
    rfl

/-- The standard SHA-256 as a function exists (the hypothesis of the theorems can be met). -/
theorem sha256_exists : ∃ F : Bytes → Bytes, ∀ m, Spec.Sha.Sha256 m (F m) :=
  ⟨fun m => Spec.Sha.p256.digest Sha256.init256 m, fun _ => ⟨_, Sha256.init256_spec, rfl⟩⟩

/-- C19 for HMAC-SHA-256 with the standard's hash function.  Missing: messages (and keys longer than a
block) whose length is a positive multiple of 64 bytes, where the library's hash does not pad; see
`hmac_sha256_fails` and `hmac_sha256_forgery`. -/
theorem hmac_sha256_partial (stale : List W32) (F : Bytes → Bytes) (hF : ∀ m, Spec.Sha.Sha256 m (F m))
    (key x : Bytes) (t : MTask) (ha : t.action = .encrypt) (hk : t.key = some key) (ho : t.out = some x)
    (hkl : key.length < 2 ^ 61) (hka : key.length ≤ 64 ∨ key.length % 64 ≠ 0)
    (hxl : x.length < 2 ^ 60) (hxa : x.length % 64 ≠ 0) :
    hmac (some (Sha256.hash stale)) (some 64) (some 32) t =
      .ok { t with out := some (Spec.hmac F 64 key x ++ x), result := .success } := by
  refine hmac_rfc2104 (sha256_sound stale F hF) (by decide) key x t ha hk ho ?_ ⟨?_, ?_, ?_⟩
  · intro h; rw [h] at hxa; exact hxa rfl
  · exact fun h => ⟨hkl, Or.inl (by omega)⟩
  · exact ⟨by omega, Or.inl (by omega)⟩
  · exact ⟨by decide, Or.inl (by decide)⟩

/-- C20 for HMAC-SHA-256, same restriction. -/
theorem hmac_sha256_check_partial (stale : List W32) (F : Bytes → Bytes)
    (hF : ∀ m, Spec.Sha.Sha256 m (F m)) (key i : Bytes) (t : MTask) (ha : t.action = .decrypt)
    (hk : t.key = some key) (hi : t.inp = some i)
    (hkl : key.length < 2 ^ 61) (hka : key.length ≤ 64 ∨ key.length % 64 ≠ 0)
    (hil : i.length < 2 ^ 60) (hia : i.length % 64 ≠ 32) :
    (32 < i.length ∧ i.take 32 = Spec.hmac F 64 key (i.drop 32) ∧
      hmac (some (Sha256.hash stale)) (some 64) (some 32) t =
        .ok { t with inp := some (i.drop 32), result := .success }) ∨
    (¬ (32 < i.length ∧ i.take 32 = Spec.hmac F 64 key (i.drop 32)) ∧
      hmac (some (Sha256.hash stale)) (some 64) (some 32) t = .ok { t with result := .hmacError }) := by
  have hdom : ∀ n, 32 < n → n < 2 ^ 60 → n % 64 ≠ 32 → HmacDom Dom64 64 32 key.length (n - 32) := by
    intro n h1 h2 h3
    refine ⟨?_, ?_, ?_⟩
    · exact fun h => ⟨hkl, Or.inl (by omega)⟩
    · exact ⟨by omega, Or.inl (by omega)⟩
    · exact ⟨by decide, Or.inl (by decide)⟩
  rcases hmac_check_iff (sha256_sound stale F hF) (B := 64) (by decide) key i t ha hk hi
    (fun h => hdom _ h hil hia) with h | ⟨h1, h2⟩
  · exact Or.inl h
  · refine Or.inr ⟨fun ⟨h3, h4⟩ => ?_, h2⟩
    refine h1 (i.drop 32) ?_ ?_ ?_
    · intro h0; have := congrArg List.length h0; rw [List.length_drop, List.length_nil] at this; omega
    · rw [List.length_drop]; exact hdom _ h3 hil hia
    · rw [← h4, List.take_append_drop]

example : (ascii "Hi There").length % 64 ≠ 0 ∧ (List.replicate 20 0x0b#8).length ≤ 64 := by decide

/-- RFC 4231, test case 1. -/
example : hmac (some (Sha256.hash [])) (some 64) (some 32)
    ⟨.encrypt, some (List.replicate 20 0x0b#8), none, some (ascii "Hi There"), .nr⟩ =
    .ok ⟨.encrypt, some (List.replicate 20 0x0b#8), none, some (
      [0xb0#8, 0x34#8, 0x4c#8, 0x61#8, 0xd8#8, 0xdb#8, 0x38#8, 0x53#8, 0x5c#8, 0xa8#8, 0xaf#8, 0xce#8,
       0xaf#8, 0x0b#8, 0xf1#8, 0x2b#8, 0x88#8, 0x1d#8, 0xc2#8, 0x00#8, 0xc9#8, 0x83#8, 0x3d#8, 0xa7#8,
       0x26#8, 0xe9#8, 0x37#8, 0x6c#8, 0x2e#8, 0x32#8, 0xcf#8, 0xf7#8] ++ ascii "Hi There"),
      .success⟩ := by decide +kernel

/-! ### Consequence of the missing padding: forgery -/

/-- The tail that turns `x` into another message with the same HMAC: the padding of a message of
`B + |x|` bytes. -/
def forgedTail (n : Nat) : Bytes :=
  0x80#8 :: (List.replicate ((64 - (n + 1 + 8) % 64) % 64) 0#8 ++ Spec.MD.be 8 (8 * (64 + n)))

theorem pad_forged (p x : Bytes) (hp : p.length = 64) :
    Spec.MD.pad 64 8 0x80#8 (Spec.MD.be 8) (p ++ x) = p ++ (x ++ forgedTail x.length) := by
  unfold Spec.MD.pad forgedTail
  rw [List.length_append, hp, List.append_assoc,
    show (64 + x.length + 1 + 8) % 64 = (x.length + 1 + 8) % 64 by omega]

theorem keyXor_ok_length {B : Nat} {k : Bytes} {p : Byte} {r : Bytes} (h : keyXor B k p = .ok r) :
    r.length = B := by
  unfold keyXor at h
  split at h
  · exact absurd h (by simp)
  · rw [← Out.ok.inj h]; simp; omega

/-- Messages whose inner hashes agree have the same MAC. -/
theorem gen_congr (h : HashFn) (B : Nat) (key x y mac : Bytes)
    (he : ∀ p : Bytes, p.length = B → h (p ++ x) false = h (p ++ y) false)
    (hg : gen h B key x = .ok (some (mac ++ x))) : gen h B key y = .ok (some (mac ++ y)) := by
  have he' : ∀ p : Bytes, p.length = B → runHash h (p ++ x) = runHash h (p ++ y) := by
    intro p hp; unfold runHash hashTask; simp only [he p hp]
    cases h (p ++ y) false <;> rfl
  unfold gen at hg ⊢
  cases h1 : (if B < key.length then runHash h key else Out.ok (some key)) with
  | ub => rw [h1] at hg; exact absurd hg (by simp)
  | ok lk =>
  rw [h1] at hg
  simp only [Out.bind_ok] at hg ⊢
  cases lk with
  | none => exact absurd (Out.ok.inj hg) (by simp)
  | some lk =>
  simp only at hg ⊢
  cases h2 : keyXor B lk 0x36#8 with
  | ub => rw [h2] at hg; exact absurd hg (by simp)
  | ok ki =>
  cases h3 : keyXor B lk 0x5C#8 with
  | ub => rw [h2, h3] at hg; exact absurd hg (by simp)
  | ok ko =>
  rw [h2, h3] at hg
  simp only [Out.bind_ok] at hg ⊢
  rw [← he' ki (keyXor_ok_length h2)]
  cases h4 : runHash h (ki ++ x) with
  | ub => rw [h4] at hg; exact absurd hg (by simp)
  | ok inner =>
  rw [h4] at hg
  simp only [Out.bind_ok] at hg ⊢
  cases inner with
  | none => exact absurd (Out.ok.inj hg) (by simp)
  | some inner =>
  simp only at hg ⊢
  cases h5 : runHash h (ko ++ inner) with
  | ub => rw [h5] at hg; exact absurd hg (by simp)
  | ok outer =>
  rw [h5] at hg
  simp only [Out.bind_ok] at hg ⊢
  cases outer with
  | none => exact absurd (Out.ok.inj hg) (by simp)
  | some m =>
    simp only [Out.pure_eq, Out.ok.injEq, Option.some.injEq, List.append_cancel_right_eq] at hg ⊢
    rw [hg]

/-- The HMAC-SHA-256 of `x` under any key is also the HMAC of a different, longer message, which is
computed without the key. -/
theorem hmac_sha256_forgery (stale : List W32) (key x : Bytes) (hxa : x.length % 64 ≠ 0)
    (hxl : x.length < 2 ^ 60) (mac : Bytes)
    (h : gen (Sha256.hash stale) 64 key x = .ok (some (mac ++ x))) :
    gen (Sha256.hash stale) 64 key (x ++ forgedTail x.length) =
      .ok (some (mac ++ (x ++ forgedTail x.length))) := by
  refine gen_congr _ _ _ _ _ _ (fun p hp => ?_) h
  have := sha256_collision (p ++ x) stale stale (Or.inl (by rw [List.length_append, hp]; omega)) (by
    rw [pad_forged p x hp]
    simp only [List.length_append, hp, forgedTail, List.length_cons, List.length_replicate, be_length]
    omega) false
  rw [pad_forged p x hp] at this
  exact this.2

/-- The function computed by the library's SHA-256 on every message: positive multiples of the block
size are not padded. -/
def libSha256 (m : Bytes) : Bytes :=
  Spec.Sha.p256.final Sha256.init256
    (if m.length % 64 = 0 ∧ m ≠ [] then m else Spec.MD.pad 64 8 0x80#8 (Spec.MD.be 8) m)

theorem libSha256_sound (stale : List W32) :
    Sound (Sha256.hash stale) libSha256 32 (fun n => n < 2 ^ 61) where
  ok := fun m hm => by
    unfold libSha256
    split
    · next h => exact sha256_aligned m stale hm h.2 h.1
    · next h =>
      have ha : m.length % 64 ≠ 0 ∨ m = [] := by
        by_cases h0 : m = []
        · exact Or.inr h0
        · exact Or.inl fun h1 => h ⟨h1, h0⟩
      have hF : ∀ m, Spec.Sha.Sha256 m (Spec.Sha.p256.digest Sha256.init256 m) :=
        fun _ => ⟨_, Sha256.init256_spec, rfl⟩
      exact (sha256_sound stale _ hF).ok m ⟨hm, ha.imp_right fun h => by rw [h]; rfl⟩
  len := fun m _ => final_length Spec.Sha.p256 _ _

/-- C20 fails in the strongest sense: from any message accepted by an HMAC-SHA-256 verification task
(of a length that is not a multiple of 64) one that was never authenticated, and is accepted as
well, is obtained by appending bytes that do not depend on the key. -/
theorem hmac_sha256_check_forgery (stale : List W32) (key mac x : Bytes) (hm : mac.length = 32)
    (hkl : key.length < 2 ^ 61) (hxa : x.length % 64 ≠ 0) (hxl : x.length < 2 ^ 60)
    (o : Option Bytes) (r : TaskResult)
    (h : hmac (some (Sha256.hash stale)) (some 64) (some 32) ⟨.decrypt, some key, some (mac ++ x), o, r⟩ =
      .ok ⟨.decrypt, some key, some x, o, .success⟩) :
    hmac (some (Sha256.hash stale)) (some 64) (some 32)
        ⟨.decrypt, some key, some (mac ++ (x ++ forgedTail x.length)), o, r⟩ =
      .ok ⟨.decrypt, some key, some (x ++ forgedTail x.length), o, .success⟩ := by
  have S := libSha256_sound stale
  have htl : (forgedTail x.length).length ≤ 72 := by
    simp only [forgedTail, List.length_cons, List.length_append, List.length_replicate, be_length]
    omega
  have dom : ∀ n, n < 2 ^ 60 + 72 → HmacDom (fun n => n < 2 ^ 61) 64 32 key.length n :=
    fun n hn => ⟨fun _ => hkl, by show 64 + n < 2 ^ 61; omega, by decide⟩
  have hmac_x : mac = Spec.hmac libSha256 64 key x := by
    rcases hmac_check_iff S (B := 64) (by decide) key (mac ++ x)
      ⟨.decrypt, some key, some (mac ++ x), o, r⟩ rfl rfl rfl (by
      intro _; rw [List.length_append, hm, Nat.add_sub_cancel_left]; exact dom _ (by omega))
      with ⟨_, h1, _⟩ | ⟨_, h1⟩
    · rwa [List.take_left' hm, List.drop_left' hm] at h1
    · rw [h1] at h; exact absurd (Out.ok.inj h) (by simp)
  have hg := gen_eq S (B := 64) (by decide) key x (dom _ (by omega))
  rw [← hmac_x] at hg
  have hf := hmac_sha256_forgery stale key x hxa hxl mac hg
  rw [gen_eq S (B := 64) (by decide) key _ (dom _ (by rw [List.length_append]; omega))] at hf
  have hf := List.append_cancel_right (Option.some.inj (Out.ok.inj hf))
  rcases hmac_check_iff S (B := 64) (by decide) key (mac ++ (x ++ forgedTail x.length))
    ⟨.decrypt, some key, some (mac ++ (x ++ forgedTail x.length)), o, r⟩ rfl rfl rfl (by
      intro _
      rw [List.length_append, hm, Nat.add_sub_cancel_left]
      exact dom _ (by rw [List.length_append]; omega)) with ⟨_, _, h1⟩ | ⟨h1, _⟩
  · rw [h1, List.drop_left' hm]
  · refine absurd ?_ (h1 (x ++ forgedTail x.length) ?_ (dom _ (by rw [List.length_append]; omega)))
    · rw [hf]
    · simp [forgedTail]

/-- The padded key of RFC 2104 for a key of one block at most. -/
def xorKey (key : Bytes) (p : Byte) : Bytes :=
  List.zipWith (· ^^^ ·) (key ++ List.replicate (64 - key.length) 0#8) (List.replicate 64 p)

/-- The RFC 2104 MAC with the standard's SHA-256 in executable form, for short keys. -/
def specMac (key x : Bytes) : Out Bytes := do
  let i ← run256 (Spec.MD.pad 64 8 0x80#8 (Spec.MD.be 8) (xorKey key 0x36#8 ++ x))
  run256 (Spec.MD.pad 64 8 0x80#8 (Spec.MD.be 8) (xorKey key 0x5C#8 ++ i))

/-- C19 fails for HMAC-SHA-256: some message of 64 bytes does not get the MAC of RFC 2104 (witness
key `k`, message 64 times `a`). -/
theorem hmac_sha256_fails :
    ¬ ∀ (F : Bytes → Bytes), (∀ m, Spec.Sha.Sha256 m (F m)) → ∀ key x : Bytes, x ≠ [] →
      key.length < 2 ^ 60 → x.length < 2 ^ 60 →
      gen (Sha256.hash []) 64 key x = .ok (some (Spec.hmac F 64 key x ++ x)) := by
  intro h
  obtain ⟨F, hF⟩ := sha256_exists
  have h1 := h F hF (ascii "k") (List.replicate 64 0x61#8) (by decide) (by decide) (by decide)
  have e1 := run256_spec _ _ (hF (xorKey (ascii "k") 0x36#8 ++ List.replicate 64 0x61#8))
  have e2 := run256_spec _ _ (hF (xorKey (ascii "k") 0x5C#8 ++
    F (xorKey (ascii "k") 0x36#8 ++ List.replicate 64 0x61#8)))
  have e3 : specMac (ascii "k") (List.replicate 64 0x61#8) =
      .ok (Spec.hmac F 64 (ascii "k") (List.replicate 64 0x61#8)) := by
    unfold specMac
    rw [e1, Out.bind_ok, e2]
    rfl
  have e4 : gen (Sha256.hash []) 64 (ascii "k") (List.replicate 64 0x61#8) =
      (specMac (ascii "k") (List.replicate 64 0x61#8) >>= fun m =>
        .ok (some (m ++ List.replicate 64 0x61#8))) := by
    rw [e3, h1]; rfl
  exact absurd e4 (by decide +kernel)

/-! ### Encrypt-then-MAC -/

/-- A cipher whose decryption inverts its encryption when given back `out` as `in`, under the set-up
`setup` of the same key and mode; `ok` describes the plaintexts. -/
structure GoodCipher (setup : MTask → MTask) (cipher : MTask → Out MTask) (key x c : Bytes) : Prop where
  setup_enc : ∀ t, (setup t).action = t.action ∧ (setup t).key = some key ∧ (setup t).inp = t.inp
  enc : ∀ t, t.action = .encrypt → t.key = some key → t.inp = some x →
    cipher t = .ok { t with out := some c, result := .success }
  dec : ∀ t, t.action = .decrypt → t.key = some key → t.inp = some c →
    cipher t = .ok { t with out := some x, result := .success }

/-- Encrypt-then-MAC round trip: a message sealed by `kryptos_run_cipher_hmac` is opened by it. -/
theorem etm_round_trip {h : HashFn} {F : Bytes → Bytes} {size : Nat} {P : Nat → Prop}
    (s : Sound h F size P) {B : Nat} (hB : size ≤ B) (setup : MTask → MTask)
    (cipher : MTask → Out MTask) (key x c : Bytes) (hc : c ≠ []) (g : GoodCipher setup cipher key x c)
    (hd : HmacDom P B size key.length c.length) (t : MTask) (ht : t.action = .encrypt)
    (hi : t.inp = some x) :
    ∃ t', runCipherHmac setup cipher h B size t = .ok t' ∧ t'.result = .success ∧
      t'.out = some (Spec.hmac F B key c ++ c) ∧
      ∀ u : MTask, u.action = .decrypt → u.inp = t'.out →
        ∃ u', runCipherHmac setup cipher h B size u = .ok u' ∧ u'.result = .success ∧
          u'.out = some x := by
  obtain ⟨s1, s2, s3⟩ := g.setup_enc t
  refine ⟨{ setup t with out := some (Spec.hmac F B key c ++ c), result := .success }, ?_, rfl, rfl, ?_⟩
  · unfold runCipherHmac
    simp only [ht]
    rw [g.enc (setup t) (s1.trans ht) s2 (s3.trans hi), Out.bind_ok, if_pos rfl]
    exact hmac_rfc2104 s hB key c { setup t with out := some c, result := .success } (s1.trans ht) s2 rfl
      hc hd
  · intro u hu hui
    obtain ⟨a1, a2, a3⟩ := g.setup_enc u
    unfold runCipherHmac
    simp only [hu]
    have hgen := hmac_rfc2104 s hB key c ⟨.encrypt, some key, none, some c, .nr⟩ rfl rfl rfl hc hd
    rw [hmac_accepts_generated s hB key c hc hd ⟨.encrypt, some key, none, some c, .nr⟩ _ (setup u)
      ⟨rfl, rfl, rfl⟩ hgen ⟨a1.trans hu, a2, a3.trans hui⟩, Out.bind_ok, if_pos rfl]
    obtain ⟨b1, b2, b3⟩ := g.setup_enc { setup u with inp := some c, result := .success }
    rw [g.dec _ (b1.trans (a1.trans hu)) b2 b3]
    exact ⟨_, rfl, rfl, rfl⟩

/-- Encrypt-then-MAC: a ciphertext that is not a MAC followed by its message never reaches the cipher:
the task ends with an HMAC error and an unchanged `out`, whatever the cipher does. -/
theorem etm_rejects {h : HashFn} {F : Bytes → Bytes} {size : Nat} {P : Nat → Prop}
    (s : Sound h F size P) {B : Nat} (hB : size ≤ B) (setup : MTask → MTask)
    (cipher : MTask → Out MTask) (key i : Bytes) (t : MTask) (ht : t.action = .decrypt)
    (hi : t.inp = some i)
    (hs : ∀ t, (setup t).action = t.action ∧ (setup t).key = some key ∧ (setup t).inp = t.inp)
    (hd : size < i.length → HmacDom P B size key.length (i.length - size))
    (hbad : i.take size ≠ Spec.hmac F B key (i.drop size)) :
    runCipherHmac setup cipher h B size t = .ok { setup t with result := .hmacError } := by
  obtain ⟨a1, a2, a3⟩ := hs t
  unfold runCipherHmac
  simp only [ht]
  rcases hmac_check_iff s hB key i (setup t) (a1.trans ht) a2 (a3.trans hi) hd with ⟨_, h1, _⟩ | ⟨_, h1⟩
  · exact absurd h1 hbad
  · rw [h1, Out.bind_ok, if_neg (by simp)]
    rfl

/-- `kryptos_run_cipher_hmac` does nothing, and reports nothing, for the third encryption action. -/
theorem etm_ignores_no_random_pad (setup : MTask → MTask) (cipher : MTask → Out MTask) (h : HashFn)
    (B size : Nat) (t : MTask) (ht : t.action = .encryptWithoutRandomPad) :
    runCipherHmac setup cipher h B size t = .ok t := by
  unfold runCipherHmac; simp only [ht]

/-- The xor cipher of one byte meets the hypotheses of `etm_round_trip` for every message. -/
example (key x : Bytes) : GoodCipher (fun t => { t with key := some key })
    (fun t => .ok { t with out := t.inp.map (List.map (· ^^^ 0x55#8)), result := .success })
    key x (x.map (· ^^^ 0x55#8)) where
  setup_enc := fun _ => ⟨rfl, rfl, rfl⟩
  enc := fun t _ _ h => by rw [h]; rfl
  dec := fun t _ _ h => by
    rw [h]
    simp only [Option.map_some, List.map_map]
    congr 3
    conv => rhs; rw [← List.map_id x]
    congr 1
    funext b
    simp only [Function.comp, BitVec.xor_assoc, BitVec.xor_self, BitVec.xor_zero, id]

end Kryptos
