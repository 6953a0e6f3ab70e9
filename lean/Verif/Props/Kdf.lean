import Verif.Model.Kdf
import Verif.Props.Hmac
/-
  C21 (HKDF is RFC 5869) and C22 (PBKDF2 is RFC 8018), generic in the hash function.
-/
namespace Kryptos
open Hash Hmac Kdf

variable {h : HashFn} {F : Bytes → Bytes} {size : Nat} {P : Nat → Prop}

theorem mac_eq (s : Sound h F size P) {B : Nat} (hB : size ≤ B) (key x : Bytes) (hx : x ≠ [])
    (hd : HmacDom P B size key.length x.length) :
    mac (some h) (some B) (some size) (some key) x = .ok (some (Spec.hmac F B key x ++ x)) := by
  unfold mac
  rw [hmac_rfc2104 s hB key x _ rfl rfl rfl hx hd, Out.bind_ok]
  simp

theorem rdn_append {n : Nat} {a b : Bytes} (hn : n ≤ a.length) : rdn n (a ++ b) = .ok (a.take n) := by
  unfold rdn
  rw [if_neg (by rw [List.length_append]; omega), List.take_append_of_le_length hn]

/-- Blocks `f 0, ..., f (k - 1)` of `size` bytes, with `k` enough of them for `rem` bytes, peeled. -/
theorem blocks_peel (f : Nat → Bytes) (size rem : Nat) (hs : 0 < size) (hr : 0 < rem)
    (hf : (f 0).length = size) :
    (((List.range ((rem + size - 1) / size)).map f).flatten).take rem =
      (f 0).take (if size ≤ rem then size else rem) ++
        (((List.range ((rem - (if size ≤ rem then size else rem) + size - 1) / size)).map
          fun j => f (j + 1)).flatten).take (rem - (if size ≤ rem then size else rem)) := by
  split
  · next hle =>
    have : (rem + size - 1) / size = (rem - size + size - 1) / size + 1 := by
      rw [← Nat.add_div_right _ hs]; congr 1; omega
    rw [this, List.range_succ_eq_map, List.map_cons, List.flatten_cons, List.take_append, hf,
      List.take_of_length_le (l := f 0) (by omega), List.take_of_length_le (l := f 0) (by omega),
      List.map_map]
    rfl
  · next hlt =>
    have : (rem + size - 1) / size = 1 := by
      rw [show rem + size - 1 = (rem - 1) + size by omega, Nat.add_div_right _ hs,
        Nat.div_eq_of_lt (by omega)]
    rw [this]
    simp [List.range_succ]

/-! ### C21 -/

/-- The expansion loop, started at block `n`. -/
theorem hkdfLoop_eq (s : Sound h F size P) {B : Nat} (hB : size ≤ B) (hs : 0 < size) (prk info : Bytes)
    (hp : prk.length = size) (hp1 : P (B + size)) (hp2 : P (B + (info.length + 1)))
    (hp3 : P (B + (size + info.length + 1))) :
    ∀ (rem n : Nat), (Spec.hkdfT F B prk info n).length = (if n = 0 then 0 else size) →
      hkdfLoop h B size prk info (Spec.hkdfT F B prk info n) (BitVec.ofNat 8 (n + 1)) rem =
        .ok (some ((((List.range ((rem + size - 1) / size)).map
          fun j => Spec.hkdfT F B prk info (n + 1 + j)).flatten).take rem)) := by
  intro rem
  induction rem using Nat.strongRecOn with
  | ind rem ih =>
  intro n hT
  rw [hkdfLoop]
  by_cases hr : rem = 0
  · rw [if_pos hr, hr]; simp
  rw [if_neg hr, dif_neg (by omega)]
  have hdom : HmacDom P B size prk.length
      (Spec.hkdfT F B prk info n ++ info ++ [BitVec.ofNat 8 (n + 1)]).length := by
    refine ⟨fun h => by omega, ?_, hp1⟩
    simp only [List.length_append, hT, List.length_cons, List.length_nil]
    split
    · simpa using hp2
    · simpa using hp3
  rw [mac_eq s hB prk _ (by simp) hdom, Out.bind_ok]
  have hml := hmac_length s hB prk _ hdom
  simp only
  rw [rdn_append (by rw [hml]; split <;> omega), Out.bind_ok,
    show BitVec.ofNat 8 (n + 1) + 1#8 = BitVec.ofNat 8 (n + 1 + 1) by rw [BitVec.ofNat_add (n + 1) 1]]
  have hTn : Spec.hmac F B prk (Spec.hkdfT F B prk info n ++ info ++ [BitVec.ofNat 8 (n + 1)]) =
      Spec.hkdfT F B prk info (n + 1) := rfl
  rw [hTn] at hml ⊢
  rw [blocks_peel _ size rem hs (by omega) hml]
  by_cases hle : size ≤ rem
  · simp only [if_pos hle]
    rw [List.take_of_length_le (by omega : (Spec.hkdfT F B prk info (n + 1)).length ≤ size),
      ih (rem - size) (by omega) (n + 1) (by rw [hml]; rfl), Out.bind_ok]
    simp only [Out.pure_eq]
    congr 6
    funext j
    rw [show n + 1 + 1 + j = n + 1 + (j + 1) by omega]
  · simp only [if_neg hle, Nat.sub_self]
    rw [hkdfLoop, if_pos rfl, Out.bind_ok]
    simp

/-- An absent key and a key of zeros are the same HMAC key. -/
theorem hmac_zero_key (F : Bytes → Bytes) (B n : Nat) (hn : n ≤ B) (x : Bytes) :
    Spec.hmac F B [] x = Spec.hmac F B (List.replicate n 0#8) x := by
  have h1 : (if ([] : Bytes).length > B then F [] else []) = [] := by simp
  have h2 : (if (List.replicate n 0#8).length > B then F (List.replicate n 0#8) else
      List.replicate n 0#8) = List.replicate n 0#8 := by
    rw [if_neg (by rw [List.length_replicate]; omega)]
  unfold Spec.hmac
  rw [h1, h2]
  simp only [List.nil_append, List.length_nil, List.length_replicate, List.replicate_append_replicate]
  rw [show n + (B - n) = B - 0 by omega]

/-- C21: HKDF with given hash functions and non-empty keying material returns exactly the octets of
RFC 5869.  Missing: empty keying material (`hkdf_empty_fails`), and the default hash functions
(`hkdf_default_ub`). -/
theorem hkdf_rfc5869_partial (s : Sound h F size P) {B : Nat} (hB : size ≤ B) (hs : 0 < size)
    (stale : List W32) (salt info : Option Bytes) (ikm : Bytes) (hikm : ikm ≠ []) (L : Nat)
    (hL : 0 < L) (hL2 : L ≤ 255 * size)
    (hd : HmacDom P B size (salt.getD []).length ikm.length) (hp2 : P (B + ((info.getD []).length + 1)))
    (hp3 : P (B + (size + (info.getD []).length + 1))) :
    hkdf (some h) (some B) (some size) stale (some ikm) salt info L =
      .ok (some (Spec.hkdf F B size salt ikm (info.getD []) L)) := by
  unfold hkdf
  simp only [Option.getD_some]
  rw [if_neg (by omega), mac_eq s hB _ ikm hikm hd, Out.bind_ok]
  have hml := hmac_length s hB (salt.getD []) ikm hd
  simp only
  rw [rdn_append (by omega), Out.bind_ok, List.take_of_length_le (by omega)]
  have := hkdfLoop_eq s hB hs _ (info.getD []) hml hd.2.2 hp2 hp3 L 0 rfl
  rw [show Spec.hkdfT F B (Spec.hmac F B (salt.getD []) ikm) (info.getD []) 0 = [] from rfl] at this
  rw [this]
  unfold Spec.hkdf
  have hsalt : Spec.hmac F B (salt.getD []) ikm = Spec.hmac F B (Spec.hkdfSalt size salt) ikm := by
    cases salt with
    | none => exact hmac_zero_key F B size hB ikm
    | some s => rfl
  rw [hsalt]
  congr 6
  funext j
  rw [show 0 + 1 + j = j + 1 by omega]

/-- C21: lengths above 255 times the hash size, and zero, are refused. -/
theorem hkdf_refuses (hf : Option HashFn) (hin : Option Nat) (size : Nat) (stale : List W32)
    (ikm salt info : Option Bytes) (L : Nat) (hL : L = 0 ∨ 255 * size < L) :
    hkdf hf hin (some size) stale ikm salt info L = .ok none := by
  unfold hkdf
  cases ikm with
  | none => rfl
  | some ikm => simp only [Option.getD_some]; rw [if_pos hL]

/-- C21 fails for empty keying material, which RFC 5869 allows: NULL is returned. -/
theorem hkdf_empty_fails (hf : HashFn) (B size : Nat) (stale : List W32) (salt info : Option Bytes)
    (L : Nat) : hkdf (some hf) (some B) (some size) stale (some []) salt info L = .ok none := by
  unfold hkdf
  simp only [Option.getD_some]
  split
  · rfl
  · rfl

/-- The advertised default (NULL hash functions mean SHA-256) is undefined behaviour: the NULL
`h_size` is called. -/
theorem hkdf_default_ub (stale : List W32) (ikm : Bytes) (salt info : Option Bytes) (L : Nat)
    (hi : ikm ≠ []) (hil : ikm.length < 2 ^ 60) (hsl : (salt.getD []).length < 2 ^ 60) (hL : 0 < L)
    (hL2 : L ≤ 255 * 32) : hkdf none none none stale (some ikm) salt info L = .ub := by
  unfold hkdf
  simp only [Option.getD_none]
  rw [if_neg (by omega), mac_eq (libSha256_sound stale) (by decide) _ ikm hi
    ⟨fun _ => by omega, by show 64 + ikm.length < 2 ^ 61; omega, by decide⟩, Out.bind_ok]

/-- C21 instantiated: HKDF-SHA-256 with the standard's hash function.  Missing: the lengths at which
the library's hash does not pad. -/
theorem hkdf_sha256_partial (stale : List W32) (F : Bytes → Bytes) (hF : ∀ m, Spec.Sha.Sha256 m (F m))
    (salt info : Option Bytes) (ikm : Bytes) (L : Nat) (hL : 0 < L) (hL2 : L ≤ 255 * 32)
    (hi : ikm.length % 64 ≠ 0) (hil : ikm.length < 2 ^ 60)
    (hsl : (salt.getD []).length < 2 ^ 60)
    (hsa : (salt.getD []).length ≤ 64 ∨ (salt.getD []).length % 64 ≠ 0)
    (hol : (info.getD []).length < 2 ^ 60)
    (ho1 : (info.getD []).length % 64 ≠ 63) (ho2 : (info.getD []).length % 64 ≠ 31) :
    hkdf (some (Sha256.hash stale)) (some 64) (some 32) stale (some ikm) salt info L =
      .ok (some (Spec.hkdf F 64 32 salt ikm (info.getD []) L)) := by
  refine hkdf_rfc5869_partial (sha256_sound stale F hF) (by decide) (by decide) stale salt info ikm ?_ L
    hL hL2 ⟨?_, ?_, ?_⟩ ?_ ?_
  · intro h; rw [h] at hi; exact hi rfl
  · exact fun h => ⟨by omega, Or.inl (by omega)⟩
  · exact ⟨by omega, Or.inl (by omega)⟩
  · exact ⟨by decide, Or.inl (by decide)⟩
  · exact ⟨by omega, Or.inl (by omega)⟩
  · exact ⟨by omega, Or.inl (by omega)⟩

/-- RFC 5869, test case 1 (the hypotheses of `hkdf_sha256_partial` hold). -/
example : hkdf (some (Sha256.hash [])) (some 64) (some 32) [] (some (List.replicate 22 0x0b#8))
    (some ((List.range 13).map (BitVec.ofNat 8)))
    (some ((List.range 10).map fun i => BitVec.ofNat 8 (0xf0 + i))) 42 =
    .ok (some [0x3c#8, 0xb2#8, 0x5f#8, 0x25#8, 0xfa#8, 0xac#8, 0xd5#8, 0x7a#8, 0x90#8, 0x43#8, 0x4f#8,
      0x64#8, 0xd0#8, 0x36#8, 0x2f#8, 0x2a#8, 0x2d#8, 0x2d#8, 0x0a#8, 0x90#8, 0xcf#8, 0x1a#8, 0x5a#8,
      0x4c#8, 0x5d#8, 0xb0#8, 0x2d#8, 0x56#8, 0xec#8, 0xc4#8, 0xc5#8, 0xbf#8, 0x34#8, 0x00#8, 0x72#8,
      0x08#8, 0xd5#8, 0xb8#8, 0x87#8, 0x18#8, 0x58#8, 0x65#8]) := by decide +kernel

/-! ### C22 -/

theorem fLoop_eq (s : Sound h F size P) {B : Nat} (hB : size ≤ B) (hs : 0 < size) (p x : Bytes)
    (hd : HmacDom P B size p.length size) :
    ∀ (n j : Nat) (dk rest : Bytes), dk.length = size →
      (Spec.pbkdf2U (Spec.hmac F B) p x j).length = size →
      fLoop (some h) (some B) (some size) (some p) size n dk (Spec.pbkdf2U (Spec.hmac F B) p x j ++ rest) =
        .ok (some (((List.range' (j + 1) n).map fun j => Spec.pbkdf2U (Spec.hmac F B) p x j).foldl
          (List.zipWith (· ^^^ ·)) dk)) := by
  intro n
  induction n with
  | zero => intro j dk rest _ _; rfl
  | succ n ih =>
    intro j dk rest hdk hu
    have hd' : HmacDom P B size p.length (Spec.pbkdf2U (Spec.hmac F B) p x j).length := by rw [hu]; exact hd
    have hU : Spec.hmac F B p (Spec.pbkdf2U (Spec.hmac F B) p x j) =
        Spec.pbkdf2U (Spec.hmac F B) p x (j + 1) := rfl
    have hul := hmac_length s hB p _ hd'
    rw [fLoop, rdn_append (by omega), Out.bind_ok, List.take_of_length_le (by omega),
      mac_eq s hB p _ (by intro h0; rw [h0] at hu; simp at hu; omega) hd', Out.bind_ok]
    rw [hU] at hul ⊢
    simp only
    have hx : xorInto size dk (Spec.pbkdf2U (Spec.hmac F B) p x (j + 1) ++
        Spec.pbkdf2U (Spec.hmac F B) p x j) =
        .ok (List.zipWith (· ^^^ ·) dk (Spec.pbkdf2U (Spec.hmac F B) p x (j + 1))) := by
      unfold xorInto
      rw [if_neg (by rw [List.length_append]; omega), List.take_append_of_le_length (by omega),
        List.take_of_length_le (by omega)]
    rw [hx, Out.bind_ok, ih (j + 1) _ _ (by rw [List.length_zipWith]; omega) hul, List.range'_succ]
    rfl

theorem int4_eq (i : Nat) :
    [((BitVec.ofNat 32 i) >>> 24).setWidth 8, (((BitVec.ofNat 32 i) >>> 16) &&& 0xFF#32).setWidth 8,
      (((BitVec.ofNat 32 i) >>> 8) &&& 0xFF#32).setWidth 8,
      ((BitVec.ofNat 32 i) &&& 0xFF#32).setWidth 8] = Spec.int4 i := by
  have e : ∀ v : BitVec 32, ((v &&& 0xFF#32).setWidth 8 : BitVec 8) = v.setWidth 8 := by
    intro v
    apply BitVec.eq_of_toNat_eq
    rw [BitVec.toNat_setWidth, BitVec.toNat_setWidth, BitVec.toNat_and,
      show (0xFF#32).toNat = 2 ^ 8 - 1 from rfl, Nat.and_two_pow_sub_one_eq_mod]
    omega
  unfold Spec.int4
  rw [e, e, e]
  have g : ∀ k : Nat, k ≤ 24 → ((BitVec.ofNat 32 i >>> k).setWidth 8 : BitVec 8) = BitVec.ofNat 8 (i / 2 ^ k) := by
    intro k hk
    apply BitVec.eq_of_toNat_eq
    rw [BitVec.toNat_setWidth, BitVec.toNat_ushiftRight, BitVec.toNat_ofNat, BitVec.toNat_ofNat,
      Nat.shiftRight_eq_div_pow]
    have : 2 ^ 32 = 2 ^ k * 2 ^ (32 - k) := by rw [← Nat.pow_add]; congr 1; omega
    rw [this, Nat.mod_mul_right_div_self, Nat.mod_mod_of_dvd]
    exact Nat.pow_dvd_pow 2 (by omega)
  rw [g 24 (by omega), g 16 (by omega), g 8 (by omega)]
  simp

theorem pbkdf2f_eq (s : Sound h F size P) {B : Nat} (hB : size ≤ B) (hs : 0 < size) (p : Bytes)
    (salt : Option Bytes) (c i : Nat) (hd : HmacDom P B size p.length size)
    (hd1 : HmacDom P B size p.length ((salt.getD []).length + 4)) :
    f (some h) (some B) (some size) (some p) salt c (BitVec.ofNat 32 i) size =
        .ok (some (Spec.pbkdf2F (Spec.hmac F B) p (salt.getD []) c i)) ∧
      (Spec.pbkdf2F (Spec.hmac F B) p (salt.getD []) c i).length = size := by
  have hd1' : HmacDom P B size p.length (salt.getD [] ++ Spec.int4 i).length := by
    rw [List.length_append]; exact hd1
  have hl0 := hmac_length s hB p _ hd1'
  have key : f (some h) (some B) (some size) (some p) salt c (BitVec.ofNat 32 i) size =
      .ok (some (Spec.pbkdf2F (Spec.hmac F B) p (salt.getD []) c i)) := by
    unfold f
    simp only [int4_eq]
    rw [mac_eq s hB p _ (by simp [Spec.int4]) hd1', Out.bind_ok]
    simp only
    rw [rdn_append (by omega), Out.bind_ok, List.take_of_length_le (by omega)]
    have := fLoop_eq s hB hs p (salt.getD [] ++ Spec.int4 i) hd (c - 1) 0
      (Spec.hmac F B p (salt.getD [] ++ Spec.int4 i)) (salt.getD [] ++ Spec.int4 i) hl0 hl0
    rw [show Spec.pbkdf2U (Spec.hmac F B) p (salt.getD [] ++ Spec.int4 i) 0 =
      Spec.hmac F B p (salt.getD [] ++ Spec.int4 i) from rfl] at this
    rw [this]
    unfold Spec.pbkdf2F
    rw [List.range_eq_range', List.tail_range']
    rfl
  refine ⟨key, ?_⟩
  unfold Spec.pbkdf2F
  have hU : ∀ j, (Spec.pbkdf2U (Spec.hmac F B) p (salt.getD [] ++ Spec.int4 i) j).length = size := by
    intro j
    induction j with
    | zero => exact hl0
    | succ j ih => exact hmac_length s hB p _ (by rw [ih]; exact hd)
  have hfold : ∀ (l : List Nat) (dk : Bytes), dk.length = size →
      ((l.map fun j => Spec.pbkdf2U (Spec.hmac F B) p (salt.getD [] ++ Spec.int4 i) j).foldl
        (List.zipWith (· ^^^ ·)) dk).length = size := by
    intro l
    induction l with
    | nil => intro dk h; exact h
    | cons a l ih =>
      intro dk h
      rw [List.map_cons, List.foldl_cons]
      exact ih _ (by rw [List.length_zipWith, hU, h, Nat.min_self])
  exact hfold _ _ (hU 0)

theorem dkLoop_eq (s : Sound h F size P) {B : Nat} (hB : size ≤ B) (hs : 0 < size) (p : Bytes)
    (salt : Option Bytes) (c : Nat) (hd : HmacDom P B size p.length size)
    (hd1 : HmacDom P B size p.length ((salt.getD []).length + 4)) :
    ∀ (rem i : Nat),
      dkLoop (some h) (some B) (some size) (some p) salt c size (BitVec.ofNat 32 i) rem =
        .ok (some ((((List.range ((rem + size - 1) / size)).map
          fun j => Spec.pbkdf2F (Spec.hmac F B) p (salt.getD []) c (i + j)).flatten).take rem)) := by
  intro rem
  induction rem using Nat.strongRecOn with
  | ind rem ih =>
  intro i
  rw [dkLoop]
  by_cases hr : rem = 0
  · rw [if_pos hr, hr]; simp
  obtain ⟨h1, h2⟩ := pbkdf2f_eq s hB hs p salt c i hd hd1
  rw [if_neg hr, dif_neg (by omega), h1, Out.bind_ok]
  simp only
  have hrd : rdn (if size ≤ rem then size else rem) (Spec.pbkdf2F (Spec.hmac F B) p (salt.getD []) c i) =
      .ok ((Spec.pbkdf2F (Spec.hmac F B) p (salt.getD []) c i).take (if size ≤ rem then size else rem)) := by
    unfold rdn; rw [if_neg (by rw [h2]; split <;> omega)]
  rw [hrd, Out.bind_ok, show BitVec.ofNat 32 i + 1#32 = BitVec.ofNat 32 (i + 1) by rw [BitVec.ofNat_add i 1],
    ih (rem - (if size ≤ rem then size else rem)) (by split <;> omega) (i + 1), Out.bind_ok,
    blocks_peel (fun j => Spec.pbkdf2F (Spec.hmac F B) p (salt.getD []) c (i + j)) size rem hs (by omega)
      (by simpa using h2)]
  simp only [Out.pure_eq, Nat.add_zero]
  congr 6
  funext j
  rw [show i + 1 + j = i + (j + 1) by omega]

/-- C22: PBKDF2 with a password, a salt, a positive count and a length within the limit returns the
octets of RFC 8018. -/
theorem pbkdf2_rfc8018 (s : Sound h F size P) {B : Nat} (hB : size ≤ B) (hs : 0 < size) (p : Bytes)
    (salt : Option Bytes) (c dklen : Nat) (_hc : 0 < c) (hl : dklen ≤ (2 ^ 32 - 1) * size)
    (hd : HmacDom P B size p.length size)
    (hd1 : HmacDom P B size p.length ((salt.getD []).length + 4)) :
    pbkdf2 (some h) (some B) (some size) (some p) salt c dklen =
      .ok (some (Spec.pbkdf2 (Spec.hmac F B) size p (salt.getD []) c dklen)) := by
  unfold pbkdf2
  simp only
  rw [if_neg (by omega), show 1#32 = BitVec.ofNat 32 1 from rfl, dkLoop_eq s hB hs p salt c hd hd1]
  unfold Spec.pbkdf2
  congr 6
  funext j
  rw [Nat.add_comm]

/-- C22: longer requests are refused. -/
theorem pbkdf2_refuses (hf : Option HashFn) (hin : Option Nat) (size : Nat) (p salt : Option Bytes)
    (c dklen : Nat) (hl : (2 ^ 32 - 1) * size < dklen) :
    pbkdf2 hf hin (some size) p salt c dklen = .ok none := by
  unfold pbkdf2; simp only; rw [if_pos hl]

/-- A count of zero, which RFC 8018 does not allow, is treated as one. -/
theorem pbkdf2_count_zero (s : Sound h F size P) {B : Nat} (hB : size ≤ B) (hs : 0 < size) (p : Bytes)
    (salt : Option Bytes) (dklen : Nat) (hl : dklen ≤ (2 ^ 32 - 1) * size)
    (hd : HmacDom P B size p.length size)
    (hd1 : HmacDom P B size p.length ((salt.getD []).length + 4)) :
    pbkdf2 (some h) (some B) (some size) (some p) salt 0 dklen =
      pbkdf2 (some h) (some B) (some size) (some p) salt 1 dklen := by
  unfold pbkdf2
  simp only
  rw [if_neg (by omega), show 1#32 = BitVec.ofNat 32 1 from rfl, dkLoop_eq s hB hs p salt 0 hd hd1,
    dkLoop_eq s hB hs p salt 1 hd hd1, if_neg (by omega)]
  rfl

/-- A NULL password yields NULL (for a positive length). -/
theorem pbkdf2_null_password (hf : HashFn) (B size : Nat) (salt : Option Bytes) (c dklen : Nat)
    (hs : 0 < size) (hd : 0 < dklen) :
    pbkdf2 (some hf) (some B) (some size) none salt c dklen = .ok none := by
  unfold pbkdf2
  simp only
  split
  · rfl
  · rw [dkLoop, if_neg (by omega), dif_neg (by omega)]
    rfl

/-- C22 instantiated for HMAC-SHA-256: the only excluded inputs are long passwords and salts at
lengths where the library's hash does not pad. -/
theorem pbkdf2_sha256_partial (stale : List W32) (F : Bytes → Bytes)
    (hF : ∀ m, Spec.Sha.Sha256 m (F m)) (p : Bytes) (salt : Option Bytes) (c dklen : Nat) (hc : 0 < c)
    (hl : dklen ≤ (2 ^ 32 - 1) * 32) (hpl : p.length < 2 ^ 60)
    (hpa : p.length ≤ 64 ∨ p.length % 64 ≠ 0) (hsl : (salt.getD []).length < 2 ^ 60)
    (hsa : (salt.getD []).length % 64 ≠ 60) :
    pbkdf2 (some (Sha256.hash stale)) (some 64) (some 32) (some p) salt c dklen =
      .ok (some (Spec.pbkdf2 (Spec.hmac F 64) 32 p (salt.getD []) c dklen)) := by
  have hk : 64 < p.length → Dom64 p.length := fun h => ⟨by omega, Or.inl (by omega)⟩
  have h96 : Dom64 (64 + 32) := ⟨by decide, Or.inl (by decide)⟩
  exact pbkdf2_rfc8018 (sha256_sound stale F hF) (by decide) (by decide) p salt c dklen hc hl
    ⟨hk, h96, h96⟩ ⟨hk, ⟨by omega, Or.inl (by omega)⟩, h96⟩

/-- RFC 7914, section 11 (first 16 octets of the first vector, count 1). -/
example : pbkdf2 (some (Sha256.hash [])) (some 64) (some 32) (some (ascii "passwd")) (some (ascii "salt"))
    1 16 =
    .ok (some [0x55#8, 0xac#8, 0x04#8, 0x6e#8, 0x56#8, 0xe3#8, 0x08#8, 0x9f#8, 0xec#8, 0x16#8, 0x91#8,
      0xc2#8, 0x25#8, 0x44#8, 0xb6#8, 0x05#8]) := by decide +kernel

/-- RFC 6070, second vector: HMAC-SHA-1, two iterations. -/
example : pbkdf2 (some (Sha1.hash [])) (some 64) (some 20) (some (ascii "password")) (some (ascii "salt"))
    2 20 =
    .ok (some [0xea#8, 0x6c#8, 0x01#8, 0x4d#8, 0xc7#8, 0x2d#8, 0x6f#8, 0x8c#8, 0xcd#8, 0x1e#8, 0xd9#8,
      0x2a#8, 0xce#8, 0x1d#8, 0x41#8, 0xf0#8, 0xd8#8, 0xde#8, 0x89#8, 0x57#8]) := by decide +kernel

end Kryptos
