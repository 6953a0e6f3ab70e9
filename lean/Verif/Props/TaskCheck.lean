import Verif.Model.TaskCheck
import Verif.Props.Pem
/-
  C55: the task check accepts exactly the well-formed cipher tasks, and says which requirement is violated.

  The documented requirements are stated below (`WellFormed`), after the classification of the ciphers.  `check_iff_partial`
  says that the check passes exactly for the well-formed tasks, apart from the six kinds of tasks excluded by `Plain`; for each
  of them a witness shows that the exclusion is necessary.  `check_accepts` and `check_reason` need no such exclusion but one.
-/
namespace Kryptos.TaskCheck

/-! ## The requirements -/

/-- What a cipher is: a stream cipher, one with an optional nonce of a size, a block cipher with a block size which may have a
GCM mode, a public key cipher with the names of the parameters of its public and private keys, or a signature scheme. -/
inductive Kind where
  | stream
  | nonced (n : Nat)
  | block (size : Nat) (gcm : Bool)
  | publicKey (pub priv : List String) (oaep : Bool)
  | signature
  | nothing

def rsaPub : List String := ["RSA PARAM N", "RSA PARAM E"]
def rsaPriv : List String := ["RSA PARAM N", "RSA PARAM D"]
def elgPub : List String := ["ELGAMAL PARAM P", "ELGAMAL PARAM G", "ELGAMAL PARAM B"]
def elgPriv : List String := ["ELGAMAL PARAM P", "ELGAMAL PARAM D"]

def kind : Cipher → Kind
  | .arc4 | .seal => .stream
  | .rabbit | .salsa20 => .nonced 8
  | .chacha20 => .nonced 12
  | .aes128 | .aes192 | .aes256 | .camellia | .mars128 | .mars192 | .mars256 | .serpent | .twofish128 | .twofish192
  | .twofish256 | .noekeon | .noekeond | .rc6128 | .rc6192 | .rc6256 => .block 16 true
  | .des | .tdes | .tdesede | .idea | .rc2 | .rc5 | .feal | .cast5 | .saferk64 | .blowfish | .tea | .xtea | .misty1
  | .present | .gostds | .gost => .block 8 false
  | .shacal1 => .block 20 false
  | .shacal2 => .block 32 false
  | .rsa => .publicKey rsaPub rsaPriv false
  | .rsaoaep => .publicKey rsaPub rsaPriv true
  | .elgamal => .publicKey elgPub elgPriv false
  | .elgamaloaep => .publicKey elgPub elgPriv true
  | .rsaemsapss | .dsa | .ecdsa => .signature
  | .invalid => .nothing

/-- There is some data. -/
def Given (b : Option Bytes) : Prop := ∃ x, b = some x ∧ x ≠ []

/-- The key has data under the headers. -/
def Has (key : Option Bytes) (headers : List String) : Prop :=
  ∀ h ∈ headers, ∃ d, Pem.getData (some (ascii h)) key = .ok (some d)

/-- The requirements on a cipher task, by the kind of its cipher. -/
def Wants (t : Task) : Kind → Prop
  | .stream => True
  | .nonced n => (t.iv = false ∧ t.ivSize = 0) ∨ (t.iv = true ∧ t.ivSize = n)
  | .block n gcm =>
    t.mode ≠ .nr ∧ (t.mode = .gcm → gcm = true) ∧ (t.mode = .ecb ∨ (t.iv = true ∧ t.ivSize = n)) ∧
    (t.action = .encrypt ∨ t.action = .decrypt ∨ t.action = .encryptWithoutRandomPad) ∧
    ((t.cipher = .noekeon ∨ t.cipher = .noekeond) → ∀ k, t.key = some k → k.length ≤ 16)
  | .publicKey pub priv oaep =>
    ((t.action = .encrypt ∧ Has t.key pub) ∨ (t.action = .decrypt ∧ Has t.key priv)) ∧
    (oaep = true → (t.args 0 = t.args 1 ∧ t.args 2 = t.args 3))
  | .signature => False
  | .nothing => False

/-- A well-formed cipher task. -/
def WellFormed (t : Task) : Prop := Given t.key ∧ Given t.inp ∧ Wants t (kind t.cipher)

/-- The tasks the check treats as documented. -/
structure Plain (t : Task) : Prop where
  sign : t.cipher ≠ .rsaemsapss ∧ t.cipher ≠ .dsa ∧ t.cipher ≠ .ecdsa
  rabbit : t.cipher = .rabbit → t.ivSize ≠ 0 → t.iv = true
  gcm : t.mode = .gcm → kind t.cipher ≠ .block 8 false ∧ kind t.cipher ≠ .block 20 false ∧ kind t.cipher ≠ .block 32 false
  pk : (t.cipher = .rsa ∨ t.cipher = .rsaoaep ∨ t.cipher = .elgamal ∨ t.cipher = .elgamaloaep) →
    t.action ≠ .encryptWithoutRandomPad
  oaep : t.cipher = .elgamaloaep → t.mode = .ecb ∨ t.mode = .nr

/-! ## The check piece by piece -/

theorem missing_iff (b : Option Bytes) : missing b = false ↔ Given b := by
  cases b with
  | none => simp [missing, Given]
  | some x => cases x <;> simp [missing, Given]

theorem orElse_none (c : Bool) (r : TaskResult) (s : String) (x : Out Verdict) :
    orElse c r s x = .ok none ↔ c = false ∧ x = .ok none := by
  cases c <;> simp [orElse]

theorem andThen_none (a b : Out Verdict) : andThen a b = .ok none ↔ a = .ok none ∧ b = .ok none := by
  cases a with
  | ub => simp [andThen]
  | ok v => cases v <;> simp [andThen]

theorem orElse_some (c : Bool) (r : TaskResult) (s : String) (x : Out Verdict) (v : TaskResult × String) :
    orElse c r s x = .ok (some v) ↔ (c = true ∧ v = (r, s)) ∨ (c = false ∧ x = .ok (some v)) := by
  cases c <;> simp [orElse, eq_comm]

theorem andThen_some (a b : Out Verdict) (v : TaskResult × String) :
    andThen a b = .ok (some v) ↔ a = .ok (some v) ∨ (a = .ok none ∧ b = .ok (some v)) := by
  cases a with
  | ub => simp [andThen]
  | ok w => cases w <;> simp [andThen]

theorem hasData_iff (h : String) (key : Option Bytes) :
    hasData h key = .ok true ↔ ∃ d, Pem.getData (some (ascii h)) key = .ok (some d) := by
  unfold hasData
  cases hd : Pem.getData (some (ascii h)) key with
  | ub => simp
  | ok d => cases d <;> simp

theorem allData_iff (l : List String) (key : Option Bytes) : allData l key = .ok true ↔ Has key l := by
  induction l with
  | nil => simp [allData, Has]
  | cons h l ih =>
    have hx : Has key (h :: l) ↔ hasData h key = .ok true ∧ Has key l := by
      rw [hasData_iff]; simp [Has]
    rw [hx, ← ih, allData]
    cases hd : hasData h key with
    | ub => simp
    | ok b => cases b <;> simp

theorem verdict_none (x : Out Bool) (v : TaskResult × String) :
    (do let b ← x; return if b then none else some v : Out Verdict) = .ok none ↔ x = .ok true := by
  cases x with
  | ub => simp
  | ok b => cases b <;> simp

theorem has_perm {key : Option Bytes} {l l' : List String} (h : ∀ x, x ∈ l ↔ x ∈ l') : Has key l ↔ Has key l' := by
  simp [Has, h]

theorem rsaParams_none (t : Task) : rsaParams t = .ok none ↔
    Given t.key ∧ (t.action = .encrypt → Has t.key rsaPub) ∧ (t.action ≠ .encrypt → Has t.key rsaPriv) := by
  rw [rsaParams, orElse_none, missing_iff]
  by_cases h : t.action = .encrypt
  · rw [if_pos h, verdict_none, allData_iff, has_perm (l' := rsaPub) (by simp [rsaPub, or_comm])]
    simp [h]
  · rw [if_neg h, verdict_none, allData_iff, has_perm (l' := rsaPriv) (by simp [rsaPriv, or_comm])]
    simp [h]

theorem elgamalParams_none (t : Task) : elgamalParams t = .ok none ↔
    Given t.key ∧ (t.action = .encrypt → Has t.key elgPub) ∧ (t.action = .decrypt → Has t.key elgPriv) := by
  rw [elgamalParams, orElse_none, missing_iff]
  by_cases h : t.action = .encrypt
  · rw [if_pos h, verdict_none, allData_iff, has_perm (l' := elgPub) (by simp [elgPub, or_comm])]
    simp [h]
  · rw [if_neg h]
    by_cases h' : t.action = .decrypt
    · rw [if_pos h', verdict_none, allData_iff, has_perm (l' := elgPriv) (by simp [elgPriv])]
      simp [h']
    · rw [if_neg h']; simp [h, h']

theorem oaepParams_none (t : Task) : oaepParams t = .ok none ↔ t.args 0 = t.args 1 ∧ t.args 2 = t.args 3 := by
  simp only [oaepParams, orElse_none]
  cases t.args 0 <;> cases t.args 1 <;> cases t.args 2 <;> cases t.args 3 <;> simp

theorem longKey_false (t : Task) : longKey t = false ↔
    ((t.cipher = .noekeon ∨ t.cipher = .noekeond) → ∀ k, t.key = some k → k.length ≤ 16) := by
  unfold longKey
  cases t.key with
  | none => simp
  | some k =>
    rw [← not_iff_not]
    simp

theorem check_none (t : Task) : check t = .ok none ↔
    Given t.key ∧ t.cipher ≠ .invalid ∧ badMode t = false ∧
    ((t.cipher = .noekeon ∨ t.cipher = .noekeond) → ∀ k, t.key = some k → k.length ≤ 16) ∧
    badIv t = false ∧ badAction t = false ∧ pkParams t = .ok none ∧ Given t.inp := by
  simp only [check, orElse_none, andThen_none, missing_iff, longKey_false]
  simp

theorem pkParams_none (t : Task) : pkParams t = .ok none ↔
    ((t.cipher = .rsa ∨ t.cipher = .rsaoaep) →
      Given t.key ∧ (t.action = .encrypt → Has t.key rsaPub) ∧ (t.action ≠ .encrypt → Has t.key rsaPriv)) ∧
    ((t.cipher = .elgamal ∨ t.cipher = .elgamaloaep) →
      Given t.key ∧ (t.action = .encrypt → Has t.key elgPub) ∧ (t.action = .decrypt → Has t.key elgPriv)) ∧
    ((t.cipher = .rsaoaep ∨ t.cipher = .elgamaloaep) → t.args 0 = t.args 1 ∧ t.args 2 = t.args 3) := by
  rw [← rsaParams_none, ← elgamalParams_none, ← oaepParams_none, pkParams]
  generalize rsaParams t = a
  generalize elgamalParams t = b
  generalize oaepParams t = c
  by_cases h1 : t.cipher = .rsa
  · simp [h1, andThen_none]
  by_cases h2 : t.cipher = .rsaoaep
  · simp [h2, andThen_none]
  by_cases h3 : t.cipher = .elgamal
  · simp [h3, andThen_none]
  by_cases h4 : t.cipher = .elgamaloaep
  · simp [h4, andThen_none]
  simp [h1, h2, h3, h4]

theorem kind_block {t : Task} {n : Nat} {g : Bool} (h : kind t.cipher = .block n g) :
    t.cipher ≠ .invalid ∧ t.cipher ≠ .arc4 ∧ t.cipher ≠ .seal ∧ t.cipher ≠ .rabbit ∧ t.cipher ≠ .salsa20 ∧
    t.cipher ≠ .chacha20 ∧ t.cipher ≠ .rsa ∧ t.cipher ≠ .rsaoaep ∧ t.cipher ≠ .elgamal ∧ t.cipher ≠ .elgamaloaep ∧
    ivSwitch t = (t.ivSize == n) := by
  unfold ivSwitch
  cases hc : t.cipher <;> rw [hc] at h <;> simp_all [kind]

theorem check_block {t : Task} {n : Nat} {g : Bool} (h : kind t.cipher = .block n g) : check t = .ok none ↔
    Given t.key ∧ Given t.inp ∧ t.mode ≠ .nr ∧ (t.mode = .ecb ∨ (t.iv = true ∧ t.ivSize = n)) ∧
    (t.action = .encrypt ∨ t.action = .decrypt ∨ t.action = .encryptWithoutRandomPad) ∧
    ((t.cipher = .noekeon ∨ t.cipher = .noekeond) → ∀ k, t.key = some k → k.length ≤ 16) := by
  rw [check_none, pkParams_none]
  have hn : n ≠ 0 := by
    intro hn
    subst hn
    cases hc : t.cipher <;> rw [hc] at h <;> simp [kind] at h
  obtain ⟨h0, h1, h2, h3, h4, h5, h6, h7, h8, h9, hi⟩ := kind_block h
  have hm : badMode t = false ↔ t.mode ≠ .nr := by
    cases hm : t.mode <;> simp [badMode, *]
  have hiv : ivData t = (t.iv && t.ivSize == n) := by
    rw [ivData, hi]
    clear h hm
    by_cases hs : t.ivSize = 0
    · rw [hs]
      have : (0 == n) = false := by simp; omega
      cases t.iv <;> simp [h3, h4, h5, this]
    · cases t.iv <;> simp [h3, h4, h5, hs]
  have hv : t.mode ≠ .nr → (badIv t = false ↔ (t.mode = .ecb ∨ (t.iv = true ∧ t.ivSize = n))) := by
    intro hnr
    rw [badIv, hiv]
    cases hm : t.mode <;> simp_all
  have ha : badAction t = false ↔
      (t.action = .encrypt ∨ t.action = .decrypt ∨ t.action = .encryptWithoutRandomPad) := by
    cases ha : t.action <;> simp [badAction, *]
  rw [hm, ha]
  by_cases hnr : t.mode = .nr
  · simp [hnr]
  · rw [hv hnr]
    simp only [h0, h6, h7, h8, h9, ne_eq, not_false_eq_true, or_self, false_implies, true_and, and_true]
    constructor
    · rintro ⟨a, b, c, d, e, f⟩; exact ⟨a, f, b, d, e, c⟩
    · rintro ⟨a, f, b, d, e, c⟩; exact ⟨a, b, c, d, e, f⟩

theorem check_nonced {t : Task} {n : Nat} (h : kind t.cipher = .nonced n) : check t = .ok none ↔
    Given t.key ∧ Given t.inp ∧ ((t.iv = false ∧ t.ivSize = 0) ∨ (t.iv = true ∧ t.ivSize = n) ∨
      (t.cipher = .rabbit ∧ t.ivSize = 8)) := by
  rw [check_none, pkParams_none]
  have hc : t.cipher = .rabbit ∨ t.cipher = .salsa20 ∨ t.cipher = .chacha20 := by
    cases hc : t.cipher <;> rw [hc] at h <;> simp_all [kind]
  have hn : ivSwitch t = true ↔ ((t.iv = false ∧ t.ivSize = 0) ∨ (t.iv = true ∧ t.ivSize = n) ∨
      (t.cipher = .rabbit ∧ t.ivSize = 8)) := by
    rcases hc with hc | hc | hc <;> rw [hc] at h <;> simp only [kind, Kind.nonced.injEq] at h <;> subst h <;>
      cases hv : t.iv <;> simp [ivSwitch, hc, hv]
  rw [← hn]
  rcases hc with hc | hc | hc <;> simp [hc, badMode, badIv, badAction, ivData] <;> tauto

theorem check_stream {t : Task} (h : kind t.cipher = .stream) : check t = .ok none ↔ Given t.key ∧ Given t.inp := by
  rw [check_none, pkParams_none]
  have hc : t.cipher = .arc4 ∨ t.cipher = .seal := by
    cases hc : t.cipher <;> rw [hc] at h <;> simp_all [kind]
  rcases hc with hc | hc <;> simp [hc, badMode, badIv, badAction]

theorem badAction_pk {t : Task} (h : t.cipher = .rsa ∨ t.cipher = .rsaoaep ∨ t.cipher = .elgamal ∨ t.cipher = .elgamaloaep) :
    badAction t = false ↔ (t.action = .encrypt ∨ t.action = .decrypt ∨ t.action = .encryptWithoutRandomPad) := by
  cases ha : t.action <;> rcases h with hc | hc | hc | hc <;> simp [badAction, ha, hc]

theorem badMode_pk {t : Task} (h : t.cipher = .rsa ∨ t.cipher = .rsaoaep ∨ t.cipher = .elgamal ∨ t.cipher = .elgamaloaep) :
    badMode t = false := by
  rcases h with hc | hc | hc | hc <;> simp [badMode, hc]

theorem badIv_pk {t : Task} (h : t.cipher = .rsa ∨ t.cipher = .rsaoaep ∨ t.cipher = .elgamal ∨ t.cipher = .elgamaloaep) :
    badIv t = false ↔ (t.cipher = .elgamaloaep → t.mode = .ecb ∨ t.mode = .nr) := by
  rcases h with hc | hc | hc | hc <;> cases hm : t.mode <;> simp [badIv, ivData, ivSwitch, hc, hm]

theorem check_pk {t : Task} {pub priv : List String} {o : Bool} (h : kind t.cipher = .publicKey pub priv o)
    (ha : t.action ≠ .encryptWithoutRandomPad) : check t = .ok none ↔
    Given t.key ∧ Given t.inp ∧ (t.cipher = .elgamaloaep → t.mode = .ecb ∨ t.mode = .nr) ∧
    ((t.action = .encrypt ∧ Has t.key pub) ∨ (t.action = .decrypt ∧ Has t.key priv)) ∧
    (o = true → (t.args 0 = t.args 1 ∧ t.args 2 = t.args 3)) := by
  have hc : t.cipher = .rsa ∨ t.cipher = .rsaoaep ∨ t.cipher = .elgamal ∨ t.cipher = .elgamaloaep := by
    cases hc : t.cipher <;> rw [hc] at h <;> simp_all [kind]
  rw [check_none, pkParams_none, badAction_pk hc, badMode_pk hc, badIv_pk hc]
  rcases hc with hc | hc | hc | hc <;> rw [hc] at h <;>
    simp only [kind, Kind.publicKey.injEq] at h <;> obtain ⟨rfl, rfl, rfl⟩ := h <;>
    cases h' : t.action <;> simp_all <;> tauto

/-! ## The theorems -/

/-- The check passes exactly for the well-formed tasks among the plain ones. -/
theorem check_iff_partial (t : Task) (hp : Plain t) : check t = .ok none ↔ WellFormed t := by
  obtain ⟨p1, p2, p3, p4, p5⟩ := hp
  rw [WellFormed]
  cases hk : kind t.cipher with
  | stream => rw [check_stream hk]; simp [Wants]
  | nonced n =>
    rw [check_nonced hk, Wants]
    have : (t.cipher = .rabbit ∧ t.ivSize = 8) → (t.iv = true ∧ t.ivSize = n) := by
      rintro ⟨hc, hs⟩
      rw [hc] at hk
      simp only [kind, Kind.nonced.injEq] at hk
      exact ⟨p2 hc (by omega), by omega⟩
    constructor
    · rintro ⟨a, b, c | c | c⟩
      · exact ⟨a, b, .inl c⟩
      · exact ⟨a, b, .inr c⟩
      · exact ⟨a, b, .inr (this c)⟩
    · rintro ⟨a, b, c | c⟩
      · exact ⟨a, b, .inl c⟩
      · exact ⟨a, b, .inr (.inl c)⟩
  | block n g =>
    rw [check_block hk, Wants]
    have hg : t.mode = .gcm → g = true := by
      intro hm
      have := p3 hm
      rw [hk] at this
      have h' : Kind.block n g = .block 8 false ∨ Kind.block n g = .block 20 false ∨ Kind.block n g = .block 32 false ∨
          g = true := by
        rw [← hk]
        cases hc : t.cipher <;> rw [hc] at hk <;> simp_all [kind]
      rcases h' with h' | h' | h' | h'
      · exact absurd h' this.1
      · exact absurd h' this.2.1
      · exact absurd h' this.2.2
      · exact h'
    constructor
    · rintro ⟨a, b, c, d⟩; exact ⟨a, b, c, hg, d⟩
    · rintro ⟨a, b, c, -, d⟩; exact ⟨a, b, c, d⟩
  | publicKey a b o =>
    have hc : t.cipher = .rsa ∨ t.cipher = .rsaoaep ∨ t.cipher = .elgamal ∨ t.cipher = .elgamaloaep := by
      cases hc : t.cipher <;> rw [hc] at hk <;> simp_all [kind]
    rw [check_pk hk (p4 hc), Wants]
    constructor
    · rintro ⟨a, b, -, c⟩; exact ⟨a, b, c⟩
    · rintro ⟨a, b, c⟩; exact ⟨a, b, p5, c⟩
  | signature =>
    exfalso
    cases hc : t.cipher <;> rw [hc] at hk p1 <;> simp_all [kind]
  | nothing =>
    have hc : t.cipher = .invalid := by
      cases hc : t.cipher <;> rw [hc] at hk <;> simp_all [kind]
    rw [check_none]
    simp [hc, Wants]

/-- Well-formed tasks pass, except for ElGamal-OAEP when the mode, which means nothing to it, is one with an iv. -/
theorem check_accepts (t : Task) (h : WellFormed t) (hm : t.cipher = .elgamaloaep → t.mode = .ecb ∨ t.mode = .nr) :
    check t = .ok none := by
  refine (check_iff_partial t ?_).2 h
  obtain ⟨-, -, hw⟩ := h
  refine ⟨?_, ?_, ?_, ?_, hm⟩
  · refine ⟨?_, ?_, ?_⟩ <;> intro hc <;> simp [hc, kind, Wants] at hw
  · intro hc
    simp only [hc, kind, Wants] at hw
    tauto
  · intro hg
    refine ⟨?_, ?_, ?_⟩ <;> intro hc <;> rw [hc] at hw <;> simp [Wants, hg] at hw
  · rintro (hc | hc | hc | hc) <;> simp only [hc, kind, Wants] at hw <;> rcases hw with ⟨⟨h, -⟩ | ⟨h, -⟩, -⟩ <;> simp [h]

/-- What a refusal says about a task. -/
inductive Violates (t : Task) : TaskResult → String → Prop
  | key : ¬ Given t.key → Violates t .invalidParams "Invalid key data."
  | cipher : t.cipher = .invalid → Violates t .invalidCipher "Invalid cipher."
  | mode {n g} : kind t.cipher = .block n g → t.mode = .nr → Violates t .invalidParams "Invalid operation mode."
  | long {k} : (t.cipher = .noekeon ∨ t.cipher = .noekeond) → t.key = some k → 16 < k.length →
      Violates t .keyError "NOEKEON requires a 128-bit key as its maximum key size."
  | iv {n g} : kind t.cipher = .block n g → t.mode ≠ .ecb → ¬ (t.iv = true ∧ t.ivSize = n) →
      Violates t .invalidParams "Invalid iv data."
  | nonce {n} : kind t.cipher = .nonced n → ¬ (t.iv = false ∧ t.ivSize = 0) → ¬ (t.iv = true ∧ t.ivSize = n) →
      Violates t .invalidParams "Invalid iv data."
  | action : t.action ≠ .encrypt → t.action ≠ .decrypt → t.action ≠ .encryptWithoutRandomPad →
      kind t.cipher ≠ .stream → (∀ n, kind t.cipher ≠ .nonced n) → Violates t .invalidParams "Invalid task action."
  | rsaPub {b} : kind t.cipher = .publicKey rsaPub rsaPriv b → t.action = .encrypt → ¬ Has t.key rsaPub →
      Violates t .keyError "RSA public key not supplied."
  | rsaPriv {b} : kind t.cipher = .publicKey rsaPub rsaPriv b → t.action ≠ .encrypt → ¬ Has t.key rsaPriv →
      Violates t .keyError "RSA private key not supplied."
  | elgPub {b} : kind t.cipher = .publicKey elgPub elgPriv b → t.action = .encrypt → ¬ Has t.key elgPub →
      Violates t .keyError "ELGAMAL public key not supplied."
  | elgPriv {b} : kind t.cipher = .publicKey elgPub elgPriv b → t.action = .decrypt → ¬ Has t.key elgPriv →
      Violates t .keyError "ELGAMAL private key not supplied."
  | label0 : t.args 0 = false → t.args 1 = true → (∃ a b, kind t.cipher = .publicKey a b true) →
      Violates t .invalidParams "Label token indicated as null but with size greater than zero."
  | label1 : t.args 0 = true → t.args 1 = false → (∃ a b, kind t.cipher = .publicKey a b true) →
      Violates t .invalidParams "Label token indicated as non-null but with size equals to zero."
  | hash0 : t.args 2 = false → t.args 3 = true → (∃ a b, kind t.cipher = .publicKey a b true) →
      Violates t .invalidParams "Hash function indicated as null but Hash_size function is non-null."
  | hash1 : t.args 2 = true → t.args 3 = false → (∃ a b, kind t.cipher = .publicKey a b true) →
      Violates t .invalidParams "Hash function indicated as non-null but Hash_size function is null."
  | input : ¬ Given t.inp → Violates t .invalidParams "No input."

theorem verdict_some (x : Out Bool) (v w : TaskResult × String) :
    (do let b ← x; return if b then none else some v : Out Verdict) = .ok (some w) ↔ x = .ok false ∧ w = v := by
  cases x with
  | ub => simp
  | ok b => cases b <;> simp [eq_comm]

theorem allData_false {l : List String} {key : Option Bytes} (h : allData l key = .ok false) : ¬ Has key l := by
  rw [← allData_iff, h]
  simp

theorem rsaParams_some {t : Task} {r : TaskResult} {s : String} {b : Bool}
    (hk : kind t.cipher = .publicKey rsaPub rsaPriv b) (hg : Given t.key)
    (h : rsaParams t = .ok (some (r, s))) : Violates t r s := by
  rw [rsaParams, orElse_some, (missing_iff _).2 hg] at h
  rcases h with ⟨h, -⟩ | ⟨-, h⟩
  · cases h
  by_cases ha : t.action = .encrypt
  · rw [if_pos ha, verdict_some] at h
    obtain ⟨h, hv⟩ := h
    cases hv
    have := allData_false h
    rw [has_perm (l' := TaskCheck.rsaPub) (by simp [TaskCheck.rsaPub, or_comm])] at this
    exact .rsaPub hk ha this
  · rw [if_neg ha, verdict_some] at h
    obtain ⟨h, hv⟩ := h
    cases hv
    have := allData_false h
    rw [has_perm (l' := TaskCheck.rsaPriv) (by simp [TaskCheck.rsaPriv, or_comm])] at this
    exact .rsaPriv hk ha this

theorem elgamalParams_some {t : Task} {r : TaskResult} {s : String} {b : Bool}
    (hk : kind t.cipher = .publicKey elgPub elgPriv b) (hg : Given t.key)
    (h : elgamalParams t = .ok (some (r, s))) : Violates t r s := by
  rw [elgamalParams, orElse_some, (missing_iff _).2 hg] at h
  rcases h with ⟨h, -⟩ | ⟨-, h⟩
  · cases h
  by_cases ha : t.action = .encrypt
  · rw [if_pos ha, verdict_some] at h
    obtain ⟨h, hv⟩ := h
    cases hv
    have := allData_false h
    rw [has_perm (l' := TaskCheck.elgPub) (by simp [TaskCheck.elgPub, or_comm])] at this
    exact .elgPub hk ha this
  · rw [if_neg ha] at h
    by_cases ha' : t.action = .decrypt
    · rw [if_pos ha', verdict_some] at h
      obtain ⟨h, hv⟩ := h
      cases hv
      exact .elgPriv hk ha' (allData_false h)
    · rw [if_neg ha'] at h
      simp at h

theorem oaepParams_some {t : Task} {r : TaskResult} {s : String} (hk : ∃ a b, kind t.cipher = .publicKey a b true)
    (h : oaepParams t = .ok (some (r, s))) : Violates t r s := by
  simp only [oaepParams, orElse_some, Bool.and_eq_true, Bool.not_eq_true', Prod.mk.injEq, Out.ok.injEq, reduceCtorEq,
    and_false, or_false] at h
  rcases h with ⟨⟨a, b⟩, rfl, rfl⟩ | ⟨-, ⟨⟨a, b⟩, rfl, rfl⟩ | ⟨-, ⟨⟨a, b⟩, rfl, rfl⟩ | ⟨-, ⟨a, b⟩, rfl, rfl⟩⟩⟩
  · exact .label0 a b hk
  · exact .label1 a b hk
  · exact .hash0 a b hk
  · exact .hash1 a b hk

theorem pkParams_some {t : Task} {r : TaskResult} {s : String} (hg : Given t.key)
    (h : pkParams t = .ok (some (r, s))) : Violates t r s := by
  rw [pkParams] at h
  split at h
  next hc =>
    obtain ⟨b, hk⟩ : ∃ b, kind t.cipher = .publicKey rsaPub rsaPriv b := by
      rcases hc with hc | hc <;> simp [hc, kind]
    rw [andThen_some] at h
    rcases h with h | ⟨-, h⟩
    · exact rsaParams_some hk hg h
    · split at h
      next hc => exact oaepParams_some (by simp [hc, kind]) h
      next => simp at h
  next =>
    split at h
    next hc =>
      obtain ⟨b, hk⟩ : ∃ b, kind t.cipher = .publicKey elgPub elgPriv b := by
        rcases hc with hc | hc <;> simp [hc, kind]
      rw [andThen_some] at h
      rcases h with h | ⟨-, h⟩
      · exact elgamalParams_some hk hg h
      · split at h
        next hc => exact oaepParams_some (by simp [hc, kind]) h
        next => simp at h
    next => simp at h

theorem badMode_true {t : Task} (h : badMode t = true) (hs : kind t.cipher ≠ .signature) (hc : t.cipher ≠ .invalid) :
    ∃ n g, kind t.cipher = .block n g ∧ t.mode = .nr := by
  have hm : t.mode = .nr := by
    cases hm : t.mode <;> simp [badMode, hm] at h ⊢
  simp only [badMode, hm] at h
  cases hx : t.cipher <;> rw [hx] at hs hc h <;> simp [kind] at hs hc h ⊢ <;> exact hm

theorem badIv_true {t : Task} (h : badIv t = true) (hs : kind t.cipher ≠ .signature) (hc : t.cipher ≠ .invalid)
    (hm : t.cipher = .elgamaloaep → t.mode = .ecb ∨ t.mode = .nr) : Violates t .invalidParams "Invalid iv data." := by
  cases hk : kind t.cipher with
  | signature => exact absurd hk hs
  | nothing => cases hx : t.cipher <;> rw [hx] at hk hc <;> simp [kind] at hk hc
  | stream =>
    have hx : t.cipher = .arc4 ∨ t.cipher = .seal := by
      cases hx : t.cipher <;> rw [hx] at hk <;> simp_all [kind]
    rcases hx with hx | hx <;> simp [badIv, hx] at h
  | publicKey a b o =>
    have hx : t.cipher = .rsa ∨ t.cipher = .rsaoaep ∨ t.cipher = .elgamal ∨ t.cipher = .elgamaloaep := by
      cases hx : t.cipher <;> rw [hx] at hk <;> simp_all [kind]
    rw [(badIv_pk hx).2 hm] at h
    cases h
  | nonced n =>
    have hx : t.cipher = .rabbit ∨ t.cipher = .salsa20 ∨ t.cipher = .chacha20 := by
      cases hx : t.cipher <;> rw [hx] at hk <;> simp_all [kind]
    have hv : ivSwitch t = false := by
      rcases hx with hx | hx | hx <;> simpa [badIv, ivData, hx] using h
    refine .nonce hk ?_ ?_
    · rintro ⟨a, b⟩
      rcases hx with hx | hx | hx <;> simp [ivSwitch, hx, a, b] at hv
    · rintro ⟨a, b⟩
      rcases hx with hx | hx | hx <;> rw [hx] at hk <;> simp only [kind, Kind.nonced.injEq] at hk <;>
        simp [ivSwitch, hx, a, b, ← hk] at hv
  | block n g =>
    refine .iv hk ?_ ?_
    · intro he
      obtain ⟨h0, h1, h2, h3, h4, h5, h6, h7, h8, h9, hi⟩ := kind_block hk
      simp [badIv, he, h3, h4, h5] at h
    · rintro ⟨ha, hb⟩
      have hn : n ≠ 0 := by
        intro hn
        subst hn
        cases hc : t.cipher <;> rw [hc] at hk <;> simp [kind] at hk
      have hv : ivData t = true := by
        rw [ivData, (kind_block hk).2.2.2.2.2.2.2.2.2.2]
        simp [ha, hb, hn]
      simp [badIv, hv] at h

/-- A refusal names a requirement which the task does violate (the checks of the public key ciphers apart from the one above). -/
theorem check_reason (t : Task) (r : TaskResult) (s : String) (h : check t = .ok (some (r, s)))
    (hs : kind t.cipher ≠ .signature) (hm : t.cipher = .elgamaloaep → t.mode = .ecb ∨ t.mode = .nr) :
    Violates t r s := by
  simp only [check, orElse_some, andThen_some, Prod.mk.injEq, reduceCtorEq, Out.ok.injEq, and_false, or_false] at h
  rcases h with ⟨h, rfl, rfl⟩ | ⟨hk, h⟩
  · exact .key (by rw [← missing_iff, h]; simp)
  rcases h with ⟨h, rfl, rfl⟩ | ⟨hc, h⟩
  · exact .cipher (by simpa using h)
  have hg := (missing_iff _).1 hk
  have hc' : t.cipher ≠ .invalid := by simpa using hc
  rcases h with ⟨h, rfl, rfl⟩ | ⟨hb, h⟩
  · obtain ⟨n, g, hk, hm⟩ := badMode_true h hs hc'
    exact .mode hk hm
  rcases h with ⟨h, rfl, rfl⟩ | ⟨-, h⟩
  · have hl := h
    rw [longKey] at hl
    simp only [Bool.and_eq_true, Bool.or_eq_true, beq_iff_eq] at hl
    obtain ⟨hl, hl'⟩ := hl
    cases hx : t.key with
    | none => simp [hx] at hl'
    | some k =>
      rw [hx] at hl'
      exact .long hl hx (by simpa using hl')
  rcases h with ⟨h, rfl, rfl⟩ | ⟨-, h⟩
  · exact badIv_true h hs hc' hm
  rcases h with ⟨h, rfl, rfl⟩ | ⟨-, h⟩
  · have hx := h
    simp only [badAction, Bool.and_eq_true, bne_iff_ne, ne_eq] at hx
    obtain ⟨⟨⟨⟨⟨⟨⟨a, b⟩, c⟩, d⟩, e⟩, f⟩, g⟩, i⟩ := hx
    refine .action f g i ?_ ?_
    · intro hk
      cases hx : t.cipher <;> rw [hx] at hk a b c d e <;> simp_all [kind]
    · intro n hk
      cases hx : t.cipher <;> rw [hx] at hk a b c d e <;> simp_all [kind]
  rcases h with h | ⟨-, h, rfl, rfl⟩
  · exact pkParams_some hg h
  · exact .input (by rw [← missing_iff, h]; simp)

/-- A task for which a refusal is right is not well-formed. -/
theorem violates_not_wellFormed (t : Task) (r : TaskResult) (s : String) (h : Violates t r s) : ¬ WellFormed t := by
  rintro ⟨hk, hi, hw⟩
  cases h with
  | key h => exact h hk
  | cipher h => simp [h, kind, Wants] at hw
  | mode h hm => rw [h, Wants] at hw; exact hw.1 hm
  | long h h' hl =>
    have : ∃ n g, kind t.cipher = .block n g := by rcases h with h | h <;> simp [h, kind]
    obtain ⟨n, g, hx⟩ := this
    rw [hx, Wants] at hw
    have := hw.2.2.2.2 h _ h'
    omega
  | iv h hm hn => rw [h, Wants] at hw; rcases hw.2.2.1 with h | h; exacts [hm h, hn h]
  | nonce h h1 h2 => rw [h, Wants] at hw; rcases hw with h | h; exacts [h1 h, h2 h]
  | action h1 h2 h3 h4 h5 =>
    cases hx : kind t.cipher with
    | stream => exact h4 hx
    | nonced n => exact h5 n hx
    | block n g => rw [hx, Wants] at hw; rcases hw.2.2.2.1 with h | h | h; exacts [h1 h, h2 h, h3 h]
    | publicKey a b o => rw [hx, Wants] at hw; rcases hw.1 with h | h; exacts [h1 h.1, h2 h.1]
    | signature => rw [hx, Wants] at hw; exact hw
    | nothing => rw [hx, Wants] at hw; exact hw
  | rsaPub h h1 h2 => rw [h, Wants] at hw; rcases hw.1 with h | h; exacts [h2 h.2, by simp [h1] at h]
  | rsaPriv h h1 h2 => rw [h, Wants] at hw; rcases hw.1 with h | h; exacts [h1 h.1, h2 h.2]
  | elgPub h h1 h2 => rw [h, Wants] at hw; rcases hw.1 with h | h; exacts [h2 h.2, by simp [h1] at h]
  | elgPriv h h1 h2 => rw [h, Wants] at hw; rcases hw.1 with h | h; exacts [by simp [h1] at h, h2 h.2]
  | label0 h0 h1 h => obtain ⟨a, b, h⟩ := h; rw [h, Wants] at hw; have := (hw.2 rfl).1; simp [h0, h1] at this
  | label1 h0 h1 h => obtain ⟨a, b, h⟩ := h; rw [h, Wants] at hw; have := (hw.2 rfl).1; simp [h0, h1] at this
  | hash0 h0 h1 h => obtain ⟨a, b, h⟩ := h; rw [h, Wants] at hw; have := (hw.2 rfl).2; simp [h0, h1] at this
  | hash1 h0 h1 h => obtain ⟨a, b, h⟩ := h; rw [h, Wants] at hw; have := (hw.2 rfl).2; simp [h0, h1] at this
  | input h => exact h hi

theorem allData_defined (l : List String) (key : Option Bytes)
    (h : ∀ x ∈ l, Pem.getData (some (ascii x)) key ≠ .ub) : allData l key ≠ .ub := by
  induction l with
  | nil => simp [allData]
  | cons a l ih =>
    have ha := h a (by simp)
    have := ih (fun x hx => h x (by simp [hx]))
    rw [allData, hasData]
    cases hd : Pem.getData (some (ascii a)) key with
    | ub => exact absurd hd ha
    | ok d => cases d <;> simp [this]

/-- The check is defined for every task of a symmetric cipher, and for a public key cipher whenever the lookups of its parameters
in the key are. -/
theorem check_defined (t : Task)
    (h : ∀ a b o, kind t.cipher = .publicKey a b o → ∀ x ∈ a ++ b, Pem.getData (some (ascii x)) t.key ≠ .ub) :
    ∃ v, check t = .ok v := by
  have ho : ∀ (c : Bool) r s (x : Out Verdict), x ≠ .ub → orElse c r s x ≠ .ub := by
    intro c r s x hx
    cases c <;> simp [orElse, hx]
  have hv : ∀ (x : Out Bool) (v : TaskResult × String), x ≠ .ub →
      (do let b ← x; return if b then none else some v : Out Verdict) ≠ .ub := by
    intro x v hx
    cases x with
    | ub => exact absurd rfl hx
    | ok b => simp
  have ht : ∀ a b : Out Verdict, a ≠ .ub → b ≠ .ub → andThen a b ≠ .ub := by
    intro a b ha hb
    cases a with
    | ub => exact absurd rfl ha
    | ok v => cases v <;> simp [andThen, hb]
  have hoa : oaepParams t ≠ .ub := ho _ _ _ _ (ho _ _ _ _ (ho _ _ _ _ (ho _ _ _ _ (by simp))))
  have hp : pkParams t ≠ .ub := by
    rw [pkParams]
    split
    next hc =>
      obtain ⟨b, hk⟩ : ∃ b, kind t.cipher = .publicKey rsaPub rsaPriv b := by
        rcases hc with hc | hc <;> simp [hc, kind]
      have hd := h _ _ _ hk
      refine ht _ _ (ho _ _ _ _ ?_) (by split; exacts [hoa, by simp])
      split
      · exact hv _ _ (allData_defined _ _ (fun x hx => hd x (by
          simp [rsaPub, rsaPriv] at hx ⊢; tauto)))
      · exact hv _ _ (allData_defined _ _ (fun x hx => hd x (by
          simp [rsaPub, rsaPriv] at hx ⊢; tauto)))
    next =>
      split
      next hc =>
        obtain ⟨b, hk⟩ : ∃ b, kind t.cipher = .publicKey elgPub elgPriv b := by
          rcases hc with hc | hc <;> simp [hc, kind]
        have hd := h _ _ _ hk
        refine ht _ _ (ho _ _ _ _ ?_) (by split; exacts [hoa, by simp])
        split
        · exact hv _ _ (allData_defined _ _ (fun x hx => hd x (by
            simp [elgPub, elgPriv] at hx ⊢; tauto)))
        · split
          · exact hv _ _ (allData_defined _ _ (fun x hx => hd x (by
              simp [elgPub, elgPriv] at hx ⊢; tauto)))
          · simp
      next => simp
  have hc : check t ≠ .ub :=
    ho _ _ _ _ (ho _ _ _ _ (ho _ _ _ _ (ho _ _ _ _ (ho _ _ _ _ (ho _ _ _ _ (ht _ _ hp (ho _ _ _ _ (by simp))))))))
  cases hx : check t with
  | ub => exact absurd hx hc
  | ok v => exact ⟨v, rfl⟩

/-! ## The exclusions are necessary -/

/-- A block cipher task to start with. -/
def sample : Task :=
  { cipher := .aes128, mode := .cbc, action := .encrypt, key := some [1, 2, 3], iv := true, ivSize := 16, inp := some [7],
    args := fun _ => false }

def rsaKey : Bytes :=
  ascii "-----BEGIN RSA PARAM N-----\nIQ==\n-----END RSA PARAM N-----\n-----BEGIN RSA PARAM E-----\nAw==\n-----END RSA PARAM E-----\n"

def elgKey : Bytes :=
  ascii "-----BEGIN ELGAMAL PARAM P-----\nFw==\n-----END ELGAMAL PARAM P-----\n-----BEGIN ELGAMAL PARAM D-----\nAw==\n-----END ELGAMAL PARAM D-----\n"

/-- Cases of the theorems: accepted block, stream and public key tasks, and refused ones. -/
example : check sample = .ok none ∧
    check { sample with cipher := .chacha20, ivSize := 12, mode := .nr, action := .nr } = .ok none ∧
    check { sample with cipher := .rsa, key := some rsaKey } = .ok none ∧
    check { sample with cipher := .rsaoaep, key := some rsaKey, args := fun i => i == 2 } =
      .ok (some (.invalidParams, "Hash function indicated as non-null but Hash_size function is null.")) ∧
    check { sample with cipher := .rsa, key := some rsaKey, action := .decrypt } =
      .ok (some (.keyError, "RSA private key not supplied.")) ∧
    check { sample with ivSize := 8 } = .ok (some (.invalidParams, "Invalid iv data.")) ∧
    check { sample with inp := some [] } = .ok (some (.invalidParams, "No input.")) := by
  decide +kernel

example : Plain sample := by
  constructor <;> simp [sample, kind]

example : WellFormed sample := by
  refine ⟨⟨_, rfl, by simp⟩, ⟨_, rfl, by simp⟩, ?_⟩
  simp [sample, kind, Wants]

/-- C55 does not hold: a signature scheme passes as a cipher; a nonce of eight bytes at `NULL` passes; GCM passes for a cipher
without it; ElGamal passes with any key when the action is the third one, and RSA asks for a private key to encrypt; and a
well-formed task of ElGamal-OAEP is refused for the iv of a mode it does not have. -/
theorem check_fails :
    (check { sample with cipher := .ecdsa, mode := .ecb } = .ok none ∧
      ¬ WellFormed { sample with cipher := .ecdsa, mode := .ecb }) ∧
    (check { sample with cipher := .rabbit, iv := false, ivSize := 8 } = .ok none ∧
      ¬ WellFormed { sample with cipher := .rabbit, iv := false, ivSize := 8 }) ∧
    (check { sample with cipher := .des, mode := .gcm, ivSize := 8 } = .ok none ∧
      ¬ WellFormed { sample with cipher := .des, mode := .gcm, ivSize := 8 }) ∧
    (check { sample with cipher := .elgamal, action := .encryptWithoutRandomPad } = .ok none ∧
      ¬ WellFormed { sample with cipher := .elgamal, action := .encryptWithoutRandomPad }) ∧
    check { sample with cipher := .rsa, action := .encryptWithoutRandomPad, key := some rsaKey } =
      .ok (some (.keyError, "RSA private key not supplied.")) ∧
    (check { sample with cipher := .elgamaloaep, action := .decrypt, key := some elgKey } =
        .ok (some (.invalidParams, "Invalid iv data.")) ∧
      WellFormed { sample with cipher := .elgamaloaep, action := .decrypt, key := some elgKey }) := by
  refine ⟨⟨by decide +kernel, ?_⟩, ⟨by decide +kernel, ?_⟩, ⟨by decide +kernel, ?_⟩, ⟨by decide +kernel, ?_⟩,
    by decide +kernel, by decide +kernel, ?_⟩
  · simp [WellFormed, kind, Wants]
  · simp [WellFormed, kind, Wants, sample]
  · simp [WellFormed, kind, Wants, sample]
  · simp [WellFormed, kind, Wants, sample]
  · refine ⟨⟨elgKey, rfl, by decide +kernel⟩, ⟨_, rfl, by simp⟩, .inr ⟨rfl, ?_⟩, fun _ => ⟨rfl, rfl⟩⟩
    intro h hh
    simp only [elgPriv, List.mem_cons, List.not_mem_nil, or_false] at hh
    rcases hh with rfl | rfl
    · exact ⟨[0x17], by decide +kernel⟩
    · exact ⟨[0x03], by decide +kernel⟩

/-- The check of a public key task is undefined for keys which are not well-formed. -/
theorem check_unsafe :
    check { sample with cipher := .rsa, key := some (ascii "-----BEGIN RSA PARAM E-----\nAw==\n") } = .ub := by
  decide +kernel

/-! ## Signatures -/

/-- The parameters needed to sign and to verify: those which must not be empty, and others. -/
def signNeeds : Cipher → Option ((List String × List String) × (List String × List String))
  | .rsa | .rsaemsapss => some ((["RSA PARAM N", "RSA PARAM D"], []), (["RSA PARAM N", "RSA PARAM E"], []))
  | .dsa => some ((["DSA P", "DSA Q", "DSA G"], ["DSA D"]), (["DSA P", "DSA Q", "DSA G"], ["DSA E"]))
  | .ecdsa =>
    let dom := ["ECDSA P", "ECDSA A", "ECDSA B", "ECDSA Q", "ECDSA A X", "ECDSA A Y"]
    some ((dom, ["ECDSA D"]), (dom ++ ["ECDSA B X", "ECDSA B Y"], []))
  | _ => none

/-- The key has non-empty data under the headers. -/
def HasFull (key : Option Bytes) (headers : List String) : Prop :=
  ∀ h ∈ headers, ∃ d, Pem.getData (some (ascii h)) key = .ok (some d) ∧ d ≠ []

/-- PSS needs a salt size, and a hash only with its size. -/
def PssArgs (t : Task) : Prop := t.cipher = .rsaemsapss → t.args 0 = true ∧ t.args 1 = t.args 2

theorem need_none (h m : String) (t : Task) (x : Out Verdict) :
    need h m t x = .ok none ↔ (∃ d, Pem.getData (some (ascii h)) t.key = .ok (some d) ∧ d ≠ []) ∧ x = .ok none := by
  unfold need hasBytes
  cases hd : Pem.getData (some (ascii h)) t.key with
  | ub => simp
  | ok d =>
    cases d with
    | none => simp [missing]
    | some d => cases d <;> simp [missing]

theorem needData_none (h m : String) (t : Task) (x : Out Verdict) :
    needData h m t x = .ok none ↔ (∃ d, Pem.getData (some (ascii h)) t.key = .ok (some d)) ∧ x = .ok none := by
  unfold needData hasData
  cases hd : Pem.getData (some (ascii h)) t.key with
  | ub => simp
  | ok d => cases d <;> simp

theorem basic_none (t : Task) (x : Out Verdict) :
    basic t x = .ok none ↔ Given t.inp ∧ Given t.key ∧ x = .ok none := by
  rw [basic, orElse_none, orElse_none, missing_iff, missing_iff]

theorem pssParams_none (t : Task) : pssParams t = .ok none ↔ t.args 0 = true ∧ t.args 1 = t.args 2 := by
  simp only [pssParams, orElse_none]
  cases t.args 0 <;> cases t.args 1 <;> cases t.args 2 <;> simp

theorem hasFull_cons (key : Option Bytes) (h : String) (l : List String) : HasFull key (h :: l) ↔
    (∃ d, Pem.getData (some (ascii h)) key = .ok (some d) ∧ d ≠ []) ∧ HasFull key l := by
  simp [HasFull]

theorem has_cons (key : Option Bytes) (h : String) (l : List String) : Has key (h :: l) ↔
    (∃ d, Pem.getData (some (ascii h)) key = .ok (some d)) ∧ Has key l := by
  simp [Has]

theorem signRsa_none (t : Task) (hc : t.cipher = .rsa ∨ t.cipher = .rsaemsapss) : signRsa t = .ok none ↔
    Given t.inp ∧ Given t.key ∧ HasFull t.key ["RSA PARAM N", "RSA PARAM D"] ∧ PssArgs t := by
  rw [signRsa, basic_none, need_none, need_none, hasFull_cons, hasFull_cons, PssArgs]
  have hn : HasFull t.key [] := by simp [HasFull]
  rcases hc with hc | hc
  · simp only [hc, if_true, reduceCtorEq, false_implies, hn, and_true]
    exact ⟨fun ⟨a, b, c, d⟩ => ⟨a, b, d, c⟩, fun ⟨a, b, c, d⟩ => ⟨a, b, d, c⟩⟩
  · simp only [hc, reduceCtorEq, if_false, hn, and_true, forall_const, pssParams_none]
    exact ⟨fun ⟨a, b, c, d, e⟩ => ⟨a, b, ⟨d, c⟩, e⟩, fun ⟨a, b, ⟨c, d⟩, e⟩ => ⟨a, b, d, c, e⟩⟩

theorem verifyRsa_none (t : Task) (hc : t.cipher = .rsa ∨ t.cipher = .rsaemsapss) : verifyRsa t = .ok none ↔
    Given t.inp ∧ Given t.key ∧ HasFull t.key ["RSA PARAM N", "RSA PARAM E"] ∧ PssArgs t := by
  rw [verifyRsa, basic_none, need_none, need_none, hasFull_cons, hasFull_cons, PssArgs]
  have hn : HasFull t.key [] := by simp [HasFull]
  rcases hc with hc | hc
  · simp only [hc, if_true, reduceCtorEq, false_implies, hn, and_true]
    exact ⟨fun ⟨a, b, c, d⟩ => ⟨a, b, d, c⟩, fun ⟨a, b, c, d⟩ => ⟨a, b, d, c⟩⟩
  · simp only [hc, reduceCtorEq, if_false, hn, and_true, forall_const, pssParams_none]
    exact ⟨fun ⟨a, b, c, d, e⟩ => ⟨a, b, ⟨d, c⟩, e⟩, fun ⟨a, b, ⟨c, d⟩, e⟩ => ⟨a, b, d, c, e⟩⟩

/-- The check before signing passes exactly when input and key are there, the key has the parameters of its scheme, and PSS has its
arguments. -/
theorem checkSign_iff (t : Task) : checkSign t = .ok none ↔
    ∃ s v, signNeeds t.cipher = some (s, v) ∧ Given t.inp ∧ Given t.key ∧ HasFull t.key s.1 ∧ Has t.key s.2 ∧ PssArgs t := by
  have hn : HasFull t.key [] := by simp [HasFull]
  have hn' : Has t.key [] := by simp [Has]
  cases hc : t.cipher
  case rsa => rw [checkSign, hc]; simp only; rw [signRsa_none t (.inl hc)]; simp [signNeeds, hn']
  case rsaemsapss => rw [checkSign, hc]; simp only; rw [signRsa_none t (.inr hc)]; simp [signNeeds, hn']
  case dsa =>
    rw [checkSign, hc]
    simp only [signDsa, dsaDomain, basic_none, need_none, needData_none]
    simp [signNeeds, hasFull_cons, has_cons, hn, hn', PssArgs, hc, and_assoc]
  case ecdsa =>
    rw [checkSign, hc]
    simp only [signEcdsa, ecdsaDomain, basic_none, need_none, needData_none]
    simp [signNeeds, hasFull_cons, has_cons, hn, hn', PssArgs, hc, and_assoc]
  all_goals rw [checkSign, hc]; simp [signNeeds]

/-- The same for verifying. -/
theorem checkVerify_iff (t : Task) : checkVerify t = .ok none ↔
    ∃ s v, signNeeds t.cipher = some (s, v) ∧ Given t.inp ∧ Given t.key ∧ HasFull t.key v.1 ∧ Has t.key v.2 ∧ PssArgs t := by
  have hn : HasFull t.key [] := by simp [HasFull]
  have hn' : Has t.key [] := by simp [Has]
  cases hc : t.cipher
  case rsa => rw [checkVerify, hc]; simp only; rw [verifyRsa_none t (.inl hc)]; simp [signNeeds, hn']
  case rsaemsapss => rw [checkVerify, hc]; simp only; rw [verifyRsa_none t (.inr hc)]; simp [signNeeds, hn']
  case dsa =>
    rw [checkVerify, hc]
    simp only [verifyDsa, dsaDomain, basic_none, need_none, needData_none]
    simp [signNeeds, hasFull_cons, has_cons, hn, hn', PssArgs, hc, and_assoc]
  case ecdsa =>
    rw [checkVerify, hc]
    simp only [verifyEcdsa, ecdsaDomain, basic_none, need_none]
    simp [signNeeds, hasFull_cons, hn, hn', PssArgs, hc, and_assoc]
  all_goals rw [checkVerify, hc]; simp [signNeeds]

/-- Cases: an RSA verification passes, with PSS it needs a salt size. -/
example : checkVerify { sample with cipher := .rsa, key := some rsaKey } = .ok none ∧
    checkVerify { sample with cipher := .rsaemsapss, key := some rsaKey } =
      .ok (some (.invalidParams, "No salt size indicated.")) ∧
    checkVerify { sample with cipher := .rsaemsapss, key := some rsaKey, args := fun i => i == 0 } = .ok none ∧
    checkSign { sample with cipher := .rsa, key := some rsaKey } = .ok (some (.keyError, "Invalid RSA private key.")) := by
  decide +kernel

end Kryptos.TaskCheck
