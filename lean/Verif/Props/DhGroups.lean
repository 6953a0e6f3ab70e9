import Verif.Lemmas.PiBits
import Verif.Lemmas.Pratt
import Verif.Lemmas.DhText
import Verif.Props.DlParams
import Verif.Spec.Modp
/-
  The built-in Diffie-Hellman groups (C117).
-/
namespace Kryptos.Dh
open Mp Spec.Mp

/-! ### The digits of `π` -/

/-- The binary digits of `π`, 8062 of them behind the point. -/
def piDigits : Nat := (prime8192 + 1 + 2 ^ 8128 - 2 ^ 8192) / 2 ^ 64 - 4743158

theorem floor_pi_8062 : ⌊2 ^ 8062 * Real.pi⌋₊ = piDigits :=
  PiBits.floor_pi 8062 64 10 9 piDigits (by decide +kernel) (by decide +kernel)

theorem floor_pi_of (k j : Nat) (h : k + j = 8062) : Spec.Modp.piFloor k = piDigits / 2 ^ j :=
  PiBits.floor_pi_prefix k j _ (by rw [h, floor_pi_8062])

theorem prime1536_eq : Spec.Modp.prime 1536 741804 = prime1536 := by
  rw [Spec.Modp.prime, show 1536 - 130 = 1406 from rfl, floor_pi_of 1406 6656 rfl]
  decide +kernel

theorem prime2048_eq : Spec.Modp.prime 2048 124476 = prime2048 := by
  rw [Spec.Modp.prime, show 2048 - 130 = 1918 from rfl, floor_pi_of 1918 6144 rfl]
  decide +kernel

theorem prime3072_eq : Spec.Modp.prime 3072 1690314 = prime3072 := by
  rw [Spec.Modp.prime, show 3072 - 130 = 2942 from rfl, floor_pi_of 2942 5120 rfl]
  decide +kernel

theorem prime4096_eq : Spec.Modp.prime 4096 240904 = prime4096 := by
  rw [Spec.Modp.prime, show 4096 - 130 = 3966 from rfl, floor_pi_of 3966 4096 rfl]
  decide +kernel

theorem prime6144_eq : Spec.Modp.prime 6144 929484 = prime6144 := by
  rw [Spec.Modp.prime, show 6144 - 130 = 6014 from rfl, floor_pi_of 6014 2048 rfl]
  decide +kernel

theorem prime8192_eq : Spec.Modp.prime 8192 4743158 = prime8192 := by
  rw [Spec.Modp.prime, show 8192 - 130 = 8062 from rfl, floor_pi_of 8062 0 rfl]
  decide +kernel

/-! ### The order of two -/

/-- Square and multiply with base two; the match makes the kernel keep the powers as numerals. -/
def powTwo (n e : Nat) : Nat → Nat → Nat
  | 0, P => P
  | _ + 1, 0 => 0
  | k + 1, P + 1 => powTwo n e k ((P + 1) * (P + 1) * (e / 2 ^ k % 2 + 1) % n)

theorem powTwo_zero (n e : Nat) : ∀ k, Pratt.powM n 2 e k 0 = 0
  | 0 => rfl
  | k + 1 => by rw [Pratt.powM, Nat.zero_mul, Nat.zero_mod, powTwo_zero n e k]

theorem powTwo_eq (n e : Nat) : ∀ k P, powTwo n e k P = Pratt.powM n 2 e k P
  | 0, P => rfl
  | k + 1, 0 => by rw [powTwo, powTwo_zero]
  | k + 1, P + 1 => by
    rw [powTwo, Pratt.powM, powTwo_eq n e k]
    have : (if e / 2 ^ k % 2 = 1 then 2 else 1) = e / 2 ^ k % 2 + 1 := by split <;> omega
    rw [this]

theorem sound_of (p n : Nat) (h8 : p % 8 = 7) (h1 : 2 ^ 5 < p) (hn : p < 2 ^ n) (h : powTwo p ((p - 1) / 2) n 1 = 1) :
    Dl.Sound p ((p - 1) / 2) 2 := by
  have hb : (2 : Nat) ^ 5 = 32 := by decide
  refine ⟨by omega, by omega, ⟨2, by omega⟩, ?_⟩
  rw [powTwo_eq, Pratt.powM_small p 2 _ n (by omega) (by omega)] at h
  show 2 ^ _ % p = 1 % p
  rw [h, Nat.mod_eq_of_lt (by omega)]

theorem prime1536_sound : Dl.Sound prime1536 ((prime1536 - 1) / 2) 2 :=
  sound_of prime1536 1536 (by decide +kernel) (by decide +kernel) (by decide +kernel) (by decide +kernel)

theorem prime2048_sound : Dl.Sound prime2048 ((prime2048 - 1) / 2) 2 :=
  sound_of prime2048 2048 (by decide +kernel) (by decide +kernel) (by decide +kernel) (by decide +kernel)

theorem prime3072_sound : Dl.Sound prime3072 ((prime3072 - 1) / 2) 2 :=
  sound_of prime3072 3072 (by decide +kernel) (by decide +kernel) (by decide +kernel) (by decide +kernel)

theorem prime4096_sound : Dl.Sound prime4096 ((prime4096 - 1) / 2) 2 :=
  sound_of prime4096 4096 (by decide +kernel) (by decide +kernel) (by decide +kernel) (by decide +kernel)

theorem prime6144_sound : Dl.Sound prime6144 ((prime6144 - 1) / 2) 2 :=
  sound_of prime6144 6144 (by decide +kernel) (by decide +kernel) (by decide +kernel) (by decide +kernel)

theorem prime8192_sound : Dl.Sound prime8192 ((prime8192 - 1) / 2) 2 :=
  sound_of prime8192 8192 (by decide +kernel) (by decide +kernel) (by decide +kernel) (by decide +kernel)

/-! ### C117 -/

theorem getModp_of (k : Nat) (hk : 0 < k) (rnd : Nat → Byte) (nb bits l v : Nat) (e : GroupEntry) (hb : ¬ 6 < bits)
    (he : groups[bits]? = some [e]) (hl : 0 < l) (hs : e.pSize = l) (hg : e.gSize = 1)
    (ht : ([e].map fun e => (textNum e.p, textNum [e.g])) = [(some (v, l), some (2, 1))]) :
    ∃ p g : Num (8 * k), getModp (8 * k) rnd nb bits = .ok (.success, some p, some g) ∧ Is p v ∧ Is g 2 := by
  have t1 : textNum e.p = some (v, l) := congrArg Prod.fst (List.head_eq_of_cons_eq ht)
  have t2 : textNum [e.g] = some (2, 1) := congrArg Prod.snd (List.head_eq_of_cons_eq ht)
  obtain ⟨p, p1, p2⟩ := entryNum_read k hk e.p v l hl t1
  obtain ⟨g, g1, g2⟩ := entryNum_read k hk [e.g] 2 1 (by omega) t2
  rw [List.flatMap_cons, List.flatMap_nil, List.append_nil] at g1
  refine ⟨p, g, ?_, p2, g2⟩
  have hr : randomEntry (8 * k) rnd nb [e] = .ok (some p, some g) := by
    rw [randomEntry, List.length_singleton, Nat.mod_one]
    show (entryNum (8 * k) (e.p.flatMap ascii) e.pSize >>= fun p => entryNum (8 * k) (ascii e.g) e.gSize >>= fun g => pure (p, g)) = _
    rw [hs, p1, Out.bind_ok, hg, g1, Out.bind_ok]
    rfl
  rw [getModp, if_neg hb, he]
  show (randomEntry (8 * k) rnd nb [e] >>= _) = _
  rw [hr, Out.bind_ok]
  rfl

/-- For each of the six sizes, whatever the random bytes, the caller gets the prime and the generator of RFC 3526. -/
theorem get_modp_rfc3526 (k : Nat) (hk : 0 < k) (rnd : Nat → Byte) (nb bits n c : Nat) (h : Spec.Modp.rfc3526[bits]? = some (n, c)) :
    ∃ p g : Num (8 * k), getModp (8 * k) rnd nb bits = .ok (.success, some p, some g) ∧ Is p (Spec.Modp.prime n c) ∧ Is g 2 := by
  match bits, h with
  | 0, h =>
    cases h
    rw [prime1536_eq]
    exact getModp_of k hk rnd nb 0 384 _ _ (by omega) rfl (by omega) rfl rfl text1536
  | 1, h =>
    cases h
    rw [prime2048_eq]
    exact getModp_of k hk rnd nb 1 512 _ _ (by omega) rfl (by omega) rfl rfl text2048
  | 2, h =>
    cases h
    rw [prime3072_eq]
    exact getModp_of k hk rnd nb 2 768 _ _ (by omega) rfl (by omega) rfl rfl text3072
  | 3, h =>
    cases h
    rw [prime4096_eq]
    exact getModp_of k hk rnd nb 3 1024 _ _ (by omega) rfl (by omega) rfl rfl text4096
  | 4, h =>
    cases h
    rw [prime6144_eq]
    exact getModp_of k hk rnd nb 4 1536 _ _ (by omega) rfl (by omega) rfl rfl text6144
  | 5, h =>
    cases h
    rw [prime8192_eq]
    exact getModp_of k hk rnd nb 5 2048 _ _ (by omega) rfl (by omega) rfl rfl text8192
  | _ + 6, h => cases h

/-- What RFC 3526 promises of these numbers, apart from their being primes: the size, and that two generates a group whose order
divides `(p - 1) / 2`. -/
theorem rfc3526_sound (n c : Nat) (h : (n, c) ∈ Spec.Modp.rfc3526) :
    2 ^ (n - 1) ≤ Spec.Modp.prime n c ∧ Spec.Modp.prime n c < 2 ^ n ∧ Spec.Modp.prime n c % 8 = 7 ∧
      Dl.Sound (Spec.Modp.prime n c) ((Spec.Modp.prime n c - 1) / 2) 2 := by
  rw [Spec.Modp.rfc3526] at h
  simp only [List.mem_cons, Prod.mk.injEq, List.not_mem_nil, or_false] at h
  rcases h with ⟨rfl, rfl⟩ | ⟨rfl, rfl⟩ | ⟨rfl, rfl⟩ | ⟨rfl, rfl⟩ | ⟨rfl, rfl⟩ | ⟨rfl, rfl⟩
  · rw [prime1536_eq]
    exact ⟨by decide +kernel, by decide +kernel, by decide +kernel, prime1536_sound⟩
  · rw [prime2048_eq]
    exact ⟨by decide +kernel, by decide +kernel, by decide +kernel, prime2048_sound⟩
  · rw [prime3072_eq]
    exact ⟨by decide +kernel, by decide +kernel, by decide +kernel, prime3072_sound⟩
  · rw [prime4096_eq]
    exact ⟨by decide +kernel, by decide +kernel, by decide +kernel, prime4096_sound⟩
  · rw [prime6144_eq]
    exact ⟨by decide +kernel, by decide +kernel, by decide +kernel, prime6144_sound⟩
  · rw [prime8192_eq]
    exact ⟨by decide +kernel, by decide +kernel, by decide +kernel, prime8192_sound⟩

/-- Every other size: one is read outside of the table, the rest is refused. -/
theorem get_modp_other (w : Nat) (rnd : Nat → Byte) (nb bits : Nat) (h : 6 ≤ bits) :
    getModp w rnd nb bits = if bits = 6 then .ub else .ok (.invalidParams, none, none) := by
  rw [getModp]
  by_cases h6 : bits = 6
  · subst h6
    rfl
  · rw [if_pos (by omega), if_neg h6]

/-- The shortest group, with the digits of a computer of 64 bits. -/
example : ∃ p g : Num 64, getModp 64 (fun i => BitVec.ofNat 8 (7 * i + 3)) 8 0 = .ok (.success, some p, some g) ∧
    Is p (Spec.Modp.prime 1536 741804) ∧ Is g 2 :=
  get_modp_rfc3526 8 (by omega) _ 8 0 1536 741804 rfl

/-- The first and the last 64 bits of the shortest prime are ones, and the digits of `π` follow the first ones. -/
example : Spec.Modp.prime 1536 741804 % 2 ^ 64 = 2 ^ 64 - 1 ∧ Spec.Modp.prime 1536 741804 / 2 ^ 1472 = 2 ^ 64 - 1 ∧
    Spec.Modp.prime 1536 741804 / 2 ^ 1440 % 2 ^ 32 = 0xC90FDAA2 := by
  rw [prime1536_eq]
  decide +kernel

end Kryptos.Dh
