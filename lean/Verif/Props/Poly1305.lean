import Verif.Model.Poly1305
import Verif.Lemmas.Mp
import Verif.Lemmas.Rot
import Mathlib.Tactic.IntervalCases
/-
  C34.  Poly1305 tasks.
-/
namespace Kryptos.Poly1305
open Mp

/-! ### Every multiplication leaves its array -/

theorem length_addLoop {w : Nat} : ∀ (a b : Digits w) (c : Nat), (addLoop a b c).1.length = a.length
  | [], _, _ => rfl
  | x :: a, b, c => by simp [addLoop, length_addLoop a]

theorem length_padd (x y : PNum) : (padd x y).length = x.length := length_addLoop x y 0

theorem mulRow_length (y : W64) : ∀ (xs m : List W64) (mc : W64) (ac : Nat) (m' : List W64),
    mulRow y xs m mc ac = .ok m' → m'.length = m.length
  | [], m, _, _, m', h => by rw [mulRow] at h; injection h with h; rw [h]
  | x :: xs, [], _, _, _, h => by rw [mulRow] at h; injection h
  | x :: xs, d :: m, mc, ac, m', h => by
    rw [mulRow] at h
    cases hr : mulRow y xs m (BitVec.ofNat 64 ((y.toNat * x.toNat + mc.toNat) / 2 ^ 64))
        (if 2 ^ 64 - 1 < d.toNat + (y.toNat * x.toNat + mc.toNat) % 2 ^ 64 + ac then 1 else 0) with
    | ub => simp only [hr, Out.bind_ub] at h; injection h
    | ok r =>
      simp only [hr, Out.bind_ok, Out.ok.injEq] at h
      rw [← h, List.length_cons, List.length_cons, mulRow_length y xs m _ _ r hr]

theorem mulRow_short (y : W64) : ∀ (xs m : List W64) (mc : W64) (ac : Nat), m.length < xs.length → mulRow y xs m mc ac = .ub
  | [], m, _, _, h => by simp at h
  | x :: xs, [], _, _, _ => rfl
  | x :: xs, d :: m, mc, ac, h => by
    rw [mulRow]
    simp only [List.length_cons] at h
    simp only [mulRow_short y xs m _ _ (by omega), Out.bind_ub]

/-- The rows need as much memory as the product of unbounded operands would have. -/
theorem mulLoop_short : ∀ (ys x m : List W64), 0 < ys.length → 0 < x.length → m.length + 1 < ys.length + x.length →
    mulLoop ys x m = .ub
  | [], _, _, h, _, _ => by simp at h
  | y :: ys, x, m, _, hx, h => by
    rw [mulLoop]
    cases hr : mulRow y x m 0 0 with
    | ub => rfl
    | ok m' =>
      have hl := mulRow_length y x m 0 0 m' hr
      have hm : ¬ m.length < x.length := fun hlt => by rw [mulRow_short y x m 0 0 hlt] at hr; injection hr
      simp only [List.length_cons] at h
      cases m' with
      | nil => rw [List.length_nil] at hl; omega
      | cons d m' =>
        rw [List.length_cons] at hl
        simp only [Out.bind_ok]
        rw [mulLoop_short ys x m' (by omega) hx (by omega)]
        rfl

/-- `kryptos_poly1305_mul` reads and writes behind its array for all operands, unless there happen to be six digits of
memory which may be used. -/
theorem mul_unsafe (beyond : List W64) (hb : beyond.length < 6) (x y : PNum) (hx : x.length = size) (hy : y.length = size) :
    mul beyond x y = .ub := by
  rw [mul, mulLoop_short y x (zeros ++ beyond) (by rw [hy]; decide) (by rw [hx]; decide)]
  · rfl
  · rw [List.length_append, hx, hy]
    have : zeros.length = 7 := rfl
    have : size = 7 := rfl
    omega

theorem length_leBytesToNum : ∀ (l : Bytes) (k : Nat) (n : PNum), n.length = size →
    ∃ n', leBytesToNum k l n = .ok n' ∧ n'.length = size
  | [], _, n, h => ⟨n, rfl, h⟩
  | b :: l, k, n, h => by
    rw [leBytesToNum]
    by_cases hk : size ≤ k / 8
    · rw [if_pos hk]; exact ⟨n, rfl, h⟩
    · rw [if_neg hk, rd_eq_ok (by rw [h]; omega), Out.bind_ok, wr, if_pos (by rw [h]; omega), Out.bind_ok]
      exact length_leBytesToNum l (k + 1) _ (by rw [List.length_set, h])

theorem flush_unsafe (beyond : List W64) (hb : beyond.length < 6) (bits : List Nat) (r : PNum) (hr : r.length = size)
    (s : Acc) (hs : s.a.length = size) : flush beyond bits r s = .ub := by
  obtain ⟨n, h1, h2⟩ := length_leBytesToNum (s.buf.take (17 - (16 - s.bp))) 0 zeros rfl
  rw [flush, h1, Out.bind_ok, mul_unsafe beyond hb _ _ (by rw [length_padd, hs]) hr]
  rfl

theorem put_ok (c : Byte) (s : Acc) (h : s.bp < s.buf.length) : put c s = .ok ⟨s.a, s.buf.set s.bp c, s.bp + 1⟩ := by
  rw [put, wr, if_pos h]
  rfl

theorem tagLoop_unsafe (beyond : List W64) (hb : beyond.length < 6) (bits : List Nat) (r : PNum) (hr : r.length = size) :
    ∀ (m : Bytes) (s : Acc), m ≠ [] → s.a.length = size → s.buf.length = 17 → s.bp ≤ 16 →
      tagLoop beyond bits r m s = .ub
  | [], _, h, _, _, _ => absurd rfl h
  | c :: l, s, _, ha, hbuf, hbp => by
    rw [tagLoop]
    by_cases h16 : s.bp = 16
    · rw [flushIf, if_pos (by simp [h16]), flush_unsafe beyond hb bits r hr s ha]; rfl
    · rw [flushIf, if_neg (by simp [h16]), Out.bind_ok, put_ok c s (by omega), Out.bind_ok]
      by_cases hl : l = []
      · rw [flushIf, if_pos (by simp [hl]), flush_unsafe beyond hb bits r hr ⟨s.a, s.buf.set s.bp c, s.bp + 1⟩ ha]; rfl
      · rw [flushIf, if_neg (by simp [hl]), Out.bind_ok]
        exact tagLoop_unsafe beyond hb bits r hr l _ hl ha (by simp [hbuf]) (by show s.bp + 1 ≤ 16; omega)

theorem clamp_ok (k : Bytes) (h : k.length = 32) : ∃ k', clamp k = .ok k' ∧ k'.length = 32 := by
  simp only [clamp]
  simp (disch := first | omega | (simp only [List.length_set]; omega)) only [rd_eq_ok, wr, if_pos, Out.bind_ok, List.length_set, h]
  exact ⟨_, rfl, by simp [h]⟩

/-- C34 fails: no tag is ever computed without leaving the array. -/
theorem tag_unsafe (message key : Bytes) (hm : message ≠ []) (hk : key.length = 32) : tag [] message key = .ub := by
  have hk0 : key ≠ [] := by intro h; rw [h] at hk; simp at hk
  obtain ⟨k, h1, h2⟩ := clamp_ok key hk
  obtain ⟨r, h3, h4⟩ := length_leBytesToNum (k.take 16) 0 zeros rfl
  obtain ⟨s, h5, _⟩ := length_leBytesToNum (k.drop 16) 0 zeros rfl
  rw [tag, tagWith, if_neg (by simp [hm, hk0]), if_neg (by omega), h1, Out.bind_ok, h3, Out.bind_ok, h5, Out.bind_ok,
    tagLoop_unsafe [] (by simp) checkedBits r h4 message _ hm rfl rfl (by simp)]
  rfl

/-- Hence every task which gets as far as the tag is undefined. -/
theorem poly1305_task_unsafe (nonce : Nat → Option Bytes) (t : Task) (key out : Bytes) (ha : t.action = .encrypt)
    (hk : t.key = some key) (ho : t.out = some out) (hk0 : key ≠ []) (ho0 : out ≠ []) (hk16 : key.length ≤ 16)
    (hn : ∀ n, ∃ b, nonce n = some b ∧ b.length = n) : doPoly1305 [] nonce t = .ub := by
  obtain ⟨b, hb, hbl⟩ := hn (32 - key.length)
  rw [doPoly1305, hk]
  simp only [filled, if_neg hk0]
  rw [if_neg (by omega), poly1305, hk]
  simp only
  rw [if_neg (by omega), ha]
  simp only
  rw [encrypt, hk, ho]
  simp only [filled, if_neg hk0, if_neg ho0]
  rw [if_pos (by omega), hb]
  simp only
  rw [tag_unsafe out (key ++ b) ho0 (by rw [List.length_append, hbl]; omega)]
  rfl

example : doPoly1305 [] (fun n => some (List.replicate n 7)) ⟨.encrypt, some [1, 2, 3], none, some [4, 5], .nr⟩ = .ub :=
  poly1305_task_unsafe _ _ [1, 2, 3] [4, 5] rfl rfl rfl (by decide) (by decide) (by decide) fun n => ⟨_, rfl, by simp⟩

/-! ### The tasks, when the memory behind the product may be used -/

/-- The key used by a task: at most 16 bytes are used as they are, further ones are xored into them. -/
theorem fold_length : ∀ (l : Bytes) (k : Nat) (key : Bytes), key.length = 16 → k < 16 →
    ∃ key', fold l k key = .ok key' ∧ key'.length = 16
  | [], _, key, h, _ => ⟨key, rfl, h⟩
  | u :: l, k, key, h, hk => by
    rw [fold, rd_eq_ok (by omega), Out.bind_ok, wr, if_pos (by omega), Out.bind_ok]
    exact fold_length l _ _ (by simp [h]) (Nat.mod_lt _ (by decide))

/-- C34, the receiving side: a task succeeds exactly when the first sixteen bytes are the tag of the message under the key
followed by the nonce in the text; its input is then the message; otherwise the input stays and the error is reported. -/
theorem poly1305_decrypt_partial (beyond : List W64) (nonce : Nat → Option Bytes) (t : Task) (key tg nc msg : Bytes) (tag' : Bytes)
    (ha : t.action = .decrypt) (hk : t.key = some key) (hi : t.inp = some (tg ++ nc ++ msg)) (hk0 : key ≠ [])
    (hk32 : key.length ≤ 32) (ht : tg.length = 16) (hn : nc.length = 32 - key.length) (hm : msg ≠ [])
    (htag : tag beyond msg (key ++ nc) = .ok (some tag')) :
    ∃ r, poly1305 beyond nonce t = .ok r ∧ (r.result = .success ↔ tg = tag') ∧
      (tg = tag' → r.inp = some msg) ∧ (tg ≠ tag' → r.inp = t.inp ∧ r.result = .poly1305Error) := by
  have hm0 : 0 < msg.length := List.length_pos_iff.2 hm
  have hi0 : tg ++ nc ++ msg ≠ [] := by simp [hm]
  have hd : (tg ++ nc ++ msg).drop (16 + (32 - key.length)) = msg := by
    rw [List.drop_append_of_le_length (by simp; omega), List.drop_of_length_le (by simp; omega), List.nil_append]
  have hn' : ((tg ++ nc ++ msg).drop 16).take (32 - key.length) = nc := by
    rw [List.append_assoc, List.drop_append_of_le_length (by omega), List.drop_of_length_le (by omega), List.nil_append,
      List.take_append_of_le_length (by omega), List.take_of_length_le (by omega)]
  have ht' : (tg ++ nc ++ msg).take 16 = tg := by
    rw [List.append_assoc, List.take_append_of_le_length (by omega), List.take_of_length_le (by omega)]
  rw [poly1305, hk]
  simp only
  rw [if_neg (by omega), ha]
  simp only
  rw [decrypt, hk, hi]
  simp only [filled, if_neg hk0, if_neg hi0]
  rw [if_neg (by simp only [List.length_append]; omega), hd, hn', htag, ht', Out.bind_ok]
  simp only
  by_cases h : tag' = tg
  · rw [if_pos h]
    exact ⟨_, rfl, by simp [h], by simp, fun h' => absurd h.symm h'⟩
  · rw [if_neg h]
    exact ⟨_, rfl, by simp [Ne.symm h], fun h' => absurd h'.symm h, fun _ => ⟨hi.symm ▸ rfl, rfl⟩⟩

theorem bind_eq_ok {α β : Type} {x : Out α} {f : α → Out β} {b : β} (h : (x >>= f) = .ok b) : ∃ a, x = .ok a ∧ f a = .ok b := by
  cases x with
  | ub => rw [Out.bind_ub] at h; injection h
  | ok a => exact ⟨a, rfl, h⟩

/-- Tags have sixteen bytes. -/
theorem tag_length (beyond : List W64) (bits : List Nat) (m k x : Bytes) (h : tagWith beyond bits m k = .ok (some x)) :
    x.length = 16 := by
  rw [tagWith] at h
  split at h
  · injection h with h; injection h
  split at h
  · injection h
  obtain ⟨_, _, h⟩ := bind_eq_ok h
  obtain ⟨_, _, h⟩ := bind_eq_ok h
  obtain ⟨_, _, h⟩ := bind_eq_ok h
  obtain ⟨_, _, h⟩ := bind_eq_ok h
  obtain ⟨t, ht, h⟩ := bind_eq_ok h
  simp only [Out.pure_eq, Out.ok.injEq, Option.some.injEq] at h
  rw [tagFromNum] at ht
  obtain ⟨_, _, ht⟩ := bind_eq_ok ht
  obtain ⟨_, _, ht⟩ := bind_eq_ok ht
  simp only [Out.pure_eq, Out.ok.injEq] at ht
  rw [← h, ← ht]
  rfl

/-- C34, both sides: what a successful encrypting task puts out is accepted by a decrypting task with the same key, which
then holds the message. -/
theorem poly1305_roundtrip_partial (beyond : List W64) (nonce nonce' : Nat → Option Bytes) (t t' u : Task) (key out : Bytes)
    (ha : t.action = .encrypt) (hk : t.key = some key) (ho : t.out = some out)
    (hn : ∀ n b, nonce n = some b → b.length = n)
    (he : poly1305 beyond nonce t = .ok t') (hs : t'.result = .success)
    (hu : u.action = .decrypt) (huk : u.key = some key) (hui : u.inp = t'.out) :
    ∃ r, poly1305 beyond nonce' u = .ok r ∧ r.result = .success ∧ r.inp = some out := by
  rw [poly1305, hk] at he
  simp only at he
  by_cases h32 : 32 < key.length
  · rw [if_pos h32] at he
    injection he with he
    rw [← he] at hs
    exact absurd hs (by simp)
  rw [if_neg h32, ha] at he
  simp only at he
  rw [encrypt, hk, ho] at he
  by_cases ho0 : out = []
  · simp only [filled, if_pos ho0] at he
    injection he with he
    rw [← he] at hs
    exact absurd hs (by simp)
  by_cases hk0 : key = []
  · simp only [filled, if_neg ho0, if_pos hk0] at he
    injection he with he
    rw [← he] at hs
    exact absurd hs (by simp)
  simp only [filled, if_neg ho0, if_neg hk0] at he
  cases hnc : (if 0 < 32 - key.length then nonce (32 - key.length) else some []) with
  | none =>
    rw [hnc] at he
    injection he with he
    rw [← he] at hs
    exact absurd hs (by simp)
  | some nc =>
    rw [hnc] at he
    simp only at he
    have hncl : nc.length = 32 - key.length := by
      by_cases h0 : 0 < 32 - key.length
      · rw [if_pos h0] at hnc; exact hn _ _ hnc
      · rw [if_neg h0] at hnc; injection hnc with hnc; rw [← hnc, List.length_nil]; omega
    cases htg : tag beyond out (key ++ nc) with
    | ub => rw [htg] at he; injection he
    | ok o =>
      rw [htg, Out.bind_ok] at he
      cases o with
      | none =>
        simp only at he
        injection he with he
        rw [← he] at hs
        exact absurd hs (by simp)
      | some tg =>
        simp only at he
        injection he with he
        rw [← he] at hui
        obtain ⟨r, h1, h2, h3, _⟩ := poly1305_decrypt_partial beyond nonce' u key tg nc out tg hu huk hui hk0 (by omega)
          (tag_length _ _ _ _ _ htg) hncl ho0 htg
        exact ⟨r, h1, h2.2 rfl, h3 rfl⟩

/-- The hypotheses are met: a message of three bytes, tagged with a key of three. -/
example : ∃ t', poly1305 [9, 9, 9, 9, 9, 9] (fun n => some (List.replicate n 0)) ⟨.encrypt, some [5, 0, 0], none, some [1, 2, 3], .nr⟩ = .ok t' ∧
    t'.result = .success ∧ t'.out = some ([5, 10, 15, 5] ++ List.replicate 41 0 ++ [1, 2, 3]) :=
  ⟨⟨.encrypt, some [5, 0, 0], none, some ([5, 10, 15, 5] ++ List.replicate 41 0 ++ [1, 2, 3]), .success⟩,
    by decide +kernel, rfl, rfl⟩

/-- C34 fails for every other action: success is reported although nothing was authenticated. -/
theorem poly1305_action_fails (beyond : List W64) (nonce : Nat → Option Bytes) (t : Task) (key : Bytes)
    (hk : t.key = some key) (h32 : key.length ≤ 32) (h1 : t.action ≠ .encrypt) (h2 : t.action ≠ .decrypt) :
    poly1305 beyond nonce t = .ok { t with result := .success } := by
  rw [poly1305, hk]
  simp only
  rw [if_neg (by omega)]

example : poly1305 [] (fun _ => none) ⟨.encryptWithoutRandomPad, some [1], some [2], some [3], .nr⟩ =
    .ok ⟨.encryptWithoutRandomPad, some [1], some [2], some [3], .success⟩ :=
  poly1305_action_fails _ _ _ [1] rfl (by decide) (by decide) (by decide)

/-- A task without a key is left as it is: whatever result it held before is kept. -/
theorem poly1305_keyless (beyond : List W64) (nonce : Nat → Option Bytes) (t : Task) (h : t.key = none) :
    doPoly1305 beyond nonce t = .ok t := by
  rw [doPoly1305, h, filled]

end Kryptos.Poly1305
