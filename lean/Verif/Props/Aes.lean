import Verif.Lemmas.Aes
import Verif.Props.KeyLoad
import Mathlib.Data.List.OfFn
/-
  AES: conformance to FIPS 197 and invertibility (C29, C30).
-/
namespace Kryptos.Aes
open Block
open Spec.Aes (Word State expand)

/-! ### States and words as functions -/

def fn {α : Type} (x : Four α) : Fin 4 → α
  | 0 => x.a
  | 1 => x.b
  | 2 => x.c
  | 3 => x.d

def stateOf (m : Mat) : State := fun r c => fn (fn m c) r

theorem fin4 {P : Fin 4 → Prop} (h0 : P 0) (h1 : P 1) (h2 : P 2) (h3 : P 3) : ∀ r, P r
  | 0 => h0
  | 1 => h1
  | 2 => h2
  | 3 => h3

theorem fin44 {P : Fin 4 → Fin 4 → Prop} (h0 : ∀ c, P 0 c) (h1 : ∀ c, P 1 c) (h2 : ∀ c, P 2 c) (h3 : ∀ c, P 3 c) :
    ∀ r c, P r c := fin4 h0 h1 h2 h3

theorem fn_inj {α : Type} {x y : Four α} (h : fn x = fn y) : x = y := by
  obtain ⟨a, b, c, d⟩ := x
  obtain ⟨a', b', c', d'⟩ := y
  have h0 := congrFun h 0
  have h1 := congrFun h 1
  have h2 := congrFun h 2
  have h3 := congrFun h 3
  simp only [fn] at h0 h1 h2 h3
  subst h0 h1 h2 h3
  rfl

theorem fn_xor (x y : W32) : fn (unpack (x ^^^ y)) = fun r => fn (unpack x) r ^^^ fn (unpack y) r := by
  rw [unpack_xor]; funext r; revert r; refine fin4 ?_ ?_ ?_ ?_ <;> rfl

theorem fn_subWord (v : W32) : fn (unpack (subWord v)) = Spec.Aes.subWord (fn (unpack v)) := by
  rw [subWord_eq, unpack_pack]
  funext r
  revert r; refine fin4 ?_ ?_ ?_ ?_ <;> exact sbox_eq _

theorem fn_g (v rc : W32) : fn (unpack (g v rc)) =
    fun r => Spec.Aes.subWord (Spec.Aes.rotWord (fn (unpack v))) r ^^^ fn (unpack rc) r := by
  unfold g
  rw [fn_xor, subWord_eq, unpack_rotl8]
  funext r
  rw [BitVec.xor_comm]
  congr 1
  revert r; refine fin4 ?_ ?_ ?_ ?_ <;> exact sbox_eq _

theorem stateOf_subBytes (m : Mat) : stateOf (subBytes sbox m) = Spec.Aes.subBytes (stateOf m) := by
  funext r c
  unfold subBytes
  simp only [unpack_pack]
  revert r c; refine fin44 ?_ ?_ ?_ ?_ <;> refine fin4 ?_ ?_ ?_ ?_ <;> exact sbox_eq _

theorem stateOf_shiftRows (m : Mat) : stateOf (shiftRows 8 16 24 m) = Spec.Aes.shiftRows (stateOf m) := by
  funext r c
  unfold shiftRows
  simp only [unpack_rotl8, unpack_rotl16, unpack_rotl24]
  revert r c; refine fin44 ?_ ?_ ?_ ?_ <;> refine fin4 ?_ ?_ ?_ ?_ <;> rfl

theorem stateOf_mixColumns (m : Mat) : stateOf (mixColumns mixCol m) = Spec.Aes.mixColumns (stateOf m) := by
  funext r c
  unfold mixColumns
  simp only [unpack_mixCol]
  revert r c
  refine fin44 ?_ ?_ ?_ ?_ <;> refine fin4 ?_ ?_ ?_ ?_ <;> simp [stateOf, fn, Four.map, Spec.Aes.mixColumns] <;> ac_rfl

theorem stateOf_addKey (s k : Mat) : stateOf (addKey s k) = fun r c => stateOf s r c ^^^ stateOf k r c := by
  funext r c
  revert r c; refine fin44 ?_ ?_ ?_ ?_ <;> refine fin4 ?_ ?_ ?_ ?_ <;> rfl

/-! ### The key schedule -/

theorem expand_rot (nk : Nat) (k : Fin nk → Word) (i : Nat) (h0 : 0 < nk) (hi : nk ≤ i) (hm : i % nk = 0) :
    expand nk k i = fun r => expand nk k (i - nk) r ^^^
      (Spec.Aes.subWord (Spec.Aes.rotWord (expand nk k (i - 1))) r ^^^ Spec.Aes.rcon (i / nk) r) := by
  rw [expand, dif_neg (by omega), dif_neg (by omega), if_pos hm]

theorem expand_sub (nk : Nat) (k : Fin nk → Word) (i : Nat) (h0 : 6 < nk) (hi : nk ≤ i) (hm : i % nk = 4) :
    expand nk k i = fun r => expand nk k (i - nk) r ^^^ Spec.Aes.subWord (expand nk k (i - 1)) r := by
  rw [expand, dif_neg (by omega), dif_neg (by omega), if_neg (by omega), if_pos ⟨h0, hm⟩]

theorem expand_plain (nk : Nat) (k : Fin nk → Word) (i : Nat) (h0 : 0 < nk) (hi : nk ≤ i) (hm : i % nk ≠ 0)
    (h4 : 6 < nk → i % nk ≠ 4) : expand nk k i = fun r => expand nk k (i - nk) r ^^^ expand nk k (i - 1) r := by
  rw [expand, dif_neg (by omega), dif_neg (by omega), if_neg hm, if_neg (fun h => h4 h.1 h.2)]

/-- The words so far are the first `n` words of the expanded key. -/
structure Sched (nk : Nat) (k : Fin nk → Word) (W : List W32) (n : Nat) : Prop where
  len : W.length = n
  val : ∀ j (h : j < W.length), fn (unpack W[j]) = expand nk k j

theorem Sched.rd {nk : Nat} {k : Fin nk → Word} {W : List W32} {n : Nat} (h : Sched nk k W n) (j : Nat) (hj : j < n) :
    ∃ x, rd W j = .ok x ∧ fn (unpack x) = expand nk k j :=
  ⟨W[j]'(h.len ▸ hj), rd_eq_ok _, h.val j (h.len ▸ hj)⟩

theorem Sched.snoc {nk : Nat} {k : Fin nk → Word} {W : List W32} {n : Nat} (h : Sched nk k W n) {x : W32}
    (hx : fn (unpack x) = expand nk k n) : Sched nk k (W ++ [x]) (n + 1) where
  len := by simp [h.len]
  val := fun j hj => by
    have := h.len
    simp only [List.length_append, List.length_singleton] at hj
    by_cases hj' : j < W.length
    · rw [List.getElem_append_left hj']; exact h.val j hj'
    · have e : j = n := by omega
      subst e
      rw [List.getElem_append_right (by omega)]
      simpa using hx

/-- Words of a list as the beginning of a schedule. -/
theorem Sched.start {nk : Nat} (W : List W32) (h : W.length = nk) :
    Sched nk (fun i => fn (unpack (W[i.val]'(h ▸ i.isLt)))) W nk where
  len := h
  val := fun j hj => by
    rw [expand, dif_pos (h ▸ hj)]

theorem rcon_eq (i : Nat) (hi : i < 10) : ∃ rc, rd rcon i = .ok rc ∧ fn (unpack rc) = Spec.Aes.rcon (i + 1) := by
  interval_cases i <;> exact ⟨_, rfl, funext (fin4 (by decide +kernel) (by decide +kernel) (by decide +kernel) (by decide +kernel))⟩

/-- Where the next word comes from. -/
theorem step_rot {nk : Nat} {k : Fin nk → Word} {n i : Nat} (h0 : 0 < nk) {x y rc : W32} (hn : n = nk * (i + 1))
    (hx : fn (unpack x) = expand nk k (n - nk)) (hy : fn (unpack y) = expand nk k (n - 1))
    (hrc : fn (unpack rc) = Spec.Aes.rcon (i + 1)) : fn (unpack (x ^^^ g y rc)) = expand nk k n := by
  have hd : nk * (i + 1) = nk * i + nk := Nat.mul_succ _ _
  rw [expand_rot nk k n h0 (by omega) (by rw [hn, Nat.mul_mod_right]), fn_xor, fn_g, hx, hy, hrc,
    show n / nk = i + 1 by rw [hn, Nat.mul_div_cancel_left _ h0]]

theorem step_plain {nk : Nat} {k : Fin nk → Word} {n : Nat} (i j : Nat) {x y : W32} (hn : n = nk * (i + 1) + j) (hj : 0 < j)
    (hj' : j < nk) (h4 : 6 < nk → j ≠ 4) (hx : fn (unpack x) = expand nk k (n - nk)) (hy : fn (unpack y) = expand nk k (n - 1)) :
    fn (unpack (x ^^^ y)) = expand nk k n := by
  have hd : nk * (i + 1) = nk * i + nk := Nat.mul_succ _ _
  have hm : n % nk = j := by rw [hn, Nat.mul_add_mod, Nat.mod_eq_of_lt hj']
  rw [expand_plain nk k n (by omega) (by omega) (by omega) (by rw [hm]; exact h4), fn_xor, hx, hy]

theorem step_sub {nk : Nat} {k : Fin nk → Word} {n : Nat} (i : Nat) {x y : W32} (hn : n = nk * (i + 1) + 4) (h6 : 6 < nk)
    (hx : fn (unpack x) = expand nk k (n - nk)) (hy : fn (unpack y) = expand nk k (n - 1)) :
    fn (unpack (x ^^^ subWord y)) = expand nk k n := by
  have hd : nk * (i + 1) = nk * i + nk := Nat.mul_succ _ _
  have hm : n % nk = 4 := by rw [hn, Nat.mul_add_mod, Nat.mod_eq_of_lt (by omega)]
  rw [expand_sub nk k n h6 (by omega) hm, fn_xor, fn_subWord, hx, hy]

theorem chunk128_spec {k : Fin 4 → Word} {W : List W32} {i : Nat} (h : Sched 4 k W (4 * i + 4)) (hi : i < 10) :
    ∃ W', chunk128 W (4 * i) i = .ok W' ∧ Sched 4 k W' (4 * (i + 1) + 4) := by
  obtain ⟨x0, e0, v0⟩ := h.rd (4 * i) (by omega)
  obtain ⟨x1, e1, v1⟩ := h.rd (4 * i + 1) (by omega)
  obtain ⟨x2, e2, v2⟩ := h.rd (4 * i + 2) (by omega)
  obtain ⟨x3, e3, v3⟩ := h.rd (4 * i + 3) (by omega)
  obtain ⟨rc, er, vr⟩ := rcon_eq i hi
  unfold chunk128
  simp only [e0, e1, e2, e3, er, Out.bind_ok, Out.pure_eq]
  refine ⟨_, rfl, ?_⟩
  have a4 : fn (unpack (x0 ^^^ g x3 rc)) = expand 4 k (4 * i + 4) := step_rot (by decide) rfl v0 v3 vr
  generalize x0 ^^^ g x3 rc = y4 at *
  have a5 : fn (unpack (x1 ^^^ y4)) = expand 4 k (4 * i + 4 + 1) :=
    step_plain i 1 rfl (by decide) (by decide) (by decide) v1 a4
  generalize x1 ^^^ y4 = y5 at *
  have a6 : fn (unpack (x2 ^^^ y5)) = expand 4 k (4 * i + 4 + 1 + 1) :=
    step_plain i 2 (by omega) (by decide) (by decide) (by decide) v2 a5
  generalize x2 ^^^ y5 = y6 at *
  have a7 : fn (unpack (x3 ^^^ y6)) = expand 4 k (4 * i + 4 + 1 + 1 + 1) :=
    step_plain i 3 (by omega) (by decide) (by decide) (by decide) v3 a6
  have := (((h.snoc a4).snoc a5).snoc a6).snoc a7
  simpa [List.append_assoc, Nat.mul_add] using this

theorem head192_spec {k : Fin 6 → Word} {W : List W32} {i : Nat} (h : Sched 6 k W (6 * i + 6)) (hi : i < 10) :
    ∃ W', head192 W (6 * i) i = .ok W' ∧ Sched 6 k W' (6 * i + 10) := by
  obtain ⟨x0, e0, v0⟩ := h.rd (6 * i) (by omega)
  obtain ⟨x1, e1, v1⟩ := h.rd (6 * i + 1) (by omega)
  obtain ⟨x2, e2, v2⟩ := h.rd (6 * i + 2) (by omega)
  obtain ⟨x3, e3, v3⟩ := h.rd (6 * i + 3) (by omega)
  obtain ⟨x5, e5, v5⟩ := h.rd (6 * i + 5) (by omega)
  obtain ⟨rc, er, vr⟩ := rcon_eq i hi
  unfold head192
  simp only [e0, e1, e2, e3, e5, er, Out.bind_ok, Out.pure_eq]
  refine ⟨_, rfl, ?_⟩
  have a6 : fn (unpack (x0 ^^^ g x5 rc)) = expand 6 k (6 * i + 6) := step_rot (by decide) rfl v0 v5 vr
  generalize x0 ^^^ g x5 rc = y6 at *
  have a7 : fn (unpack (y6 ^^^ x1)) = expand 6 k (6 * i + 6 + 1) := by
    rw [BitVec.xor_comm]; exact step_plain i 1 rfl (by decide) (by decide) (by decide) v1 a6
  generalize y6 ^^^ x1 = y7 at *
  have a8 : fn (unpack (y7 ^^^ x2)) = expand 6 k (6 * i + 6 + 1 + 1) := by
    rw [BitVec.xor_comm]; exact step_plain i 2 (by omega) (by decide) (by decide) (by decide) v2 a7
  generalize y7 ^^^ x2 = y8 at *
  have a9 : fn (unpack (y8 ^^^ x3)) = expand 6 k (6 * i + 6 + 1 + 1 + 1) := by
    rw [BitVec.xor_comm]; exact step_plain i 3 (by omega) (by decide) (by decide) (by decide) v3 a8
  have := (((h.snoc a6).snoc a7).snoc a8).snoc a9
  simpa [List.append_assoc] using this

theorem tail192_spec {k : Fin 6 → Word} {W : List W32} {i : Nat} (h : Sched 6 k W (6 * i + 10)) :
    ∃ W', tail192 W (6 * i) = .ok W' ∧ Sched 6 k W' (6 * (i + 1) + 6) := by
  obtain ⟨x9, e9, v9⟩ := h.rd (6 * i + 9) (by omega)
  obtain ⟨x4, e4, v4⟩ := h.rd (6 * i + 4) (by omega)
  obtain ⟨x5, e5, v5⟩ := h.rd (6 * i + 5) (by omega)
  unfold tail192
  simp only [e9, e4, e5, Out.bind_ok, Out.pure_eq]
  refine ⟨_, rfl, ?_⟩
  have a1 : fn (unpack (x9 ^^^ x4)) = expand 6 k (6 * i + 10) := by
    rw [BitVec.xor_comm]; exact step_plain i 4 (by omega) (by decide) (by decide) (by decide) v4 v9
  generalize x9 ^^^ x4 = y at *
  have a2 : fn (unpack (y ^^^ x5)) = expand 6 k (6 * i + 10 + 1) := by
    rw [BitVec.xor_comm]; exact step_plain i 5 (by omega) (by decide) (by decide) (by decide) v5 a1
  have := (h.snoc a1).snoc a2
  simpa [List.append_assoc, Nat.mul_add] using this

theorem head256_spec {k : Fin 8 → Word} {W : List W32} {i : Nat} (h : Sched 8 k W (8 * i + 8)) (hi : i < 10) :
    ∃ W', head256 W (8 * i) i = .ok W' ∧ Sched 8 k W' (8 * i + 12) := by
  obtain ⟨x0, e0, v0⟩ := h.rd (8 * i) (by omega)
  obtain ⟨x1, e1, v1⟩ := h.rd (8 * i + 1) (by omega)
  obtain ⟨x2, e2, v2⟩ := h.rd (8 * i + 2) (by omega)
  obtain ⟨x3, e3, v3⟩ := h.rd (8 * i + 3) (by omega)
  obtain ⟨x7, e7, v7⟩ := h.rd (8 * i + 7) (by omega)
  obtain ⟨rc, er, vr⟩ := rcon_eq i hi
  unfold head256
  simp only [e0, e1, e2, e3, e7, er, Out.bind_ok, Out.pure_eq]
  refine ⟨_, rfl, ?_⟩
  have a8 : fn (unpack (x0 ^^^ g x7 rc)) = expand 8 k (8 * i + 8) := step_rot (by decide) rfl v0 v7 vr
  generalize x0 ^^^ g x7 rc = y8 at *
  have a9 : fn (unpack (x1 ^^^ y8)) = expand 8 k (8 * i + 8 + 1) :=
    step_plain i 1 rfl (by decide) (by decide) (by decide) v1 a8
  generalize x1 ^^^ y8 = y9 at *
  have a10 : fn (unpack (x2 ^^^ y9)) = expand 8 k (8 * i + 8 + 1 + 1) :=
    step_plain i 2 (by omega) (by decide) (by decide) (by decide) v2 a9
  generalize x2 ^^^ y9 = y10 at *
  have a11 : fn (unpack (x3 ^^^ y10)) = expand 8 k (8 * i + 8 + 1 + 1 + 1) :=
    step_plain i 3 (by omega) (by decide) (by decide) (by decide) v3 a10
  have := (((h.snoc a8).snoc a9).snoc a10).snoc a11
  simpa [List.append_assoc] using this

theorem tail256_spec {k : Fin 8 → Word} {W : List W32} {i : Nat} (h : Sched 8 k W (8 * i + 12)) :
    ∃ W', tail256 W (8 * i) = .ok W' ∧ Sched 8 k W' (8 * (i + 1) + 8) := by
  obtain ⟨x4, e4, v4⟩ := h.rd (8 * i + 4) (by omega)
  obtain ⟨x5, e5, v5⟩ := h.rd (8 * i + 5) (by omega)
  obtain ⟨x6, e6, v6⟩ := h.rd (8 * i + 6) (by omega)
  obtain ⟨x7, e7, v7⟩ := h.rd (8 * i + 7) (by omega)
  obtain ⟨x11, e11, v11⟩ := h.rd (8 * i + 11) (by omega)
  unfold tail256
  simp only [e4, e5, e6, e7, e11, Out.bind_ok, Out.pure_eq]
  refine ⟨_, rfl, ?_⟩
  have a8 : fn (unpack (x4 ^^^ subWord x11)) = expand 8 k (8 * i + 12) := step_sub i (by omega) (by decide) v4 v11
  generalize x4 ^^^ subWord x11 = y8 at *
  have a9 : fn (unpack (x5 ^^^ y8)) = expand 8 k (8 * i + 12 + 1) :=
    step_plain i 5 (by omega) (by decide) (by decide) (by decide) v5 a8
  generalize x5 ^^^ y8 = y9 at *
  have a10 : fn (unpack (x6 ^^^ y9)) = expand 8 k (8 * i + 12 + 1 + 1) :=
    step_plain i 6 (by omega) (by decide) (by decide) (by decide) v6 a9
  generalize x6 ^^^ y9 = y10 at *
  have a11 : fn (unpack (x7 ^^^ y10)) = expand 8 k (8 * i + 12 + 1 + 1 + 1) :=
    step_plain i 7 (by omega) (by decide) (by decide) (by decide) v7 a10
  have := (((h.snoc a8).snoc a9).snoc a10).snoc a11
  simpa [List.append_assoc, Nat.mul_add] using this

/-- The words of a user key, whatever its length is. -/
def keyWordsOf (n : Nat) (key : Bytes) : Fin n → Word :=
  fun i => fn (unpack ((KeyLoad.ldUserKey 4 n key)[i.val]'(by rw [KeyLoad.length_ldUserKey]; exact i.isLt)))

theorem start_spec (n : Nat) (key : Bytes) : Sched n (keyWordsOf n key) (KeyLoad.ldUserKey 4 n key) n :=
  Sched.start _ (KeyLoad.length_ldUserKey 4 n key)

theorem words128_spec (key : Bytes) : ∃ W, words128 key = .ok W ∧ Sched 4 (keyWordsOf 4 key) W 44 :=
  forLoop_inv _ (fun i W => Sched 4 (keyWordsOf 4 key) W (4 * i + 4)) 10 0 _
    (fun _ _ _ h1 h2 => chunk128_spec h2 (by omega)) (start_spec 4 key)

theorem words192_spec (key : Bytes) : ∃ W, words192 key = .ok W ∧ Sched 6 (keyWordsOf 6 key) W 52 := by
  obtain ⟨W, e, h⟩ := forLoop_inv (fun i W => do tail192 (← head192 W (6 * i) i) (6 * i))
    (fun i W => Sched 6 (keyWordsOf 6 key) W (6 * i + 6)) 7 0 (KeyLoad.ldUserKey 4 6 key) (fun i W _ h1 h2 => by
      obtain ⟨W1, e1, h1⟩ := head192_spec h2 (by omega)
      obtain ⟨W2, e2, h2⟩ := tail192_spec h1
      exact ⟨W2, by rw [e1, Out.bind_ok, e2], h2⟩) (start_spec 6 key)
  obtain ⟨W', e', h'⟩ := head192_spec (i := 7) h (by decide)
  exact ⟨W', by unfold words192; rw [e, Out.bind_ok]; exact e', h'⟩

theorem words256_spec (key : Bytes) : ∃ W, words256 key = .ok W ∧ Sched 8 (keyWordsOf 8 key) W 60 := by
  obtain ⟨W, e, h⟩ := forLoop_inv (fun i W => do tail256 (← head256 W (8 * i) i) (8 * i))
    (fun i W => Sched 8 (keyWordsOf 8 key) W (8 * i + 8)) 6 0 (KeyLoad.ldUserKey 4 8 key) (fun i W _ h1 h2 => by
      obtain ⟨W1, e1, h1⟩ := head256_spec h2 (by omega)
      obtain ⟨W2, e2, h2⟩ := tail256_spec h1
      exact ⟨W2, by rw [e1, Out.bind_ok, e2], h2⟩) (start_spec 8 key)
  obtain ⟨W', e', h'⟩ := head256_spec (i := 6) h (by decide)
  exact ⟨W', by unfold words256; rw [e, Out.bind_ok]; exact e', h'⟩

/-! ### Round keys -/

/-- The round keys are those of the standard for the words `k`. -/
structure Keys (nk nr : Nat) (k : Fin nk → Word) (sks : List Mat) (rk : Nat → Mat) : Prop where
  rd : ∀ r, r ≤ nr → rd sks r = .ok (rk r)
  val : ∀ r, r ≤ nr → stateOf (rk r) = fun i (c : Fin 4) => expand nk k (4 * r + c) i

theorem storeAll_spec {nk : Nat} {k : Fin nk → Word} {W : List W32} (nr : Nat) (h : Sched nk k W (4 * (nr + 1))) :
    ∃ sks rk, storeAll W nr = .ok sks ∧ Keys nk nr k sks rk := by
  let w := fun j => W.getD j 0
  have hw : ∀ j, j < 4 * (nr + 1) → rd W j = .ok (w j) ∧ fn (unpack (w j)) = expand nk k j := by
    intro j hj
    have hl : j < W.length := h.len ▸ hj
    have e : w j = W[j] := by simp [w, List.getElem?_eq_getElem hl]
    rw [e]
    exact ⟨rd_eq_ok hl, h.val j hl⟩
  let rk := fun r => (⟨unpack (w (4 * r)), unpack (w (4 * r + 1)), unpack (w (4 * r + 2)), unpack (w (4 * r + 3))⟩ : Mat)
  have hs : storeAll W nr = .ok ((List.range (nr + 1)).map rk) := by
    apply mapM_ok
    intro r hr
    rw [List.mem_range] at hr
    unfold stoMatrix
    rw [(hw _ (by omega)).1, Out.bind_ok, (hw _ (by omega)).1, Out.bind_ok, (hw _ (by omega)).1, Out.bind_ok,
      (hw _ (by omega)).1, Out.bind_ok]
    rfl
  refine ⟨_, rk, hs, ?_, ?_⟩
  · intro r hr
    rw [rd_eq_ok (by simp; omega)]
    simp
  · intro r hr
    funext i c
    revert c
    refine fin4 ?_ ?_ ?_ ?_
    · exact congrFun (hw (4 * r) (by omega)).2 i
    · exact congrFun (hw (4 * r + 1) (by omega)).2 i
    · exact congrFun (hw (4 * r + 2) (by omega)).2 i
    · exact congrFun (hw (4 * r + 3) (by omega)).2 i

theorem subkeys128_spec (key : Bytes) : ∃ sks rk, subkeys128 key = .ok sks ∧ Keys 4 10 (keyWordsOf 4 key) sks rk := by
  obtain ⟨W, e, h⟩ := words128_spec key
  obtain ⟨sks, rk, e', h'⟩ := storeAll_spec 10 h
  exact ⟨sks, rk, by unfold subkeys128; rw [e, Out.bind_ok, e'], h'⟩

theorem subkeys192_spec (key : Bytes) : ∃ sks rk, subkeys192 key = .ok sks ∧ Keys 6 12 (keyWordsOf 6 key) sks rk := by
  obtain ⟨W, e, h⟩ := words192_spec key
  obtain ⟨sks, rk, e', h'⟩ := storeAll_spec 12 h
  exact ⟨sks, rk, by unfold subkeys192; rw [e, Out.bind_ok, e'], h'⟩

theorem subkeys256_spec (key : Bytes) : ∃ sks rk, subkeys256 key = .ok sks ∧ Keys 8 14 (keyWordsOf 8 key) sks rk := by
  obtain ⟨W, e, h⟩ := words256_spec key
  obtain ⟨sks, rk, e', h'⟩ := storeAll_spec 14 h
  exact ⟨sks, rk, by unfold subkeys256; rw [e, Out.bind_ok, e'], h'⟩

/-! ### Blocks -/

theorem load_store (b : Bytes) (h : b.length = 16) : ∃ m, load b = .ok m ∧ store m = b := by
  match b, h with
  | [a0, a1, a2, a3, a4, a5, a6, a7, a8, a9, a10, a11, a12, a13, a14, a15], _ => exact ⟨_, rfl, rfl⟩

theorem load_of_store (m : Mat) : load (store m) = .ok m := rfl

/-- The round functions for known round keys. -/
def encF (rk : Nat → Mat) (nr : Nat) (s : Mat) (r : Nat) : Mat :=
  let s := shiftRows 8 16 24 (subBytes sbox s)
  addKey (if r < nr then mixColumns mixCol s else s) (rk r)

def decF (rk : Nat → Mat) (nr : Nat) (s : Mat) (r : Nat) : Mat :=
  let s := addKey s (rk r)
  subBytes invSbox (shiftRows 24 16 8 (if r < nr then mixColumns invMixCol s else s))

theorem addKey_addKey (s k : Mat) : addKey (addKey s k) k = s := by
  obtain ⟨⟨a0, a1, a2, a3⟩, ⟨b0, b1, b2, b3⟩, ⟨c0, c1, c2, c3⟩, ⟨d0, d1, d2, d3⟩⟩ := s
  simp only [addKey, Four.zip, BitVec.xor_assoc, BitVec.xor_self, BitVec.xor_zero]

theorem addKey_comm (s k : Mat) : addKey s k = addKey k s := by
  simp only [addKey, Four.zip, BitVec.xor_comm]

theorem shiftRows_undo (s : Mat) : shiftRows 24 16 8 (shiftRows 8 16 24 s) = s := by
  simp only [shiftRows, unpack_rotl8, unpack_rotl16, unpack_rotl24]
theorem shiftRows_undo' (s : Mat) : shiftRows 8 16 24 (shiftRows 24 16 8 s) = s := by
  simp only [shiftRows, unpack_rotl8, unpack_rotl16, unpack_rotl24]
theorem subBytes_undo (s : Mat) : subBytes invSbox (subBytes sbox s) = s := by
  simp only [subBytes, Four.map, unpack_pack, invSbox_sbox]
theorem subBytes_undo' (s : Mat) : subBytes sbox (subBytes invSbox s) = s := by
  simp only [subBytes, Four.map, unpack_pack, sbox_invSbox]
theorem mixColumns_undo (s : Mat) : mixColumns invMixCol (mixColumns mixCol s) = s := by
  simp only [mixColumns, Four.map, pack_unpack, inv_mix]
theorem mixColumns_undo' (s : Mat) : mixColumns mixCol (mixColumns invMixCol s) = s := by
  simp only [mixColumns, Four.map, pack_unpack, mix_inv]

theorem decF_encF (rk : Nat → Mat) (nr : Nat) (s : Mat) (r : Nat) : decF rk nr (encF rk nr s r) r = s := by
  unfold decF encF
  simp only [addKey_addKey]
  split
  · rw [mixColumns_undo, shiftRows_undo, subBytes_undo]
  · rw [shiftRows_undo, subBytes_undo]

theorem encF_decF (rk : Nat → Mat) (nr : Nat) (s : Mat) (r : Nat) : encF rk nr (decF rk nr s r) r = s := by
  unfold decF encF
  simp only [subBytes_undo', shiftRows_undo']
  split
  · rw [mixColumns_undo', addKey_addKey]
  · rw [addKey_addKey]

/-- The block functions for known round keys. -/
def encM (rk : Nat → Mat) (nr : Nat) (m : Mat) : Mat := (List.range' 1 nr).foldl (encF rk nr) (addKey (rk 0) m)
def decM (rk : Nat → Mat) (nr : Nat) (m : Mat) : Mat := addKey (rk 0) ((List.range' 1 nr).reverse.foldl (decF rk nr) m)

theorem decM_encM (rk : Nat → Mat) (nr : Nat) (m : Mat) : decM rk nr (encM rk nr m) = m := by
  unfold decM encM
  rw [foldl_undo _ _ (decF_encF rk nr), addKey_comm, addKey_comm (rk 0) m, addKey_addKey]

theorem encM_decM (rk : Nat → Mat) (nr : Nat) (m : Mat) : encM rk nr (decM rk nr m) = m := by
  unfold decM encM
  rw [addKey_comm (rk 0) (addKey _ _), addKey_comm (rk 0), addKey_addKey]
  have := foldl_undo _ _ (encF_decF rk nr) (List.range' 1 nr).reverse m
  rwa [List.reverse_reverse] at this

theorem encBlock_eq {nk nr : Nat} {k : Fin nk → Word} {sks : List Mat} {rk : Nat → Mat} (h : Keys nk nr k sks rk) (m : Mat) :
    encBlock sks nr (store m) = .ok (store (encM rk nr m)) := by
  unfold encBlock
  rw [load_of_store, Out.bind_ok, h.rd 0 (Nat.zero_le _), Out.bind_ok,
    forLoop_eq _ (fun r s => encF rk nr s r) nr 1 _ (by
      intro i s h1 h2
      unfold encRound
      rw [h.rd i (by omega)]
      rfl)]
  rfl

theorem decBlock_eq {nk nr : Nat} {k : Fin nk → Word} {sks : List Mat} {rk : Nat → Mat} (h : Keys nk nr k sks rk) (m : Mat) :
    decBlock sks nr (store m) = .ok (store (decM rk nr m)) := by
  unfold decBlock
  rw [load_of_store, Out.bind_ok,
    forLoop_eq _ (fun j s => decF rk nr s (nr - j)) nr 0 _ (by
      intro i s h1 h2
      unfold decRound
      rw [h.rd (nr - i) (by omega)]
      rfl), Out.bind_ok, h.rd 0 (Nat.zero_le _), foldl_down (decF rk nr)]
  rfl

theorem invertible_of {nk nr : Nat} {k : Fin nk → Word} {sks : List Mat} {rk : Nat → Mat} (h : Keys nk nr k sks rk) :
    Invertible 16 (encBlock sks nr) (decBlock sks nr) where
  dec_enc := fun b hb => by
    obtain ⟨m, _, rfl⟩ := load_store b hb
    exact ⟨_, encBlock_eq h m, rfl, by rw [decBlock_eq h, decM_encM]⟩
  enc_dec := fun b hb => by
    obtain ⟨m, _, rfl⟩ := load_store b hb
    exact ⟨_, decBlock_eq h m, rfl, by rw [encBlock_eq h, encM_decM]⟩

/-- C29: the AES block functions undo each other for every key, whatever its length is. -/
theorem aes128_invertible (key : Bytes) : Invertible 16 (enc128 key) (dec128 key) := by
  obtain ⟨sks, rk, e, h⟩ := subkeys128_spec key
  have he : enc128 key = encBlock sks 10 := by funext b; unfold enc128; rw [e, Out.bind_ok]
  have hd : dec128 key = decBlock sks 10 := by funext b; unfold dec128; rw [e, Out.bind_ok]
  rw [he, hd]; exact invertible_of h

theorem aes192_invertible (key : Bytes) : Invertible 16 (enc192 key) (dec192 key) := by
  obtain ⟨sks, rk, e, h⟩ := subkeys192_spec key
  have he : enc192 key = encBlock sks 12 := by funext b; unfold enc192; rw [e, Out.bind_ok]
  have hd : dec192 key = decBlock sks 12 := by funext b; unfold dec192; rw [e, Out.bind_ok]
  rw [he, hd]; exact invertible_of h

theorem aes256_invertible (key : Bytes) : Invertible 16 (enc256 key) (dec256 key) := by
  obtain ⟨sks, rk, e, h⟩ := subkeys256_spec key
  have he : enc256 key = encBlock sks 14 := by funext b; unfold enc256; rw [e, Out.bind_ok]
  have hd : dec256 key = decBlock sks 14 := by funext b; unfold dec256; rw [e, Out.bind_ok]
  rw [he, hd]; exact invertible_of h

/-! ### Conformance -/

theorem store_eq (m : Mat) : store m = List.ofFn fun i : Fin 16 => stateOf m ⟨i % 4, by omega⟩ ⟨i / 4, by omega⟩ := rfl

/-- The cipher of the standard for words of the key. -/
theorem cipher_eq (nk nr : Nat) (hnr : 0 < nr) (key : Fin (4 * nk) → Byte) (rk : Nat → Mat) (m : Mat)
    (hk : ∀ r, r ≤ nr → stateOf (rk r) = fun i (c : Fin 4) => Spec.Aes.w nk key (4 * r + c) i) :
    List.ofFn (Spec.Aes.cipher nk nr key fun i => stateOf m ⟨i % 4, by omega⟩ ⟨i / 4, by omega⟩) = store (encM rk nr m) := by
  have add : ∀ s r, r ≤ nr → stateOf (addKey s (rk r)) = Spec.Aes.addRoundKey nk key r (stateOf s) := by
    intro s r hr
    rw [stateOf_addKey, hk r hr]; rfl
  have rounds : ∀ (l : List Nat) (s : Mat), (∀ r ∈ l, r < nr) → stateOf (l.foldl (encF rk nr) s) =
      l.foldl (fun s r => Spec.Aes.addRoundKey nk key r (Spec.Aes.mixColumns (Spec.Aes.shiftRows (Spec.Aes.subBytes s))))
        (stateOf s) := by
    intro l
    induction l with
    | nil => intro s _; rfl
    | cons r l ih =>
      intro s hl
      have hr : r < nr := hl r (by simp)
      rw [List.foldl_cons, List.foldl_cons, ih _ (fun r' hr' => hl r' (by simp [hr']))]
      congr 1
      unfold encF
      simp only [if_pos hr]
      rw [add _ r (by omega), stateOf_mixColumns, stateOf_shiftRows, stateOf_subBytes]
  have main : stateOf (encM rk nr m) = Spec.Aes.addRoundKey nk key nr (Spec.Aes.shiftRows (Spec.Aes.subBytes
      ((List.range' 1 (nr - 1)).foldl
        (fun s r => Spec.Aes.addRoundKey nk key r (Spec.Aes.mixColumns (Spec.Aes.shiftRows (Spec.Aes.subBytes s))))
        (Spec.Aes.addRoundKey nk key 0 (stateOf m))))) := by
    unfold encM
    have e : List.range' 1 nr = List.range' 1 (nr - 1) ++ [nr] := by
      obtain ⟨n, rfl⟩ : ∃ n, nr = n + 1 := ⟨nr - 1, by omega⟩
      rw [Nat.add_sub_cancel, List.range'_1_concat, Nat.add_comm 1 n]
    rw [e, List.foldl_append, List.foldl_cons, List.foldl_nil, addKey_comm (rk 0) m, ← add m 0 (Nat.zero_le _),
      ← rounds _ _ (by intro r hr; rw [List.mem_range'_1] at hr; omega)]
    generalize (List.range' 1 (nr - 1)).foldl (encF rk nr) (addKey m (rk 0)) = s
    unfold encF
    simp only [Nat.lt_irrefl, if_false]
    rw [add _ nr (Nat.le_refl _), stateOf_shiftRows, stateOf_subBytes]
  have e0 : (fun r c : Fin 4 => stateOf m ⟨(r.val + 4 * c.val) % 4, by omega⟩ ⟨(r.val + 4 * c.val) / 4, by omega⟩) =
      stateOf m := by
    funext r c
    have h1 : (⟨(r.val + 4 * c.val) % 4, by omega⟩ : Fin 4) = r := Fin.ext (by show (r.val + 4 * c.val) % 4 = r.val; omega)
    have h2 : (⟨(r.val + 4 * c.val) / 4, by omega⟩ : Fin 4) = c := Fin.ext (by show (r.val + 4 * c.val) / 4 = c.val; omega)
    rw [h1, h2]
  rw [store_eq, main]
  show List.ofFn (fun i : Fin 16 => Spec.Aes.addRoundKey nk key nr (Spec.Aes.shiftRows (Spec.Aes.subBytes
      ((List.range' 1 (nr - 1)).foldl
        (fun s r => Spec.Aes.addRoundKey nk key r (Spec.Aes.mixColumns (Spec.Aes.shiftRows (Spec.Aes.subBytes s))))
        (Spec.Aes.addRoundKey nk key 0 (fun r c : Fin 4 => stateOf m ⟨(r.val + 4 * c.val) % 4, by omega⟩
          ⟨(r.val + 4 * c.val) / 4, by omega⟩))))) ⟨i % 4, by omega⟩ ⟨i / 4, by omega⟩) = _
  rw [e0]

theorem pack_eq (a b c d : Byte) : BitVec.ofNat 32 (Spec.MD.beNat [a, b, c, d]) = pack ⟨a, b, c, d⟩ := by
  have e : Spec.MD.beNat [a, b, c, d] = 256 * (256 * (256 * a.toNat + b.toNat) + c.toNat) + d.toNat := by
    simp [Spec.MD.beNat]
  have h0 : a.setWidth 32 = BitVec.ofNat 32 a.toNat := by
    rw [← BitVec.toNat_inj]; simp
  rw [e, ← KeyLoad.shl_or 4 _ d _ (by decide) rfl, ← KeyLoad.shl_or 4 _ c _ (by decide) rfl,
    ← KeyLoad.shl_or 4 _ b _ (by decide) rfl]
  unfold pack
  rw [h0]

theorem keyWordsOf_eq (n : Nat) (key : Fin (4 * n) → Byte) :
    keyWordsOf n (List.ofFn key) = fun (i : Fin n) (r : Fin 4) => key ⟨4 * i + r, by omega⟩ := by
  funext i
  unfold keyWordsOf
  have hl : (List.ofFn key).length = 4 * n := List.length_ofFn
  have e := KeyLoad.ldUserKey_full 4 n (by decide) (List.ofFn key) (by omega)
  rw [List.take_of_length_le (by omega)] at e
  have hi : 4 * i.val + 4 ≤ 4 * n := by omega
  have hs : ((List.ofFn key).drop (i.val * 4)).take 4 =
      [key ⟨4 * i, by omega⟩, key ⟨4 * i + 1, by omega⟩, key ⟨4 * i + 2, by omega⟩, key ⟨4 * i + 3, by omega⟩] := by
    apply List.ext_getElem
    · simp; omega
    · intro j h1 h2
      simp only [List.length_cons, List.length_nil] at h2
      simp only [List.getElem_take, List.getElem_drop, List.getElem_ofFn]
      interval_cases j <;> simp [Nat.mul_comm]
  have hx : (KeyLoad.ldUserKey 4 n (List.ofFn key))[i.val]'(by rw [KeyLoad.length_ldUserKey]; exact i.isLt) =
      pack ⟨key ⟨4 * i, by omega⟩, key ⟨4 * i + 1, by omega⟩, key ⟨4 * i + 2, by omega⟩, key ⟨4 * i + 3, by omega⟩⟩ := by
    rw [← pack_eq, ← hs]
    simp only [e, Spec.MD.beWords, Spec.MD.chunks, List.getElem_map, List.getElem_range]
  rw [hx, unpack_pack]
  funext r
  revert r
  exact fin4 rfl rfl rfl rfl

theorem conforms_of {nk nr : Nat} (hnr : 0 < nr) (key : Fin (4 * nk) → Byte) {sks : List Mat} {rk : Nat → Mat}
    (h : Keys nk nr (keyWordsOf nk (List.ofFn key)) sks rk) (inp : Fin 16 → Byte) :
    encBlock sks nr (List.ofFn inp) = .ok (List.ofFn (Spec.Aes.cipher nk nr key inp)) := by
  obtain ⟨m, _, hm⟩ := load_store (List.ofFn inp) List.length_ofFn
  rw [← hm, encBlock_eq h, ← cipher_eq nk nr hnr key rk m (fun r hr => by
    rw [h.val r hr, keyWordsOf_eq]; rfl)]
  congr 3
  rw [store_eq] at hm
  exact List.ofFn_inj.1 hm

/-- C30: the encryption functions are those of FIPS 197 for keys of 128, 192 and 256 bits. -/
theorem aes128_standard (key : Fin (4 * 4) → Byte) (inp : Fin 16 → Byte) :
    enc128 (List.ofFn key) (List.ofFn inp) = .ok (List.ofFn (Spec.Aes.cipher 4 10 key inp)) := by
  obtain ⟨sks, rk, e, h⟩ := subkeys128_spec (List.ofFn key)
  unfold enc128
  rw [e, Out.bind_ok]
  exact conforms_of (by decide) key h inp

theorem aes192_standard (key : Fin (4 * 6) → Byte) (inp : Fin 16 → Byte) :
    enc192 (List.ofFn key) (List.ofFn inp) = .ok (List.ofFn (Spec.Aes.cipher 6 12 key inp)) := by
  obtain ⟨sks, rk, e, h⟩ := subkeys192_spec (List.ofFn key)
  unfold enc192
  rw [e, Out.bind_ok]
  exact conforms_of (by decide) key h inp

theorem aes256_standard (key : Fin (4 * 8) → Byte) (inp : Fin 16 → Byte) :
    enc256 (List.ofFn key) (List.ofFn inp) = .ok (List.ofFn (Spec.Aes.cipher 8 14 key inp)) := by
  obtain ⟨sks, rk, e, h⟩ := subkeys256_spec (List.ofFn key)
  unfold enc256
  rw [e, Out.bind_ok]
  exact conforms_of (by decide) key h inp

/-- C30: decryption is the inverse of the cipher of the standard. -/
theorem aes128_decrypts (key : Fin (4 * 4) → Byte) (inp : Fin 16 → Byte) :
    dec128 (List.ofFn key) (List.ofFn (Spec.Aes.cipher 4 10 key inp)) = .ok (List.ofFn inp) := by
  obtain ⟨c, h1, _, h3⟩ := (aes128_invertible (List.ofFn key)).dec_enc (List.ofFn inp) List.length_ofFn
  rw [aes128_standard] at h1
  cases h1
  exact h3

theorem aes192_decrypts (key : Fin (4 * 6) → Byte) (inp : Fin 16 → Byte) :
    dec192 (List.ofFn key) (List.ofFn (Spec.Aes.cipher 6 12 key inp)) = .ok (List.ofFn inp) := by
  obtain ⟨c, h1, _, h3⟩ := (aes192_invertible (List.ofFn key)).dec_enc (List.ofFn inp) List.length_ofFn
  rw [aes192_standard] at h1
  cases h1
  exact h3

theorem aes256_decrypts (key : Fin (4 * 8) → Byte) (inp : Fin 16 → Byte) :
    dec256 (List.ofFn key) (List.ofFn (Spec.Aes.cipher 8 14 key inp)) = .ok (List.ofFn inp) := by
  obtain ⟨c, h1, _, h3⟩ := (aes256_invertible (List.ofFn key)).dec_enc (List.ofFn inp) List.length_ofFn
  rw [aes256_standard] at h1
  cases h1
  exact h3

/-- The example vector of FIPS 197, appendix C.1 (a test). -/
example : enc128 ((List.range 16).map (BitVec.ofNat 8)) ((List.range 16).map fun i => BitVec.ofNat 8 (17 * i)) =
    .ok [0x69#8, 0xC4#8, 0xE0#8, 0xD8#8, 0x6A#8, 0x7B#8, 0x04#8, 0x30#8, 0xD8#8, 0xCD#8, 0xB7#8, 0x80#8, 0x70#8, 0xB4#8, 0xC5#8,
      0x5A#8] := by decide +kernel

/-- The ciphers of the generic modes. -/
theorem aes128_lawful (key : Bytes) : Lawful (ofOut 16 (by decide) (enc128 key) (dec128 key)) := (aes128_invertible key).lawful _
theorem aes192_lawful (key : Bytes) : Lawful (ofOut 16 (by decide) (enc192 key) (dec192 key)) := (aes192_invertible key).lawful _
theorem aes256_lawful (key : Bytes) : Lawful (ofOut 16 (by decide) (enc256 key) (dec256 key)) := (aes256_invertible key).lawful _

/-- C68 fails at the level of the cipher: two different keys of 15 bytes are the same AES-128 key.  (Lengths other than 16 are
not refused.) -/
theorem aes128_key_ignored (cs : Bytes) (hc : cs.length = 12) (x y c c' : Byte) (block : Bytes) :
    enc128 (cs ++ [c, x, y]) block = enc128 (cs ++ [c', x, y]) block := by
  unfold enc128 subkeys128 words128
  rw [KeyLoad.ldUserKey_ignores 4 4 cs [x, y] c c' 3 hc (by decide) (by simp) (by simp)]

end Kryptos.Aes
