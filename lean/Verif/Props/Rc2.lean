import Verif.Model.Rc2
import Verif.Lemmas.Rot
import Verif.Props.KeyLoad
import Mathlib.Data.BitVec
import Mathlib.Tactic.Abel
/-
  RC2: the block functions undo each other for every key and every effective key size up to 1024; the accepted size 1025 is
  undefined.
-/
namespace Kryptos.Rc2
open Block KeyLoad

theorem rol_eq (x : W16) (s : Nat) (h : s < 16) : rol x s = x.rotateLeft s := by
  unfold rol; rw [BitVec.rotateLeft_def, Nat.mod_eq_of_lt h]
theorem ror_eq (x : W16) (s : Nat) (h : s < 16) : ror x s = x.rotateRight s := by
  unfold ror; rw [BitVec.rotateRight_def, Nat.mod_eq_of_lt h]
theorem ror_rol (x : W16) (s : Nat) (h : s < 16) : ror (rol x s) s = x := by
  rw [rol_eq _ _ h, ror_eq _ _ h, rotateRight_rotateLeft _ _ h]
theorem rol_ror (x : W16) (s : Nat) (h : s < 16) : rol (ror x s) s = x := by
  rw [rol_eq _ _ h, ror_eq _ _ h, rotateLeft_rotateRight _ _ h]

theorem rmix_mix (x a b c k : W16) (s : Nat) (h : s < 16) : rmix (mix x a b c k s) a b c k s = x := by
  unfold rmix mix; rw [ror_rol _ _ h]; abel
theorem mix_rmix (x a b c k : W16) (s : Nat) (h : s < 16) : mix (rmix x a b c k s) a b c k s = x := by
  unfold rmix mix
  rw [show ror x s - k - (c &&& b) - (~~~c &&& a) + k + (c &&& b) + (~~~c &&& a) = ror x s by abel, rol_ror _ _ h]

theorem rev_rev (v : W16) : rev (rev v) = v := by
  unfold rev
  apply BitVec.eq_of_getLsbD_eq; intro i hi
  interval_cases i <;> simp

theorem load_store (s : Four 16) : load (store s) = .ok s := by
  unfold load store
  rw [getBe16_word _ 0 0 (rev s.a) rfl rfl, getBe16_word _ 1 2 (rev s.b) rfl rfl, getBe16_word _ 2 4 (rev s.c) rfl rfl,
    getBe16_word _ 3 6 (rev s.d) rfl rfl]
  simp only [Out.bind_ok, rev_rev, Out.pure_eq]

theorem store_surj (b : Bytes) (h : b.length = 8) : ∃ s, store s = b := by
  obtain ⟨ws, h1, rfl⟩ := words_be16 4 b h
  match ws, h1 with
  | [x, y, z, u], _ => exact ⟨⟨rev x, rev y, rev z, rev u⟩, by simp only [store, rev_rev]⟩

theorem store_len (s : Four 16) : (store s).length = 8 := by unfold store; rw [flatMap_putBe16_length]; rfl

/-- The rounds with the subkeys `K`. -/
def mixP (K : List W16) (r : Four 16) (i : Nat) : Four 16 :=
  let a := mix r.a r.b r.c r.d (K.getD (4 * i) 0) 1
  let b := mix r.b r.c r.d a (K.getD (4 * i + 1) 0) 2
  let c := mix r.c r.d a b (K.getD (4 * i + 2) 0) 3
  let d := mix r.d a b c (K.getD (4 * i + 3) 0) 5
  ⟨a, b, c, d⟩
def rmixP (K : List W16) (r : Four 16) (i : Nat) : Four 16 :=
  let d := rmix r.d r.a r.b r.c (K.getD (4 * i + 3) 0) 5
  let c := rmix r.c d r.a r.b (K.getD (4 * i + 2) 0) 3
  let b := rmix r.b c d r.a (K.getD (4 * i + 1) 0) 2
  let a := rmix r.a b c d (K.getD (4 * i) 0) 1
  ⟨a, b, c, d⟩
theorem rmixP_mixP (K : List W16) (r : Four 16) (i : Nat) : rmixP K (mixP K r i) i = r := by
  unfold rmixP mixP
  simp only [rmix_mix _ _ _ _ _ 1 (by decide), rmix_mix _ _ _ _ _ 2 (by decide), rmix_mix _ _ _ _ _ 3 (by decide),
    rmix_mix _ _ _ _ _ 5 (by decide)]
theorem mixP_rmixP (K : List W16) (r : Four 16) (i : Nat) : mixP K (rmixP K r i) i = r := by
  unfold rmixP mixP
  simp only [mix_rmix _ _ _ _ _ 1 (by decide), mix_rmix _ _ _ _ _ 2 (by decide), mix_rmix _ _ _ _ _ 3 (by decide),
    mix_rmix _ _ _ _ _ 5 (by decide)]

def at63 (K : List W16) (c : W16) : W16 := K.getD (c &&& 63#16).toNat 0
def mashP (K : List W16) (r : Four 16) : Four 16 :=
  let a := r.a + at63 K r.d
  let b := r.b + at63 K a
  let c := r.c + at63 K b
  let d := r.d + at63 K c
  ⟨a, b, c, d⟩
def rmashP (K : List W16) (r : Four 16) : Four 16 :=
  let d := r.d - at63 K r.c
  let c := r.c - at63 K r.b
  let b := r.b - at63 K r.a
  let a := r.a - at63 K d
  ⟨a, b, c, d⟩
theorem rmashP_mashP (K : List W16) (r : Four 16) : rmashP K (mashP K r) = r := by
  unfold rmashP mashP; simp only [add_sub_cancel_right]
theorem mashP_rmashP (K : List W16) (r : Four 16) : mashP K (rmashP K r) = r := by
  unfold rmashP mashP; simp only [sub_add_cancel]

theorem mixing_eq (K : List W16) (h : K.length = 64) (i : Nat) (hi : i < 16) (r : Four 16) : mixing K (4 * i) r = .ok (mixP K r i) := by
  unfold mixing
  simp (disch := omega) only [rd_getD (0 : W16), Out.bind_ok, Out.pure_eq]
  rfl
theorem rmixing_eq (K : List W16) (h : K.length = 64) (i : Nat) (hi : i < 16) (r : Four 16) : rmixing K (4 * i) r = .ok (rmixP K r i) := by
  unfold rmixing
  simp (disch := omega) only [rd_getD (0 : W16), Out.bind_ok, Out.pure_eq]
  rfl

theorem and63_lt (x : W16) : (x &&& 63#16).toNat < 64 := by
  rw [BitVec.toNat_and, show (63#16).toNat = 2 ^ 6 - 1 from rfl, Nat.and_two_pow_sub_one_eq_mod]
  exact Nat.mod_lt _ (by decide)
theorem mash_eq (K : List W16) (h : K.length = 64) (x c : W16) : mash K x c = .ok (x + at63 K c) := by
  unfold mash; rw [rd_getD 0 (by rw [h]; exact and63_lt c)]; rfl
theorem rmash_eq (K : List W16) (h : K.length = 64) (x c : W16) : rmash K x c = .ok (x - at63 K c) := by
  unfold rmash; rw [rd_getD 0 (by rw [h]; exact and63_lt c)]; rfl
theorem mashing_eq (K : List W16) (h : K.length = 64) (r : Four 16) : mashing K r = .ok (mashP K r) := by
  unfold mashing; simp only [mash_eq K h, Out.bind_ok]; rfl
theorem rmashing_eq (K : List W16) (h : K.length = 64) (r : Four 16) : rmashing K r = .ok (rmashP K r) := by
  unfold rmashing; simp only [rmash_eq K h, Out.bind_ok]; rfl

def E (K : List W16) (r : Four 16) : Four 16 :=
  (List.range' 11 5).foldl (mixP K) (mashP K ((List.range' 5 6).foldl (mixP K) (mashP K ((List.range' 0 5).foldl (mixP K) r))))
def D (K : List W16) (r : Four 16) : Four 16 :=
  (List.range' 0 5).reverse.foldl (rmixP K) (rmashP K ((List.range' 5 6).reverse.foldl (rmixP K) (rmashP K
    ((List.range' 11 5).reverse.foldl (rmixP K) r))))

theorem encBlock_eq (K : List W16) (h : K.length = 64) (s : Four 16) : encBlock K (store s) = .ok (store (E K s)) := by
  unfold encBlock
  have e : ∀ n t s, t + n ≤ 16 → forLoop (fun i => mixing K (4 * i)) n t s = .ok ((List.range' t n).foldl (mixP K) s) := by
    intro n t s hn
    exact forLoop_eq _ (fun i s => mixP K s i) n t s (fun i s h1 h2 => mixing_eq K h i (by omega) s)
  rw [load_store, Out.bind_ok, e 5 0 _ (by decide), Out.bind_ok, mashing_eq K h, Out.bind_ok, e 6 5 _ (by decide), Out.bind_ok,
    mashing_eq K h, Out.bind_ok, e 5 11 _ (by decide)]
  rfl

theorem decBlock_eq (K : List W16) (h : K.length = 64) (s : Four 16) : decBlock K (store s) = .ok (store (D K s)) := by
  unfold decBlock
  have e : ∀ n t s, t + n ≤ 16 → forLoop (fun i => rmixing K (4 * (15 - i))) n t s =
      .ok ((List.range' t n).foldl (fun s i => rmixP K s (15 - i)) s) := by
    intro n t s hn
    exact forLoop_eq _ (fun i s => rmixP K s (15 - i)) n t s (fun i s h1 h2 => rmixing_eq K h (15 - i) (by omega) s)
  rw [load_store, Out.bind_ok, e 5 0 _ (by decide), Out.bind_ok, rmashing_eq K h, Out.bind_ok, e 6 5 _ (by decide), Out.bind_ok,
    rmashing_eq K h, Out.bind_ok, e 5 11 _ (by decide)]
  rfl

theorem D_E (K : List W16) (s : Four 16) : D K (E K s) = s := by
  unfold D E
  rw [foldl_undo _ _ (rmixP_mixP K), rmashP_mashP, foldl_undo _ _ (rmixP_mixP K), rmashP_mashP, foldl_undo _ _ (rmixP_mixP K)]
theorem E_D (K : List W16) (s : Four 16) : E K (D K s) = s := by
  unfold D E
  rw [foldl_undo' _ _ (mixP_rmixP K), mashP_rmashP, foldl_undo' _ _ (mixP_rmixP K), mashP_rmashP, foldl_undo' _ _ (mixP_rmixP K)]

theorem pitable_defined (n : Nat) (h : n < 256) : ∃ x, pitable n = .ok x := by
  have hl : PI.length = 256 := by decide +kernel
  exact ⟨_, rd_getD 0 (by omega)⟩

/-- The key expansion stays within its arrays when the effective size is at most 1024 bits. -/
theorem inflate_defined (T1 : Nat) (key : Bytes) (h1 : 1 ≤ T1) (h2 : T1 ≤ 1024) (h3 : 1 ≤ key.length) (h4 : key.length ≤ 128) :
    ∃ K, inflate T1 key = .ok K ∧ K.length = 64 := by
  have hk : (ldUserKey 2 64 key).length = 64 := length_ldUserKey 2 64 key
  have h0 : ((ldUserKey 2 64 key).flatMap fun x => [getByte x 0, getByte x 1]).length = 128 := by
    rw [List.length_flatMap]
    simp [hk]
  unfold inflate
  simp only []
  generalize ((ldUserKey 2 64 key).flatMap fun x => [getByte x 0, getByte x 1]) = L at h0 ⊢
  obtain ⟨L1, e1, l1⟩ := forLoop_inv (grow key.length) (fun _ L => L.length = 128) (128 - key.length) key.length L
    (fun i L a b hL => by
      unfold grow
      rw [rd_getD 0 (by omega), Out.bind_ok, rd_getD 0 (by omega), Out.bind_ok]
      obtain ⟨x, hx⟩ := pitable_defined (((L.getD (i - 1) 0).toNat + (L.getD (i - key.length) 0).toNat) % 256) (Nat.mod_lt _ (by decide))
      rw [hx, Out.bind_ok, wr_of_lt (by omega)]
      exact ⟨_, rfl, by rw [List.length_set]; exact hL⟩) h0
  rw [e1, Out.bind_ok, if_neg (by omega)]
  simp only [Out.pure_eq, Out.bind_ok]
  rw [rd_getD 0 (by omega), Out.bind_ok]
  obtain ⟨x, hx⟩ := pitable_defined ((L1.getD (128 - (T1 + 7) / 8) 0).toNat &&& 255 % 2 ^ (8 + T1 - 8 * ((T1 + 7) / 8)))
    (Nat.lt_of_le_of_lt Nat.and_le_left (BitVec.isLt _))
  rw [hx, Out.bind_ok, wr_of_lt (by omega), Out.bind_ok]
  have l2 : (L1.set (128 - (T1 + 7) / 8) x).length = 128 := by rw [List.length_set]; exact l1
  generalize L1.set (128 - (T1 + 7) / 8) x = L2 at l2 ⊢
  obtain ⟨L3, e3, l3⟩ := forLoop_inv (fun i => shrink ((T1 + 7) / 8) (128 - (T1 + 7) / 8 - 1 - i)) (fun _ L => L.length = 128)
    (128 - (T1 + 7) / 8) 0 L2 (fun i L a b hL => by
      show ∃ s', shrink ((T1 + 7) / 8) (128 - (T1 + 7) / 8 - 1 - i) L = .ok s' ∧ _
      unfold shrink
      rw [rd_getD 0 (by omega), Out.bind_ok, rd_getD 0 (by omega), Out.bind_ok]
      obtain ⟨y, hy⟩ := pitable_defined (L.getD (128 - (T1 + 7) / 8 - 1 - i + 1) 0 ^^^
        L.getD (128 - (T1 + 7) / 8 - 1 - i + (T1 + 7) / 8) 0).toNat (BitVec.isLt _)
      rw [hy, Out.bind_ok, wr_of_lt (by omega)]
      exact ⟨_, rfl, by rw [List.length_set]; exact hL⟩) l2
  rw [e3, Out.bind_ok, mapM_ok _ (fun j => (L3.getD (2 * j + 1) 0).setWidth 16 <<< 8 ||| (L3.getD (2 * j) 0).setWidth 16) _ (fun j hj => by
    rw [List.mem_range] at hj
    rw [rd_getD 0 (by omega), Out.bind_ok, rd_getD 0 (by omega)]; rfl)]
  exact ⟨_, rfl, by simp⟩

/-- C29 for RC2: every key and effective size the library accepts, except 1025. -/
theorem rc2_invertible (T1 : Nat) (key : Bytes) (h : paramsOk T1 key = true) (h1 : 1 ≤ key.length) (h2 : T1 ≠ 1025) :
    Invertible 8 (enc T1 key) (dec T1 key) := by
  unfold paramsOk at h
  simp only [Bool.and_eq_true, Bool.not_eq_true', Bool.or_eq_false_iff, decide_eq_false_iff_not, decide_eq_true_eq] at h
  obtain ⟨K, e, l⟩ := inflate_defined T1 key (by omega) (by omega) h1 h.1
  refine Invertible.ofState store store_surj store_len (E K) (D K) (fun s => ?_) (fun s => ?_) (D_E K) (E_D K)
  · unfold enc; rw [e, Out.bind_ok, encBlock_eq K l]
  · unfold dec; rw [e, Out.bind_ok, decBlock_eq K l]

/-- C29 fails for the accepted size 1025: whatever the key and the block, the expansion writes before its array. -/
theorem rc2_1025_undefined (key block : Bytes) : enc 1025 key block = .ub := by
  have : inflate 1025 key = .ub := by
    unfold inflate
    simp only []
    cases forLoop (grow key.length) (128 - key.length) key.length
        ((ldUserKey 2 64 key).flatMap fun x => [getByte x 0, getByte x 1]) with
    | ok L => rfl
    | ub => rfl
  unfold enc
  rw [this]
  rfl
theorem rc2_1025_accepted (key : Bytes) (h : key.length ≤ 128) : paramsOk 1025 key = true := by
  unfold paramsOk; simp [h]

/-- A test vector of RFC 2268 (effective size 63); its parameters are accepted. -/
example : paramsOk 63 (List.replicate 8 0) = true := by decide
set_option maxRecDepth 20000 in
example : enc 63 (List.replicate 8 0) (List.replicate 8 0) = .ok [0xEB, 0xB7, 0x73, 0xF9, 0x93, 0x27, 0x8E, 0xFF] := by
  decide +kernel

end Kryptos.Rc2
