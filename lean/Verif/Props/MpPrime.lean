import Verif.Model.MpPrime
import Verif.Props.MpInv
import Verif.Props.MpHex
import Verif.Props.SmallPrimes
import Verif.Lemmas.Sha
import Mathlib.Data.Finset.Card
import Mathlib.Data.Fintype.BigOperators
/-
  Random big numbers (C43) and the filter with small primes (C66).
-/
namespace Kryptos.Mp
open Spec.Mp

variable {w : Nat}

/-! ### Random numbers -/

/-- The bytes that `kryptos_mp_gen_random` reads, lowest digit first. -/
def drawn (rnd : Nat → Byte) (i n : Nat) : Bytes := (List.range n).map fun d => rnd (i + (n - 1 - d))

theorem genRandomRaw_eq (rnd : Nat → Byte) (i : Nat) (n : Num w) :
    genRandomRaw rnd i n = ⟨(drawn rnd i (genRandomBytes n)).map (·.setWidth w), false⟩ := by
  simp [genRandomRaw, drawn, Function.comp_def]

/-- At most `256 ^ L` values come out of `kryptos_mp_gen_random` for a bound of `L` digits: when the bound is larger, some value
below it is never produced, whatever the source of random bytes gives. -/
theorem genRandom_misses (hw : 8 ≤ w) (n : Num w) (hn : n.data ≠ []) (hbig : 256 ^ n.data.length < val n.data) :
    ∃ v, v < val n.data ∧ ∀ rnd i r, genRandom rnd i n = .ok (some r) → val r.data ≠ v := by
  classical
  have hL : genRandomBytes n = n.data.length := by
    rw [genRandomBytes, newSize_mul hw]
    exact Nat.max_eq_left (List.length_pos_iff.2 hn)
  set L := n.data.length with hLd
  let out : (Fin L → Fin 256) → Nat := fun b => match div (⟨(List.ofFn fun d => (BitVec.ofFin (b d) : Byte)).map (·.setWidth w), false⟩ : Num w) n with
    | .ok (some (_, r)) => val r.data
    | _ => 0
  let img : Finset Nat := Finset.univ.image out
  have hcard : img.card < (Finset.range (val n.data)).card := by
    rw [Finset.card_range]
    refine lt_of_le_of_lt Finset.card_image_le ?_
    rw [Finset.card_univ, Fintype.card_fun, Fintype.card_fin, Fintype.card_fin]
    exact hbig
  obtain ⟨v, hv1, hv2⟩ := Finset.exists_mem_notMem_of_card_lt_card hcard
  refine ⟨v, Finset.mem_range.1 hv1, fun rnd i r h hrv => hv2 ?_⟩
  refine Finset.mem_image.2 ⟨fun d => (rnd (i + (L - 1 - d))).toFin, Finset.mem_univ _, ?_⟩
  have e : List.ofFn (fun d : Fin L => rnd (i + (L - 1 - d))) = drawn rnd i L := by
    rw [drawn, List.ofFn_eq_map, ← List.map_coe_finRange_eq_range, List.map_map]; rfl
  simp only [genRandom, genRandomRaw_eq, hL] at h
  simp only [out, BitVec.ofFin_toFin, e]
  cases hd : div (⟨(drawn rnd i L).map (·.setWidth w), false⟩ : Num w) n with
  | ub => rw [hd] at h; cases h
  | ok q =>
    cases q with
    | none => rw [hd] at h; cases h
    | some q =>
      rw [hd, Out.bind_ok] at h
      simp only [Option.map_some, Out.ok.injEq, Option.some.injEq] at h
      simp only [h, hrv]

/-- In particular for every bound of two or more digits whose highest digit is not zero. -/
theorem genRandom_misses_long (hw : 32 ≤ w) (n : Num w) (h2 : 2 ≤ n.data.length) (htop : sig n.data = n.data.length) :
    ∃ v, v < val n.data ∧ ∀ rnd i r, genRandom rnd i n = .ok (some r) → val r.data ≠ v := by
  refine genRandom_misses (by omega) n (List.ne_nil_of_length_pos (by omega)) ?_
  refine lt_of_lt_of_le ?_ (sig_pos_le n.data (by omega))
  rw [show 256 = 2 ^ 8 from rfl, ← pow_mul, htop]
  refine Nat.pow_lt_pow_right (by omega) ?_
  have : 32 * (n.data.length - 1) ≤ w * (n.data.length - 1) := Nat.mul_le_mul_right _ hw
  omega

example : ∃ v, v < 2 ^ 64 + 5 ∧ ∀ rnd i r, genRandom rnd i (⟨[5, 1], false⟩ : Num 64) = .ok (some r) → val r.data ≠ v :=
  genRandom_misses_long (by decide) (⟨[5, 1], false⟩ : Num 64) (by decide) (by decide)

/-- Bounds of one digit above 256: the result is less than 256. -/
theorem genRandom_small (hw : 16 ≤ w) (n : Num w) (h1 : n.data.length = 1) (hn : n.neg = false) (hbig : 256 ≤ val n.data)
    (rnd : Nat → Byte) (i : Nat) :
    ∃ r, genRandom rnd i n = .ok (some r) ∧ val r.data = (rnd i).toNat ∧ val r.data < 256 := by
  have hL : genRandomBytes n = 1 := by
    rw [genRandomBytes, newSize_mul (by omega), h1]; rfl
  obtain ⟨q, r, d1, d2, d3⟩ := div_single_digit hw (genRandomRaw rnd i n) n (by simp [genRandomRaw, hL]) rfl hn (by omega) h1
  have hv : val (genRandomRaw rnd i n).data = (rnd i).toNat := by
    have : (rnd i).toNat < 2 ^ w := lt_of_lt_of_le (rnd i).isLt (Nat.pow_le_pow_right (by omega) (by omega))
    simp [genRandomRaw, hL, val, Nat.mod_eq_of_lt this]
  have hb := (rnd i).isLt
  have hr : val r.data = (rnd i).toNat := by rw [d3, hv, Nat.mod_eq_of_lt (by omega)]
  exact ⟨r, by rw [genRandom, d1]; rfl, hr, by omega⟩

/-- For bounds up to 256 every value below the bound is produced.  Missing for the full property: larger bounds, for which it is
false (`genRandom_misses`, `genRandom_small`). -/
theorem genRandom_covers_partial (hw : 16 ≤ w) (n : Num w) (h1 : n.data.length = 1) (hn : n.neg = false)
    (hle : val n.data ≤ 256) (v : Nat) (hv : v < val n.data) :
    ∃ rnd r, genRandom rnd 0 n = .ok (some r) ∧ val r.data = v := by
  have hL : genRandomBytes n = 1 := by
    rw [genRandomBytes, newSize_mul (by omega), h1]; rfl
  let rnd : Nat → Byte := fun _ => BitVec.ofNat 8 v
  obtain ⟨q, r, d1, d2, d3⟩ := div_single_digit hw (genRandomRaw rnd 0 n) n (by simp [genRandomRaw, hL]) rfl hn (by omega) h1
  have hv' : val (genRandomRaw rnd 0 n).data = v := by
    have : v < 2 ^ w := lt_of_lt_of_le (show v < 2 ^ 8 by omega) (Nat.pow_le_pow_right (by omega) (by omega))
    simp [genRandomRaw, hL, val, rnd, Nat.mod_eq_of_lt this, Nat.mod_eq_of_lt (show v < 256 by omega)]
  exact ⟨rnd, r, by rw [genRandom, d1]; rfl, by rw [d3, hv', Nat.mod_eq_of_lt hv]⟩

/-- The result is below the bound, for bounds of one digit. -/
theorem genRandom_lt (hw : 16 ≤ w) (n : Num w) (h1 : n.data.length = 1) (hn : n.neg = false) (h0 : val n.data ≠ 0)
    (rnd : Nat → Byte) (i : Nat) : ∃ r, genRandom rnd i n = .ok (some r) ∧ val r.data < val n.data := by
  have hL : genRandomBytes n = 1 := by
    rw [genRandomBytes, newSize_mul (by omega), h1]; rfl
  obtain ⟨q, r, d1, d2, d3⟩ := div_single_digit hw (genRandomRaw rnd i n) n (by simp [genRandomRaw, hL]) rfl hn h0 h1
  exact ⟨r, by rw [genRandom, d1]; rfl, by rw [d3]; exact Nat.mod_lt _ (by omega)⟩

/-- `kryptos_mp_rand` can produce every number of its size; the size is the number of bits rounded down to whole digits, at
least one digit. -/
theorem rand_covers (k : Nat) (hk : 0 < k) (bits : Nat) (d : Digits (8 * k)) (hd : d.length = max (bits / (8 * k)) 1) :
    ∃ rnd, rand (8 * k) rnd 0 bits = ⟨d, false⟩ := by
  have hfold : ∀ (bs : Bytes) (acc : BitVec (8 * k)),
      (bs.foldl (fun (acc : BitVec (8 * k)) b => (acc <<< 8) ||| b.setWidth (8 * k)) acc).toNat =
        (acc.toNat * 256 ^ bs.length + Spec.MD.beNat bs) % 2 ^ (8 * k) := by
    intro bs
    induction bs with
    | nil => intro acc; simp [Spec.MD.beNat, Nat.mod_eq_of_lt acc.isLt]
    | cons b bs ih =>
      intro acc
      rw [List.foldl_cons, ih, Hash.beNat_cons, List.length_cons]
      have h8 : 2 ^ 8 ∣ 2 ^ (8 * k) := Nat.pow_dvd_pow 2 (by omega)
      have e : ((acc <<< 8) ||| b.setWidth (8 * k)).toNat = (acc.toNat * 256 + b.toNat) % 2 ^ (8 * k) := by
        rw [BitVec.toNat_or, BitVec.toNat_shiftLeft, BitVec.toNat_setWidth, Nat.shiftLeft_eq,
          Nat.mod_eq_of_lt (lt_of_lt_of_le b.isLt (Nat.le_of_dvd (Nat.two_pow_pos _) h8))]
        obtain ⟨c, hc⟩ := h8
        rw [show (256 : Nat) = 2 ^ 8 from rfl, hc, Nat.mul_comm acc.toNat, Nat.mul_mod_mul_left,
          ← Nat.two_pow_add_eq_or_of_lt b.isLt, Nat.mod_mul, Nat.mul_add_mod, Nat.mod_eq_of_lt b.isLt,
          Nat.mul_add_div (by decide), Nat.div_eq_of_lt b.isLt, Nat.add_zero, Nat.add_comm]
      rw [e, Nat.add_mod, Nat.mul_mod, Nat.mod_mod, ← Nat.mul_mod, ← Nat.add_mod]
      congr 1
      rw [pow_succ]; ring
  let bytes : Nat → Bytes := fun j => Spec.MD.be k ((d[j]?.getD 0).toNat)
  let rnd : Nat → Byte := fun j => (bytes (j / k))[j % k]?.getD 0
  refine ⟨rnd, ?_⟩
  have hn : newSize (8 * k) (bits / (8 * k) * (8 * k)) = d.length := by rw [newSize_mul (by omega), hd]
  have hdig : ∀ j, randDigit (8 * k) rnd (0 + j * (8 * k / 8)) = d[j]?.getD 0 := by
    intro j
    have hlist : (List.range k).map (fun t => rnd (j * k + t)) = bytes j := by
      apply List.ext_getElem
      · simp [bytes, Hash.be_length]
      · intro t h1 h2
        simp only [List.length_map, List.length_range] at h1
        simp only [List.getElem_map, List.getElem_range, rnd]
        rw [Nat.mul_comm j k, Nat.mul_add_div (by omega), Nat.div_eq_of_lt h1, Nat.mul_add_mod, Nat.mod_eq_of_lt h1, Nat.add_zero,
          List.getElem?_eq_getElem h2, Option.getD_some]
    apply BitVec.eq_of_toNat_eq
    rw [randDigit, show 8 * k / 8 = k by omega, Nat.zero_add,
      ← List.foldl_map (f := fun t => rnd (j * k + t)) (g := fun (acc : BitVec (8 * k)) b => (acc <<< 8) ||| b.setWidth (8 * k)),
      hlist, hfold, show (0 : BitVec (8 * k)).toNat = 0 by simp, Nat.zero_mul, Nat.zero_add, Hash.beNat_be,
      show 256 ^ k = 2 ^ (8 * k) by rw [pow_mul]; rfl, Nat.mod_mod, Nat.mod_eq_of_lt (BitVec.isLt _)]
  rw [rand, hn]
  congr 1
  apply List.ext_getElem
  · simp [randDigits]
  · intro j h1 h2
    simp only [randDigits, List.getElem_map, List.getElem_range]
    rw [hdig, List.getElem?_eq_getElem h2, Option.getD_some]

/-- For 100 bits, digits of 64 bits: one digit, and every value of it. -/
example : ∃ rnd, rand 64 rnd 0 100 = ⟨[0x0123456789ABCDEF], false⟩ := rand_covers 8 (by decide) 100 _ (by decide)

/-- The number of bits asked for is rounded down: fewer bits come out than wanted. -/
theorem rand_short (w : Nat) (hw : 8 ≤ w) (rnd : Nat → Byte) (i bits : Nat) (hb : w ≤ bits) :
    val (rand w rnd i bits).data < 2 ^ (bits / w * w) := by
  have hq : 0 < bits / w := Nat.div_pos hb (by omega)
  have hl : (rand w rnd i bits).data.length = bits / w := by
    simp [rand, randDigits, newSize_mul hw, Nat.max_eq_left hq]
  have := val_lt (rand w rnd i bits).data
  rw [hl, Nat.mul_comm w] at this
  exact this

example : ∀ rnd i, val (rand 64 rnd i 127).data < 2 ^ 64 := fun rnd i => rand_short 64 (by decide) rnd i 127 (by decide)

/-! ### The filter with small primes -/

theorem hex4_isHex (p : Nat) (hp : p < 65536) : IsHex (hex4 p) p := by
  have key : ∀ d, d < 16 → hexDigit? (BitVec.ofNat 8 (if d < 10 then 48 + d else 55 + d)) = some d := by decide
  refine ⟨[p / 4096 % 16, p / 256 % 16, p / 16 % 16, p % 16], ?_, ?_⟩
  · simp only [hex4, List.map_cons, List.map_nil, List.mapM_cons, List.mapM_nil]
    rw [key _ (Nat.mod_lt _ (by decide)), key _ (Nat.mod_lt _ (by decide)), key _ (Nat.mod_lt _ (by decide)),
      key _ (Nat.mod_lt _ (by decide))]
    rfl
  · simp only [ofDigitsBE, List.foldl_cons, List.foldl_nil]
    omega

/-- Division by a number of one digit. -/
theorem Is.div1 (hw : 16 ≤ w) {x y : Num w} {n m : Nat} (hx : Is x n) (hy : Is y m) (h1 : y.data.length = 1) (hm : m ≠ 0) :
    ∃ q r, div x y = .ok (some (q, r)) ∧ Is q (n / m) ∧ Is r (n % m) := by
  have hx' := List.ne_nil_of_length_pos hx.1
  have hy0 : val y.data ≠ 0 := by rw [hy.2.2]; exact hm
  obtain ⟨q, r, d1, d2, d3⟩ := div_single_digit hw x y hx' hx.2.1 hy.2.1 hy0 h1
  obtain ⟨q', r', e1, e2, e3, e4, e5, -⟩ := div_exact_iff hw x y hx' hx.2.1 hy.2.1 hy0
  rw [d1] at e1
  injection e1 with e1
  injection e1 with e1
  injection e1 with e1 e1'
  subst e1 e1'
  rw [hx.2.2, hy.2.2] at d2 d3
  exact ⟨q, r, d1, ⟨List.length_pos_iff.2 e4, e2, d2⟩, ⟨List.length_pos_iff.2 e5, e3, d3⟩⟩

/-- The test divides by every prime of the list. -/
theorem smallPrimesTest_spec (k : Nat) (hk : 2 ≤ k) (n : Num (8 * k)) (N : Nat) (hn : Is n N) (ps : List Nat)
    (hps : ∀ p ∈ ps, 0 < p ∧ p < 65536) : smallPrimesTest n ps = .ok (decide (∀ p ∈ ps, ¬ p ∣ N)) := by
  induction ps with
  | nil => simp [smallPrimesTest]
  | cons p ps ih =>
    obtain ⟨p0, p1⟩ := hps p (by simp)
    obtain ⟨d, h1, h2, h3⟩ := hex_read k (by omega) (hex4 p) p (by simp [hex4]) (hex4_isHex p p1)
    have hl : d.length = 1 := by
      rw [h3, show (hex4 p).length = 4 by simp [hex4]]
      rw [Nat.div_eq_iff (by omega)]
      omega
    obtain ⟨q, r, e1, -, e3⟩ := hn.div1 (by omega) (⟨by simp [hl], rfl, h2⟩ : Is (⟨d, false⟩ : Num (8 * k)) p) hl (by omega)
    rw [smallPrimesTest, h1]
    simp only [e1, Out.bind_ok, e3.eq is_zero, decide_eq_true_eq]
    by_cases hd : p ∣ N
    · rw [if_pos (Nat.mod_eq_zero_of_dvd hd)]
      simp [hd]
    · rw [if_neg (fun h => hd (Nat.dvd_of_mod_eq_zero h)), ih fun q hq => hps q (by simp [hq])]
      simp [hd]

/-- A candidate passes the filter exactly when no odd prime up to 17863 divides it. -/
theorem smallPrimesTest_exact (k : Nat) (hk : 2 ≤ k) (n : Num (8 * k)) (hn : n.data ≠ []) (hneg : n.neg = false) :
    ∃ v, smallPrimesTest n smallPrimes = .ok v ∧
      (v = true ↔ ∀ p, p.Prime → p ≠ 2 → p ≤ 17863 → ¬ p ∣ val n.data) := by
  refine ⟨_, smallPrimesTest_spec k hk n _ (.intro hn hneg) smallPrimes fun p hp => ?_, ?_⟩
  · obtain ⟨h1, -, h3⟩ := (smallPrimes_complete p).1 hp
    exact ⟨h1.pos, by omega⟩
  · rw [decide_eq_true_eq]
    refine ⟨fun h p h1 h2 h3 => h p ((smallPrimes_complete p).2 ⟨h1, h2, h3⟩), fun h p hp => ?_⟩
    obtain ⟨h1, h2, h3⟩ := (smallPrimes_complete p).1 hp
    exact h p h1 h2 h3

/-- Small odd primes are themselves rejected. -/
theorem smallPrimesTest_rejects_prime (k : Nat) (hk : 2 ≤ k) (n : Num (8 * k)) (hn : n.data ≠ []) (hneg : n.neg = false)
    (hp : (val n.data).Prime) (h2 : val n.data ≠ 2) (hle : val n.data ≤ 17863) :
    smallPrimesTest n smallPrimes = .ok false := by
  obtain ⟨v, h1, h3⟩ := smallPrimesTest_exact k hk n hn hneg
  rw [h1]
  cases v with
  | false => rfl
  | true => exact absurd dvd_rfl (h3.1 rfl _ hp h2 hle)

example : smallPrimesTest (⟨[3], false⟩ : Num (8 * 2)) smallPrimes = .ok false :=
  smallPrimesTest_rejects_prime 2 (by decide) _ (by decide) rfl (by simp [val]; decide) (by decide) (by decide)

/-- The next prime passes. -/
example : smallPrimesTest (⟨[17881], false⟩ : Num (8 * 2)) smallPrimes = .ok true := by
  rw [smallPrimesTest_spec 2 (by decide) _ 17881 ⟨by decide, rfl, by decide⟩ smallPrimes fun p hp => by
    obtain ⟨h1, -, h3⟩ := (smallPrimes_complete p).1 hp
    exact ⟨h1.pos, by omega⟩]
  decide +kernel

end Kryptos.Mp
