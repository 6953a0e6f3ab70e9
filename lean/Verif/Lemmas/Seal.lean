import Verif.Model.Seal
import Verif.Spec.Seal
import Verif.Lemmas.ShaInst
import Mathlib.Tactic.IntervalCases
/- The key stream of SEAL. -/
namespace Kryptos.Seal
open Spec Spec.MD Hash

/-! The tables. -/

/-- The block. -/
def blk (i : Nat) : Bytes := be 4 i ++ List.replicate 60 0

theorem word0 (i : Nat) : BitVec.ofNat 32 (beNat (be 4 i)) = BitVec.ofNat 32 i := by
  apply BitVec.eq_of_toNat_eq
  simp only [be, beNat, List.range, List.range.loop, List.reverse_cons, List.reverse_nil, List.nil_append, List.cons_append, List.map_cons, List.map_nil,
    List.foldl_cons, List.foldl_nil, BitVec.toNat_ofNat]
  omega

theorem first16 (i : Nat) : BitVec.ofNat 32 i :: List.replicate 15 0 = (List.range 16).map (Sha.sha1W (blk i)) := by
  rw [← Sha1.ws_eq, ← word0]
  rfl

theorem X_eq (i : Nat) : expand sched 64 (BitVec.ofNat 32 i :: List.replicate 15 0) = .ok ((List.range 80).map (Sha.sha1W (blk i))) := by
  rw [first16]
  exact expand_eq sched (Sha.sha1W (blk i)) 64 16 (fun t h _ => Sha1.sched_eq (blk i) t h)

theorem step_eq (F : W32 → W32 → W32 → W32) (Y : W32) (i t : Nat) (s : Five 32) (ht : t < 80) (hF : F s.b s.c s.d = Sha.sha1f t s.b s.c s.d)
    (hY : Y = Sha.sha1K t) : step F Y ((List.range 80).map (Sha.sha1W (blk i))) t s = .ok (Sha.sha1Round (blk i) s t) := by
  unfold step
  rw [rd_map_range _ _ _ ht, Out.bind_ok, hF, hY, BitVec.add_assoc _ (Sha.sha1W (blk i) t), BitVec.add_comm (Sha.sha1W (blk i) t), ← BitVec.add_assoc,
    show roll s.a 5 = s.a.rotateLeft 5 from rotl_eq _ _ (by decide), show roll s.b 30 = s.b.rotateLeft 30 from rotl_eq _ _ (by decide)]
  rfl

theorem ga_eq (a : Five 32) (i : Nat) : ga a i = .ok (Spec.Seal.G a i) := by
  have loop : ∀ (F : W32 → W32 → W32 → W32) (Y : W32) (t0 : Nat), t0 + 20 ≤ 80 → (∀ t, t0 ≤ t → t < t0 + 20 → (∀ x y z, F x y z = Sha.sha1f t x y z) ∧ Y = Sha.sha1K t) →
      ∀ s, forLoop (step F Y ((List.range 80).map (Sha.sha1W (blk i)))) 20 t0 s = .ok ((List.range' t0 20).foldl (Sha.sha1Round (blk i)) s) := by
    intro F Y t0 h0 hF s
    rw [forLoop_eq _ (fun t s => Sha.sha1Round (blk i) s t)]
    intro t s h1 h2
    exact step_eq F Y i t s (by omega) ((hF t h1 h2).1 _ _ _) (hF t h1 h2).2
  have q : ∀ t < 80, (∀ x y z, Sha1.F t x y z = Sha.sha1f t x y z) := fun t h x y z => Sha1.F_eq t h x y z
  unfold ga
  rw [X_eq, Out.bind_ok, loop f _ 0 (by decide), Out.bind_ok, loop h _ 20 (by decide), Out.bind_ok, loop g _ 40 (by decide), Out.bind_ok,
    loop h _ 60 (by decide), Out.bind_ok]
  · unfold Spec.Seal.G Sha.sha1Compress Sha.add5
    rw [show List.range 80 = List.range' 0 20 ++ List.range' 20 20 ++ List.range' 40 20 ++ List.range' 60 20 by decide, List.foldl_append,
      List.foldl_append, List.foldl_append]
    simp only [Out.pure_eq, BitVec.add_comm]
    rfl
  · intro t h1 h2
    refine ⟨fun x y z => ?_, ?_⟩
    · rw [← q t (by omega)]
      unfold Sha1.F h
      rw [if_neg (by omega), if_pos (Or.inr (by omega))]
    · unfold Sha.sha1K
      rw [if_neg (by omega), if_neg (by omega), if_neg (by omega)]
  · intro t h1 h2
    refine ⟨fun x y z => ?_, ?_⟩
    · rw [← q t (by omega)]
      unfold Sha1.F g
      rw [if_neg (by omega), if_neg (by omega)]
    · unfold Sha.sha1K
      rw [if_neg (by omega), if_neg (by omega), if_pos (by omega)]
  · intro t h1 h2
    refine ⟨fun x y z => ?_, ?_⟩
    · rw [← q t (by omega)]
      unfold Sha1.F h
      rw [if_neg (by omega), if_pos (Or.inl (by omega))]
    · unfold Sha.sha1K
      rw [if_neg (by omega), if_pos (by omega)]
  · intro t h1 h2
    refine ⟨fun x y z => ?_, ?_⟩
    · rw [← q t (by omega)]
      unfold Sha1.F f
      rw [if_pos (by omega)]
    · unfold Sha.sha1K
      rw [if_pos (by omega)]

/-- The first `m` entries of a table. -/
def tab (a : Five 32) (c m : Nat) : List W32 := (List.range m).map fun j => Spec.Seal.gamma a (c + j)

theorem tab_length (a : Five 32) (c m : Nat) : (tab a c m).length = m := by simp [tab]

theorem tab_succ (a : Five 32) (c m : Nat) : tab a c (m + 1) = tab a c m ++ [Spec.Seal.gamma a (c + m)] := by
  unfold tab; rw [List.range_succ, List.map_append]; rfl

theorem rd_tab (a : Five 32) (c m i : Nat) (h : i < m) : rd (tab a c m) i = .ok (Spec.Seal.gamma a (c + i)) := rd_map_range _ _ _ h

theorem push_tab (cap : Nat) (a : Five 32) (c m : Nat) (h : m < cap) : push cap (tab a c m) (Spec.Seal.gamma a (c + m)) = .ok (tab a c (m + 1)) := by
  unfold push
  rw [tab_length, if_pos h, tab_succ]
  rfl

theorem rd_words (a : Five 32) (m q p : Nat) (hq : m / 5 = q) (hp : m % 5 = p) : rd (Spec.Seal.G a q).words p = .ok (Spec.Seal.gamma a m) := by
  unfold Spec.Seal.gamma
  rw [hq, hp]
  have : p < 5 := by omega
  interval_cases p <;> rfl

theorem tRow_step (a : Five 32) (i fuel m : Nat) (hm : m < 512) (hi : m / 5 = i) : tRow (Spec.Seal.G a i).words (fuel + 1) (tab a 0 m) =
    if (m + 1) % 5 ≠ 0 ∧ m + 1 < 512 then tRow (Spec.Seal.G a i).words fuel (tab a 0 (m + 1)) else .ok (tab a 0 (m + 1)) := by
  rw [tRow, tab_length, rd_words a m i _ hi rfl, Out.bind_ok]
  have := push_tab 512 a 0 m hm
  rw [Nat.zero_add] at this
  rw [this, Out.bind_ok, tab_length]
  rfl

theorem tLoop_eq (a : Five 32) : ∀ fuel i, i + fuel = 103 → i ≤ 102 → tLoop a fuel i (tab a 0 (5 * i)) = .ok (tab a 0 512)
  | 0, i, h, g => by omega
  | fuel + 1, i, h, g => by
    rw [tLoop, tab_length, if_pos (by omega), ga_eq, Out.bind_ok, tRow_step _ _ _ _ (by omega) (by omega), if_pos (by omega)]
    by_cases c : i = 102
    · subst c
      rw [tRow_step _ _ _ _ (by omega) (by omega), if_neg (by omega), Out.bind_ok]
      have : fuel = 0 := by omega
      subst this
      rfl
    · rw [tRow_step _ _ _ _ (by omega) (by omega), if_pos (by omega), tRow_step _ _ _ _ (by omega) (by omega), if_pos (by omega),
        tRow_step _ _ _ _ (by omega) (by omega), if_pos (by omega), tRow_step _ _ _ _ (by omega) (by omega), if_neg (by omega), Out.bind_ok]
      exact tLoop_eq a fuel (i + 1) (by omega) (by omega)

theorem sRow_eq (a : Five 32) (i : Nat) : ∀ fuel p m, p + fuel = 5 → m ≤ 256 → (0x1000 + m = 5 * (819 + i) + p) →
    sRow (Spec.Seal.G a (819 + i)).words fuel p (tab a 0x1000 m) = .ok (tab a 0x1000 (min (m + fuel) 256))
  | 0, p, m, h, g, e => by rw [sRow, Nat.add_zero, Nat.min_eq_left g]; rfl
  | fuel + 1, p, m, h, g, e => by
    rw [sRow, tab_length]
    by_cases c : m < 256
    · rw [if_pos c, rd_words a (0x1000 + m) _ _ (by omega) (by omega), Out.bind_ok, push_tab _ _ _ _ c, Out.bind_ok,
        sRow_eq a i fuel (p + 1) (m + 1) (by omega) (by omega) (by omega)]
      congr 2
      omega
    · rw [if_neg c, show min (m + (fuel + 1)) 256 = m by omega]
      rfl

theorem sLoop_eq (a : Five 32) : ∀ fuel i, i + fuel = 52 → 1 ≤ i → sLoop a fuel i (tab a 0x1000 (min (5 * i - 1) 256)) = .ok (tab a 0x1000 256)
  | 0, i, h, g => by
    rw [sLoop, show min (5 * i - 1) 256 = 256 by omega]; rfl
  | fuel + 1, i, h, g => by
    rw [sLoop, tab_length]
    by_cases c : min (5 * i - 1) 256 < 256
    · rw [if_pos c, ga_eq, Out.bind_ok, sRow_eq a i 5 0 _ rfl (by omega) (by omega), Out.bind_ok]
      have := sLoop_eq a fuel (i + 1) (by omega) (by omega)
      rw [show min (5 * (i + 1) - 1) 256 = min (min (5 * i - 1) 256 + 5) 256 by omega] at this
      exact this
    · rw [if_neg c, show min (5 * i - 1) 256 = 256 by omega]; rfl

theorem rRow_eq (a : Five 32) (i m : Nat) (hm : m + 5 ≤ rCap) (e : 0x2000 + m = 5 * (1638 + i)) :
    rRow (Spec.Seal.G a (1638 + i)) (tab a 0x2000 m) = .ok (tab a 0x2000 (m + 5)) := by
  have q : ∀ p < 5, rd (Spec.Seal.G a (1638 + i)).words p = .ok (Spec.Seal.gamma a (0x2000 + (m + p))) :=
    fun p hp => rd_words a (0x2000 + (m + p)) _ _ (by omega) (by omega)
  have q0 := Out.ok.inj ((q 0 (by decide)).symm.trans rfl)
  have q1 := Out.ok.inj ((q 1 (by decide)).symm.trans rfl)
  have q2 := Out.ok.inj ((q 2 (by decide)).symm.trans rfl)
  have q3 := Out.ok.inj ((q 3 (by decide)).symm.trans rfl)
  have q4 := Out.ok.inj ((q 4 (by decide)).symm.trans rfl)
  unfold rRow
  show List.foldlM (push rCap) (tab a 0x2000 m) [(Spec.Seal.G a (1638 + i)).a, (Spec.Seal.G a (1638 + i)).b, (Spec.Seal.G a (1638 + i)).c, (Spec.Seal.G a (1638 + i)).d,
    (Spec.Seal.G a (1638 + i)).e] = _
  rw [← show Spec.Seal.gamma a (0x2000 + (m + 0)) = _ from q0, ← show Spec.Seal.gamma a (0x2000 + (m + 1)) = _ from q1, ← show Spec.Seal.gamma a (0x2000 + (m + 2)) = _ from q2,
    ← show Spec.Seal.gamma a (0x2000 + (m + 3)) = _ from q3, ← show Spec.Seal.gamma a (0x2000 + (m + 4)) = _ from q4]
  simp only [List.foldlM_cons, List.foldlM_nil]
  rw [Nat.add_zero, push_tab _ _ _ _ (by omega), Out.bind_ok, push_tab _ _ _ _ (by omega), Out.bind_ok, push_tab _ _ _ _ (by omega), Out.bind_ok,
    push_tab _ _ _ _ (by omega), Out.bind_ok, push_tab _ _ _ _ (by omega), Out.bind_ok]
  rfl

theorem rLoop_eq (a : Five 32) : ∀ fuel i, 2 ≤ i → 8 + 5 * (i - 2) + 5 * fuel ≤ rCap →
    rLoop a fuel i (tab a 0x2000 (8 + 5 * (i - 2))) = .ok (tab a 0x2000 (8 + 5 * (i - 2) + 5 * fuel))
  | 0, _, _, _ => rfl
  | fuel + 1, i, h, g => by
    rw [rLoop, ga_eq, Out.bind_ok, rRow_eq a i _ (by omega) (by omega), Out.bind_ok]
    have := rLoop_eq a fuel (i + 1) (by omega) (by omega)
    rw [show 8 + 5 * (i + 1 - 2) = 8 + 5 * (i - 2) + 5 by omega] at this
    rw [this]
    congr 2
    omega

/-- The number of entries of `R` that are filled. -/
def rLen (W : Nat) : Nat := 8 + 5 * ((32 * W - 1) / 8192 * 4 - 1 - 1)

theorem tables_eq (a : Five 32) (W : Nat) (h1 : 1 ≤ W) (h2 : W ≤ 0xffff) :
    tables a (BitVec.ofNat 32 W <<< 5) = .ok ⟨tab a 0 512, tab a 0x1000 256, tab a 0x2000 (rLen W)⟩ := by
  have hL : ((((BitVec.ofNat 32 W <<< 5) - 1) >>> 13) <<< 2 : W32).toNat = (32 * W - 1) / 8192 * 4 := by
    rw [BitVec.toNat_shiftLeft, BitVec.toNat_ushiftRight, BitVec.toNat_sub, BitVec.toNat_shiftLeft, BitVec.toNat_ofNat, Nat.shiftLeft_eq, Nat.shiftLeft_eq,
      Nat.shiftRight_eq_div_pow, show (1 : W32).toNat = 1 from rfl]
    omega
  have hs : [(Spec.Seal.G a 819).b, (Spec.Seal.G a 819).c, (Spec.Seal.G a 819).d, (Spec.Seal.G a 819).e] = tab a 0x1000 (min (5 * 1 - 1) 256) := rfl
  have hr : [(Spec.Seal.G a 1638).c, (Spec.Seal.G a 1638).d, (Spec.Seal.G a 1638).e] ++ (Spec.Seal.G a 1639).words = tab a 0x2000 (8 + 5 * (2 - 2)) := rfl
  unfold tables
  have ht : tLoop a 103 0 [] = .ok (tab a 0 512) := tLoop_eq a 103 0 rfl (by decide)
  rw [ht, Out.bind_ok, ga_eq, Out.bind_ok, hs, sLoop_eq a 51 1 rfl (by decide),
    Out.bind_ok]
  dsimp only
  rw [ga_eq, Out.bind_ok, ga_eq, Out.bind_ok, hL, hr, rLoop_eq a _ 2 (by decide) (by unfold rCap; omega), Out.bind_ok]
  rfl

/-! The registers. -/

/-- The registers of the specification. -/
def sp (r : Regs) : Spec.Seal.Regs := ⟨r.A, r.B, r.C, r.D⟩
def md (r : Spec.Seal.Regs) : Regs := ⟨r.A, r.B, r.C, r.D⟩

theorem masked (y : W32) : ((y &&& 0x7fc#32) >>> 2).toNat = y.toNat / 4 % 512 := by
  have e : (y &&& 0x7fc#32) >>> 2 = (y >>> 2) &&& 0x1ff#32 := by
    apply BitVec.eq_of_getLsbD_eq
    intro i hi
    interval_cases i <;> simp
  rw [e, BitVec.toNat_and, BitVec.toNat_ushiftRight, Nat.shiftRight_eq_div_pow]
  exact Nat.and_two_pow_sub_one_eq_mod _ 9

theorem look_eq (a : Five 32) (x : W32) : look (tab a 0 512) x = .ok (Spec.Seal.T a (Spec.Seal.ix x)) := by
  unfold look
  rw [masked, rd_tab _ _ _ _ (by omega), Nat.zero_add]
  rfl

theorem masked2 (y : W32) : ((y &&& 0x7fc#32) >>> 2).toNat = Spec.Seal.ix (y &&& 0x7fc#32) := by
  have := (y &&& 0x7fc#32).isLt
  have h := masked y
  unfold Spec.Seal.ix
  rw [BitVec.toNat_ushiftRight, Nat.shiftRight_eq_div_pow] at *
  omega

theorem rdT (a : Five 32) (y : W32) : rd (tab a 0 512) ((y &&& 0x7fc#32) >>> 2).toNat = .ok (Spec.Seal.T a (Spec.Seal.ix (y &&& 0x7fc#32))) := by
  rw [← masked2, rd_tab _ _ _ _ (by rw [masked]; omega), Nat.zero_add]
  rfl

theorem stir_eq (a : Five 32) (r : Spec.Seal.Regs) : stir (tab a 0 512) (md r) = .ok (md (Spec.Seal.stir a r)) := by
  unfold stir
  simp only [look_eq, Out.bind_ok]
  rfl

theorem lines_eq (a : Five 32) (r : Spec.Seal.Regs) : lines (tab a 0 512) (md r) = .ok (md (Spec.Seal.lines a r)) := by
  unfold lines
  simp only [rdT, Out.bind_ok]
  rfl

theorem initRegs_eq (a : Five 32) (n : W32) (l m : Nat) (h : 4 * l + 3 < m) :
    initRegs n l (tab a 0x2000 m) (tab a 0 512) = .ok (md (Spec.Seal.before three a n l 0), md (Spec.Seal.init2 a n l)) := by
  unfold initRegs
  have e : l <<< 2 = 4 * l := by rw [Nat.shiftLeft_eq]; omega
  rw [e, rd_tab _ _ _ _ (by omega), Out.bind_ok, rd_tab _ _ _ _ (by omega), Out.bind_ok, rd_tab _ _ _ _ (by omega), Out.bind_ok,
    rd_tab _ _ _ _ (by omega), Out.bind_ok]
  refine Eq.trans (congrArg (· >>= _) (stir_eq a ⟨n ^^^ Spec.Seal.R a (4 * l), n.rotateRight 8 ^^^ Spec.Seal.R a (4 * l + 1),
    n.rotateRight 16 ^^^ Spec.Seal.R a (4 * l + 2), n.rotateRight 24 ^^^ Spec.Seal.R a (4 * l + 3)⟩)) ?_
  rw [Out.bind_ok, stir_eq, Out.bind_ok, stir_eq, Out.bind_ok]
  rfl

theorem feed_eq (three : Bool) (x r : Spec.Seal.Regs) (i : Nat) :
    feed (if three then 3 else 2) (md x) i (md r) = md (Spec.Seal.feed three x i r) := by
  have e : i &&& 1 = i % 2 := Nat.and_two_pow_sub_one_eq_mod i 1
  unfold feed Spec.Seal.feed
  rw [e]
  cases three <;> rcases Nat.mod_two_eq_zero_or_one i with q | q <;> simp [q, md]

theorem take_push (P : List W32) (LL : Nat) (x : W32) (h : P.length < LL) (hl : LL ≤ 0xffff) : push 0xffff P x = .ok (P ++ [x]) := by
  unfold push
  rw [if_pos (by omega)]
  rfl

theorem put4_eq (a : Five 32) (LL i : Nat) (r : Spec.Seal.Regs) (P : List W32) (h : P.length < LL) (hl : LL ≤ 0xffff) (hi : 1 ≤ i) (hi2 : i < 65) :
    put4 LL P.length (tab a 0x1000 256) i (md r) P = .ok ((P ++ Spec.Seal.emit a i r).take LL) := by
  have e : i <<< 2 = 4 * i := by rw [Nat.shiftLeft_eq]; omega
  unfold put4
  rw [e, rd_tab _ _ _ _ (by omega), Out.bind_ok, take_push P LL _ h hl, Out.bind_ok]
  have tk : ∀ (Q : List W32) (t : List W32), Q.length = LL → Q ++ t = Q ++ t → (Q ++ t).take LL = Q := fun Q t hq _ => by rw [List.take_left' hq]
  by_cases c1 : P.length + 1 < LL
  · rw [if_pos c1, rd_tab _ _ _ _ (by omega), Out.bind_ok, take_push _ LL _ (by rw [List.length_append]; exact c1) hl, Out.bind_ok]
    by_cases c2 : P.length + 2 < LL
    · rw [if_pos c2, rd_tab _ _ _ _ (by omega), Out.bind_ok, take_push _ LL _ (by rw [List.length_append, List.length_append]; exact c2) hl, Out.bind_ok]
      by_cases c3 : P.length + 3 < LL
      · rw [if_pos c3, rd_tab _ _ _ _ (by omega), Out.bind_ok,
          take_push _ LL _ (by rw [List.length_append, List.length_append, List.length_append]; exact c3) hl]
        rw [List.take_of_length_le (by rw [List.length_append]; exact c3)]
        simp only [List.append_assoc, List.cons_append, List.nil_append]
        rfl
      · rw [if_neg c3, Out.pure_eq]
        congr 1
        refine Eq.trans (tk _ [r.A ^^^ Spec.Seal.S a (4 * i - 1)] ?_ rfl).symm ?_
        · simp only [List.length_append, List.length_singleton]; omega
        · simp only [List.append_assoc, List.cons_append, List.nil_append]
          rfl
    · rw [if_neg c2, Out.pure_eq]
      congr 1
      refine Eq.trans (tk _ [r.D + Spec.Seal.S a (4 * i - 2), r.A ^^^ Spec.Seal.S a (4 * i - 1)] ?_ rfl).symm ?_
      · simp only [List.length_append, List.length_singleton]; omega
      · simp only [List.append_assoc, List.cons_append, List.nil_append]
        rfl
  · rw [if_neg c1, Out.pure_eq]
    congr 1
    refine Eq.trans (tk _ [r.C ^^^ Spec.Seal.S a (4 * i - 3), r.D + Spec.Seal.S a (4 * i - 2), r.A ^^^ Spec.Seal.S a (4 * i - 1)] ?_ rfl).symm ?_
    · simp only [List.length_append, List.length_singleton]; omega
    · simp only [List.append_assoc, List.cons_append, List.nil_append]
      rfl

/-- The words of iteration `i + 1`. -/
def it (three : Bool) (a : Five 32) (n : W32) (l i : Nat) : List W32 := Spec.Seal.emit a (i + 1) (Spec.Seal.lines a (Spec.Seal.before three a n l i))

theorem it_length (three : Bool) (a : Five 32) (n : W32) (l i : Nat) : (it three a n l i).length = 4 := rfl

theorem inner_eq (three : Bool) (a : Five 32) (n : W32) (l LL m : Nat) (hl : LL ≤ 0xffff) : ∀ fuel i, i + fuel = 64 → ∀ (P : List W32) (p : Nat),
    p = P.length ∨ (LL ≤ p ∧ LL ≤ P.length) →
    ∃ p', inner (if three then 3 else 2) LL ⟨tab a 0 512, tab a 0x1000 256, tab a 0x2000 m⟩ (md (Spec.Seal.init2 a n l)) fuel (i + 1) p
      (md (Spec.Seal.before three a n l i)) (P.take LL) = .ok ((P ++ (List.range' i fuel).flatMap (it three a n l)).take LL, p') ∧
      (p' = P.length + 4 * fuel ∨ (LL ≤ p' ∧ LL ≤ P.length + 4 * fuel))
  | 0, i, h, P, p, hp => by
    refine ⟨p, ?_, by simpa using hp⟩
    rw [inner]
    simp
  | fuel + 1, i, h, P, p, hp => by
    rw [inner]
    by_cases c : p < LL
    · have hp : p = P.length := by omega
      subst hp
      rw [if_pos c, lines_eq, Out.bind_ok, List.take_of_length_le (Nat.le_of_lt c), put4_eq a LL (i + 1) _ P c hl (by omega) (by omega), Out.bind_ok, feed_eq]
      obtain ⟨p', e1, e2⟩ := inner_eq three a n l LL m hl fuel (i + 1) (by omega) (P ++ it three a n l i) (P.length + 4)
        (Or.inl (by rw [List.length_append, it_length]))
      refine ⟨p', ?_, ?_⟩
      · refine e1.trans ?_
        rw [List.range'_succ, List.flatMap_cons, List.append_assoc]
      · rw [List.length_append, it_length] at e2
        omega
    · rw [if_neg c]
      have hP : LL ≤ P.length := by omega
      refine ⟨p, ?_, Or.inr ⟨by omega, by omega⟩⟩
      rw [List.take_append_of_le_length hP]
      rfl

/-- The words for `l`. -/
def block (three : Bool) (a : Five 32) (n : W32) (l : Nat) : List W32 := (List.range 64).flatMap (it three a n l)

theorem block_length (three : Bool) (a : Five 32) (n : W32) (l : Nat) : (block three a n l).length = 256 := by
  unfold block
  rw [List.length_flatMap]
  simp only [it_length, List.map_const', List.length_range, List.sum_replicate_nat]

theorem blocks_length (three : Bool) (a : Five 32) (n : W32) (l : Nat) : ((List.range l).flatMap (block three a n)).length = 256 * l := by
  rw [List.length_flatMap]
  simp only [block_length, List.map_const', List.length_range, List.sum_replicate_nat]
  exact Nat.mul_comm _ _

theorem outer_eq (three : Bool) (a : Five 32) (n : W32) (LL m : Nat) (hl : LL ≤ 0xffff) (h0 : 0 < LL) (hm : 4 * ((LL + 255) / 256) ≤ m) :
    ∀ fuel l, l + fuel = LL → l ≤ (LL + 255) / 256 → ∀ p, p = 256 * l ∨ (LL ≤ p ∧ LL ≤ 256 * l) →
    outer (if three then 3 else 2) LL ⟨tab a 0 512, tab a 0x1000 256, tab a 0x2000 m⟩ n fuel l p (((List.range l).flatMap (block three a n)).take LL) =
      .ok (Spec.Seal.stream three a n LL)
  | fuel, l, h, hle, p, hp => by
    by_cases c : p < LL
    · have hp : p = 256 * l := by omega
      match fuel, h with
      | 0, h => omega
      | fuel + 1, h =>
        rw [outer, if_pos c]
        dsimp only
        rw [initRegs_eq (three := three) a n l m (by omega), Out.bind_ok]
        dsimp only
        obtain ⟨p', e1, e2⟩ := inner_eq three a n l LL m hl 64 0 rfl ((List.range l).flatMap (block three a n)) p (by rw [blocks_length]; omega)
        rw [e1, Out.bind_ok]
        rw [blocks_length] at e2
        have := outer_eq three a n LL m hl h0 hm fuel (l + 1) (by omega) (by omega) p' (by omega)
        rw [List.range_succ, List.flatMap_append, List.flatMap_singleton] at this
        exact this
    · have hN : l = (LL + 255) / 256 := by omega
      have e : outer (if three then 3 else 2) LL ⟨tab a 0 512, tab a 0x1000 256, tab a 0x2000 m⟩ n fuel l p (((List.range l).flatMap (block three a n)).take LL) =
          .ok (((List.range l).flatMap (block three a n)).take LL) := by
        cases fuel <;> (rw [outer, if_neg c]; rfl)
      rw [e, hN]
      rfl

theorem keystream_eq (three : Bool) (key : Bytes) (a : Five 32) (n : W32) (W : Nat) (h1 : 1 ≤ W) (h2 : W ≤ 0xffff) (ha : ldUserkey key = .ok a) :
    keystream (if three then 3 else 2) key n (BitVec.ofNat 32 W <<< 5) = .ok (Spec.Seal.stream three a n W) := by
  have hL : ((BitVec.ofNat 32 W <<< 5) >>> 5 : W32).toNat = W := by
    rw [BitVec.toNat_ushiftRight, BitVec.toNat_shiftLeft, BitVec.toNat_ofNat, Nat.shiftLeft_eq, Nat.shiftRight_eq_div_pow]
    omega
  unfold keystream
  rw [if_neg (by cases three <;> decide), ha, Out.bind_ok, tables_eq a W h1 h2, Out.bind_ok]
  dsimp only
  rw [hL]
  have := outer_eq three a n W (rLen W) h2 (by omega) (by unfold rLen; omega) W 0 (by omega) (by omega) 0 (Or.inl rfl)
  rw [List.range_zero, List.flatMap_nil, List.take_nil] at this
  exact this

theorem stream_length (three : Bool) (a : Five 32) (n : W32) (W : Nat) : (Spec.Seal.stream three a n W).length = W := by
  have : Spec.Seal.stream three a n W = ((List.range ((W + 255) / 256)).flatMap (block three a n)).take W := rfl
  rw [this, List.length_take, blocks_length]
  omega

/-! The loop over the text. -/

theorem low (x : W32) (y : Byte) : (x <<< 8 ||| y.setWidth 32).setWidth 8 = y := by
  ext i hi
  simp

theorem shr (x : W32) (y : Byte) (s : Nat) (h : s ≤ 16) : ((x <<< 8 ||| y.setWidth 32) >>> (s + 8)).setWidth 8 = (x >>> s).setWidth 8 := by
  apply BitVec.eq_of_getLsbD_eq
  intro i hi
  have h1 : s + 8 + i < 32 := by omega
  have h2 : ¬ (s + 8 + i < 8) := by omega
  have h3 : s + 8 + i - 8 = s + i := by omega
  rw [BitVec.getLsbD_setWidth, BitVec.getLsbD_setWidth, BitVec.getLsbD_ushiftRight, BitVec.getLsbD_ushiftRight, BitVec.getLsbD_or, BitVec.getLsbD_shiftLeft,
    BitVec.getLsbD_setWidth, h3, decide_eq_true h1, decide_eq_false h2, BitVec.getLsbD_of_ge y _ (by omega)]
  simp

/-- Four bytes as a word, the way they are read. -/
def cat (a b c d : Byte) : W32 := ((((0 : W32) <<< 8 ||| a.setWidth 32) <<< 8 ||| b.setWidth 32) <<< 8 ||| c.setWidth 32) <<< 8 ||| d.setWidth 32

theorem bytes4_cat (a b c d : Byte) : bytes4 (cat a b c d) = [a, b, c, d] := by
  unfold bytes4 cat
  have s24 := fun x y => shr x y 16 (by omega)
  have s16 := fun x y => shr x y 8 (by omega)
  have s8 : ∀ (x : W32) (y : Byte), ((x <<< 8 ||| y.setWidth 32) >>> 8).setWidth 8 = x.setWidth 8 := fun x y =>
    (shr x y 0 (by omega)).trans (by rw [BitVec.ushiftRight_zero])
  rw [s24, s16, s8, s16, s8, s8, low, low, low, low]

theorem shl0 (x : W32) : x <<< 8 = x <<< 8 ||| (0 : Byte).setWidth 32 := by simp

theorem align1 (a : Byte) : align ((0 : W32) <<< 8 ||| a.setWidth 32) 1 = cat a 0 0 0 := by
  unfold cat
  rw [← shl0, ← shl0, ← shl0]
  rfl

theorem align2 (a b : Byte) : align (((0 : W32) <<< 8 ||| a.setWidth 32) <<< 8 ||| b.setWidth 32) 2 = cat a b 0 0 := by
  unfold cat
  rw [← shl0, ← shl0]
  rfl

theorem align3 (a b c : Byte) : align ((((0 : W32) <<< 8 ||| a.setWidth 32) <<< 8 ||| b.setWidth 32) <<< 8 ||| c.setWidth 32) 3 = cat a b c 0 := by
  unfold cat
  rw [← shl0]
  rfl

theorem align4 (x : W32) : align x 0 = x := rfl

theorem bytes4_length (w : W32) : (bytes4 w).length = 4 := rfl

theorem bytes4_xor (x y : W32) : bytes4 (x ^^^ y) = List.zipWith (· ^^^ ·) (bytes4 x) (bytes4 y) := by
  simp [bytes4, BitVec.ushiftRight_xor_distrib, BitVec.setWidth_xor]

theorem flat4_length : ∀ l : List W32, (l.flatMap bytes4).length = 4 * l.length
  | [] => rfl
  | x :: l => by rw [List.flatMap_cons, List.length_append, flat4_length l, List.length_cons, bytes4_length]; omega

theorem flat4_xor : ∀ l k : List W32, l.length = k.length →
    (List.zipWith (· ^^^ ·) l k).flatMap bytes4 = List.zipWith (· ^^^ ·) (l.flatMap bytes4) (k.flatMap bytes4)
  | [], [], _ => rfl
  | x :: l, y :: k, h => by
    rw [List.zipWith_cons_cons, List.flatMap_cons, List.flatMap_cons, List.flatMap_cons, flat4_xor l k (by simpa using h), bytes4_xor,
      List.zipWith_append (by rw [bytes4_length, bytes4_length])]

theorem tail_xor (x y : W32) (r : Bytes) (c : Nat) (h : c ≤ 4) :
    (bytes4 (x ^^^ y)).take c = List.zipWith (· ^^^ ·) ((bytes4 x).take c) (bytes4 y ++ r) := by
  rw [bytes4_xor]
  unfold bytes4
  interval_cases c <;> simp

theorem outblock_eq (inb ks : List W32) (W : Nat) (h : ks.length = W) : ((List.range W).mapM fun k => do
    let y ← rd ks k
    let x ← inAt inb k
    return x ^^^ y) = Out.ok ((List.range W).map fun k => inb.getD k 0 ^^^ ks.getD k 0) := by
  refine mapM_ok _ _ _ fun k hk => ?_
  rw [List.mem_range] at hk
  have e1 : rd ks k = .ok (ks.getD k 0) := by
    unfold rd
    rw [List.getD_eq_getElem?_getD, List.getElem?_eq_getElem (by omega)]
    rfl
  rw [e1, Out.bind_ok]
  have e2 : inAt inb k = .ok (inb.getD k 0) := by
    unfold inAt rd
    by_cases c : k < inb.length
    · rw [if_pos c, List.getD_eq_getElem?_getD, List.getElem?_eq_getElem c]
      rfl
    · rw [if_neg c, List.getD_eq_getElem?_getD, List.getElem?_eq_none (by omega)]
      rfl
  rw [e2, Out.bind_ok]
  rfl

theorem outblock_split (i0 k0 k1 : List W32) (x y : W32) (h : i0.length = k0.length) :
    ((List.range (k0 ++ y :: k1).length).map fun k => (i0 ++ [x]).getD k 0 ^^^ (k0 ++ y :: k1).getD k 0) = List.zipWith (· ^^^ ·) i0 k0 ++ (x ^^^ y) :: k1 := by
  apply List.ext_getElem?
  intro k
  rw [List.getElem?_map]
  by_cases c : k < (k0 ++ y :: k1).length
  · rw [List.getElem?_range c, Option.map_some]
    simp only [List.getD_eq_getElem?_getD]
    rcases Nat.lt_trichotomy k k0.length with q | q | q
    · rw [List.getElem?_append_left (by omega), List.getElem?_append_left q, List.getElem?_append_left (by rw [List.length_zipWith]; omega),
        List.getElem?_zipWith, List.getElem?_eq_getElem (by omega), List.getElem?_eq_getElem q]
      rfl
    · rw [List.getElem?_append_right (by omega), List.getElem?_append_right (by omega), List.getElem?_append_right (by rw [List.length_zipWith]; omega),
        List.length_zipWith, h, q]
      simp
    · rw [List.getElem?_eq_none (l := i0 ++ [x]) (by rw [List.length_append, List.length_singleton]; omega), List.getElem?_append_right (by omega),
        List.getElem?_append_right (by rw [List.length_zipWith]; omega), List.length_zipWith, h, Nat.min_self]
      obtain ⟨j, hj⟩ : ∃ j, k - k0.length = j + 1 := ⟨k - k0.length - 1, by omega⟩
      rw [hj, List.getElem?_cons_succ, List.getElem?_cons_succ, List.getElem?_eq_getElem (by rw [List.length_append, List.length_cons] at c; omega)]
      simp
  · rw [List.getElem?_eq_none (by rw [List.length_range]; omega), Option.map_none, List.getElem?_eq_none]
    rw [List.length_append, List.length_cons] at c ⊢
    rw [List.length_zipWith]
    omega

theorem rd_pre (l m : List W32) (x : W32) : rd (l ++ x :: m) l.length = .ok x := by
  unfold rd
  rw [List.getElem?_append_right (Nat.le_refl _), Nat.sub_self]
  rfl

theorem rd_take (l m : List W32) : ((List.range l.length).mapM fun t => rd (l ++ m) t) = Out.ok l := by
  have : ((List.range l.length).mapM fun t => rd (l ++ m) t) = Out.ok ((List.range l.length).map fun t => l.getD t 0) := by
    refine mapM_ok _ _ _ fun k hk => ?_
    rw [List.mem_range] at hk
    unfold rd
    rw [List.getElem?_append_left hk, List.getD_eq_getElem?_getD, List.getElem?_eq_getElem hk]
    rfl
  rw [this]
  congr 1
  apply List.ext_getElem?
  intro k
  rw [List.getElem?_map]
  by_cases c : k < l.length
  · rw [List.getElem?_range c, Option.map_some, List.getD_eq_getElem?_getD, List.getElem?_eq_getElem c]
    rfl
  · rw [List.getElem?_eq_none (by rw [List.length_range]; omega), List.getElem?_eq_none (by omega)]
    rfl

theorem apply_eq (version : Nat) (key : Bytes) (W cap : Nat) (s : St) (ks i0 : List W32) (x : W32)
    (hk : keystream version key s.n (BitVec.ofNat 32 W <<< 5) = .ok ks) (hl : ks.length = W) (hw : s.words.length ≤ W) (hb : s.b < 4)
    (hin : (if s.words.length < W then s.words ++ [align s.x s.b] else s.words) = i0 ++ [x])
    (hc : s.out.length + 4 * i0.length + (if s.b = 0 then 4 else s.b) ≤ cap) :
    apply version key W cap s = .ok ⟨[], 0, 0,
      s.out ++ List.zipWith (· ^^^ ·) (i0.flatMap bytes4 ++ (bytes4 x).take (if s.b = 0 then 4 else s.b)) (ks.flatMap bytes4), s.n + 1⟩ := by
  have hw1 : (if s.words.length < W then s.words.length + 1 else s.words.length) = i0.length + 1 := by
    have := congrArg List.length hin
    rw [List.length_append, List.length_singleton] at this
    rw [← this]
    split
    · rw [List.length_append, List.length_singleton]
    · rfl
  have hi : i0.length < ks.length := by
    rw [hl]
    split at hw1 <;> omega
  obtain ⟨k0, y, k1, hks, hk0⟩ : ∃ k0 y k1, ks = k0 ++ y :: k1 ∧ i0.length = k0.length :=
    ⟨ks.take i0.length, ks[i0.length], ks.drop (i0.length + 1), by rw [← List.drop_eq_getElem_cons hi, List.take_append_drop],
      by rw [List.length_take]; omega⟩
  have hz : (List.zipWith (· ^^^ ·) i0 k0).length = i0.length := by rw [List.length_zipWith]; omega
  have ht : ((bytes4 (x ^^^ y)).take (if s.b = 0 then 4 else s.b)).length = if s.b = 0 then 4 else s.b := by
    rw [List.length_take, bytes4_length]
    split <;> omega
  unfold apply
  dsimp only
  rw [hin, hw1, hk, Out.bind_ok, outblock_eq _ _ _ hl, Out.bind_ok, ← hl, hks, outblock_split _ _ _ _ _ hk0, Nat.add_sub_cancel]
  have e1 := rd_take (List.zipWith (· ^^^ ·) i0 k0) ((x ^^^ y) :: k1)
  have e2 := rd_pre (List.zipWith (· ^^^ ·) i0 k0) k1 (x ^^^ y)
  rw [hz] at e1 e2
  rw [e1, Out.bind_ok, e2, Out.bind_ok]
  have hout : (s.out ++ (List.zipWith (· ^^^ ·) i0 k0).flatMap bytes4).length = s.out.length + 4 * i0.length := by
    rw [List.length_append, flat4_length, hz]
  rw [List.take_of_length_le (by rw [hout]; omega), hout, ht, if_neg (by omega), Out.pure_eq, List.append_assoc, flat4_xor _ _ hk0,
    List.flatMap_append, List.flatMap_cons, List.zipWith_append (by rw [flat4_length, flat4_length, hk0]), ← tail_xor _ _ _ _ (by split <;> omega)]

/-- The key stream of the block that begins with `n` and of those behind it. -/
def pads (three : Bool) (a : Five 32) (W : Nat) (n : W32) (N : Nat) : Bytes :=
  (List.range N).flatMap fun j => (Spec.Seal.stream three a (n + BitVec.ofNat 32 j) W).flatMap bytes4

theorem pads_succ (three : Bool) (a : Five 32) (W : Nat) (n : W32) (N : Nat) :
    pads three a W n (N + 1) = (Spec.Seal.stream three a n W).flatMap bytes4 ++ pads three a W (n + 1) N := by
  unfold pads
  rw [List.range_succ_eq_map, List.flatMap_cons, List.flatMap_map, BitVec.add_zero]
  congr 2
  funext j
  have : n + BitVec.ofNat 32 j.succ = n + 1 + BitVec.ofNat 32 j := by
    rw [Nat.succ_eq_add_one, Nat.add_comm, BitVec.ofNat_add, BitVec.add_assoc]
    rfl
  rw [this]

theorem zip_long (l m k : Bytes) (h : l.length ≤ m.length) : List.zipWith (· ^^^ ·) l (m ++ k) = List.zipWith (· ^^^ ·) l m := by
  have := List.zipWith_append (f := fun (x y : Byte) => x ^^^ y) (l₁ := l) (l₁' := []) (l₂ := m.take l.length) (l₂' := m.drop l.length ++ k)
    (by rw [List.length_take]; omega)
  rw [List.append_nil, List.zipWith_nil_left, List.append_nil, ← List.append_assoc, List.take_append_drop] at this
  rw [this]
  have := List.zipWith_append (f := fun (x y : Byte) => x ^^^ y) (l₁ := l) (l₁' := []) (l₂ := m.take l.length) (l₂' := m.drop l.length)
    (by rw [List.length_take]; omega)
  rw [List.append_nil, List.zipWith_nil_left, List.append_nil, List.take_append_drop] at this
  exact this.symm

theorem loop_more (version : Nat) (key : Bytes) (W cap : Nat) (y : Byte) (rest : Bytes) (words : List W32) (x : W32) (b : Nat) (out : Bytes) (n : W32)
    (h1 : words.length < W) (h2 : W ≤ 0xffff) (hr : rest ≠ []) (hb : b < 3) :
    loop version key W cap (y :: rest) ⟨words, x, b, out, n⟩ = loop version key W cap rest ⟨words, x <<< 8 ||| y.setWidth 32, b + 1, out, n⟩ := by
  rw [loop, if_neg (Nat.not_le.mpr (Nat.lt_of_lt_of_le h1 h2))]
  dsimp only
  rw [if_neg hr, Nat.mod_eq_of_lt (show b + 1 < 4 by omega), if_neg (show ¬ (b + 1 = 0) by omega), if_neg (show ¬ (words.length = W) by omega)]

theorem loop_last (version : Nat) (key : Bytes) (W cap : Nat) (y : Byte) (words : List W32) (x : W32) (b : Nat) (out : Bytes) (n : W32)
    (h1 : words.length < W) (h2 : W ≤ 0xffff) :
    loop version key W cap [y] ⟨words, x, b, out, n⟩ = apply version key W cap ⟨words, x <<< 8 ||| y.setWidth 32, (b + 1) % 4, out, n⟩ := by
  rw [loop, if_neg (Nat.not_le.mpr (Nat.lt_of_lt_of_le h1 h2))]
  dsimp only
  rw [if_pos rfl]

theorem loop_word (version : Nat) (key : Bytes) (W cap : Nat) (y : Byte) (rest : Bytes) (words : List W32) (x : W32) (out : Bytes) (n : W32)
    (h1 : words.length < W) (h2 : W ≤ 0xffff) (hr : rest ≠ []) :
    loop version key W cap (y :: rest) ⟨words, x, 3, out, n⟩ =
      if (words ++ [x <<< 8 ||| y.setWidth 32]).length = W then
        apply version key W cap ⟨words ++ [x <<< 8 ||| y.setWidth 32], 0, 0, out, n⟩ >>= fun s => loop version key W cap rest s
      else loop version key W cap rest ⟨words ++ [x <<< 8 ||| y.setWidth 32], 0, 0, out, n⟩ := by
  rw [loop, if_neg (Nat.not_le.mpr (Nat.lt_of_lt_of_le h1 h2))]
  dsimp only
  rw [if_neg hr, if_pos rfl]

/-- A last group of bytes. -/
theorem apply_last (three : Bool) (key : Bytes) (a : Five 32) (W cap : Nat) (h1 : 1 ≤ W) (h2 : W ≤ 0xffff) (ha : ldUserkey key = .ok a)
    (words : List W32) (out : Bytes) (n : W32) (N : Nat) (hw : words.length < W) (x : W32) (b : Nat) (msg : Bytes) (hb : b < 4)
    (hm : (bytes4 (align x b)).take (if b = 0 then 4 else b) = msg) (hc : out.length + 4 * words.length + msg.length ≤ cap) :
    apply (if three then 3 else 2) key W cap ⟨words, x, b, out, n⟩ =
      .ok ⟨[], 0, 0, out ++ List.zipWith (· ^^^ ·) (words.flatMap bytes4 ++ msg) (pads three a W n (N + 1)), n + 1⟩ := by
  have hl : msg.length = if b = 0 then 4 else b := by
    rw [← hm, List.length_take, bytes4_length]
    split <;> omega
  have hl4 : msg.length ≤ 4 := by rw [hl]; split <;> omega
  have hin : (if words.length < W then words ++ [align x b] else words) = words ++ [align x b] := if_pos hw
  have e := apply_eq (if three then 3 else 2) key W cap ⟨words, x, b, out, n⟩ (Spec.Seal.stream three a n W) words (align x b)
    (keystream_eq three key a n W h1 h2 ha) (stream_length three a n W) (Nat.le_of_lt hw) hb hin (by rw [← hl]; exact hc)
  rw [e, hm, pads_succ, zip_long _ _ _ (by rw [List.length_append, flat4_length, flat4_length, stream_length]; omega)]

theorem loop_eq (three : Bool) (key : Bytes) (a : Five 32) (W cap : Nat) (h1 : 1 ≤ W) (h2 : W ≤ 0xffff) (ha : ldUserkey key = .ok a) :
    ∀ (msg : Bytes) (words : List W32) (out : Bytes) (n : W32) (N : Nat), words.length < W → msg ≠ [] → out.length + 4 * words.length + msg.length ≤ cap →
    4 * words.length + msg.length ≤ 4 * W * N →
    ∃ n', loop (if three then 3 else 2) key W cap msg ⟨words, 0, 0, out, n⟩ =
      .ok ⟨[], 0, 0, out ++ List.zipWith (· ^^^ ·) (words.flatMap bytes4 ++ msg) (pads three a W n N), n'⟩
  | [], _, _, _, _, _, h, _, _ => absurd rfl h
  | msg, words, out, n, 0, hw, hm, _, hN => by
    rw [Nat.mul_zero] at hN
    exact absurd (List.length_eq_zero_iff.mp (by omega)) hm
  | [x], words, out, n, N + 1, hw, hm, hc, hN => by
    refine ⟨n + 1, ?_⟩
    rw [loop_last _ _ _ _ _ _ _ _ _ _ hw h2]
    exact apply_last three key a W cap h1 h2 ha words out n N hw _ 1 [x] (by omega) (by rw [align1, bytes4_cat]; rfl) hc
  | [x, y], words, out, n, N + 1, hw, hm, hc, hN => by
    refine ⟨n + 1, ?_⟩
    rw [loop_more _ _ _ _ _ _ _ _ _ _ _ hw h2 (by simp) (by omega), loop_last _ _ _ _ _ _ _ _ _ _ hw h2]
    exact apply_last three key a W cap h1 h2 ha words out n N hw _ 2 [x, y] (by omega) (by rw [align2, bytes4_cat]; rfl) hc
  | [x, y, z], words, out, n, N + 1, hw, hm, hc, hN => by
    refine ⟨n + 1, ?_⟩
    rw [loop_more _ _ _ _ _ _ _ _ _ _ _ hw h2 (by simp) (by omega), loop_more _ _ _ _ _ _ _ _ _ _ _ hw h2 (by simp) (by omega),
      loop_last _ _ _ _ _ _ _ _ _ _ hw h2]
    exact apply_last three key a W cap h1 h2 ha words out n N hw _ 3 [x, y, z] (by omega) (by rw [align3, bytes4_cat]; rfl) hc
  | x :: y :: z :: t :: rest, words, out, n, N + 1, hw, hm, hc, hN => by
    rw [loop_more _ _ _ _ _ _ _ _ _ _ _ hw h2 (by simp) (by omega), loop_more _ _ _ _ _ _ _ _ _ _ _ hw h2 (by simp) (by omega),
      loop_more _ _ _ _ _ _ _ _ _ _ _ hw h2 (by simp) (by omega)]
    by_cases c : rest = []
    · subst c
      refine ⟨n + 1, ?_⟩
      rw [loop_last _ _ _ _ _ _ _ _ _ _ hw h2]
      exact apply_last three key a W cap h1 h2 ha words out n N hw (cat x y z t) 0 [x, y, z, t] (by omega) (by rw [align4, bytes4_cat]; rfl) hc
    · rw [loop_word _ _ _ _ _ _ _ _ _ _ hw h2 c]
      change ∃ n', (if (words ++ [cat x y z t]).length = W then apply _ key W cap ⟨words ++ [cat x y z t], 0, 0, out, n⟩ >>= fun s => loop _ key W cap rest s
        else loop _ key W cap rest ⟨words ++ [cat x y z t], 0, 0, out, n⟩) = _
      have hlen : (words ++ [cat x y z t]).length = words.length + 1 := by rw [List.length_append, List.length_singleton]
      have hflat : (words ++ [cat x y z t]).flatMap bytes4 = words.flatMap bytes4 ++ [x, y, z, t] := by
        rw [List.flatMap_append, List.flatMap_singleton, bytes4_cat]
      simp only [List.length_cons] at hc hN
      by_cases d : words.length + 1 = W
      · rw [if_pos (by exact hlen.trans d)]
        have e := apply_eq (if three then 3 else 2) key W cap ⟨words ++ [cat x y z t], 0, 0, out, n⟩ (Spec.Seal.stream three a n W) words (cat x y z t)
          (keystream_eq three key a n W h1 h2 ha) (stream_length three a n W) (by dsimp only; omega) (by dsimp only; omega)
          (by dsimp only; rw [if_neg (by omega)]) (by dsimp only; rw [if_pos rfl]; omega)
        dsimp only at e
        rw [if_pos rfl, List.take_of_length_le (by rw [bytes4_length]), bytes4_cat] at e
        obtain ⟨n', e'⟩ := loop_eq three key a W cap h1 h2 ha rest []
          (out ++ List.zipWith (· ^^^ ·) (words.flatMap bytes4 ++ [x, y, z, t]) ((Spec.Seal.stream three a n W).flatMap bytes4)) (n + 1) N (by exact h1) c
          (by
            rw [List.length_append, List.length_zipWith, List.length_append, flat4_length, flat4_length, stream_length]
            simp only [List.length_cons, List.length_nil]
            omega)
          (by
            rw [Nat.mul_succ] at hN
            simp only [List.length_nil]
            omega)
        refine ⟨n', ?_⟩
        rw [e, Out.bind_ok, e', pads_succ, List.append_assoc, List.flatMap_nil, List.nil_append,
          ← List.zipWith_append (by rw [List.length_append, flat4_length, flat4_length, stream_length]; simp; omega), List.append_assoc]
        rfl
      · rw [if_neg (by exact fun q => d (hlen.symm.trans q))]
        obtain ⟨n', e'⟩ := loop_eq three key a W cap h1 h2 ha rest (words ++ [cat x y z t]) out n (N + 1) (by omega) c (by omega) (by omega)
        refine ⟨n', e'.trans ?_⟩
        rw [hflat, List.append_assoc]
        rfl
  termination_by msg => msg.length

end Kryptos.Seal
