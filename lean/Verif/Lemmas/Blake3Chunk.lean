import Verif.Lemmas.Blake3
import Verif.Lemmas.Blake3Tree
/- The chunks of the code and those of BLAKE3. -/
namespace Kryptos.Blake3
open Spec.Blake3 (Vec put IV Node)
open Spec.MD (leNat le)

/-- What stays as it is within a chunk. -/
structure Same (a b : Ctx) : Prop where
  mode : b.mode = a.mode
  wanted : b.wanted = a.wanted
  cur : b.cur = a.cur
  k : b.k = a.k
  t : b.t = a.t
  stack : b.stack = a.stack
  getR : b.getR = a.getR
  chunkNr : b.chunkNr = a.chunkNr

theorem Same.rfl' (a : Ctx) : Same a a := ⟨rfl, rfl, rfl, rfl, rfl, rfl, rfl, rfl⟩

theorem Same.trans {a b c : Ctx} (h : Same a b) (g : Same b c) : Same a c :=
  ⟨g.mode.trans h.mode, g.wanted.trans h.wanted, g.cur.trans h.cur, g.k.trans h.k, g.t.trans h.t, g.stack.trans h.stack, g.getR.trans h.getR,
    g.chunkNr.trans h.chunkNr⟩

/-- The registers hold the results of the compression of `n`. -/
structure Done (c : Ctx) (n : Node) : Prop where
  h : c.h = vec 8 (Spec.Blake3.compress n)
  v : c.v = vec 16 (Spec.Blake3.compress n)

/-- The registers of the compression of `n` are kept. -/
structure Kept (c : Ctx) (n : Node) : Prop where
  hh : c.hh = vec 8 n.h
  vv : c.vv = start n
  mm : c.mm = vec 16 n.m

/-- A state before the block with number `j` of a chunk. -/
structure InChunk (s : St) (h : Vec) (j : Nat) : Prop where
  eh : s.c.h = vec 8 h
  v : s.c.v.take 8 = vec 8 h
  m : s.c.m = List.replicate 16 0
  b : s.c.b = 0
  d : s.c.d = modeFlag s.c.mode ||| (if j = 0 then Spec.Blake3.CHUNK_START else 0)
  mi : s.mi = 0
  bn : s.blockNr = j

/-- A node with the flag of the root. -/
def withRoot (root : Bool) (n : Node) : Node := if root then { n with d := n.d ||| Spec.Blake3.ROOT } else n

theorem iv4 : (List.range 4).mapM (fun i => rd iv i) = .ok (vec 4 IV) := by
  rw [iv_eq]; exact mapM_rd 8 IV 4 (by decide)

theorem root_flag (m : BMode) (x y : Bool) (r : Bool) :
    (((modeFlag m ||| (if x then Spec.Blake3.CHUNK_START else 0)) ||| (if y then Spec.Blake3.CHUNK_END else 0)) |||
      (if r then Spec.Blake3.ROOT else 0)) &&& ROOT ≠ 0 ↔ r = true := by
  cases m <;> cases x <;> cases y <;> cases r <;> decide

/-- Compressing a block. -/
theorem block_eq (small : Bool) (s : St) (h : Vec) (j : Nat) (hi : InChunk s h j) (mi bn : Nat)
    (hb : s.ip.drop 64 ≠ [] → bn = s.blockNr) :
    let rest := s.ip.drop 64
    let root := decide (rest = [] ∧ small = true)
    let last := decide (j = 15 ∨ rest = [])
    let n := withRoot root ⟨h, Spec.Blake3.words (s.ip.take 64), s.c.t, BitVec.ofNat 32 (min 64 s.ip.length),
      modeFlag s.c.mode ||| (if j = 0 then Spec.Blake3.CHUNK_START else 0) ||| (if last then Spec.Blake3.CHUNK_END else 0)⟩
    ∃ s1, compressBlock small (atBlock s s.ip mi bn) = .ok s1 ∧ s1.ip = rest ∧ (rest ≠ [] → s1.blockNr = j + 1) ∧ s1.out = s.out ∧ Same s.c s1.c ∧
      s1.c.d = n.d ∧ Done s1.c n ∧ (root = true → Kept s1.c n) := by
  intro rest root last n
  unfold compressBlock atBlock
  dsimp only
  rw [iv4, Out.bind_ok, hi.v, hi.d]
  have ed : (if s.ip.drop 64 = [] ∧ small = true then
      (if bn + 1 = 16 ∨ s.ip.drop 64 = [] then (modeFlag s.c.mode ||| (if j = 0 then Spec.Blake3.CHUNK_START else 0)) ||| CHUNK_END else
        modeFlag s.c.mode ||| (if j = 0 then Spec.Blake3.CHUNK_START else 0)) ||| ROOT
      else if bn + 1 = 16 ∨ s.ip.drop 64 = [] then (modeFlag s.c.mode ||| (if j = 0 then Spec.Blake3.CHUNK_START else 0)) ||| CHUNK_END else
        modeFlag s.c.mode ||| (if j = 0 then Spec.Blake3.CHUNK_START else 0)) = n.d := by
    have el : (bn + 1 = 16 ∨ s.ip.drop 64 = []) ↔ last = true := by
      simp only [last, rest, decide_eq_true_eq]
      by_cases c : s.ip.drop 64 = []
      · simp [c]
      · have := (hb c).trans hi.bn
        simp only [c, or_false]; omega
    have er : (s.ip.drop 64 = [] ∧ small = true) ↔ root = true := by simp [root, rest]
    have q : ∀ b : Bool, withRoot root ⟨h, Spec.Blake3.words (s.ip.take 64), s.c.t, BitVec.ofNat 32 (min 64 s.ip.length),
        modeFlag s.c.mode ||| (if j = 0 then Spec.Blake3.CHUNK_START else 0) ||| (if b then Spec.Blake3.CHUNK_END else 0)⟩ =
        ⟨h, Spec.Blake3.words (s.ip.take 64), s.c.t, BitVec.ofNat 32 (min 64 s.ip.length),
        if root = true then modeFlag s.c.mode ||| (if j = 0 then Spec.Blake3.CHUNK_START else 0) ||| (if b then Spec.Blake3.CHUNK_END else 0) ||| ROOT
        else modeFlag s.c.mode ||| (if j = 0 then Spec.Blake3.CHUNK_START else 0) ||| (if b then Spec.Blake3.CHUNK_END else 0)⟩ := by
      intro b; unfold withRoot; cases root <;> rfl
    simp only [el, er, n, q]
    cases last
    · simp
    · simp; rfl
  rw [ed]
  have nh : n.h = h := by simp only [n]; unfold withRoot; cases root <;> rfl
  have nm : n.m = Spec.Blake3.words (s.ip.take 64) := by simp only [n]; unfold withRoot; cases root <;> rfl
  have nt : n.t = s.c.t := by simp only [n]; unfold withRoot; cases root <;> rfl
  have nb : n.b = BitVec.ofNat 32 (min 64 s.ip.length) := by simp only [n]; unfold withRoot; cases root <;> rfl
  have nr : n.d &&& ROOT ≠ 0 ↔ root = true := by
    rw [← root_flag s.c.mode (decide (j = 0)) last root]
    simp only [n, decide_eq_true_eq]
    unfold withRoot
    cases root <;> simp
  have sv : vec 8 h ++ vec 4 IV ++ [(s.c.t &&& 0xFFFFFFFF#64).setWidth 32, (s.c.t >>> 32).setWidth 32, BitVec.ofNat 32 (min 64 s.ip.length), n.d] =
      start n := by unfold start; rw [nh, nt, nb]
  rw [sv]
  clear_value n root
  by_cases c : n.d &&& ROOT ≠ 0
  · rw [if_pos c]
    unfold Ctx.save
    dsimp only
    rw [ctx_compress _ n rfl (by rw [nm]) (by rw [nh]; exact hi.eh), Out.bind_ok, Out.pure_eq]
    refine ⟨_, rfl, rfl, fun hr => ?_, rfl, ⟨rfl, rfl, rfl, rfl, rfl, rfl, rfl, rfl⟩, rfl, ⟨rfl, rfl⟩, fun _ => ⟨?_, rfl, by rw [nm]⟩⟩
    · show bn + 1 = _
      rw [hb hr, hi.bn]
    · rw [nh]; exact hi.eh
  · rw [if_neg c]
    rw [ctx_compress _ n rfl (by rw [nm]) (by rw [nh]; exact hi.eh), Out.bind_ok, Out.pure_eq]
    refine ⟨_, rfl, rfl, fun hr => ?_, rfl, ⟨rfl, rfl, rfl, rfl, rfl, rfl, rfl, rfl⟩, rfl, ⟨rfl, rfl⟩, fun hr => absurd (nr.mpr hr) c⟩
    show bn + 1 = _
    rw [hb hr, hi.bn]

/-- What follows the compression of a block. -/
def loopTail (strict small direct : Bool) (fuel : Nat) (s : St) : Out St := do
  let s ← afterBlock direct s
  if isDone direct s then return s else chunkLoop strict small direct fuel s

theorem atWord_zero (s : St) (h : Vec) (j : Nat) (hi : InChunk s h j) : atWord s s.ip 0 = s := by
  unfold atWord
  have e : vec 16 (filled s.ip 0) = s.c.m := by rw [hi.m]; rfl
  rw [e, show BitVec.ofNat 32 (4 * 0) = s.c.b by rw [hi.b]; rfl]
  have : s.mi = 0 := hi.mi
  cases s
  simp only at this
  subst this
  rfl

/-- Within a chunk, after a block. -/
theorem inner_after (direct : Bool) (s1 : St) (n : Node) (j : Nat) (m : BMode) (t : Bool) (hd : s1.c.d = n.d) (hm : s1.c.mode = m)
    (hn : n.d = modeFlag m ||| (if t then Spec.Blake3.CHUNK_START else 0)) (hD : Done s1.c n) (hb : s1.blockNr = j + 1) (hj : j + 1 ≠ 16)
    (hr : s1.ip ≠ []) :
    ∃ s2, afterBlock direct s1 = .ok s2 ∧ InChunk s2 (Spec.Blake3.compress n) (j + 1) ∧ s2.ip = s1.ip ∧ s2.out = s1.out ∧ Same s1.c s2.c := by
  have nr : ¬ s1.c.d &&& ROOT ≠ 0 := by
    rw [hd, hn]
    cases m <;> cases t <;> decide
  unfold afterBlock sumStep
  rw [if_neg (fun c => nr c.2), Out.pure_eq, Out.bind_ok]
  unfold chunkStep
  rw [if_neg (by rw [hb]; rintro (c | c); exacts [hj c, hr c]), Out.pure_eq, Out.bind_ok]
  dsimp only
  rw [if_pos (by omega)]
  refine ⟨_, rfl, ⟨hD.h, ?_, rfl, rfl, ?_, rfl, hb⟩, rfl, rfl, ⟨rfl, rfl, rfl, rfl, rfl, rfl, rfl, rfl⟩⟩
  · show s1.c.v.take 8 = _
    rw [hD.v, take_vec _ 8 16 (by decide)]
  · show s1.c.d &&& ~~~CHUNK_START = modeFlag s1.c.mode ||| _
    rw [if_neg (by omega), hd, hn, hm]
    cases m <;> cases t <;> decide

theorem chunk_run (strict small direct : Bool) : ∀ r j, j + r = 16 → 0 < r → ∀ (s : St) (h : Vec), InChunk s h j →
    (strict = false ∨ s.ip ≠ []) → (direct = true → s.c.cur < s.c.wanted) → ∀ fuel, s.ip.length < fuel →
    let rest := s.ip.drop (1024 - 64 * j)
    let root := decide (rest = [] ∧ small = true)
    let n := withRoot root (Spec.Blake3.chunkFrom (modeFlag s.c.mode) s.c.t h (if j = 0 then Spec.Blake3.CHUNK_START else 0)
      (s.ip.take (1024 - 64 * j)))
    ∃ fuel' s1, (rest ≠ [] → rest.length < fuel') ∧ chunkLoop strict small direct fuel s = loopTail strict small direct fuel' s1 ∧
      s1.ip = rest ∧ (s1.blockNr = 16 ∨ rest = []) ∧ s1.out = s.out ∧ Same s.c s1.c ∧
      s1.c.d = n.d ∧ Done s1.c n ∧ (root = true → Kept s1.c n) := by
  intro r
  induction r with
  | zero => intro j _ h; omega
  | succ r ih =>
    intro j hj _ s h hi hs hd fuel hf rest root n
    obtain ⟨f1, mi, bn, h1, h2⟩ := word_run strict small direct s s.ip hs hd 16 0 rfl (by decide) (Or.inl rfl) fuel (by omega)
    rw [atWord_zero s h j hi] at h2
    obtain ⟨s1, e1, e2, e3, e4, e5, e6, e7, e8⟩ := block_eq small s h j hi mi bn (fun q => (h1 q).2)
    have hrun : chunkLoop strict small direct fuel s = loopTail strict small direct f1 s1 := by
      rw [h2]; unfold blockEnd; rw [e1]; rfl
    by_cases last : j = 15 ∨ s.ip.drop 64 = []
    · have et : s.ip.take (1024 - 64 * j) = s.ip.take 64 := by
        rcases last with c | c
        · rw [c]
        · rw [List.take_of_length_le, List.take_of_length_le]
          · simpa using c
          · have : s.ip.length ≤ 64 := by simpa using c
            omega
      have er : rest = s.ip.drop 64 := by
        simp only [rest]
        rcases last with c | c
        · rw [c]
        · rw [c, List.drop_eq_nil_of_le]
          have : s.ip.length ≤ 64 := by simpa using c
          omega
      have en : n = withRoot (decide (s.ip.drop 64 = [] ∧ small = true)) ⟨h, Spec.Blake3.words (s.ip.take 64), s.c.t,
          BitVec.ofNat 32 (min 64 s.ip.length), modeFlag s.c.mode ||| (if j = 0 then Spec.Blake3.CHUNK_START else 0) |||
          (if decide (j = 15 ∨ s.ip.drop 64 = []) then Spec.Blake3.CHUNK_END else 0)⟩ := by
        simp only [n, root]
        rw [er, et, Spec.Blake3.chunkFrom, if_pos (by rw [List.length_take]; omega), decide_eq_true last, if_pos rfl, List.length_take]
      refine ⟨f1, s1, fun q => ?_, hrun, e2.trans er.symm, ?_, e4, e5, ?_, ?_, ?_⟩
      · rw [er] at q ⊢; exact (h1 q).1
      · by_cases c : s.ip.drop 64 = []
        · exact Or.inr (er.trans c)
        · left
          rw [e3 c]
          rcases last with l | l
          · rw [l]
          · exact absurd l c
      · rw [en]; exact e6
      · rw [en]; exact e7
      · intro q
        rw [en]
        refine e8 ?_
        rw [← er]; exact q
    · have hr : s.ip.drop 64 ≠ [] := fun c => last (Or.inr c)
      have hj15 : j ≠ 15 := fun c => last (Or.inl c)
      have hl : 64 < s.ip.length := by
        rcases Nat.lt_or_ge 64 s.ip.length with x | x
        · exact x
        · exact absurd (List.drop_eq_nil_of_le x) hr
      have hw : ∀ x : Node, withRoot (decide (s.ip.drop 64 = [] ∧ small = true)) x = x := by
        intro x; unfold withRoot; rw [if_neg]; simp [hr]
      rw [hw, decide_eq_false last] at e6 e7
      have hip : s1.ip ≠ [] := by rw [e2]; exact hr
      obtain ⟨s2, g1, g2, g3, g4, g5⟩ := inner_after direct s1 _ j s.c.mode (decide (j = 0)) e6 e5.mode (by simp) e7 (e3 hr) (by omega) hip
      have g6 := e5.trans g5
      have hip2 : s2.ip = s.ip.drop 64 := g3.trans e2
      have hD : isDone direct s2 = false := by
        unfold isDone
        cases direct
        · rw [if_neg (by decide), hip2]; simpa using hl
        · have := hd rfl
          rw [if_pos rfl, g6.cur, g6.wanted]; simpa using this
      obtain ⟨f2, s3, k1, k2, k3, k4, k5, k6, k7, k8, k9⟩ := ih (j + 1) (by omega) (by omega) s2 _ g2 (Or.inr (by rw [hip2]; exact hr))
        (fun q => by rw [g6.cur, g6.wanted]; exact hd q) f1 (by rw [hip2]; exact (h1 hr).1)
      have er : s2.ip.drop (1024 - 64 * (j + 1)) = rest := by
        simp only [rest]
        rw [hip2, List.drop_drop]; congr 1; omega
      have en : Spec.Blake3.chunkFrom (modeFlag s2.c.mode) s2.c.t (Spec.Blake3.compress ⟨h, Spec.Blake3.words (s.ip.take 64), s.c.t,
          BitVec.ofNat 32 (min 64 s.ip.length), modeFlag s.c.mode ||| (if j = 0 then Spec.Blake3.CHUNK_START else 0) ||| (if false = true then Spec.Blake3.CHUNK_END else 0)⟩)
          (if j + 1 = 0 then Spec.Blake3.CHUNK_START else 0) (s2.ip.take (1024 - 64 * (j + 1))) =
          Spec.Blake3.chunkFrom (modeFlag s.c.mode) s.c.t h (if j = 0 then Spec.Blake3.CHUNK_START else 0) (s.ip.take (1024 - 64 * j)) := by
        rw [Spec.Blake3.chunkFrom.eq_1 (modeFlag s.c.mode) s.c.t h]
        have hnl : ¬ (s.ip.take (1024 - 64 * j)).length ≤ 64 := by rw [List.length_take]; omega
        rw [if_neg hnl, g6.mode, g6.t, if_neg (show ¬ j + 1 = 0 by omega), List.take_take, hip2, List.drop_take,
          show min 64 (1024 - 64 * j) = 64 by omega, show min 64 s.ip.length = 64 by omega, show 1024 - 64 * j - 64 = 1024 - 64 * (j + 1) by omega]
        simp
      rw [er, en] at k7 k8 k9
      refine ⟨f2, s3, fun q => ?_, ?_, k3.trans er, ?_, k5.trans (g4.trans e4), g6.trans k6, k7, k8, k9⟩
      · have := k1 (by rw [er]; exact q)
        rw [er] at this; exact this
      · rw [hrun]
        show (afterBlock direct s1 >>= _) = _
        rw [g1, Out.bind_ok, hD]
        exact k2
      · rw [← er]; exact k4

end Kryptos.Blake3
