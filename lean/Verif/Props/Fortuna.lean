import Verif.Model.Fortuna
import Verif.Props.Aes
import Verif.Props.Sha
import Verif.Props.Padding
/-
  C57.  The Fortuna generator.
-/
namespace Kryptos.Fortuna
open Block Kryptos.Hash

/-- SHA-256 of the library is defined for every input of a possible size and has 32 bytes. -/
theorem sha256_defined (stale : List W32) (m : Bytes) (hm : m.length < 2 ^ 61) :
    ∃ d, Sha256.hash stale m false = .ok d ∧ d.length = 32 := by
  have hdef : ∃ d, Sha256.hash stale m false = .ok d := by
    by_cases ha : m.length % 64 ≠ 0 ∨ m = []
    · obtain ⟨d, h, _⟩ := sha256_fips_partial m stale hm ha
      exact ⟨d, h⟩
    · exact ⟨_, sha256_aligned m stale hm (fun h => ha (Or.inr h)) (by
        by_contra h; exact ha (Or.inl h))⟩
  obtain ⟨d, h⟩ := hdef
  refine ⟨d, h, ?_⟩
  rw [Sha256.hash, Hash.hashOf] at h
  cases hp : Hash.processMessage (Sha256.alg Sha256.init256) m stale with
  | ub => rw [hp] at h; simp at h
  | ok st =>
    rw [hp] at h
    simp only [Out.bind_ok, Out.pure_eq, Bool.false_eq_true, if_false, Out.ok.injEq] at h
    rw [← h, Sha256.raw256, flatMap_cpyBe]
    simp [Eight.words, Spec.MD.be]

/-- The block enciphered for a counter: the counter in little-endian order, eleven zeros and the number of bytes added. -/
def padded (c : W32) : Bytes := counterBytes c ++ List.replicate 11 0 ++ [12]

theorem padded_length (c : W32) : (padded c).length = 16 := rfl

/-- Distinct counters give distinct blocks. -/
theorem padded_inj (c c' : W32) (h : padded c = padded c') : c = c' := by
  simp only [padded, counterBytes, List.cons_append, List.cons.injEq, List.nil_append] at h
  obtain ⟨h0, h1, h2, h3, _⟩ := h
  apply BitVec.eq_of_getLsbD_eq
  intro i hi
  have k0 := fun j => congrArg (BitVec.getLsbD · j) h0
  have k1 := fun j => congrArg (BitVec.getLsbD · j) h1
  have k2 := fun j => congrArg (BitVec.getLsbD · j) h2
  have k3 := fun j => congrArg (BitVec.getLsbD · j) h3
  have := k0 (i % 8)
  have := k1 (i % 8)
  have := k2 (i % 8)
  have := k3 (i % 8)
  clear h0 h1 h2 h3 k0 k1 k2 k3
  interval_cases i <;> simp_all

/-- The generator's block: AES-128 is run in the *decryption* direction. -/
def blk (K : Bytes) (c : W32) : Bytes := (aes K).dec (padded c)

theorem blk_spec (K : Bytes) (c : W32) : Aes.dec128 K (padded c) = .ok (blk K c) ∧ (blk K c).length = 16 := by
  obtain ⟨b, h1, h2, _⟩ := (Aes.aes128_invertible K).enc_dec (padded c) (padded_length c)
  have : blk K c = b := by
    show (match Aes.dec128 K (padded c) with | .ok c => c | .ub => padded c) = b
    rw [h1]
  rw [this]
  exact ⟨h1, h2⟩

/-- Under one key distinct counters give distinct blocks. -/
theorem blk_inj (K : Bytes) (c c' : W32) (h : blk K c = blk K c') : c = c' := by
  obtain ⟨b, h1, _, h2⟩ := (Aes.aes128_invertible K).enc_dec (padded c) (padded_length c)
  obtain ⟨b', h1', _, h2'⟩ := (Aes.aes128_invertible K).enc_dec (padded c') (padded_length c')
  rw [(blk_spec K c).1] at h1
  rw [(blk_spec K c').1] at h1'
  injection h1 with h1
  injection h1' with h1'
  rw [← h1] at h2
  rw [← h1', ← h, h2] at h2'
  injection h2' with h2'
  exact padded_inj c c' h2'

theorem oneBlock_eq (stale : Bytes) (hst : stale.length ≤ 16) (s : Ctx) :
    oneBlock stale s = .ok (blk s.K s.C, { s with C := s.C + 1, used := s.used ++ [s.C] }) := by
  have hp : Padding.ansiX923 (counterBytes s.C) 16 false (fun _ => 0) = some (padded s.C) := by
    have : Padding.paddedSize 4 16 (by decide) = 16 := by
      have := Padding.paddedSize_spec 4 16 (by decide)
      omega
    rw [Padding.ansiX923, dif_neg (by decide), if_neg (by simp [counterBytes])]
    simp only [show (counterBytes s.C).length = 4 from rfl, this]
    rfl
  have he : ecbLoop (aes s.K).dec 16 (by decide) stale (padded s.C) 16 = .ok (blk s.K s.C) := by
    have := ecbLoop_blocks (aes s.K).dec 16 (by decide) (fun b hb => (Aes.aes128_lawful s.K).dec_len b hb) [padded s.C]
      (by intro b hb; simp only [List.mem_singleton] at hb; rw [hb]; rfl) stale 16 hst (by simp [padded_length])
    simpa [Spec.ecb, blk] using this
  have hproc : process (aes s.K) .ecb .encryptWithoutRandomPad (counterBytes s.C) stale (fun _ => 0) none none =
      .ok { out := some (blk s.K s.C), size := 16, iv := none, ctr := none } := by
    have hpk : pick (aes s.K) .encryptWithoutRandomPad .ecb = (aes s.K).dec := by simp [pick]
    rw [process, hpk]
    simp only [processEcb]
    rw [if_pos (by decide)]
    have hbs : (aes s.K).bs = 16 := rfl
    simp only [reduceCtorEq, decide_false, hbs, hp]
    have := he
    simp only [padded_length]
    show (ecbLoop (aes s.K).dec 16 _ stale (padded s.C) 16 >>= _) = _
    rw [he, Out.bind_ok, (blk_spec s.K s.C).2]
    rfl
  rw [oneBlock, hproc, Out.bind_ok]
  simp only [Out.pure_eq]
  rw [List.take_of_length_le (by rw [(blk_spec s.K s.C).2])]

/-- The counters enciphered by `k` rounds from `c` on. -/
def counters (c : W32) (k : Nat) : List W32 := (List.range k).map fun i => c + BitVec.ofNat 32 i

theorem counters_succ (c : W32) (k : Nat) : counters c (k + 1) = c :: counters (c + 1) k := by
  rw [counters, List.range_succ_eq_map, List.map_cons, List.map_map, counters]
  congr 1
  · simp
  · apply List.map_congr_left
    intro i _
    simp only [Function.comp_apply]
    rw [show Nat.succ i = 1 + i by omega, BitVec.ofNat_add, ← BitVec.add_assoc]
    rfl

theorem counters_add (c : W32) (j k : Nat) : counters c (j + k) = counters c j ++ counters (c + BitVec.ofNat 32 j) k := by
  rw [counters, List.range_add, List.map_append, List.map_map, counters, counters]
  congr 1
  apply List.map_congr_left
  intro i _
  simp only [Function.comp_apply]
  rw [BitVec.ofNat_add, ← BitVec.add_assoc]

theorem counters_nodup (c : W32) (k : Nat) (hk : k ≤ 2 ^ 32) : (counters c k).Nodup := by
  rw [counters]
  apply List.Nodup.map_on _ List.nodup_range
  intro i hi j hj h
  have hi := List.mem_range.1 hi
  have hj := List.mem_range.1 hj
  have h : BitVec.ofNat 32 i = BitVec.ofNat 32 j := by
    have := congrArg (fun x => x - c) h
    simpa [BitVec.add_comm c] using this
  have h := congrArg BitVec.toNat h
  simp only [BitVec.toNat_ofNat] at h
  omega

theorem blockLoop_eq (stale : Bytes) (hst : stale.length ≤ 16) : ∀ (k : Nat) (s : Ctx),
    blockLoop stale k s = .ok ((counters s.C k).flatMap (blk s.K),
      { s with C := s.C + BitVec.ofNat 32 k, used := s.used ++ counters s.C k })
  | 0, s => by simp [blockLoop, counters]
  | k + 1, s => by
    rw [blockLoop, oneBlock_eq stale hst, Out.bind_ok]
    simp only
    rw [blockLoop_eq stale hst k, Out.bind_ok]
    simp only [Out.pure_eq, counters_succ, List.flatMap_cons, List.append_assoc, List.singleton_append, BitVec.add_assoc]
    rw [show k + 1 = 1 + k by omega, BitVec.ofNat_add]
    rfl

theorem blocks_length (K : Bytes) (l : List W32) : (l.flatMap (blk K)).length = 16 * l.length := by
  induction l with
  | nil => rfl
  | cons c l ih => rw [List.flatMap_cons, List.length_append, ih, (blk_spec K c).2, List.length_cons]; omega

/-- The invariant of the context: the counters enciphered since the last re-seed are the last ones before the present
counter, and their number is limited by the number of calls. -/
structure Inv (s : Ctx) : Prop where
  key : s.K.length = 32
  seed : s.seed.length = 32
  seedSize : s.seedSize ≤ 32
  calls : s.callNr ≤ 64
  used : ∃ c n, s.used = counters c n ∧ s.C = c + BitVec.ofNat 32 n ∧ n ≤ (s.callNr + 1) * 2 ^ 24

theorem Inv.nodup {s : Ctx} (h : Inv s) : s.used.Nodup := by
  obtain ⟨c, n, h1, _, h2⟩ := h.used
  have := h.calls
  rw [h1]
  apply counters_nodup
  have : (s.callNr + 1) * 2 ^ 24 ≤ 65 * 2 ^ 24 := Nat.mul_le_mul_right _ (by omega)
  omega

theorem inv_init : Inv init :=
  ⟨by simp [init], by simp [init], by simp [init], by simp [init], 0, 0, rfl, rfl, by omega⟩

theorem reseed_eq (staleW : List W32) (s : Ctx) (seed : Bytes) (hK : s.K.length = 32) (hs : s.seed.length = 32)
    (hl : seed.length ≤ 32) :
    ∃ K' seed', K'.length = 32 ∧ seed'.length = 32 ∧ Sha256.hash staleW (s.K ++ seed) false = .ok K' ∧
      reseed staleW s seed =
        .ok { s with K := K', C := s.C + 1, seed := seed', seedSize := 32, used := [] } := by
  obtain ⟨d, h1, h2⟩ := sha256_defined staleW (s.K ++ seed) (by rw [List.length_append]; omega)
  obtain ⟨d', h3, h4⟩ := sha256_defined staleW ((d.take 32).take 16 ++ s.K.drop 16 ++ d.take seed.length)
    (by simp only [List.length_append, List.length_take, List.length_drop]; omega)
  refine ⟨d, d', h2, h4, h1, ?_⟩
  rw [reseed]
  simp only [h1, Out.bind_ok, hK, h2]
  rw [if_neg (by omega), if_neg (by omega)]
  simp only [Nat.reduceDiv, h3, Out.bind_ok, h4]
  rw [if_neg (by omega), List.drop_of_length_le (by omega), List.append_nil, List.take_of_length_le (by omega)]
  rfl

/-- What a call leaves behind when the system delivers a seed whenever it is asked. -/
theorem generateBlocks_spec (stale : Bytes) (hst : stale.length ≤ 16) (staleW : List W32) (sys : Bytes)
    (hsys : sys.length = 32) (s : Ctx) (hs : Inv s) (k : Nat) (hk : 0 < k) (hk2 : k ≤ 2 ^ 24) :
    ∃ K0 c s', generateBlocks stale staleW (some sys) s k = .ok ((counters c k).flatMap (blk K0), s') ∧ Inv s' ∧
      s'.K = K0 ∧ s'.C = c + BitVec.ofNat 32 k ∧ ∃ pre, s'.used = pre ++ counters c k := by
  obtain ⟨hK, hS, hSS, hC, c0, n, hu, hc, hn⟩ := hs
  -- the first seed
  have hfirst : ∃ s1, firstSeed staleW (some sys) { s with callNr := s.callNr + 1 } = .ok (some s1) ∧ s1.K.length = 32 ∧
      s1.seed.length = 32 ∧ s1.seedSize ≤ 32 ∧ s1.callNr = s.callNr + 1 ∧
      ∃ c n, s1.used = counters c n ∧ s1.C = c + BitVec.ofNat 32 n ∧ n ≤ s1.callNr * 2 ^ 24 := by
    rw [firstSeed]
    by_cases h0 : s.C = 0
    · rw [if_pos h0]
      obtain ⟨K', seed', h1, h2, _, h3⟩ := reseed_eq staleW { s with callNr := s.callNr + 1 } sys hK hS (by omega)
      simp only [h3, Out.bind_ok]
      exact ⟨_, rfl, h1, h2, Nat.le_refl _, rfl, s.C + 1, 0, rfl, by simp, by omega⟩
    · rw [if_neg h0]
      exact ⟨_, rfl, hK, hS, hSS, rfl, c0, n, hu, hc, hn⟩
  obtain ⟨s1, e1, hK1, hS1, hSS1, hC1, c1, n1, hu1, hc1, hn1⟩ := hfirst
  have hauto : ∃ s2, autoReseed staleW s1 = .ok s2 ∧ s2.K.length = 32 ∧ s2.seed.length = 32 ∧ s2.seedSize ≤ 32 ∧
      s2.callNr ≤ 64 ∧ ∃ c n, s2.used = counters c n ∧ s2.C = c + BitVec.ofNat 32 n ∧ n ≤ s2.callNr * 2 ^ 24 := by
    rw [autoReseed]
    by_cases h0 : s1.callNr > 0x40
    · rw [if_pos h0, if_neg (by omega)]
      obtain ⟨K', seed', h1, h2, _, h3⟩ := reseed_eq staleW s1 (s1.seed.take s1.seedSize) hK1 hS1
        (by rw [List.length_take]; omega)
      simp only [h3, Out.bind_ok]
      exact ⟨_, rfl, h1, h2, Nat.le_refl _, Nat.zero_le _, s1.C + 1, 0, rfl, by simp, by omega⟩
    · rw [if_neg h0]
      exact ⟨_, rfl, hK1, hS1, hSS1, by omega, c1, n1, hu1, hc1, hn1⟩
  obtain ⟨s2, e2, hK2, hS2, hSS2, hC2, c2, n2, hu2, hc2, hn2⟩ := hauto
  refine ⟨s2.K, s2.C, { s2 with C := s2.C + BitVec.ofNat 32 k, used := s2.used ++ counters s2.C k }, ?_, ?_, ?_, ?_,
    s2.used, ?_⟩
  · rw [generateBlocks]
    simp only [e1, Out.bind_ok, e2, blockLoop_eq stale hst, if_pos hk, blocks_length]
    have hlen : (counters s2.C k).length = k := by simp [counters]
    rw [hlen, if_neg (by omega), Nat.sub_self, List.replicate_zero, List.append_nil]
    rfl
  · refine ⟨hK2, hS2, hSS2, hC2, c2, n2 + k, ?_, ?_, ?_⟩
    · show s2.used ++ counters s2.C k = _
      rw [hu2, counters_add, hc2]
    · show s2.C + BitVec.ofNat 32 k = _
      rw [hc2, BitVec.ofNat_add, BitVec.add_assoc]
    · show n2 + k ≤ (s2.callNr + 1) * 2 ^ 24
      rw [Nat.add_mul]; omega
  · rfl
  · rfl
  · rfl

/-- C57, a single request in any reachable context: the output has the length asked for; the new key consists of the
blocks of the last two counters under the key `K0` the request ran with; these counters were not enciphered for any output
since the last re-seed; the invariant is kept. -/
theorem getRandomBlock_spec (stale : Bytes) (hst : stale.length ≤ 16) (staleW : List W32) (sys1 sys2 : Bytes)
    (h1 : sys1.length = 32) (h2 : sys2.length = 32) (s : Ctx) (hs : Inv s) (n : Nat) (hn : 0 < n) (hn2 : n < 0x100000) :
    ∃ r K0 c pre s', getRandomBlock stale staleW (some sys1) (some sys2) s n = .ok (some r, s') ∧ r.length = n ∧ Inv s' ∧
      s'.K = blk K0 c ++ blk K0 (c + 1) ∧ s'.C = c + 2 ∧ s'.used = pre ++ [c, c + 1] ∧ s'.used.Nodup := by
  rw [getRandomBlock, if_neg (by omega)]
  obtain ⟨K1, c1, s1, e1, i1, _, _, _⟩ := generateBlocks_spec stale hst staleW sys1 h1 s hs (n * 16) (by omega) (by omega)
  obtain ⟨K0, c, s', e2, i2, hK, hc, pre, hu⟩ := generateBlocks_spec stale hst staleW sys2 h2 s1 i1 2 (by omega) (by omega)
  have hcs : counters c 2 = [c, c + 1] := by simp [counters, List.range_succ]
  have hlen : ((counters c1 (n * 16)).flatMap (blk K1)).length = 16 * (n * 16) := by rw [blocks_length]; simp [counters]
  have hkey : (counters c 2).flatMap (blk K0) = blk K0 c ++ blk K0 (c + 1) := by rw [hcs]; simp
  have hkl : (blk K0 c ++ blk K0 (c + 1)).length = 32 := by
    rw [List.length_append, (blk_spec K0 c).2, (blk_spec K0 (c + 1)).2]
  refine ⟨((counters c1 (n * 16)).flatMap (blk K1)).take n, K0, c, pre,
    { s' with K := blk K0 c ++ blk K0 (c + 1) }, ?_, ?_, ?_, rfl, ?_, ?_, ?_⟩
  · simp only [e1, Out.bind_ok, hlen, e2, hkey, hkl, i2.key]
    rw [if_neg (by omega), if_neg (by omega), List.take_of_length_le (l := blk K0 c ++ blk K0 (c + 1)) (by omega)]
    rfl
  · rw [List.length_take, hlen]; omega
  · exact ⟨hkl, i2.seed, i2.seedSize, i2.calls, i2.used⟩
  · exact hc
  · show s'.used = _
    rw [hu, hcs]
  · exact i2.nodup

/-- What can be done with the generator. -/
inductive Op where
  | request (n : Nat) (sys1 sys2 : Bytes)
  | reseed (seed : Bytes)

/-- Seeds have at most 32 bytes; the system delivers 32. -/
def Op.ok : Op → Prop
  | .request _ s1 s2 => s1.length = 32 ∧ s2.length = 32
  | .reseed seed => seed.length ≤ 32

/-- A history, with the outputs of the requests. -/
def run (stale : Bytes) (staleW : List W32) : Ctx → List Op → Out (List (Option Bytes) × Ctx)
  | s, [] => .ok ([], s)
  | s, .request n s1 s2 :: ops => do
    let (r, s) ← getRandomBlock stale staleW (some s1) (some s2) s n
    let (rs, s) ← run stale staleW s ops
    return (r :: rs, s)
  | s, .reseed seed :: ops => do
    let s ← reseed staleW s seed
    run stale staleW s ops

/-- The sizes of the outputs asked for. -/
def sizes : List Op → List (Option Nat)
  | [] => []
  | .request n _ _ :: ops => (if 0 < n ∧ n < 0x100000 then some n else none) :: sizes ops
  | .reseed _ :: ops => sizes ops

/-- C57.  After any history of requests and re-seeds of a fresh generator nothing undefined has happened, every accepted
request was answered with exactly as many bytes as asked for, every other one was refused, and no counter was enciphered
twice since the last re-seed. -/
theorem fortuna_history (stale : Bytes) (hst : stale.length ≤ 16) (staleW : List W32) (ops : List Op)
    (hops : ∀ o ∈ ops, o.ok) :
    ∃ outs s, run stale staleW init ops = .ok (outs, s) ∧ outs.map (Option.map List.length) = sizes ops ∧
      s.used.Nodup := by
  suffices H : ∀ (ops : List Op) (s : Ctx), Inv s → (∀ o ∈ ops, o.ok) →
      ∃ outs s', run stale staleW s ops = .ok (outs, s') ∧ outs.map (Option.map List.length) = sizes ops ∧ Inv s' by
    obtain ⟨outs, s, h1, h2, h3⟩ := H ops init inv_init hops
    exact ⟨outs, s, h1, h2, h3.nodup⟩
  intro ops
  induction ops with
  | nil => intro s hs _; exact ⟨[], s, rfl, rfl, hs⟩
  | cons o ops ih =>
    intro s hs ho
    have ho' : ∀ o ∈ ops, o.ok := fun x hx => ho x (by simp [hx])
    cases o with
    | request n s1 s2 =>
      obtain ⟨hs1, hs2⟩ := ho (.request n s1 s2) (by simp)
      by_cases hn : 0 < n ∧ n < 0x100000
      · obtain ⟨r, _, _, _, s', e, hr, hi, _⟩ := getRandomBlock_spec stale hst staleW s1 s2 hs1 hs2 s hs n hn.1 hn.2
        obtain ⟨outs, s'', e2, h2, h3⟩ := ih s' hi ho'
        refine ⟨some r :: outs, s'', ?_, ?_, h3⟩
        · simp only [run, e, Out.bind_ok, e2]; rfl
        · rw [List.map_cons, h2, sizes, if_pos hn]; simp [hr]
      · obtain ⟨outs, s'', e2, h2, h3⟩ := ih s hs ho'
        refine ⟨none :: outs, s'', ?_, ?_, h3⟩
        · have e : getRandomBlock stale staleW (some s1) (some s2) s n = .ok (none, s) := by
            rw [getRandomBlock, if_pos (by omega)]
          simp only [run, e, Out.bind_ok, e2]; rfl
        · rw [List.map_cons, h2, sizes, if_neg hn]; rfl
    | reseed seed =>
      have hl : seed.length ≤ 32 := ho (.reseed seed) (by simp)
      obtain ⟨K', seed', h1, h2, _, h3⟩ := reseed_eq staleW s seed hs.key hs.seed hl
      have hi : Inv { s with K := K', C := s.C + 1, seed := seed', seedSize := 32, used := [] } :=
        ⟨h1, h2, Nat.le_refl _, hs.calls, s.C + 1, 0, rfl, by simp, by omega⟩
      obtain ⟨outs, s'', e2, h4, h5⟩ := ih _ hi ho'
      refine ⟨outs, s'', ?_, h4, h5⟩
      simp only [run, h3, Out.bind_ok, e2]

/-- A history with requests of several sizes, a refused one, and a re-seed. -/
def sample : List Op :=
  [.request 5 (List.replicate 32 7) (List.replicate 32 9), .reseed [1, 2, 3], .request 0 (List.replicate 32 1) (List.replicate 32 1),
   .request 1000 (List.replicate 32 7) (List.replicate 32 9)]

example : (∀ o ∈ sample, o.ok) ∧ sizes sample = [some 5, none, some 1000] := by
  refine ⟨?_, by decide⟩
  intro o ho
  simp only [sample, List.mem_cons, List.not_mem_nil, or_false] at ho
  rcases ho with rfl | rfl | rfl | rfl <;> simp [Op.ok]

example : Inv init := inv_init

/-- The two blocks of the new key differ: the cipher is injective and the counters are distinct. -/
theorem rekey_halves_differ (K0 : Bytes) (c : W32) : blk K0 c ≠ blk K0 (c + 1) := by
  intro h
  have h := blk_inj K0 _ _ h
  have h := congrArg BitVec.toNat h
  rw [BitVec.toNat_add, show (1 : W32).toNat = 1 from rfl] at h
  have := c.isLt
  omega

/-- Hence no request of a well seeded generator leaves the constant key behind. -/
theorem key_not_constant (stale : Bytes) (hst : stale.length ≤ 16) (staleW : List W32) (sys1 sys2 : Bytes)
    (h1 : sys1.length = 32) (h2 : sys2.length = 32) (s : Ctx) (hs : Inv s) (n : Nat) (hn : 0 < n) (hn2 : n < 0x100000)
    (r : Option Bytes) (s' : Ctx) (h : getRandomBlock stale staleW (some sys1) (some sys2) s n = .ok (r, s')) (b : Byte) :
    s'.K ≠ List.replicate 32 b := by
  obtain ⟨r', K0, c, pre, s'', e, _, _, hK, _⟩ := getRandomBlock_spec stale hst staleW sys1 sys2 h1 h2 s hs n hn hn2
  rw [e] at h
  injection h with h
  injection h with _ h
  subst h
  rw [hK]
  intro h
  apply rekey_halves_differ K0 c
  have l1 := (blk_spec K0 c).2
  have l2 := (blk_spec K0 (c + 1)).2
  rw [show List.replicate 32 b = List.replicate 16 b ++ List.replicate 16 b from by simp] at h
  obtain ⟨e1, e2⟩ := List.append_inj h (by rw [l1]; simp)
  rw [e1, e2]

/-- The claim fails when the system cannot deliver a seed: a fresh generator then answers every request with zeros, reports
success, and keeps the all-zero key and the counter zero. -/
theorem fortuna_unseeded_fails (stale : Bytes) (staleW : List W32) (n : Nat) (hn : 0 < n) (hn2 : n < 0x100000) :
    ∃ s, getRandomBlock stale staleW none none init n = .ok (some (List.replicate n 0), s) ∧ s.K = init.K ∧ s.C = 0 := by
  refine ⟨{ init with callNr := 2 }, ?_, rfl, rfl⟩
  have h : ∀ (s : Ctx) k, s.C = 0 → 0 < k → generateBlocks stale staleW none s k
      = .ok (List.replicate (16 * k) 0, { s with callNr := s.callNr + 1 }) := by
    intro s k h0 hk
    simp [generateBlocks, firstSeed, h0, hk]
  rw [getRandomBlock, if_neg (by omega), h _ _ rfl (by omega), Out.bind_ok]
  simp only [List.length_replicate]
  rw [if_neg (by omega), h _ _ rfl (by omega), Out.bind_ok]
  simp only [List.length_replicate]
  rw [if_neg (by simp [init]), List.take_replicate]
  simp [init]
  omega

/-- Seeds of more than 32 bytes, which the interface accepts, make `kryptos_fortuna_reseed` read behind the digest. -/
theorem reseed_long_unsafe (staleW : List W32) (s : Ctx) (hK : s.K.length = 32) (seed : Bytes) (h : 32 < seed.length)
    (hl : seed.length < 2 ^ 32) : reseed staleW s seed = .ub := by
  obtain ⟨d, h1, h2⟩ := sha256_defined staleW (s.K ++ seed) (by rw [List.length_append]; omega)
  rw [reseed]
  simp only [h1, Out.bind_ok, hK, h2]
  rw [if_neg (by omega), if_pos (by omega)]

example : reseed [] init (List.replicate 33 1) = .ub := reseed_long_unsafe [] init (by simp [init]) _ (by simp) (by simp)

/-- Only the first half of the key is used: the cipher is AES-128. -/
theorem blk_half (K K' : Bytes) (h1 : K.length = 32) (h2 : K'.length = 32) (h : K.take 16 = K'.take 16) (c : W32) :
    blk K c = blk K' c := by
  have hk : KeyLoad.ldUserKey 4 4 K = KeyLoad.ldUserKey 4 4 K' := by
    rw [KeyLoad.ldUserKey_full 4 4 (by decide) K (by omega), KeyLoad.ldUserKey_full 4 4 (by decide) K' (by omega)]
    exact congrArg _ h
  have hd : Aes.dec128 K (padded c) = Aes.dec128 K' (padded c) := by
    rw [Aes.dec128, Aes.dec128, Aes.subkeys128, Aes.subkeys128, Aes.words128, Aes.words128, hk]
  rw [(blk_spec K c).1, (blk_spec K' c).1] at hd
  injection hd

example : blk (List.replicate 16 5 ++ List.replicate 16 1) 7 = blk (List.replicate 16 5 ++ List.replicate 16 2) 7 :=
  blk_half _ _ rfl rfl rfl 7

end Kryptos.Fortuna
