import Verif.Model.Csprng
import Verif.Props.Fortuna
/-
  The choice of the random source (C118).
-/
namespace Kryptos.Csprng

theorem sysBlock_length (mem : Nat → Byte) (d : Dev) (n : Nat) (r : Bytes) (h : sysBlock mem d n = some r) : r.length = n := by
  unfold sysBlock at h
  split at h
  · cases h
  · cases d with
    | missing => cases h
    | failing => cases h
    | data l =>
      cases h
      rw [List.length_append, List.length_take, List.length_map, List.length_drop, List.length_range]
      omega

/-- The devices deliver something. -/
def Dev.Delivers : Dev → Prop
  | .data _ => True
  | _ => False

theorem sysBlock_none (mem : Nat → Byte) (d : Dev) (n : Nat) : sysBlock mem d n = none ↔ n = 0 ∨ ¬ d.Delivers := by
  unfold sysBlock
  by_cases h : n = 0
  · simp [h]
  · rw [if_neg h]
    cases d <;> simp [h, Dev.Delivers]

/-- Devices that deliver as much as asked for. -/
theorem sysBlock_full (mem : Nat → Byte) (l : Bytes) (n : Nat) (hn : 0 < n) (hl : n ≤ l.length) :
    sysBlock mem (.data l) n = some (l.take n) := by
  rw [sysBlock, if_neg (by omega)]
  simp only [Option.some.injEq]
  rw [List.drop_of_length_le (by rw [List.length_range]; omega), List.map_nil, List.append_nil]

theorem seedSize_spec (r : Bytes) (h : r.length = 4) : ∃ n, seedSize r = .ok n ∧ 0 < n ∧ n ≤ 31 := by
  match r, h with
  | [a, b, c, d], _ => exact ⟨_, rfl, by omega, by omega⟩

/-! ### Histories -/

/-- What can be done: a selection, a request for a block and a request for a byte, with what the devices deliver meanwhile. -/
inductive Op where
  | select (mem1 mem2 : Nat → Byte) (d1 d2 : Dev) (which : Nat)
  | block (mem : Nat → Byte) (d : Dev) (sys1 sys2 : Bytes) (n : Nat)
  | byte (d : Dev) (sys1 sys2 : Bytes)

/-- The system delivers whole seeds when the generator asks for them. -/
def Op.ok : Op → Prop
  | .select _ _ _ _ _ => True
  | .block _ _ s1 s2 _ => s1.length = 32 ∧ s2.length = 32
  | .byte _ s1 s2 => s1.length = 32 ∧ s2.length = 32

inductive Answer where
  | selected (b : Bool)
  | block (r : Option Bytes)
  | byte (b : Byte)

def step (stale : Bytes) (staleW : List W32) (s : St) : Op → Out (Answer × St)
  | .select m1 m2 d1 d2 which => do
    let (b, s) ← set staleW m1 m2 d1 d2 which s
    return (.selected b, s)
  | .block mem d s1 s2 n => do
    let (r, s) ← getBlock stale staleW mem d (some s1) (some s2) n s
    return (.block r, s)
  | .byte d s1 s2 => do
    let (b, s) ← getByte stale staleW d (some s1) (some s2) s
    return (.byte b, s)

def run (stale : Bytes) (staleW : List W32) : St → List Op → Out (List Answer × St)
  | s, [] => .ok ([], s)
  | s, o :: ops => do
    let (a, s) ← step stale staleW s o
    let (as, s) ← run stale staleW s ops
    return (a :: as, s)

/-- What is expected of an answer when `src` is the source in use, and the source in use afterwards. -/
def Good (src : Source) : Op → Answer → Source → Prop
  | .select _ _ d1 d2 which, .selected b, src' =>
    (b = true ↔ which = 0 ∨ which = 1 ∧ d1.Delivers ∧ d2.Delivers) ∧
      src' = if b then (if which = 0 then .system else .fortuna) else src
  | .block _ d _ _ n, .block r, src' =>
    src' = src ∧ (∀ l, r = some l → l.length = n) ∧
      match src with
      | .system => (r = none ↔ n = 0 ∨ ¬ d.Delivers) ∧ ∀ l, d = .data l → 0 < n → n ≤ l.length → r = some (l.take n)
      | .fortuna => (r = none ↔ n = 0 ∨ 2 ^ 20 ≤ n)
  | .byte d _ _, .byte b, src' => src' = src ∧ (src = .system → ∀ x l, d = .data (x :: l) → b = x)
  | _, _, _ => False

/-- A history of expected answers. -/
inductive Trace : Source → List Op → List Answer → Source → Prop where
  | nil (src : Source) : Trace src [] [] src
  | cons {src src' src'' : Source} {o : Op} {ops : List Op} {a : Answer} {as : List Answer} (h : Good src o a src')
      (t : Trace src' ops as src'') : Trace src (o :: ops) (a :: as) src''

/-- A generator in use has a sound context. -/
def Inv (s : St) : Prop := s.src = .fortuna → ∃ c, s.fort = some c ∧ Fortuna.Inv c

/-- A refused selection changes nothing; an accepted one of the generator leaves it freshly seeded. -/
theorem set_spec (staleW : List W32) (m1 m2 : Nat → Byte) (d1 d2 : Dev) (which : Nat) (s : St) :
    ∃ b s', set staleW m1 m2 d1 d2 which s = .ok (b, s') ∧
      (b = true ↔ which = 0 ∨ which = 1 ∧ d1.Delivers ∧ d2.Delivers) ∧ (b = false → s' = s) ∧
      (b = true → which = 0 → s' = { s with src := .system }) ∧
      (b = true → which = 1 → s'.src = .fortuna ∧ ∃ c, s'.fort = some c ∧ Fortuna.Inv c ∧ c.C = 1) := by
  rw [set]
  by_cases h0 : which = 0
  · subst h0
    exact ⟨true, _, rfl, by simp, by simp, fun _ _ => rfl, by simp⟩
  rw [if_neg h0]
  by_cases h1 : which = 1
  · subst h1
    rw [if_pos rfl]
    cases hr : sysBlock m1 d1 4 with
    | none =>
      have := (sysBlock_none m1 d1 4).1 hr
      exact ⟨false, s, rfl, by simp; tauto, by simp, by simp, by simp⟩
    | some r =>
      have hd1 : d1.Delivers := by
        by_contra hc
        rw [(sysBlock_none m1 d1 4).2 (Or.inr hc)] at hr
        cases hr
      obtain ⟨n, n1, n2, n3⟩ := seedSize_spec r (sysBlock_length m1 d1 4 r hr)
      simp only [n1, Out.bind_ok]
      cases hq : sysBlock m2 d2 n with
      | none =>
        have := (sysBlock_none m2 d2 n).1 hq
        exact ⟨false, s, rfl, by simp; intro _ h; rcases this with h' | h'; omega; exact h' h, by simp, by simp, by simp⟩
      | some seed =>
        have hd2 : d2.Delivers := by
          by_contra hc
          rw [(sysBlock_none m2 d2 n).2 (Or.inr hc)] at hq
          cases hq
        have hl := sysBlock_length m2 d2 n seed hq
        obtain ⟨K', seed', k1, k2, _, k3⟩ := Fortuna.reseed_eq staleW Fortuna.init seed (by simp [Fortuna.init]) (by simp [Fortuna.init])
          (by omega)
        simp only [k3, Out.bind_ok]
        refine ⟨true, _, rfl, by simp [hd1, hd2], by simp, by simp, fun _ _ => ⟨rfl, _, rfl, ?_, rfl⟩⟩
        exact ⟨k1, k2, Nat.le_refl _, Nat.zero_le _, Fortuna.init.C + 1, 0, rfl, by simp, by omega⟩
  · rw [if_neg h1]
    exact ⟨false, s, rfl, by simp [h0, h1], fun _ => rfl, by simp, by simp⟩

theorem getBlock_fortuna (stale : Bytes) (hst : stale.length ≤ 16) (staleW : List W32) (mem : Nat → Byte) (d : Dev) (s1 s2 : Bytes)
    (h1 : s1.length = 32) (h2 : s2.length = 32) (n : Nat) (s : St) (hs : s.src = .fortuna) (hi : Inv s) :
    ∃ r s', getBlock stale staleW mem d (some s1) (some s2) n s = .ok (r, s') ∧ s'.src = .fortuna ∧ Inv s' ∧
      (∀ l, r = some l → l.length = n) ∧ (r = none ↔ n = 0 ∨ 2 ^ 20 ≤ n) := by
  obtain ⟨c, hc, ic⟩ := hi hs
  have hp : (2 : Nat) ^ 20 = 0x100000 := by decide
  rw [getBlock, hs]
  simp only [hc]
  by_cases hn : 0 < n ∧ n < 0x100000
  · obtain ⟨r, _, _, _, c', e, hr, ic', _⟩ := Fortuna.getRandomBlock_spec stale hst staleW s1 s2 h1 h2 c ic n hn.1 hn.2
    rw [e, Out.bind_ok]
    refine ⟨some r, _, rfl, rfl, fun _ => ⟨c', rfl, ic'⟩, by rintro l ⟨⟩; exact hr, ?_⟩
    simp only [reduceCtorEq, false_iff]
    omega
  · have e : Fortuna.getRandomBlock stale staleW (some s1) (some s2) c n = .ok (none, c) := by
      rw [Fortuna.getRandomBlock, if_pos (by omega)]
    rw [e, Out.bind_ok]
    refine ⟨none, _, rfl, rfl, fun _ => ⟨c, rfl, ic⟩, by simp, ?_⟩
    simp only [true_iff]
    omega

theorem step_good (stale : Bytes) (hst : stale.length ≤ 16) (staleW : List W32) (s : St) (hi : Inv s) (o : Op) (ho : o.ok) :
    ∃ a s', step stale staleW s o = .ok (a, s') ∧ Good s.src o a s'.src ∧ Inv s' := by
  cases o with
  | select m1 m2 d1 d2 which =>
    obtain ⟨b, s', e, h1, h2, h3, h4⟩ := set_spec staleW m1 m2 d1 d2 which s
    refine ⟨.selected b, s', ?_, ⟨h1, ?_⟩, ?_⟩
    · rw [step, e, Out.bind_ok]
      rfl
    · cases b with
      | false => rw [h2 rfl]; rfl
      | true =>
        rcases h1.1 rfl with h0 | ⟨h0, _⟩
        · rw [h3 rfl h0, h0]
          rfl
        · rw [(h4 rfl h0).1, h0]
          rfl
    · cases b with
      | false => rw [h2 rfl]; exact hi
      | true =>
        rcases h1.1 rfl with h0 | ⟨h0, _⟩
        · rw [h3 rfl h0]
          rintro ⟨⟩
        · obtain ⟨_, c, hc, ic, _⟩ := h4 rfl h0
          exact fun _ => ⟨c, hc, ic⟩
  | block mem d s1 s2 n =>
    cases hs : s.src with
    | system =>
      refine ⟨.block (sysBlock mem d n), s, ?_, ⟨hs, fun l h => sysBlock_length mem d n l h, sysBlock_none mem d n, ?_⟩, hi⟩
      · rw [step, getBlock, hs]
        rfl
      · rintro l rfl h1 h2
        exact sysBlock_full mem l n h1 h2
    | fortuna =>
      obtain ⟨r, s', e, h1, h2, h3, h4⟩ := getBlock_fortuna stale hst staleW mem d s1 s2 ho.1 ho.2 n s hs hi
      refine ⟨.block r, s', ?_, ⟨h1, h3, h4⟩, h2⟩
      rw [step, e, Out.bind_ok]
      rfl
  | byte d s1 s2 =>
    cases hs : s.src with
    | system =>
      refine ⟨.byte (sysByte d), s, ?_, ⟨hs, ?_⟩, hi⟩
      · rw [step, getByte, hs]
        rfl
      · rintro _ x l rfl
        rfl
    | fortuna =>
      obtain ⟨c, hc, ic⟩ := hi hs
      obtain ⟨r, _, _, _, c', e, hr, ic', _⟩ := Fortuna.getRandomBlock_spec stale hst staleW s1 s2 ho.1 ho.2 c ic 16 (by omega) (by omega)
      match r, hr with
      | x :: r, _ =>
        refine ⟨.byte x, { s with fort := some c' }, ?_, ⟨hs, by rintro ⟨⟩⟩, fun _ => ⟨c', rfl, ic'⟩⟩
        have eb : Fortuna.getRandomByte stale staleW (some s1) (some s2) c = .ok (x, c') := by
          rw [Fortuna.getRandomByte, e, Out.bind_ok]
          rfl
        rw [step, getByte, hs]
        simp only [hc, eb, Out.bind_ok]
        rfl

/-- C118: after any history of selections and requests nothing undefined has happened, and every answer is the one expected of the
source selected last, where refused selections do not count. -/
theorem csprng_history (stale : Bytes) (hst : stale.length ≤ 16) (staleW : List W32) (ops : List Op) (hops : ∀ o ∈ ops, o.ok) :
    ∃ as s, run stale staleW start ops = .ok (as, s) ∧ Trace .system ops as s.src := by
  suffices H : ∀ (ops : List Op) (s : St), Inv s → (∀ o ∈ ops, o.ok) →
      ∃ as s', run stale staleW s ops = .ok (as, s') ∧ Trace s.src ops as s'.src from
    H ops start (by rintro ⟨⟩) hops
  intro ops
  induction ops with
  | nil => exact fun s _ _ => ⟨[], s, rfl, .nil _⟩
  | cons o ops ih =>
    intro s hi ho
    obtain ⟨a, s', e, g, hi'⟩ := step_good stale hst staleW s hi o (ho o (by simp))
    obtain ⟨as, s'', e2, t⟩ := ih s' hi' fun x hx => ho x (by simp [hx])
    refine ⟨a :: as, s'', ?_, .cons g t⟩
    rw [run, e, Out.bind_ok]
    show (run stale staleW s' ops >>= _) = _
    rw [e2, Out.bind_ok]
    rfl

/-- A history with a refused selection, the generator, a request too large for it, and the system again. -/
def sample : List Op :=
  [.byte (.data [7]) (List.replicate 32 1) (List.replicate 32 2),
   .select (fun _ => 0) (fun _ => 0) (.data [1, 2, 3, 4]) .missing 1,
   .select (fun _ => 0) (fun _ => 0) (.data [1, 2, 3, 4]) (.data (List.replicate 31 9)) 1,
   .block (fun _ => 0) .missing (List.replicate 32 1) (List.replicate 32 2) 40,
   .block (fun _ => 0) .missing (List.replicate 32 1) (List.replicate 32 2) 2000000,
   .select (fun _ => 0) (fun _ => 0) .missing .missing 0,
   .block (fun _ => 0) (.data [4, 5, 6]) (List.replicate 32 1) (List.replicate 32 2) 3]

example : ∀ o ∈ sample, o.ok := by
  intro o ho
  simp only [sample, List.mem_cons, List.not_mem_nil, or_false] at ho
  rcases ho with rfl | rfl | rfl | rfl | rfl | rfl | rfl <;> simp [Op.ok]

/-! ### What a caller does not get -/

/-- When no device can be opened, or the reading fails, the byte is zero, and nobody is told. -/
theorem csprng_byte_silent (stale : Bytes) (staleW : List W32) (sys1 sys2 : Option Bytes) (s : St) (hs : s.src = .system) :
    getByte stale staleW .missing sys1 sys2 s = .ok (0, s) ∧ getByte stale staleW .failing sys1 sys2 s = .ok (0, s) ∧
      getByte stale staleW (.data []) sys1 sys2 s = .ok (0, s) := by
  simp only [getByte, hs]
  exact ⟨rfl, rfl, rfl⟩

/-- When the device delivers less than asked for, the block ends with the former contents of the memory. -/
theorem csprng_short_read (stale : Bytes) (staleW : List W32) (mem : Nat → Byte) (sys1 sys2 : Option Bytes) (s : St) (hs : s.src = .system)
    (n : Nat) (hn : 0 < n) :
    getBlock stale staleW mem (.data []) sys1 sys2 n s = .ok (some ((List.range n).map mem), s) := by
  simp only [getBlock, hs]
  rw [sysBlock, if_neg (by omega), List.take_nil, List.length_nil, List.drop_zero, List.nil_append]

/-- The seed of the selected generator has at most 31 bytes, and its length is drawn: the state depends on no more than
`seedSize r` bytes from the device. -/
theorem csprng_seed (staleW : List W32) (m1 m2 : Nat → Byte) (r l : Bytes) (n : Nat) (s : St) (hr : 4 ≤ r.length)
    (hn : seedSize (r.take 4) = .ok n) (hl : n ≤ l.length) :
    n ≤ 31 ∧ set staleW m1 m2 (.data r) (.data l) 1 s =
      (Fortuna.reseed staleW Fortuna.init (l.take n) >>= fun c => .ok (true, ⟨.fortuna, some c⟩)) := by
  obtain ⟨n', a1, a2, a3⟩ := seedSize_spec (r.take 4) (by rw [List.length_take]; omega)
  rw [hn] at a1
  cases a1
  refine ⟨a3, ?_⟩
  rw [set, if_neg (by omega), if_pos rfl, sysBlock_full m1 r 4 (by omega) hr]
  simp only [hn, Out.bind_ok]
  rw [sysBlock_full m2 l n a2 hl]
  rfl

/-- A generator with a counter other than zero does not ask the system. -/
theorem generate_alone (stale : Bytes) (staleW : List W32) (sys : Option Bytes) (c : Fortuna.Ctx) (h : c.C ≠ 0) (k : Nat) :
    Fortuna.generateBlocks stale staleW sys c k = Fortuna.generateBlocks stale staleW none c k := by
  have : ∀ x, Fortuna.firstSeed staleW x { c with callNr := c.callNr + 1 } = .ok (some { c with callNr := c.callNr + 1 }) := by
    intro x
    unfold Fortuna.firstSeed
    rw [if_neg h]
  rw [Fortuna.generateBlocks, Fortuna.generateBlocks]
  simp only [this]

/-- The counter after the first request. -/
theorem generate_counter (stale : Bytes) (hst : stale.length ≤ 16) (staleW : List W32) (c : Fortuna.Ctx) (h : c.C = 1)
    (hn : c.callNr = 0) (k : Nat) (hk : 0 < k) :
    ∃ t c', Fortuna.generateBlocks stale staleW none c k = .ok (t, c') ∧ t.length = 16 * k ∧ c'.C = 1 + BitVec.ofNat 32 k ∧
      c'.callNr = 1 ∧ c'.K = c.K := by
  have e1 : Fortuna.firstSeed staleW none { c with callNr := c.callNr + 1 } = .ok (some { c with callNr := c.callNr + 1 }) := by
    rw [Fortuna.firstSeed, if_neg (by rw [h]; decide)]
  have e2 : Fortuna.autoReseed staleW { c with callNr := c.callNr + 1 } = .ok { c with callNr := c.callNr + 1 } := by
    rw [Fortuna.autoReseed, if_neg (by simp only [hn]; omega)]
  rw [Fortuna.generateBlocks]
  simp only [e1, Out.bind_ok, e2, Fortuna.blockLoop_eq stale hst, if_pos hk, Fortuna.blocks_length]
  have hlen : (Fortuna.counters c.C k).length = k := by simp [Fortuna.counters]
  rw [hlen, if_neg (by omega), Nat.sub_self, List.replicate_zero, List.append_nil]
  refine ⟨_, _, rfl, ?_, by rw [h], by rw [hn], rfl⟩
  rw [Fortuna.blocks_length, hlen]

/-- The first request to a freshly seeded generator does not depend on the system. -/
theorem request_alone (stale : Bytes) (hst : stale.length ≤ 16) (staleW : List W32) (sys1 sys2 : Option Bytes) (c : Fortuna.Ctx)
    (h : c.C = 1) (hc : c.callNr = 0) (n : Nat) (hn2 : n < 2 ^ 20) :
    Fortuna.getRandomBlock stale staleW sys1 sys2 c n = Fortuna.getRandomBlock stale staleW none none c n := by
  have hp : (2 : Nat) ^ 20 = 0x100000 := by decide
  by_cases hn : n = 0
  · rw [Fortuna.getRandomBlock, Fortuna.getRandomBlock, if_pos (Or.inl hn), if_pos (Or.inl hn)]
  obtain ⟨t, c', e, t1, t2, _⟩ := generate_counter stale hst staleW c h hc (n * 16) (by omega)
  have h0 : c.C ≠ 0 := by rw [h]; decide
  have h0' : c'.C ≠ 0 := by
    rw [t2]
    intro h'
    have := congrArg BitVec.toNat h'
    rw [BitVec.toNat_add, BitVec.toNat_ofNat, show BitVec.toNat (1 : W32) = 1 from rfl, show BitVec.toNat (0 : W32) = 0 from rfl] at this
    omega
  rw [Fortuna.getRandomBlock, Fortuna.getRandomBlock, if_neg (by omega), generate_alone stale staleW sys1 c h0, e, Out.bind_ok]
  show (if _ then _ else _) = _
  simp only [generate_alone stale staleW sys2 c' h0']
  rw [if_neg (show ¬ (n = 0 ∨ 0x100000 ≤ n) by omega), Out.bind_ok]

/-- The claim about the seed fails: whenever the first number drawn is a multiple of 31, there are only 256 possible answers to the
first request of a given length, whatever else the devices deliver. -/
theorem csprng_256_answers (stale : Bytes) (hst : stale.length ≤ 16) (staleW : List W32) (n : Nat) (hn2 : n < 2 ^ 20) :
    ∃ outs : List (Out (Option Bytes)), outs.length = 256 ∧
      ∀ (m1 m2 mem : Nat → Byte) (r l : Bytes) (d : Dev) (sys1 sys2 : Option Bytes) (s : St), 4 ≤ r.length → 0 < l.length →
        seedSize (r.take 4) = .ok 1 →
        (do
          let (_, s) ← set staleW m1 m2 (.data r) (.data l) 1 s
          let (x, _) ← getBlock stale staleW mem d sys1 sys2 n s
          return x) ∈ outs := by
  refine ⟨(List.range 256).map fun b => (do
      let c ← Fortuna.reseed staleW Fortuna.init [BitVec.ofNat 8 b]
      let (x, _) ← Fortuna.getRandomBlock stale staleW none none c n
      return x), by rw [List.length_map, List.length_range], ?_⟩
  intro m1 m2 mem r l d sys1 sys2 s hr hl hs
  obtain ⟨_, e⟩ := csprng_seed staleW m1 m2 r l 1 s hr hs (by omega)
  match l, hl with
  | b :: l, _ =>
    rw [List.mem_map]
    refine ⟨b.toNat, List.mem_range.2 b.isLt, ?_⟩
    rw [BitVec.ofNat_toNat, BitVec.setWidth_eq]
    obtain ⟨K', seed', k1, k2, _, k3⟩ := Fortuna.reseed_eq staleW Fortuna.init [b] (by simp [Fortuna.init]) (by simp [Fortuna.init]) (by simp)
    rw [List.take_succ_cons, List.take_zero, k3, Out.bind_ok] at e
    rw [e, k3, Out.bind_ok, Out.bind_ok]
    simp only [getBlock]
    rw [request_alone stale hst staleW sys1 sys2 _ rfl rfl n hn2]
    cases Fortuna.getRandomBlock stale staleW none none
      { Fortuna.init with K := K', C := Fortuna.init.C + 1, seed := seed', seedSize := 32, used := [] } n with
    | ub => rfl
    | ok o => rfl

/-- Numbers for which this happens. -/
example : seedSize [0, 0, 0, 0] = .ok 1 ∧ seedSize [31, 0, 0, 0] = .ok 1 ∧ seedSize [0xFC, 0xFF, 0xFF, 0xFF] = .ok 1 ∧
    seedSize [1, 2, 3, 4] = .ok 26 := by decide

end Kryptos.Csprng
