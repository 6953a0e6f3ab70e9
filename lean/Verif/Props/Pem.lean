import Verif.Model.Pem
import Verif.Model.MpHex
import Verif.Props.Base64
import Verif.Lemmas.MpNat
import Mathlib.Tactic.IntervalCases
/-
  C46, C47.  The PEM buffer as a map, and the safety of its parser.
-/
namespace Kryptos.Pem
open Kryptos.Spec

/-- The new line character. -/
abbrev nl : Byte := 0x0A#8

theorem charEq_eq {c b : Byte} (h : charEq c b = true) : c = b := by
  simp only [charEq, beq_iff_eq] at h
  apply BitVec.eq_of_toNat_eq
  rw [BitVec.toInt_eq_toNat_cond] at h
  have := c.isLt
  split at h <;> omega

theorem charEq_self {c : Byte} (h : c.toNat < 128) : charEq c c = true := by
  simp only [charEq, beq_iff_eq]
  rw [BitVec.toInt_eq_toNat_cond, if_pos (by omega)]

/-- The search never reads outside the header or the text. -/
theorem findLoop_defined (hdr : Bytes) : ∀ (bs : Bytes) (st pos : Nat), st < hdr.length →
    ∃ r, findLoop hdr st pos bs = .ok r
  | [], _, _, _ => ⟨none, rfl⟩
  | b :: bs, st, pos, h => by
    rw [findLoop, rd_eq_ok h, Out.bind_ok]
    split
    · split
      · exact ⟨_, rfl⟩
      · exact findLoop_defined hdr bs (st + 1) (pos + 1) (by omega)
    · exact findLoop_defined hdr bs 0 (pos + 1) (by omega)

/-- What the search finds is an occurrence of the header. -/
theorem findLoop_sound (hdr : Bytes) : ∀ (bs pre : Bytes) (st pos : Nat) (e : Nat), st < hdr.length →
    hdr.take st <:+ pre → findLoop hdr st pos bs = .ok (some e) →
    pos < e ∧ e ≤ pos + bs.length ∧ hdr <:+ pre ++ bs.take (e - pos)
  | [], _, _, _, _, _, _, h => by simp [findLoop] at h
  | b :: bs, pre, st, pos, e, hst, hs, h => by
    rw [findLoop, rd_eq_ok hst, Out.bind_ok] at h
    split at h
    · rename_i hc
      have hb : hdr[st] = b := charEq_eq hc
      have hs' : hdr.take (st + 1) <:+ pre ++ [b] := by
        rw [List.take_add_one, List.getElem?_eq_getElem hst, hb]
        obtain ⟨t, ht⟩ := hs
        exact ⟨t, by simp [← ht]⟩
      split at h
      · rename_i hl
        have he : pos + 1 = e := by
          have h2 : Out.ok (some (pos + 1)) = Out.ok (some e) := h
          injection h2 with h2; injection h2
        subst he
        rw [hl, List.take_length] at hs'
        exact ⟨by omega, by simp, by simpa using hs'⟩
      · obtain ⟨h1, h2, h3⟩ := findLoop_sound hdr bs (pre ++ [b]) (st + 1) (pos + 1) e (by omega) hs' h
        refine ⟨by omega, by simp; omega, ?_⟩
        rw [show e - pos = (e - (pos + 1)) + 1 by omega, List.take_succ_cons]
        simpa using h3
    · obtain ⟨h1, h2, h3⟩ := findLoop_sound hdr bs (pre ++ [b]) 0 (pos + 1) e (by omega) (by simp) h
      refine ⟨by omega, by simp; omega, ?_⟩
      rw [show e - pos = (e - (pos + 1)) + 1 by omega, List.take_succ_cons]
      simpa using h3

/-- A line which does not end with the header is skipped, and leaves the search at the start of the header. -/
theorem findLoop_skip (p rest : Bytes) (hp : nl ∉ p) : ∀ (l : Bytes) (st pos : Nat), nl ∉ l → st ≤ p.length →
    ¬ (p ++ [nl]) <:+ (p.take st ++ l ++ [nl]) →
    findLoop (p ++ [nl]) st pos (l ++ nl :: rest) = findLoop (p ++ [nl]) 0 (pos + l.length + 1) rest
  | [], st, pos, _, hst, hs => by
    rw [List.nil_append, findLoop, rd_eq_ok (by simp; omega), Out.bind_ok]
    rw [if_neg]
    · rfl
    · intro hc
      have hc := charEq_eq hc
      by_cases h : st = p.length
      · apply hs
        rw [h, List.take_length, List.append_nil]
        exact List.suffix_refl _
      · rw [List.getElem_append_left (by omega)] at hc
        exact hp (hc ▸ List.getElem_mem _)
  | b :: l, st, pos, hl, hst, hs => by
    have hb : b ≠ nl := fun h => hl (by simp [h])
    have hl' : nl ∉ l := fun h => hl (by simp [h])
    rw [List.cons_append, findLoop, rd_eq_ok (by simp; omega), Out.bind_ok,
      show pos + (b :: l).length + 1 = pos + 1 + l.length + 1 by simp; omega]
    split
    · rename_i hc
      have hc := charEq_eq hc
      have hst' : st ≠ p.length := by
        intro h
        subst h
        rw [List.getElem_append_right (by omega)] at hc
        simp at hc
        exact hb hc.symm
      rw [List.getElem_append_left (by omega)] at hc
      rw [if_neg (by simp; omega)]
      apply findLoop_skip p rest hp l (st + 1) (pos + 1) hl' (by omega)
      rw [List.take_add_one, List.getElem?_eq_getElem (by omega), hc]
      simpa using hs
    · apply findLoop_skip p rest hp l 0 (pos + 1) hl' (by omega)
      intro hh
      apply hs
      simp only [List.take_zero, List.nil_append] at hh
      refine hh.trans ⟨p.take st ++ [b], by simp⟩

/-- A line which is the header is found. -/
theorem findLoop_match (hdr rest : Bytes) (ha : ∀ c ∈ hdr, c.toNat < 128) : ∀ (n st pos : Nat), st + n = hdr.length →
    0 < n → findLoop hdr st pos (hdr.drop st ++ rest) = .ok (some (pos + n))
  | 0, _, _, _, h => by omega
  | n + 1, st, pos, hl, _ => by
    have hst : st < hdr.length := by omega
    rw [List.drop_eq_getElem_cons hst, List.cons_append, findLoop, rd_eq_ok hst, Out.bind_ok,
      if_pos (charEq_self (ha _ (List.getElem_mem _)))]
    split
    · rw [show n = 0 by omega]; rfl
    · rw [findLoop_match hdr rest ha n (st + 1) (pos + 1) (by omega) (by omega)]
      congr 2; omega

/-- The headers for which the buffer is a map: the ones the library uses satisfy this. -/
structure Good (h : Bytes) : Prop where
  ascii : ∀ c ∈ h, c.toNat < 128
  noNul : 0 ∉ h
  noNl : nl ∉ h
  noBegin : ¬ beginPfx <:+: h
  noEnd : ¬ endPfx <:+: h

theorem beginPfx_eq : beginPfx = [45, 45, 45, 45, 45, 66, 69, 71, 73, 78, 32] := by decide
theorem endPfx_eq : endPfx = [45, 45, 45, 45, 45, 69, 78, 68, 32] := by decide
theorem sfx_eq : sfx = [45, 45, 45, 45, 45] ++ [nl] := by decide

/-- Where a marker can occur in a marker line. -/
private theorem split_marker {p1 p2 x h g : Bytes} (e : x ++ (p1 ++ h) = p2 ++ g) :
    (x.length < p2.length ∧ p1 ++ h = p2.drop x.length ++ g) ∨ p1 <:+: g := by
  by_cases hx : x.length < p2.length
  · left
    refine ⟨hx, ?_⟩
    have := congrArg (List.drop x.length) e
    rwa [List.drop_left, List.drop_append_of_le_length (by omega)] at this
  · right
    have := congrArg (List.drop p2.length) e
    rw [List.drop_left, List.drop_append_of_le_length (by omega)] at this
    exact ⟨x.drop p2.length, h, by rw [← this]; simp⟩

private theorem begin_in_begin {h g : Bytes} (hg : Good g)
    (e : pemHeader beginPfx h <:+ pemHeader beginPfx g) : h = g := by
  obtain ⟨x, hx⟩ := e
  rw [pemHeader, pemHeader, ← List.append_assoc, List.append_left_inj] at hx
  rcases split_marker hx with ⟨h1, h2⟩ | h1
  · rw [beginPfx_eq] at h1 h2
    generalize x.length = n at h1 h2
    simp only [List.length_cons, List.length_nil, Nat.zero_add, Nat.reduceAdd] at h1
    interval_cases n <;> simp_all
  · exact absurd h1 hg.noBegin

private theorem end_in_end {h g : Bytes} (hg : Good g)
    (e : pemHeader endPfx h <:+ pemHeader endPfx g) : h = g := by
  obtain ⟨x, hx⟩ := e
  rw [pemHeader, pemHeader, ← List.append_assoc, List.append_left_inj] at hx
  rcases split_marker hx with ⟨h1, h2⟩ | h1
  · rw [endPfx_eq] at h1 h2
    generalize x.length = n at h1 h2
    simp only [List.length_cons, List.length_nil, Nat.zero_add, Nat.reduceAdd] at h1
    interval_cases n <;> simp_all
  · exact absurd h1 hg.noEnd

private theorem begin_in_end {h g : Bytes} (hg : Good g)
    (e : pemHeader beginPfx h <:+ pemHeader endPfx g) : False := by
  obtain ⟨x, hx⟩ := e
  rw [pemHeader, pemHeader, ← List.append_assoc, List.append_left_inj] at hx
  rcases split_marker hx with ⟨h1, h2⟩ | h1
  · rw [beginPfx_eq, endPfx_eq] at h2
    rw [endPfx_eq] at h1
    generalize x.length = n at h1 h2
    simp only [List.length_cons, List.length_nil, Nat.zero_add, Nat.reduceAdd] at h1
    interval_cases n <;> simp_all
  · exact absurd h1 hg.noBegin

private theorem end_in_begin {h g : Bytes} (hg : Good g)
    (e : pemHeader endPfx h <:+ pemHeader beginPfx g) : False := by
  obtain ⟨x, hx⟩ := e
  rw [pemHeader, pemHeader, ← List.append_assoc, List.append_left_inj] at hx
  rcases split_marker hx with ⟨h1, h2⟩ | h1
  · rw [beginPfx_eq, endPfx_eq] at h2
    rw [beginPfx_eq] at h1
    generalize x.length = n at h1 h2
    simp only [List.length_cons, List.length_nil, Nat.zero_add, Nat.reduceAdd] at h1
    interval_cases n <;> simp_all
  · exact absurd h1 hg.noEnd

/-- A base64 text holds neither a dash nor a new line nor a NUL. -/
private theorem base64_chars {m text : Bytes} (h : text.map some = rfc4648 6 base64Alphabet 4 m) :
    ∀ c ∈ text, c ≠ 45 ∧ c ≠ nl ∧ c ≠ 0 := by
  intro c hc
  have h1 : some c ∈ rfc4648 6 base64Alphabet 4 m := by rw [← h]; exact List.mem_map_of_mem hc
  have h3 : ∀ c ∈ base64Alphabet, c ≠ 45 ∧ c ≠ nl ∧ c ≠ 0 := by decide
  rw [rfc4648] at h1
  rcases List.mem_append.1 h1 with h1 | h1
  · rw [rfcChars, List.mem_map] at h1
    obtain ⟨g, _, hg⟩ := h1
    exact h3 c (List.mem_of_getElem? hg)
  · have := List.eq_of_mem_replicate h1
    injection this with this
    subst this
    decide

/-- The base64 text of a datum. -/
private def b64 (d : Bytes) : Bytes :=
  match Base64.encodeBuffer d with
  | .ok (some t) => t
  | _ => []

private theorem b64_spec {d : Bytes} (hd : d ≠ []) :
    Base64.encodeBuffer d = .ok (some (b64 d)) ∧ Base64.decodeBuffer (b64 d) = .ok (some d) ∧ b64 d ≠ [] ∧
      ∀ c ∈ b64 d, c ≠ 45 ∧ c ≠ nl ∧ c ≠ 0 := by
  obtain ⟨text, h1, h2, h3, h4⟩ := Base64.base64_roundtrip d hd
  have e : b64 d = text := by rw [b64, h1]
  rw [e]
  refine ⟨h1, h4, ?_, base64_chars h2⟩
  have : d.length ≠ 0 := by simpa using hd
  intro h
  rw [h] at h3
  simp at h3
  omega

/-- The text of an entry. -/
private def entry (x : Bytes × Bytes) : Bytes :=
  pemHeader beginPfx x.1 ++ (b64 x.2 ++ nl :: pemHeader endPfx x.1)

private theorem pemHeader_eq (pfx h : Bytes) : pemHeader pfx h = (pfx ++ h ++ [45, 45, 45, 45, 45]) ++ [nl] := by
  rw [pemHeader, sfx_eq, ← List.append_assoc]

private theorem skip_line {pfx h : Bytes} (hp : nl ∉ pfx) (hh : Good h) (l rest : Bytes) (pos : Nat) (hl : nl ∉ l)
    (hs : ¬ pemHeader pfx h <:+ l ++ [nl]) :
    findLoop (pemHeader pfx h) 0 pos (l ++ nl :: rest) = findLoop (pemHeader pfx h) 0 (pos + l.length + 1) rest := by
  rw [pemHeader_eq] at hs ⊢
  apply findLoop_skip _ _ _ _ _ _ hl (by omega) (by simpa using hs)
  simp only [List.mem_append, not_or]
  exact ⟨⟨hp, hh.noNl⟩, by decide⟩

private theorem skip_marker {pfx h pfx2 g : Bytes} (hp : nl ∉ pfx) (hh : Good h) (hp2 : nl ∉ pfx2) (hg : Good g)
    (rest : Bytes) (pos : Nat) (hs : ¬ pemHeader pfx h <:+ pemHeader pfx2 g) :
    findLoop (pemHeader pfx h) 0 pos (pemHeader pfx2 g ++ rest) =
      findLoop (pemHeader pfx h) 0 (pos + (pemHeader pfx2 g).length) rest := by
  rw [pemHeader_eq pfx2 g] at hs
  rw [show pemHeader pfx2 g ++ rest = (pfx2 ++ g ++ [45, 45, 45, 45, 45]) ++ nl :: rest by rw [pemHeader_eq]; simp,
    skip_line hp hh _ rest pos _ hs]
  · congr 1
    rw [pemHeader_eq]; simp; omega
  · simp only [List.mem_append, not_or]
    exact ⟨⟨hp2, hg.noNl⟩, by decide⟩

private theorem skip_b64 {pfx h d : Bytes} (hp : nl ∉ pfx) (hh : Good h) (hd : d ≠ []) (rest : Bytes) (pos : Nat) :
    findLoop (pemHeader pfx h) 0 pos (b64 d ++ nl :: rest) =
      findLoop (pemHeader pfx h) 0 (pos + (b64 d).length + 1) rest := by
  obtain ⟨_, _, _, hc⟩ := b64_spec hd
  apply skip_line hp hh _ rest pos
  · intro h; exact (hc _ h).2.1 rfl
  · intro hs
    have : (45 : Byte) ∈ b64 d ++ [nl] := hs.subset (by rw [pemHeader_eq]; simp)
    rcases List.mem_append.1 this with h | h
    · exact (hc _ h).1 rfl
    · exact absurd (List.mem_singleton.1 h) (by decide)

private theorem nl_begin : nl ∉ beginPfx := by decide
private theorem nl_end : nl ∉ endPfx := by decide

/-- The map a sequence of puts builds: an association list. -/
abbrev Map := List (Bytes × Bytes)

/-- All the text. -/
private def flat (m : Map) : Bytes := m.flatMap entry

private def GoodMap (m : Map) : Prop := ∀ x ∈ m, Good x.1 ∧ x.2 ≠ []

private theorem skip_begin {h : Bytes} (hh : Good h) (rest : Bytes) : ∀ (m : Map) (pos : Nat), GoodMap m →
    (∀ x ∈ m, x.1 ≠ h) →
    findLoop (pemHeader beginPfx h) 0 pos (flat m ++ rest) =
      findLoop (pemHeader beginPfx h) 0 (pos + (flat m).length) rest
  | [], pos, _, _ => by simp [flat]
  | x :: m, pos, hm, hk => by
    have hx := hm x (by simp)
    have e : flat (x :: m) ++ rest =
        pemHeader beginPfx x.1 ++ (b64 x.2 ++ nl :: (pemHeader endPfx x.1 ++ (flat m ++ rest))) := by
      simp [flat, entry]
    rw [e, skip_marker nl_begin hh nl_begin hx.1 _ _ (fun hs => hk x (by simp) (begin_in_begin hx.1 hs).symm),
      skip_b64 nl_begin hh hx.2, skip_marker nl_begin hh nl_end hx.1 _ _ (fun hs => begin_in_end hx.1 hs),
      skip_begin hh rest m _ (fun y hy => hm y (by simp [hy])) (fun y hy => hk y (by simp [hy]))]
    congr 1
    simp [flat, entry]; omega

private theorem skip_end {h : Bytes} (hh : Good h) (rest : Bytes) : ∀ (m : Map) (pos : Nat), GoodMap m →
    (∀ x ∈ m, x.1 ≠ h) →
    findLoop (pemHeader endPfx h) 0 pos (flat m ++ rest) =
      findLoop (pemHeader endPfx h) 0 (pos + (flat m).length) rest
  | [], pos, _, _ => by simp [flat]
  | x :: m, pos, hm, hk => by
    have hx := hm x (by simp)
    have e : flat (x :: m) ++ rest =
        pemHeader beginPfx x.1 ++ (b64 x.2 ++ nl :: (pemHeader endPfx x.1 ++ (flat m ++ rest))) := by
      simp [flat, entry]
    rw [e, skip_marker nl_end hh nl_begin hx.1 _ _ (fun hs => end_in_begin hx.1 hs),
      skip_b64 nl_end hh hx.2,
      skip_marker nl_end hh nl_end hx.1 _ _ (fun hs => hk x (by simp) (end_in_end hx.1 hs).symm),
      skip_end hh rest m _ (fun y hy => hm y (by simp [hy])) (fun y hy => hk y (by simp [hy]))]
    congr 1
    simp [flat, entry]; omega

private theorem find_here {pfx h : Bytes} (hp : ∀ c ∈ pfx, c.toNat < 128) (hh : Good h) (rest : Bytes) (pos : Nat) :
    findLoop (pemHeader pfx h) 0 pos (pemHeader pfx h ++ rest) = .ok (some (pos + (pemHeader pfx h).length)) := by
  have := findLoop_match (pemHeader pfx h) rest (by
    intro c hc
    rw [pemHeader_eq] at hc
    simp only [List.mem_append] at hc
    rcases hc with ((hc | hc) | hc) | hc
    · exact hp c hc
    · exact hh.ascii c hc
    · revert c; decide
    · revert c; decide) (pemHeader pfx h).length 0 pos (by omega) (by rw [pemHeader_eq]; simp)
  simpa using this

private theorem begin_ascii : ∀ c ∈ beginPfx, c.toNat < 128 := by decide
private theorem end_ascii : ∀ c ∈ endPfx, c.toNat < 128 := by decide

private theorem find_begin_absent {h : Bytes} (hh : Good h) {m : Map} (hm : GoodMap m) (hk : ∀ x ∈ m, x.1 ≠ h) :
    findHeader (pemHeader beginPfx h) (flat m) = .ok none := by
  have := skip_begin hh [] m 0 hm hk
  rw [List.append_nil] at this
  rw [findHeader, this, findLoop]

private theorem flat_split (m1 m2 : Map) (h d : Bytes) : flat (m1 ++ (h, d) :: m2) =
    flat m1 ++ (pemHeader beginPfx h ++ (b64 d ++ nl :: (pemHeader endPfx h ++ flat m2))) := by
  simp [flat, entry]

private theorem find_begin_at {h d : Bytes} {m1 m2 : Map} (hm : GoodMap (m1 ++ (h, d) :: m2)) (hk : ∀ x ∈ m1, x.1 ≠ h) :
    findHeader (pemHeader beginPfx h) (flat (m1 ++ (h, d) :: m2)) =
      .ok (some ((flat m1).length + (pemHeader beginPfx h).length)) := by
  have hh := (hm (h, d) (by simp)).1
  rw [findHeader, flat_split, skip_begin hh _ m1 0 (fun x hx => hm x (by simp [hx])) hk, find_here begin_ascii hh,
    Nat.zero_add]

private theorem find_end_at {h d : Bytes} {m1 m2 : Map} (hm : GoodMap (m1 ++ (h, d) :: m2)) (hk : ∀ x ∈ m1, x.1 ≠ h) :
    findHeader (pemHeader endPfx h) (flat (m1 ++ (h, d) :: m2)) =
      .ok (some ((flat m1).length + (pemHeader beginPfx h).length + (b64 d).length + 1 +
        (pemHeader endPfx h).length)) := by
  obtain ⟨hh, hd⟩ := hm (h, d) (by simp)
  rw [findHeader, flat_split, skip_end hh _ m1 0 (fun x hx => hm x (by simp [hx])) hk,
    skip_marker nl_end hh nl_begin hh _ _ (fun hs => end_in_begin hh hs), skip_b64 nl_end hh hd, find_here end_ascii hh,
    Nat.zero_add]

private theorem flat_length_pos {m : Map} (h : m ≠ []) : (flat m).length ≠ 0 := by
  obtain ⟨x, m, rfl⟩ := List.exists_cons_of_ne_nil h
  simp only [flat, List.flatMap_cons, entry, pemHeader_eq, List.length_append, List.length_cons]
  omega

private theorem get_at {h d : Bytes} {m1 m2 : Map} (hm : GoodMap (m1 ++ (h, d) :: m2)) (hk : ∀ x ∈ m1, x.1 ≠ h) :
    getData (some h) (some (flat (m1 ++ (h, d) :: m2))) = .ok (some d) := by
  obtain ⟨_, hd⟩ := hm (h, d) (by simp)
  obtain ⟨_, h2, h3, _⟩ := b64_spec hd
  have h4 : (b64 d).length ≠ 0 := by simpa using h3
  rw [getData]
  simp only [find_begin_at hm hk, find_end_at hm hk, Out.bind_ok]
  rw [if_neg (flat_length_pos (by simp)), if_neg (by omega), if_neg (by omega)]
  have e : ((flat (m1 ++ (h, d) :: m2)).drop ((flat m1).length + (pemHeader beginPfx h).length)).take
      ((flat m1).length + (pemHeader beginPfx h).length + (b64 d).length + 1 + (pemHeader endPfx h).length -
        ((pemHeader endPfx h).length + 1) - ((flat m1).length + (pemHeader beginPfx h).length)) = b64 d := by
    rw [flat_split, ← List.append_assoc, List.drop_append_of_le_length (by simp), List.drop_eq_nil_of_le (by simp),
      List.nil_append, List.take_append_of_le_length (by omega), List.take_of_length_le (by omega)]
  rw [e, if_neg h4, h2]

private theorem get_absent {h : Bytes} (hh : Good h) {m : Map} (hm : GoodMap m) (hk : ∀ x ∈ m, x.1 ≠ h) (hne : m ≠ []) :
    getData (some h) (some (flat m)) = .ok none := by
  rw [getData]
  simp only [find_begin_absent hh hm hk, Out.bind_ok]
  rw [if_neg (flat_length_pos hne)]
  rfl

/-! ### C46 -/

/-- The specification of a put: empty data and used headers are refused, otherwise the entry is added. -/
def specPut (m : Map) (h d : Bytes) : TaskResult × Map :=
  if d = [] then (.processError, m)
  else if (m.lookup h).isSome then (.invalidParams, m)
  else (.success, m ++ [(h, d)])

/-- A sequence of puts on the C buffer, with the result of each of them. -/
def runPuts (sized : Bool) : Option Bytes → List (Bytes × Bytes) → Out (List TaskResult × Option Bytes)
  | pem, [] => .ok ([], pem)
  | pem, (h, d) :: ops => do
    let (r, pem) ← putData sized pem (some h) (some d)
    let (rs, pem) ← runPuts sized pem ops
    return (r :: rs, pem)

/-- The same on the map. -/
def specRun : Map → List (Bytes × Bytes) → List TaskResult × Map
  | m, [] => ([], m)
  | m, (h, d) :: ops => ((specPut m h d).1 :: (specRun (specPut m h d).2 ops).1, (specRun (specPut m h d).2 ops).2)

private def Rep (pem : Option Bytes) (m : Map) : Prop :=
  GoodMap m ∧ (m.map Prod.fst).Nodup ∧ pem = if m = [] then none else some (flat m)

private theorem takeWhile_all {α : Type} (p : α → Bool) : ∀ l : List α, (∀ x ∈ l, p x = true) → l.takeWhile p = l
  | [], _ => rfl
  | x :: l, h => by
    rw [List.takeWhile_cons, if_pos (h x (by simp)), takeWhile_all p l (fun y hy => h y (by simp [hy]))]

private theorem flat_noNul {m : Map} (hm : GoodMap m) : (flat m).takeWhile (· != 0) = flat m := by
  apply takeWhile_all
  intro c hc
  simp only [flat, List.mem_flatMap] at hc
  obtain ⟨x, hx, hc⟩ := hc
  obtain ⟨hg, hd⟩ := hm x hx
  obtain ⟨_, _, _, hb⟩ := b64_spec hd
  have key : ∀ pfx : Bytes, (∀ c ∈ pfx, c ≠ 0) → ∀ c ∈ pemHeader pfx x.1, c ≠ 0 := by
    intro pfx hp c hc
    rw [pemHeader_eq] at hc
    simp only [List.mem_append] at hc
    rcases hc with ((hc | hc) | hc) | hc
    · exact hp c hc
    · intro h; exact hg.noNul (h ▸ hc)
    · revert c; decide
    · revert c; decide
  simp only [entry, List.mem_append, List.mem_cons] at hc
  simp only [bne_iff_ne, ne_eq]
  rcases hc with hc | hc | hc | hc
  · exact key _ (by decide) c hc
  · exact (hb c hc).2.2
  · rw [hc]; decide
  · exact key _ (by decide) c hc

private theorem lookup_none {m : Map} {h : Bytes} (hn : m.lookup h = none) : ∀ x ∈ m, x.1 ≠ h := by
  intro x hx e
  rw [List.lookup_eq_none_iff] at hn
  have := hn x hx
  simp [e] at this

private theorem lookup_split {m : Map} {h d : Bytes} (hs : m.lookup h = some d) :
    ∃ m1 m2, m = m1 ++ (h, d) :: m2 ∧ ∀ x ∈ m1, x.1 ≠ h := by
  rw [List.lookup_eq_some_iff] at hs
  obtain ⟨m1, m2, e, hk⟩ := hs
  refine ⟨m1, m2, e, ?_⟩
  intro x hx e
  have := hk x hx
  simp [e] at this

private theorem put_rep {sized : Bool} {pem : Option Bytes} {m : Map} {h d : Bytes} (hr : Rep pem m) (hh : Good h) :
    ∃ pem', putData sized pem (some h) (some d) = .ok ((specPut m h d).1, pem') ∧ Rep pem' (specPut m h d).2 := by
  obtain ⟨hm, hn, hp⟩ := hr
  by_cases hd : d = []
  · subst hd
    exact ⟨pem, by simp [putData, specPut], by simpa [specPut] using ⟨hm, hn, hp⟩⟩
  have hd0 : d.length ≠ 0 := by simpa using hd
  cases hl : m.lookup h with
  | some d' =>
    obtain ⟨m1, m2, rfl, hk⟩ := lookup_split hl
    rw [if_neg (by simp)] at hp
    subst hp
    refine ⟨some (flat (m1 ++ (h, d') :: m2)), ?_, ?_⟩
    · simp only [putData, specPut, hl, if_neg hd, if_neg hd0, flat_noNul hm, ite_self, find_begin_at hm hk, Out.bind_ok]
      rfl
    · simp only [specPut, hl, if_neg hd]
      exact ⟨hm, hn, by rw [if_neg (by simp)]; rfl⟩
  | none =>
    have hk := lookup_none hl
    refine ⟨some (flat (m ++ [(h, d)])), ?_, ?_⟩
    · have e : flat (m ++ [(h, d)]) = flat m ++ pemHeader beginPfx h ++ b64 d ++ [nl] ++ pemHeader endPfx h := by
        simp [flat, entry]
      by_cases hm0 : m = []
      · subst hm0
        rw [if_pos rfl] at hp
        subst hp
        simp only [putData, specPut, hl, if_neg hd, if_neg hd0, Out.bind_ok, (b64_spec hd).1, e]
        rfl
      · rw [if_neg hm0] at hp
        subst hp
        simp only [putData, specPut, hl, if_neg hd, if_neg hd0, flat_noNul hm, ite_self, find_begin_absent hh hm hk,
          Out.bind_ok, (b64_spec hd).1, e]
        rfl
    · simp only [specPut, hl, if_neg hd]
      refine ⟨?_, ?_, by rw [if_neg (by simp)]; rfl⟩
      · intro x hx
        simp only [Option.isSome_none, Bool.false_eq_true, if_false, List.mem_append, List.mem_singleton] at hx
        rcases hx with hx | rfl
        · exact hm x hx
        · exact ⟨hh, hd⟩
      · simp only [Option.isSome_none, Bool.false_eq_true, if_false, List.map_append, List.map_cons, List.map_nil]
        rw [List.nodup_append]
        refine ⟨hn, by simp, ?_⟩
        intro a ha b hb
        simp only [List.mem_singleton] at hb
        subst hb
        obtain ⟨x, hx, rfl⟩ := List.mem_map.1 ha
        exact hk x hx

private theorem run_rep {sized : Bool} : ∀ (ops : List (Bytes × Bytes)) (pem : Option Bytes) (m : Map), Rep pem m →
    (∀ x ∈ ops, Good x.1) →
    ∃ pem', runPuts sized pem ops = .ok ((specRun m ops).1, pem') ∧ Rep pem' (specRun m ops).2
  | [], pem, m, hr, _ => ⟨pem, rfl, hr⟩
  | (h, d) :: ops, pem, m, hr, hg => by
    obtain ⟨pem1, h1, hr1⟩ := put_rep (sized := sized) (d := d) hr (hg (h, d) (by simp))
    obtain ⟨pem2, h2, hr2⟩ := run_rep (sized := sized) ops pem1 (specPut m h d).2 hr1 (fun x hx => hg x (by simp [hx]))
    refine ⟨pem2, ?_, hr2⟩
    simp only [runPuts, h1, Out.bind_ok, h2]
    rfl

private theorem get_rep {pem : Option Bytes} {m : Map} {h : Bytes} (hr : Rep pem m) (hh : Good h) :
    getData (some h) pem = .ok (m.lookup h) := by
  obtain ⟨hm, hn, hp⟩ := hr
  by_cases hm0 : m = []
  · subst hm0
    rw [hp]
    simp [getData]
  · rw [if_neg hm0] at hp
    subst hp
    cases hl : m.lookup h with
    | none => exact get_absent hh hm (lookup_none hl) hm0
    | some d =>
      obtain ⟨m1, m2, rfl, hk⟩ := lookup_split hl
      exact get_at hm hk

/-- C46.  Starting with no buffer, any sequence of puts behaves as on a map: each reports what the map reports (empty data
and used headers are refused, everything else is stored), a later get returns exactly the data put first under the header,
and headers never put are not found.  The size of the buffer may be passed or left to be measured. -/
theorem pem_is_map (sized : Bool) (ops : List (Bytes × Bytes)) (hg : ∀ x ∈ ops, Good x.1) :
    ∃ pem, runPuts sized none ops = .ok ((specRun [] ops).1, pem) ∧
      ∀ h, Good h → getData (some h) pem = .ok ((specRun [] ops).2.lookup h) := by
  obtain ⟨pem, h1, hr⟩ := run_rep (sized := sized) ops none [] ⟨by simp [GoodMap], by simp, by simp⟩ hg
  exact ⟨pem, h1, fun h hh => get_rep hr hh⟩

/-- C46, for a single put after any history: a used header is refused and the buffer stays as it was; a fresh one is
stored behind the unchanged old text. -/
theorem pem_put_after (sized : Bool) (ops : List (Bytes × Bytes)) (hg : ∀ x ∈ ops, Good x.1) (h d : Bytes) (hh : Good h)
    (hd : d ≠ []) :
    ∃ pem, runPuts sized none ops = .ok ((specRun [] ops).1, pem) ∧
      (getData (some h) pem ≠ .ok none → putData sized pem (some h) (some d) = .ok (.invalidParams, pem)) ∧
      (getData (some h) pem = .ok none → ∃ tail, putData sized pem (some h) (some d) =
        .ok (.success, some (pem.getD [] ++ tail))) := by
  obtain ⟨pem, h1, hr⟩ := run_rep (sized := sized) ops none [] ⟨by simp [GoodMap], by simp, by simp⟩ hg
  refine ⟨pem, h1, ?_⟩
  rw [get_rep hr hh]
  generalize (specRun [] ops).2 = m at hr
  obtain ⟨hm, hn, hp⟩ := hr
  have hd0 : d.length ≠ 0 := by simpa using hd
  constructor
  · intro hne
    cases hl : m.lookup h with
    | none => exact absurd (by rw [hl]) hne
    | some d' =>
      obtain ⟨m1, m2, rfl, hk⟩ := lookup_split hl
      rw [if_neg (by simp)] at hp
      subst hp
      simp only [putData, if_neg hd0, flat_noNul hm, ite_self, find_begin_at hm hk, Out.bind_ok]
      rfl
  · intro hno
    have hl : m.lookup h = none := by injection hno
    have hk := lookup_none hl
    refine ⟨pemHeader beginPfx h ++ b64 d ++ [nl] ++ pemHeader endPfx h, ?_⟩
    by_cases hm0 : m = []
    · subst hm0
      rw [if_pos rfl] at hp
      subst hp
      simp only [putData, if_neg hd0, Out.bind_ok, (b64_spec hd).1]
      rfl
    · rw [if_neg hm0] at hp
      subst hp
      simp only [putData, if_neg hd0, flat_noNul hm, ite_self, find_begin_absent hh hm hk, Out.bind_ok, (b64_spec hd).1]
      simp

/-- The headers of the library are good ones. -/
example : Good (ascii "DH PARAM P") ∧ Good (ascii "ECDSA A X") ∧ Good (ascii "X-509 --- cert") := by
  refine ⟨⟨?_, ?_, ?_, ?_, ?_⟩, ⟨?_, ?_, ?_, ?_, ?_⟩, ⟨?_, ?_, ?_, ?_, ?_⟩⟩ <;> decide +kernel

/-- A history with an empty datum, a duplicate and two stored entries. -/
example : specRun [] [(ascii "A", [1, 2]), (ascii "B", []), (ascii "A", [9]), (ascii "B", [3])] =
    ([.success, .processError, .invalidParams, .success], [(ascii "A", [1, 2]), (ascii "B", [3])]) := by decide +kernel

private theorem enc_one (b : Byte) (t : Bytes)
    (h : rd Base64.state ((((Base64.accBlock [b] <<< (2 <<< 3)) &&& 0x00FC0000#32) >>> 18).toNat) = .ok t[0]! ∧
      rd Base64.state ((((Base64.accBlock [b] <<< (2 <<< 3)) &&& 0x0003F000#32) >>> 12).toNat) = .ok t[1]! ∧
      rd Base64.state ((((Base64.accBlock [b] <<< (2 <<< 3)) &&& 0x00000FC0#32) >>> 6).toNat) = .ok t[2]! ∧
      rd Base64.state (((Base64.accBlock [b] <<< (2 <<< 3)) &&& 0x0000003F#32).toNat) = .ok t[3]!) :
    Base64.encodeBuffer [b] = .ok (some [t[0]!, t[1]!, 0x3D#8, 0x3D#8]) := by
  obtain ⟨h0, h1, h2, h3⟩ := h
  have e : Base64.encGroups [] 2 = .ok ([], 0) := by rw [Base64.encGroups]; simp
  have e1 : Base64.encGroups [b] 4 = .ok ([t[0]!, t[1]!], 2) := by
    rw [Base64.encGroups]
    simp only [List.cons_ne_self, reduceDIte, List.take_succ_cons, List.take_nil, List.length_cons, List.length_nil,
      Nat.zero_add, Nat.reduceSub, h0, h1, h2, h3, Out.bind_ok, List.drop_succ_cons, List.drop_nil, e]
    rfl
  rw [Base64.encodeBuffer, if_neg (by simp)]
  simp only [List.length_singleton, show Base64.roundUp4 (1 * 8 / 6) = 4 by decide, e1, Out.bind_ok]
  rfl

private theorem enc1 : Base64.encodeBuffer [1] = .ok (some [65, 81, 61, 61]) :=
  enc_one 1 [65, 81, 65, 65] (by decide +kernel)
private theorem enc2 : Base64.encodeBuffer [2] = .ok (some [65, 103, 61, 61]) :=
  enc_one 2 [65, 103, 65, 65] (by decide +kernel)

/-- The text a put adds. -/
private def added (h text : Bytes) : Bytes := pemHeader beginPfx h ++ text ++ [0x0A#8] ++ pemHeader endPfx h

/-- A put whose header is not found. -/
private theorem put_fresh {h d old text : Bytes} (hd : d.length ≠ 0) (he : Base64.encodeBuffer d = .ok (some text))
    (hf : findHeader (pemHeader beginPfx h) old = .ok none) :
    putData true (some old) (some h) (some d) =
      .ok (.success, some (old ++ added h text)) := by
  simp only [putData, if_neg hd, if_true, hf, Out.bind_ok, he, added, List.append_assoc]
  rfl

private theorem put_first {h d text : Bytes} (hd : d.length ≠ 0) (he : Base64.encodeBuffer d = .ok (some text)) :
    putData true none (some h) (some d) =
      .ok (.success, some (added h text)) := by
  simp only [putData, if_neg hd, Out.bind_ok, he]
  rfl

/-- The condition on the headers is needed: with a header which holds an end marker, two successful puts of distinct
headers leave a buffer in which the second datum is lost: the end of the entry is found before its start. -/
theorem pem_map_fails : ∃ h1 h2 d1 d2 pem, h1 ≠ h2 ∧ d1 ≠ [] ∧ d2 ≠ [] ∧
    runPuts true none [(h1, d1), (h2, d2)] = .ok ([.success, .success], some pem) ∧
    getData (some h2) (some pem) = .ub := by
  refine ⟨ascii "-----END g", ascii "g", [1], [2],
    added (ascii "-----END g") [65, 81, 61, 61] ++ added (ascii "g") [65, 103, 61, 61],
    by decide, by decide, by decide, ?_, ?_⟩
  · rw [runPuts, put_first (by decide) enc1, Out.bind_ok]
    dsimp only
    rw [runPuts, put_fresh (by decide) enc2 (by decide +kernel), Out.bind_ok]
    rfl
  · decide +kernel

/-- Headers with characters beyond ASCII are never found again (`char` is signed): a put succeeds, the get after it finds
nothing and a second put of the same header succeeds, too. -/
theorem pem_latin1_fails : ∃ h d pem pem', runPuts true none [(h, d)] = .ok ([.success], some pem) ∧
    getData (some h) (some pem) = .ok none ∧
    runPuts true none [(h, d), (h, d)] = .ok ([.success, .success], some pem') := by
  refine ⟨[0xE9#8], [1], added [0xE9#8] [65, 81, 61, 61],
    added [0xE9#8] [65, 81, 61, 61] ++ added [0xE9#8] [65, 81, 61, 61], ?_, ?_, ?_⟩
  · rw [runPuts, put_first (by decide) enc1, Out.bind_ok]
    rfl
  · decide +kernel
  · rw [runPuts, put_first (by decide) enc1, Out.bind_ok]
    dsimp only
    rw [runPuts, put_fresh (by decide) enc1 (by decide +kernel), Out.bind_ok]
    rfl

/-! ### C47 -/

private theorem pemHeader_length (pfx h : Bytes) : 0 < (pemHeader pfx h).length := by
  rw [pemHeader_eq]; simp

/-- The search for a marker is always defined, and what it finds is an occurrence of the marker. -/
theorem pem_find_safe (pfx h buf : Bytes) :
    (∃ r, findHeader (pemHeader pfx h) buf = .ok r) ∧
      ∀ e, findHeader (pemHeader pfx h) buf = .ok (some e) → e ≤ buf.length ∧ pemHeader pfx h <:+ buf.take e := by
  refine ⟨findLoop_defined _ _ _ _ (pemHeader_length pfx h), ?_⟩
  intro e he
  obtain ⟨_, h2, h3⟩ := findLoop_sound _ _ [] 0 0 e (pemHeader_length pfx h) (by simp) he
  exact ⟨by omega, by simpa using h3⟩

/-- C47 fails: a begin marker without an end marker, an end marker before the begin marker, and base64 texts cut short
all lead to undefined behaviour. -/
theorem pem_get_unsafe :
    getData (some (ascii "A")) (some (ascii "-----BEGIN A-----\nAQ==\n")) = .ub ∧
    getData (some (ascii "A")) (some (ascii "-----END A-----\n-----BEGIN A-----\nAQ==\n")) = .ub ∧
    getData (some (ascii "A")) (some (ascii "-----BEGIN A-----\n-----END A-----\n")) = .ub ∧
    getData (some (ascii "A")) (some (ascii "-----BEGIN A-----\nAQ\n-----END A-----\n")) = .ub ∧
    getData (some (ascii "A")) (some (ascii "-----BEGIN A-----\n====\n-----END A-----\n")) = .ub := by
  decide +kernel

/-- C47, what holds: the lookup is defined for every text in which the begin marker does not occur; and for every other
text and header it is defined provided the end marker is found at least a byte behind the begin marker and the text between
them is empty or whole base64 quanta.  Missing: the other texts, for which it is undefined (`pem_get_unsafe`). -/
theorem pem_get_safe_partial (h buf : Bytes) :
    (¬ pemHeader beginPfx h <:+: buf → getData (some h) (some buf) = .ok none) ∧
    ∀ b e body, findHeader (pemHeader beginPfx h) buf = .ok (some b) →
      findHeader (pemHeader endPfx h) buf = .ok (some e) →
      b + (pemHeader endPfx h).length + 1 ≤ e →
      body = (buf.drop b).take (e - ((pemHeader endPfx h).length + 1) - b) →
      (body = [] ∨ ∃ init c pad, body = init ++ [c] ++ List.replicate pad 0x3D#8 ∧ c ≠ 0x3D#8 ∧ pad ≤ 2 ∧
        body.length % 4 = 0 ∧ ∀ x ∈ body, x ≠ 0xFF#8) →
      ∃ r, getData (some h) (some buf) = .ok r ∧
        (∀ d, r = some d → 4 * d.length ≤ 3 * body.length) := by
  constructor
  · intro hn
    rw [getData]
    by_cases hb : buf.length = 0
    · rw [if_pos hb]
    rw [if_neg hb]
    obtain ⟨⟨r, hr⟩, hs⟩ := pem_find_safe beginPfx h buf
    cases r with
    | none => rw [hr]; rfl
    | some e =>
      obtain ⟨_, h2⟩ := hs e hr
      exact absurd (h2.isInfix.trans (List.take_prefix e buf).isInfix) hn
  · intro b e body hb he hle hbody hok
    rw [getData]
    have h0 : buf.length ≠ 0 := by
      intro h0
      have : buf = [] := by simpa using h0
      rw [this, findHeader, findLoop] at hb
      simp at hb
    rw [if_neg h0]
    simp only [hb, he, Out.bind_ok]
    rw [if_neg (by omega), if_neg (by omega), ← hbody]
    rcases hok with hok | ⟨init, c, pad, hinit, hc, hpad, h4, hff⟩
    · rw [hok, if_pos (by simp)]
      exact ⟨none, rfl, by simp⟩
    · obtain ⟨o, ho, hlen⟩ := Base64.base64_decode_safe_partial body (init ++ [c]) pad hinit h4 hpad ⟨c, init, rfl, hc⟩ hff
      rw [if_neg (by rw [hinit]; simp), ho]
      refine ⟨some o, rfl, ?_⟩
      intro d hd
      injection hd with hd
      subst hd
      omega

example : findHeader (pemHeader beginPfx (ascii "A")) (ascii "x-----BEGIN A-----\nAQ==\n-----END A-----\n") = .ok (some 19) ∧
    findHeader (pemHeader endPfx (ascii "A")) (ascii "x-----BEGIN A-----\nAQ==\n-----END A-----\n") = .ok (some 40) ∧
    getData (some (ascii "A")) (some (ascii "x-----BEGIN A-----\nAQ==\n-----END A-----\n")) = .ok (some [1]) := by
  decide +kernel

/-- The search gives up a partial match without looking at the byte again: a marker behind a dash is not found. -/
theorem pem_find_incomplete :
    getData (some (ascii "A")) (some (ascii "x------BEGIN A-----\nAQ==\n-----END A-----\n")) = .ok none := by
  decide +kernel

/-! ### Numbers in a PEM buffer -/

private theorem fold_bytes {w : Nat} : ∀ (k : Nat) (d : BitVec w),
    ((List.range k).map fun i => (d >>> (8 * i)).setWidth 8).foldr (fun (b : Byte) v => b.toNat + 256 * v) 0 =
      d.toNat % 2 ^ (8 * k)
  | 0, d => by simp [Nat.mod_one]
  | k + 1, d => by
    have e : ∀ i, (d >>> (8 * (i + 1))).setWidth 8 = ((d >>> 8) >>> (8 * i)).setWidth 8 := by
      intro i
      rw [← BitVec.shiftRight_add, Nat.mul_add, Nat.add_comm]
    rw [List.range_succ_eq_map, List.map_cons, List.map_map, List.foldr_cons]
    have := fold_bytes k (d >>> 8)
    simp only [Function.comp_def, Nat.succ_eq_add_one, e]
    rw [this]
    simp only [Nat.mul_zero, BitVec.ushiftRight_zero, BitVec.toNat_setWidth, BitVec.toNat_ushiftRight,
      Nat.shiftRight_eq_div_pow]
    rw [show 8 * (k + 1) = 8 + 8 * k by omega, Nat.pow_add, Nat.mod_mul]

private theorem digits_leBytes {w : Nat} (h8 : 8 * (w / 8) = w) : ∀ (d : Mp.Digits w),
    digitsOfBytes w d.length (Mp.leBytes d) = d
  | [] => rfl
  | x :: d => by
    have hl : ((List.range (w / 8)).map fun i => (x >>> (8 * i)).setWidth 8 : Bytes).length = w / 8 := by simp
    rw [List.length_cons, digitsOfBytes]
    have e : Mp.leBytes (x :: d) = ((List.range (w / 8)).map fun i => (x >>> (8 * i)).setWidth 8) ++ Mp.leBytes d := rfl
    rw [e, List.take_left' hl, List.drop_left' hl, digits_leBytes h8 d, fold_bytes, h8, Nat.mod_eq_of_lt x.isLt,
      BitVec.ofNat_toNat, BitVec.setWidth_eq]

private theorem leBytes_length {w : Nat} : ∀ d : Mp.Digits w, (Mp.leBytes d).length = d.length * (w / 8)
  | [] => by simp [Mp.leBytes]
  | x :: d => by
    have e : Mp.leBytes (x :: d) = ((List.range (w / 8)).map fun i => (x >>> (8 * i)).setWidth 8) ++ Mp.leBytes d := rfl
    rw [e, List.length_append, leBytes_length d]
    simp [Nat.add_mul, Nat.add_comm]

/-- C46 for numbers, as the public key code uses the buffer: the digits of any number put under a fresh good header after
any history are read back, with the same number of digits, by `kryptos_pem_get_mp_data` (the sign is lost). -/
theorem pem_mp_roundtrip (w : Nat) (hw : w = 32 ∨ w = 64) (sized : Bool) (ops : List (Bytes × Bytes))
    (hg : ∀ x ∈ ops, Good x.1) (h : Bytes) (hh : Good h) (n : Mp.Num w) (hn : n.data ≠ [])
    (hget : ((specRun [] ops).2.lookup h) = some (Mp.leBytes n.data)) :
    ∃ pem, runPuts sized none ops = .ok ((specRun [] ops).1, pem) ∧
      getMpData w (some h) pem = .ok (some ⟨n.data, false⟩) := by
  obtain ⟨pem, h1, h2⟩ := pem_is_map sized ops hg
  refine ⟨pem, h1, ?_⟩
  have hl : n.data.length ≠ 0 := by simpa using hn
  have h8 : 8 * (w / 8) = w := by rcases hw with rfl | rfl <;> rfl
  have hw0 : 0 < w / 8 := by rcases hw with rfl | rfl <;> decide
  have hle : w / 8 ≤ n.data.length * (w / 8) := Nat.le_mul_of_pos_left _ (by omega)
  have hq : (n.data.length * (w / 8) + w / 8 - 1) / (w / 8) = n.data.length := by
    rw [Nat.add_sub_assoc (by omega), Nat.add_comm, Nat.add_mul_div_right _ _ hw0,
      Nat.div_eq_of_lt (by omega), Nat.zero_add]
  simp only [getMpData, h2 h hh, hget, Out.bind_ok, leBytes_length]
  rw [if_neg (by omega), hq, digits_leBytes h8]
  rfl

example : (specRun [] [(ascii "RSA PARAM N", Mp.leBytes [0x123456789ABCDEF0#64, 7#64]), (ascii "RSA PARAM E", [3])]).2.lookup
    (ascii "RSA PARAM N") = some (Mp.leBytes [0x123456789ABCDEF0#64, 7#64]) := by decide +kernel

/-! ### Buffers put together -/

/-- The buffer consists of the entries of the map. -/
def Holds (buf : Bytes) (m : Map) : Prop := Rep (some buf) m

theorem holds_run (sized : Bool) (ops : List (Bytes × Bytes)) (hg : ∀ x ∈ ops, Good x.1) (hne : (specRun [] ops).2 ≠ []) :
    ∃ pem, runPuts sized none ops = .ok ((specRun [] ops).1, some pem) ∧ Holds pem (specRun [] ops).2 := by
  obtain ⟨pem, h1, hr⟩ := run_rep (sized := sized) ops none [] ⟨by simp [GoodMap], by simp, by simp⟩ hg
  have h2 := hr.2.2
  rw [if_neg hne] at h2
  subst h2
  exact ⟨_, h1, hr⟩

theorem Holds.get {buf : Bytes} {m : Map} (h : Holds buf m) {hdr : Bytes} (hh : Good hdr) :
    getData (some hdr) (some buf) = .ok (m.lookup hdr) := get_rep h hh

/-- A buffer behind another one with other headers. -/
theorem Holds.append {b1 b2 : Bytes} {m1 m2 : Map} (h1 : Holds b1 m1) (h2 : Holds b2 m2)
    (hn : ((m1 ++ m2).map Prod.fst).Nodup) : Holds (b1 ++ b2) (m1 ++ m2) := by
  obtain ⟨g1, -, e1⟩ := h1
  obtain ⟨g2, -, e2⟩ := h2
  have n1 : m1 ≠ [] := by rintro rfl; simp at e1
  have n2 : m2 ≠ [] := by rintro rfl; simp at e2
  rw [if_neg n1, Option.some.injEq] at e1
  rw [if_neg n2, Option.some.injEq] at e2
  refine ⟨?_, hn, ?_⟩
  · intro x hx
    rcases List.mem_append.1 hx with hx | hx
    · exact g1 x hx
    · exact g2 x hx
  · rw [if_neg (by simp [n1]), e1, e2]
    simp [flat]

theorem Holds.ne_nil {buf : Bytes} {m : Map} (h : Holds buf m) : buf ≠ [] := by
  obtain ⟨-, -, e⟩ := h
  by_cases hm : m = []
  · simp [hm] at e
  · rw [if_neg hm, Option.some.injEq] at e
    rw [e]
    exact fun h0 => flat_length_pos hm (by rw [h0]; rfl)

/-- A number in a buffer is read back. -/
theorem Holds.getMp (w : Nat) (hw : w = 32 ∨ w = 64) {buf : Bytes} {m : Map} (hb : Holds buf m) {h : Bytes} (hh : Good h)
    (d : Mp.Digits w) (hn : d ≠ []) (hget : m.lookup h = some (Mp.leBytes d)) :
    getMpData w (some h) (some buf) = .ok (some ⟨d, false⟩) := by
  have hl : d.length ≠ 0 := by simpa using hn
  have h8 : 8 * (w / 8) = w := by rcases hw with rfl | rfl <;> rfl
  have hw0 : 0 < w / 8 := by rcases hw with rfl | rfl <;> decide
  have hle : w / 8 ≤ d.length * (w / 8) := Nat.le_mul_of_pos_left _ (by omega)
  have hq : (d.length * (w / 8) + w / 8 - 1) / (w / 8) = d.length := by
    rw [Nat.add_sub_assoc (by omega), Nat.add_comm, Nat.add_mul_div_right _ _ hw0,
      Nat.div_eq_of_lt (by omega), Nat.zero_add]
  simp only [getMpData, hb.get hh, hget, Out.bind_ok, leBytes_length]
  rw [if_neg (by omega), hq, digits_leBytes h8]
  rfl

theorem Holds.absent (w : Nat) {buf : Bytes} {m : Map} (hb : Holds buf m) {h : Bytes} (hh : Good h)
    (hn : m.lookup h = none) : getMpData w (some h) (some buf) = .ok none := by
  simp only [getMpData, hb.get hh, hn, Out.bind_ok]
  rfl

end Kryptos.Pem
