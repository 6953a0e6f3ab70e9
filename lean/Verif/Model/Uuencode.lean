import Verif.Base
/-
  Model of src/kryptos_uuencode.c.
-/
namespace Kryptos.Uuencode

/-- `KRYPTOS_UUENCODE_BYTES_PER_LINE` (src/kryptos_uuencode.c:14). -/
def bytesPerLine : Nat := 60

/-- Block filled from at most three bytes (src/kryptos_uuencode.c:71-75) and completed with
0x01 filler bytes (src/kryptos_uuencode.c:79-85). -/
def packBlock (g : Bytes) : W32 :=
  let block := g.foldl (fun (blk : W32) (b : Byte) => (blk <<< 8) ||| b.setWidth 32) 0#32
  let pad := 3 - g.length
  if pad = 2 then (block <<< 16) ||| 0x00000101#32
  else if pad = 1 then (block <<< 8) ||| 0x01#32
  else block

/-- The four characters of a block (src/kryptos_uuencode.c:87-90). -/
def blockChars (block : W32) : Bytes :=
  [ (32#32 + (((block &&& 0x00FC0000#32) >>> 18) &&& 0xFF#32)).setWidth 8,
    (32#32 + (((block &&& 0x0003F000#32) >>> 12) &&& 0xFF#32)).setWidth 8,
    (32#32 + (((block &&& 0x00000FC0#32) >>> 6) &&& 0xFF#32)).setWidth 8,
    (32#32 + (block &&& 0x0000003F#32)).setWidth 8 ]

/-- Main loop (src/kryptos_uuencode.c:68-108).  `line` is the part of `curr_line` in use,
`total` is `enc_total`; the result is what gets appended at `out_p`. -/
def encLoop (bs line : Bytes) (total : Nat) : Out Bytes :=
  if _h : bs = [] then .ok []
  else
    let g := bs.take 3
    let total' := total + g.length
    if bytesPerLine < line.length + 4 then .ub
    else
      let line' := line ++ blockChars (packBlock g)
      if line'.length = bytesPerLine ∨ bs.drop 3 = [] then do
        let rest ← encLoop (bs.drop 3) [] 0
        return (32#8 + BitVec.ofNat 8 total') :: line' ++
          (if line'.length = bytesPerLine then [0x0A#8] else []) ++ rest
      else encLoop (bs.drop 3) line' total'
termination_by bs.length
decreasing_by
  all_goals
    rcases bs with _ | ⟨x, xs⟩
    · exact absurd rfl _h
    · simp; omega

/-- `kryptos_uuencode_encode_buffer` (src/kryptos_uuencode.c:33-131).  The segment has
`16*n + 60` zero bytes; the writes are sequential, so one bound check at the end is
equivalent to checking each.  The scan `while (*out_p != 0)` (line 112) stops at once because
everything behind the last stored byte is still zero; then "\n`\n" is stored. -/
def encodeBuffer (buffer : Bytes) : Out (Option Bytes) :=
  if buffer.length = 0 then .ok none
  else do
    let cap := (buffer.length <<< 4) + bytesPerLine
    let o ← encLoop buffer [] 0
    if o.length + 3 ≤ cap then .ok (some (o ++ [0x0A#8, 0x60#8, 0x0A#8])) else .ub

/-- `size_t` of the `int` value `*bp - 32`. -/
def sizeMinus32 (b : Byte) : Nat := if 32 ≤ b.toNat then b.toNat - 32 else 2 ^ 64 - (32 - b.toNat)

/-- Number of bytes `bp_end` is moved back (src/kryptos_uuencode.c:155-163). -/
def trailer (t : Bytes) : Nat :=
  let r := t.reverse
  match r with
  | a :: b :: c :: d :: _ =>
    if c = 0x0A#8 ∧ b = 0x60#8 ∧ a = 0x0A#8 then 3
    else if a = 0x0A#8 ∧ b = 0x0D#8 ∧ c = 0x60#8 then 3
    else if t.length > 4 ∧ d = 0x60#8 ∧ c = 0x0A#8 ∧ b = 0x0D#8 ∧ a = 0x0A#8 then 3
    else 0
  | _ => 0

/-- The three bytes of a block, most significant first (src/kryptos_uuencode.c:188-193). -/
def blockBytes (block : W32) : Bytes :=
  [ ((block &&& (0xFF#32 <<< 16)) >>> 16).setWidth 8,
    ((block &&& (0xFF#32 <<< 8)) >>> 8).setWidth 8,
    (block &&& 0xFF#32).setWidth 8 ]

/-- Inner loop over one line (src/kryptos_uuencode.c:180-196).  `rest` is the text from `bp`
to the end of the buffer, `stop` the trailer excluded by `bp_end`, `cap` the free output.
Returns the bytes and the text at the new `bp`. -/
def decLine : Nat → Bytes → Nat → Nat → Out (Bytes × Bytes)
  | total, rest, stop, cap =>
    if total = 0 ∨ ¬ (stop < rest.length) then .ok ([], rest)
    else
      match rest with
      | a :: b :: c :: d :: rest' =>
        let block : W32 := (a.setWidth 32 - 32#32) <<< 18 ||| (b.setWidth 32 - 32#32) <<< 12 |||
          (c.setWidth 32 - 32#32) <<< 6 ||| (d.setWidth 32 - 32#32)
        let o := (blockBytes block).take total
        if cap < o.length then .ub
        else do
          let (os, r) ← decLine (total - o.length) rest' stop (cap - o.length)
          return (o ++ os, r)
      | _ => .ub
termination_by _ rest => rest.length

theorem decLine_length (total : Nat) (rest : Bytes) (stop cap : Nat) (x : Bytes × Bytes)
    (h : decLine total rest stop cap = .ok x) : x.2.length ≤ rest.length := by
  induction hn : rest.length using Nat.strongRecOn generalizing rest total cap x with
  | ind n ih =>
    match rest, hn, h with
    | a :: b :: c :: d :: rest', hn, h =>
      rw [decLine] at h
      split at h
      · cases h; simp [← hn]
      · simp only at h
        split at h
        · cases h
        · revert h
          generalize List.take total _ = o
          intro h
          cases h1 : decLine (total - o.length) rest' stop (cap - o.length) with
          | ub => simp [h1] at h
          | ok y =>
            simp only [h1, Out.bind_ok, Out.pure_eq, Out.ok.injEq] at h
            subst h
            have := ih rest'.length (by simp at hn; omega) _ rest' _ y h1 rfl
            simp at hn ⊢; omega
    | [], hn, h | [_], hn, h | [_, _], hn, h | [_, _, _], hn, h =>
      rw [decLine] at h
      · split at h
        · cases h; simp [← hn]
        · cases h
      · intros; simp_all

/-- First half of the line end handling (src/kryptos_uuencode.c:198-202): `*bp` is read
unconditionally. -/
def skipEol1 (rest : Bytes) : Out Bytes :=
  match rest with
  | [] => .ub
  | c :: _ => .ok (rest.drop (if c = 0x0A#8 then 1 else if c = 0x0D#8 then 2 else 0))

/-- Second half (src/kryptos_uuencode.c:204-208). -/
def skipEol2 (r : Bytes) (stop : Nat) : Out Bytes :=
  if stop + 2 < r.length then
    match r with
    | x :: y :: _ => .ok (r.drop (if x = 0x0D#8 ∨ y = 0x0A#8 then 2 else 0))
    | _ => .ub
  else .ok r

/-- Line end handling (src/kryptos_uuencode.c:198-208). -/
def skipEol (rest : Bytes) (stop : Nat) : Out Bytes :=
  match skipEol1 rest with
  | .ub => .ub
  | .ok r => skipEol2 r stop

theorem skipEol_length (rest : Bytes) (stop : Nat) (r : Bytes) (h : skipEol rest stop = .ok r) :
    r.length ≤ rest.length := by
  unfold skipEol at h
  split at h
  · cases h
  · rename_i r1 h1
    have e1 : r1.length ≤ rest.length := by
      unfold skipEol1 at h1
      split at h1
      · cases h1
      · injection h1 with h1; subst h1; rw [List.length_drop]; omega
    have e2 : r.length ≤ r1.length := by
      unfold skipEol2 at h
      split at h
      · split at h
        · injection h with h; subst h; rw [List.length_drop]; omega
        · cases h
      · injection h with h; subst h; exact Nat.le_refl _
    omega

/-- Outer loop (src/kryptos_uuencode.c:176-209). -/
def decLoop (rest : Bytes) (stop cap : Nat) : Out Bytes :=
  if _h : stop < rest.length then
    match rest with
    | [] => .ub
    | lc :: body =>
      match h1 : decLine (sizeMinus32 lc) body stop cap with
      | .ub => .ub
      | .ok (os, r) =>
        match h2 : skipEol r stop with
        | .ub => .ub
        | .ok r' => do
          let more ← decLoop r' stop (cap - os.length)
          return os ++ more
  else .ok []
termination_by rest.length
decreasing_by
  have e1 := decLine_length _ _ _ _ _ h1
  have e2 := skipEol_length _ _ _ h2
  simp at e1 ⊢; omega

/-- `kryptos_uuencode_decode_buffer` (src/kryptos_uuencode.c:133-220).  Sizes are `size_t`
(modulo 2^64). -/
def decodeBuffer (buffer : Bytes) : Out (Option Bytes) :=
  match buffer with
  | [] => .ok none
  | b0 :: _ =>
    let s0 := ((buffer.length * 6) / 8 + (2 ^ 64 - 4)) % 2 ^ 64
    let s := if s0 < sizeMinus32 b0 then sizeMinus32 b0 else s0
    let cap := (s + bytesPerLine) % 2 ^ 64
    do
      let o ← decLoop buffer (trailer buffer) cap
      return some o

end Kryptos.Uuencode
