import Verif.Base
/-
  Huffman coding (src/kryptos_huffman.c).

  Allocations are taken to succeed; what is freed or wiped at the end of the functions is not modelled.  `size_t` has eight bytes;
  counts and sizes are not reduced modulo 2^64 (codes have fewer than 92 bits, so that nothing reaches 2^64 for inputs below 2^56 bytes).
-/
namespace Kryptos.Huffman

/-- `struct kryptos_huffman_tree_ctx` (src/kryptos_huffman.c:42-45); `nil` is the pointer `NULL`. -/
inductive Tree where
  | nil
  | node (l r : Tree) (byte : Byte)
  deriving Repr, DecidableEq

/-- `struct kryptos_huffman_freq_ctx` (src/kryptos_huffman.c:47-51). -/
structure Freq where
  freq : Nat
  subtree : Tree
  byte : Byte
  deriving Repr, DecidableEq

/-- Following the pointer `l` of a tree (undefined for `NULL`). -/
def Tree.left : Tree → Out Tree
  | .nil => .ub
  | .node l _ _ => .ok l

/-- Following the pointer `r` of a tree (undefined for `NULL`). -/
def Tree.right : Tree → Out Tree
  | .nil => .ub
  | .node _ r _ => .ok r

/-- `KRYPTOS_HUFFMAN_MAX_CODE_SIZE` (src/kryptos_huffman.c:21). -/
def maxCode : Nat := 255

/-! ## Frequencies -/

/-- One pass of `kryptos_huffman_sort_nodes` (src/kryptos_huffman.c:321-328): the first two neighbours in the wrong order are swapped and
the pass ends; `none` when there are none. -/
def sortPass : List Freq → Option (List Freq)
  | a :: b :: l => if a.freq > b.freq then some (b :: a :: l) else (sortPass (b :: l)).map (a :: ·)
  | _ => none

/-- The passes of `kryptos_huffman_sort_nodes` (src/kryptos_huffman.c:316-329), at most `fuel` of them. -/
def sortLoop : Nat → List Freq → Out (List Freq)
  | 0, _ => .ub
  | fuel + 1, t => match sortPass t with
    | none => .ok t
    | some t' => sortLoop fuel t'

/-- `kryptos_huffman_sort_nodes` (src/kryptos_huffman.c:311-338).  The number of passes is below the limit for a table of 256 entries
(`sort_spec`). -/
def sortNodes (t : List Freq) : Out (List Freq) := sortLoop 32641 t

/-- The body of the counting loop of `kryptos_huffman_eval_byte_freq` (src/kryptos_huffman.c:295-306); `raw_freq` holds the same counts as
`freq_table` before sorting and is not kept. -/
def countByte (t : List Freq) (b : Byte) : Out (List Freq) := do
  let c ← rd t b.toNat
  wr t b.toNat { c with byte := if c.byte = 0 then b else c.byte, freq := c.freq + 1 }

/-- The counts of `kryptos_huffman_eval_byte_freq` (src/kryptos_huffman.c:285-306). -/
def counts (inp : Bytes) : Out (List Freq) :=
  inp.foldlM countByte (List.replicate 256 ⟨0, .nil, 0⟩)

/-! ## The tree -/

/-- The leaves made at the beginning of `kryptos_huffman_mk_tree` (src/kryptos_huffman.c:344-350). -/
def mkLeaf (c : Freq) : Freq :=
  if c.freq > 0 then { c with subtree := .node (.node .nil .nil c.byte) .nil 0 } else c

/-- `subtree->r == NULL` (undefined when `subtree` is `NULL`). -/
def rNull (t : Tree) : Out Bool := do
  let r ← t.right
  return r == .nil

/-- What becomes of a neighbour: its leaf when it holds a leaf, or itself (src/kryptos_huffman.c:356-358, 370-372). -/
def joined (t : Tree) : Out Tree := do
  if ← rNull t then t.left else return t

/-- Setting the pointer `r`. -/
def setRight : Tree → Tree → Out Tree
  | .nil, _ => .ub
  | .node l _ b, r => .ok (.node l r b)

/-- Joining the neighbours `n` and `n + 1` of `kryptos_huffman_mk_tree` (src/kryptos_huffman.c:354-392): the new entries and the new
root. -/
def join (a b : Freq) : Out (Freq × Freq × Tree) := do
  if ← rNull a.subtree then
    let t ← joined b.subtree
    let s ← setRight a.subtree t
    return (⟨a.freq + b.freq, s, 0⟩, ⟨0, .nil, 0⟩, s)
  else if ← rNull b.subtree then
    let t ← joined a.subtree
    let s ← setRight b.subtree t
    return (⟨0, .nil, 0⟩, ⟨b.freq + a.freq, s, 0⟩, s)
  else
    let s := Tree.node a.subtree b.subtree 0
    return (⟨a.freq + b.freq, s, a.byte⟩, ⟨0, .nil, b.byte⟩, s)

/-- The body of the loop of `kryptos_huffman_mk_tree` (src/kryptos_huffman.c:352-395). -/
def mkStep (n : Nat) (s : List Freq × Tree) : Out (List Freq × Tree) := do
  let a ← rd s.1 n
  let b ← rd s.1 (n + 1)
  if a.freq > 0 ∧ b.freq > 0 then
    let (a', b', h) ← join a b
    let t ← wr s.1 n a'
    let t ← wr t (n + 1) b'
    let t ← sortNodes t
    return (t, h)
  else
    return s

/-- `kryptos_huffman_mk_tree` (src/kryptos_huffman.c:340-398). -/
def mkTree (t : List Freq) : Out Tree := do
  let (_, h) ← forLoop mkStep 255 0 (t.map mkLeaf, .nil)
  return h

/-! ## The codes -/

/-- A table of codes: `none` when `data_size` is 0.  A code with `data_size` n holds its n characters followed by zeros up to 255
(src/kryptos_huffman.c:53-56, 445-447). -/
abbrev Codes := List (Option Bytes)

/-- `data` of a code. -/
def codeData (c : Bytes) : Bytes := c ++ List.replicate (maxCode - c.length) 0

/-- `kryptos_huffman_scan_codes` (src/kryptos_huffman.c:432-460); `path` is what `path_buff` holds below `path_index`, so that its writes
leave the array when the index is 255. -/
def scan : Tree → Bytes → Codes → Out Codes
  | .nil, _, _ => .ub
  | .node l r byte, path, codes =>
    if path.length > maxCode then .ok codes
    else if l = .nil ∧ r = .nil then wr codes byte.toNat (if path.length = 0 then none else some path)
    else do
      let codes ← if l = .nil then .ok codes else if path.length < maxCode then scan l (path ++ [0x30#8]) codes else .ub
      if r = .nil then .ok codes else if path.length < maxCode then scan r (path ++ [0x31#8]) codes else .ub

/-- `kryptos_huffman_get_codes` (src/kryptos_huffman.c:422-430). -/
def getCodes (t : Tree) : Out Codes := scan t [] (List.replicate 256 none)

/-- The code of a byte (undefined when it has none: its characters are not initialised). -/
def codeOf (codes : Codes) (b : Byte) : Out Bytes := do
  match ← rd codes b.toNat with
  | none => .ub
  | some c => .ok c

/-- `data_size` of an entry. -/
def sizeOf (c : Option Bytes) : Nat := match c with
  | none => 0
  | some c => c.length

/-- `kryptos_huffman_eval_deflated_out_size` (src/kryptos_huffman.c:462-488).  The sum over the frequencies is taken over the input,
and the sizes are not reduced modulo 2^64. -/
def deflatedSize (codes : Codes) (inp : Bytes) : Out Nat := do
  let t ← inp.foldlM (fun t b => do return t + sizeOf (← rd codes b.toNat)) (2 + 8)
  return (t + 7) / 8 * 8 + (codes.map fun c => if sizeOf c = 0 then 0 else 1 + sizeOf c).sum

/-! ## Deflating -/

/-- Writing bytes at the end of what was written of a buffer with `cap` bytes. -/
def push (cap : Nat) (out bs : Bytes) : Out Bytes :=
  if out.length + bs.length ≤ cap then .ok (out ++ bs) else .ub

/-- The body of the loop of `kryptos_huffman_dump_tree` (src/kryptos_huffman.c:494-503); the test of lines 495-498 is implied by the
checked writes. -/
def dumpEntry (cap c : Nat) (e : Option Bytes) (out : Bytes) : Out Bytes := match e with
  | none => .ok out
  | some e => push cap out (e ++ [BitVec.ofNat 8 c])

/-- The loop of `kryptos_huffman_dump_tree` (src/kryptos_huffman.c:493-504). -/
def dumpLoop (cap : Nat) : Nat → Codes → Bytes → Out Bytes
  | _, [], out => .ok out
  | c, e :: es, out => do
    let out ← dumpEntry cap c e out
    dumpLoop cap (c + 1) es out

/-- `kryptos_huffman_dump_tree` (src/kryptos_huffman.c:490-509). -/
def dumpTree (cap : Nat) (codes : Codes) (out : Bytes) : Out Bytes := do
  let out ← dumpLoop cap 0 codes out
  push cap out [0, 0]

/-- The eight bytes of `in_size` in memory (src/kryptos_huffman.c:184). -/
def sizeBytes (n : Nat) : Bytes := (List.range 8).map fun i => BitVec.ofNat 8 (n / 256 ^ i)

/-- `kryptos_huffman_get_code_bit` (src/kryptos_huffman.c:40). -/
def codeBit (c : Byte) : Byte := (c - 48) &&& 1

/-- Eight characters of `bitbuf` as a byte (src/kryptos_huffman.c:207-214, 245-252). -/
def packByte (buf : Bytes) (p : Nat) : Out Byte := do
  let b0 ← rd buf p
  let b1 ← rd buf (p + 1)
  let b2 ← rd buf (p + 2)
  let b3 ← rd buf (p + 3)
  let b4 ← rd buf (p + 4)
  let b5 ← rd buf (p + 5)
  let b6 ← rd buf (p + 6)
  let b7 ← rd buf (p + 7)
  return codeBit b0 <<< 7 ||| codeBit b1 <<< 6 ||| codeBit b2 <<< 5 ||| codeBit b3 <<< 4 ||| codeBit b4 <<< 3 ||| codeBit b5 <<< 2 |||
    codeBit b6 <<< 1 ||| codeBit b7

/-- The packing loops (src/kryptos_huffman.c:206-217, 244-255): `n` bytes from the place `p`. -/
def packLoop (cap : Nat) (buf : Bytes) : Nat → Nat → Bytes → Out Bytes
  | 0, _, out => .ok out
  | n + 1, p, out => do
    let b ← packByte buf p
    let out ← push cap out [b]
    packLoop cap buf n (p + 8) out

/-- Where the deflating loop stands: the buffer of characters, the place in it, the output. -/
structure St where
  buf : Bytes
  pos : Nat
  out : Bytes
  deriving Repr, DecidableEq

/-- A fresh `bitbuf` (src/kryptos_huffman.c:190, 219). -/
def freshBuf : Bytes := List.replicate 1024 0x30#8

/-- Filling up the buffer with a code (src/kryptos_huffman.c:198-202): the buffer, the place and what is left of the code. -/
def fill (buf : Bytes) (pos : Nat) : Bytes → Out (Bytes × Nat × Bytes)
  | [] => if pos = 1024 then .ok (buf, pos, []) else .ub
  | c :: cs =>
    if pos = 1024 ∨ c = 0 then .ok (buf, pos, c :: cs) else do
      let buf ← wr buf pos c
      fill buf (pos + 1) cs

/-- The rest of the code goes to the beginning of the fresh buffer (src/kryptos_huffman.c:223-227). -/
def carry (buf : Bytes) (pos : Nat) : Bytes → Out (Bytes × Nat)
  | [] => .ub
  | c :: cs => if c = 0 then .ok (buf, pos) else do
    let buf ← wr buf pos c
    carry buf (pos + 1) cs

/-- Copying a code into the buffer (src/kryptos_huffman.c:236-237). -/
def copyCode (s : St) (code : Bytes) : Out St :=
  if s.pos + code.length ≤ s.buf.length then
    .ok ⟨s.buf.take s.pos ++ code ++ s.buf.drop (s.pos + code.length), s.pos + code.length, s.out⟩
  else .ub

/-- Spilling the full buffer (src/kryptos_huffman.c:196-227). -/
def spill (cap : Nat) (s : St) (code : Bytes) : Out St := do
  let (buf, _, rest) ← fill s.buf s.pos (codeData code)
  let out ← packLoop cap buf 128 0 s.out
  let (buf, pos) ← carry freshBuf 0 rest
  return ⟨buf, pos, out⟩

/-- The loop over the input (src/kryptos_huffman.c:194-239). -/
def encLoop (cap : Nat) (codes : Codes) : Bytes → St → Out St
  | [], s => .ok s
  | b :: bs, s => do
    let code ← codeOf codes b
    if s.pos + code.length ≥ 1024 then
      let s ← spill cap s code
      match bs with
      | [] => return s
      | b' :: bs' =>
        let code' ← codeOf codes b'
        let s ← copyCode s code'
        encLoop cap codes bs' s
    else
      let s ← copyCode s code
      encLoop cap codes bs s

/-- The rest of the buffer (src/kryptos_huffman.c:241-256): one byte for every eight characters begun, and one more when the number of
characters is a multiple of eight. -/
def flush (cap : Nat) (s : St) : Out Bytes :=
  if s.pos = 0 then .ok s.out else packLoop cap s.buf (s.pos / 8 + 1) 0 s.out

/-- The body of `kryptos_huffman_deflate` once there is a tree (src/kryptos_huffman.c:170-258). -/
def deflateWith (h : Tree) (inp : Bytes) : Out Bytes := do
  let codes ← getCodes h
  let cap ← deflatedSize codes inp
  let out ← dumpTree cap codes []
  let out ← push cap out (sizeBytes inp.length)
  let s ← encLoop cap codes inp ⟨freshBuf, 0, out⟩
  flush cap s

/-- `kryptos_huffman_deflate` (src/kryptos_huffman.c:143-277); `none` is `NULL`. -/
def deflate (inp : Bytes) : Out (Option Bytes) := do
  if inp.length = 0 then return none
  let t ← counts inp
  let t ← sortNodes t
  match ← mkTree t with
  | .nil => return none
  | h => do
    let out ← deflateWith h inp
    return some out

/-! ## Inflating -/

/-- `kryptos_huffman_new_tree` where there is none (src/kryptos_huffman.c:518-520). -/
def fresh : Tree → Tree × Tree × Byte
  | .nil => (.nil, .nil, 0)
  | .node l r b => (l, r, b)

/-- `kryptos_huffman_add_node` (src/kryptos_huffman.c:511-531), on what is left of the input; the bytes are read before the end is
tested. -/
def addNode : Tree → Bytes → Out (Tree × Bytes)
  | _, [] => .ub
  | t, b :: s =>
    let (l, r, byte) := fresh t
    if b = 0 then match s with
      | [] => .ub
      | c :: _ => if c = 0 then .ok (t, b :: s) else .ok (.node l r 0, s)
    else if b = 0x30 then do
      let (l, s) ← addNode l s
      return (.node l r byte, s)
    else if b = 0x31 then do
      let (r, s) ← addNode r s
      return (.node l r byte, s)
    else .ok (.node l r b, s)

/-- The loop of `kryptos_huffman_rebuild_tree` (src/kryptos_huffman.c:539-541), at most `fuel` times; every call moves on in the input
(`addNode_shorter`). -/
def rebuildLoop : Nat → Tree → Bytes → Out (Tree × Bytes)
  | 0, _, _ => .ub
  | fuel + 1, t, s => match s with
    | [] => .ok (t, [])
    | [b] => if b = 0 then .ub else do
      let (t, s) ← addNode t [b]
      rebuildLoop fuel t s
    | b :: c :: s' => if b = 0 ∧ c = 0 then .ok (t, b :: c :: s') else do
      let (t, s) ← addNode t (b :: c :: s')
      rebuildLoop fuel t s

/-- `kryptos_huffman_rebuild_tree` (src/kryptos_huffman.c:533-544): the tree and what follows the two zeros (undefined to use when there
are none). -/
def rebuild (inp : Bytes) : Out (Tree × Bytes) := do
  let (t, s) ← rebuildLoop (inp.length + 1) .nil inp
  match s with
  | _ :: _ :: s => return (t, s)
  | _ => .ub

/-- The number in eight bytes of memory. -/
def sizeOfBytes (s : Bytes) : Nat := s.foldr (fun b n => b.toNat + 256 * n) 0

/-- Following one bit (src/kryptos_huffman.c:117-127): the place in the tree and what is written. -/
def decBit (h tp : Tree) (one : Bool) : Out (Tree × Bytes) := do
  let tp ← if one then tp.right else tp.left
  match tp with
  | .nil => .ub
  | .node .nil .nil b => return (h, [b])
  | tp => return (tp, [])

/-- The loop over the bits of a byte (src/kryptos_huffman.c:116-128); `n` is `*out_size`. -/
def decBits (cap n : Nat) (h : Tree) : List Bool → Tree → Bytes → Out (Tree × Bytes)
  | [], tp, out => .ok (tp, out)
  | b :: bs, tp, out =>
    if out.length = n then .ok (tp, out) else do
      let (tp, w) ← decBit h tp b
      let out ← push cap out w
      decBits cap n h bs tp out

/-- The bits of a byte, the highest first. -/
def bitsOf (b : Byte) : List Bool := [b.getLsbD 7, b.getLsbD 6, b.getLsbD 5, b.getLsbD 4, b.getLsbD 3, b.getLsbD 2, b.getLsbD 1, b.getLsbD 0]

/-- The loop over the input (src/kryptos_huffman.c:115-130). -/
def decLoop (cap n : Nat) (h : Tree) : Bytes → Tree → Bytes → Out Bytes
  | [], _, out => .ok out
  | b :: bs, tp, out =>
    if out.length = n then .ok out else do
      let (tp, out) ← decBits cap n h (bitsOf b) tp out
      decLoop cap n h bs tp out

/-- `kryptos_huffman_inflate` (src/kryptos_huffman.c:86-141) with a pointer for the size: what it returns, with `*out_size` bytes. -/
def inflate (inp : Bytes) : Out Bytes := do
  let (h, s) ← rebuild inp
  if s.length < 8 then .ub
  else do
    let n := sizeOfBytes (s.take 8)
    let out ← decLoop ((n + 1) % 2 ^ 64) n h (s.drop 8) h []
    return out ++ List.replicate (n - out.length) 0

end Kryptos.Huffman
