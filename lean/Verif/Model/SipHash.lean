import Verif.Model.Endian
/-
  Model of src/kryptos_siphash.c.
-/
namespace Kryptos.SipHash

/-- `kryptos_siphash_rotl` on 64-bit words (src/kryptos_siphash.c:16). -/
def rotl (v : W64) (l : Nat) : W64 := (v <<< l) ||| (v >>> (64 - l))

/-- The array `v`. -/
structure V where
  v0 : W64
  v1 : W64
  v2 : W64
  v3 : W64
  deriving Repr, DecidableEq

/-- `kryptos_sipround` (src/kryptos_siphash.c:18-33). -/
def sipround (s : V) : V :=
  let ⟨v0, v1, v2, v3⟩ := s
  let v0 := v0 + v1
  let v2 := v2 + v3
  let v1 := rotl v1 13
  let v3 := rotl v3 16
  let v1 := v1 ^^^ v0
  let v3 := v3 ^^^ v2
  let v0 := rotl v0 32
  let v2 := v2 + v1
  let v0 := v0 + v3
  let v1 := rotl v1 17
  let v3 := rotl v3 21
  let v1 := v1 ^^^ v2
  let v3 := v3 ^^^ v0
  let v2 := rotl v2 32
  ⟨v0, v1, v2, v3⟩

/-- `for (i = 0; i < n; i++) { kryptos_sipround(...) }` (src/kryptos_siphash.c:273-275, 282-284, 298-300). -/
def rounds : Nat → V → V
  | 0, s => s
  | n + 1, s => rounds n (sipround s)

/-- The inner loop of `kryptos_siphash_get_next_message_chunk` (src/kryptos_siphash.c:259-263): the bytes
are or-ed into `m`, starting at position `mi`. -/
def orBytes : Bytes → Nat → W64 → W64
  | [], _, m => m
  | b :: l, mi, m => orBytes l (mi + 1) (m ||| ((b.setWidth 64 : W64) <<< (mi <<< 3)))

/-- The loop loading the key (src/kryptos_siphash.c:232-242) on the state `(k, cwp, i)`; writing
beyond `k[1]` is undefined. -/
def keyLoop : Bytes → List W64 → Nat → Nat → Out (List W64)
  | [], k, _, _ => .ok k
  | b :: l, k, cw, i => do
    let x ← rd k cw
    let k ← wr k cw (x ||| ((b.setWidth 64 : W64) <<< (i <<< 3)))
    let i := (i + 1) % 8
    keyLoop l k (cw + if i % 8 = 0 then 1 else 0) i

/-- Absorption of a word (src/kryptos_siphash.c:270-277). -/
def absorb (c : Nat) (s : V) (m : W64) : V :=
  let s := { s with v3 := s.v3 ^^^ m }
  let s := rounds c s
  { s with v0 := s.v0 ^^^ m }

/-- The loop over the message (src/kryptos_siphash.c:266-278); `rem` is what lies between `up` and
`up_end`, `size` is `message_size`. -/
def msgLoop (c size : Nat) (rem : Bytes) (s : V) : V :=
  if _h : rem = [] then s
  else
    let m : W64 := if rem.length < 8 then BitVec.ofNat 64 (size % 256) <<< 56 else 0
    msgLoop c size (rem.drop 8) (absorb c s (orBytes (rem.take 8) 0 m))
termination_by rem.length
decreasing_by
  have := List.length_pos_iff.mpr _h
  rw [List.length_drop]
  omega

/-- `kryptos_do_siphash` (src/kryptos_siphash.c:215-314); `key` is the memory the key pointer designates, of
which `keySize` bytes are read. -/
def doSiphash (message key : Bytes) (keySize c d : Nat) : Out W64 :=
  if key.length < keySize then .ub
  else do
    let k ← keyLoop (key.take keySize) [0, 0] 0 0
    let k0 ← rd k 0
    let k1 ← rd k 1
    let s : V := ⟨0x736F6D6570736575#64 ^^^ k0, 0x646F72616E646F6D#64 ^^^ k1, 0x6C7967656E657261#64 ^^^ k0,
      0x7465646279746573#64 ^^^ k1⟩
    let s := msgLoop c message.length message s
    let s := if message.length % 8 = 0 then absorb c s (BitVec.ofNat 64 (message.length % 256) <<< 56) else s
    let s := { s with v2 := s.v2 ^^^ 0xFF#64 }
    let s := rounds d s
    return s.v0 ^^^ s.v1 ^^^ s.v2 ^^^ s.v3

/-- The loop folding a long key (src/kryptos_siphash.c:66-73, 193-200). -/
def foldLoop : Bytes → Bytes → Nat → Out Bytes
  | [], key, _ => .ok key
  | b :: l, key, k => do
    let x ← rd key k
    let key ← wr key k (x ^^^ b)
    foldLoop l key ((k + 1) % 16)

/-- The key of the task expanded to 16 bytes (src/kryptos_siphash.c:57-74); the key size is the length. -/
def expandKey (key : Bytes) : Out Bytes :=
  if key.length ≤ 16 then .ok (key ++ List.replicate (16 - key.length) 0)
  else foldLoop (key.drop 16) (key.take 16) 0

/-- The fields of `kryptos_task_ctx` in use (`none`: NULL). -/
structure Task where
  action : Action
  key : Option Bytes
  inp : Option Bytes
  out : Option Bytes
  result : TaskResult
  deriving DecidableEq

/-- `kryptos_siphash` (src/kryptos_siphash.c:49-170).  Memory exhaustion is not modelled. -/
def siphash (t : Task) (c d : Nat) : Out Task :=
  match t.key with
  | none => .ok { t with result := .keyError }
  | some key => do
    let ekey ← expandKey key
    match t.action with
    | .encrypt =>
      match t.out with
      | none => return { t with result := .siphashError }
      | some m =>
        if m = [] then return { t with result := .siphashError }
        else do
          let output ← doSiphash m ekey 16 c d
          return { t with out := some (putBe64 output ++ m), result := .success }
    | .decrypt =>
      match t.inp with
      | none => return { t with result := .siphashError }
      | some m =>
        if m.length ≤ 8 then return { t with result := .siphashError }
        else do
          let output ← doSiphash (m.drop 8) ekey 16 c d
          let tag ← getBe64 m 0
          if output ≠ tag then return { t with result := .siphashError }
          else return { t with inp := some (m.drop 8), result := .success }
    | _ => return { t with result := .noSupport }

/-- `kryptos_siphash_sum` (src/kryptos_siphash.c:172-212).  The expanded key `ekey` is computed but the call
passes `key`.  A NULL message with size zero is the empty message. -/
def siphashSum (message : Bytes) (key : Option Bytes) (c d : Nat) : Out W64 :=
  match key with
  | none => .ok 0
  | some key =>
    if c = 0 ∨ d = 0 ∨ key.length = 0 then .ok 0
    else do
      let _ekey ← expandKey key
      doSiphash message key 16 c d

end Kryptos.SipHash
