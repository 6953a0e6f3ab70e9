import Verif.Words
import Verif.Model.Endian
import Verif.Model.KeyLoad
/-
  Model of src/kryptos_rabbit.c.  The square of `kryptos_rabbit_g` is a product of two values of type `long` (the constant
  0x100000000 has this type on a 64-bit machine), so it may overflow; the parameter `wrap` says whether the compiler
  gives such a product its two's complement value (`true`) or the behaviour is undefined (`false`).
-/
namespace Kryptos.Rabbit

/-- The product of two non-negative values of type `long`. -/
def mulLong (wrap : Bool) (a b : W64) : Out W64 :=
  if wrap = true ∨ a.toNat * b.toNat < 2 ^ 63 then .ok (a * b) else .ub

/-- `kryptos_rabbit_square` (src/kryptos_rabbit.c:35); the sum is computed on 32 bits and then converted. -/
def square (wrap : Bool) (u v : W32) : Out W64 :=
  mulLong wrap ((u + v).setWidth 64 % 0x100000000#64) ((u + v).setWidth 64 % 0x100000000#64)

/-- `kryptos_rabbit_g` (src/kryptos_rabbit.c:37-38), stored in 32 bits; `>>` on a `long` repeats the sign. -/
def g (wrap : Bool) (u v : W32) : Out W32 := do
  let l ← square wrap u v
  let m ← square wrap u v
  return ((l &&& 0xFFFFFFFF#64) ^^^ m.sshiftRight 32).setWidth 32

/-- `kryptos_rabbit_rol` (src/kryptos_rabbit.c:28). -/
def rol (x : W32) (s : Nat) : W32 := (x <<< s) ||| (x >>> (32 - s))

/-- `struct kryptos_rabbit_keystream` (src/kryptos_rabbit.c:66-74). -/
structure St where
  X : Eight 32
  C : Eight 32
  b : Bool
  deriving DecidableEq

/-- `kryptos_rabbit_ctr_system_update_round` (src/kryptos_rabbit.c:345-349) on the counter `c`: the new value and `b`. -/
def ctrRound (c a : W32) (b : Bool) : W32 × Bool :=
  let temp := c + a + (if b then 1 else 0)
  (temp, decide (temp < c))

/-- `kryptos_rabbit_ctr_system` (src/kryptos_rabbit.c:336-364) with the constants of lines 17-24. -/
def ctrSystem (s : St) : St :=
  let r0 := ctrRound s.C.a 0x4D34D34D#32 s.b
  let r1 := ctrRound s.C.b 0xD34D34D3#32 r0.2
  let r2 := ctrRound s.C.c 0x34D34D34#32 r1.2
  let r3 := ctrRound s.C.d 0x4D34D34D#32 r2.2
  let r4 := ctrRound s.C.e 0xD34D34D3#32 r3.2
  let r5 := ctrRound s.C.f 0x34D34D34#32 r4.2
  let r6 := ctrRound s.C.g 0x4D34D34D#32 r5.2
  let r7 := ctrRound s.C.h 0xD34D34D3#32 r6.2
  ⟨s.X, ⟨r0.1, r1.1, r2.1, r3.1, r4.1, r5.1, r6.1, r7.1⟩, r7.2⟩

/-- The new `X` of `kryptos_rabbit_nxt_state_func` (src/kryptos_rabbit.c:378-385). -/
def mix (G0 G1 G2 G3 G4 G5 G6 G7 : W32) : Eight 32 :=
  ⟨G0 + rol G7 16 + rol G6 16,
   G1 + rol G0 8 + G7,
   G2 + rol G1 16 + rol G0 16,
   G3 + rol G2 8 + G1,
   G4 + rol G3 16 + rol G2 16,
   G5 + rol G4 8 + G3,
   G6 + rol G5 16 + rol G4 16,
   G7 + rol G6 8 + G5⟩

/-- `kryptos_rabbit_nxt_state_func` (src/kryptos_rabbit.c:366-388). -/
def nxtState (wrap : Bool) (s : St) : Out St := do
  let G0 ← g wrap s.X.a s.C.a
  let G1 ← g wrap s.X.b s.C.b
  let G2 ← g wrap s.X.c s.C.c
  let G3 ← g wrap s.X.d s.C.d
  let G4 ← g wrap s.X.e s.C.e
  let G5 ← g wrap s.X.f s.C.f
  let G6 ← g wrap s.X.g s.C.g
  let G7 ← g wrap s.X.h s.C.h
  return { s with X := mix G0 G1 G2 G3 G4 G5 G6 G7 }

/-- `kryptos_rabbit_iter` (src/kryptos_rabbit.c:40-43). -/
def iter (wrap : Bool) (s : St) : Out St := nxtState wrap (ctrSystem s)

/-- One 16-bit half of an output word: the four terms of src/kryptos_rabbit.c:47-50 all have this form. -/
def lo (x : W32) : W64 := (x &&& 0xFFFF#32).setWidth 64
def hi (x : W32) : W64 := ((x >>> 16) &&& 0xFFFF#32).setWidth 64

/-- `S[1]` and `S[0]` of `kryptos_rabbit_extract` (src/kryptos_rabbit.c:47-54), `S[1]` first, from the state after the iteration
of line 46.  The terms are widened before instead of after the exclusive or. -/
def extractS (s : St) : W64 × W64 :=
  (((lo s.X.a ^^^ hi s.X.f) <<< 0) ||| ((hi s.X.a ^^^ lo s.X.d) <<< 16) |||
     ((lo s.X.c ^^^ hi s.X.h) <<< 32) ||| ((hi s.X.c ^^^ lo s.X.f) <<< 48),
   ((lo s.X.e ^^^ hi s.X.b) <<< 0) ||| ((hi s.X.e ^^^ lo s.X.h) <<< 16) |||
     ((lo s.X.g ^^^ hi s.X.d) <<< 32) ||| ((hi s.X.g ^^^ lo s.X.b) <<< 48))

/-- `kryptos_rabbit_rev64` (src/kryptos_rabbit.c:57-64). -/
def rrev64 (w : W64) : W64 :=
  (w >>> 56) ||| ((w >>> 40) &&& 0xFF00#64) ||| ((w >>> 24) &&& 0xFF0000#64) ||| ((w >>> 8) &&& 0xFF000000#64) |||
  ((w <<< 8) &&& 0xFF00000000#64) ||| ((w <<< 24) &&& 0xFF0000000000#64) ||| ((w <<< 40) &&& 0xFF000000000000#64) |||
  (w <<< 56)

/-- `kryptos_rabbit_xor` (src/kryptos_rabbit.c:390-405): the new block and state. -/
def xorBlock (wrap : Bool) (block : Bytes) (s : St) : Out (Bytes × St) := do
  let b0 := rrev64 (← getBe64 block 8)
  let b1 := rrev64 (← getBe64 block 0)
  let s ← iter wrap s
  let S := extractS s
  let b0 := b0 ^^^ S.2
  let b1 := b1 ^^^ S.1
  return (putBe64 (rrev64 b1) ++ putBe64 (rrev64 b0), s)

/-- `kryptos_rabbit_ld_user_key` (src/kryptos_rabbit.c:166-230) for a key that is not `NULL`: the key backwards, loaded, and the
words backwards (memory never runs out here). -/
def ldKey (key : Bytes) : List W16 := (KeyLoad.ldUserKey 2 8 key.reverse).reverse

/-- `kryptos_rabbit_init_state_round` (src/kryptos_rabbit.c:247-255) for `j`: `X[j]`, `C[j]`. -/
def initRound (K : List W16) (j : Nat) : Out (W32 × W32) := do
  let cat (a b : W16) : W32 := (a.setWidth 32 <<< 16) ||| b.setWidth 32
  if j &&& 1 = 0 then
    return (cat (← rd K ((j + 1) &&& 7)) (← rd K j), cat (← rd K ((j + 4) &&& 7)) (← rd K ((j + 5) &&& 7)))
  else
    return (cat (← rd K ((j + 5) &&& 7)) (← rd K ((j + 4) &&& 7)), cat (← rd K j) (← rd K ((j + 1) &&& 7)))

/-- The expansion of the key into the state (src/kryptos_rabbit.c:245-264). -/
def initState (K : List W16) : Out St := do
  let p0 ← initRound K 0
  let p1 ← initRound K 1
  let p2 ← initRound K 2
  let p3 ← initRound K 3
  let p4 ← initRound K 4
  let p5 ← initRound K 5
  let p6 ← initRound K 6
  let p7 ← initRound K 7
  return ⟨⟨p0.1, p1.1, p2.1, p3.1, p4.1, p5.1, p6.1, p7.1⟩, ⟨p0.2, p1.2, p2.2, p3.2, p4.2, p5.2, p6.2, p7.2⟩, false⟩

/-- Four iterations (src/kryptos_rabbit.c:271-274, 321-324). -/
def iter4 (wrap : Bool) (s : St) : Out St := do
  let s ← iter wrap s
  let s ← iter wrap s
  let s ← iter wrap s
  iter wrap s

/-- `kryptos_rabbit_reinit_ctr_regs` for 0..7 (src/kryptos_rabbit.c:276-287). -/
def reinit (s : St) : St :=
  { s with C := ⟨s.C.a ^^^ s.X.e, s.C.b ^^^ s.X.f, s.C.c ^^^ s.X.g, s.C.d ^^^ s.X.h,
                 s.C.e ^^^ s.X.a, s.C.f ^^^ s.X.b, s.C.g ^^^ s.X.c, s.C.h ^^^ s.X.d⟩ }

/-- The 64 bits of the initialization vector (src/kryptos_rabbit.c:291-298). -/
def ivWord (iv : Bytes) : Out W64 := do
  return ((← rd iv 7).setWidth 64 <<< 56) ||| ((← rd iv 6).setWidth 64 <<< 48) ||| ((← rd iv 5).setWidth 64 <<< 40) |||
    ((← rd iv 4).setWidth 64 <<< 32) ||| ((← rd iv 3).setWidth 64 <<< 24) ||| ((← rd iv 2).setWidth 64 <<< 16) |||
    ((← rd iv 1).setWidth 64 <<< 8) ||| (← rd iv 0).setWidth 64

/-- The exclusive or with the initialization vector (src/kryptos_rabbit.c:300-312). -/
def ivXor (v : W64) (s : St) : St :=
  let i0 : W32 := (v &&& 0x00000000FFFFFFFF#64).setWidth 32
  let i1 : W32 := (((v >>> 48) <<< 16) ||| ((v >>> 16) &&& 0xFFFF#64)).setWidth 32
  let i2 : W32 := (v >>> 32).setWidth 32
  let i3 : W32 := ((((v >>> 32) &&& 0xFFFF#64) <<< 16) ||| (v &&& 0xFFFF#64)).setWidth 32
  { s with C := ⟨s.C.a ^^^ i0, s.C.b ^^^ i1, s.C.c ^^^ i2, s.C.d ^^^ i3,
                 s.C.e ^^^ i0, s.C.f ^^^ i1, s.C.g ^^^ i2, s.C.h ^^^ i3⟩ }

/-- `kryptos_rabbit_key_setup` (src/kryptos_rabbit.c:233-334); `iv = none` is a `NULL` pointer, on which the code tests only this. -/
def keySetup (wrap : Bool) (key : Bytes) (iv : Option Bytes) : Out St := do
  let s ← initState (ldKey key)
  let s ← iter4 wrap s
  let s := reinit s
  match iv with
  | none => return s
  | some iv => do
    let v ← ivWord iv
    iter4 wrap (ivXor v s)

/-- The loop of src/kryptos_rabbit.c:143-152: `blk` is `outblock`, `o` the bytes of it that are filled; the result is what was
copied to the output. -/
def loop (wrap : Bool) : Bytes → Bytes → Nat → St → Out Bytes
  | [], _, _, _ => .ok []
  | c :: inp, blk, o, s => do
    let blk ← wr blk o c
    if o + 1 = 16 ∨ inp = [] then
      let (blk, s) ← xorBlock wrap blk s
      let out ← loop wrap inp blk 0 s
      return blk.take (o + 1) ++ out
    else loop wrap inp blk (o + 1) s

/-- `kryptos_rabbit_cipher` (src/kryptos_rabbit.c:117-164): the output for the given key, initialization vector and input; the
result is always `kKryptosSuccess`, nothing being checked.  `stale` is the content of the uninitialised `outblock`.  The copy
of a block to `out_p` stays inside the output because blocks before the last are whole; memory exhaustion is not modelled. -/
def cipher (wrap : Bool) (stale key : Bytes) (iv : Option Bytes) (inp : Bytes) : Out Bytes := do
  let s ← keySetup wrap key iv
  loop wrap inp stale 0 s

end Kryptos.Rabbit
