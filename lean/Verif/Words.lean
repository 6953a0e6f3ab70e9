import Verif.Base
/-
  Plain records of machine words (C: arrays `state[5]`, `state[8]`, or the local variables
  `a, b, ...` of a compression function).  Only the types are shared between models and
  specifications; no operation is defined here except the listing of the fields.
-/
namespace Kryptos

structure Three (w : Nat) where
  (a b c : BitVec w)
  deriving DecidableEq

structure Four (w : Nat) where
  (a b c d : BitVec w)
  deriving DecidableEq

structure Five (w : Nat) where
  (a b c d e : BitVec w)
  deriving DecidableEq

structure Eight (w : Nat) where
  (a b c d e f g h : BitVec w)
  deriving DecidableEq

def Three.words {w : Nat} (s : Three w) : List (BitVec w) := [s.a, s.b, s.c]
def Four.words {w : Nat} (s : Four w) : List (BitVec w) := [s.a, s.b, s.c, s.d]
def Five.words {w : Nat} (s : Five w) : List (BitVec w) := [s.a, s.b, s.c, s.d, s.e]
def Eight.words {w : Nat} (s : Eight w) : List (BitVec w) :=
  [s.a, s.b, s.c, s.d, s.e, s.f, s.g, s.h]

end Kryptos
