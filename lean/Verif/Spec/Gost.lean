import Verif.Base
/-
  GOST 28147-89 in the electronic codebook mode, after RFC 5830, sections 4 and 5.1, on the contents of the registers N1 and N2.
-/
namespace Kryptos.Spec.Gost

/-- The substitution: the four-bit part `i` of the word is replaced by its entry in the node `i`, the lowest one first. -/
def subst (T : List (List Nat)) (x : W32) : W32 :=
  BitVec.ofNat 32 (((List.range 8).map fun i => (T.getD i []).getD (x.toNat / 16 ^ i % 16) 0 * 16 ^ i).foldl (· + ·) 0)

/-- The sum modulo 2^32 with a word of the key, the substitution and the cyclic shift by eleven bits to the highest bit. -/
def f (T : List (List Nat)) (x k : W32) : W32 := (subst T (x + k)).rotateLeft 11

/-- The words of the key in the thirty-two cycles. -/
def order : List Nat := [0, 1, 2, 3, 4, 5, 6, 7] ++ [0, 1, 2, 3, 4, 5, 6, 7] ++ [0, 1, 2, 3, 4, 5, 6, 7] ++ [7, 6, 5, 4, 3, 2, 1, 0]

/-- A cycle on `(N1, N2)`. -/
def cycle (T : List (List Nat)) (s : W32 × W32) (k : W32) : W32 × W32 := (s.2 ^^^ f T s.1 k, s.1)

/-- Thirty-one cycles; in the last one `N1` is kept and the sum goes to `N2`. -/
def crypt (T : List (List Nat)) (ks : List W32) (s : W32 × W32) : W32 × W32 :=
  let s := (ks.take 31).foldl (cycle T) s
  (s.1, s.2 ^^^ f T s.1 (ks.getD 31 0))

def encrypt (T : List (List Nat)) (X : List W32) : W32 × W32 → W32 × W32 := crypt T (order.map fun i => X.getD i 0)
/-- Decryption takes the words of the key in the reverse order. -/
def decrypt (T : List (List Nat)) (X : List W32) : W32 × W32 → W32 × W32 := crypt T ((order.map fun i => X.getD i 0).reverse)

end Kryptos.Spec.Gost
