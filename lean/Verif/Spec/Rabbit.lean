import Verif.Base
/-
  The stream cipher Rabbit as published (M. Boesgaard et al., FSE 2003; RFC 4503): numbers, modulo 2^32 where it says so.
  Key, initialization vector and output block are numbers of 128, 64 and 128 bits; how octets become numbers is stated apart,
  since the eSTREAM submission and RFC 4503 differ in it.
-/
namespace Kryptos.Spec.Rabbit

/-- State variables, counters and carry bit. -/
structure State where
  X : Nat → Nat
  C : Nat → Nat
  φ : Nat

/-- The counter constants: the 96-bit pattern 4D34D34D D34D34D3 34D34D34 repeated. -/
def A (j : Nat) : Nat := if j % 3 = 0 then 0x4D34D34D else if j % 3 = 1 then 0xD34D34D3 else 0x34D34D34

/-- The carry into counter `j` during an update. -/
def carry (s : State) : Nat → Nat
  | 0 => s.φ
  | j + 1 => (s.C j + A j + carry s j) / 2 ^ 32

/-- Counter update (RFC 4503, 2.5). -/
def counters (s : State) : State := { s with C := fun j => (s.C j + A j + carry s j) % 2 ^ 32, φ := carry s 8 }

/-- g-function: the square of the sum modulo 2^32, its two halves combined (RFC 4503, 2.6). -/
def g (u v : Nat) : Nat :=
  let q := ((u + v) % 2 ^ 32) ^ 2
  Nat.xor (q % 2 ^ 32) (q / 2 ^ 32)

/-- Rotation of a 32-bit number to the left. -/
def rotl (x s : Nat) : Nat := x * 2 ^ s % 2 ^ 32 + x / 2 ^ (32 - s)

/-- Next-state function (RFC 4503, 2.6). -/
def next (s : State) : State :=
  let G (j : Nat) := g (s.X (j % 8)) (s.C (j % 8))
  { s with X := fun j =>
      if j % 2 = 0 then (G j + rotl (G (j + 7)) 16 + rotl (G (j + 6)) 16) % 2 ^ 32
      else (G j + rotl (G (j + 7)) 8 + G (j + 6)) % 2 ^ 32 }

/-- One iteration of the system. -/
def step (s : State) : State := next (counters s)

/-- Key expansion (RFC 4503, 2.3) of the 128-bit number `K`. -/
def expand (K : Nat) : State :=
  let k (j : Nat) := K / 2 ^ (16 * (j % 8)) % 2 ^ 16
  { X := fun j => if j % 2 = 0 then k (j + 1) * 2 ^ 16 + k j else k (j + 5) * 2 ^ 16 + k (j + 4)
    C := fun j => if j % 2 = 0 then k (j + 4) * 2 ^ 16 + k (j + 5) else k j * 2 ^ 16 + k (j + 1)
    φ := 0 }

/-- Counter modification at the end of the key setup (RFC 4503, 2.3). -/
def modify (s : State) : State := { s with C := fun j => Nat.xor (s.C j) (s.X ((j + 4) % 8)) }

/-- Key setup (RFC 4503, 2.3). -/
def setup (K : Nat) : State := modify (step (step (step (step (expand K)))))

/-- The counters combined with the 64-bit initialization vector `v` (RFC 4503, 2.4). -/
def mixIv (v : Nat) (s : State) : State :=
  let w (j : Nat) := v / 2 ^ (16 * j) % 2 ^ 16
  let i (j : Nat) :=
    if j % 4 = 0 then w 1 * 2 ^ 16 + w 0 else if j % 4 = 1 then w 3 * 2 ^ 16 + w 1
    else if j % 4 = 2 then w 3 * 2 ^ 16 + w 2 else w 2 * 2 ^ 16 + w 0
  { s with C := fun j => Nat.xor (s.C j) (i j) }

/-- Initialization vector setup (RFC 4503, 2.4). -/
def ivSetup (v : Nat) (s : State) : State := step (step (step (step (mixIv v s))))

/-- Extraction scheme (RFC 4503, 2.7): the 16-bit words of the 128-bit output, the lowest first. -/
def output (s : State) (i : Nat) : Nat :=
  let lo (j : Nat) := s.X j % 2 ^ 16
  let hi (j : Nat) := s.X j / 2 ^ 16
  match i with
  | 0 => Nat.xor (lo 0) (hi 5)
  | 1 => Nat.xor (hi 0) (lo 3)
  | 2 => Nat.xor (lo 2) (hi 7)
  | 3 => Nat.xor (hi 2) (lo 5)
  | 4 => Nat.xor (lo 4) (hi 1)
  | 5 => Nat.xor (hi 4) (lo 7)
  | 6 => Nat.xor (lo 6) (hi 3)
  | _ => Nat.xor (hi 6) (lo 1)

/-- The state before the first output. -/
def start (K : Nat) : Option Nat → State
  | none => setup K
  | some v => ivSetup v (setup K)

/-- `n` iterations. -/
def steps : Nat → State → State
  | 0, s => s
  | n + 1, s => step (steps n s)

/-- 16-bit word `i` (0 to 7, the lowest first) of the output block `n`. -/
def stream (K : Nat) (v : Option Nat) (n i : Nat) : Nat := output (steps (n + 1) (start K v)) i

end Kryptos.Spec.Rabbit
