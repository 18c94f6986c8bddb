set_option autoImplicit false
/-
Independent specification of 8086 arithmetic results and flags, in terms of integers.
Nothing here refers to the model.
-/
namespace RME

/-! Flag bits of the FLAGS word. -/
abbrev bCF : Nat := 0
abbrev bPF : Nat := 2
abbrev bAF : Nat := 4
abbrev bZF : Nat := 6
abbrev bSF : Nat := 7
abbrev bTF : Nat := 8
abbrev bIF : Nat := 9
abbrev bDF : Nat := 10
abbrev bOF : Nat := 11

/-- The low byte of `v` has an even number of ones. -/
def evenParity {n : Nat} (v : BitVec n) : Bool :=
  ((List.range 8).countP (fun i => v.getLsbD i)) % 2 == 0

/-- `x` is representable as an `n`-bit two's complement number. -/
def fitsSigned (n : Nat) (x : Int) : Bool :=
  decide (-(2 ^ (n - 1) : Int) ≤ x ∧ x < (2 ^ (n - 1) : Int))

/-- PF, ZF and SF describe the result `v`. -/
structure ResultFlags {n : Nat} (f : BitVec 16) (v : BitVec n) : Prop where
  pf : f.getLsbD bPF = evenParity v
  zf : f.getLsbD bZF = decide (v.toNat = 0)
  sf : f.getLsbD bSF = decide (v.toInt < 0)

/-- All bits of FLAGS outside `bits` are the same in `f` and `f'`. -/
def OnlyBits (bits : List Nat) (f f' : BitVec 16) : Prop :=
  ∀ i, i < 16 → i ∉ bits → f'.getLsbD i = f.getLsbD i

/-- The six arithmetic flags. -/
abbrev arithBits : List Nat := [bCF, bPF, bAF, bZF, bSF, bOF]

/-- `v = a + b + c` with flags `f'` (old flags `f`) as on the processor. -/
structure AddSpec {n : Nat} (a b : BitVec n) (c : Bool) (f : BitVec 16) (v : BitVec n) (f' : BitVec 16) :
    Prop where
  val : v.toNat = (a.toNat + b.toNat + c.toNat) % 2 ^ n
  cf : f'.getLsbD bCF = decide (2 ^ n ≤ a.toNat + b.toNat + c.toNat)
  of : f'.getLsbD bOF = !fitsSigned n (a.toInt + b.toInt + c.toNat)
  af : f'.getLsbD bAF = decide (16 ≤ a.toNat % 16 + b.toNat % 16 + c.toNat)
  res : ResultFlags f' v
  rest : OnlyBits arithBits f f'

/-- `v = a - b - c` with flags `f'` as on the processor. -/
structure SubSpec {n : Nat} (a b : BitVec n) (c : Bool) (f : BitVec 16) (v : BitVec n) (f' : BitVec 16) :
    Prop where
  val : (v.toNat : Int) = ((a.toNat : Int) - b.toNat - c.toNat) % 2 ^ n
  cf : f'.getLsbD bCF = decide (a.toNat < b.toNat + c.toNat)
  of : f'.getLsbD bOF = !fitsSigned n (a.toInt - b.toInt - c.toNat)
  af : f'.getLsbD bAF = decide (a.toNat % 16 < b.toNat % 16 + c.toNat)
  res : ResultFlags f' v
  rest : OnlyBits arithBits f f'

/-- `v` is the result of a bitwise operation given bit by bit by `op`; AF is kept. -/
structure LogicSpec {n : Nat} (op : Bool → Bool → Bool) (a b : BitVec n) (f : BitVec 16) (v : BitVec n)
    (f' : BitVec 16) : Prop where
  val : ∀ i, i < n → v.getLsbD i = op (a.getLsbD i) (b.getLsbD i)
  cf : f'.getLsbD bCF = false
  of : f'.getLsbD bOF = false
  res : ResultFlags f' v
  rest : OnlyBits [bCF, bPF, bZF, bSF, bOF] f f'

/-- `v = a + 1`; CF is kept. -/
structure IncSpec {n : Nat} (a : BitVec n) (f : BitVec 16) (v : BitVec n) (f' : BitVec 16) : Prop where
  val : v.toNat = (a.toNat + 1) % 2 ^ n
  of : f'.getLsbD bOF = !fitsSigned n (a.toInt + 1)
  af : f'.getLsbD bAF = decide (16 ≤ a.toNat % 16 + 1)
  res : ResultFlags f' v
  rest : OnlyBits [bPF, bAF, bZF, bSF, bOF] f f'

/-- `v = a - 1`; CF is kept. -/
structure DecSpec {n : Nat} (a : BitVec n) (f : BitVec 16) (v : BitVec n) (f' : BitVec 16) : Prop where
  val : (v.toNat : Int) = ((a.toNat : Int) - 1) % 2 ^ n
  of : f'.getLsbD bOF = !fitsSigned n (a.toInt - 1)
  af : f'.getLsbD bAF = decide (a.toNat % 16 < 1)
  res : ResultFlags f' v
  rest : OnlyBits [bPF, bAF, bZF, bSF, bOF] f f'

/-- `v = -a`: everything but AF. -/
structure NegSpec {n : Nat} (a : BitVec n) (f : BitVec 16) (v : BitVec n) (f' : BitVec 16) : Prop where
  val : (v.toNat : Int) = (-(a.toNat : Int)) % 2 ^ n
  cf : f'.getLsbD bCF = decide (a.toNat ≠ 0)
  of : f'.getLsbD bOF = decide (a.toInt = -(2 ^ (n - 1) : Int))
  res : ResultFlags f' v
  rest : OnlyBits arithBits f f'

/-- Unsigned double-width product `hi:lo = a * b`. -/
structure MulSpec {n : Nat} (a b : BitVec n) (f : BitVec 16) (lo hi : BitVec n) (f' : BitVec 16) :
    Prop where
  val : hi.toNat * 2 ^ n + lo.toNat = a.toNat * b.toNat
  cf : f'.getLsbD bCF = decide (hi.toNat ≠ 0)
  of : f'.getLsbD bOF = decide (hi.toNat ≠ 0)
  rest : OnlyBits [bCF, bPF, bZF, bSF, bOF] f f'

/-- Signed double-width product `hi:lo = a * b`; CF = OF = "does not fit into the low half". -/
structure ImulSpec {n : Nat} (a b : BitVec n) (f : BitVec 16) (lo hi : BitVec n) (f' : BitVec 16) :
    Prop where
  val : hi.toInt * 2 ^ n + lo.toNat = a.toInt * b.toInt
  cf : f'.getLsbD bCF = !fitsSigned n (a.toInt * b.toInt)
  of : f'.getLsbD bOF = !fitsSigned n (a.toInt * b.toInt)
  rest : OnlyBits [bCF, bPF, bZF, bSF, bOF] f f'

/-- Unsigned division: `num = q * d + r` with `r < d`. -/
structure DivSpec {n : Nat} (num : Nat) (d q r : BitVec n) : Prop where
  val : num = q.toNat * d.toNat + r.toNat
  rem : r.toNat < d.toNat

/-- Signed division, quotient rounded towards zero: `num = q * d + r` with `|r| < |d|` and a remainder
that is zero or has the sign of the dividend. -/
structure IdivSpec {n : Nat} (num : Int) (d q r : BitVec n) : Prop where
  val : num = q.toInt * d.toInt + r.toInt
  rem : r.toInt.natAbs < d.toInt.natAbs
  sign : r.toInt ≠ 0 → (r.toInt < 0 ↔ num < 0)

/-- Left shift by `c` places, `1 ≤ c`. -/
structure ShlSpec {n : Nat} (a : BitVec n) (c : Nat) (f : BitVec 16) (v : BitVec n) (f' : BitVec 16) :
    Prop where
  val : v.toNat = a.toNat * 2 ^ c % 2 ^ n
  cf : c ≤ n → f'.getLsbD bCF = a.getLsbD (n - c)
  of : c = 1 → f'.getLsbD bOF = (f'.getLsbD bCF ^^ v.getLsbD (n - 1))
  res : ResultFlags f' v
  rest : OnlyBits [bCF, bPF, bZF, bSF, bOF] f f'

/-- Unsigned right shift by `c` places, `1 ≤ c`. -/
structure ShrSpec {n : Nat} (a : BitVec n) (c : Nat) (f : BitVec 16) (v : BitVec n) (f' : BitVec 16) :
    Prop where
  val : v.toNat = a.toNat / 2 ^ c
  cf : c ≤ n → f'.getLsbD bCF = a.getLsbD (c - 1)
  of : c = 1 → f'.getLsbD bOF = a.getLsbD (n - 1)
  res : ResultFlags f' v
  rest : OnlyBits [bCF, bPF, bZF, bSF, bOF] f f'

/-- Signed right shift by `c` places, `1 ≤ c`: rounds towards minus infinity.  CF is the last bit
shifted out of the sign-extended operand. -/
structure SarSpec {n : Nat} (a : BitVec n) (c : Nat) (f : BitVec 16) (v : BitVec n) (f' : BitVec 16) :
    Prop where
  val : v.toInt = a.toInt / 2 ^ c
  cf : f'.getLsbD bCF = a.getLsbD (min (c - 1) (n - 1))
  of : c = 1 → f'.getLsbD bOF = false
  res : ResultFlags f' v
  rest : OnlyBits [bCF, bPF, bZF, bSF, bOF] f f'

/-- Left rotation by `c` places: bit `i` moves to bit `i + c` modulo `n`; CF is the bit that moved
from the top to the bottom; only CF and OF change. -/
structure RolSpec {n : Nat} (a : BitVec n) (c : Nat) (f : BitVec 16) (v : BitVec n) (f' : BitVec 16) :
    Prop where
  val : ∀ i, i < n → v.getLsbD ((i + c) % n) = a.getLsbD i
  cf : f'.getLsbD bCF = v.getLsbD 0
  of : c = 1 → f'.getLsbD bOF = (f'.getLsbD bCF ^^ v.getLsbD (n - 1))
  rest : OnlyBits [bCF, bOF] f f'

/-- Right rotation by `c` places: bit `(i + c)` modulo `n` moves to bit `i`. -/
structure RorSpec {n : Nat} (a : BitVec n) (c : Nat) (f : BitVec 16) (v : BitVec n) (f' : BitVec 16) :
    Prop where
  val : ∀ i, i < n → v.getLsbD i = a.getLsbD ((i + c) % n)
  cf : f'.getLsbD bCF = v.getLsbD (n - 1)
  of : c = 1 → f'.getLsbD bOF = (v.getLsbD (n - 1) ^^ v.getLsbD (n - 2))
  rest : OnlyBits [bCF, bOF] f f'

/-- Bit `i` of the `n+1`-bit word carry:operand. -/
def cbit {n : Nat} (c : Bool) (a : BitVec n) (i : Nat) : Bool := if i < n then a.getLsbD i else c

/-- Left rotation of the `n+1`-bit word CF:operand. -/
structure RclSpec {n : Nat} (a : BitVec n) (c : Nat) (f : BitVec 16) (v : BitVec n) (f' : BitVec 16) :
    Prop where
  val : ∀ i, i ≤ n → cbit (f'.getLsbD bCF) v ((i + c) % (n + 1)) = cbit (f.getLsbD bCF) a i
  of : c = 1 → f'.getLsbD bOF = (f'.getLsbD bCF ^^ v.getLsbD (n - 1))
  rest : OnlyBits [bCF, bOF] f f'

/-- Right rotation of the `n+1`-bit word CF:operand. -/
structure RcrSpec {n : Nat} (a : BitVec n) (c : Nat) (f : BitVec 16) (v : BitVec n) (f' : BitVec 16) :
    Prop where
  val : ∀ i, i ≤ n → cbit (f'.getLsbD bCF) v i = cbit (f.getLsbD bCF) a ((i + c) % (n + 1))
  of : c = 1 → f'.getLsbD bOF = (v.getLsbD (n - 1) ^^ v.getLsbD (n - 2))
  rest : OnlyBits [bCF, bOF] f f'

end RME
