set_option autoImplicit false
/-
What `printf` of the test kernel should do: numerals, format strings and what they print.
Nothing here refers to the model.
-/
namespace RME.Testkern.Spec

/-- Digit `d` (below 16), upper case. -/
def digit (d : Nat) : Char := "0123456789ABCDEF".toList.getD d '?'

/-- The numeral of `n` in base `b`: no superfluous zeros, most significant digit first. -/
def numeral (b n : Nat) : List Char :=
  if n < b ∨ b < 2 then [digit n] else numeral b (n / b) ++ [digit (n % b)]
termination_by n
decreasing_by exact Nat.div_lt_self (by omega) (by omega)

/-- Left-padded to at least `w` characters. -/
def padTo (pad : Char) (w : Nat) (s : List Char) : List Char := List.replicate (w - s.length) pad ++ s

/-- One piece of a format: a character that stands for itself, or a conversion with optional `0` flag,
width (0: none) and code. -/
inductive Item where
  | lit (c : Char)
  | conv (zero : Bool) (width : Nat) (code : Char)

/-- How it is written in the format. -/
def Item.source : Item → List Char
  | .lit c => [c]
  | .conv z w code =>
    '%' :: (if z then ['0'] else []) ++ (if w = 0 then [] else numeral 10 w) ++ [code]

def IsDigit (c : Char) : Prop := '0' ≤ c ∧ c ≤ '9'
instance (c : Char) : Decidable (IsDigit c) := inferInstanceAs (Decidable (_ ∧ _))

/-- Pieces that are read back as written: `%` is not literal, and a digit is a code only as the `0` in
`%00`. -/
def Item.WF : Item → Prop
  | .lit c => c ≠ '%'
  | .conv z w code => IsDigit code → (code = '0' ∧ z = true ∧ w = 0)

/-- Number of arguments a piece takes. -/
def Item.takes : Item → Nat
  | .lit _ => 0
  | .conv .. => 1

/-- The text of a conversion of `v` (`str a`: the string at address `a`): octal, decimal and hexadecimal
numbers padded to the width with zeros or blanks, pointers as `*0x` and 8 digits, strings; other codes
print nothing. -/
def convText (str : BitVec 32 → List Char) (zero : Bool) (width : Nat) (code : Char) (v : BitVec 32) : List Char :=
  match code with
  | 'o' => padTo (if zero then '0' else ' ') width (numeral 8 v.toNat)
  | 'i' => padTo (if zero then '0' else ' ') width (numeral 10 v.toNat)
  | 'x' => padTo (if zero then '0' else ' ') width (numeral 16 v.toNat)
  | 'p' => "*0x".toList ++ padTo '0' 8 (numeral 16 v.toNat)
  | 's' => if v = 0 then "(null)".toList else str v
  | _ => []

/-- The text of a whole format: the pieces in order, each conversion with the next argument. -/
def render (str : BitVec 32 → List Char) : List Item → List (BitVec 32) → List Char
  | [], _ => []
  | .lit c :: is, args => c :: render str is args
  | .conv z w code :: is, v :: args => convText str z w code v ++ render str is args
  | .conv .. :: _, [] => []

/-- A format as a string. -/
def source (is : List Item) : List Char := (is.map Item.source).flatten

/-- Number of arguments a format takes. -/
def takes (is : List Item) : Nat := (is.map Item.takes).sum

/-- When the kernel's `printf` can carry out a conversion of `v`: numbers at most 64 wide (the buffer has
65 bytes), and strings only where there is one (`strs a`: the string at address `a`, if any). -/
def ConvReady (strs : BitVec 32 → Option (List Char)) (w : Nat) (code : Char) (v : BitVec 32) : Prop :=
  ((code = 'o' ∨ code = 'i' ∨ code = 'x') → w ≤ 64) ∧ (code = 's' → v ≠ 0 → (strs v).isSome)

instance (strs : BitVec 32 → Option (List Char)) (w : Nat) (code : Char) (v : BitVec 32) :
    Decidable (ConvReady strs w code v) := inferInstanceAs (Decidable (_ ∧ _))

/-- Every conversion has an argument and can be carried out. -/
def Ready (strs : BitVec 32 → Option (List Char)) : List Item → List (BitVec 32) → Prop
  | [], _ => True
  | .lit _ :: is, args => Ready strs is args
  | .conv _ w code :: is, v :: args => ConvReady strs w code v ∧ Ready strs is args
  | .conv .. :: _, [] => False

/-- The width is not absurdly large (below 2^31 - 57, so that reading it does not overflow an `int`). -/
def Item.Sane : Item → Prop
  | .lit _ => True
  | .conv _ w _ => w + 57 < 2 ^ 31

end RME.Testkern.Spec
