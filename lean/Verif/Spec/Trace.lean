import Verif.Spec.Machine
set_option autoImplicit false
/-
Independent reading of printed text: what a person reading the trace takes a field of digits for.
-/
namespace RME

/-- Value of a digit character. -/
def digitOf (c : Char) : Option Nat :=
  if '0' ≤ c ∧ c ≤ '9' then some (c.toNat - '0'.toNat)
  else if 'a' ≤ c ∧ c ≤ 'f' then some (c.toNat - 'a'.toNat + 10)
  else none

/-- Value of a text of digits in base `b`, most significant first; `none` if it contains anything else. -/
def valueOf (b : Nat) (cs : List Char) : Option Nat :=
  cs.foldl (fun acc c => acc.bind fun a => (digitOf c).bind fun d => if d < b then some (a * b + d) else none) (some 0)

/-- `cs` is a field of `w` hexadecimal digits with the value `n`. -/
def HexField (w : Nat) (cs : List Char) (n : Nat) : Prop := cs.length = w ∧ valueOf 16 cs = some n

/-- `cs` is the number `n` in decimal, right-justified with blanks. -/
def DecField (cs : List Char) (n : Nat) : Prop := ∃ k ds, cs = List.replicate k ' ' ++ ds ∧ ds ≠ [] ∧ valueOf 10 ds = some n

/-- The flag names in the order in which they are printed, with their bit numbers. -/
def flagBits : List (String × Nat) :=
  [("OF", 11), ("DF", 10), ("IF", 9), ("TF", 8), ("SF", 7), ("ZF", 6), ("AF", 4), ("PF", 2), ("CF", 0)]

/-- The names of the flags that are set, each with a blank before it. -/
def flagText (f : BitVec 16) : List Char :=
  (flagBits.filter fun x => f.getLsbD x.2).flatMap fun x => ' ' :: x.1.toList

end RME
