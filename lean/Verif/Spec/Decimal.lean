import Verif.Spec.Operand
import Verif.Spec.Arith
set_option autoImplicit false
/-
Independent vocabulary for decimal arithmetic.
-/
namespace RME

/-- Both nibbles are decimal digits (packed BCD). -/
def isBcd (v : BitVec 8) : Prop := v.toNat / 16 ≤ 9 ∧ v.toNat % 16 ≤ 9

instance (v : BitVec 8) : Decidable (isBcd v) := by unfold isBcd; infer_instance

/-- The number 0..99 a packed BCD byte denotes. -/
def bcd (v : BitVec 8) : Nat := 10 * (v.toNat / 16) + v.toNat % 16

/-- The low nibble is a decimal digit (unpacked BCD and ASCII digits). -/
def isDigit (v : BitVec 8) : Prop := v.toNat % 16 ≤ 9

instance (v : BitVec 8) : Decidable (isDigit v) := by unfold isDigit; infer_instance

/-- That digit. -/
def digit (v : BitVec 8) : Nat := v.toNat % 16

/-- FLAGS bits a decimal adjustment may change: all arithmetic flags but OF. -/
abbrev decimalBits : List Nat := [bCF, bPF, bAF, bZF, bSF]

/-- The state with AL, AH and FLAGS replaced. -/
def withAX (s : State) (al ah : BitVec 8) (f : BitVec 16) : State :=
  { (Opnd.high 0).put ((Opnd.reg 0).put s 8 al) 8 ah with flags := f }

/-- `pfx ++ code ++ next` stands at CS:IP (host address `h0`), the prefix bytes `pfx` mean `p`; CS:IP and the
address of `next` are ordinary addresses. -/
structure TwoInstr (s : State) (h0 : Nat) (pfx : List (BitVec 8)) (p : Pfx) (code next : List (BitVec 8)) : Prop where
  ready : Ready s
  ready2 : Ready { s with ip := s.ip + BitVec.ofNat 16 (pfx ++ code).length, instrNum := s.instrNum + 1 }
  parsed : Pfx.parse {} pfx = some p
  code : CodeAt s h0 ((pfx ++ code) ++ next)

end RME
