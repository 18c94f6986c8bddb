import Verif.Spec.Operand
import Verif.Spec.Arith
set_option autoImplicit false
/-
Independent specification of conditional jumps and loops.
-/
namespace RME

/-- The sixteen conditions by number (low four bits of the opcode), as in the manual:
O NO B AE E NE BE A S NS P NP L GE LE G. -/
def condHolds (cc : BitVec 4) (f : BitVec 16) : Bool :=
  let cf := f.getLsbD bCF; let pf := f.getLsbD bPF; let zf := f.getLsbD bZF
  let sf := f.getLsbD bSF; let of := f.getLsbD bOF
  let base := match cc.toNat / 2 with
    | 0 => of
    | 1 => cf
    | 2 => zf
    | 3 => cf || zf
    | 4 => sf
    | 5 => pf
    | 6 => sf ^^ of
    | _ => zf || (sf ^^ of)
  if cc.toNat % 2 = 0 then base else !base

/-- Jcc rel8 (70+cc) and Jcc rel16 (0F 80+cc): condition and displacement. -/
inductive JccEnc : BitVec 4 → List (BitVec 8) → BitVec 16 → Prop
  | short (cc : BitVec 4) (d : BitVec 8) : JccEnc cc [0x70 + cc.setWidth 8, d] (d.signExtend 16)
  | near (cc : BitVec 4) (lo hi : BitVec 8) : JccEnc cc [0x0F, 0x80 + cc.setWidth 8, lo, hi] (le16 lo hi)

/-- What the conditions say about the operands of a preceding comparison: `some` for the ten conditions about
order and equality. -/
def cmpCond {n : Nat} (cc : BitVec 4) (a b : BitVec n) : Option Prop :=
  match cc.toNat with
  | 2 => some (a.toNat < b.toNat)
  | 3 => some (b.toNat ≤ a.toNat)
  | 4 => some (a = b)
  | 5 => some (a ≠ b)
  | 6 => some (a.toNat ≤ b.toNat)
  | 7 => some (b.toNat < a.toNat)
  | 12 => some (a.toInt < b.toInt)
  | 13 => some (b.toInt ≤ a.toInt)
  | 14 => some (a.toInt ≤ b.toInt)
  | 15 => some (b.toInt < a.toInt)
  | _ => none

/-- CX -/
def cxOf (s : State) : BitVec 16 := (s.gpr 1).setWidth 16
/-- The state with CX = `v`. -/
def withCX (s : State) (v : BitVec 16) : State := (Opnd.reg 1).put s 16 v

/-- LOOPNZ (E0), LOOPZ (E1), LOOP (E2): the extra condition on ZF. -/
def loopCond (op : BitVec 8) (f : BitVec 16) : Bool :=
  if op = 0xE0 then !f.getLsbD bZF else if op = 0xE1 then f.getLsbD bZF else true

end RME
