import Verif.Spec.ImmText
import Verif.Spec.Operand
set_option autoImplicit false
/-
Independent specification of the operands of instructions with a ModR/M byte in the trace line.
-/
namespace RME

/-- `text` shows an operand of `n` bits: a blank and the name of the register of this width, or a memory operand that reads as the segment and offset. -/
inductive OpndShown (s : State) (n : Nat) : Opnd → List Char → Prop
  | reg (r : BitVec 3) (name : List Char) : regByName name = some (r, 0, n) → OpndShown s n (.reg r) (' ' :: name)
  | high (r : BitVec 3) (name : List Char) : n = 8 → regByName name = some (r, 8, 8) → OpndShown s n (.high r) (' ' :: name)
  | mem (seg ofs : BitVec 16) (t : List Char) : readMemText s t = some (seg, ofs.setWidth 32) → OpndShown s n (.mem seg ofs) t

/-- The number after the ModR/M operand: of the operand width; a byte, sign-extended to the operand width; a byte. -/
inductive ImmSize where
  | full | sext | byte
  deriving DecidableEq

/-- What an instruction with a ModR/M byte has for operands, in the order of the manual: r/m and register; register and r/m; r/m and a number; r/m and 1;
r/m and CL; r/m alone; register, r/m and a number; r/m and segment register; segment register and r/m. -/
inductive RmForm where
  | mr | rm | imm (k : ImmSize) | one | cl | alone | rmImm (k : ImmSize) | mseg | segm
  deriving DecidableEq

/-- Opcodes whose operands are words: the odd ones, the moves of segment registers, and LES. -/
def wideOp (op : BitVec 8) : Bool := op.toNat % 2 == 1 || op == 0x8C || op == 0x8E || op == 0xC4
/-- Width of the operands: bytes, or as the operand-size prefix says. -/
def rmWidth (p : Pfx) (op : BitVec 8) : Nat := if wideOp op = false then 8 else p.bytes * 8

/-- Operands of the instruction with opcode `op` (register field `r`): ADD … CMP, TEST, MOV, XCHG of r/m and register; ADD … CMP and MOV of a number to r/m;
shifts and rotations; TEST, NOT, NEG, MUL, IMUL, DIV, IDIV (F6, F7); INC and DEC (FE); IMUL with three operands; INC, DEC, CALL, JMP and PUSH (FF); POP (8F); LEA; MOV from and to a segment register. -/
def rmForm (op : BitVec 8) (r : BitVec 3) : Option RmForm :=
  if op.toNat < 0x40 then
    (if op.toNat % 8 = 0 ∨ op.toNat % 8 = 1 then some .mr else if op.toNat % 8 = 2 ∨ op.toNat % 8 = 3 then some .rm else none)
  else if op = 0x84 ∨ op = 0x85 ∨ op = 0x88 ∨ op = 0x89 then some .mr
  else if op = 0x86 ∨ op = 0x87 ∨ op = 0x8A ∨ op = 0x8B then some .rm
  else if op = 0x80 ∨ op = 0x81 then some (.imm .full)
  else if op = 0x83 then some (.imm .sext)
  else if (op = 0xC6 ∨ op = 0xC7) ∧ r = 0 then some (.imm .full)
  else if (op = 0xC0 ∨ op = 0xC1) ∧ r ≠ 6 then some (.imm .byte)
  else if (op = 0xD0 ∨ op = 0xD1) ∧ r ≠ 6 then some .one
  else if (op = 0xD2 ∨ op = 0xD3) ∧ r ≠ 6 then some .cl
  else if (op = 0xF6 ∨ op = 0xF7) ∧ r = 0 then some (.imm .full)
  else if (op = 0xF6 ∨ op = 0xF7) ∧ r ≠ 1 then some .alone
  else if op = 0xFE ∧ r.toNat < 2 then some .alone
  else if op = 0xFF ∧ r ≠ 7 then some .alone
  else if op = 0x8F ∧ r = 0 then some .alone
  else if op = 0x8D then some .rm
  else if op = 0x8C ∧ r.toNat < 6 then some .mseg
  else if op = 0x8E ∧ r.toNat < 6 then some .segm
  else if op = 0x69 then some (.rmImm .full)
  else if op = 0x6B then some (.rmImm .sext)
  else none

/-- Bytes of the number. -/
def ImmSize.len (n : Nat) : ImmSize → Nat
  | .full => n / 8
  | _ => 1
def RmForm.immLen (n : Nat) : RmForm → Nat
  | .imm k | .rmImm k => k.len n
  | _ => 0

/-- The number, in hexadecimal: as many digits as its width needs. -/
def NumShown (n : Nat) (k : ImmSize) (imm : List (BitVec 8)) (t : List Char) : Prop :=
  match k with
  | .full => HexText " 0x" (n / 4) (leVal imm) t
  | .sext => HexText " 0x" (n / 4) ((imm.headD 0).signExtend n).toNat t
  | .byte => HexText " 0x" 2 (imm.headD 0).toNat t

/-- Segment registers by number. -/
def segRegName (r : BitVec 3) : Option (List Char) := (["ES", "CS", "SS", "DS", "FS", "GS"].map String.toList)[r.toNat]?

/-- `text` is the text of the operands: register `r`, r/m operand `o`, number `imm`, of width `n`. -/
def RmText (s : State) (n : Nat) (f : RmForm) (r : BitVec 3) (o : Opnd) (imm : List (BitVec 8)) (text : List Char) : Prop :=
  ∃ a, OpndShown s n o a ∧
  match f with
  | .mr => ∃ b, OpndShown s n (regOp n r) b ∧ text = a ++ b
  | .rm => ∃ b, OpndShown s n (regOp n r) b ∧ text = b ++ a
  | .imm k => ∃ t, NumShown n k imm t ∧ text = a ++ t
  | .one => text = a ++ " 1".toList
  | .cl => text = a ++ " CL".toList
  | .alone => text = a
  | .rmImm k => ∃ b t, OpndShown s n (regOp n r) b ∧ NumShown n k imm t ∧ text = b ++ a ++ t
  | .mseg => ∃ b, segRegName r = some b ∧ text = a ++ ' ' :: b
  | .segm => ∃ b, segRegName r = some b ∧ text = ' ' :: b ++ a

end RME
