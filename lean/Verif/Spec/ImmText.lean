import Verif.Spec.OperandText
import Verif.Spec.Operand
set_option autoImplicit false
/-
What the operand text in the trace should show of an instruction whose operands are in the code itself (no ModR/M byte).
-/
namespace RME

/-- `text` is `pre` and the number `n` in `w` hexadecimal digits. -/
def HexText (pre : String) (w n : Nat) (text : List Char) : Prop := ∃ x, HexField w x n ∧ text = pre.toList ++ x

/-- `text` is `pre` and the number `n` in hexadecimal, in at most eight digits. -/
def HexAny (pre : String) (n : Nat) (text : List Char) : Prop := ∃ w, 0 < w ∧ w ≤ 8 ∧ HexText pre w n text

/-- A 16-bit distance, as added to the address of the next instruction. -/
def dist8 (d : BitVec 8) : BitVec 16 := d.signExtend 16

/-- Accumulator of the operand size. -/
def accName (p : Pfx) : String := if p.oper then " EAX" else " AX"

/-- Operand size in bytes. -/
def Pfx.bytes (p : Pfx) : Nat := if p.oper then 4 else 2

/-- Name of the byte register with number `r`. -/
def IsReg8 (name : List Char) (r : BitVec 3) : Prop := regByName name = some (if r.toNat < 4 then (r, 0, 8) else (r - 4, 8, 8))

/-- Name of the register of the operand size with number `r`. -/
def IsRegW (name : List Char) (p : Pfx) (r : BitVec 3) : Prop := regByName name = some (r, 0, p.bytes * 8)

/-- The instructions with their operands in the code (opcode, and the bytes after it): jumps and calls with a distance or an address, INT, ENTER, PUSH of a
number, MOV of a number to a register, arithmetic of the accumulator with a number, IN and OUT with a port number, MOV between accumulator and an address;
and XLAT. -/
inductive ImmCode (p : Pfx) : List (BitVec 8) → Prop
  | jcc (op d : BitVec 8) (h : 0x70 ≤ op.toNat ∧ op.toNat < 0x80) : ImmCode p [op, d]
  | jccNear (op lo hi : BitVec 8) (h : 0x80 ≤ op.toNat ∧ op.toNat < 0x90) : ImmCode p [0x0F, op, lo, hi]
  | loop (op d : BitVec 8) (h : 0xE0 ≤ op.toNat ∧ op.toNat < 0xE4) : ImmCode p [op, d]
  | jmpShort (d : BitVec 8) : ImmCode p [0xEB, d]
  | near (op lo hi : BitVec 8) (h : op = 0xE8 ∨ op = 0xE9) : ImmCode p [op, lo, hi]
  | far (op a b c d : BitVec 8) (h : op = 0x9A ∨ op = 0xEA) : ImmCode p [op, a, b, c, d]
  | int (n : BitVec 8) : ImmCode p [0xCD, n]
  | enter (lo hi lv : BitVec 8) : ImmCode p [0xC8, lo, hi, lv]
  | push16 (lo hi : BitVec 8) : ImmCode p [0x68, lo, hi]
  | push8 (d : BitVec 8) : ImmCode p [0x6A, d]
  | mov8 (r : BitVec 3) (d : BitVec 8) : ImmCode p [0xB0 + r.setWidth 8, d]
  | mov (r : BitVec 3) (imm : List (BitVec 8)) (h : imm.length = p.bytes) : ImmCode p ((0xB8 + r.setWidth 8) :: imm)
  | alu8 (op d : BitVec 8) (h : op.toNat < 0x40 ∧ op.toNat % 8 = 4 ∨ op = 0xA8) : ImmCode p [op, d]
  | alu (op : BitVec 8) (imm : List (BitVec 8)) (h : op.toNat < 0x40 ∧ op.toNat % 8 = 5 ∨ op = 0xA9) (hl : imm.length = p.bytes) : ImmCode p (op :: imm)
  | port (op n : BitVec 8) (h : 0xE4 ≤ op.toNat ∧ op.toNat < 0xE8) : ImmCode p [op, n]
  | xlat : ImmCode p [0xD7]
  | moffs (op : BitVec 8) (ofs : List (BitVec 8)) (h : 0xA0 ≤ op.toNat ∧ op.toNat < 0xA4) (hl : ofs.length = (if p.addr then 4 else 2)) : ImmCode p (op :: ofs)

/-- `code` (opcode, and the bytes after it) has its operands in the code, and `text` is how they are shown. -/
inductive ImmText (s : State) (p : Pfx) : List (BitVec 8) → List Char → Prop
  /-- Jcc, short: ` .+0x` and the distance, sign-extended to 16 bits. -/
  | jcc (op d : BitVec 8) (t : List Char) (h : 0x70 ≤ op.toNat ∧ op.toNat < 0x80) : HexText " .+0x" 4 (dist8 d).toNat t → ImmText s p [op, d] t
  /-- Jcc, near. -/
  | jccNear (op lo hi : BitVec 8) (t : List Char) (h : 0x80 ≤ op.toNat ∧ op.toNat < 0x90) :
      HexText " .+0x" 4 (le16 lo hi).toNat t → ImmText s p [0x0F, op, lo, hi] t
  /-- LOOPNZ, LOOPZ, LOOP, JCXZ. -/
  | loop (op d : BitVec 8) (t : List Char) (h : 0xE0 ≤ op.toNat ∧ op.toNat < 0xE4) : HexAny " .+0x" (dist8 d).toNat t → ImmText s p [op, d] t
  /-- JMP short. -/
  | jmpShort (d : BitVec 8) (t : List Char) : HexAny " .+0x" (dist8 d).toNat t → ImmText s p [0xEB, d] t
  /-- JMP and CALL near. -/
  | near (op lo hi : BitVec 8) (t : List Char) (h : op = 0xE8 ∨ op = 0xE9) : HexText " .+0x" 4 (le16 lo hi).toNat t → ImmText s p [op, lo, hi] t
  /-- JMP and CALL far: segment, colon, offset. -/
  | far (op a b c d : BitVec 8) (t x y : List Char) (h : op = 0x9A ∨ op = 0xEA) : HexText " 0x" 4 (le16 c d).toNat x → HexText ":" 4 (le16 a b).toNat y →
      t = x ++ y → ImmText s p [op, a, b, c, d] t
  /-- INT n. -/
  | int (n : BitVec 8) (t : List Char) : HexAny " 0x" n.toNat t → ImmText s p [0xCD, n] t
  /-- ENTER: size, and level modulo 32 in decimal. -/
  | enter (lo hi lv : BitVec 8) (t x y : List Char) : HexText " 0x" 4 (le16 lo hi).toNat x → valueOf 10 y = some (lv.toNat % 32) → y ≠ [] → y.length ≤ 2 →
      t = x ++ ' ' :: y → ImmText s p [0xC8, lo, hi, lv] t
  /-- PUSH imm16. -/
  | push16 (lo hi : BitVec 8) (t : List Char) : HexText " 0x" 4 (le16 lo hi).toNat t → ImmText s p [0x68, lo, hi] t
  /-- PUSH imm8: the value sign-extended to 32 bits. -/
  | push8 (d : BitVec 8) (t : List Char) : HexAny " 0x" (d.signExtend 32).toNat t → ImmText s p [0x6A, d] t
  /-- MOV r8, imm8. -/
  | mov8 (r : BitVec 3) (d : BitVec 8) (t name x : List Char) : IsReg8 name r → HexText " 0x" 2 d.toNat x → t = ' ' :: name ++ x →
      ImmText s p [0xB0 + r.setWidth 8, d] t
  /-- MOV r, imm of the operand size. -/
  | mov (r : BitVec 3) (imm : List (BitVec 8)) (t name x : List Char) : imm.length = p.bytes → IsRegW name p r →
      HexText " 0x" (2 * p.bytes) (leVal imm) x → t = ' ' :: name ++ x → ImmText s p ((0xB8 + r.setWidth 8) :: imm) t
  /-- ADD … CMP and TEST, AL with imm8. -/
  | alu8 (op d : BitVec 8) (t : List Char) (h : op.toNat < 0x40 ∧ op.toNat % 8 = 4 ∨ op = 0xA8) : HexText " AL 0x" 2 d.toNat t → ImmText s p [op, d] t
  /-- ADD … CMP and TEST, accumulator with an immediate of the operand size. -/
  | alu (op : BitVec 8) (imm : List (BitVec 8)) (t : List Char) (h : op.toNat < 0x40 ∧ op.toNat % 8 = 5 ∨ op = 0xA9) : imm.length = p.bytes →
      HexText (accName p ++ " 0x") (2 * p.bytes) (leVal imm) t → ImmText s p (op :: imm) t
  /-- IN AL, imm8 and IN AX, imm8: the port, then the accumulator. -/
  | in8 (n : BitVec 8) (t x : List Char) : HexText " 0x" 2 n.toNat x → t = x ++ " AL".toList → ImmText s p [0xE4, n] t
  | inW (n : BitVec 8) (t x : List Char) : HexText " 0x" 2 n.toNat x → t = x ++ (accName p).toList → ImmText s p [0xE5, n] t
  /-- OUT imm8, AL and OUT imm8, AX: the accumulator, then the port. -/
  | out8 (n : BitVec 8) (t : List Char) : HexText " AL 0x" 2 n.toNat t → ImmText s p [0xE6, n] t
  | outW (n : BitVec 8) (t : List Char) : HexText (accName p ++ " 0x") 2 n.toNat t → ImmText s p [0xE7, n] t
  /-- XLAT: AL, and the address of the byte it loads. -/
  | xlat (t m : List Char) : readMemText s m = some (s.sreg (p.seg.getD .ds), (if p.addr then s.gpr 3 else s.gpr 3 % 65536) + s.gpr 0 % 256) → m.length ≤ 13 →
      t = " AL,".toList ++ m → ImmText s p [0xD7] t
  /-- MOV between accumulator and the address in the code: the address, in at most 16 characters, reads as the place used. -/
  | movFrom (op : BitVec 8) (ofs : List (BitVec 8)) (t m : List Char) (h : op = 0xA0 ∨ op = 0xA1) : ofs.length = (if p.addr then 4 else 2) →
      readMemText s m = some (s.sreg (p.seg.getD .ds), BitVec.ofNat 32 (leVal ofs)) → m.length ≤ 16 →
      t = (if op = 0xA0 then " AL" else accName p).toList ++ m → ImmText s p (op :: ofs) t
  | movTo (op : BitVec 8) (ofs : List (BitVec 8)) (t m : List Char) (h : op = 0xA2 ∨ op = 0xA3) : ofs.length = (if p.addr then 4 else 2) →
      readMemText s m = some (s.sreg (p.seg.getD .ds), BitVec.ofNat 32 (leVal ofs)) → m.length ≤ 16 →
      t = m ++ (if op = 0xA2 then " AL" else accName p).toList → ImmText s p (op :: ofs) t

end RME
