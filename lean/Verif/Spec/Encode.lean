import Verif.Spec.Operand
set_option autoImplicit false
/-
Independent specification of instruction encodings (8086 manual; operand width 32 with prefix 66).
-/
namespace RME

/-- Encodings of the eight arithmetic/logic operations, numbered as in the manual: 0 ADD, 1 OR, 2 ADC,
3 SBB, 4 AND, 5 SUB, 6 XOR, 7 CMP.  `AluEnc s p k n code dst src`: `code` is operation `k` on `n`-bit
operands `dst` and `src`. -/
inductive AluEnc (s : State) (p : Pfx) (k : Nat) : Nat → List (BitVec 8) → Opnd → Opnd → Prop
  | mr8 {rm r o} (h : RM s p 8 rm r o) (hp : Plain s p 8 rm) :
      AluEnc s p k 8 (BitVec.ofNat 8 (8 * k) :: rm) o (regOp 8 r)
  | mr {rm r o} (h : RM s p (opW p) rm r o) (hp : Plain s p (opW p) rm) :
      AluEnc s p k (opW p) (BitVec.ofNat 8 (8 * k + 1) :: rm) o (regOp (opW p) r)
  | rm8 {rm r o} (h : RM s p 8 rm r o) (hp : Plain s p 8 rm) :
      AluEnc s p k 8 (BitVec.ofNat 8 (8 * k + 2) :: rm) (regOp 8 r) o
  | rm {rm r o} (h : RM s p (opW p) rm r o) (hp : Plain s p (opW p) rm) :
      AluEnc s p k (opW p) (BitVec.ofNat 8 (8 * k + 3) :: rm) (regOp (opW p) r) o
  | ai8 (i : BitVec 8) :
      AluEnc s p k 8 [BitVec.ofNat 8 (8 * k + 4), i] (.reg 0) (.imm (i.setWidth 32))
  | ai (l : List (BitVec 8)) (hl : l.length = opW p / 8) :
      AluEnc s p k (opW p) (BitVec.ofNat 8 (8 * k + 5) :: l) (.reg 0) (.imm (BitVec.ofNat 32 (leVal l)))
  | mi8 {rm o} (h : RM s p 8 rm (BitVec.ofNat 3 k) o) (hp : Plain s p 8 rm) (i : BitVec 8) :
      AluEnc s p k 8 (0x80 :: (rm ++ [i])) o (.imm (i.setWidth 32))
  | mi {rm o} (h : RM s p (opW p) rm (BitVec.ofNat 3 k) o) (hp : Plain s p (opW p) rm)
      (l : List (BitVec 8)) (hl : l.length = opW p / 8) :
      AluEnc s p k (opW p) (0x81 :: (rm ++ l)) o (.imm (BitVec.ofNat 32 (leVal l)))
  | mis {rm o} (h : RM s p (opW p) rm (BitVec.ofNat 3 k) o) (hp : Plain s p (opW p) rm) (i : BitVec 8) :
      AluEnc s p k (opW p) (0x83 :: (rm ++ [i])) o (.imm (i.signExtend 32))

/-- Encodings of TEST. -/
inductive TestEnc (s : State) (p : Pfx) : Nat → List (BitVec 8) → Opnd → Opnd → Prop
  | mr8 {rm r o} (h : RM s p 8 rm r o) (hp : Plain s p 8 rm) : TestEnc s p 8 (0x84 :: rm) o (regOp 8 r)
  | mr {rm r o} (h : RM s p (opW p) rm r o) (hp : Plain s p (opW p) rm) :
      TestEnc s p (opW p) (0x85 :: rm) o (regOp (opW p) r)
  | ai8 (i : BitVec 8) : TestEnc s p 8 [0xA8, i] (.reg 0) (.imm (i.setWidth 32))
  | ai (l : List (BitVec 8)) (hl : l.length = opW p / 8) :
      TestEnc s p (opW p) (0xA9 :: l) (.reg 0) (.imm (BitVec.ofNat 32 (leVal l)))
  | mi8 {rm o} (h : RM s p 8 rm 0 o) (hp : Plain s p 8 rm) (i : BitVec 8) :
      TestEnc s p 8 (0xF6 :: (rm ++ [i])) o (.imm (i.setWidth 32))
  | mi {rm o} (h : RM s p (opW p) rm 0 o) (hp : Plain s p (opW p) rm)
      (l : List (BitVec 8)) (hl : l.length = opW p / 8) :
      TestEnc s p (opW p) (0xF7 :: (rm ++ l)) o (.imm (BitVec.ofNat 32 (leVal l)))

/-- One-operand groups F6/F7: 2 NOT, 3 NEG, 4 MUL, 5 IMUL, 6 DIV, 7 IDIV. -/
inductive UnaryEnc (s : State) (p : Pfx) (k : BitVec 3) : Nat → List (BitVec 8) → Opnd → Prop
  | m8 {rm o} (h : RM s p 8 rm k o) (hp : Plain s p 8 rm) : UnaryEnc s p k 8 (0xF6 :: rm) o
  | m {rm o} (h : RM s p (opW p) rm k o) (hp : Plain s p (opW p) rm) :
      UnaryEnc s p k (opW p) (0xF7 :: rm) o

/-- INC (`k = 0`) and DEC (`k = 1`): FE/FF groups and the one-byte forms 40+r, 48+r. -/
inductive IncEnc (s : State) (p : Pfx) (k : BitVec 3) : Nat → List (BitVec 8) → Opnd → Prop
  | m8 {rm o} (h : RM s p 8 rm k o) (hp : Plain s p 8 rm) : IncEnc s p k 8 (0xFE :: rm) o
  | m {rm o} (h : RM s p (opW p) rm k o) (hp : Plain s p (opW p) rm) : IncEnc s p k (opW p) (0xFF :: rm) o
  | short (r : BitVec 3) : IncEnc s p k (opW p) [0x40 + 8 * k.setWidth 8 + r.setWidth 8] (.reg r)

/-- Shift and rotate groups, 0 ROL, 1 ROR, 2 RCL, 3 RCR, 4 SHL, 5 SHR, 7 SAR (6 = SHL); `c` is the
unmasked 8-bit count. -/
inductive ShiftEnc (s : State) (p : Pfx) (k : BitVec 3) : Nat → List (BitVec 8) → Opnd → BitVec 8 → Prop
  | m1b {rm o} (h : RM s p 8 rm k o) (hp : Plain s p 8 rm) : ShiftEnc s p k 8 (0xD0 :: rm) o 1
  | m1 {rm o} (h : RM s p (opW p) rm k o) (hp : Plain s p (opW p) rm) :
      ShiftEnc s p k (opW p) (0xD1 :: rm) o 1
  | mclb {rm o} (h : RM s p 8 rm k o) (hp : Plain s p 8 rm) :
      ShiftEnc s p k 8 (0xD2 :: rm) o ((s.gpr 1).setWidth 8)
  | mcl {rm o} (h : RM s p (opW p) rm k o) (hp : Plain s p (opW p) rm) :
      ShiftEnc s p k (opW p) (0xD3 :: rm) o ((s.gpr 1).setWidth 8)
  | mib {rm o} (h : RM s p 8 rm k o) (hp : Plain s p 8 rm) (i : BitVec 8) :
      ShiftEnc s p k 8 (0xC0 :: (rm ++ [i])) o i
  | mi {rm o} (h : RM s p (opW p) rm k o) (hp : Plain s p (opW p) rm) (i : BitVec 8) :
      ShiftEnc s p k (opW p) (0xC1 :: (rm ++ [i])) o i

end RME
