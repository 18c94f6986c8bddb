import Verif.Spec.Operand
import Verif.Spec.Run
set_option autoImplicit false
/-
Independent specification of the data movement instructions.
-/
namespace RME

/-- The offset in MOV's direct-address forms: 16 bits, or with the address-size prefix 32 bits (within the segment). -/
inductive Moffs (p : Pfx) : List (BitVec 8) → BitVec 16 → Prop
  | w16 (lo hi : BitVec 8) (ha : p.addr = false) : Moffs p [lo, hi] (le16 lo hi)
  | w32 (l : List (BitVec 8)) (ha : p.addr = true) (hl : l.length = 4) (hv : leVal l < 0x10000) : Moffs p l (BitVec.ofNat 16 (leVal l))

/-- Encodings of MOV between general registers, memory and immediates:
`MovEnc s p n code dst src`. -/
inductive MovEnc (s : State) (p : Pfx) : Nat → List (BitVec 8) → Opnd → Opnd → Prop
  | mr8 {rm r o} (h : RM s p 8 rm r o) (hp : Plain s p 8 rm) : MovEnc s p 8 (0x88 :: rm) o (regOp 8 r)
  | mr {rm r o} (h : RM s p (opW p) rm r o) (hp : Plain s p (opW p) rm) :
      MovEnc s p (opW p) (0x89 :: rm) o (regOp (opW p) r)
  | rm8 {rm r o} (h : RM s p 8 rm r o) (hp : Plain s p 8 rm) : MovEnc s p 8 (0x8A :: rm) (regOp 8 r) o
  | rm {rm r o} (h : RM s p (opW p) rm r o) (hp : Plain s p (opW p) rm) :
      MovEnc s p (opW p) (0x8B :: rm) (regOp (opW p) r) o
  | mi8 {rm o} (h : RM s p 8 rm 0 o) (hp : Plain s p 8 rm) (i : BitVec 8) :
      MovEnc s p 8 (0xC6 :: (rm ++ [i])) o (.imm (i.setWidth 32))
  | mi {rm o} (h : RM s p (opW p) rm 0 o) (hp : Plain s p (opW p) rm)
      (l : List (BitVec 8)) (hl : l.length = opW p / 8) :
      MovEnc s p (opW p) (0xC7 :: (rm ++ l)) o (.imm (BitVec.ofNat 32 (leVal l)))
  | ri8 (r : BitVec 3) (i : BitVec 8) : MovEnc s p 8 [0xB0 + r.setWidth 8, i] (regOp 8 r) (.imm (i.setWidth 32))
  | ri (r : BitVec 3) (l : List (BitVec 8)) (hl : l.length = opW p / 8) :
      MovEnc s p (opW p) ((0xB8 + r.setWidth 8) :: l) (.reg r) (.imm (BitVec.ofNat 32 (leVal l)))
  | am8 {l ofs} (h : Moffs p l ofs) : MovEnc s p 8 (0xA0 :: l) (.reg 0) (.mem (s.sreg (p.seg.getD .ds)) ofs)
  | am {l ofs} (h : Moffs p l ofs) : MovEnc s p (opW p) (0xA1 :: l) (.reg 0) (.mem (s.sreg (p.seg.getD .ds)) ofs)
  | ma8 {l ofs} (h : Moffs p l ofs) : MovEnc s p 8 (0xA2 :: l) (.mem (s.sreg (p.seg.getD .ds)) ofs) (.reg 0)
  | ma {l ofs} (h : Moffs p l ofs) : MovEnc s p (opW p) (0xA3 :: l) (.mem (s.sreg (p.seg.getD .ds)) ofs) (.reg 0)

/-- Encodings of XCHG: 86, 87 and 90+r (XCHG AX,r; 90 = XCHG AX,AX = NOP). -/
inductive XchgEnc (s : State) (p : Pfx) : Nat → List (BitVec 8) → Opnd → Opnd → Prop
  | rm8 {rm r o} (h : RM s p 8 rm r o) (hp : Plain s p 8 rm) : XchgEnc s p 8 (0x86 :: rm) (regOp 8 r) o
  | rm {rm r o} (h : RM s p (opW p) rm r o) (hp : Plain s p (opW p) rm) :
      XchgEnc s p (opW p) (0x87 :: rm) (regOp (opW p) r) o
  | ax (r : BitVec 3) : XchgEnc s p (opW p) [0x90 + r.setWidth 8] (.reg 0) (.reg r)

/-- State after one more instruction, as the next `RME_RunOne` finds it: data of `t`, given IP, instruction counter advanced,
some decoder scratch data `d`. -/
def movedTo (t : State) (ip : BitVec 16) (d : Decoder) : State :=
  { t with ip := ip, instrNum := t.instrNum + 1, dec := d, lastNull := false }

end RME
