import Verif.Spec.Operand
import Verif.Spec.Run
set_option autoImplicit false
/-
Independent specification of instruction lengths (Intel manual, 16-bit code segment): which opcodes have a
ModR/M byte, how long the addressing bytes are, and what follows them.
-/
namespace RME

/-- What follows opcode and addressing bytes: nothing, a byte, a word, an operand-sized immediate (2 bytes, or 4 with
prefix 66), a word and a byte (ENTER), a far pointer, a direct address (2 bytes, or 4 with prefix 67). -/
inductive ImmKind where
  | none | b | w | z | wb | ptr | moffs
  deriving DecidableEq, Repr

/-- Number of bytes. -/
def immLen (p : Pfx) : ImmKind → Nat
  | .none => 0
  | .b => 1
  | .w => 2
  | .z => if p.oper then 4 else 2
  | .wb => 3
  | .ptr => if p.oper then 6 else 4
  | .moffs => if p.addr then 4 else 2

/-- Number of addressing bytes, from the ModR/M byte `m` to the end of the displacement; `sib` is the byte after `m`
(it only matters with prefix 67, mod = 0, r/m = 4). -/
def rmLen (p : Pfx) (m sib : BitVec 8) : Nat :=
  1 + (if modOf m = 3 then 0
    else if p.addr then
      (if rmOf m = 4 then 1 else 0) +
      (if modOf m = 1 then 1 else if modOf m = 2 then 4
       else if rmOf m = 5 ∨ (rmOf m = 4 ∧ sib.toNat % 8 = 5) then 4 else 0)
    else if modOf m = 1 then 1 else if modOf m = 2 then 2 else if rmOf m = 6 then 2 else 0)

/-- One-byte opcodes: has a ModR/M byte?, what follows.  `r` is the register field of the ModR/M byte (F6 and F7 have an
immediate for TEST only). -/
def opForm (op : BitVec 8) (r : BitVec 3) : Bool × ImmKind :=
  let o := op.toNat
  if o < 0x40 then
    (if o % 8 < 4 then (true, .none) else if o % 8 = 4 then (false, .b) else if o % 8 = 5 then (false, .z) else (false, .none))
  else if o = 0x68 then (false, .z)
  else if o = 0x69 then (true, .z)
  else if o = 0x6A then (false, .b)
  else if o = 0x6B then (true, .b)
  else if 0x70 ≤ o ∧ o ≤ 0x7F then (false, .b)
  else if o = 0x80 ∨ o = 0x82 ∨ o = 0x83 then (true, .b)
  else if o = 0x81 then (true, .z)
  else if 0x84 ≤ o ∧ o ≤ 0x8F then (true, .none)
  else if o = 0x9A then (false, .ptr)
  else if 0xA0 ≤ o ∧ o ≤ 0xA3 then (false, .moffs)
  else if o = 0xA8 then (false, .b)
  else if o = 0xA9 then (false, .z)
  else if 0xB0 ≤ o ∧ o ≤ 0xB7 then (false, .b)
  else if 0xB8 ≤ o ∧ o ≤ 0xBF then (false, .z)
  else if o = 0xC0 ∨ o = 0xC1 ∨ o = 0xC6 then (true, .b)
  else if o = 0xC7 then (true, .z)
  else if o = 0xC2 ∨ o = 0xCA then (false, .w)
  else if o = 0xC4 ∨ o = 0xC5 then (true, .none)
  else if o = 0xC8 then (false, .wb)
  else if o = 0xCD ∨ o = 0xD4 ∨ o = 0xD5 then (false, .b)
  else if 0xD0 ≤ o ∧ o ≤ 0xD3 then (true, .none)
  else if (0xE0 ≤ o ∧ o ≤ 0xE7) ∨ o = 0xEB then (false, .b)
  else if o = 0xE8 ∨ o = 0xE9 then (false, .z)
  else if o = 0xEA then (false, .ptr)
  else if o = 0xF6 then (true, if r = 0 then .b else .none)
  else if o = 0xF7 then (true, if r = 0 then .z else .none)
  else if o = 0xFE ∨ o = 0xFF then (true, .none)
  else (false, .none)

/-- Two-byte opcodes `0F op`. -/
def opForm0F (op : BitVec 8) : Bool × ImmKind :=
  let o := op.toNat
  if 0x80 ≤ o ∧ o ≤ 0x8F then (false, .z)
  else if o = 0xA4 ∨ o = 0xAC ∨ o = 0xBA then (true, .b)
  else if o = 0xA5 ∨ o = 0xAD ∨ o = 0xAF ∨ (0xB2 ≤ o ∧ o ≤ 0xB7) ∨ o = 0xBC then (true, .none)
  else (false, .none)

/-- The addressing bytes at CS:IP+`k`: `r` is the register field, `n` their number. -/
def AddrAt (s : State) (p : Pfx) (k : Nat) (r : BitVec 3) (n : Nat) : Prop :=
  ∃ m sib, ByteAt s k m ∧ regOf m = r ∧ (p.addr = true → modOf m = 0 → rmOf m = 4 → ByteAt s (k + 1) sib) ∧ n = rmLen p m sib

/-- The instruction at CS:IP has the prefixes `p`, the opcode `op` (`two`: after 0F), the register field `r` (0 without
ModR/M byte), and is `n` bytes long. -/
inductive InstrAt (s : State) : Pfx → Bool → BitVec 8 → BitVec 3 → Nat → Prop
  | plain {pfx p op} (hp : Pfx.parse {} pfx = some p) (hb : BytesAt s (pfx ++ [op])) (h1 : isPrefixByte op = false) (h2 : op ≠ 0x0F)
      (hf : (opForm op 0).1 = false) : InstrAt s p false op 0 (pfx.length + 1 + immLen p (opForm op 0).2)
  | rm {pfx p op r n} (hp : Pfx.parse {} pfx = some p) (hb : BytesAt s (pfx ++ [op])) (h1 : isPrefixByte op = false) (h2 : op ≠ 0x0F)
      (hf : (opForm op r).1 = true) (ha : AddrAt s p (pfx.length + 1) r n) :
      InstrAt s p false op r (pfx.length + 1 + n + immLen p (opForm op r).2)
  | plain0F {pfx p op} (hp : Pfx.parse {} pfx = some p) (hb : BytesAt s (pfx ++ [0x0F, op]))
      (hf : (opForm0F op).1 = false) : InstrAt s p true op 0 (pfx.length + 2 + immLen p (opForm0F op).2)
  | rm0F {pfx p op r n} (hp : Pfx.parse {} pfx = some p) (hb : BytesAt s (pfx ++ [0x0F, op]))
      (hf : (opForm0F op).1 = true) (ha : AddrAt s p (pfx.length + 2) r n) :
      InstrAt s p true op r (pfx.length + 2 + n + immLen p (opForm0F op).2)

/-- Control transfers: Jcc, far CALL, RET, RETF, INT3, INT, INTO, IRET, LOOP, JCXZ, CALL, JMP, FF /2 … /5, and loading CS. -/
def isTransfer (two : Bool) (op : BitVec 8) (r : BitVec 3) : Bool :=
  let o := op.toNat
  if two then decide (0x80 ≤ o ∧ o ≤ 0x8F)
  else decide ((0x70 ≤ o ∧ o ≤ 0x7F) ∨ o = 0x9A ∨ o = 0xC2 ∨ o = 0xC3 ∨ (0xCA ≤ o ∧ o ≤ 0xCF) ∨ (0xE0 ≤ o ∧ o ≤ 0xE3) ∨
    (0xE8 ≤ o ∧ o ≤ 0xEB) ∨ (o = 0xFF ∧ 2 ≤ r.toNat ∧ r.toNat ≤ 5) ∨ (o = 0x8E ∧ r = 1))

/-- DIV, IDIV, AAM: may end in a divide error. -/
def isDivide (two : Bool) (op : BitVec 8) (r : BitVec 3) : Bool :=
  !two && (((op == 0xF6 || op == 0xF7) && (r == 6 || r == 7)) || op == 0xD4)

end RME
