import Verif.Spec.Effects
set_option autoImplicit false
/-
Independent specification of the instructions that are not "all or nothing" in rme2: when one of these fails (unmapped memory, …) part of its effect
may already have happened. On the real processor no fault leaves such a trace.
-/
namespace RME

/-- There is an operand-size prefix among the prefix bytes. -/
def operIn (pfx : List (BitVec 8)) : Bool := pfx.any fun b => b = 0x66

/-- The one-byte opcode `op` may fail half-way; `r`: register field of its ModR/M byte, `rep`, `oper`: it has a repeat / an operand-size prefix. -/
def tears (op : BitVec 8) (r : BitVec 3) (rep oper : Bool) : Bool :=
  let o := op.toNat
  if o = 0x06 ∨ o = 0x0E ∨ o = 0x16 ∨ o = 0x1E then true                 -- PUSH seg: SP is moved first
  else if 0x50 ≤ o ∧ o < 0x58 then true                                  -- PUSH reg
  else if 0x58 ≤ o ∧ o < 0x60 then oper                                  -- POP reg, 32 bits: two pops
  else if o = 0x60 ∨ o = 0x61 then true                                  -- PUSHA, POPA
  else if o = 0x68 ∨ o = 0x6A then true                                  -- PUSH imm
  else if o = 0x6C ∨ o = 0x6D then true                                  -- INS: the port is read first
  else if o = 0x6E ∨ o = 0x6F then rep                                   -- OUTS, repeated
  else if o = 0x81 ∨ o = 0x83 then true                                  -- immediate group: FLAGS are cleared before the immediate is read
  else if o = 0x9A ∨ o = 0x9C then true                                  -- CALL far, PUSHF
  else if 0xA4 ≤ o ∧ o ≤ 0xA7 then rep                                   -- MOVS, CMPS, repeated
  else if 0xAA ≤ o ∧ o ≤ 0xAF then rep                                   -- STOS, LODS, SCAS, repeated
  else if o = 0xC4 ∨ o = 0xC5 then true                                  -- LES, LDS: the register is loaded first
  else if o = 0xC8 ∨ o = 0xC9 then true                                  -- ENTER, LEAVE
  else if o = 0xCA ∨ o = 0xCB then true                                  -- RET far: two pops
  else if 0xCC ≤ o ∧ o ≤ 0xCF then true                                  -- INT, INTO, IRET
  else if o = 0xD4 then true                                             -- AAM: delivery of the divide error
  else if o = 0xE8 then true                                             -- CALL
  else if o = 0xF6 ∨ o = 0xF7 then r = 6 ∨ r = 7                         -- DIV, IDIV: delivery of the divide error
  else if o = 0xFF then r = 2 ∨ r = 3 ∨ r = 6                            -- CALL r/m, PUSH r/m
  else false

/-- The two-byte opcode `0F op` may fail half-way. -/
def tears0F (op : BitVec 8) : Bool :=
  let o := op.toNat
  if o = 0xA0 ∨ o = 0xA8 then true                                       -- PUSH FS, GS
  else if o = 0xB2 ∨ o = 0xB4 ∨ o = 0xB5 then true                       -- LSS, LFS, LGS
  else false

/-- The instruction at CS:IP is one of them. -/
inductive TearsAt (s : State) : Prop
  | plain {pfx op} (hp : GoodPrefixes pfx) (hb : BytesAt s (pfx ++ [op])) (hf : (opForm op 0).1 = false)
      (ht : tears op 0 (repIn pfx) (operIn pfx) = true)
  | modrm {pfx op m} (hp : GoodPrefixes pfx) (hb : BytesAt s (pfx ++ [op, m])) (hf : (opForm op (regOf m)).1 = true)
      (ht : tears op (regOf m) (repIn pfx) (operIn pfx) = true)
  | two {pfx op} (hp : GoodPrefixes pfx) (hb : BytesAt s (pfx ++ [0x0F, op])) (ht : tears0F op = true)

/-- Nothing of the machine has changed: registers, segment registers, IP, FLAGS, memory, the record of port accesses and all settings are the same; only
the emulator's own decoding scratch data and instruction counter may differ. -/
def Untouched (s t : State) : Prop := t = { s with dec := t.dec, instrNum := t.instrNum }

end RME
