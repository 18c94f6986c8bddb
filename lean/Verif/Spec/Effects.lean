import Verif.Spec.Length
set_option autoImplicit false
/-
Independent specification of what each instruction may change (Intel manual): the destinations of every opcode.
-/
namespace RME

/-- A destination of an instruction. -/
inductive Dest where
  /-- the 8-bit operand named by mod and r/m: a register (AL … BH) or memory -/
  | rm8
  /-- the 16- or 32-bit operand named by mod and r/m: a register or memory -/
  | rm
  /-- the 8-bit register named by the register field -/
  | reg8
  /-- the 16- or 32-bit register named by the register field -/
  | reg
  /-- the general register with this number (0 = EAX, … 7 = EDI) -/
  | gpr (r : BitVec 3)
  /-- memory at an address that does not come from a ModR/M byte (stack, string destination, direct address) -/
  | mem
  /-- FLAGS -/
  | flags
  /-- the counter of a string instruction: CX, if there is a repeat prefix -/
  | count
  /-- a divide error pushes FLAGS, CS, IP and clears IF and TF -/
  | fault
  /-- a host service may be called, which can change everything -/
  | any
  deriving DecidableEq, Repr

/-- The instruction may change (any part of) the general register `r`; `m`: ModR/M byte, `rep`: repeat prefix present. -/
def Dest.hitsReg (m : BitVec 8) (rep : Bool) (r : BitVec 3) : Dest → Bool
  | .rm8 => decide (modOf m = 3) && decide (r = rmOf m &&& 3)
  | .rm => decide (modOf m = 3) && decide (r = rmOf m)
  | .reg8 => decide (r = regOf m &&& 3)
  | .reg => decide (r = regOf m)
  | .gpr i => decide (r = i)
  | .count => rep && decide (r = 1)
  | .fault => decide (r = 4)
  | .any => true
  | _ => false

/-- The instruction may change memory. -/
def Dest.hitsMem (m : BitVec 8) : Dest → Bool
  | .rm8 | .rm => decide (modOf m ≠ 3)
  | .mem | .fault | .any => true
  | _ => false

/-- The instruction may change FLAGS. -/
def Dest.hitsFlags : Dest → Bool
  | .flags | .fault | .any => true
  | _ => false

/-- The destinations of the one-byte opcode `op`; `r`: register field of the ModR/M byte. -/
def dests (op : BitVec 8) (r : BitVec 3) : List Dest :=
  let o := op.toNat
  let i : BitVec 3 := BitVec.ofNat 3 o
  if o < 0x40 then
    -- ADD OR ADC SBB AND SUB XOR CMP; PUSH/POP of segment registers; DAA DAS AAA AAS
    (if o % 8 < 6 then
      .flags :: (if o / 8 = 7 then [] else
        [if o % 8 = 0 then .rm8 else if o % 8 = 1 then .rm else if o % 8 = 2 then .reg8 else if o % 8 = 3 then .reg else .gpr 0])
     else if o = 0x06 ∨ o = 0x0E ∨ o = 0x16 ∨ o = 0x1E then [.mem, .gpr 4]
     else if o = 0x07 ∨ o = 0x17 ∨ o = 0x1F then [.gpr 4]
     else if o = 0x27 ∨ o = 0x2F ∨ o = 0x37 ∨ o = 0x3F then [.gpr 0, .flags]
     else [])
  else if o < 0x50 then [.gpr i, .flags]                                 -- INC, DEC
  else if o < 0x58 then [.mem, .gpr 4]                                   -- PUSH
  else if o < 0x60 then [.gpr 4, .gpr i]                                 -- POP
  else if o = 0x60 ∨ o = 0x68 ∨ o = 0x6A then [.mem, .gpr 4]             -- PUSHA, PUSH imm
  else if o = 0x61 then [.gpr 0, .gpr 1, .gpr 2, .gpr 3, .gpr 4, .gpr 5, .gpr 6, .gpr 7] -- POPA
  else if o = 0x69 ∨ o = 0x6B then [.reg, .flags]                        -- IMUL
  else if o = 0x6C ∨ o = 0x6D then [.mem, .gpr 7, .count]                -- INS
  else if o = 0x6E ∨ o = 0x6F then [.gpr 6, .count]                      -- OUTS
  else if o = 0x80 then (if r = 7 then [.flags] else [.rm8, .flags])     -- immediate group
  else if o = 0x81 ∨ o = 0x83 then (if r = 7 then [.flags] else [.rm, .flags])
  else if o = 0x84 ∨ o = 0x85 then [.flags]                              -- TEST
  else if o = 0x86 then [.rm8, .reg8]                                    -- XCHG
  else if o = 0x87 then [.rm, .reg]
  else if o = 0x88 then [.rm8]                                           -- MOV
  else if o = 0x89 ∨ o = 0x8C then [.rm]
  else if o = 0x8A then [.reg8]
  else if o = 0x8B ∨ o = 0x8D then [.reg]                                -- MOV, LEA
  else if o = 0x8F then [.rm, .gpr 4]                                    -- POP r/m
  else if 0x91 ≤ o ∧ o ≤ 0x97 then [.gpr 0, .gpr i]                      -- XCHG AX
  else if o = 0x98 then [.gpr 0]                                         -- CBW
  else if o = 0x99 then [.gpr 2]                                         -- CWD
  else if o = 0x9A ∨ o = 0x9C then [.mem, .gpr 4]                        -- CALL far, PUSHF
  else if o = 0x9D then [.gpr 4, .flags]                                 -- POPF
  else if o = 0x9E then [.flags]                                         -- SAHF
  else if o = 0x9F then [.gpr 0]                                         -- LAHF
  else if o = 0xA0 ∨ o = 0xA1 then [.gpr 0]                              -- MOV direct address
  else if o = 0xA2 ∨ o = 0xA3 then [.mem]
  else if o = 0xA4 ∨ o = 0xA5 then [.mem, .gpr 6, .gpr 7, .count]        -- MOVS
  else if o = 0xA6 ∨ o = 0xA7 then [.flags, .gpr 6, .gpr 7, .count]      -- CMPS
  else if o = 0xA8 ∨ o = 0xA9 then [.flags]                              -- TEST
  else if o = 0xAA ∨ o = 0xAB then [.mem, .gpr 7, .count]                -- STOS
  else if o = 0xAC ∨ o = 0xAD then [.gpr 0, .gpr 6, .count]              -- LODS
  else if o = 0xAE ∨ o = 0xAF then [.flags, .gpr 7, .count]              -- SCAS
  else if 0xB0 ≤ o ∧ o ≤ 0xB7 then [.gpr (i &&& 3)]                      -- MOV imm
  else if 0xB8 ≤ o ∧ o ≤ 0xBF then [.gpr i]
  else if o = 0xC0 ∨ o = 0xD0 ∨ o = 0xD2 then [.rm8, .flags]             -- shifts and rotates
  else if o = 0xC1 ∨ o = 0xD1 ∨ o = 0xD3 then [.rm, .flags]
  else if o = 0xC2 ∨ o = 0xC3 ∨ o = 0xCA ∨ o = 0xCB then [.gpr 4]        -- RET
  else if o = 0xC4 ∨ o = 0xC5 then [.reg]                                -- LES, LDS
  else if o = 0xC6 then [.rm8]                                           -- MOV imm
  else if o = 0xC7 then [.rm]
  else if o = 0xC8 then [.mem, .gpr 4, .gpr 5]                           -- ENTER
  else if o = 0xC9 then [.gpr 4, .gpr 5]                                 -- LEAVE
  else if 0xCC ≤ o ∧ o ≤ 0xCE then [.any]                                -- INT
  else if o = 0xCF then [.gpr 4, .flags]                                 -- IRET
  else if o = 0xD4 then [.gpr 0, .flags, .fault]                         -- AAM
  else if o = 0xD5 then [.gpr 0, .flags]                                 -- AAD
  else if o = 0xD7 then [.gpr 0]                                         -- XLAT
  else if 0xE0 ≤ o ∧ o ≤ 0xE2 then [.gpr 1]                              -- LOOP
  else if o = 0xE4 ∨ o = 0xE5 ∨ o = 0xEC ∨ o = 0xED then [.gpr 0]        -- IN
  else if o = 0xE8 then [.mem, .gpr 4]                                   -- CALL
  else if o = 0xF5 ∨ (0xF8 ≤ o ∧ o ≤ 0xFD) then [.flags]                 -- CMC, CLC … STD
  else if o = 0xF6 then
    (if r = 0 then [.flags] else if r = 2 then [.rm8] else if r = 3 then [.rm8, .flags]
     else if r = 4 ∨ r = 5 then [.gpr 0, .flags] else if r = 6 ∨ r = 7 then [.gpr 0, .fault] else [])
  else if o = 0xF7 then
    (if r = 0 then [.flags] else if r = 2 then [.rm] else if r = 3 then [.rm, .flags]
     else if r = 4 ∨ r = 5 then [.gpr 0, .gpr 2, .flags] else if r = 6 ∨ r = 7 then [.gpr 0, .gpr 2, .fault] else [])
  else if o = 0xFE then (if r = 0 ∨ r = 1 then [.rm8, .flags] else [])
  else if o = 0xFF then
    (if r = 0 ∨ r = 1 then [.rm, .flags] else if r = 2 ∨ r = 3 ∨ r = 6 then [.mem, .gpr 4] else [])
  else []

/-- The destinations of the two-byte opcode `0F op`. -/
def dests0F (op : BitVec 8) : List Dest :=
  let o := op.toNat
  if o = 0xA0 ∨ o = 0xA8 then [.mem, .gpr 4]                             -- PUSH FS, GS
  else if o = 0xA1 ∨ o = 0xA9 then [.gpr 4]                              -- POP FS, GS
  else if o = 0xA4 ∨ o = 0xA5 ∨ o = 0xAC ∨ o = 0xAD then [.rm, .flags]   -- SHLD, SHRD
  else if o = 0xAF then [.reg, .flags]                                   -- IMUL
  else if o = 0xB2 ∨ o = 0xB4 ∨ o = 0xB5 ∨ o = 0xB6 ∨ o = 0xB7 then [.reg] -- LSS, LFS, LGS, MOVZX
  else if o = 0xBA then [.rm, .flags]                                    -- BT, BTS, BTR, BTC
  else if o = 0xBC then [.reg, .flags]                                   -- BSF
  else []

/-- There is a repeat prefix among the prefix bytes. -/
def repIn (pfx : List (BitVec 8)) : Bool := pfx.any fun b => b = 0xF2 ∨ b = 0xF3

/-- `d` is a destination of the instruction at CS:IP, `m` its ModR/M byte (0 if it has none), `rep` whether it has a repeat prefix. -/
inductive HasDest (s : State) : Dest → BitVec 8 → Bool → Prop
  | plain {pfx op d} (hp : GoodPrefixes pfx) (hb : BytesAt s (pfx ++ [op])) (hf : (opForm op 0).1 = false) (hd : d ∈ dests op 0) :
      HasDest s d 0 (repIn pfx)
  | modrm {pfx op m d} (hp : GoodPrefixes pfx) (hb : BytesAt s (pfx ++ [op, m])) (hf : (opForm op (regOf m)).1 = true)
      (hd : d ∈ dests op (regOf m)) : HasDest s d m (repIn pfx)
  | plain0F {pfx op d} (hp : GoodPrefixes pfx) (hb : BytesAt s (pfx ++ [0x0F, op])) (hf : (opForm0F op).1 = false) (hd : d ∈ dests0F op) :
      HasDest s d 0 (repIn pfx)
  | modrm0F {pfx op m d} (hp : GoodPrefixes pfx) (hb : BytesAt s (pfx ++ [0x0F, op, m])) (hf : (opForm0F op).1 = true)
      (hd : d ∈ dests0F op) : HasDest s d m (repIn pfx)

end RME
