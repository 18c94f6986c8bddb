import Verif.Spec.EA
import Verif.Spec.Effects
set_option autoImplicit false
/-
Independent specification of what each instruction may depend on (Intel manual): the sources of every opcode.
-/
namespace RME

/-- A source of an instruction. -/
inductive Src where
  /-- the 8-bit operand named by mod and r/m: a register, or memory at an address computed from registers -/
  | rm8
  /-- the 16- or 32-bit operand named by mod and r/m -/
  | rm
  /-- the address of the operand named by mod and r/m, if it is in memory (the operand is only written) -/
  | addr
  /-- the offset of the operand named by mod and r/m, without its segment -/
  | ofs
  /-- the 8-bit register named by the register field -/
  | reg8
  /-- the 16- or 32-bit register named by the register field -/
  | reg
  /-- the general register with this number (0 = EAX, … 7 = EDI) -/
  | gpr (r : BitVec 3)
  /-- this segment register -/
  | sreg (r : SReg)
  /-- this segment register, unless there is a segment override -/
  | dseg (r : SReg)
  /-- these bits of FLAGS -/
  | flags (m : BitVec 16)
  /-- the counter of a string instruction: CX, if there is a repeat prefix -/
  | count
  /-- a divide error pushes FLAGS, CS, IP -/
  | fault
  /-- a host service may be called, which can read everything -/
  | any
  deriving DecidableEq, Repr

/-- The address of the memory operand of ModR/M byte `m` is computed from register `r` (`adr`: address-size prefix; with a SIB byte
any register). -/
def eaReads (adr : Bool) (m : BitVec 8) (r : BitVec 3) : Bool :=
  if adr then
    if rmOf m = 4 then true
    else if modOf m = 0 ∧ rmOf m = 5 then false
    else decide (r = rmOf m)
  else if rmOf m = 0 then decide (r = 3 ∨ r = 6)
  else if rmOf m = 1 then decide (r = 3 ∨ r = 7)
  else if rmOf m = 2 then decide (r = 5 ∨ r = 6)
  else if rmOf m = 3 then decide (r = 5 ∨ r = 7)
  else if rmOf m = 4 then decide (r = 6)
  else if rmOf m = 5 then decide (r = 7)
  else if rmOf m = 6 then decide (modOf m ≠ 0 ∧ r = 5)
  else decide (r = 3)

/-- The source reads (a part of) the general register `r`; `p`: prefixes, `m`: ModR/M byte. -/
def Src.readsReg (p : Pfx) (m : BitVec 8) (r : BitVec 3) : Src → Bool
  | .rm8 => if modOf m = 3 then decide (r = rmOf m &&& 3) else eaReads p.addr m r
  | .rm => if modOf m = 3 then decide (r = rmOf m) else eaReads p.addr m r
  | .addr | .ofs => decide (modOf m ≠ 3) && eaReads p.addr m r
  | .reg8 => decide (r = regOf m &&& 3)
  | .reg => decide (r = regOf m)
  | .gpr i => decide (r = i)
  | .count => decide (p.rep ≠ .none ∧ r = 1)
  | .fault => decide (r = 4)
  | .any => true
  | _ => false

/-- The source reads the segment register `r`. -/
def Src.readsSeg (p : Pfx) (m : BitVec 8) (r : SReg) : Src → Bool
  | .rm8 | .rm | .addr => decide (modOf m ≠ 3 ∧ r = usedSeg p m)
  | .sreg i => decide (r = i)
  | .dseg i => decide (r = p.seg.getD i)
  | .fault => decide (r = .ss)
  | .any => true
  | _ => false

/-- The flag bits the source reads. -/
def Src.readsFlags : Src → BitVec 16
  | .flags m => m
  | .fault | .any => 0xFFFF
  | _ => 0

/-- The flags tested by condition code `c` (0 = O, 1 = NO, … 15 = G). -/
def condFlags (c : Nat) : BitVec 16 :=
  if c / 2 = 0 then 0x800                    -- OF
  else if c / 2 = 1 then 0x001               -- CF
  else if c / 2 = 2 then 0x040               -- ZF
  else if c / 2 = 3 then 0x041               -- CF, ZF
  else if c / 2 = 4 then 0x080               -- SF
  else if c / 2 = 5 then 0x004               -- PF
  else if c / 2 = 6 then 0x880               -- SF, OF
  else 0x8C0                                 -- ZF, SF, OF

/-- The carry flag, for ADC/SBB (2, 3 of the immediate group) and RCL/RCR (2, 3 of the shift group). -/
def carryIf (r : BitVec 3) : List Src := if r = 2 ∨ r = 3 then [.flags 0x001] else []

/-- The sources of the one-byte opcode `op`; `r`: register field of the ModR/M byte. -/
def srcs (op : BitVec 8) (r : BitVec 3) : List Src :=
  let o := op.toNat
  let i : BitVec 3 := BitVec.ofNat 3 o
  if o < 0x40 then
    (if o % 8 < 6 then
      (if o / 8 = 2 ∨ o / 8 = 3 then [.flags 0x001] else []) ++
        (if o % 8 = 0 ∨ o % 8 = 2 then [.rm8, .reg8] else if o % 8 = 1 ∨ o % 8 = 3 then [.rm, .reg] else [.gpr 0])
     else if o = 0x06 then [.sreg .es, .gpr 4, .sreg .ss]
     else if o = 0x0E then [.sreg .cs, .gpr 4, .sreg .ss]
     else if o = 0x16 then [.gpr 4, .sreg .ss]
     else if o = 0x1E then [.sreg .ds, .gpr 4, .sreg .ss]
     else if o = 0x07 ∨ o = 0x17 ∨ o = 0x1F then [.gpr 4, .sreg .ss]
     else if o = 0x27 ∨ o = 0x2F then [.gpr 0, .flags 0x011]             -- DAA, DAS: CF, AF
     else if o = 0x37 ∨ o = 0x3F then [.gpr 0, .flags 0x010]             -- AAA, AAS: AF
     else [])
  else if o < 0x50 then [.gpr i]                                         -- INC, DEC
  else if o < 0x58 then [.gpr i, .gpr 4, .sreg .ss]                      -- PUSH
  else if o < 0x60 then [.gpr 4, .sreg .ss]                              -- POP
  else if o = 0x60 then [.gpr 0, .gpr 1, .gpr 2, .gpr 3, .gpr 4, .gpr 5, .gpr 6, .gpr 7, .sreg .ss] -- PUSHA
  else if o = 0x61 ∨ o = 0x68 ∨ o = 0x6A then [.gpr 4, .sreg .ss]        -- POPA, PUSH imm
  else if o = 0x69 ∨ o = 0x6B then [.rm]                                 -- IMUL r, r/m, imm
  else if o = 0x6C ∨ o = 0x6D then [.gpr 2, .gpr 7, .sreg .es, .flags 0x400, .count]   -- INS
  else if o = 0x6E ∨ o = 0x6F then [.gpr 2, .gpr 6, .dseg .ds, .flags 0x400, .count]   -- OUTS
  else if 0x70 ≤ o ∧ o ≤ 0x7F then [.flags (condFlags (o - 0x70))]       -- Jcc
  else if o = 0x80 then .rm8 :: carryIf r                                -- immediate group
  else if o = 0x81 ∨ o = 0x83 then .rm :: carryIf r
  else if o = 0x84 ∨ o = 0x86 then [.rm8, .reg8]                         -- TEST, XCHG
  else if o = 0x85 ∨ o = 0x87 then [.rm, .reg]
  else if o = 0x88 then [.addr, .reg8]                                   -- MOV
  else if o = 0x89 then [.addr, .reg]
  else if o = 0x8A then [.rm8]
  else if o = 0x8B ∨ o = 0x8E then [.rm]
  else if o = 0x8C then
    .addr :: (if r = 0 then [.sreg .es] else if r = 1 then [.sreg .cs] else if r = 2 then [.sreg .ss] else if r = 3 then [.sreg .ds]
      else if r = 4 then [.sreg .fs] else if r = 5 then [.sreg .gs] else [])
  else if o = 0x8D then [.ofs]                                           -- LEA
  else if o = 0x8F then [.addr, .gpr 4, .sreg .ss]                       -- POP r/m
  else if 0x91 ≤ o ∧ o ≤ 0x97 then [.gpr 0, .gpr i]                      -- XCHG AX
  else if o = 0x98 ∨ o = 0x99 then [.gpr 0]                              -- CBW, CWD
  else if o = 0x9A then [.gpr 4, .sreg .ss]                              -- CALL far
  else if o = 0x9C then [.gpr 4, .sreg .ss, .flags 0xFFFF]               -- PUSHF
  else if o = 0x9D then [.gpr 4, .sreg .ss]                              -- POPF
  else if o = 0x9E then [.gpr 0]                                         -- SAHF
  else if o = 0x9F then [.flags 0x0FF]                                   -- LAHF
  else if o = 0xA0 ∨ o = 0xA1 then [.dseg .ds]                           -- MOV direct address
  else if o = 0xA2 ∨ o = 0xA3 then [.dseg .ds, .gpr 0]
  else if 0xA4 ≤ o ∧ o ≤ 0xA7 then [.gpr 6, .gpr 7, .dseg .ds, .sreg .es, .flags 0x400, .count] -- MOVS, CMPS
  else if o = 0xA8 ∨ o = 0xA9 then [.gpr 0]                              -- TEST
  else if o = 0xAA ∨ o = 0xAB then [.gpr 0, .gpr 7, .sreg .es, .flags 0x400, .count]    -- STOS
  else if o = 0xAC ∨ o = 0xAD then [.gpr 6, .dseg .ds, .flags 0x400, .count]            -- LODS
  else if o = 0xAE ∨ o = 0xAF then [.gpr 0, .gpr 7, .sreg .es, .flags 0x400, .count]    -- SCAS
  else if o = 0xC0 ∨ o = 0xD0 then .rm8 :: carryIf r                     -- shifts and rotates
  else if o = 0xC1 ∨ o = 0xD1 then .rm :: carryIf r
  else if o = 0xD2 then .gpr 1 :: .rm8 :: carryIf r
  else if o = 0xD3 then .gpr 1 :: .rm :: carryIf r
  else if o = 0xC2 ∨ o = 0xC3 ∨ o = 0xCA ∨ o = 0xCB ∨ o = 0xCF then [.gpr 4, .sreg .ss] -- RET, IRET
  else if 0xC4 ≤ o ∧ o ≤ 0xC7 then [.addr]                               -- LES, LDS, MOV imm
  else if o = 0xC8 then [.gpr 4, .gpr 5, .sreg .ss]                      -- ENTER
  else if o = 0xC9 then [.gpr 5, .sreg .ss]                              -- LEAVE
  else if 0xCC ≤ o ∧ o ≤ 0xCE then [.any]                                -- INT
  else if o = 0xD4 then [.gpr 0, .fault]                                 -- AAM
  else if o = 0xD5 then [.gpr 0]                                         -- AAD
  else if o = 0xD7 then [.gpr 0, .gpr 3, .dseg .ds]                      -- XLAT
  else if o = 0xE0 ∨ o = 0xE1 then [.gpr 1, .flags 0x040]                -- LOOPNZ, LOOPZ
  else if o = 0xE2 ∨ o = 0xE3 then [.gpr 1]                              -- LOOP, JCXZ
  else if o = 0xE6 ∨ o = 0xE7 then [.gpr 0]                              -- OUT imm
  else if o = 0xE8 then [.gpr 4, .sreg .ss]                              -- CALL
  else if o = 0xEC ∨ o = 0xED then [.gpr 2]                              -- IN
  else if o = 0xEE ∨ o = 0xEF then [.gpr 0, .gpr 2]                      -- OUT
  else if o = 0xF6 then
    .rm8 :: (if r = 4 ∨ r = 5 then [.gpr 0] else if r = 6 ∨ r = 7 then [.gpr 0, .fault] else [])
  else if o = 0xF7 then
    .rm :: (if r = 4 ∨ r = 5 then [.gpr 0] else if r = 6 ∨ r = 7 then [.gpr 0, .gpr 2, .fault] else [])
  else if o = 0xFE then (if r = 0 ∨ r = 1 then [.rm8] else [])
  else if o = 0xFF then
    (if r = 0 ∨ r = 1 ∨ r = 4 then [.rm] else if r = 2 ∨ r = 6 then [.rm, .gpr 4, .sreg .ss]
     else if r = 3 then [.addr, .gpr 4, .sreg .ss] else if r = 5 then [.addr] else [])
  else []

/-- The sources of the two-byte opcode `0F op`. -/
def srcs0F (op : BitVec 8) : List Src :=
  let o := op.toNat
  if 0x80 ≤ o ∧ o ≤ 0x8F then [.flags (condFlags (o - 0x80))]            -- Jcc
  else if o = 0xA0 then [.sreg .fs, .gpr 4, .sreg .ss]                   -- PUSH FS
  else if o = 0xA8 then [.sreg .gs, .gpr 4, .sreg .ss]                   -- PUSH GS
  else if o = 0xA1 ∨ o = 0xA9 then [.gpr 4, .sreg .ss]                   -- POP FS, GS
  else if o = 0xA4 ∨ o = 0xAC then [.rm, .reg]                           -- SHLD, SHRD
  else if o = 0xA5 ∨ o = 0xAD then [.rm, .reg, .gpr 1]
  else if o = 0xAF then [.rm, .reg]                                      -- IMUL
  else if o = 0xB2 ∨ o = 0xB4 ∨ o = 0xB5 then [.addr]                    -- LSS, LFS, LGS
  else if o = 0xB6 then [.rm8]                                           -- MOVZX
  else if o = 0xB7 ∨ o = 0xBA ∨ o = 0xBC then [.rm]                      -- MOVZX, bit test, BSF
  else []

/-- `d` is a source of the instruction at CS:IP with prefixes `p` and ModR/M byte `m` (0 if it has none). -/
inductive HasSrc (s : State) : Src → BitVec 8 → Pfx → Prop
  | plain {pfx p op d} (hp : Pfx.parse {} pfx = some p) (hb : BytesAt s (pfx ++ [op])) (hf : (opForm op 0).1 = false) (hd : d ∈ srcs op 0) :
      HasSrc s d 0 p
  | modrm {pfx p op m d} (hp : Pfx.parse {} pfx = some p) (hb : BytesAt s (pfx ++ [op, m])) (hf : (opForm op (regOf m)).1 = true)
      (hd : d ∈ srcs op (regOf m)) : HasSrc s d m p
  | plain0F {pfx p op d} (hp : Pfx.parse {} pfx = some p) (hb : BytesAt s (pfx ++ [0x0F, op])) (hf : (opForm0F op).1 = false) (hd : d ∈ srcs0F op) :
      HasSrc s d 0 p
  | modrm0F {pfx p op m d} (hp : Pfx.parse {} pfx = some p) (hb : BytesAt s (pfx ++ [0x0F, op, m])) (hf : (opForm0F op).1 = true)
      (hd : d ∈ srcs0F op) : HasSrc s d m p

/-- The two machines agree in everything except (at most) the general registers `regs`, the segment registers `segs` and the flag bits `fl`. -/
structure DiffersIn (regs : BitVec 3 → Bool) (segs : SReg → Bool) (fl : BitVec 16) (s t : State) : Prop where
  gpr : ∀ r, regs r = false → s.gpr r = t.gpr r
  sreg : ∀ r, segs r = false → s.sreg r = t.sreg r
  flags : s.flags &&& ~~~fl = t.flags &&& ~~~fl
  ip : s.ip = t.ip
  cpuType : s.cpuType = t.cpuType
  debugLevel : s.debugLevel = t.debugLevel
  map : s.map = t.map
  host : s.host = t.host
  valid : s.valid = t.valid
  instrNum : s.instrNum = t.instrNum
  lastNull : s.lastNull = t.lastNull
  dec : s.dec = t.dec
  io : s.io = t.io

/-- The two machines agree in everything except (at most) bits 16–31 of the general registers. -/
structure DiffersHigh (s t : State) : Prop where
  gpr : ∀ r, (s.gpr r).setWidth 16 = (t.gpr r).setWidth 16
  sreg : s.sreg = t.sreg
  flags : s.flags = t.flags
  ip : s.ip = t.ip
  cpuType : s.cpuType = t.cpuType
  debugLevel : s.debugLevel = t.debugLevel
  map : s.map = t.map
  host : s.host = t.host
  valid : s.valid = t.valid
  instrNum : s.instrNum = t.instrNum
  lastNull : s.lastNull = t.lastNull
  dec : s.dec = t.dec
  io : s.io = t.io

end RME
