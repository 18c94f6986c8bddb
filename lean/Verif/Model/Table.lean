import Verif.Model.Ops
set_option autoImplicit false
/-
Model of the opcode tables, src/opcode_table.h:38-161, and of the dispatch through the function
pointers stored in them (src/rme.c:252, 324).
-/
namespace RME

/-- The functions `RME_Op_<name>_<type>` that appear in the tables (src/opcode_prototypes.h), except
`RME_Op_Ext_0F`. -/
inductive Op where
  | alu (k : AluOp) (form : AluForm)
  | pushSeg | popSeg | ovrSeg | ovrOper | ovrAddr | rep | repnz
  | daa | das | aaa | aas | aam | aad
  | incReg | decReg | pushReg | popReg | xchgReg | movRegB | movReg
  | pushA | popA | pushF | popF | popMX | pushI | pushI8
  | imulMIX | imulMI8X | imulRMX
  | ins (wide : Bool) | outs (wide : Bool) | movs (wide : Bool) | stos (wide : Bool)
  | lods (wide : Bool) | cmps (wide : Bool) | scas (wide : Bool)
  | jccS (k : Cond) | jccN (k : Cond) | loop (k : LoopKind) | jcxz
  | arithMI | arithMIX | arithMI8X | miscMI | miscMIX
  | shiftMI | shiftMI8X | shiftM1 | shiftM1X | shiftMCl | shiftMClX
  | unaryM | unaryMX
  | testMR | testMRX | testAI | testAIX
  | xchgRM | xchgRMX
  | movMR | movMRX | movRM | movRMX | movRS | movSR | movMI | movMIX
  | movAMo | movAMoX | movMoA | movMoAX | movZ | movZX
  | lea | lxs (sr : SReg) | xlat | cbw | cwd | hlt | bsf | btx
  | callN | callF | retN | retF | retiN | retiF | enter | leave
  | int3 | intI | into | iret
  | jmpN | jmpF | jmpS
  | inAI | inAIX | inADx | inADxX | outAI | outAIX | outDxA | outDxAX
  | flag (k : FlagOp) | sahf | lahf
  | shxdI8 (right : Bool) | shxdCl (right : Bool)
  deriving DecidableEq, Repr

/-- Call of an opcode function with its parameter. -/
def opFn (o : Op) (p : BitVec 3) : M Unit :=
  match o with
  | .alu k form => opAlu k form
  | .pushSeg => opPushSeg p
  | .popSeg => opPopSeg p
  | .ovrSeg => opOvrSeg p
  | .ovrOper => opOvrOper
  | .ovrAddr => opOvrAddr
  | .rep => opPrefixRep .rep
  | .repnz => opPrefixRep .repnz
  | .daa => opDA false
  | .das => opDA true
  | .aaa => opAA false
  | .aas => opAA true
  | .aam => opAam
  | .aad => opAad
  | .incReg => opIncReg p
  | .decReg => opDecReg p
  | .pushReg => opPushReg p
  | .popReg => opPopReg p
  | .xchgReg => opXchgReg p
  | .movRegB => opMovRegB p
  | .movReg => opMovReg p
  | .pushA => opPushA
  | .popA => opPopA
  | .pushF => opPushF
  | .popF => opPopF
  | .popMX => opPopMX
  | .pushI => opPushI
  | .pushI8 => opPushI8
  | .imulMIX => opImulMIX
  | .imulMI8X => opImulMI8X
  | .imulRMX => opImulRMX
  | .ins w => opIns w
  | .outs w => opOuts w
  | .movs w => opMovs w
  | .stos w => opStos w
  | .lods w => opLods w
  | .cmps w => opCmps w
  | .scas w => opScas w
  | .jccS k => opJccS k
  | .jccN k => opJccN k
  | .loop k => opLoop k
  | .jcxz => opJcxz
  | .arithMI => opArithMI p
  | .arithMIX => opArithMIX p
  | .arithMI8X => opArithMI8X p
  | .miscMI => opMiscMI p
  | .miscMIX => opMiscMIX p
  | .shiftMI => opShiftMI p
  | .shiftMI8X => opShiftMI8X p
  | .shiftM1 => opShiftM1 p
  | .shiftM1X => opShiftM1X p
  | .shiftMCl => opShiftMCl p
  | .shiftMClX => opShiftMClX p
  | .unaryM => opUnaryM p
  | .unaryMX => opUnaryMX p
  | .testMR => opTestMR
  | .testMRX => opTestMRX
  | .testAI => opTestAI
  | .testAIX => opTestAIX
  | .xchgRM => opXchgRM
  | .xchgRMX => opXchgRMX
  | .movMR => opMovMR
  | .movMRX => opMovMRX
  | .movRM => opMovRM
  | .movRMX => opMovRMX
  | .movRS => opMovRS
  | .movSR => opMovSR
  | .movMI => opMovMI
  | .movMIX => opMovMIX
  | .movAMo => opMovAMo
  | .movAMoX => opMovAMoX
  | .movMoA => opMovMoA
  | .movMoAX => opMovMoAX
  | .movZ => opMovZ
  | .movZX => opMovZX
  | .lea => opLea
  | .lxs sr => opLxs sr
  | .xlat => opXlat
  | .cbw => opCbw
  | .cwd => opCwd
  | .hlt => opHlt
  | .bsf => opBsf
  | .btx => opBtx p
  | .callN => opCallN
  | .callF => opCallF
  | .retN => opRetN
  | .retF => opRetF
  | .retiN => opRetiN
  | .retiF => opRetiF
  | .enter => opEnter
  | .leave => opLeave
  | .int3 => opInt3
  | .intI => opIntI
  | .into => opInto
  | .iret => opIret
  | .jmpN => opJmpN
  | .jmpF => opJmpF
  | .jmpS => opJmpS
  | .inAI => opInAI
  | .inAIX => opInAIX
  | .inADx => opInADx
  | .inADxX => opInADxX
  | .outAI => opOutAI
  | .outAIX => opOutAIX
  | .outDxA => opOutDxA
  | .outDxAX => opOutDxAX
  | .flag k => opFlag k
  | .sahf => opSahf
  | .lahf => opLahf
  | .shxdI8 r => opShxdI8 r
  | .shxdCl r => opShxdCl r

/-- The `Function` field: a plain opcode function or `RME_Op_Ext_0F`. -/
inductive Fn where
  | base (o : Op)
  | ext0F
  deriving DecidableEq, Repr

/-- `tOperation` without the texts; `modrm` = `ModRMNames != NULL`, src/opcode_table.h:38-45. -/
structure Entry where
  fn : Fn
  arg : BitVec 3
  modrm : Bool
  deriving DecidableEq, Repr

/-- `DEF_OP`, `DEF_OP_A`, `DEF_OP_N`, src/opcode_table.h:13-16. -/
def dOp (o : Op) : Option Entry := some ⟨.base o, 0, false⟩
def dOpA (o : Op) (a : BitVec 3) : Option Entry := some ⟨.base o, a, false⟩
def dOpN (o : Op) : Option Entry := some ⟨.base o, 0, true⟩
/-- `DEF_ALU_OP`, src/opcode_table.h:18-20. -/
def dAlu (k : AluOp) : List (Option Entry) :=
  [dOp (.alu k .MR), dOp (.alu k .MRX), dOp (.alu k .RM), dOp (.alu k .RMX),
   dOp (.alu k .AI), dOp (.alu k .AIX)]
/-- `DEF_REG_OP` / `DEF_REGB_OP`, src/opcode_table.h:22-29. -/
def dReg (o : Op) : List (Option Entry) :=
  [dOpA o 0, dOpA o 1, dOpA o 2, dOpA o 3, dOpA o 4, dOpA o 5, dOpA o 6, dOpA o 7]
/-- `REP_8(UNDEF_OP)` -/
def undef8 : List (Option Entry) := [none, none, none, none, none, none, none, none]

/-- `caOperations`, src/opcode_table.h:47-118. -/
def opTable : List (Option Entry) :=
  /- 00 -/ dAlu .add ++ [dOpA .pushSeg 0, dOpA .popSeg 0] ++
  /- 08 -/ dAlu .or ++ [dOpA .pushSeg 1, some ⟨.ext0F, 0, false⟩] ++
  /- 10 -/ dAlu .adc ++ [dOpA .pushSeg 2, dOpA .popSeg 2] ++
  /- 18 -/ dAlu .sbb ++ [dOpA .pushSeg 3, dOpA .popSeg 3] ++
  /- 20 -/ dAlu .and ++ [dOpA .ovrSeg 0, dOp .daa] ++
  /- 28 -/ dAlu .sub ++ [dOpA .ovrSeg 1, dOp .das] ++
  /- 30 -/ dAlu .xor ++ [dOpA .ovrSeg 2, dOp .aaa] ++
  /- 38 -/ dAlu .cmp ++ [dOpA .ovrSeg 3, dOp .aas] ++
  /- 40 -/ dReg .incReg ++
  /- 48 -/ dReg .decReg ++
  /- 50 -/ dReg .pushReg ++
  /- 58 -/ dReg .popReg ++
  /- 60 -/ [dOp .pushA, dOp .popA, none, none,
  /- 64 -/  dOpA .ovrSeg 4, dOpA .ovrSeg 5, dOp .ovrOper, dOp .ovrAddr,
  /- 68 -/  dOp .pushI, dOp .imulMIX, dOp .pushI8, dOp .imulMI8X,
  /- 6C -/  dOp (.ins false), dOp (.ins true), dOp (.outs false), dOp (.outs true),
  /- 70 -/  dOp (.jccS .o), dOp (.jccS .no), dOp (.jccS .c), dOp (.jccS .nc),
  /- 74 -/  dOp (.jccS .z), dOp (.jccS .nz), dOp (.jccS .be), dOp (.jccS .a),
  /- 78 -/  dOp (.jccS .s), dOp (.jccS .ns), dOp (.jccS .pe), dOp (.jccS .po),
  /- 7C -/  dOp (.jccS .l), dOp (.jccS .ge), dOp (.jccS .le), dOp (.jccS .g),
  /- 80 -/  dOpN .arithMI, dOpN .arithMIX, none, dOpN .arithMI8X,
  /- 84 -/  dOp .testMR, dOp .testMRX, dOp .xchgRM, dOp .xchgRMX,
  /- 88 -/  dOp .movMR, dOp .movMRX, dOp .movRM, dOp .movRMX,
  /- 8C -/  dOp .movRS, dOp .lea, dOp .movSR, dOp .popMX] ++
  /- 90 -/ dReg .xchgReg ++
  /- 98 -/ [dOp .cbw, dOp .cwd, dOp .callF, none,
  /- 9C -/  dOp .pushF, dOp .popF, dOp .sahf, dOp .lahf,
  /- A0 -/  dOp .movAMo, dOp .movAMoX, dOp .movMoA, dOp .movMoAX,
  /- A4 -/  dOp (.movs false), dOp (.movs true), dOp (.cmps false), dOp (.cmps true),
  /- A8 -/  dOp .testAI, dOp .testAIX, dOp (.stos false), dOp (.stos true),
  /- AC -/  dOp (.lods false), dOp (.lods true), dOp (.scas false), dOp (.scas true)] ++
  /- B0 -/ dReg .movRegB ++
  /- B8 -/ dReg .movReg ++
  /- C0 -/ [dOpN .shiftMI, dOpN .shiftMI8X, dOp .retiN, dOp .retN,
  /- C4 -/  dOp (.lxs .es), dOp (.lxs .ds), dOp .movMI, dOp .movMIX,
  /- C8 -/  dOp .enter, dOp .leave, dOp .retiF, dOp .retF,
  /- CC -/  dOp .int3, dOp .intI, dOp .into, dOp .iret,
  /- D0 -/  dOpN .shiftM1, dOpN .shiftM1X, dOpN .shiftMCl, dOpN .shiftMClX,
  /- D4 -/  dOp .aam, dOp .aad, none, dOp .xlat] ++
  /- D8 -/ undef8 ++
  /- E0 -/ [dOp (.loop .nz), dOp (.loop .z), dOp (.loop .always), dOp .jcxz,
  /- E4 -/  dOp .inAI, dOp .inAIX, dOp .outAI, dOp .outAIX,
  /- E8 -/  dOp .callN, dOp .jmpN, dOp .jmpF, dOp .jmpS,
  /- EC -/  dOp .inADx, dOp .inADxX, dOp .outDxA, dOp .outDxAX,
  /- F0 -/  none, none, dOp .repnz, dOp .rep,
  /- F4 -/  dOp .hlt, dOp (.flag .cmc), dOpN .miscMI, dOpN .miscMIX,
  /- F8 -/  dOp (.flag .clc), dOp (.flag .stc), dOp (.flag .cli), dOp (.flag .sti),
  /- FC -/  dOp (.flag .cld), dOp (.flag .std), dOpN .unaryM, dOpN .unaryMX]

/-- `caOperations0F`, src/opcode_table.h:122-161.  `Arg` of BTx is 0 and `ModRMNames` is not
consulted by `RME_Op_Ext_0F`. -/
def opTable0F : List (Option Entry) :=
  /- 00 -/ undef8 ++ undef8 ++ undef8 ++ undef8 ++ undef8 ++ undef8 ++ undef8 ++ undef8 ++
  /- 40 -/ undef8 ++ undef8 ++ undef8 ++ undef8 ++ undef8 ++ undef8 ++ undef8 ++ undef8 ++
  /- 80 -/ [dOp (.jccN .o), dOp (.jccN .no), dOp (.jccN .c), dOp (.jccN .nc),
  /- 84 -/  dOp (.jccN .z), dOp (.jccN .nz), dOp (.jccN .be), dOp (.jccN .a),
  /- 88 -/  dOp (.jccN .s), dOp (.jccN .ns), dOp (.jccN .pe), dOp (.jccN .po),
  /- 8C -/  dOp (.jccN .l), dOp (.jccN .ge), dOp (.jccN .le), dOp (.jccN .g)] ++
  /- 90 -/ undef8 ++ undef8 ++
  /- A0 -/ [dOpA .pushSeg 4, dOpA .popSeg 4, none, none,
  /- A4 -/  dOp (.shxdI8 false), dOp (.shxdCl false), none, none,
  /- A8 -/  dOpA .pushSeg 5, dOpA .popSeg 5, none, none,
  /- AC -/  dOp (.shxdI8 true), dOp (.shxdCl true), none, dOp .imulRMX,
  /- B0 -/  none, none, dOp (.lxs .ss), none,
  /- B4 -/  dOp (.lxs .fs), dOp (.lxs .gs), dOp .movZ, dOp .movZX,
  /- B8 -/  none, none, dOpN .btx, none,
  /- BC -/  dOp .bsf, none, none, none] ++
  /- C0 -/ undef8 ++ undef8 ++ undef8 ++ undef8 ++ undef8 ++ undef8 ++ undef8 ++ undef8

/-- `caOperations[opcode]` -/
def opEntry (b : BitVec 8) : Option Entry := (opTable[b.toNat]?).join
/-- `caOperations0F[extra]` -/
def opEntry0F (b : BitVec 8) : Option Entry := (opTable0F[b.toNat]?).join

/-- `RME_Op_Ext_0F`, src/rme.c:312-325.  (No entry of `caOperations0F` is `RME_Op_Ext_0F` itself.) -/
def ext0F : M Unit := do
  let extra ← readInstr 8
  match opEntry0F extra with
  | some ⟨.base o, arg, _⟩ => opFn o arg
  | _ => throwE .undefOpcode

/-- Call through `caOperations[opcode].Function`, src/rme.c:252. -/
def callFn (f : Fn) (p : BitVec 3) : M Unit :=
  match f with
  | .base o => opFn o p
  | .ext0F => ext0F

end RME
