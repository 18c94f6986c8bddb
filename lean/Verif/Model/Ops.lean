import Verif.Model.ModRM
import Verif.Model.Alu
set_option autoImplicit false
/-
Model of the opcode functions: src/ops_alu.c, ops_mov.c, ops_stack.c, ops_flags.c, ops_call.c,
ops_jump.c, ops_io.c, ops_misc.c, ops_string.c, prefixes.c and the Unary group of src/rme.c.
-/
namespace RME

/-- The 16/32-bit choice on `Decoder.bOverrideOperand` made by every "X" function. -/
def withW {α : Type} (f : Nat → M α) : M α := do
  let d ← getDec
  if d.ovrOper then f 32 else f 16

/-! ### ALU operations (src/ops_alu.c) -/

/-- Operand forms generated by `CREATE_ALU_OPCODE_FCN`, src/ops_alu.c:21-123. -/
inductive AluForm where
  | MR | MRX | RM | RMX | AI | AIX
  deriving DecidableEq, Repr

/-- Apply an ALU operation to `*dest` and the value `s`, set flags, write back
(common body of src/ops_alu.c:21-115, 180-270). -/
def aluApply (k : AluOp) (n : Nat) (dest : Loc) (s : BitVec n) : M Unit := do
  let d ← readLoc n dest
  let f ← getFlags
  let r := aluExec k d s f
  setFlags r.2
  if k.writes then writeLoc n dest r.1 else pure ()

/-- `RME_Op_<ALU>_<form>`, src/ops_alu.c:21-133. -/
def opAlu (k : AluOp) (form : AluForm) : M Unit :=
  match form with
  | .RM => do let (r, m) ← parseModRM; let s ← readLoc 8 m; aluApply k 8 r s
  | .RMX => do let (r, m) ← parseModRMX; withW fun n => do let s ← readLoc n m; aluApply k n r s
  | .MR => do let (r, m) ← parseModRM; let s ← readLoc 8 r; aluApply k 8 m s
  | .MRX => do let (r, m) ← parseModRMX; withW fun n => do let s ← readLoc n r; aluApply k n m s
  | .AI => do let s ← readInstr 8; aluApply k 8 (.reg rAX) s
  | .AIX => withW fun n => do let s ← readInstr n; aluApply k n (.reg rAX) s

/-- Flags of TEST applied to `*dest` and a value, src/ops_alu.c:135-138. -/
def testApply (n : Nat) (dest : Loc) (s : BitVec n) : M Unit := do
  let d ← readLoc n dest
  let f ← getFlags
  setFlags (aluTest d s f)

/-- `RME_Op_TEST_{MR,MRX,AI,AIX}`, src/ops_alu.c:135-138. -/
def opTestMR : M Unit := do let (r, m) ← parseModRM; let s ← readLoc 8 r; testApply 8 m s
def opTestMRX : M Unit := do
  let (r, m) ← parseModRMX
  withW fun n => do let s ← readLoc n r; testApply n m s
def opTestAI : M Unit := do let s ← readInstr 8; testApply 8 (.reg rAX) s
def opTestAIX : M Unit := withW fun n => do let s ← readInstr n; testApply n (.reg rAX) s

/-- `op_num` → operation, src/ops_alu.c:140-150 (the 3-bit field covers all eight cases). -/
def aluOfNum (p : BitVec 3) : AluOp :=
  if p = 0 then .add else if p = 1 then .or else if p = 2 then .adc else if p = 3 then .sbb
  else if p = 4 then .and else if p = 5 then .sub else if p = 6 then .xor else .cmp

/-- `RME_Op_Arith_MI`, src/ops_alu.c:180-199. -/
def opArithMI (p : BitVec 3) : M Unit := do
  let (_, m) ← parseModRM
  let s ← readInstr 8
  aluApply (aluOfNum p) 8 m s

/-- `State->Flags &= ~(OF|ZF|SF|PF)`, src/ops_alu.c:210,245. -/
def clearOZSP : M Unit := do
  let f ← getFlags
  setFlags (clr f (FLAG_OF ||| FLAG_ZF ||| FLAG_SF ||| FLAG_PF))

/-- `RME_Op_Arith_MIX`, src/ops_alu.c:201-235. -/
def opArithMIX (p : BitVec 3) : M Unit := do
  let (_, m) ← parseModRMX
  clearOZSP
  withW fun n => do let s ← readInstr n; aluApply (aluOfNum p) n m s

/-- `RME_Op_Arith_MI8X`, src/ops_alu.c:237-270. -/
def opArithMI8X (p : BitVec 3) : M Unit := do
  let (_, m) ← parseModRMX
  clearOZSP
  withW fun n => do let s ← readInstr8S n; aluApply (aluOfNum p) n m s

/-- `ALU_OPCODE_INC_CODE` / `ALU_OPCODE_DEC_CODE` on `*dest`, src/ops_alu.h:100-112. -/
def incApply (n : Nat) (dest : Loc) : M Unit := do
  let d ← readLoc n dest
  let f ← getFlags
  let r := aluInc d f
  writeLoc n dest r.1
  setFlags r.2
def decApply (n : Nat) (dest : Loc) : M Unit := do
  let d ← readLoc n dest
  let f ← getFlags
  let r := aluDec d f
  writeLoc n dest r.1
  setFlags r.2

/-- `RME_Op_INC_Reg`, `RME_Op_DEC_Reg`, src/ops_alu.c:272-305. -/
def opIncReg (p : BitVec 3) : M Unit := withW fun n => incApply n (regW p)
def opDecReg (p : BitVec 3) : M Unit := withW fun n => decApply n (regW p)

/-- Store the double-width result of MUL/IMUL: AX for 8 bit, DX:AX, EDX:EAX
(src/ops_alu.h:221-236,254-270). -/
def storeProduct (n : Nat) (lo hi : BitVec n) : M Unit :=
  if n = 8 then setReg 16 rAX ((hi.setWidth 16 <<< 8) ||| lo.setWidth 16)
  else do
    setReg n rDX hi
    setReg n rAX lo

/-- The double-width dividend AX / DX:AX / EDX:EAX, src/ops_alu.h:281-299. -/
def dividend (s : State) (n : Nat) : BitVec (n + n) :=
  if n = 8 then (s.reg 16 rAX).setWidth (n + n)
  else (s.reg n rDX).append (s.reg n rAX)

/-- Store quotient and remainder: AL/AH, AX/DX, EAX/EDX, src/ops_alu.h:284-304,319-337. -/
def storeQuot (n : Nat) (q r : BitVec n) : M Unit :=
  if n = 8 then do
    modify (·.setRegH 8 rAX (r.setWidth 8))
    setReg 8 rAX (q.setWidth 8)
  else do
    setReg n rDX r
    setReg n rAX q

/-- `MISC_SELECT_OPERATION` on the operand `arg`, src/ops_alu.c:168-178. -/
def miscOp (n : Nat) (p : BitVec 3) (arg : Loc) : M Unit :=
  if p = 0 then do            -- TEST imm
    let imm ← readInstr n
    let s ← readLoc n arg
    let f ← getFlags
    setFlags (aluTest imm s f)
  else if p = 1 then throwE .undefOpcode
  else if p = 2 then do       -- NOT
    let s ← readLoc n arg
    writeLoc n arg (~~~s)
  else if p = 3 then do       -- NEG
    let s ← readLoc n arg
    let f ← getFlags
    let r := aluNeg s f
    writeLoc n arg r.1
    setFlags r.2
  else if p = 4 then do       -- MUL
    let s ← readLoc n arg
    let a ← getReg n rAX
    let f ← getFlags
    let r := mulCode a s f
    storeProduct n r.1 r.2.1
    setFlags r.2.2
  else if p = 5 then do       -- IMUL
    let s ← readLoc n arg
    let a ← getReg n rAX
    let f ← getFlags
    let r := imulCode a s f
    storeProduct n r.1 r.2.1
    setFlags r.2.2
  else if p = 6 then do       -- DIV
    let s ← readLoc n arg
    guardE (s == 0) .divErr
    let num ← gets (dividend · n)
    match divCode num s with
    | none => throwE .divErr
    | some (q, r) => storeQuot n q r
  else do                     -- IDIV
    let s ← readLoc n arg
    guardE (s == 0) .divErr
    let num ← gets (dividend · n)
    let r ← liftUB (idivCode n num.toInt s.toInt)
    match r with
    | none => throwE .divErr
    | some (q, r) => storeQuot n q r

/-- `RME_Op_ArithMisc_MI`, src/ops_alu.c:307-324. -/
def opMiscMI (p : BitVec 3) : M Unit := do
  let (_, m) ← parseModRM
  miscOp 8 p m
/-- `RME_Op_ArithMisc_MIX`, src/ops_alu.c:326-349. -/
def opMiscMIX (p : BitVec 3) : M Unit := do
  let (_, m) ← parseModRMX
  withW fun n => miscOp n p m

/-- `result = *src * imm16; SET_COMM_FLAGS; _IMUL_FLAGS; *dest = result` of the multi-operand
forms: `uint16_t * uint16_t` is an `int` product (overflow above INT_MAX is undefined), `result` is
a `uint16_t`, so `_IMUL_FLAGS` sees a value in 0 … 65535, src/ops_alu.c:371-374. -/
def imulMulti (dest : Loc) (a b : BitVec 16) : M Unit :=
  if a.toNat * b.toNat > 0x7FFFFFFF then ubE .signedOverflow
  else do
    let result : BitVec 16 := a * b
    let f ← getFlags
    setFlags (setCFOF (setCommFlags f result) (imulOvf 16 result.toNat))
    writeLoc 16 dest result

/-- `RME_Op_IMUL_MI8X` (0x6B), src/ops_alu.c:351-377. -/
def opImulMI8X : M Unit := do
  let d ← getDec
  guardE d.ovrOper .bug
  let (r, m) ← parseModRMX
  let imm ← readInstr8S 16
  let s ← readLoc 16 m
  imulMulti r s imm
/-- `RME_Op_IMUL_MIX` (0x69), src/ops_alu.c:379-405. -/
def opImulMIX : M Unit := do
  let d ← getDec
  guardE d.ovrOper .bug
  let (r, m) ← parseModRMX
  let imm ← readInstr 16
  let s ← readLoc 16 m
  imulMulti r s imm
/-- `RME_Op_IMUL_RMX` (0x0F 0xAF), src/ops_alu.c:407-430. -/
def opImulRMX : M Unit := do
  let d ← getDec
  guardE d.ovrOper .bug
  let (r, m) ← parseModRMX
  let s ← readLoc 16 m
  let t ← readLoc 16 r
  imulMulti r s t

/-- `op_num` → shift operation, src/ops_alu.c:151-161. -/
def shiftOfNum (p : BitVec 3) : ShiftOp :=
  if p = 0 then .rol else if p = 1 then .ror else if p = 2 then .rcl else if p = 3 then .rcr
  else if p = 4 then .shl else if p = 5 then .shr else if p = 6 then .sal else .sar

/-- `SHIFT_SELECT_OPERATION` on `*dest`: nothing at all happens when `amt` is 0, src/ops_alu.h:114-213. -/
def shiftApply (k : ShiftOp) (n : Nat) (dest : Loc) (src : BitVec 8) : M Unit :=
  let amt := shiftAmt k n src
  if amt = 0 then pure ()
  else do
    let d ← readLoc n dest
    let f ← getFlags
    let r ← liftUB (shiftCode k d amt f)
    writeLoc n dest r.1
    setFlags r.2

/-- `RME_Op_Shift_MI`, `_MI8X`, `_M1`, `_M1X`, `_MCl`, `_MClX`, src/ops_alu.c:433-580.  (CL is read
before the ModR/M byte is parsed; parsing changes no register.) -/
def opShiftMI (p : BitVec 3) : M Unit := do
  let (_, m) ← parseModRM
  let c ← readInstr 8
  shiftApply (shiftOfNum p) 8 m c
def opShiftMI8X (p : BitVec 3) : M Unit := do
  let (_, m) ← parseModRMX
  let c ← readInstr 8
  withW fun n => shiftApply (shiftOfNum p) n m c
def opShiftM1 (p : BitVec 3) : M Unit := do
  let (_, m) ← parseModRM
  shiftApply (shiftOfNum p) 8 m 1
def opShiftM1X (p : BitVec 3) : M Unit := do
  let (_, m) ← parseModRMX
  withW fun n => shiftApply (shiftOfNum p) n m 1
def opShiftMCl (p : BitVec 3) : M Unit := do
  let c ← getReg 8 rCX
  let (_, m) ← parseModRM
  shiftApply (shiftOfNum p) 8 m c
def opShiftMClX (p : BitVec 3) : M Unit := do
  let c ← getReg 8 rCX
  let (_, m) ← parseModRMX
  withW fun n => shiftApply (shiftOfNum p) n m c

/-- `_EXT_OP_SD(srcPtr, destPtr, …)` for SHLD/SHRD, src/ops_alu.c:11-19; `right` selects SHRD.
The pointers come from the 8-bit decoder `RME_Int_ParseModRM`, src/ops_alu.c:589,606,623,640. -/
def shxdApply (right : Bool) (src dest : Loc) (amt : BitVec 8) : M Unit :=
  withW fun n =>
    if amt = 0 then pure ()
    else do
      let d ← readLoc n dest
      let s ← readLoc n src
      let f ← getFlags
      let r ← liftUB (if right then shShrd d s amt.toNat f else shShld d s amt.toNat f)
      writeLoc n dest r.1
      setFlags r.2

/-- `RME_Op_SHRD_I8` / `RME_Op_SHLD_I8`, src/ops_alu.c:583-597,617-631. -/
def opShxdI8 (right : Bool) : M Unit := do
  let (r, m) ← parseModRM
  let amt ← readInstr 8
  shxdApply right r m amt
/-- `RME_Op_SHRD_Cl` / `RME_Op_SHLD_Cl`, src/ops_alu.c:600-614,634-648. -/
def opShxdCl (right : Bool) : M Unit := do
  let (r, m) ← parseModRM
  let amt ← getReg 8 rCX
  shxdApply right r m amt

/-! ### MOV, XCHG (src/ops_mov.c) -/

/-- `*dest = *src` -/
def movLoc (n : Nat) (dest src : Loc) : M Unit := do
  let v ← readLoc n src
  writeLoc n dest v

/-- `RME_Op_MOV_{MR,MRX,RM,RMX}`, src/ops_mov.c:14-77. -/
def opMovMR : M Unit := do let (r, m) ← parseModRM; movLoc 8 m r
def opMovMRX : M Unit := do let (r, m) ← parseModRMX; withW fun n => movLoc n m r
def opMovRM : M Unit := do let (r, m) ← parseModRM; movLoc 8 r m
def opMovRMX : M Unit := do let (r, m) ← parseModRMX; withW fun n => movLoc n r m
/-- `RME_Op_MOV_MI`, `RME_Op_MOV_MIX`, src/ops_mov.c:79-115. -/
def opMovMI : M Unit := do let (_, m) ← parseModRM; let v ← readInstr 8; writeLoc 8 m v
def opMovMIX : M Unit := do
  let (_, m) ← parseModRMX
  withW fun n => do let v ← readInstr n; writeLoc n m v

/-- The `[imm16/32]` offset of the moffs forms; `Read/Write` truncate it to 16 bits,
src/ops_mov.c:127-136. -/
def moffs : M (BitVec 16) := do
  let d ← getDec
  if d.ovrAddr then do
    let o ← readInstr 32
    pure (o.setWidth 16)
  else readInstr 16

/-- `RME_Op_MOV_{AMo,AMoX,MoA,MoAX}`, src/ops_mov.c:118-216. -/
def opMovAMo : M Unit := do
  let seg ← getSegment .ds
  let ofs ← moffs
  let v ← readMem 8 seg ofs
  setReg 8 rAX v
def opMovAMoX : M Unit := do
  let seg ← getSegment .ds
  let ofs ← moffs
  withW fun n => do let v ← readMem n seg ofs; setReg n rAX v
def opMovMoA : M Unit := do
  let seg ← getSegment .ds
  let ofs ← moffs
  let v ← getReg 8 rAX
  writeMem 8 seg ofs v
def opMovMoAX : M Unit := do
  let seg ← getSegment .ds
  let ofs ← moffs
  withW fun n => do let v ← getReg n rAX; writeMem n seg ofs v

/-- `READ_INSTR8(byte2); IPOffset--;` peek at the ModR/M byte, src/ops_mov.c:231,255. -/
def peekInstr8 : M (BitVec 8) := do
  let b ← readInstr 8
  modDec (fun d => { d with ipOffset := d.ipOffset - 1 })
  pure b

/-- `RME_Op_MOV_RS`, src/ops_mov.c:219-241. -/
def opMovRS : M Unit := do
  let d ← getDec
  guardE d.ovrOper .undefOpcode
  let b ← peekInstr8
  let (_, m) ← parseModRMX
  let sr ← segOf ((b >>> 3).setWidth 3)
  let v ← getSreg sr
  writeLoc 16 m v
/-- `RME_Op_MOV_SR`, src/ops_mov.c:243-265. -/
def opMovSR : M Unit := do
  let d ← getDec
  guardE d.ovrOper .undefOpcode
  let b ← peekInstr8
  let sr ← segOf ((b >>> 3).setWidth 3)
  let (_, m) ← parseModRMX
  let v ← readLoc 16 m
  setSreg sr v
/-- `RME_Op_MOV_RegB`, `RME_Op_MOV_Reg`, src/ops_mov.c:267-295. -/
def opMovRegB (p : BitVec 3) : M Unit := do let v ← readInstr 8; writeLoc 8 (regB p) v
def opMovReg (p : BitVec 3) : M Unit := withW fun n => do let v ← readInstr n; writeLoc n (regW p) v

/-- `RME_Op_MOV_Z`, `RME_Op_MOV_ZX` (MOVZX), src/ops_mov.c:298-340. -/
def opMovZ : M Unit := do
  let m ← getModRM
  let src ← decodeModM m
  withW fun n => do let v ← readLoc 8 src; writeLoc n (regW m.rrr) (v.setWidth n)
def opMovZX : M Unit := do
  let m ← getModRM
  let src ← decodeModMX m
  withW fun n => do let v ← readLoc 16 src; writeLoc n (regW m.rrr) (v.setWidth n)

/-- `XCHG(*dest, *src)`, src/ops_mov.c:10. -/
def xchgLoc (n : Nat) (dest src : Loc) : M Unit := do
  let t ← readLoc n dest
  let v ← readLoc n src
  writeLoc n dest v
  writeLoc n src t

/-- `RME_Op_XCHG_{RM,RMX,Reg}`, src/ops_mov.c:343-390. -/
def opXchgRM : M Unit := do let (r, m) ← parseModRM; xchgLoc 8 r m
def opXchgRMX : M Unit := do let (r, m) ← parseModRMX; withW fun n => xchgLoc n r m
def opXchgReg (p : BitVec 3) : M Unit :=
  if p = 0 then pure () else withW fun n => xchgLoc n (.reg rAX) (regW p)

/-! ### Stack (src/ops_stack.c) -/

/-- `RME_Op_PUSH_Seg`, `RME_Op_POP_Seg`, src/ops_stack.c:11-25. -/
def opPushSeg (p : BitVec 3) : M Unit := do let sr ← segOf p; pushM (getSreg sr)
def opPopSeg (p : BitVec 3) : M Unit := do let sr ← segOf p; let v ← pop; setSreg sr v

/-- `ptr[1]` of a register: bits 16-31, src/ops_stack.c:32,43. -/
def getRegHi (r : BitVec 3) : M (BitVec 16) := gets (fun s => (s.gpr r >>> 16).setWidth 16)
def setRegHi (r : BitVec 3) (v : BitVec 16) : M Unit :=
  modify (fun s => s.setGpr r (v ++ (s.gpr r).setWidth 16))

/-- `RME_Op_PUSH_Reg`, `RME_Op_POP_Reg`, src/ops_stack.c:27-45. -/
def opPushReg (p : BitVec 3) : M Unit := do
  let d ← getDec
  if d.ovrOper then do
    pushM (getRegHi p)
    pushM (getReg 16 p)
  else pushM (getReg 16 p)
def opPopReg (p : BitVec 3) : M Unit := do
  let v ← pop
  setReg 16 p v
  let d ← getDec
  if d.ovrOper then do
    let v ← pop
    setRegHi p v
  else pure ()

/-- `RME_Op_PUSH_A`, src/ops_stack.c:47-58. -/
def opPushA : M Unit := do
  let d ← getDec
  guardE d.ovrOper .undefOpcode
  let pt2 ← getReg 16 rSP
  pushM (getReg 16 rAX)
  pushM (getReg 16 rCX)
  pushM (getReg 16 rDX)
  pushM (getReg 16 rBX)
  push pt2
  pushM (getReg 16 rBP)
  pushM (getReg 16 rSI)
  pushM (getReg 16 rDI)

/-- `POP(State->r.W)` -/
def popReg (r : BitVec 3) : M Unit := do let v ← pop; setReg 16 r v

/-- `RME_Op_POP_A`, src/ops_stack.c:60-69. -/
def opPopA : M Unit := do
  let d ← getDec
  guardE d.ovrOper .undefOpcode
  popReg rDI
  popReg rSI
  popReg rBP
  let sp ← getReg 16 rSP
  setReg 16 rSP (sp + 2)
  popReg rBX
  popReg rDX
  popReg rCX
  popReg rAX

/-- `RME_Op_PUSH_F`, src/ops_stack.c:71-77. -/
def opPushF : M Unit := do
  let d ← getDec
  guardE d.ovrOper .undefOpcode
  pushM getFlags

/-- `masks[CPUType]` = (always set, always clear), src/ops_stack.c:83-88. -/
def popfMasks : CPUType → BitVec 16 × BitVec 16
  | .i8086 => (0xF002, 0x0028)
  | .i80286 => (0x0002, 0xF028)
  | .i386 => (0x0002, 0x0028)

/-- `RME_Op_POP_F`, src/ops_stack.c:79-95. -/
def opPopF : M Unit := do
  let d ← getDec
  guardE d.ovrOper .undefOpcode
  let tmp ← pop
  let cpu ← gets (·.cpuType)
  setFlags ((tmp ||| (popfMasks cpu).1) &&& ~~~(popfMasks cpu).2)

/-- `RME_Op_POP_MX`, src/ops_stack.c:119-129. -/
def opPopMX : M Unit := do
  let d ← getDec
  guardE d.ovrOper .undefOpcode
  let (_, m) ← parseModRMX
  let v ← pop
  writeLoc 16 m v

/-- `RME_Op_PUSH_I`, `RME_Op_PUSH_I8`, src/ops_stack.c:131-153. -/
def pushVal (val : BitVec 32) : M Unit := do
  let d ← getDec
  if d.ovrOper then do
    push ((val >>> 16).setWidth 16)
    push (val.setWidth 16)
  else push (val.setWidth 16)
def opPushI : M Unit := do let v ← readInstr 16; pushVal (v.setWidth 32)
def opPushI8 : M Unit := do let v ← readInstr8S 32; pushVal v

/-! ### Flags (src/ops_flags.c) -/

/-- `RME_Op_Flag_*`, src/ops_flags.c:10-49 -/
inductive FlagOp where
  | clc | stc | cli | sti | cld | std | cmc
  deriving DecidableEq, Repr

def flagOp : FlagOp → BitVec 16 → BitVec 16
  | .clc, f => clr f FLAG_CF
  | .stc, f => f ||| FLAG_CF
  | .cli, f => clr f FLAG_IF
  | .sti, f => f ||| FLAG_IF
  | .cld, f => clr f FLAG_DF
  | .std, f => f ||| FLAG_DF
  | .cmc, f => f ^^^ FLAG_CF

def opFlag (k : FlagOp) : M Unit := do
  let f ← getFlags
  setFlags (flagOp k f)

/-- `RME_Op_Flag_SAHF`, src/ops_flags.c:45-51. -/
def opSahf : M Unit := do
  let f ← getFlags
  let ah ← gets (·.regH 8 rAX)
  setFlags (clr f 0xD5 ||| ((ah &&& 0xD5).setWidth 16))
/-- `RME_Op_Flag_LAHF`, src/ops_flags.c:52-56. -/
def opLahf : M Unit := do
  let f ← getFlags
  modify (·.setRegH 8 rAX (f.setWidth 8))

/-! ### Calls, returns, interrupts (src/ops_call.c) -/

/-- `RME_Op_CALL_N`, src/ops_call.c:10-19. -/
def opCallN : M Unit := do
  let dist ← readInstr 16
  pushM nextIP
  let ip ← getIP
  setIP (ip + dist)
/-- `RME_Op_CALL_F`, src/ops_call.c:21-34. -/
def opCallF : M Unit := do
  let ofs ← readInstr 16
  let seg ← readInstr 16
  pushM (getSreg .cs)
  pushM nextIP
  setSreg .cs seg
  setIP ofs
  setDontChangeIP
/-- `RME_Op_RET_N`, src/ops_call.c:36-44. -/
def opRetN : M Unit := do
  let ofs ← pop
  setIP ofs
  setDontChangeIP
/-- `RME_Op_RET_F`, src/ops_call.c:45-55. -/
def opRetF : M Unit := do
  let ofs ← pop
  let seg ← pop
  setSreg .cs seg
  setIP ofs
  setDontChangeIP
/-- `State->SP.W += popSize` -/
def addSP (k : BitVec 16) : M Unit := do
  let sp ← getReg 16 rSP
  setReg 16 rSP (sp + k)
/-- `RME_Op_RET_iN`, src/ops_call.c:56-67. -/
def opRetiN : M Unit := do
  let k ← readInstr 16
  let ofs ← pop
  setIP ofs
  addSP k
  setDontChangeIP
/-- `RME_Op_RET_iF`, src/ops_call.c:68-81. -/
def opRetiF : M Unit := do
  let k ← readInstr 16
  let ofs ← pop
  let seg ← pop
  setSreg .cs seg
  setIP ofs
  addSP k
  setDontChangeIP

/-- The `for( i = 1; i < level; i ++ )` loop of ENTER (`level - 1` rounds), src/ops_call.c:102-121. -/
def enterLoop : Nat → M Unit
  | 0 => pure ()
  | k + 1 => do
    let d ← getDec
    guardE d.ovrOper .undefOpcode
    let bp ← getReg 16 rBP
    setReg 16 rBP (bp - 2)
    let ss ← getSreg .ss
    let bp' ← getReg 16 rBP
    let v ← readMem 16 ss bp'
    push v
    enterLoop k

/-- `RME_Op_ENTER_z`, src/ops_call.c:83-141. -/
def opEnter : M Unit := do
  let size ← readInstr 16
  let level8 ← readInstr 8
  let level := (level8 &&& 31).toNat
  pushM (getReg 16 rBP)
  let frameTemp ← getReg 16 rSP
  (if level > 1 then do
    enterLoop (level - 1)
    let d ← getDec
    if d.ovrOper then pure () else push frameTemp
   else pure ())
  setReg 16 rBP frameTemp
  let sp ← getReg 16 rSP
  setReg 16 rSP (sp - size)

/-- `RME_Op_LEAVE_z`, src/ops_call.c:143-153. -/
def opLeave : M Unit := do
  let bp ← getReg 16 rBP
  setReg 16 rSP bp
  let d ← getDec
  if d.ovrOper then pure () else popReg rBP

/-- Call of `State->HLECallbacks[n]` if it is registered, src/ops_call.c:174-175, src/rme.c:174-175. -/
def runHle (n : BitVec 8) : M Unit := fun env s =>
  match env.hle n with
  | some f => .ok () (f s)
  | none => .ok () s

/-- `RME_HLE_CS`, src/rme.h:62. -/
abbrev HLE_CS : BitVec 16 := 0xB800

/-- `_CallInterrupt`, src/ops_call.c:155-189. -/
def callInterrupt (num : BitVec 8) : M Unit := do
  let ofs ← readMem 16 0 (num.setWidth 16 * 4)
  let seg ← readMem 16 0 (num.setWidth 16 * 4 + 2)
  guardE (ofs == 0 && seg == 0) .badmem
  if seg = HLE_CS ∧ ofs = num.setWidth 16 then runHle num
  else do
    pushM getFlags
    pushM (getSreg .cs)
    pushM nextIP
    setIP ofs
    setSreg .cs seg
    let f ← getFlags
    setFlags (clr f (FLAG_IF ||| FLAG_TF))
    setDontChangeIP

/-- `RME_Op_INT_3`, `RME_Op_INT_I`, `RME_Op_INTO_z`, src/ops_call.c:192-209. -/
def opInt3 : M Unit := callInterrupt 3
def opIntI : M Unit := do let n ← readInstr 8; callInterrupt n
def opInto : M Unit := do
  let f ← getFlags
  if tst f FLAG_OF then callInterrupt 4 else pure ()
/-- `RME_Op_IRET_z`, src/ops_call.c:210-218. -/
def opIret : M Unit := do
  let ip ← pop
  setIP ip
  let cs ← pop
  setSreg .cs cs
  let f ← pop
  setFlags f
  setDontChangeIP

/-! ### Jumps (src/ops_jump.c) -/

/-- The 16 conditions in opcode order (0x70-0x7F, 0x0F 0x80-0x8F), src/opcode_table.h:80-83,139-142. -/
inductive Cond where
  | o | no | c | nc | z | nz | be | a | s | ns | pe | po | l | ge | le | g
  deriving DecidableEq, Repr

/-- `CONDITION_*`, src/ops_jump.c:29-44. -/
def Cond.eval (k : Cond) (f : BitVec 16) : Bool :=
  match k with
  | .o => tst f FLAG_OF
  | .no => !tst f FLAG_OF
  | .c => tst f FLAG_CF
  | .nc => !tst f FLAG_CF
  | .z => tst f FLAG_ZF
  | .nz => !tst f FLAG_ZF
  | .be => tst f FLAG_CF || tst f FLAG_ZF
  | .a => !(tst f FLAG_CF || tst f FLAG_ZF)
  | .s => tst f FLAG_SF
  | .ns => !tst f FLAG_SF
  | .pe => tst f FLAG_PF
  | .po => !tst f FLAG_PF
  | .l => tst f FLAG_SF != tst f FLAG_OF
  | .ge => !(tst f FLAG_SF != tst f FLAG_OF)
  | .le => tst f FLAG_ZF || (tst f FLAG_SF != tst f FLAG_OF)
  | .g => !(tst f FLAG_ZF || (tst f FLAG_SF != tst f FLAG_OF))

/-- `State->IP += dist` -/
def addIP (dist : BitVec 16) : M Unit := do
  let ip ← getIP
  setIP (ip + dist)

/-- `MAKE_COND_JUMP_S`, `MAKE_COND_JUMP_N`, src/ops_jump.c:9-27. -/
def opJccS (k : Cond) : M Unit := do
  let dist ← readInstr8S 16
  let f ← getFlags
  if k.eval f then addIP dist else pure ()
def opJccN (k : Cond) : M Unit := do
  let dist ← readInstr 16
  let f ← getFlags
  if k.eval f then addIP dist else pure ()

/-- `RME_Op_JCXZ_S`, src/ops_jump.c:81-94. -/
def opJcxz : M Unit := do
  let dist ← readInstr8S 16
  let d ← getDec
  let cxd ← getReg 32 rCX
  let cx ← getReg 16 rCX
  if d.ovrOper && cxd != 0 then pure ()
  else if !d.ovrOper && cx != 0 then pure ()
  else addIP dist

/-- Loop conditions: LOOPNZ, LOOPZ, LOOP. -/
inductive LoopKind where
  | nz | z | always
  deriving DecidableEq, Repr

def LoopKind.eval (k : LoopKind) (f : BitVec 16) : Bool :=
  match k with
  | .nz => !tst f FLAG_ZF
  | .z => tst f FLAG_ZF
  | .always => true

/-- `RME_Op_LOOPNZ_S`, `RME_Op_LOOPZ_S`, `RME_Op_LOOP_S`, src/ops_jump.c:97-137. -/
def opLoop (k : LoopKind) : M Unit := do
  let dist ← readInstr8S 16
  let cx ← getReg 16 rCX
  setReg 16 rCX (cx - 1)
  let cx' ← getReg 16 rCX
  let f ← getFlags
  if cx' != 0 && k.eval f then addIP dist else pure ()

/-- `RME_Op_JMP_{N,F,S}`, src/ops_jump.c:140-168. -/
def opJmpN : M Unit := do let d ← readInstr 16; addIP d
def opJmpF : M Unit := do
  let ofs ← readInstr 16
  let seg ← readInstr 16
  setSreg .cs seg
  setIP ofs
  setDontChangeIP
def opJmpS : M Unit := do let d ← readInstr8S 16; addIP d

/-! ### Port I/O (src/ops_io.c) -/

/-- `RME_Op_IN_{ADx,ADxX,AI,AIX}`, src/ops_io.c:12-55. -/
def opInADx : M Unit := do let p ← getReg 16 rDX; let v ← portIn 8 p; setReg 8 rAX v
def opInADxX : M Unit := withW fun n => do
  let p ← getReg 16 rDX
  let v ← portIn n p
  setReg n rAX v
def opInAI : M Unit := do
  let p ← readInstr 8
  let v ← portIn 8 (p.setWidth 16)
  setReg 8 rAX v
def opInAIX : M Unit := do
  let p ← readInstr 8
  withW fun n => do
    let v ← portIn n (p.setWidth 16)
    setReg n rAX v
/-- `RME_Op_OUT_{DxA,DxAX,AI,AIX}`, src/ops_io.c:57-98. -/
def opOutDxA : M Unit := do
  let p ← getReg 16 rDX
  let v ← getReg 8 rAX
  portOut 1 p (v.setWidth 32)
def opOutDxAX : M Unit := withW fun n => do
  let p ← getReg 16 rDX
  let v ← getReg n rAX
  portOut (n / 8) p (v.setWidth 32)
def opOutAI : M Unit := do
  let p ← readInstr 8
  let v ← getReg 8 rAX
  portOut 1 (p.setWidth 16) (v.setWidth 32)
def opOutAIX : M Unit := do
  let p ← readInstr 8
  withW fun n => do
    let v ← getReg n rAX
    portOut (n / 8) (p.setWidth 16) (v.setWidth 32)

/-! ### String operations (src/ops_string.c) -/

/-- One `srcOfs`/`destOfs` update of STRING_FOOTER, src/ops_string.c:63-68. -/
def strAdvance (df : Bool) (step : Nat) (mask ofs : BitVec 32) : BitVec 32 :=
  (if df then ofs - BitVec.ofNat 32 step else ofs + BitVec.ofNat 32 step) &&& mask

/-- `if( State->CX.W == 0 ) break; -- State->CX.W;` under `if(RepeatType)`; returns whether to
break, src/ops_string.c:54-58. -/
def strCount : M Bool := do
  let d ← getDec
  if d.rep = .none then pure false
  else do
    let cx ← getReg 16 rCX
    if cx = 0 then pure true
    else do
      setReg 16 rCX (cx - 1)
      pure false

/-- The two ZF tests and the loop condition of STRING_FOOTER: continue with another round?,
src/ops_string.c:69-73. -/
def strAgain (checkZF : Bool) : M Bool := do
  let d ← getDec
  let f ← getFlags
  pure (!(checkZF && d.rep == .repnz && tst f FLAG_ZF) &&
        !(checkZF && d.rep == .rep && !tst f FLAG_ZF) &&
        d.rep != .none)

/-- The `do { … } while(RepeatType)` loop of STRING_HEAD/STRING_FOOTER, src/ops_string.c:53-73, on
explicit fuel (65536 rounds always suffice because CX counts down).  `body` gets source and
destination offset. -/
def strLoop (checkZF : Bool) (step : Nat) (mask : BitVec 32) (body : BitVec 32 → BitVec 32 → M Unit) :
    Nat → BitVec 32 → BitVec 32 → M (BitVec 32 × BitVec 32)
  | 0, _, _ => ubE .modelFuel
  | fuel + 1, so, dd => do
    let stop ← strCount
    if stop then pure (so, dd)
    else do
      body so dd
      let f ← getFlags
      let so' := strAdvance (tst f FLAG_DF) step mask so
      let dd' := strAdvance (tst f FLAG_DF) step mask dd
      let again ← strAgain checkZF
      if again then strLoop checkZF step mask body fuel so' dd'
      else pure (so', dd')

/-- SI/DI as loaded into `srcOfs`/`destOfs`, src/ops_string.c:22-30,35-43. -/
def strOfs (r : BitVec 3) : M (BitVec 32) := do
  let d ← getDec
  if d.ovrAddr then getReg 32 r
  else do
    let v ← getReg 16 r
    pure (v.setWidth 32)

/-- Write back of SI/DI, src/ops_string.c:74-80. -/
def strPut (use : Bool) (r : BitVec 3) (v : BitVec 32) : M Unit :=
  if use then do
    let d ← getDec
    if d.ovrAddr then setReg 32 r v else setReg 16 r (v.setWidth 16)
  else pure ()

/-- `State->Decoder.RepeatType = 0`, src/ops_string.c:49,86. -/
def clearRep : M Unit := modDec (fun d => { d with rep := .none })

/-- STRING_HEAD … STRING_FOOTER, src/ops_string.c:13-88.  `body` gets source segment, source offset,
destination segment, destination offset (unused ones are 0 in the model, indeterminate in C). -/
def stringOp (checkZF useDI useSI : Bool) (step : Nat)
    (body : BitVec 16 → BitVec 32 → BitVec 16 → BitVec 32 → M Unit) : M Unit := do
  let destSeg ← getSreg .es
  let srcSeg ← getSegment .ds
  let d ← getDec
  let destOfs ← strOfs rDI
  let srcOfs ← strOfs rSI
  let mask : BitVec 32 := if d.ovrAddr then 0xFFFFFFFF else 0xFFFF
  let cx ← getReg 16 rCX
  if d.rep ≠ .none ∧ cx = 0 then clearRep
  else do
    let r ← strLoop checkZF step mask (fun so dd => body srcSeg so destSeg dd) 65536 srcOfs destOfs
    strPut useDI rDI r.2
    strPut useSI rSI r.1
    clearRep

/-- Width of the B/W string forms: 8, or 16/32 by operand override. -/
def strW (wide : Bool) (f : Nat → M Unit) : M Unit := if wide then withW f else f 8

/-- `RME_Op_MOV_SB/SW`, src/ops_string.c:91-132. -/
def opMovs (wide : Bool) : M Unit := strW wide fun n =>
  stringOp false true true (n / 8) fun ss so ds dd => do
    let v ← readMem n ss (so.setWidth 16)
    writeMem n ds (dd.setWidth 16) v
/-- `RME_Op_STO_SB/SW`, src/ops_string.c:134-165. -/
def opStos (wide : Bool) : M Unit := strW wide fun n =>
  stringOp false true false (n / 8) fun _ _ ds dd => do
    let v ← getReg n rAX
    writeMem n ds (dd.setWidth 16) v
/-- `RME_Op_LOD_SB/SW`, src/ops_string.c:166-196. -/
def opLods (wide : Bool) : M Unit := strW wide fun n =>
  stringOp false false true (n / 8) fun ss so _ _ => do
    let v ← readMem n ss (so.setWidth 16)
    setReg n rAX v
/-- CMP of two values, flags only, src/ops_string.c:212-213. -/
def cmpFlags {n : Nat} (d s : BitVec n) : M Unit := do
  let f ← getFlags
  setFlags (aluExec .cmp d s f).2
/-- `RME_Op_CMP_SB/SW`, src/ops_string.c:198-256. -/
def opCmps (wide : Bool) : M Unit := strW wide fun n =>
  stringOp true true true (n / 8) fun ss so ds dd => do
    let a ← readMem n ss (so.setWidth 16)
    let b ← readMem n ds (dd.setWidth 16)
    cmpFlags a b
/-- `RME_Op_SCA_SB/SW`, src/ops_string.c:259-312. -/
def opScas (wide : Bool) : M Unit := strW wide fun n =>
  stringOp true true false (n / 8) fun _ _ ds dd => do
    let b ← readMem n ds (dd.setWidth 16)
    let a ← getReg n rAX
    cmpFlags a b
/-- `RME_Op_IN_SB/SW`, src/ops_string.c:314-356. -/
def opIns (wide : Bool) : M Unit := strW wide fun n =>
  stringOp false true false (n / 8) fun _ _ ds dd => do
    let p ← getReg 16 rDX
    let v ← portIn n p
    writeMem n ds (dd.setWidth 16) v
/-- `RME_Op_OUT_SB/SW`, src/ops_string.c:357-399. -/
def opOuts (wide : Bool) : M Unit := strW wide fun n =>
  stringOp false false true (n / 8) fun ss so _ _ => do
    let v ← readMem n ss (so.setWidth 16)
    let p ← getReg 16 rDX
    portOut (n / 8) p (v.setWidth 32)

/-! ### Miscellaneous (src/ops_misc.c) -/

/-- `RME_Op_CBW_z`, src/ops_misc.c:10-17 (with the override AL, not AX, is extended). -/
def opCbw : M Unit := withW fun n => do
  let al ← getReg 8 rAX
  setReg n rAX (al.signExtend n)

/-- The `while` loop of BSF: first `val ≥ start` with the bit set, at most 16, src/ops_misc.c:35-36. -/
def bsfLoop (src : BitVec 16) : Nat → Nat → Nat
  | 0, val => val
  | k + 1, val => if src.getLsbD val then val else bsfLoop src k (val + 1)

/-- `RME_Op_BSF_z`, src/ops_misc.c:19-41. -/
def opBsf : M Unit := do
  let (r, m) ← parseModRMX
  let src ← readLoc 16 m
  let f ← getFlags
  if src = 0 then setFlags (f ||| FLAG_ZF)
  else do
    writeLoc 16 r (BitVec.ofNat 16 (bsfLoop src 16 0))
    setFlags (clr f FLAG_ZF)

/-- `RME_Op_HLT_z`, src/ops_misc.c:44-47. -/
def opHlt : M Unit := throwE .halt

/-- AL, AH and flags after AAA (`sub = false`, src/ops_misc.c:50-66) or AAS (`sub = true`,
src/ops_misc.c:69-85). -/
def aaCode (sub : Bool) (al ah : BitVec 8) (f : BitVec 16) : BitVec 8 × BitVec 8 × BitVec 16 :=
  if (al &&& 0xF).toNat > 9 || tst f FLAG_AF then
    let al' := (if sub then al - 6 else al + 6) &&& 0xF
    let ah' := if sub then ah - 1 else ah + 1
    (al', ah', setCommFlags (f ||| (FLAG_AF ||| FLAG_CF)) al')
  else
    let al' := al &&& 0xF
    (al', ah, setCommFlags (clr f (FLAG_AF ||| FLAG_CF)) al')

/-- `RME_Op_AAA_z` / `RME_Op_AAS_z` -/
def opAA (sub : Bool) : M Unit := do
  let al ← getReg 8 rAX
  let ah ← gets (·.regH 8 rAX)
  let f ← getFlags
  let r := aaCode sub al ah f
  setReg 8 rAX r.1
  modify (·.setRegH 8 rAX r.2.1)
  setFlags r.2.2

/-- `RME_Op_AAM_z`, src/ops_misc.c:88-97. -/
def opAam : M Unit := do
  let imm ← readInstr 8
  guardE (imm == 0) .divErr
  let al ← getReg 8 rAX
  modify (·.setRegH 8 rAX (al / imm))
  setReg 8 rAX (al % imm)
  let f ← getFlags
  setFlags (setCommFlags f (al % imm))
/-- `RME_Op_AAD_z`, src/ops_misc.c:99-108. -/
def opAad : M Unit := do
  let imm ← readInstr 8
  let al ← getReg 8 rAX
  let ah ← gets (·.regH 8 rAX)
  let al' := al + ah * imm
  setReg 8 rAX al'
  modify (·.setRegH 8 rAX 0)
  let f ← getFlags
  setFlags (clr (setCommFlags f al') (FLAG_OF ||| FLAG_CF))

/-- AL and flags after DAA, src/ops_misc.c:111-139. -/
def daaCode (al : BitVec 8) (f : BitVec 16) : BitVec 8 × BitVec 16 :=
  let oldCF := tst f FLAG_CF
  let f := clr f FLAG_CF
  let r : BitVec 8 × BitVec 16 :=
    if (al &&& 0xF).toNat > 9 || tst f FLAG_AF then
      (al + 6, orIf f (al.toNat ≥ 0x100 - 6) FLAG_CF ||| FLAG_AF)
    else (al, clr f FLAG_AF)
  let r : BitVec 8 × BitVec 16 :=
    if al.toNat > 0x99 || oldCF then (r.1 + 0x60, r.2 ||| FLAG_CF)
    else (r.1, clr r.2 FLAG_CF)
  (r.1, setCommFlags r.2 r.1)
/-- AL and flags after DAS, src/ops_misc.c:142-166. -/
def dasCode (al : BitVec 8) (f : BitVec 16) : BitVec 8 × BitVec 16 :=
  let oldCF := tst f FLAG_CF
  let f := clr f FLAG_CF
  let r : BitVec 8 × BitVec 16 :=
    if (al &&& 0xF).toNat > 9 || tst f FLAG_AF then
      (al - 6, orIf f (al.toNat < 6) FLAG_CF ||| FLAG_AF)
    else (al, clr f FLAG_AF)
  let r : BitVec 8 × BitVec 16 :=
    if al.toNat > 0x99 || oldCF then (r.1 - 0x60, r.2 ||| FLAG_CF)
    else r
  (r.1, setCommFlags r.2 r.1)
/-- `RME_Op_DAA_z` / `RME_Op_DAS_z` -/
def opDA (sub : Bool) : M Unit := do
  let al ← getReg 8 rAX
  let f ← getFlags
  let r := if sub then dasCode al f else daaCode al f
  setReg 8 rAX r.1
  setFlags r.2

/-- `RME_Op_CWD_z`, src/ops_misc.c:169-186. -/
def opCwd : M Unit := withW fun n => do
  let a ← getReg n rAX
  setReg n rDX (if a &&& smask n != 0 then BitVec.allOnes n else 0)

/-- `_LDS_LES_internal`, src/ops_misc.c:192-228. -/
def opLxs (sr : SReg) : M Unit := do
  let m ← getModRM_unchecked
  guardE (m.mod == 3) .undefOpcode
  let (seg, addr) ← getMMM m
  withW fun n => do
    let v ← readMem n seg (addr.setWidth 16)
    writeLoc n (regW m.rrr) v
    let w ← readMem 16 seg ((addr + BitVec.ofNat 32 (n / 8)).setWidth 16)
    setSreg sr w

/-- `RME_Op_LEA_z`, src/ops_misc.c:252-275. -/
def opLea : M Unit := do
  let m ← getModRM
  guardE (m.mod == 3) .undefOpcode
  let (_, addr) ← getMMM m
  withW fun n => writeLoc n (regW m.rrr) (addr.setWidth n)

/-- `RME_Op_XLAT_z`, src/ops_misc.c:278-302. -/
def opXlat : M Unit := do
  let seg ← getSegment .ds
  let d ← getDec
  let bxd ← getReg 32 rBX
  let bx ← getReg 16 rBX
  let al ← getReg 8 rAX
  let address : BitVec 32 := (if d.ovrAddr then bxd else bx.setWidth 32) + al.setWidth 32
  let v ← readMem 8 seg (address.setWidth 16)
  setReg 8 rAX v

/-- Second half of `RME_Op_BTx_RI8`: CF and new value of the bit operation, src/ops_misc.c:323-346.
The table always passes 0 (finding 10), so `op_num < 4` returns first, src/ops_misc.c:312-314. -/
def opBtx (p : BitVec 3) : M Unit :=
  if p.toNat < 4 then throwE .undefOpcode
  else do
    let (_, m) ← parseModRMX
    let ofs8 ← readInstr 8
    withW fun n => do
      let v ← readLoc n m
      let ofs := ofs8.toNat % n
      let bit : BitVec n := (1 : BitVec n) <<< ofs
      let f ← getFlags
      setFlags (if v &&& bit != 0 then clr f FLAG_CF else f ||| FLAG_CF)
      if p = 4 then pure ()
      else if p = 5 then writeLoc n m (v ||| bit)
      else if p = 6 then writeLoc n m (v &&& ~~~bit)
      else writeLoc n m (v ^^^ bit)

/-! ### Unary group (src/rme.c:327-473) -/

/-- `RME_Op_Unary_M`, src/rme.c:327-351. -/
def opUnaryM (p : BitVec 3) : M Unit :=
  if p = 0 then do let (_, m) ← parseModRM; incApply 8 m
  else if p = 1 then do let (_, m) ← parseModRM; decApply 8 m
  else throwE .undefOpcode

/-- `{ALU_OPCODE_INC_CODE} SET_COMM_FLAGS(State, *dest, width);` of Unary_MX: the second
SET_COMM_FLAGS repeats the first, src/rme.c:421-422. -/
def unaryIncDec (dec : Bool) (n : Nat) (dest : Loc) : M Unit := do
  (if dec then decApply n dest else incApply n dest)
  let v ← readLoc n dest
  let f ← getFlags
  setFlags (setCommFlags f v)

/-- `RME_Op_Unary_MX`, src/rme.c:379-473. -/
def opUnaryMX (p : BitVec 3) : M Unit := do
  let d ← getDec
  if d.ovrOper then
    if p = 0 then do let (_, m) ← parseModRMX; unaryIncDec false 32 m
    else if p = 1 then do let (_, m) ← parseModRMX; unaryIncDec true 32 m
    else if p = 6 then do
      let (_, m) ← parseModRMX
      pushM (do let v ← readLoc 32 m; pure (v.setWidth 16))
    else throwE .undefOpcode
  else
    if p = 0 then do let (_, m) ← parseModRMX; unaryIncDec false 16 m
    else if p = 1 then do let (_, m) ← parseModRMX; unaryIncDec true 16 m
    else if p = 2 then do
      let (_, m) ← parseModRMX
      pushM nextIP
      let t ← readLoc 16 m
      setIP t
      setDontChangeIP
    else if p = 3 then do
      let (cs, ip) ← parseFarPtr
      pushM (getSreg .cs)
      pushM nextIP
      setIP ip
      setSreg .cs cs
      setDontChangeIP
    else if p = 4 then do
      let (_, m) ← parseModRMX
      let t ← readLoc 16 m
      setIP t
      setDontChangeIP
    else if p = 5 then do
      let (cs, ip) ← parseFarPtr
      setIP ip
      setSreg .cs cs
      setDontChangeIP
    else if p = 6 then do
      let (_, m) ← parseModRMX
      pushM (readLoc 16 m)
    else throwE .undefOpcode

/-! ### Prefixes (src/prefixes.c) -/

/-- `RME_Op_Ovr_Seg`, src/prefixes.c:10-17. -/
def opOvrSeg (p : BitVec 3) : M Unit := do
  let d ← getDec
  guardE d.ovrSeg.isSome .undefOpcode
  let sr ← segOf p
  modDec (fun d => { d with ovrSeg := some sr })
  throwE .cont
/-- `RME_Op_Ovr_OpSize`, src/prefixes.c:19-26. -/
def opOvrOper : M Unit := do
  let d ← getDec
  guardE d.ovrOper .undefOpcode
  modDec (fun d => { d with ovrOper := true })
  throwE .cont
/-- `RME_Op_Ovr_AddrSize`, src/prefixes.c:27-34. -/
def opOvrAddr : M Unit := do
  let d ← getDec
  guardE d.ovrAddr .undefOpcode
  modDec (fun d => { d with ovrAddr := true })
  throwE .cont
/-- `RME_Op_Prefix_REP`, `RME_Op_Prefix_REPNZ`, src/prefixes.c:36-49. -/
def opPrefixRep (r : Rep) : M Unit := do
  let d ← getDec
  guardE (d.rep != .none) .undefOpcode
  modDec (fun d => { d with rep := r })
  throwE .cont

end RME
