import Verif.Model.Mnemonic
set_option autoImplicit false
/-
Model of what the opcode functions without a ModR/M byte print: immediates, jump distances, ports, register names (the `RME_Int_DebugPrint` calls of
src/ops_jump.c, src/ops_call.c, src/ops_io.c, src/ops_stack.c, src/ops_string.c, XLAT, and the AI, Reg and moffs functions of src/ops_alu.c and src/ops_mov.c).  Every case below is
the function of Model/Ops.lean with its text; the value printed is the value read.  The buffer the text goes to is C47.
-/
namespace RME.Trace

/-- `RME_Int_DebugPrint(State, ...)`, then the rest of the function `m`, which may print more, src/rme_internal.h:196-216. -/
def say (t : List Char) (m : M (List Char)) : M (List Char) := do
  let r ← m
  pure (t ++ r)

/-- The rest of a function that prints nothing more. -/
def quiet (m : M Unit) : M (List Char) := do
  m
  pure []

/-- `" 0x%0wx"` with a prefix, e.g. src/ops_jump.c:12, src/ops_mov.c:272. -/
def num (pre : String) (w n : Nat) : List Char := pre.toList ++ hexPad w n

/-- `"EAX"` or `"AX"`, src/ops_mov.c:146. -/
def accX (n : Nat) : List Char := if n = 32 then "EAX".toList else "AX".toList

/-- `GET_SEGMENT(State, SREG_DS)` and the offset of the moffs forms with their text, src/ops_mov.c:126-134, 148-156, 175-183, 196-204. -/
def moffsT : M ((BitVec 16 × BitVec 16) × List Char) := do
  let sr ← segUsed .ds
  let seg ← getSegment .ds
  let d ← getDec
  if d.ovrAddr then do
    let o ← readInstr 32
    pure ((seg, o.setWidth 16), " ".toList ++ segName sr ++ ":[0x".toList ++ hexText o.toNat ++ "]".toList)
  else do
    let o ← readInstr 16
    pure ((seg, o), " ".toList ++ segName sr ++ ":[0x".toList ++ hexText o.toNat ++ "]".toList)

/-- The places of STRING_HEAD: `Seg` and the index register, src/ops_string.c:20-46, rme_internal.h `Seg`. -/
def strPlaces (useDI useSI addr32 : Bool) (sr : SReg) : List Char :=
  (if useDI then " ".toList ++ segName .es ++ (if addr32 then ":[EDI]" else ":[DI]").toList else []) ++
  (if useSI then " ".toList ++ segName sr ++ (if addr32 then ":[ESI]" else ":[SI]").toList else [])

/-- `" (max 0x%x times)"`, src/ops_string.c:48-49. -/
def strMax (r : Rep) (cx : BitVec 16) : List Char :=
  if r = .none then [] else " (max 0x".toList ++ hexText cx.toNat ++ " times)".toList

/-- `" (%i skipped)"`, src/ops_string.c:84-86. -/
def strSkipped (r : Rep) (cx : BitVec 16) : List Char :=
  if r = .none then [] else " (".toList ++ decDigits 10 cx.toNat ++ " skipped)".toList

/-- STRING_HEAD … STRING_FOOTER with its text (`stringOp` of Model/Ops.lean), src/ops_string.c:13-88; `before` and `after` are the texts `__before` and `__after`. -/
def stringOpT (checkZF useDI useSI : Bool) (before after : String) (step : Nat)
    (body : BitVec 16 → BitVec 32 → BitVec 16 → BitVec 32 → M Unit) : M (List Char) := do
  let destSeg ← getSreg .es
  let sr ← segUsed .ds
  let srcSeg ← getSegment .ds
  let d ← getDec
  let destOfs ← strOfs rDI
  let srcOfs ← strOfs rSI
  let mask : BitVec 32 := if d.ovrAddr then 0xFFFFFFFF else 0xFFFF
  let cx ← getReg 16 rCX
  say (before.toList ++ strPlaces useDI useSI d.ovrAddr sr ++ after.toList ++ strMax d.rep cx)
    (if d.rep ≠ .none ∧ cx = 0 then quiet clearRep
     else do
      let r ← strLoop checkZF step mask (fun so dd => body srcSeg so destSeg dd) 65536 srcOfs destOfs
      strPut useDI rDI r.2
      strPut useSI rSI r.1
      let d ← getDec
      let cx ← getReg 16 rCX
      say (strSkipped d.rep cx) (quiet clearRep))

/-- Width of the B/W string forms with text, as `strW` of Model/Ops.lean. -/
def strWT (wide : Bool) (f : Nat → M (List Char)) : M (List Char) := if wide then withW f else f 8

/-- `" EAX"`, `" AX"` or, in the byte forms, `" AL"`, e.g. src/ops_string.c:137,151,158. -/
def strAcc (n : Nat) : String := if n = 8 then " AL" else if n = 32 then " EAX" else " AX"

/-- Text of XLAT, src/ops_misc.c:284-294. -/
def xlatT : M (List Char) := do
  let sr ← segUsed .ds
  let d ← getDec
  say (" AL,".toList ++ (" ".toList ++ segName sr ++ (if d.ovrAddr then ":[EBX+AL]" else ":[BX+AL]").toList)) (quiet opXlat)

/-- `RME_Int_ParseModRM(State, &reg, &mem, rev)` with its text, then the rest of the function, e.g. src/ops_alu.c:21-30, 53-62. -/
def rmB (rev : Bool) (k : Loc → Loc → M (List Char)) : M (List Char) := do
  let x ← parseModRMT rev
  say x.2 (k x.1.1 x.1.2)

/-- `RME_Int_ParseModRMX(State, &reg, &mem, rev)`, e.g. src/ops_alu.c:31-51. -/
def rmX (rev : Bool) (k : Loc → Loc → M (List Char)) : M (List Char) := do
  let x ← parseModRMXT rev
  say x.2 (k x.1.1 x.1.2)

/-- `RME_Int_ParseModRM(State, NULL, &mem, 0)`: the register is neither selected nor shown, src/rme.c:786-801, e.g. src/ops_alu.c:189. -/
def mB (k : Loc → M (List Char)) : M (List Char) := do
  let m ← getModRM
  let x ← decodeModMT m
  say x.2 (k x.1)

/-- `RME_Int_ParseModRMX(State, NULL, &mem, 0)`, src/rme.c:809-824, e.g. src/ops_alu.c:207. -/
def mX (k : Loc → M (List Char)) : M (List Char) := do
  let m ← getModRM
  let x ← decodeModMXT m
  say x.2 (k x.1)

/-- `MISC_SELECT_OPERATION` with the number of TEST, src/ops_alu.c:162-178 (`miscOp` of Model/Ops.lean). -/
def miscOpT (n : Nat) (p : BitVec 3) (arg : Loc) : M (List Char) :=
  if p = 0 then do
    let imm ← readInstr n
    say (num " 0x" (n / 4) imm.toNat) (quiet (do
      let s ← readLoc n arg
      let f ← getFlags
      setFlags (aluTest imm s f)))
  else quiet (miscOp n p arg)

/-- `RME_Int_GetMMM(State, &modrm, &seg, &addr)` with its text, then the rest of the function, e.g. src/ops_misc.c:206, 268; src/rme.c:367. -/
def mM (m : ModRM) (k : BitVec 16 × BitVec 32 → M (List Char)) : M (List Char) := do
  let x ← getMMMT m
  say x.2 (k x.1)

/-- `RME_Int_ParseModRMX_FarPtr` with its text, then the rest of the function, src/rme.c:353-377. -/
def farT (k : BitVec 16 × BitVec 16 → M Unit) : M (List Char) := do
  let m ← getModRM
  guardE (m.mod == 3) .undefOpcode
  mM m fun x => quiet (do
    let ip ← readMem 16 x.1 (x.2.setWidth 16)
    let cs ← readMem 16 x.1 ((x.2 + 2).setWidth 16)
    k (cs, ip))

/-- `RME_Op_Unary_MX` with its text: the r/m operand, src/rme.c:379-473. -/
def unaryMXT (p : BitVec 3) : M (List Char) := do
  let d ← getDec
  if d.ovrOper then
    if p = 0 then mX fun m => quiet (unaryIncDec false 32 m)
    else if p = 1 then mX fun m => quiet (unaryIncDec true 32 m)
    else if p = 6 then mX fun m => quiet (pushM (do let v ← readLoc 32 m; pure (v.setWidth 16)))
    else throwE .undefOpcode
  else
    if p = 0 then mX fun m => quiet (unaryIncDec false 16 m)
    else if p = 1 then mX fun m => quiet (unaryIncDec true 16 m)
    else if p = 2 then mX fun m => quiet (do
      pushM nextIP
      let t ← readLoc 16 m
      setIP t
      setDontChangeIP)
    else if p = 3 then farT fun (cs, ip) => do
      pushM (getSreg .cs)
      pushM nextIP
      setIP ip
      setSreg .cs cs
      setDontChangeIP
    else if p = 4 then mX fun m => quiet (do
      let t ← readLoc 16 m
      setIP t
      setDontChangeIP)
    else if p = 5 then farT fun (cs, ip) => do
      setIP ip
      setSreg .cs cs
      setDontChangeIP
    else if p = 6 then mX fun m => quiet (pushM (readLoc 16 m))
    else throwE .undefOpcode

/-- The functions with a ModR/M byte, src/ops_alu.c:21-80, 180-349, 407-648; src/ops_mov.c:14-115, 219-265, 298-369; src/ops_misc.c:19-41, 192-275;
src/ops_stack.c:119-129; src/rme.c:331-473 (`RegW` prints where it is called: before the memory operand in LEA and MOVZX, behind it in LES and LDS).
BTx fails before it prints (src/ops_misc.c:312-314, its parameter is always 0): as in `other`. -/
def opRMT (other : Op → BitVec 3 → List Char) (o : Op) (p : BitVec 3) : M (List Char) :=
  match o with
  | .alu k .RM => rmB false fun r m => quiet (do let s ← readLoc 8 m; aluApply k 8 r s)
  | .alu k .RMX => rmX false fun r m => quiet (withW fun n => do let s ← readLoc n m; aluApply k n r s)
  | .alu k .MR => rmB true fun r m => quiet (do let s ← readLoc 8 r; aluApply k 8 m s)
  | .alu k .MRX => rmX true fun r m => quiet (withW fun n => do let s ← readLoc n r; aluApply k n m s)
  | .testMR => rmB true fun r m => quiet (do let s ← readLoc 8 r; testApply 8 m s)
  | .testMRX => rmX true fun r m => quiet (withW fun n => do let s ← readLoc n r; testApply n m s)
  | .movMR => rmB true fun r m => quiet (movLoc 8 m r)
  | .movMRX => rmX true fun r m => quiet (withW fun n => movLoc n m r)
  | .movRM => rmB false fun r m => quiet (movLoc 8 r m)
  | .movRMX => rmX false fun r m => quiet (withW fun n => movLoc n r m)
  | .xchgRM => rmB false fun r m => quiet (xchgLoc 8 r m)
  | .xchgRMX => rmX false fun r m => quiet (withW fun n => xchgLoc n r m)
  | .arithMI => mB fun m => do
    let s ← readInstr 8
    say (num " 0x" 2 s.toNat) (quiet (aluApply (aluOfNum p) 8 m s))
  | .arithMIX => mX fun m => do
    clearOZSP
    withW fun n => do
      let s ← readInstr n
      say (num " 0x" (n / 4) s.toNat) (quiet (aluApply (aluOfNum p) n m s))
  | .arithMI8X => mX fun m => do
    clearOZSP
    withW fun n => do
      let s ← readInstr8S n
      say (num " 0x" (n / 4) s.toNat) (quiet (aluApply (aluOfNum p) n m s))
  | .movMI => mB fun m => do
    let v ← readInstr 8
    say (num " 0x" 2 v.toNat) (quiet (writeLoc 8 m v))
  | .movMIX => mX fun m => withW fun n => do
    let v ← readInstr n
    say (num " 0x" (n / 4) v.toNat) (quiet (writeLoc n m v))
  | .shiftMI => mB fun m => do
    let c ← readInstr 8
    say (num " 0x" 2 c.toNat) (quiet (shiftApply (shiftOfNum p) 8 m c))
  | .shiftMI8X => mX fun m => do
    let c ← readInstr 8
    say (num " 0x" 2 c.toNat) (quiet (withW fun n => shiftApply (shiftOfNum p) n m c))
  | .shiftM1 => mB fun m => say " 1".toList (quiet (shiftApply (shiftOfNum p) 8 m 1))
  | .shiftM1X => mX fun m => say " 1".toList (quiet (withW fun n => shiftApply (shiftOfNum p) n m 1))
  | .shiftMCl => do
    let c ← getReg 8 rCX
    mB fun m => say " CL".toList (quiet (shiftApply (shiftOfNum p) 8 m c))
  | .shiftMClX => do
    let c ← getReg 8 rCX
    mX fun m => say " CL".toList (quiet (withW fun n => shiftApply (shiftOfNum p) n m c))
  | .miscMI => mB fun m => miscOpT 8 p m
  | .miscMIX => mX fun m => withW fun n => miscOpT n p m
  | .unaryM =>
    if p = 0 then mB fun m => quiet (incApply 8 m)
    else if p = 1 then mB fun m => quiet (decApply 8 m)
    else throwE .undefOpcode
  | .imulMIX => do
    let d ← getDec
    guardE d.ovrOper .bug
    rmX false fun r m => do
      let imm ← readInstr 16
      say (num " 0x" 4 imm.toNat) (quiet (do let s ← readLoc 16 m; imulMulti r s imm))
  | .imulMI8X => do
    let d ← getDec
    guardE d.ovrOper .bug
    rmX false fun r m => do
      let imm ← readInstr8S 16
      say (num " 0x" 4 imm.toNat) (quiet (do let s ← readLoc 16 m; imulMulti r s imm))
  | .imulRMX => do
    let d ← getDec
    guardE d.ovrOper .bug
    rmX false fun r m => quiet (do let s ← readLoc 16 m; let t ← readLoc 16 r; imulMulti r s t)
  | .unaryMX => unaryMXT p
  | .popMX => do
    let d ← getDec
    guardE d.ovrOper .undefOpcode
    mX fun m => quiet (do let v ← pop; writeLoc 16 m v)
  | .movRS => do
    let d ← getDec
    guardE d.ovrOper .undefOpcode
    let b ← peekInstr8
    mX fun m => do
      let sr ← segOf ((b >>> 3).setWidth 3)
      say (" ".toList ++ segName sr) (quiet (do let v ← getSreg sr; writeLoc 16 m v))
  | .movSR => do
    let d ← getDec
    guardE d.ovrOper .undefOpcode
    let b ← peekInstr8
    let sr ← segOf ((b >>> 3).setWidth 3)
    say (" ".toList ++ segName sr) (mX fun m => quiet (do let v ← readLoc 16 m; setSreg sr v))
  | .lea => do
    let m ← getModRM
    guardE (m.mod == 3) .undefOpcode
    let d ← getDec
    say (" ".toList ++ nameX d.ovrOper m.rrr) (mM m fun x => quiet (withW fun n => writeLoc n (regW m.rrr) (x.2.setWidth n)))
  | .lxs sr => do
    let m ← getModRM_unchecked
    guardE (m.mod == 3) .undefOpcode
    mM m fun x => do
      let d ← getDec
      say (" ".toList ++ nameX d.ovrOper m.rrr) (quiet (withW fun n => do
        let v ← readMem n x.1 (x.2.setWidth 16)
        writeLoc n (regW m.rrr) v
        let w ← readMem 16 x.1 ((x.2 + BitVec.ofNat 32 (n / 8)).setWidth 16)
        setSreg sr w))
  | .movZ => do
    let m ← getModRM
    let d ← getDec
    say (" ".toList ++ nameX d.ovrOper m.rrr) (do
      let x ← decodeModMT m
      say x.2 (quiet (withW fun n => do let v ← readLoc 8 x.1; writeLoc n (regW m.rrr) (v.setWidth n))))
  | .movZX => do
    let m ← getModRM
    let d ← getDec
    say (" ".toList ++ nameX d.ovrOper m.rrr) (do
      let x ← decodeModMXT m
      say x.2 (quiet (withW fun n => do let v ← readLoc 16 x.1; writeLoc n (regW m.rrr) (v.setWidth n))))
  | .bsf => rmX false fun r m => quiet (do
    let src ← readLoc 16 m
    let f ← getFlags
    if src = 0 then setFlags (f ||| FLAG_ZF)
    else do
      writeLoc 16 r (BitVec.ofNat 16 (bsfLoop src 16 0))
      setFlags (clr f FLAG_ZF))
  | .shxdI8 right => rmB false fun r m => do
    let amt ← readInstr 8
    say (" ".toList ++ decDigits 10 amt.toNat) (quiet (shxdApply right r m amt))
  | .shxdCl right => rmB false fun r m => say " CL".toList (quiet (do
    let amt ← getReg 8 rCX
    shxdApply right r m amt))
  | o => say (other o p) (quiet (opFn o p))

/-- Opcode functions with their text; those with a ModR/M byte: `opRMT`; `other` stands for what the functions not modelled here
print (memory and register operands: C91).  src/ops_alu.c:82-116, 273-307; src/ops_jump.c:9-168; src/ops_call.c:10-34, 83-94, 192-204;
src/ops_io.c:12-98; src/ops_stack.c:11-45, 131-153; src/ops_mov.c:118-216, 267-297, 371-390; src/ops_misc.c:90-110 (AAM, AAD print nothing); src/ops_string.c:91-399;
src/ops_call.c:36-81 (RET prints nothing). -/
def opFnT (other : Op → BitVec 3 → List Char) (o : Op) (p : BitVec 3) : M (List Char) :=
  match o with
  | .alu k .AI => do
    let s ← readInstr 8
    say (num " AL 0x" 2 s.toNat) (quiet (aluApply k 8 (.reg rAX) s))
  | .alu k .AIX => withW fun n => do
    let s ← readInstr n
    say (" ".toList ++ accX n ++ num " 0x" (n / 4) s.toNat) (quiet (aluApply k n (.reg rAX) s))
  | .testAI => do
    let s ← readInstr 8
    say (num " AL 0x" 2 s.toNat) (quiet (testApply 8 (.reg rAX) s))
  | .testAIX => withW fun n => do
    let s ← readInstr n
    say (" ".toList ++ accX n ++ num " 0x" (n / 4) s.toNat) (quiet (testApply n (.reg rAX) s))
  | .incReg => do let d ← getDec; say (" ".toList ++ nameX d.ovrOper p) (quiet (opIncReg p))
  | .decReg => do let d ← getDec; say (" ".toList ++ nameX d.ovrOper p) (quiet (opDecReg p))
  | .pushReg => do let d ← getDec; say (" ".toList ++ nameX d.ovrOper p) (quiet (opPushReg p))
  | .popReg => do let d ← getDec; say (" ".toList ++ nameX d.ovrOper p) (quiet (opPopReg p))
  | .xchgReg => do
    let d ← getDec
    if p = 0 then say " - NOP".toList (quiet (opXchgReg p))
    else say (" ".toList ++ accX (if d.ovrOper then 32 else 16)) (say (" ".toList ++ nameX d.ovrOper p) (quiet (opXchgReg p)))
  | .pushSeg => do let sr ← segOf p; say (" ".toList ++ segName sr) (quiet (pushM (getSreg sr)))
  | .popSeg => do let sr ← segOf p; say (" ".toList ++ segName sr) (quiet (do let v ← pop; setSreg sr v))
  | .movRegB => do
    let v ← readInstr 8
    say (" ".toList ++ nameB p) (say (num " 0x" 2 v.toNat) (quiet (writeLoc 8 (regB p) v)))
  | .movReg => do
    let d ← getDec
    withW fun n => do
      let v ← readInstr n
      say (" ".toList ++ nameX d.ovrOper p) (say (num " 0x" (n / 4) v.toNat) (quiet (writeLoc n (regW p) v)))
  | .pushI => do let v ← readInstr 16; say (num " 0x" 4 v.toNat) (quiet (pushVal (v.setWidth 32)))
  | .pushI8 => do let v ← readInstr8S 32; say (num " 0x" 2 v.toNat) (quiet (pushVal v))
  | .movAMo => do
    let ((seg, ofs), t) ← moffsT
    say " AL".toList (say t (quiet (do let v ← readMem 8 seg ofs; setReg 8 rAX v)))
  | .movAMoX => do
    let d ← getDec
    let ((seg, ofs), t) ← moffsT
    say (" ".toList ++ accX (if d.ovrOper then 32 else 16)) (say t (quiet (withW fun n => do let v ← readMem n seg ofs; setReg n rAX v)))
  | .movMoA => do
    let ((seg, ofs), t) ← moffsT
    say t (say " AL".toList (quiet (do let v ← getReg 8 rAX; writeMem 8 seg ofs v)))
  | .movMoAX => do
    let d ← getDec
    let ((seg, ofs), t) ← moffsT
    say t (say (" ".toList ++ accX (if d.ovrOper then 32 else 16)) (quiet (withW fun n => do let v ← getReg n rAX; writeMem n seg ofs v)))
  | .jccS k => do
    let dist ← readInstr8S 16
    say (num " .+0x" 4 dist.toNat) (quiet (do let f ← getFlags; if k.eval f then addIP dist else pure ()))
  | .jccN k => do
    let dist ← readInstr 16
    say (num " .+0x" 4 dist.toNat) (quiet (do let f ← getFlags; if k.eval f then addIP dist else pure ()))
  | .jcxz => do
    let dist ← readInstr8S 16
    say (num " .+0x" 2 dist.toNat) (quiet (do
      let d ← getDec
      let cxd ← getReg 32 rCX
      let cx ← getReg 16 rCX
      if d.ovrOper && cxd != 0 then pure ()
      else if !d.ovrOper && cx != 0 then pure ()
      else addIP dist))
  | .loop k => do
    let dist ← readInstr8S 16
    say (num " .+0x" 2 dist.toNat) (quiet (do
      let cx ← getReg 16 rCX
      setReg 16 rCX (cx - 1)
      let cx' ← getReg 16 rCX
      let f ← getFlags
      if cx' != 0 && k.eval f then addIP dist else pure ()))
  | .jmpN => do let d ← readInstr 16; say (num " .+0x" 4 d.toNat) (quiet (addIP d))
  | .jmpS => do let d ← readInstr8S 16; say (num " .+0x" 2 d.toNat) (quiet (addIP d))
  | .jmpF => do
    let ofs ← readInstr 16
    let seg ← readInstr 16
    say (num " 0x" 4 seg.toNat ++ num ":" 4 ofs.toNat) (quiet (do setSreg .cs seg; setIP ofs; setDontChangeIP))
  | .callN => do
    let dist ← readInstr 16
    say (num " .+0x" 4 dist.toNat) (quiet (do pushM nextIP; let ip ← getIP; setIP (ip + dist)))
  | .callF => do
    let ofs ← readInstr 16
    let seg ← readInstr 16
    say (num " 0x" 4 seg.toNat ++ num ":" 4 ofs.toNat) (quiet (do
      pushM (getSreg .cs)
      pushM nextIP
      setSreg .cs seg
      setIP ofs
      setDontChangeIP))
  | .intI => do let n ← readInstr 8; say (" 0x".toList ++ hexText n.toNat) (quiet (callInterrupt n))
  | .enter => do
    let size ← readInstr 16
    say (num " 0x" 4 size.toNat) (do
      let level8 ← readInstr 8
      let level := (level8 &&& 31).toNat
      say (" ".toList ++ decDigits 10 level) (quiet (do
        pushM (getReg 16 rBP)
        let frameTemp ← getReg 16 rSP
        (if level > 1 then do
          enterLoop (level - 1)
          let d ← getDec
          if d.ovrOper then pure () else push frameTemp
         else pure ())
        setReg 16 rBP frameTemp
        let sp ← getReg 16 rSP
        setReg 16 rSP (sp - size))))
  | .inADx => say " DX AL".toList (quiet opInADx)
  | .inADxX => do let d ← getDec; say (if d.ovrOper then " DX EAX".toList else "DX AX".toList) (quiet opInADxX)
  | .inAI => do
    let p ← readInstr 8
    say (num " 0x" 2 p.toNat ++ " AL".toList) (quiet (do let v ← portIn 8 (p.setWidth 16); setReg 8 rAX v))
  | .inAIX => do
    let p ← readInstr 8
    say (num " 0x" 2 p.toNat) (withW fun n => say (" ".toList ++ accX n) (quiet (do let v ← portIn n (p.setWidth 16); setReg n rAX v)))
  | .outDxA => say " AL DX".toList (quiet opOutDxA)
  | .outDxAX => do let d ← getDec; say (if d.ovrOper then " EAX DX".toList else " AX DX".toList) (quiet opOutDxAX)
  | .outAI => do
    let p ← readInstr 8
    say (num " AL 0x" 2 p.toNat) (quiet (do let v ← getReg 8 rAX; portOut 1 (p.setWidth 16) (v.setWidth 32)))
  | .outAIX => do
    let p ← readInstr 8
    withW fun n => say (" ".toList ++ accX n ++ num " 0x" 2 p.toNat) (quiet (do let v ← getReg n rAX; portOut (n / 8) (p.setWidth 16) (v.setWidth 32)))
  | .daa | .das | .aaa | .aas | .aam | .aad | .pushA | .popA | .pushF | .popF | .cbw | .cwd | .hlt
  | .retN | .retF | .retiN | .retiF | .leave | .int3 | .into | .iret | .flag _ | .sahf | .lahf
  | .ovrSeg | .ovrOper | .ovrAddr | .rep | .repnz => quiet (opFn o p)
  | .xlat => xlatT
  | .movs w => strWT w fun n => stringOpT false true true "" "" (n / 8) fun ss so ds dd => do
    let v ← readMem n ss (so.setWidth 16)
    writeMem n ds (dd.setWidth 16) v
  | .stos w => strWT w fun n => stringOpT false true false "" (strAcc n) (n / 8) fun _ _ ds dd => do
    let v ← getReg n rAX
    writeMem n ds (dd.setWidth 16) v
  | .lods w => strWT w fun n => stringOpT false false true (strAcc n) "" (n / 8) fun ss so _ _ => do
    let v ← readMem n ss (so.setWidth 16)
    setReg n rAX v
  | .cmps w => strWT w fun n => stringOpT true true true "" "" (n / 8) fun ss so ds dd => do
    let a ← readMem n ss (so.setWidth 16)
    let b ← readMem n ds (dd.setWidth 16)
    cmpFlags a b
  | .scas w => strWT w fun n => stringOpT true true false "" (if n = 8 then "" else strAcc n) (n / 8) fun _ _ ds dd => do
    let b ← readMem n ds (dd.setWidth 16)
    let a ← getReg n rAX
    cmpFlags a b
  | .ins w => strWT w fun n => stringOpT false true false "" " DX" (n / 8) fun _ _ ds dd => do
    let p ← getReg 16 rDX
    let v ← portIn n p
    writeMem n ds (dd.setWidth 16) v
  | .outs w => strWT w fun n => stringOpT false false true " DX" "" (n / 8) fun ss so _ _ => do
    let v ← readMem n ss (so.setWidth 16)
    let p ← getReg 16 rDX
    portOut (n / 8) p (v.setWidth 32)
  | o => opRMT other o p

/-- `RME_Op_Ext_0F` with the text of the function it calls, src/rme.c:312-329. -/
def ext0FT (other : Op → BitVec 3 → List Char) : M (List Char) := do
  let extra ← readInstr 8
  match opEntry0F extra with
  | some ⟨.base o, arg, _⟩ => opFnT other o arg
  | _ => throwE .undefOpcode

/-- Call through `caOperations[opcode].Function` with its text, src/rme.c:252. -/
def callFnT (other : Op → BitVec 3 → List Char) (f : Fn) (p : BitVec 3) : M (List Char) :=
  match f with
  | .base o => opFnT other o p
  | .ext0F => ext0FT other

/-- The prefix loop with its text and the text of the opcode function (`decodeText` with the operands), src/rme.c:224-253. -/
def decodeAll (other : Op → BitVec 3 → List Char) : Nat → List Char → M (List Char × BitVec 8)
  | 0, _ => ubE .modelFuel
  | fuel + 1, acc => fun env s =>
    match readInstr 8 env s with
    | .err e t => .err e t
    | .ub u => .ub u
    | .ok op t =>
      if op = 0xF1 then .err .breakpoint t
      else match opEntry op with
      | none => .err .undefOpcode t
      | some e =>
        match fetchParam e env t with
        | .err e t => .err e t
        | .ub u => .ub u
        | .ok p t =>
          let acc := acc ++ (if acc = [] then [] else " ".toList) ++ nameText op p ++ fnText e.fn p (peek env t)
          match callFnT other e.fn p env t with
          | .err .cont t => decodeAll other fuel acc env t
          | .err e t => .err e t
          | .ub u => .ub u
          | .ok body t => .ok (acc ++ body, op) t

/-- `RME_Int_DoOpcode` with its complete trace line, operands included, src/rme.c:201-310. -/
def doOpcodeAll (other : Op → BitVec 3 → List Char) : M (List Char) := do
  let startIP ← getIP
  let startCS ← getSreg .cs
  startInstr
  let head ← gets (fun s => if s.debugLevel > 0 then traceHead s else [])
  let (names, op) ← decodeAll other 6 []
  let d ← getDec
  let warn ← gets (fun s => if s.debugLevel > 0 then repWarning d.rep op else [])
  advanceIP
  nullCheckTail startCS startIP
  let lvl ← gets (·.debugLevel)
  if lvl ≥ 1 then do
    let d ← getDec
    let bytes ← traceBytes startCS d.ipOffset startIP
    pure (head ++ (warn ++ " ".toList ++ Debug.cutText '$' names) ++ "\t;".toList ++ bytes ++ "\n".toList)
  else pure (head ++ warn)

end RME.Trace
