import Verif.Model.Trace
set_option autoImplicit false
/-
Model of the operand text of the trace: the `RME_Int_DebugPrint` calls of the ModR/M decoder (src/rme.c:485-824) and of the register selectors
(src/rme_internal.h:370-405).  Every function below is the one of Model/ModRM.lean with the text it prints; the buffer the text goes to is C47.
-/
namespace RME.Trace

/-- `regnames` of `Seg`, src/rme_internal.h:372. -/
def segName : SReg → List Char
  | .es => "ES".toList | .cs => "CS".toList | .ss => "SS".toList | .ds => "DS".toList | .fs => "FS".toList | .gs => "GS".toList

/-- `regnamesB`, src/rme_internal.h:390. -/
def nameB (r : BitVec 3) : List Char := (["AL", "CL", "DL", "BL", "AH", "CH", "DH", "BH"].getD r.toNat "").toList
/-- `regnamesD`, src/rme_internal.h:401. -/
def nameD (r : BitVec 3) : List Char := (["EAX", "ECX", "EDX", "EBX", "ESP", "EBP", "ESI", "EDI"].getD r.toNat "").toList
/-- `regnamesW`, src/rme_internal.h:402. -/
def nameW (r : BitVec 3) : List Char := (["AX", "CX", "DX", "BX", "SP", "BP", "SI", "DI"].getD r.toNat "").toList

/-- `" %s"` of `Seg` for the segment used: the override or the default, src/rme.c:499-502, src/rme_internal.h:373. -/
def segUsed (d : SReg) : M SReg := do
  let x ← getDec
  pure (x.ovrSeg.getD d)

/-- Registers of a 16-bit address and their text, src/rme.c:505-546 (without the case of a bare displacement). -/
def addr16 (s : State) (mmm : BitVec 3) : BitVec 32 × List Char :=
  let w (r : BitVec 3) : BitVec 32 := (s.reg 16 r).setWidth 32
  if mmm = 0 then (w rBX + w rSI, "BX+SI".toList)
  else if mmm = 1 then (w rBX + w rDI, "BX+DI".toList)
  else if mmm = 2 then (w rBP + w rSI, "BP+SI".toList)
  else if mmm = 3 then (w rBP + w rDI, "BP+DI".toList)
  else if mmm = 4 then (w rSI, "SI".toList)
  else if mmm = 5 then (w rDI, "DI".toList)
  else if mmm = 6 then (w rBP, "BP".toList)
  else (w rBX, "BX".toList)

/-- `DoFunc` with its text, src/rme.c:485-558. -/
def doFuncT (mmm : BitVec 3) (mod0 : Bool) (disp : BitVec 16) : M ((BitVec 16 × BitVec 32) × List Char) := do
  let sr ← segUsed (defaultSeg mmm mod0)
  let seg ← getSreg sr
  let s ← gets id
  let start := " ".toList ++ segName sr ++ ":[".toList
  if mmm = 6 ∧ mod0 = true then do
    let d ← readInstr 16
    pure ((seg, d.signExtend 32), start ++ ("0x".toList ++ hexPad 4 (d.signExtend 32).toNat ++ "]".toList))
  else if mod0 then pure ((seg, (addr16 s mmm).1), start ++ ((addr16 s mmm).2 ++ "]".toList))
  else pure ((seg, (addr16 s mmm).1 + disp.signExtend 32),
    start ++ ((addr16 s mmm).2 ++ "+0x".toList ++ hexText (disp.signExtend 32).toNat ++ "]".toList))

/-- Text of the index part of the SIB byte, src/rme.c:610-622. -/
def sibText (sib : BitVec 8) : List Char :=
  let i : BitVec 3 := (sib >>> 3).setWidth 3
  (if i = 4 then "EIZ".toList else nameD i) ++ "*".toList ++ [hexDigit (1 <<< (sib >>> 6).toNat)]

/-- `DoFunc32` with its text, src/rme.c:567-679. -/
def doFunc32T (mmm : BitVec 3) (mod0 : Bool) (disp : BitVec 32) : M ((BitVec 16 × BitVec 32) × List Char) := do
  let sr ← segUsed (defaultSeg mmm mod0)
  let seg ← getSreg sr
  let s ← gets id
  let start := " ".toList ++ segName sr ++ ":[".toList
  let dispText := "+0x".toList ++ hexText disp.toNat ++ "]".toList
  if mmm = 4 then do
    let sib ← readInstr 8
    let idx := sibIndex s sib
    let b : BitVec 3 := sib.setWidth 3
    if b = 5 ∧ mod0 = true then do
      let _ ← readInstr 32
      pure ((seg, idx), start ++ (sibText sib ++ "]".toList))
    else if mod0 then pure ((seg, idx + s.gpr b), start ++ (sibText sib ++ ("+".toList ++ (nameD b ++ "]".toList))))
    else pure ((seg, idx + s.gpr b + disp), start ++ (sibText sib ++ ("+".toList ++ (nameD b ++ dispText))))
  else if mmm = 5 ∧ mod0 = true then do
    let a ← readInstr 32
    pure ((seg, a), start ++ ("0x".toList ++ hexText a.toNat ++ "]".toList))
  else if mod0 then pure ((seg, s.gpr mmm), start ++ (nameD mmm ++ "]".toList))
  else pure ((seg, s.gpr mmm + disp), start ++ (nameD mmm ++ dispText))

/-- `RME_Int_GetMMM` with its text, src/rme.c:681-739. -/
def getMMMT (m : ModRM) : M ((BitVec 16 × BitVec 32) × List Char) := do
  let d ← getDec
  if d.ovrAddr then
    if m.mod = 0 then doFunc32T m.mmm true 0
    else if m.mod = 1 then do
      let ofs ← readInstr8S 16
      doFunc32T m.mmm false (ofs.setWidth 32)
    else if m.mod = 2 then do
      let ofs ← readInstr 32
      doFunc32T m.mmm false ((ofs.setWidth 16).setWidth 32)
    else throwE .bug
  else
    if m.mod = 0 then doFuncT m.mmm true 0
    else if m.mod = 1 then do
      let ofs ← readInstr8S 16
      doFuncT m.mmm false ofs
    else if m.mod = 2 then do
      let ofs ← readInstr 16
      doFuncT m.mmm false ofs
    else throwE .bug

/-- `RME_Int_DecodeModM` with its text, src/rme.c:741-756. -/
def decodeModMT (m : ModRM) : M (Loc × List Char) :=
  if m.mod = 3 then pure (regB m.mmm, " ".toList ++ nameB m.mmm)
  else do
    let ((seg, ofs), text) ← getMMMT m
    let p ← getPtr seg ofs
    pure (.mem p, text)

/-- Name of a word register: `bOverrideOperand ? regnamesD : regnamesW`, src/rme_internal.h:403. -/
def nameX (ovr : Bool) (r : BitVec 3) : List Char := if ovr then nameD r else nameW r

/-- `RME_Int_DecodeModMX` with its text, src/rme.c:758-778. -/
def decodeModMXT (m : ModRM) : M (Loc × List Char) :=
  if m.mod = 3 then do
    let d ← getDec
    pure (regW m.mmm, " ".toList ++ nameX d.ovrOper m.mmm)
  else do
    let ((seg, ofs), text) ← getMMMT m
    guardE ((seg.setWidth 32 * 16 + ofs).toNat % blockSize == blockSize - 1) .badmem
    let p ← getPtr seg ofs
    pure (.mem p, text)

/-- `RME_Int_ParseModRM` with its text, src/rme.c:786-801 (both operands wanted; `rev` is `bReverse`). -/
def parseModRMT (rev : Bool) : M ((Loc × Loc) × List Char) := do
  let m ← getModRM
  let (l, text) ← decodeModMT m
  let r := " ".toList ++ nameB m.rrr
  pure ((regB m.rrr, l), if rev then text ++ r else r ++ text)

/-- `RME_Int_ParseModRMX` with its text, src/rme.c:809-824. -/
def parseModRMXT (rev : Bool) : M ((Loc × Loc) × List Char) := do
  let m ← getModRM
  let (l, text) ← decodeModMXT m
  let d ← getDec
  let r := " ".toList ++ nameX d.ovrOper m.rrr
  pure ((regW m.rrr, l), if rev then text ++ r else r ++ text)

end RME.Trace
