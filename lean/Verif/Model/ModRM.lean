import Verif.Model.Mem
set_option autoImplicit false
/-
Model of the ModR/M decoder, src/rme_internal.h:334-352 and src/rme.c:353-377, 475-824.
-/
namespace RME

/-- `struct ModRM`, src/rme_internal.h:334-338. -/
structure ModRM where
  mod : BitVec 2
  rrr : BitVec 3
  mmm : BitVec 3
  deriving DecidableEq, Repr

/-- Field extraction of `RME_Int_GetModRM`, src/rme_internal.h:343-345. -/
def ModRM.ofByte (b : BitVec 8) : ModRM :=
  { mod := (b >>> 6).setWidth 2, rrr := (b >>> 3).setWidth 3, mmm := b.setWidth 3 }

/-- `RME_Int_GetModRM`, src/rme_internal.h:339-347. -/
def getModRM : M ModRM := do
  let b ← readInstr 8
  pure (ModRM.ofByte b)

/-- Callers that ignore the return value of `RME_Int_GetModRM` (src/rme.c:242,
src/ops_misc.c:199) go on with an uninitialised `struct ModRM` when it failed. -/
def getModRM_unchecked : M ModRM := fun env s =>
  match getModRM env s with
  | .err _ _ => .ub .uninit
  | r => r

/-- Default segment choice of `DoFunc`/`DoFunc32`: `switch(mmm)` on the value *including* the
flag 8 for "mod = 0", src/rme.c:490-502, 573-585. -/
def defaultSeg (mmm : BitVec 3) (mod0 : Bool) : SReg :=
  if !mod0 && (mmm == 2 || mmm == 3 || mmm == 6) then .ss else .ds

/-- `DoFunc`, src/rme.c:485-558.  `mod0` is the flag 8 in `mmm`; `disp` is `int16_t`, `addr` is
`uint32_t`. -/
def doFunc (mmm : BitVec 3) (mod0 : Bool) (disp : BitVec 16) : M (BitVec 16 × BitVec 32) := do
  let seg ← getSegment (defaultSeg mmm mod0)
  let s ← gets id
  let w (r : BitVec 3) : BitVec 32 := (s.reg 16 r).setWidth 32
  if mmm = 6 ∧ mod0 = true then do
    let d ← readInstr 16
    pure (seg, d.signExtend 32)
  else
    let base : BitVec 32 :=
      if mmm = 0 then w rBX + w rSI
      else if mmm = 1 then w rBX + w rDI
      else if mmm = 2 then w rBP + w rSI
      else if mmm = 3 then w rBP + w rDI
      else if mmm = 4 then w rSI
      else if mmm = 5 then w rDI
      else if mmm = 6 then w rBP
      else w rBX
    pure (seg, if mod0 then base else base + disp.signExtend 32)

/-- Index part of the SIB byte, src/rme.c:609-623. -/
def sibIndex (s : State) (sib : BitVec 8) : BitVec 32 :=
  let i : BitVec 3 := (sib >>> 3).setWidth 3
  (if i = 4 then 0 else s.gpr i) <<< (sib >>> 6).toNat

/-- `DoFunc32`, src/rme.c:567-679.  (`disp` read for SIB base 5 with mod 0 is not added, as in the
source.) -/
def doFunc32 (mmm : BitVec 3) (mod0 : Bool) (disp : BitVec 32) : M (BitVec 16 × BitVec 32) := do
  let seg ← getSegment (defaultSeg mmm mod0)
  let s ← gets id
  if mmm = 4 then do
    let sib ← readInstr 8
    let idx := sibIndex s sib
    let b : BitVec 3 := sib.setWidth 3
    if b = 5 ∧ mod0 = true then do
      let _ ← readInstr 32
      pure (seg, idx)
    else
      pure (seg, if mod0 then idx + s.gpr b else idx + s.gpr b + disp)
  else if mmm = 5 ∧ mod0 = true then do
    let a ← readInstr 32
    pure (seg, a)
  else
    pure (seg, if mod0 then s.gpr mmm else s.gpr mmm + disp)

/-- `RME_Int_GetMMM`, src/rme.c:681-739.  The displacement goes through a `uint16_t`. -/
def getMMM (m : ModRM) : M (BitVec 16 × BitVec 32) := do
  let d ← getDec
  if d.ovrAddr then
    if m.mod = 0 then doFunc32 m.mmm true 0
    else if m.mod = 1 then do
      let ofs ← readInstr8S 16
      doFunc32 m.mmm false (ofs.setWidth 32)
    else if m.mod = 2 then do
      let ofs ← readInstr 32
      doFunc32 m.mmm false ((ofs.setWidth 16).setWidth 32)
    else throwE .bug
  else
    if m.mod = 0 then doFunc m.mmm true 0
    else if m.mod = 1 then do
      let ofs ← readInstr8S 16
      doFunc m.mmm false ofs
    else if m.mod = 2 then do
      let ofs ← readInstr 16
      doFunc m.mmm false ofs
    else throwE .bug

/-- `RME_Int_DecodeModM`, src/rme.c:741-756. -/
def decodeModM (m : ModRM) : M Loc :=
  if m.mod = 3 then pure (regB m.mmm)
  else do
    let (seg, ofs) ← getMMM m
    let p ← getPtr seg ofs
    pure (.mem p)

/-- `RME_Int_DecodeModMX`, src/rme.c:758-778. -/
def decodeModMX (m : ModRM) : M Loc :=
  if m.mod = 3 then pure (regW m.mmm)
  else do
    let (seg, ofs) ← getMMM m
    guardE ((seg.setWidth 32 * 16 + ofs).toNat % blockSize == blockSize - 1) .badmem
    let p ← getPtr seg ofs
    pure (.mem p)

/-- `RME_Int_ParseModRM`, src/rme.c:786-801 (returns reg pointer and r/m pointer; the order of the
two debug prints selected by `bReverse` does not matter). -/
def parseModRM : M (Loc × Loc) := do
  let m ← getModRM
  let l ← decodeModM m
  pure (regB m.rrr, l)

/-- `RME_Int_ParseModRMX`, src/rme.c:809-824. -/
def parseModRMX : M (Loc × Loc) := do
  let m ← getModRM
  let l ← decodeModMX m
  pure (regW m.rrr, l)

/-- `RME_Int_ParseModRMX_FarPtr`, src/rme.c:353-377; result `(cs, ip)`. -/
def parseFarPtr : M (BitVec 16 × BitVec 16) := do
  let m ← getModRM
  guardE (m.mod == 3) .undefOpcode
  let (seg, ofs) ← getMMM m
  let ip ← readMem 16 seg (ofs.setWidth 16)
  let cs ← readMem 16 seg ((ofs + 2).setWidth 16)
  pure (cs, ip)

end RME
