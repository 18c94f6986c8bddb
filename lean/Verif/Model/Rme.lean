import Verif.Model.Table
set_option autoImplicit false
/-
Model of the core of src/rme.c: RME_CreateState, RME_Int_DoOpcode, RME_RunOne, RME_Call,
RME_int_CallInt, RME_CallInt.
-/
namespace RME

/-- Decoder fields as reset at the start of an instruction, src/rme.c:210-215. -/
def decReset : Decoder :=
  { ovrSeg := none, rep := .none, ovrOper := false, ovrAddr := false, dontChangeIP := false,
    ipOffset := 0 }

/-- `RME_CreateState` (when `calloc` succeeds), src/rme.c:53-68; `DEBUG` is 1 (src/rme_config.h:14).
`calloc` also zeroes the decoder (OverrideSegment = 0 = SREG_ES). -/
def createState (host : Nat → BitVec 8) (valid : Nat → Bool) : State :=
  { gpr := fun _ => 0
    sreg := fun r => if r = .cs then 0xF000 else 0
    ip := 0xFFF0
    flags := 2
    cpuType := .i8086
    debugLevel := 1
    map := fun _ => none
    host := host
    valid := valid
    instrNum := 0
    lastNull := false
    dec := { decReset with ovrSeg := some .es }
    io := [] }

/-- `RME_MAGIC_CS`, `RME_MAGIC_IP`, src/rme.h:60-61. -/
abbrev MAGIC_CS : BitVec 16 := 0xFFFF
abbrev MAGIC_IP : BitVec 16 := 0xFFFF

/-- `INT_MAX` -/
abbrev INT_MAX : Int := 2147483647

/-- Decoder reset and `State->InstrNum ++`, src/rme.c:210-218. -/
def startInstr : M Unit := fun _ s =>
  if s.instrNum = INT_MAX then .ub .signedOverflow
  else .ok () { s with dec := decReset, instrNum := s.instrNum + 1 }

/-- Parameter of the opcode function: `modrm.rrr` of the peeked ModR/M byte, or `Arg`,
src/rme.c:241-252. -/
def fetchParam (e : Entry) : M (BitVec 3) :=
  if e.modrm then do
    let m ← getModRM_unchecked
    modDec (fun d => { d with ipOffset := d.ipOffset - 1 })
    pure m.rrr
  else pure e.arg

/-- One round of the `do { … } while(ret == RME_ERR_CONTINUE)` loop, src/rme.c:225-252. -/
def decodeOne : M Unit := do
  let opcode ← readInstr 8
  guardE (opcode == 0xF1) .breakpoint
  match opEntry opcode with
  | none => throwE .undefOpcode
  | some e => do
    let p ← fetchParam e
    callFn e.fn p

/-- The prefix loop, src/rme.c:224-253, on explicit fuel (see C36: 6 rounds always suffice). -/
def decodeLoop : Nat → M Unit
  | 0 => ubE .modelFuel
  | fuel + 1 => fun env s =>
    match decodeOne env s with
    | .err .cont s' => decodeLoop fuel env s'
    | r => r

/-- The "00 00 twice" detector, src/rme.c:273-290. -/
def nullCheckTail (startCS startIP : BitVec 16) : M Unit := do
  let d ← getDec
  if d.ipOffset = 2 then do
    let b1 ← readMem 8 startCS startIP
    let b2 ← readMem 8 startCS (startIP + 1)
    if b1 = 0 ∧ b2 = 0 then do
      let was ← gets (·.lastNull)
      guardE was .breakpoint
      modify (fun s => { s with lastNull := true })
    else modify (fun s => { s with lastNull := false })
  else modify (fun s => { s with lastNull := false })

/-- `while(j--) { RME_Int_Read8(startCS, i, &byte); i++ }` of the debug dump, src/rme.c:301-306. -/
def dumpLoop (cs : BitVec 16) : Nat → BitVec 16 → M Unit
  | 0, _ => pure ()
  | j + 1, i => do
    let _ ← readMem 8 cs i
    dumpLoop cs j (i + 1)

/-- `if( DebugLevel >= 1 )` part, src/rme.c:293-308. -/
def debugTail (startCS startIP : BitVec 16) : M Unit := do
  let lvl ← gets (·.debugLevel)
  if lvl ≥ 1 then do
    let d ← getDec
    dumpLoop startCS d.ipOffset startIP
  else pure ()

/-- `if( !bDontChangeIP ) IP += IPOffset;`, src/rme.c:268-269. -/
def advanceIP : M Unit := do
  let d ← getDec
  if d.dontChangeIP then pure ()
  else do
    let n ← nextIP
    setIP n

/-- Everything after the decode loop of `RME_Int_DoOpcode`, src/rme.c:258-309. -/
def finishInstr (startCS startIP : BitVec 16) : M Unit := do
  advanceIP
  nullCheckTail startCS startIP
  debugTail startCS startIP

/-- `RME_Int_DoOpcode`, src/rme.c:201-310. -/
def doOpcode : M Unit := do
  let startIP ← getIP
  let startCS ← getSreg .cs
  startInstr
  decodeLoop 6
  finishInstr startCS startIP

/-- `RME_int_CallInt`, src/rme.c:103-126. -/
def callIntInternal (num : Int) : M Unit := do
  guardE (num < 0 || num > 0xFF) .inval
  pushM getFlags
  pushM (getSreg .cs)
  pushM getIP
  let f ← getFlags
  setFlags (clr f (FLAG_IF ||| FLAG_TF))
  let ofs := BitVec.ofInt 16 (num * 4)
  let ip ← readMem 16 0 ofs
  setIP ip
  let cs ← readMem 16 0 (ofs + 2)
  setSreg .cs cs

/-- A call whose error code is ignored. -/
def ignoreErr (m : M Unit) : M Unit := fun env s =>
  match m env s with
  | .err _ s' => .ok () s'
  | r => r

/-- `RME_RunOne`, src/rme.c:163-196. -/
def runOne : M Unit := fun env s =>
  if s.ip = MAGIC_IP ∧ s.sreg .cs = MAGIC_CS then .err .fcnRet s
  else if s.sreg .cs = HLE_CS ∧ s.ip.toNat < 0x100 then
    (runHle (s.ip.setWidth 8) env s).bind (fun _ s' => ignoreErr opIret env s')
  else
    match doOpcode env s with
    | .err .divErr s' => callIntInternal 0 env s'
    | r => r

/-- `RME_Call`, src/rme.c:147-158, on explicit fuel: `none` = still running after `fuel`
instructions. -/
def rmeCall (env : Env) : Nat → State → Option (Res Unit)
  | 0, _ => none
  | fuel + 1, s =>
    match runOne env s with
    | .err .fcnRet s' => some (.ok () s')
    | .err e s' => some (.err e s')
    | .ub u => some (.ub u)
    | .ok () s' => rmeCall env fuel s'

/-- `RME_CallInt`, src/rme.c:131-142. -/
def rmeCallInt (env : Env) (fuel : Nat) (num : Int) (s : State) : Option (Res Unit) :=
  let s0 := { s.setSreg .cs MAGIC_CS with ip := MAGIC_IP }
  match callIntInternal num env s0 with
  | .ok () s' => rmeCall env fuel s'
  | r => some r

end RME
