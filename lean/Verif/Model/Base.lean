set_option autoImplicit false
/-
Model of rme2: machine state, outcome monad, registers.
Every definition cites the C source it models (paths relative to /repo).
-/
namespace RME

/-- `enum sRegs`, src/rme_internal.h:35-43. -/
inductive SReg where
  | es | cs | ss | ds | fs | gs
  deriving DecidableEq, Repr

/-- `enum eRME_CPUType`, src/rme.h:115-120. -/
inductive CPUType where
  | i8086 | i80286 | i386
  deriving DecidableEq, Repr

/-- Value of `Decoder.RepeatType` (0, `REP` = 0xF3, `REPNZ` = 0xF2), src/rme.h:192,
src/rme_internal.h:183, src/prefixes.c:36-49. -/
inductive Rep where
  | none | rep | repnz
  deriving DecidableEq, Repr

/-- One call of a host port function (src/ops_io.h:9-14): width in bytes, port and the
value (zero-extended to 32 bits). -/
inductive IOEv where
  | out (bytes : Nat) (port : BitVec 16) (val : BitVec 32)
  | inp (bytes : Nat) (port : BitVec 16) (val : BitVec 32)
  deriving DecidableEq, Repr

/-- `struct { … } Decoder`, src/rme.h:190-200, without the debug text
(modelled in `Verif.Model.DebugPrint`).  `ovrSeg = none` is `OverrideSegment == -1`. -/
structure Decoder where
  ovrSeg : Option SReg
  rep : Rep
  ovrOper : Bool
  ovrAddr : Bool
  dontChangeIP : Bool
  ipOffset : Nat
  deriving DecidableEq, Repr

/-- `tRME_State`, src/rme.h:125-202.
`gpr` are `GPRs[8]` (AX CX DX BX SP BP SI DI); `map b` is `Memory[b]` (`none` = NULL, otherwise
the host address of the block); `host`/`valid` model the host memory the blocks point into
(`valid a` = byte `a` is allocated and accessible); `io` is the trace of port accesses so far.
Simplification: the callback table is part of `Env`. -/
structure State where
  gpr : BitVec 3 → BitVec 32
  sreg : SReg → BitVec 16
  ip : BitVec 16
  flags : BitVec 16
  cpuType : CPUType
  debugLevel : Int
  map : Nat → Option Nat
  host : Nat → BitVec 8
  valid : Nat → Bool
  instrNum : Int
  lastNull : Bool
  dec : Decoder
  io : List IOEv

/-- Everything the emulator is linked against: the null check build setting
(`RME_DO_NULL_CHECK`, src/rme_internal.h:281, src/rme.c:27), the port input functions
(src/rme_config.h:21-23; their answer may depend on all earlier port accesses) and the HLE
callbacks (src/rme.h:180; the code ignores their return value). -/
structure Env where
  nullCheck : Bool
  portIn : List IOEv → Nat → BitVec 16 → BitVec 32
  hle : BitVec 8 → Option (State → State)

/-- Non-zero members of `enum eRME_Errors`, src/rme.h:67-83 (`cont` is `RME_ERR_CONTINUE`). -/
inductive Err where
  | cont | inval | badmem | undefOpcode | divErr | bug | breakpoint | halt | fcnRet
  deriving DecidableEq, Repr

/-- Numeric value of an error code, src/rme.h:67-83. -/
def Err.code : Err → Nat
  | .cont => 1 | .inval => 2 | .badmem => 3 | .undefOpcode => 4 | .divErr => 5
  | .bug => 6 | .breakpoint => 7 | .halt => 8 | .fcnRet => 9

/-- Kinds of undefined behaviour the C code can run into.  `modelFuel` is not C behaviour: it marks
exhaustion of the fuel of a model loop and is proved unreachable. -/
inductive UB where
  | nullBlock | blockIndexOOB | hostInvalid | nullSegPtr | shiftRange | signedOverflow | uninit
  | modelFuel
  deriving DecidableEq, Repr

/-- Outcome of a C function: normal (`return 0`), error code, or undefined behaviour. -/
inductive Res (α : Type) where
  | ok (a : α) (s : State)
  | err (e : Err) (s : State)
  | ub (u : UB)

/-- A C function acting on the state. -/
def M (α : Type) := Env → State → Res α

/-- Continue after a normal return, propagate error codes (`if(ret) return ret;`). -/
def Res.bind {α β : Type} (r : Res α) (f : α → State → Res β) : Res β :=
  match r with
  | .ok a s => f a s
  | .err e s => .err e s
  | .ub u => .ub u

instance : Monad M where
  pure a := fun _ s => .ok a s
  bind m f := fun env s => (m env s).bind (fun a s' => f a env s')

/-- `return e;` -/
def throwE {α : Type} (e : Err) : M α := fun _ s => .err e s
/-- undefined behaviour -/
def ubE {α : Type} (u : UB) : M α := fun _ _ => .ub u
/-- read a part of the state -/
def gets {α : Type} (f : State → α) : M α := fun _ s => .ok (f s) s
/-- update the state -/
def modify (f : State → State) : M Unit := fun _ s => .ok () (f s)
/-- `if(c) return e;` -/
def guardE (c : Bool) (e : Err) : M Unit := if c then throwE e else pure ()
/-- evaluate a computation that may be undefined behaviour -/
def liftUB {α : Type} (x : Except UB α) : M α :=
  match x with
  | .ok a => pure a
  | .error u => ubE u

/-! ### Registers (src/rme.h:103-134, src/rme_internal.h:24-43) -/

abbrev rAX : BitVec 3 := 0
abbrev rCX : BitVec 3 := 1
abbrev rDX : BitVec 3 := 2
abbrev rBX : BitVec 3 := 3
abbrev rSP : BitVec 3 := 4
abbrev rBP : BitVec 3 := 5
abbrev rSI : BitVec 3 := 6
abbrev rDI : BitVec 3 := 7

/-- Replace the low `n` bits of a 32-bit register (`tGPR` union: `.D`, `.W`, `.B.L`),
src/rme.h:103-113. -/
def putLow (n : Nat) (g : BitVec 32) (v : BitVec n) : BitVec 32 :=
  ((g >>> n) <<< n) ||| v.setWidth 32

/-- Replace bits `8 … 8+n-1` of a 64-bit register pair. -/
def putByte1 (n : Nat) (g : BitVec 64) (v : BitVec n) : BitVec 64 :=
  (g &&& ~~~(((BitVec.allOnes n).setWidth 64) <<< 8)) ||| (v.setWidth 64 <<< 8)

/-- Update one register. -/
def State.setGpr (s : State) (r : BitVec 3) (v : BitVec 32) : State :=
  { s with gpr := fun x => if x = r then v else s.gpr x }

/-- `.D` / `.W` / `.B.L` of register `r` (`n` = 32/16/8), src/rme.h:103-113. -/
def State.reg (s : State) (n : Nat) (r : BitVec 3) : BitVec n := (s.gpr r).setWidth n

/-- Assign `.D` / `.W` / `.B.L` of register `r`, src/rme.h:103-113. -/
def State.setReg (s : State) (n : Nat) (r : BitVec 3) (v : BitVec n) : State :=
  s.setGpr r (putLow n (s.gpr r) v)

/-- The registers `r`, `r+1` as 64 consecutive bits of `GPRs[]` (little endian). -/
def State.pair (s : State) (r : BitVec 3) : BitVec 64 := s.gpr (r + 1) ++ s.gpr r

/-- Read `n` bits starting at byte 1 of register `r` (`&GPRs[r].B.H` dereferenced with width `n`;
`n = 8` is AH/CH/DH/BH), src/rme_internal.h:392-393. -/
def State.regH (s : State) (n : Nat) (r : BitVec 3) : BitVec n := (s.pair r >>> 8).setWidth n

/-- Write `n` bits starting at byte 1 of register `r`. -/
def State.setRegH (s : State) (n : Nat) (r : BitVec 3) (v : BitVec n) : State :=
  let p := putByte1 n (s.pair r) v
  (s.setGpr r (p.setWidth 32)).setGpr (r + 1) ((p >>> 32).setWidth 32)

/-- Update one segment register. -/
def State.setSreg (s : State) (r : SReg) (v : BitVec 16) : State :=
  { s with sreg := fun x => if x = r then v else s.sreg x }

def getReg (n : Nat) (r : BitVec 3) : M (BitVec n) := gets (·.reg n r)
def setReg (n : Nat) (r : BitVec 3) (v : BitVec n) : M Unit := modify (·.setReg n r v)
def getSreg (r : SReg) : M (BitVec 16) := gets (·.sreg r)
def setSreg (r : SReg) (v : BitVec 16) : M Unit := modify (·.setSreg r v)
def getIP : M (BitVec 16) := gets (·.ip)
def setIP (v : BitVec 16) : M Unit := modify (fun s => { s with ip := v })
def getFlags : M (BitVec 16) := gets (·.flags)
def setFlags (v : BitVec 16) : M Unit := modify (fun s => { s with flags := v })
def getDec : M Decoder := gets (·.dec)
def modDec (f : Decoder → Decoder) : M Unit := modify (fun s => { s with dec := f s.dec })
/-- `State->Decoder.bDontChangeIP = 1;` -/
def setDontChangeIP : M Unit := modDec (fun d => { d with dontChangeIP := true })
/-- `State->IP + State->Decoder.IPOffset` converted to `uint16_t` (e.g. src/ops_call.c:16). -/
def nextIP : M (BitVec 16) := gets (fun s => s.ip + BitVec.ofNat 16 s.dec.ipOffset)

/-- `Seg(State, code)`, src/rme_internal.h:370-385.  Codes 6 and 7 index `regnames` out of range
and return NULL. -/
def segOf (code : BitVec 3) : M SReg :=
  if code = 0 then pure .es
  else if code = 1 then pure .cs
  else if code = 2 then pure .ss
  else if code = 3 then pure .ds
  else if code = 4 then pure .fs
  else if code = 5 then pure .gs
  else ubE .nullSegPtr

/-- `GET_SEGMENT(State, def)`, src/rme_internal.h:270. -/
def getSegment (dflt : SReg) : M (BitVec 16) := do
  let d ← getDec
  getSreg (d.ovrSeg.getD dflt)

/-! ### Flags (src/rme.h:90-98) -/

abbrev FLAG_CF : BitVec 16 := 0x001
abbrev FLAG_PF : BitVec 16 := 0x004
abbrev FLAG_AF : BitVec 16 := 0x010
abbrev FLAG_ZF : BitVec 16 := 0x040
abbrev FLAG_SF : BitVec 16 := 0x080
abbrev FLAG_TF : BitVec 16 := 0x100
abbrev FLAG_IF : BitVec 16 := 0x200
abbrev FLAG_DF : BitVec 16 := 0x400
abbrev FLAG_OF : BitVec 16 := 0x800

/-- `Flags &= ~mask` -/
def clr (f mask : BitVec 16) : BitVec 16 := f &&& ~~~mask
/-- `Flags |= c ? bit : 0` -/
def orIf (f : BitVec 16) (c : Bool) (bit : BitVec 16) : BitVec 16 := f ||| (if c then bit else 0)
/-- `Flags & bit` as a condition -/
def tst (f bit : BitVec 16) : Bool := (f &&& bit) != 0

end RME
