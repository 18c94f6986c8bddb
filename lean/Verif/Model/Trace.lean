import Verif.Model.Rme
set_option autoImplicit false
/-
Model of the text the emulator prints about the machine: `RME_DumpRegs` (src/rme.c:73-101) and the trace line of
`RME_Int_DoOpcode` (src/rme.c:220-222, 258-264, 293-308).
-/
namespace RME.Trace

/-- Digit of `printf("%x")` (value below 16). -/
def hexDigit (n : Nat) : Char := "0123456789abcdef".toList.getD n '?'

/-- `printf("%x", n)`; `fuel` is a bound on the number of digits. -/
def hexDigits : Nat → Nat → List Char
  | 0, _ => []
  | fuel + 1, n => if n < 16 then [hexDigit n] else hexDigits fuel (n / 16) ++ [hexDigit (n % 16)]

/-- `printf("%x", n)` of a 32-bit value (at most 8 digits). -/
def hexText (n : Nat) : List Char := hexDigits 8 n

/-- `printf("%0wx", n)`. -/
def hexPad (w n : Nat) : List Char := List.replicate (w - (hexText n).length) '0' ++ hexText n

/-- `printf("%i", n)` of a non-negative `int` (at most 10 digits). -/
def decDigits : Nat → Nat → List Char
  | 0, _ => []
  | fuel + 1, n => if n < 10 then [hexDigit n] else decDigits fuel (n / 10) ++ [hexDigit (n % 10)]

/-- `printf("%8i", n)`.  Simplification: the count is not negative (it starts at 0 and only grows, src/rme.c:218). -/
def intPad8 (n : Int) : List Char :=
  let d := decDigits 10 n.toNat
  List.replicate (8 - d.length) ' ' ++ d

/-- `if(State->Flags & mask) printf(name);`, src/rme.c:91-99. -/
def flagName (f mask : BitVec 16) (name : String) : List Char := if f &&& mask ≠ 0 then name.toList else []

/-- `RME_DumpRegs` (`USE_SIZE_OVERRIDES` is 1, src/rme.h:39), src/rme.c:73-101. -/
def dumpRegs (s : State) : List Char :=
  let d (r : BitVec 3) := hexPad 8 (s.gpr r).toNat
  let w (v : BitVec 16) := hexPad 4 v.toNat
  "\n".toList ++
  "EAX ".toList ++ d 0 ++ "  ECX ".toList ++ d 1 ++ "  EDX ".toList ++ d 2 ++ "  EBX ".toList ++ d 3 ++ "\n".toList ++
  "ESP ".toList ++ d 4 ++ "  EBP ".toList ++ d 5 ++ "  ESI ".toList ++ d 6 ++ "  EDI ".toList ++ d 7 ++ "\n".toList ++
  "SS ".toList ++ w (s.sreg .ss) ++ "  DS ".toList ++ w (s.sreg .ds) ++ "  ES ".toList ++ w (s.sreg .es) ++ "\n".toList ++
  "CS:IP = 0x".toList ++ w (s.sreg .cs) ++ ":".toList ++ w s.ip ++ "\n".toList ++
  "Flags = ".toList ++ w s.flags ++
  flagName s.flags FLAG_OF " OF" ++ flagName s.flags FLAG_DF " DF" ++ flagName s.flags FLAG_IF " IF" ++ flagName s.flags FLAG_TF " TF" ++
  flagName s.flags FLAG_SF " SF" ++ flagName s.flags FLAG_ZF " ZF" ++ flagName s.flags FLAG_AF " AF" ++ flagName s.flags FLAG_PF " PF" ++
  flagName s.flags FLAG_CF " CF" ++ "\n".toList

/-- `printf("(%8i) [0x%x] %04x:%04x", InstrNum, CS*16+IP, CS, IP)`, src/rme.c:220-222 (after `InstrNum ++`). -/
def traceHead (s : State) : List Char :=
  "(".toList ++ intPad8 s.instrNum ++ ") [0x".toList ++ hexText ((s.sreg .cs).toNat * 16 + s.ip.toNat) ++ "] ".toList ++
  hexPad 4 (s.sreg .cs).toNat ++ ":".toList ++ hexPad 4 s.ip.toNat

/-- The byte column: `while(j--) { RME_Int_Read8(startCS, i, &byte); printf(" %02x", byte); i++ }`, src/rme.c:300-306. -/
def traceBytes (cs : BitVec 16) : Nat → BitVec 16 → M (List Char)
  | 0, _ => pure []
  | j + 1, i => do
    let b ← readMem 8 cs i
    let rest ← traceBytes cs j (i + 1)
    pure (" ".toList ++ hexPad 2 b.toNat ++ rest)

/-- `RME_Int_DoOpcode` with its trace line, src/rme.c:201-310.  `mid` is the text between the head and the byte
column (the unused-prefix message, a blank and the disassembly text of the instruction), which is not modelled. -/
def doOpcodeText (mid : List Char) : M (List Char) := do
  let startIP ← getIP
  let startCS ← getSreg .cs
  startInstr
  let head ← gets (fun s => if s.debugLevel > 0 then traceHead s else [])
  decodeLoop 6
  advanceIP
  nullCheckTail startCS startIP
  let lvl ← gets (·.debugLevel)
  if lvl ≥ 1 then do
    let d ← getDec
    let bytes ← traceBytes startCS d.ipOffset startIP
    pure (head ++ mid ++ "\t;".toList ++ bytes ++ "\n".toList)
  else pure head

/-- What `RME_RunOne` prints before anything else: the registers from level 2 on, src/rme.c:165-167. -/
def runOneHead (s : State) : List Char := if s.debugLevel ≥ 2 then dumpRegs s else []

end RME.Trace
