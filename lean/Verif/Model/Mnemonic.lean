import Verif.Model.OperandText
import Verif.Model.DebugPrint
set_option autoImplicit false
/-
Model of the names in the trace: the texts of the opcode tables (src/opcode_table.h:13-45, 47-118, 120-161) and what `RME_Int_DoOpcode`,
`RME_Op_Ext_0F` and the prefix functions print of them (src/rme.c:240-252, 258-264, 323; src/prefixes.c:10-49).
-/
namespace RME.Trace

/-- Fields `Name` and `Type` of `tOperation`, src/opcode_table.h:38-41 (`DEF_OP_X` makes them from the tokens, lines 13-16). -/
abbrev NameTable := List (String × String)

/-- `UNDEF_OP`, src/opcode_table.h:12. -/
def nUndef : String × String := ("Undef", "")
/-- `DEF_ALU_OP`, src/opcode_table.h:18-20. -/
def nAlu (n : String) : NameTable := [(n, "MR"), (n, "MRX"), (n, "RM"), (n, "RMX"), (n, "AI"), (n, "AIX")]
/-- `DEF_REG_OP` and `DEF_REGB_OP`, src/opcode_table.h:22-29. -/
def nReg (n t : String) : NameTable := List.replicate 8 (n, t)

/-- The texts of `caOperations`, src/opcode_table.h:47-118. -/
def opNames : NameTable :=
  /- 00 -/ nAlu "ADD" ++ [("PUSH", "Seg"), ("POP", "Seg")] ++
  /- 08 -/ nAlu "OR" ++ [("PUSH", "Seg"), ("Ext", "0F")] ++
  /- 10 -/ nAlu "ADC" ++ [("PUSH", "Seg"), ("POP", "Seg")] ++
  /- 18 -/ nAlu "SBB" ++ [("PUSH", "Seg"), ("POP", "Seg")] ++
  /- 20 -/ nAlu "AND" ++ [("Ovr", "Seg"), ("DAA", "z")] ++
  /- 28 -/ nAlu "SUB" ++ [("Ovr", "Seg"), ("DAS", "z")] ++
  /- 30 -/ nAlu "XOR" ++ [("Ovr", "Seg"), ("AAA", "z")] ++
  /- 38 -/ nAlu "CMP" ++ [("Ovr", "Seg"), ("AAS", "z")] ++
  /- 40 -/ nReg "INC" "Reg" ++ nReg "DEC" "Reg" ++ nReg "PUSH" "Reg" ++ nReg "POP" "Reg" ++
  /- 60 -/ [("PUSH", "A"), ("POP", "A"), nUndef, nUndef,
  /- 64 -/  ("Ovr", "Seg"), ("Ovr", "Seg"), ("Ovr", "OpSize"), ("Ovr", "AddrSize"),
  /- 68 -/  ("PUSH", "I"), ("IMUL", "MIX"), ("PUSH", "I8"), ("IMUL", "MI8X"),
  /- 6C -/  ("IN", "SB"), ("IN", "SW"), ("OUT", "SB"), ("OUT", "SW"),
  /- 70 -/  ("JO", "S"), ("JNO", "S"), ("JC", "S"), ("JNC", "S"), ("JZ", "S"), ("JNZ", "S"), ("JBE", "S"), ("JA", "S"),
  /- 78 -/  ("JS", "S"), ("JNS", "S"), ("JPE", "S"), ("JPO", "S"), ("JL", "S"), ("JGE", "S"), ("JLE", "S"), ("JG", "S"),
  /- 80 -/  ("Arith", "MI"), ("Arith", "MIX"), nUndef, ("Arith", "MI8X"),
  /- 84 -/  ("TEST", "MR"), ("TEST", "MRX"), ("XCHG", "RM"), ("XCHG", "RMX"),
  /- 88 -/  ("MOV", "MR"), ("MOV", "MRX"), ("MOV", "RM"), ("MOV", "RMX"),
  /- 8C -/  ("MOV", "RS"), ("LEA", "z"), ("MOV", "SR"), ("POP", "MX")] ++
  /- 90 -/ nReg "XCHG" "Reg" ++
  /- 98 -/ [("CBW", "z"), ("CWD", "z"), ("CALL", "F"), nUndef,
  /- 9C -/  ("PUSH", "F"), ("POP", "F"), ("Flag", "SAHF"), ("Flag", "LAHF"),
  /- A0 -/  ("MOV", "AMo"), ("MOV", "AMoX"), ("MOV", "MoA"), ("MOV", "MoAX"),
  /- A4 -/  ("MOV", "SB"), ("MOV", "SW"), ("CMP", "SB"), ("CMP", "SW"),
  /- A8 -/  ("TEST", "AI"), ("TEST", "AIX"), ("STO", "SB"), ("STO", "SW"),
  /- AC -/  ("LOD", "SB"), ("LOD", "SW"), ("SCA", "SB"), ("SCA", "SW")] ++
  /- B0 -/ nReg "MOV" "RegB" ++ nReg "MOV" "Reg" ++
  /- C0 -/ [("Shift", "MI"), ("Shift", "MI8X"), ("RET", "iN"), ("RET", "N"),
  /- C4 -/  ("LES", "z"), ("LDS", "z"), ("MOV", "MI"), ("MOV", "MIX"),
  /- C8 -/  ("ENTER", "z"), ("LEAVE", "z"), ("RET", "iF"), ("RET", "F"),
  /- CC -/  ("INT", "3"), ("INT", "I"), ("INTO", "z"), ("IRET", "z"),
  /- D0 -/  ("Shift", "M1"), ("Shift", "M1X"), ("Shift", "MCl"), ("Shift", "MClX"),
  /- D4 -/  ("AAM", "z"), ("AAD", "z"), nUndef, ("XLAT", "z")] ++
  /- D8 -/ List.replicate 8 nUndef ++
  /- E0 -/ [("LOOPNZ", "S"), ("LOOPZ", "S"), ("LOOP", "S"), ("JCXZ", "S"),
  /- E4 -/  ("IN", "AI"), ("IN", "AIX"), ("OUT", "AI"), ("OUT", "AIX"),
  /- E8 -/  ("CALL", "N"), ("JMP", "N"), ("JMP", "F"), ("JMP", "S"),
  /- EC -/  ("IN", "ADx"), ("IN", "ADxX"), ("OUT", "DxA"), ("OUT", "DxAX"),
  /- F0 -/  nUndef, nUndef, ("Prefix", "REPNZ"), ("Prefix", "REP"),
  /- F4 -/  ("HLT", "z"), ("Flag", "CMC"), ("ArithMisc", "MI"), ("ArithMisc", "MIX"),
  /- F8 -/  ("Flag", "CLC"), ("Flag", "STC"), ("Flag", "CLI"), ("Flag", "STI"),
  /- FC -/  ("Flag", "CLD"), ("Flag", "STD"), ("Unary", "M"), ("Unary", "MX")]

/-- `Name` of `caOperations0F`, src/opcode_table.h:122-161 (`Type` is not printed for these). -/
def opNames0F : List String :=
  List.replicate 0x80 "Undef" ++
  /- 80 -/ ["JO", "JNO", "JC", "JNC", "JZ", "JNZ", "JBE", "JA", "JS", "JNS", "JPE", "JPO", "JL", "JGE", "JLE", "JG"] ++
  /- 90 -/ List.replicate 16 "Undef" ++
  /- A0 -/ ["PUSH", "POP", "Undef", "Undef", "SHLD", "SHLD", "Undef", "Undef",
  /- A8 -/  "PUSH", "POP", "Undef", "Undef", "SHRD", "SHRD", "Undef", "IMUL",
  /- B0 -/  "Undef", "Undef", "LSS", "Undef", "LFS", "LGS", "MOV", "MOV",
  /- B8 -/  "Undef", "Undef", "BTx", "Undef", "BSF", "Undef", "Undef", "Undef"] ++
  /- C0 -/ List.replicate 64 "Undef"

/-- `casArithOps`, `casMiscOps`, `casShiftOps`, `casUnaryOps`, src/opcode_table.h:32-35. -/
def arithOps : List String := ["ADD", "OR", "ADC", "SBB", "AND", "SUB", "XOR", "CMP"]
def miscOps : List String := ["TEST", "M1-", "NOT", "NEG", "MUL", "IMUL", "DIV", "IDIV"]
def shiftOps : List String := ["ROL", "ROR", "RCL", "RCR", "SHL", "SHR", "SAL", "SAR"]
def unaryOps : List String := ["INC", "DEC", "CALL (NI)", "CALL (FI)", "JMP (NI)", "JMP (FI)", "PUSH", "?"]

/-- `ModRMNames` of `caOperations` (the fourth token of `DEF_OP_N`), src/opcode_table.h:78-79, 96, 102-103, 114, 117. -/
def modrmNames (op : BitVec 8) : Option (List String) :=
  if op = 0x80 ∨ op = 0x81 ∨ op = 0x83 then some arithOps
  else if op = 0xC0 ∨ op = 0xC1 ∨ op = 0xD0 ∨ op = 0xD1 ∨ op = 0xD2 ∨ op = 0xD3 then some shiftOps
  else if op = 0xF6 ∨ op = 0xF7 then some miscOps
  else if op = 0xFE ∨ op = 0xFF then some unaryOps
  else none

/-- `"%s (%s)"` with the name (that of the register field for the groups) and the type, src/rme.c:242-251. -/
def nameText (op : BitVec 8) (r : BitVec 3) : List Char :=
  let (n, t) := opNames.getD op.toNat nUndef
  (match modrmNames op with
    | some l => l.getD r.toNat ""
    | none => n).toList ++ " (".toList ++ t.toList ++ ")".toList

/-- `" %s"` of `RME_Op_Ext_0F`, src/rme.c:323. -/
def nameText0F (op : BitVec 8) : List Char := " ".toList ++ (opNames0F.getD op.toNat "").toList

/-- What a prefix function prints, src/prefixes.c:14, 23, 31. -/
def prefixText (o : Op) (p : BitVec 3) : List Char :=
  match o with
  | .ovrSeg => " ".toList ++ ((["ES", "CS", "SS", "DS", "FS", "GS"] : List String).getD p.toNat "").toList
  | .ovrOper => " <OPER>".toList
  | .ovrAddr => " <ADDR>".toList
  | _ => []

/-- The text a called function leaves behind, apart from operands: the second name after 0F (`x`: the byte it reads), the text of a prefix. -/
def fnText (f : Fn) (p : BitVec 3) (x : BitVec 8) : List Char :=
  match f with
  | .base o => prefixText o p
  | .ext0F => nameText0F x

/-- The byte `READ_INSTR8` would give, 0 if it fails (used for the text only). -/
def peek (env : Env) (s : State) : BitVec 8 :=
  match readInstr 8 env s with
  | .ok b _ => b
  | _ => 0

/-- The prefix loop with its text (`acc`: what is in `DebugString` so far), src/rme.c:224-253; also the last opcode.  `body` stands for what the opcode
function prints (its operands: C91). -/
def decodeText (body : List Char) : Nat → List Char → M (List Char × BitVec 8)
  | 0, _ => ubE .modelFuel
  | fuel + 1, acc => fun env s =>
    match readInstr 8 env s with
    | .err e t => .err e t
    | .ub u => .ub u
    | .ok op t =>
      if op = 0xF1 then .err .breakpoint t
      else match opEntry op with
      | none => .err .undefOpcode t
      | some e =>
        match fetchParam e env t with
        | .err e t => .err e t
        | .ub u => .ub u
        | .ok p t =>
          let acc := acc ++ (if acc = [] then [] else " ".toList) ++ nameText op p ++ fnText e.fn p (peek env t)
          match callFn e.fn p env t with
          | .err .cont t => decodeText body fuel acc env t
          | .err e t => .err e t
          | .ub u => .ub u
          | .ok _ t => .ok (acc ++ body, op) t

/-- `RepeatType` as a number, src/rme_internal.h:183. -/
def repCode : Rep → Nat
  | .none => 0 | .rep => 0xF3 | .repnz => 0xF2

/-- `" Prefix 0x%02x used with wrong opcode 0x%02x"`, src/rme.c:258-264. -/
def repWarning (r : Rep) (op : BitVec 8) : List Char :=
  if r = .none then [] else " Prefix 0x".toList ++ hexPad 2 (repCode r) ++ " used with wrong opcode 0x".toList ++ hexPad 2 op.toNat

/-- `RME_Int_DoOpcode` with its complete trace line, src/rme.c:201-310 (`" %s"` with the 64-byte buffer, line 299: `Debug.cutText`). -/
def doOpcodeFull (body : List Char) : M (List Char) := do
  let startIP ← getIP
  let startCS ← getSreg .cs
  startInstr
  let head ← gets (fun s => if s.debugLevel > 0 then traceHead s else [])
  let (names, op) ← decodeText body 6 []
  let d ← getDec
  let warn ← gets (fun s => if s.debugLevel > 0 then repWarning d.rep op else [])
  advanceIP
  nullCheckTail startCS startIP
  let lvl ← gets (·.debugLevel)
  if lvl ≥ 1 then do
    let d ← getDec
    let bytes ← traceBytes startCS d.ipOffset startIP
    pure (head ++ (warn ++ " ".toList ++ Debug.cutText '$' names) ++ "\t;".toList ++ bytes ++ "\n".toList)
  else pure (head ++ warn)

end RME.Trace
