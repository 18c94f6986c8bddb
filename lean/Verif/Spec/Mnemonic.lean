import Verif.Spec.Machine
set_option autoImplicit false
/-
The mnemonics of the processor manual, and how a person reads the names in the trace.
-/
namespace RME

/-- Condition codes 0 … 15 with their synonyms. -/
def condWords : List (List String) :=
  [["O"], ["NO"], ["B", "C", "NAE"], ["NB", "NC", "AE"], ["E", "Z"], ["NE", "NZ"], ["BE", "NA"], ["NBE", "A"],
   ["S"], ["NS"], ["P", "PE"], ["NP", "PO"], ["L", "NGE"], ["NL", "GE"], ["LE", "NG"], ["NLE", "G"]]

/-- Mnemonics (with synonyms) of the one-byte opcode `op` with register field `r`, for the 16-bit operand size; empty: no instruction, or a prefix. -/
def manualOne (op : BitVec 8) (r : BitVec 3) : List String :=
  let o := op.toNat
  let k := r.toNat
  if o < 0x40 ∧ o % 8 < 6 then [["ADD", "OR", "ADC", "SBB", "AND", "SUB", "XOR", "CMP"].getD (o / 8) ""]
  else if o = 0x06 ∨ o = 0x0E ∨ o = 0x16 ∨ o = 0x1E then ["PUSH"]
  else if o = 0x07 ∨ o = 0x17 ∨ o = 0x1F then ["POP"]
  else if o = 0x27 then ["DAA"] else if o = 0x2F then ["DAS"] else if o = 0x37 then ["AAA"] else if o = 0x3F then ["AAS"]
  else if o < 0x40 then []
  else if o < 0x48 then ["INC"] else if o < 0x50 then ["DEC"] else if o < 0x58 then ["PUSH"] else if o < 0x60 then ["POP"]
  else if o = 0x60 then ["PUSHA"] else if o = 0x61 then ["POPA"]
  else if o = 0x68 ∨ o = 0x6A then ["PUSH"] else if o = 0x69 ∨ o = 0x6B then ["IMUL"]
  else if o = 0x6C then ["INSB"] else if o = 0x6D then ["INSW"] else if o = 0x6E then ["OUTSB"] else if o = 0x6F then ["OUTSW"]
  else if o < 0x70 then []
  else if o < 0x80 then (condWords.getD (o % 16) []).map ("J" ++ ·)
  else if o = 0x80 ∨ o = 0x81 ∨ o = 0x83 then [["ADD", "OR", "ADC", "SBB", "AND", "SUB", "XOR", "CMP"].getD k ""]
  else if o = 0x84 ∨ o = 0x85 ∨ o = 0xA8 ∨ o = 0xA9 then ["TEST"]
  else if o = 0x86 ∨ o = 0x87 then ["XCHG"]
  else if 0x88 ≤ o ∧ o ≤ 0x8C ∨ o = 0x8E then ["MOV"]
  else if o = 0x8D then ["LEA"]
  else if o = 0x8F then (if k = 0 then ["POP"] else [])
  else if 0x90 ≤ o ∧ o < 0x98 then ["XCHG"]
  else if o = 0x98 then ["CBW"] else if o = 0x99 then ["CWD"] else if o = 0x9A then ["CALL"]
  else if o = 0x9C then ["PUSHF"] else if o = 0x9D then ["POPF"] else if o = 0x9E then ["SAHF"] else if o = 0x9F then ["LAHF"]
  else if 0xA0 ≤ o ∧ o < 0xA4 then ["MOV"]
  else if o = 0xA4 then ["MOVSB"] else if o = 0xA5 then ["MOVSW"] else if o = 0xA6 then ["CMPSB"] else if o = 0xA7 then ["CMPSW"]
  else if o = 0xAA then ["STOSB"] else if o = 0xAB then ["STOSW"] else if o = 0xAC then ["LODSB"] else if o = 0xAD then ["LODSW"]
  else if o = 0xAE then ["SCASB"] else if o = 0xAF then ["SCASW"]
  else if 0xB0 ≤ o ∧ o < 0xC0 then ["MOV"]
  else if o = 0xC0 ∨ o = 0xC1 ∨ (0xD0 ≤ o ∧ o < 0xD4) then
    [["ROL"], ["ROR"], ["RCL"], ["RCR"], ["SHL", "SAL"], ["SHR"], [], ["SAR"]].getD k []
  else if o = 0xC2 ∨ o = 0xC3 then ["RET"] else if o = 0xCA ∨ o = 0xCB then ["RETF"]
  else if o = 0xC4 then ["LES"] else if o = 0xC5 then ["LDS"]
  else if o = 0xC6 ∨ o = 0xC7 then (if k = 0 then ["MOV"] else [])
  else if o = 0xC8 then ["ENTER"] else if o = 0xC9 then ["LEAVE"]
  else if o = 0xCC ∨ o = 0xCD then ["INT"] else if o = 0xCE then ["INTO"] else if o = 0xCF then ["IRET"]
  else if o = 0xD4 then ["AAM"] else if o = 0xD5 then ["AAD"] else if o = 0xD7 then ["XLAT", "XLATB"]
  else if o = 0xE0 then ["LOOPNE", "LOOPNZ"] else if o = 0xE1 then ["LOOPE", "LOOPZ"] else if o = 0xE2 then ["LOOP"] else if o = 0xE3 then ["JCXZ"]
  else if o = 0xE4 ∨ o = 0xE5 ∨ o = 0xEC ∨ o = 0xED then ["IN"]
  else if o = 0xE6 ∨ o = 0xE7 ∨ o = 0xEE ∨ o = 0xEF then ["OUT"]
  else if o = 0xE8 then ["CALL"] else if 0xE9 ≤ o ∧ o ≤ 0xEB then ["JMP"]
  else if o = 0xF4 then ["HLT"] else if o = 0xF5 then ["CMC"]
  else if o = 0xF6 ∨ o = 0xF7 then [["TEST"], [], ["NOT"], ["NEG"], ["MUL"], ["IMUL"], ["DIV"], ["IDIV"]].getD k []
  else if o = 0xF8 then ["CLC"] else if o = 0xF9 then ["STC"] else if o = 0xFA then ["CLI"] else if o = 0xFB then ["STI"]
  else if o = 0xFC then ["CLD"] else if o = 0xFD then ["STD"]
  else if o = 0xFE then [["INC"], ["DEC"]].getD k []
  else if o = 0xFF then [["INC"], ["DEC"], ["CALL"], ["CALL"], ["JMP"], ["JMP"], ["PUSH"], []].getD k []
  else []

/-- Mnemonics of the opcode `op` after 0F with register field `r`, as far as the emulator knows the opcode. -/
def manualTwo (op : BitVec 8) (r : BitVec 3) : List String :=
  let o := op.toNat
  if 0x80 ≤ o ∧ o < 0x90 then (condWords.getD (o % 16) []).map ("J" ++ ·)
  else if o = 0xA0 ∨ o = 0xA8 then ["PUSH"] else if o = 0xA1 ∨ o = 0xA9 then ["POP"]
  else if o = 0xA4 ∨ o = 0xA5 then ["SHLD"] else if o = 0xAC ∨ o = 0xAD then ["SHRD"]
  else if o = 0xAF then ["IMUL"] else if o = 0xB2 then ["LSS"] else if o = 0xB4 then ["LFS"] else if o = 0xB5 then ["LGS"]
  else if o = 0xB6 ∨ o = 0xB7 then ["MOVZX"]
  else if o = 0xBA then [[], [], [], [], ["BT"], ["BTS"], ["BTR"], ["BTC"]].getD r.toNat []
  else if o = 0xBC then ["BSF"]
  else []

/-- Mnemonics of the manual (`two`: after 0F). -/
def manual (two : Bool) (op : BitVec 8) (r : BitVec 3) : List (List Char) :=
  (if two then manualTwo op r else manualOne op r).map String.toList

/-- Text in the last pair of parentheses. -/
def lastParen (t : List Char) : List Char :=
  ((t.reverse.dropWhile (· ≠ ')')).drop 1 |>.takeWhile (· ≠ '(')).reverse

/-- How the name of an instruction in the trace is read.  It has the form `NAME (FORM)`, or `Ext (0F) NAME` after 0F.  The emulator writes `Flag (CLC)`
for CLC, `STO (SB)` for STOSB, `PUSH (F)` for PUSHF, `RET (F)` for RETF; otherwise NAME is the mnemonic. -/
def readMnemonic (t : List Char) : List Char :=
  let w := t.takeWhile (· ≠ ' ')
  let f := lastParen t
  if w = "Ext".toList then t.drop 9
  else if w = "Flag".toList then f
  else if f = "SB".toList ∨ f = "SW".toList then w ++ f
  else if (w = "PUSH".toList ∨ w = "POP".toList) ∧ (f = "A".toList ∨ f = "F".toList) then w ++ f
  else if w = "RET".toList ∧ (f = "F".toList ∨ f = "iF".toList) then "RETF".toList
  else w

/-- How a prefix byte is shown. -/
def prefixShown (b : BitVec 8) : List Char :=
  (if b = 0x26 then "Ovr (Seg) ES" else if b = 0x2E then "Ovr (Seg) CS" else if b = 0x36 then "Ovr (Seg) SS" else if b = 0x3E then "Ovr (Seg) DS"
   else if b = 0x64 then "Ovr (Seg) FS" else if b = 0x65 then "Ovr (Seg) GS" else if b = 0x66 then "Ovr (OpSize) <OPER>"
   else if b = 0x67 then "Ovr (AddrSize) <ADDR>" else if b = 0xF2 then "Prefix (REPNZ)" else "Prefix (REP)").toList

/-- Opcodes whose mnemonic depends on the register field of the ModR/M byte. -/
def isGroup (op : BitVec 8) : Bool :=
  [0x80, 0x81, 0x83, 0x8F, 0xC0, 0xC1, 0xC6, 0xC7, 0xD0, 0xD1, 0xD2, 0xD3, 0xF6, 0xF7, 0xFE, 0xFF].contains op

/-- The instruction at CS:IP: the prefix bytes `pfx`, then `op` (after 0F if `two`), then, for an opcode whose mnemonic depends on it, a ModR/M byte with
register field `r`. -/
structure NamedAt (s : State) (pfx : List (BitVec 8)) (two : Bool) (op : BitVec 8) (r : BitVec 3) : Prop where
  prefixes : ∃ p, Pfx.parse {} pfx = some p
  bytes : BytesAt s (pfx ++ (if two then [0x0F, op] else [op]))
  group : two = false → isGroup op = true → ∃ m, ByteAt s (pfx.length + 1) m ∧ (m >>> 3).setWidth 3 = r

/-- The string instructions (6C … 6F, A4 … A7, AA … AF), the only ones a repeat prefix belongs to. -/
def isStringInstr (two : Bool) (op : BitVec 8) : Bool :=
  !two && ((0x6C ≤ op.toNat && op.toNat ≤ 0x6F) || (0xA4 ≤ op.toNat && op.toNat ≤ 0xA7) || (0xAA ≤ op.toNat && op.toNat ≤ 0xAF))

/-- Warning in front of the instruction, none without a repeat prefix; `x` stands for the digits of the opcode. -/
def warningText (r : Rep) (x : List Char) : List Char :=
  match r with
  | .none => []
  | .rep => " Prefix 0xf3 used with wrong opcode 0x".toList ++ x
  | .repnz => " Prefix 0xf2 used with wrong opcode 0x".toList ++ x

/-- What fits on the line: a text of up to 63 characters, else its first 62 characters and a dollar sign. -/
def visible (l : List Char) : List Char := if l.length ≤ 63 then l else l.take 62 ++ ['$']

end RME
