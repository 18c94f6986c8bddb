import Verif.Spec.Trace
set_option autoImplicit false
/-
Independent reading of the operands in the instruction trace: what a person takes ` DS:[BX+SI+0x10]` or ` CH` for, given the registers.
-/
namespace RME

/-- The parts of a text between the characters `c`. -/
def splitAtChar (c : Char) : List Char → List (List Char)
  | [] => [[]]
  | x :: xs => if x = c then [] :: splitAtChar c xs else
    match splitAtChar c xs with
    | [] => [[x]]
    | y :: ys => (x :: y) :: ys

/-- Register names with the values they stand for in an address. -/
def addrNames (s : State) : List (List Char × BitVec 32) :=
  [("EAX".toList, s.gpr 0), ("ECX".toList, s.gpr 1), ("EDX".toList, s.gpr 2), ("EBX".toList, s.gpr 3),
   ("ESP".toList, s.gpr 4), ("EBP".toList, s.gpr 5), ("ESI".toList, s.gpr 6), ("EDI".toList, s.gpr 7), ("EIZ".toList, 0),
   ("BX".toList, s.gpr 3 % 65536), ("BP".toList, s.gpr 5 % 65536), ("SI".toList, s.gpr 6 % 65536), ("DI".toList, s.gpr 7 % 65536),
   ("AL".toList, s.gpr 0 % 256)]

/-- A register name. -/
def nameVal (s : State) (t : List Char) : Option (BitVec 32) := ((addrNames s).find? (fun x => x.1 == t)).map (·.2)

/-- One term of an address: a register, a register times a number, or a hexadecimal number. -/
def termVal (s : State) (t : List Char) : Option (BitVec 32) :=
  match t with
  | '0' :: 'x' :: ds => (valueOf 16 ds).map (BitVec.ofNat 32)
  | _ => match splitAtChar '*' t with
    | [r] => nameVal s r
    | [r, k] => (nameVal s r).bind fun v => (valueOf 10 k).map fun n => v * BitVec.ofNat 32 n
    | _ => none

/-- Sum of the terms. -/
def sumVal (s : State) : List (List Char) → Option (BitVec 32)
  | [] => none
  | [t] => termVal s t
  | t :: ts => (termVal s t).bind fun v => (sumVal s ts).map fun w => v + w

/-- A segment register by the first letter of its name. -/
def segByName : Char → Option SReg
  | 'E' => some .es | 'C' => some .cs | 'S' => some .ss | 'D' => some .ds | 'F' => some .fs | 'G' => some .gs | _ => none

/-- Segment and offset a memory operand text stands for. -/
def readMemText (s : State) : List Char → Option (BitVec 16 × BitVec 32)
  | ' ' :: c :: 'S' :: ':' :: '[' :: rest =>
    (segByName c).bind fun sr => if rest.getLast? = some ']' then (sumVal s (splitAtChar '+' rest.dropLast)).map fun ofs => (s.sreg sr, ofs) else none
  | _ => none

/-- Part of a general register (number, lowest bit, width) a register name stands for. -/
def regByName (t : List Char) : Option (BitVec 3 × Nat × Nat) :=
  ((([("AL", 0, 0, 8), ("CL", 1, 0, 8), ("DL", 2, 0, 8), ("BL", 3, 0, 8), ("AH", 0, 8, 8), ("CH", 1, 8, 8), ("DH", 2, 8, 8), ("BH", 3, 8, 8),
     ("AX", 0, 0, 16), ("CX", 1, 0, 16), ("DX", 2, 0, 16), ("BX", 3, 0, 16), ("SP", 4, 0, 16), ("BP", 5, 0, 16), ("SI", 6, 0, 16), ("DI", 7, 0, 16),
     ("EAX", 0, 0, 32), ("ECX", 1, 0, 32), ("EDX", 2, 0, 32), ("EBX", 3, 0, 32), ("ESP", 4, 0, 32), ("EBP", 5, 0, 32), ("ESI", 6, 0, 32), ("EDI", 7, 0, 32)] :
     List (String × BitVec 3 × Nat × Nat)).map fun x => (x.1.toList, x.2)).find? (fun x => x.1 == t)).map (·.2)

end RME
