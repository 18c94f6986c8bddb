import Verif.Spec.ImmText
import Verif.Spec.Jump
set_option autoImplicit false
/-
What the operand text in the trace should show of a string instruction.
-/
namespace RME

/-- Operands of a string instruction in the order of the trace: a register, the destination, the source, a register. -/
structure StrForm where
  before : String
  dst : Bool
  src : Bool
  after : String

/-- INS: destination, DX.  OUTS: DX, source.  MOVS and CMPS: destination and source.  STOS: destination, accumulator.  LODS: accumulator, source.
SCAS: destination, accumulator; of SCASB only the destination is shown. -/
def strForm (p : Pfx) (op : BitVec 8) : StrForm :=
  match op.toNat with
  | 0x6C | 0x6D => ⟨"", true, false, " DX"⟩
  | 0x6E | 0x6F => ⟨" DX", false, true, ""⟩
  | 0xAA => ⟨"", true, false, " AL"⟩
  | 0xAB => ⟨"", true, false, accName p⟩
  | 0xAC => ⟨" AL", false, true, ""⟩
  | 0xAD => ⟨accName p, false, true, ""⟩
  | 0xAE => ⟨"", true, false, ""⟩
  | 0xAF => ⟨"", true, false, accName p⟩
  | _ => ⟨"", true, true, ""⟩

/-- The index register `r` (6: SI or ESI, 7: DI or EDI). -/
def idxOf (s : State) (p : Pfx) (r : BitVec 3) : BitVec 32 := if p.addr then s.gpr r else s.gpr r % 65536

/-- The text of a repeat prefix: how often at most (CX before), and how many were left over (CX after), if it ran at all. -/
def RepeatText (s t : State) (p : Pfx) (text : List Char) : Prop :=
  if p.rep = .none then text = []
  else ∃ x y, valueOf 16 x = some (cxOf s).toNat ∧ 0 < x.length ∧ x.length ≤ 4 ∧ text = " (max 0x".toList ++ x ++ " times)".toList ++ y ∧
    (if cxOf s = 0 then y = []
     else ∃ z, valueOf 10 z = some (cxOf t).toNat ∧ 0 < z.length ∧ z.length ≤ 5 ∧ y = " (".toList ++ z ++ " skipped)".toList)

/-- `text` shows the operands of the string instruction `op` executed in `s`, with `t` afterwards: the destination is ES and DI, the source is SI in DS or the
segment of the prefix (both as a text that reads as segment and offset), and the repetition. -/
def StrText (s t : State) (p : Pfx) (op : BitVec 8) (text : List Char) : Prop :=
  ∃ d c r, text = (strForm p op).before.toList ++ d ++ c ++ (strForm p op).after.toList ++ r ∧
    (if (strForm p op).dst then readMemText s d = some (s.sreg .es, idxOf s p 7) ∧ d.length ≤ 9 else d = []) ∧
    (if (strForm p op).src then readMemText s c = some (s.sreg (p.seg.getD .ds), idxOf s p 6) ∧ c.length ≤ 9 else c = []) ∧
    RepeatText s t p r

end RME
