import Verif.Spec.Stack
import Verif.Spec.Run
set_option autoImplicit false
/-
Independent specification of PUSH and POP.
-/
namespace RME

/-- Encodings of PUSH with a 16-bit operand, and the word that is pushed.  (PUSH SP pushes the decremented SP, as the 8086 does.) -/
inductive PushEnc (s : State) (p : Pfx) : List (BitVec 8) → BitVec 16 → Prop
  | reg (r : BitVec 3) (h : r ≠ 4) : PushEnc s p [0x50 + r.setWidth 8] ((s.gpr r).setWidth 16)
  | sp : PushEnc s p [0x54] (spOf s - 2)
  | es : PushEnc s p [0x06] (s.sreg .es)
  | cs : PushEnc s p [0x0E] (s.sreg .cs)
  | ss : PushEnc s p [0x16] (s.sreg .ss)
  | ds : PushEnc s p [0x1E] (s.sreg .ds)
  | fs : PushEnc s p [0x0F, 0xA0] (s.sreg .fs)
  | gs : PushEnc s p [0x0F, 0xA8] (s.sreg .gs)
  | imm (lo hi : BitVec 8) : PushEnc s p [0x68, lo, hi] (le16 lo hi)
  | imm8 (b : BitVec 8) : PushEnc s p [0x6A, b] (b.signExtend 16)
  | rm {rm o v} (h : RM s p 16 rm 6 o) (hp : Plain s p 16 rm) (hv : o.Has s 16 v) (hsp : o ≠ .reg 4) : PushEnc s p (0xFF :: rm) v
  | rmSP {rm} (h : RM s p 16 rm 6 (.reg 4)) : PushEnc s p (0xFF :: rm) (spOf s - 2)
  | flags : PushEnc s p [0x9C] s.flags

/-- Destination of a POP: a general register or memory operand, or a segment register. -/
inductive PopDst where
  | op (o : Opnd)
  | seg (r : SReg)

/-- Encodings of POP with a 16-bit operand. -/
inductive PopEnc (s : State) (p : Pfx) : List (BitVec 8) → PopDst → Prop
  | reg (r : BitVec 3) : PopEnc s p [0x58 + r.setWidth 8] (.op (.reg r))
  | es : PopEnc s p [0x07] (.seg .es)
  | ss : PopEnc s p [0x17] (.seg .ss)
  | ds : PopEnc s p [0x1F] (.seg .ds)
  | fs : PopEnc s p [0x0F, 0xA1] (.seg .fs)
  | gs : PopEnc s p [0x0F, 0xA9] (.seg .gs)
  | rm {rm o} (h : RM s p 16 rm 0 o) (hp : Plain s p 16 rm) (ho : o.Ok s 16) : PopEnc s p (0x8F :: rm) (.op o)

/-- The destination has the value `v`. -/
def PopDst.Has (t : State) (v : BitVec 16) : PopDst → Prop
  | .op o => o.Has t 16 v
  | .seg r => t.sreg r = v

/-- The state after storing `v` into the destination. -/
def PopDst.put (s : State) (v : BitVec 16) : PopDst → State
  | .op o => o.put s 16 v
  | .seg r => s.setSreg r v

/-- The destination is neither SP nor SS nor memory, so that storing into it does not affect the stack. -/
def PopDst.offStack : PopDst → Prop
  | .op (.reg r) => r ≠ 4
  | .op _ => False
  | .seg r => r ≠ .ss

/-- A run of `RME_RunOne` calls, each executing a PUSH instruction (without operand-size prefix); `vs` are the words pushed, first
one first. -/
inductive PushRun (env : Env) : State → List (BitVec 16) → State → Prop
  | nil (s) : PushRun env s [] s
  | cons {s t u h0 p code len v vs} (hat : At s h0 p code len) (ho : p.oper = false) (he : PushEnc s p code v)
      (h : runOne env s = .ok () t) (r : PushRun env t vs u) : PushRun env s (v :: vs) u

/-- A run of `RME_RunOne` calls, each executing a POP instruction (without operand-size prefix) into a register other than SP or a
segment register other than SS; `vs` are the words found in the destinations, first one first. -/
inductive PopRun (env : Env) : State → List (BitVec 16) → State → Prop
  | nil (s) : PopRun env s [] s
  | cons {s t u h0 p code len dst v vs} (hat : At s h0 p code len) (ho : p.oper = false) (he : PopEnc s p code dst)
      (hd : dst.offStack) (h : runOne env s = .ok () t) (hv : dst.Has t v) (r : PopRun env t vs u) : PopRun env s (v :: vs) u

end RME

namespace RME

/-- The word in register `r`. -/
def wordOf (s : State) (r : BitVec 3) : BitVec 16 := (s.gpr r).setWidth 16

/-- The state with the low word of every register `r` set to `v r` (upper halves kept). -/
def setWords (s : State) (v : BitVec 3 → BitVec 16) : State :=
  { s with gpr := fun r => ((s.gpr r >>> 16) <<< 16) ||| (v r).setWidth 32 }

end RME
