import Verif.Spec.Machine
set_option autoImplicit false
/-
Independent vocabulary for whole runs: iterating `RME_RunOne`.
-/
namespace RME

/-- CS:IP is the magic return address FFFF:FFFF. -/
def AtMagic (s : State) : Prop := s.sreg .cs = 0xFFFF ∧ s.ip = 0xFFFF

/-- `RME_RunOne` returns (with any code), leaving the state `t`. -/
def Ends (env : Env) (s t : State) : Prop := runOne env s = .ok () t ∨ ∃ e, runOne env s = .err e t

/-- A relation between the states before and after a host callback. -/
def CallbacksKeep (env : Env) (R : State → State → Prop) : Prop := ∀ n f s, env.hle n = some f → R s (f s)

/-- `n` successful calls of `RME_RunOne` lead from `s` to `t`. -/
inductive Iter (env : Env) : Nat → State → State → Prop
  | zero (s) : Iter env 0 s s
  | succ {n s t u} (h : runOne env s = .ok () t) (r : Iter env n t u) : Iter env (n + 1) s u

/-- `RME_Call` returns with outcome `r` (after some number of instructions). -/
def CallReturns (env : Env) (s : State) (r : Res Unit) : Prop := ∃ fuel, rmeCall env fuel s = some r

/-- `RME_CallInt` returns with outcome `r` (after some number of instructions). -/
def CallIntReturns (env : Env) (num : Int) (s : State) (r : Res Unit) : Prop := ∃ fuel, rmeCallInt env fuel num s = some r

/-- The opcode (after prefixes) is one byte `op`. -/
def OpcodeAt (s : State) (op : BitVec 8) : Prop := ∃ pfx p, Pfx.parse {} pfx = some p ∧ BytesAt s (pfx ++ [op])
/-- The opcode is `0F op`. -/
def Opcode0FAt (s : State) (op : BitVec 8) : Prop := ∃ pfx p, Pfx.parse {} pfx = some p ∧ BytesAt s (pfx ++ [0x0F, op])
/-- The opcode is `op`, followed by a byte (ModR/M) whose bits 3–5 are `r`. -/
def OpcodeGrpAt (s : State) (op : BitVec 8) (r : BitVec 3) : Prop :=
  ∃ pfx p m, Pfx.parse {} pfx = some p ∧ BytesAt s (pfx ++ [op, m]) ∧ (m >>> 3).setWidth 3 = r

/-- Opcode bytes without an implementation (BOUND, ARPL, 82, WAIT, D6, the x87 escapes, LOCK). -/
def noOpcode (b : BitVec 8) : Prop :=
  b = 0x62 ∨ b = 0x63 ∨ b = 0x82 ∨ b = 0x9B ∨ b = 0xD6 ∨ (0xD8 ≤ b.toNat ∧ b.toNat ≤ 0xDF) ∨ b = 0xF0

/-- Second bytes of two-byte opcodes with an implementation: Jcc near, PUSH/POP FS/GS, SHLD, SHRD,
IMUL, LSS, LFS, LGS, MOVZX, the bit-test group, BSF. -/
def hasOpcode0F (b : BitVec 8) : Prop :=
  (0x80 ≤ b.toNat ∧ b.toNat ≤ 0x8F) ∨ b = 0xA0 ∨ b = 0xA1 ∨ b = 0xA4 ∨ b = 0xA5 ∨ b = 0xA8 ∨ b = 0xA9 ∨
  b = 0xAC ∨ b = 0xAD ∨ b = 0xAF ∨ b = 0xB2 ∨ b = 0xB4 ∨ b = 0xB5 ∨ b = 0xB6 ∨ b = 0xB7 ∨ b = 0xBA ∨ b = 0xBC

/-- The four kinds of prefixes. -/
inductive PfxKind where
  | seg | oper | addr | rep
  deriving DecidableEq

/-- Kind of a prefix byte. -/
def pfxKind (b : BitVec 8) : Option PfxKind :=
  if b = 0x26 ∨ b = 0x2E ∨ b = 0x36 ∨ b = 0x3E ∨ b = 0x64 ∨ b = 0x65 then some .seg
  else if b = 0x66 then some .oper
  else if b = 0x67 then some .addr
  else if b = 0xF2 ∨ b = 0xF3 then some .rep
  else none

/-- All bytes are prefixes, of pairwise different kinds. -/
def GoodPrefixes (pfx : List (BitVec 8)) : Prop :=
  (∀ b ∈ pfx, pfxKind b ≠ none) ∧ (pfx.map pfxKind).Nodup

/-- Segment register number as encoded in instructions. -/
def segNum (i : BitVec 3) : Option SReg :=
  if i = 0 then some .es else if i = 1 then some .cs else if i = 2 then some .ss else if i = 3 then some .ds
  else if i = 4 then some .fs else if i = 5 then some .gs else none

end RME
