import Verif.Spec.Operand
import Verif.Spec.Arith
set_option autoImplicit false
/-
Independent specification of the flag instructions.
-/
namespace RME

/-- CLC STC CLI STI CLD STD CMC: the flag bit and its new value as a function of the old one. -/
def flagEffect (op : BitVec 8) : Option (Nat × (Bool → Bool)) :=
  if op = 0xF8 then some (bCF, fun _ => false)
  else if op = 0xF9 then some (bCF, fun _ => true)
  else if op = 0xFA then some (bIF, fun _ => false)
  else if op = 0xFB then some (bIF, fun _ => true)
  else if op = 0xFC then some (bDF, fun _ => false)
  else if op = 0xFD then some (bDF, fun _ => true)
  else if op = 0xF5 then some (bCF, fun c => !c)
  else none

/-- The flags in the low byte of FLAGS: SF ZF AF PF CF. -/
def lowFlagBits : List Nat := [bSF, bZF, bAF, bPF, bCF]

/-- `k` calls of `RME_RunOne`, each on the state the previous one left, all return `RME_ERR_HALT`. -/
inductive Halted (env : Env) : Nat → State → State → Prop
  | zero (s) : Halted env 0 s s
  | succ {k s t u} (h : runOne env s = .err .halt t) (r : Halted env k t u) : Halted env (k + 1) s u

/-- POPF, IRET-like loading of FLAGS on the 8086: bits 12-15 and bit 1 read as one, bits 3 and 5 as zero; on the 80286 (real mode)
bits 12-15 read as zero; on the 386 they are free. -/
def canonBits (cpu : CPUType) (f : BitVec 16) : Prop :=
  f.getLsbD 1 = true ∧ f.getLsbD 3 = false ∧ f.getLsbD 5 = false ∧
  (cpu = .i8086 → ∀ i, 12 ≤ i → i < 16 → f.getLsbD i = true) ∧
  (cpu = .i80286 → ∀ i, 12 ≤ i → i < 16 → f.getLsbD i = false)

/-- Bits of FLAGS the program controls on that CPU. -/
def freeBit (cpu : CPUType) (i : Nat) : Prop := i < 16 ∧ i ≠ 1 ∧ i ≠ 3 ∧ i ≠ 5 ∧ (cpu = .i386 ∨ i < 12)

end RME
