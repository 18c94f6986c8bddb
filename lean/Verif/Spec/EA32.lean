import Verif.Spec.EA
set_option autoImplicit false
/-
Addresses the emulator actually uses for a memory operand with 32-bit addressing (prefix 67), where it departs
from the manual (`eaSeg32`, `eaOffset32` in Spec/Operand).
-/
namespace RME

/-- Encodings of a memory operand as the emulator reads them: `m ++ d ++ sib ++ ex`, i.e. ModR/M byte, displacement
(*before* the SIB byte), SIB byte, and a double word where the base register is missing. -/
structure Mem32 (p : Pfx) (m : BitVec 8) (d sib ex : List (BitVec 8)) : Prop where
  mem : modOf m ≠ 3
  addr : p.addr = true
  dispLen : d.length = if modOf m = 1 then 1 else if modOf m = 2 then 4 else 0
  sibLen : sib.length = if rmOf m = 4 then 1 else 0
  exLen : ex.length = if modOf m = 0 ∧ (rmOf m = 5 ∨ rmOf m = 4 ∧ rmOf (sib.headD 0) = 5) then 4 else 0

/-- Segment register used: the one of the 16-bit addressing modes with the same number. -/
def usedSeg32 (p : Pfx) (m : BitVec 8) : SReg :=
  p.seg.getD (if modOf m ≠ 0 ∧ (rmOf m = 2 ∨ rmOf m = 3 ∨ rmOf m = 6) then .ss else .ds)

/-- Displacement used: 16 bits of it, zero-extended. -/
def usedDisp32 (d : List (BitVec 8)) : BitVec 32 := ((dispVal32 d).setWidth 16).setWidth 32

/-- Offset used, modulo 2^32: base + scaled index + `usedDisp32`; the double word `ex` counts only without SIB. -/
def usedOffset32 (s : State) (m : BitVec 8) (d sib ex : List (BitVec 8)) : BitVec 32 :=
  if rmOf m = 4 then
    index32 s m sib + (if modOf m = 0 ∧ rmOf (sib.headD 0) = 5 then 0 else s.gpr (rmOf (sib.headD 0))) + usedDisp32 d
  else if modOf m = 0 ∧ rmOf m = 5 then BitVec.ofNat 32 (leVal ex)
  else s.gpr (rmOf m) + usedDisp32 d

/-- Linear address used, modulo 2^32. -/
def usedLinear32 (s : State) (p : Pfx) (m : BitVec 8) (d sib ex : List (BitVec 8)) : Nat :=
  ((s.sreg (usedSeg32 p m)).toNat * 16 + (usedOffset32 s m d sib ex).toNat) % 4294967296

end RME
