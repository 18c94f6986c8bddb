import Verif.Spec.Operand
set_option autoImplicit false
/-
Addresses the emulator actually uses for a memory operand with 16-bit addressing, where it departs from the
manual (`eaSeg`, `eaOffset` in Spec/Operand): findings 2 and 3.
-/
namespace RME

/-- Segment register used: as in the manual, but DS for `[BP+SI]` and `[BP+DI]` without displacement. -/
def usedSeg (p : Pfx) (m : BitVec 8) : SReg :=
  p.seg.getD (if usesBP m && modOf m != 0 then .ss else .ds)

/-- Linear address used: segment base + registers + signed displacement, with no reduction modulo 2^16
(modulo 2^32 instead). -/
def usedLinear (s : State) (p : Pfx) (m : BitVec 8) (disp : List (BitVec 8)) : Nat :=
  ((((s.sreg (usedSeg p m)).toNat * 16 + eaRegs s m : Nat) + (dispVal disp).toInt : Int) % 4294967296).toNat

/-- The linear address `l` is host address `h`, and `n/8` bytes are allocated there. -/
def LinMapped (s : State) (n : Nat) (l h : Nat) : Prop :=
  l < 0x110000 ∧ s.map (l / 4096) = some (h - l % 4096) ∧ l % 4096 ≤ h ∧ ∀ i < n / 8, s.valid (h + i) = true

instance (s : State) (n l h : Nat) : Decidable (LinMapped s n l h) := by unfold LinMapped; infer_instance

/-- Encodings with a memory operand `m :: disp`, 16-bit addressing. -/
structure Mem16 (p : Pfx) (m : BitVec 8) (disp : List (BitVec 8)) : Prop where
  mem : modOf m ≠ 3
  addr : p.addr = false
  len : disp.length = dispLen m

end RME
