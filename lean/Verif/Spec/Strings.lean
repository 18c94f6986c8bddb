import Verif.Spec.Operand
import Verif.Spec.Arith
import Verif.Spec.Jump
set_option autoImplicit false
/-
Independent specification of the string instructions.
-/
namespace RME

/-- Width of the element: byte forms 8, word forms 16 (32 with prefix 66). -/
def elemW (p : Pfx) (wide : Bool) : Nat := if wide then opW p else 8

/-- Offset of element number `k` (0 first): the index register advances by the element size upwards (DF = 0) or
downwards (DF = 1), modulo 2^16. -/
def elemOfs (df : Bool) (n : Nat) (base : BitVec 16) (k : Nat) : BitVec 16 :=
  if df then base - BitVec.ofNat 16 (n / 8 * k) else base + BitVec.ofNat 16 (n / 8 * k)

/-- SI, DI and the direction flag. -/

def siOf (s : State) : BitVec 16 := (s.gpr 6).setWidth 16
def diOf (s : State) : BitVec 16 := (s.gpr 7).setWidth 16
def dfOf (s : State) : Bool := s.flags.getLsbD bDF

/-- Element `k` of the source string: offsets from SI in DS or the override segment. -/
def srcOfs (s : State) (n k : Nat) : BitVec 16 := elemOfs (dfOf s) n (siOf s) k
def srcSeg (s : State) (p : Pfx) : BitVec 16 := s.sreg (p.seg.getD .ds)
/-- Element `k` of the destination string: offsets from DI in ES. -/
def dstOfs (s : State) (n k : Nat) : BitVec 16 := elemOfs (dfOf s) n (diOf s) k
def dstSeg (s : State) : BitVec 16 := s.sreg .es

/-- Number of elements a string instruction without comparison processes: CX with a repeat prefix, else 1. -/
def reps (s : State) (p : Pfx) : Nat := if p.rep = .none then 1 else (cxOf s).toNat

/-- The data state `t` with CX decremented by `k` (only with a repeat prefix). -/
def countDown (p : Pfx) (t : State) (k : Nat) : State :=
  if p.rep = .none then t else (Opnd.reg 1).put t 16 (cxOf t - BitVec.ofNat 16 k)

/-- The data state `t` with DI := `v` / SI := `v`. -/
def withDI (t : State) (v : BitVec 16) : State := (Opnd.reg 7).put t 16 v
def withSI (t : State) (v : BitVec 16) : State := (Opnd.reg 6).put t 16 v

/-- Index register after `k` elements with the address-size prefix 67: the 32-bit register advances, modulo 2^32. -/
def elemIdx (df : Bool) (n : Nat) (base : BitVec 32) (k : Nat) : BitVec 32 :=
  if df then base - BitVec.ofNat 32 (n / 8 * k) else base + BitVec.ofNat 32 (n / 8 * k)

/-- The data state `t` with DI (EDI with prefix 67) advanced by `K` elements from its value in `s`; the same for SI (ESI). -/
def moveDI (s : State) (p : Pfx) (n K : Nat) (t : State) : State :=
  if p.addr then (Opnd.reg 7).put t 32 (elemIdx (dfOf s) n (s.gpr 7) K) else withDI t (dstOfs s n K)
def moveSI (s : State) (p : Pfx) (n K : Nat) (t : State) : State :=
  if p.addr then (Opnd.reg 6).put t 32 (elemIdx (dfOf s) n (s.gpr 6) K) else withSI t (srcOfs s n K)

/-- `t` is `s` after copying the elements 0, 1, …, k-1, one after the other, from the source to the destination string. -/
inductive Copied (s : State) (p : Pfx) (n : Nat) : Nat → State → Prop
  | zero : Copied s p n 0 s
  | succ {k t} (h : Copied s p n k t) {v : BitVec n} (hv : Holds t (srcSeg s p) (srcOfs s n k) v) :
      Copied s p n (k + 1) ((Opnd.mem (dstSeg s) (dstOfs s n k)).put t n v)

/-- `s` after storing `v` into the elements 0, 1, …, k-1 of the destination string. -/
def filled (s : State) (n : Nat) (v : BitVec n) : Nat → State
  | 0 => s
  | k + 1 => (Opnd.mem (dstSeg s) (dstOfs s n k)).put (filled s n v k) n v

/-- The same with the address-size prefix as the architecture defines it: element `k` is at offset ESI ± k·size (32-bit index), which
must be a 16-bit offset (beyond it a processor in real mode faults). -/
inductive Copied32 (s : State) (p : Pfx) (n : Nat) : Nat → State → Prop
  | zero : Copied32 s p n 0 s
  | succ {k t} (h : Copied32 s p n k t) {so dd : BitVec 16} (hs : so.toNat = (elemIdx (dfOf s) n (s.gpr 6) k).toNat)
      (hd : dd.toNat = (elemIdx (dfOf s) n (s.gpr 7) k).toNat) {v : BitVec n} (hv : Holds t (srcSeg s p) so v) :
      Copied32 s p n (k + 1) ((Opnd.mem (dstSeg s) dd).put t n v)

inductive Filled32 (s : State) (n : Nat) (v : BitVec n) : Nat → State → Prop
  | zero : Filled32 s n v 0 s
  | succ {k t} (h : Filled32 s n v k t) {dd : BitVec 16} (hd : dd.toNat = (elemIdx (dfOf s) n (s.gpr 7) k).toNat) :
      Filled32 s n v (k + 1) ((Opnd.mem (dstSeg s) dd).put t n v)

/-- Number of elements with the address-size prefix as the architecture defines it: ECX with a repeat prefix, else 1. -/
def reps32 (s : State) (p : Pfx) : Nat := if p.rep = .none then 1 else (s.gpr 1).toNat

/-- The data state `t` with the 32-bit register `r` set to `v`. -/
def withE (r : BitVec 3) (v : BitVec 32) (t : State) : State := (Opnd.reg r).put t 32 v

/-- ECX after `k` elements (only with a repeat prefix). -/
def countDown32 (p : Pfx) (t : State) (k : Nat) : State := if p.rep = .none then t else withE 1 (t.gpr 1 - BitVec.ofNat 32 k) t

/-- Elements `k < K` of the source / destination string are mapped. -/
def SrcMapped (s : State) (p : Pfx) (n K : Nat) : Prop := ∀ k < K, ∃ h, Mapped s n (srcSeg s p) (srcOfs s n k) h
def DstMapped (s : State) (n K : Nat) : Prop := ∀ k < K, ∃ h, Mapped s n (dstSeg s) (dstOfs s n k) h

/-- The host byte `a` belongs to one of the first `K` elements of the destination string. -/
def InDst (s : State) (n K a : Nat) : Prop :=
  ∃ k < K, ∃ h, hostAddr s (dstSeg s) (dstOfs s n k) = some h ∧ h ≤ a ∧ a < h + n / 8

/-- The host bytes of source and destination strings (first `K` elements) do not overlap, nor do those of different
destination elements. -/
structure Apart (s : State) (p : Pfx) (n K : Nat) : Prop where
  src : ∀ i < K, ∀ j < K, ∀ h h', hostAddr s (srcSeg s p) (srcOfs s n i) = some h → hostAddr s (dstSeg s) (dstOfs s n j) = some h' →
    h + n / 8 ≤ h' ∨ h' + n / 8 ≤ h
  dst : ∀ i < K, ∀ j < K, i ≠ j → ∀ h h', hostAddr s (dstSeg s) (dstOfs s n i) = some h → hostAddr s (dstSeg s) (dstOfs s n j) = some h' →
    h + n / 8 ≤ h' ∨ h' + n / 8 ≤ h

/-- Port reads and their results: `s` after INS of elements 0, …, k-1: each reads port DX (the device answers depending on
everything before) and stores the value. -/
def inputElem (env : Env) (s : State) (n : Nat) (k : Nat) (t : State) : State :=
  let port : BitVec 16 := (s.gpr 2).setWidth 16
  let v : BitVec n := (env.portIn t.io (n / 8) port).setWidth n
  (Opnd.mem (dstSeg s) (dstOfs s n k)).put { t with io := t.io ++ [.inp (n / 8) port (v.setWidth 32)] } n v

def inputs (env : Env) (s : State) (n : Nat) : Nat → State
  | 0 => s
  | k + 1 => inputElem env s n k (inputs env s n k)

/-- `RME_RunOne` stops at an unmapped block and leaves the data state `t`: it returns BADMEM where the check is compiled in; in the
build as shipped this is a null dereference. -/
def StopsBadmem (env : Env) (s t : State) : Prop :=
  ∃ d, runOne env s = if env.nullCheck then .err .badmem { t with dec := d, instrNum := s.instrNum + 1 } else .ub .nullBlock

/-- Element `k` of the source / destination string is in an unmapped block. -/
def SrcMissing (s : State) (p : Pfx) (n k : Nat) : Prop := hostAddr s (srcSeg s p) (srcOfs s n k) = none
def DstMissing (s : State) (n k : Nat) : Prop := hostAddr s (dstSeg s) (dstOfs s n k) = none

/-- The repeat prefix lets a comparing instruction go on after a comparison that set ZF = `z`: REPNE while different,
REPE while equal. -/
def goesOn (r : Rep) (z : Bool) : Bool :=
  match r with
  | .none => false
  | .repnz => !z
  | .rep => z

end RME
