import Verif.Spec.Operand
set_option autoImplicit false
/-
Independent specification of the stack and of interrupt frames.
-/
namespace RME

/-- SP -/
def spOf (s : State) : BitVec 16 := (s.gpr 4).setWidth 16

/-- The state with SP = `v` (upper half of ESP kept). -/
def withSP (s : State) (v : BitVec 16) : State := (Opnd.reg 4).put s 16 v

/-- The state after pushing the word `v`: SP is decremented by 2 (modulo 2^16) and `v` is stored at
SS:SP. -/
def pushed (s : State) (v : BitVec 16) : State :=
  (Opnd.mem (s.sreg .ss) (spOf s - 2)).put (withSP s (spOf s - 2)) 16 v

/-- The state after pushing a list of words, first element first. -/
def pushedAll (s : State) : List (BitVec 16) → State
  | [] => s
  | v :: vs => pushedAll (pushed s v) vs

/-- `SS:SP+2i` holds the word `v`: the `i`-th word from the top of the stack. -/
def StackTop (s : State) (i : Nat) (v : BitVec 16) : Prop :=
  Holds s (s.sreg .ss) (spOf s + BitVec.ofNat 16 (2 * i)) v

/-- The state after discarding `k` words from the stack. -/
def dropped (s : State) (k : Nat) : State := withSP s (spOf s + BitVec.ofNat 16 (2 * k))

/-- There is room for `k` words on the stack: the words SS:SP-2, SS:SP-4, … are mapped and the
host bytes behind them do not overlap. -/
structure Room (s : State) (k : Nat) : Prop where
  mapped : ∀ i < k, ∃ h, Mapped s 16 (s.sreg .ss) (spOf s - BitVec.ofNat 16 (2 * (i + 1))) h
  apart : ∀ i < k, ∀ j < k, i ≠ j → ∀ h h',
    hostAddr s (s.sreg .ss) (spOf s - BitVec.ofNat 16 (2 * (i + 1))) = some h →
    hostAddr s (s.sreg .ss) (spOf s - BitVec.ofNat 16 (2 * (j + 1))) = some h' → h + 2 ≤ h' ∨ h' + 2 ≤ h

/-- All 272 blocks are mapped to consecutive host memory starting at `base`, which is allocated. -/
structure Flat (s : State) (base : Nat) : Prop where
  map : ∀ b < 272, s.map b = some (base + b * 4096)
  valid : ∀ a < 272 * 4096, s.valid (base + a) = true

/-- FLAGS with IF and TF cleared. -/
def clearIT (f : BitVec 16) : BitVec 16 := f &&& 0xFCFF

/-- The state after an interrupt was taken: FLAGS, CS and the return offset `ret` are pushed, IF and
TF are cleared, and execution continues at `cs:ip`. -/
def interrupted (s : State) (ret cs ip : BitVec 16) : State :=
  let t := pushedAll s [s.flags, s.sreg .cs, ret]
  { t.setSreg .cs cs with ip := ip, flags := clearIT s.flags }

/-- Interrupt vector `n` in guest memory (offset at 0:4n, segment at 0:4n+2) is `cs:ip`. -/
def Vector (s : State) (n : BitVec 8) (cs ip : BitVec 16) : Prop :=
  Holds s 0 (n.setWidth 16 * 4) ip ∧ Holds s 0 (n.setWidth 16 * 4 + 2) cs

/-- `RME_RunOne` succeeds with state `t` (up to scratch data; the instruction counter advances by one
and the runaway detector is not touched). -/
def Delivers (env : Env) (s t : State) : Prop :=
  ∃ d, runOne env s = .ok () { t with dec := d, instrNum := s.instrNum + 1 }

end RME
