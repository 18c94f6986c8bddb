import Verif.Spec.PushPop
import Verif.Spec.Arith
set_option autoImplicit false
/-
Independent specification of CALL, RET, ENTER, LEAVE, INT and IRET.
-/
namespace RME

/-- The state after a near call: the return address `ret` is pushed and execution continues at `ip`. -/
def calledNear (s : State) (ret ip : BitVec 16) : State := { pushed s ret with ip := ip }

/-- The state after a far call: CS and the return offset `ret` are pushed and execution continues at `cs:ip`. -/
def calledFar (s : State) (ret cs ip : BitVec 16) : State := { (pushedAll s [s.sreg .cs, ret]).setSreg .cs cs with ip := ip }

/-- Near calls (E8 rel16, FF /2), with the offset `ip` they go to; `len` is the length of the whole instruction. The operand of FF /2
is read after the return address was pushed (see `C28_violated_call_mem`): the rule asks for an operand that has the same value
before and after. -/
inductive CallEnc (s : State) (p : Pfx) (len : Nat) : List (BitVec 8) → BitVec 16 → Prop
  | rel (lo hi : BitVec 8) : CallEnc s p len [0xE8, lo, hi] (s.ip + BitVec.ofNat 16 len + le16 lo hi)
  | rm {rm o ip} (h : RM s p 16 rm 2 o) (hp : Plain s p 16 rm) (hv : o.Has s 16 ip)
      (hv' : o.Has (pushed s (s.ip + BitVec.ofNat 16 len)) 16 ip) : CallEnc s p len (0xFF :: rm) ip

/-- Far calls (9A ptr16:16, FF /3) with the address `cs:ip` they go to. -/
inductive CallFarEnc (s : State) (p : Pfx) : List (BitVec 8) → BitVec 16 → BitVec 16 → Prop
  | imm (a b c d : BitVec 8) : CallFarEnc s p [0x9A, a, b, c, d] (le16 c d) (le16 a b)
  | rm {rm seg ofs cs ip} (h : RM s p 16 rm 3 (.mem seg ofs)) (hp : Plain s p 8 rm) (h1 : Holds s seg ofs ip)
      (h2 : Holds s seg (ofs + 2) cs) : CallFarEnc s p (0xFF :: rm) cs ip

/-- Unconditional near jumps: EB rel8, E9 rel16, FF /4. -/
inductive JmpEnc (s : State) (p : Pfx) (len : Nat) : List (BitVec 8) → BitVec 16 → Prop
  | short (d : BitVec 8) : JmpEnc s p len [0xEB, d] (s.ip + BitVec.ofNat 16 len + d.signExtend 16)
  | near (lo hi : BitVec 8) : JmpEnc s p len [0xE9, lo, hi] (s.ip + BitVec.ofNat 16 len + le16 lo hi)
  | rm {rm o ip} (h : RM s p 16 rm 4 o) (hp : Plain s p 16 rm) (hv : o.Has s 16 ip) : JmpEnc s p len (0xFF :: rm) ip

/-- Unconditional far jumps: EA ptr16:16, FF /5. -/
inductive JmpFarEnc (s : State) (p : Pfx) : List (BitVec 8) → BitVec 16 → BitVec 16 → Prop
  | imm (a b c d : BitVec 8) : JmpFarEnc s p [0xEA, a, b, c, d] (le16 c d) (le16 a b)
  | rm {rm seg ofs cs ip} (h : RM s p 16 rm 5 (.mem seg ofs)) (hp : Plain s p 8 rm) (h1 : Holds s seg ofs ip)
      (h2 : Holds s seg (ofs + 2) cs) : JmpFarEnc s p (0xFF :: rm) cs ip

/-- Near returns (C3, C2 imm16) and the number of bytes they discard after the return address. -/
inductive RetEnc : List (BitVec 8) → BitVec 16 → Prop
  | ret : RetEnc [0xC3] 0
  | imm (lo hi : BitVec 8) : RetEnc [0xC2, lo, hi] (le16 lo hi)

/-- Far returns (CB, CA imm16). -/
inductive RetFarEnc : List (BitVec 8) → BitVec 16 → Prop
  | ret : RetFarEnc [0xCB] 0
  | imm (lo hi : BitVec 8) : RetFarEnc [0xCA, lo, hi] (le16 lo hi)

/-- INT 3, INT n, INTO (with OF set): the interrupt number. -/
inductive IntEnc (s : State) : List (BitVec 8) → BitVec 8 → Prop
  | int3 : IntEnc s [0xCC] 3
  | int (n : BitVec 8) : IntEnc s [0xCD, n] n
  | into (h : s.flags.getLsbD bOF = true) : IntEnc s [0xCE] 4

/-- BP -/
def bpOf (s : State) : BitVec 16 := (s.gpr 5).setWidth 16
/-- The state with BP = `v`. -/
def withBP (s : State) (v : BitVec 16) : State := (Opnd.reg 5).put s 16 v

/-- Pushing the `k` words below SS:`bp`, from the top down, leads from `s` to `t` (the display of ENTER). -/
inductive CopyDisplay : Nat → BitVec 16 → State → State → Prop
  | zero (bp s) : CopyDisplay 0 bp s s
  | succ {k bp s v t} (h : Holds s (s.sreg .ss) (bp - 2) v) (r : CopyDisplay k (bp - 2) (pushed s v) t) : CopyDisplay (k + 1) bp s t

/-- ENTER size,level by the manual: BP is pushed (its address is the new frame pointer); for a level of at least 1, level-1 frame
pointers of the enclosing frames and the new frame pointer are pushed; BP is the new frame pointer and `size` bytes are reserved. -/
inductive Entered (s : State) (size : BitVec 16) : Nat → State → Prop
  | flat : Entered s size 0 (withSP (withBP (pushed s (bpOf s)) (spOf s - 2)) (spOf s - 2 - size))
  | nested {k t} (h : CopyDisplay k (bpOf s) (pushed s (bpOf s)) t) :
      Entered s size (k + 1) (withSP (withBP (pushed t (spOf s - 2)) (spOf s - 2)) (spOf t - 2 - size))

end RME
