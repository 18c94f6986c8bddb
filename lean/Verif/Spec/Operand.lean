import Verif.Spec.Machine
set_option autoImplicit false
/-
Independent specification of 8086 operands and their encodings: registers, ModR/M memory operands
(16-bit and 32-bit addressing), immediates, and what it means that an instruction is at CS:IP.
-/
namespace RME

/-- An operand. -/
inductive Opnd where
  /-- low `n` bits of a register (AX CX DX BX SP BP SI DI; AL CL DL BL; EAX …) -/
  | reg (r : BitVec 3)
  /-- AH CH DH BH -/
  | high (r : BitVec 3)
  /-- memory at seg:ofs -/
  | mem (seg ofs : BitVec 16)
  /-- immediate value -/
  | imm (v : BitVec 32)

/-- The operand can be accessed with `n` bits. -/
def Opnd.Ok (s : State) (n : Nat) : Opnd → Prop
  | .reg _ => True
  | .high _ => n = 8
  | .mem seg ofs => ∃ h, Mapped s n seg ofs h
  | .imm _ => False

/-- The operand (read with `n` bits) has the value `x`. -/
def Opnd.Has (s : State) (n : Nat) (o : Opnd) (x : BitVec n) : Prop :=
  match o with
  | .reg r => x = (s.gpr r).setWidth n
  | .high r => n = 8 ∧ x = ((s.gpr r >>> 8).setWidth n)
  | .mem seg ofs => Holds s seg ofs x
  | .imm v => x = v.setWidth n

/-- The state after storing the `n`-bit value `x` into the operand; nothing else changes. -/
def Opnd.put (s : State) (n : Nat) (o : Opnd) (x : BitVec n) : State :=
  match o with
  | .reg r => s.setGpr r (((s.gpr r >>> n) <<< n) ||| x.setWidth 32)
  | .high r => s.setGpr r ((s.gpr r &&& 0xFFFF00FF#32) ||| (x.setWidth 32 <<< 8))
  | .mem seg ofs =>
    match hostAddr s seg ofs with
    | some h => { s with host := putHost s.host h x }
    | none => s
  | .imm _ => s

/-- Byte register number `i`: AL CL DL BL AH CH DH BH. -/
def byteReg (i : BitVec 3) : Opnd := if i.toNat < 4 then .reg i else .high (i - 4)

/-- Register number `i` at width `n`. -/
def regOp (n : Nat) (i : BitVec 3) : Opnd := if n = 8 then byteReg i else .reg i

/-- Fields of the ModR/M byte. -/
def modOf (m : BitVec 8) : Nat := m.toNat / 64
def regOf (m : BitVec 8) : BitVec 3 := BitVec.ofNat 3 (m.toNat / 8)
def rmOf (m : BitVec 8) : BitVec 3 := BitVec.ofNat 3 m.toNat

/-- Number of displacement bytes after the ModR/M byte (16-bit addressing). -/
def dispLen (m : BitVec 8) : Nat :=
  if modOf m = 0 then (if rmOf m = 6 then 2 else 0) else modOf m

/-- Value of the displacement: none, sign-extended byte, or word. -/
def dispVal : List (BitVec 8) → BitVec 16
  | [] => 0
  | [b] => b.signExtend 16
  | b :: c :: _ => le16 b c

/-- Sum of the base and index registers of the 8086 addressing table (0 for a direct address). -/
def eaRegs (s : State) (m : BitVec 8) : Nat :=
  let w (r : BitVec 3) : Nat := ((s.gpr r).setWidth 16).toNat
  let bx := w 3; let bp := w 5; let si := w 6; let di := w 7
  if rmOf m = 0 then bx + si
  else if rmOf m = 1 then bx + di
  else if rmOf m = 2 then bp + si
  else if rmOf m = 3 then bp + di
  else if rmOf m = 4 then si
  else if rmOf m = 5 then di
  else if rmOf m = 6 then (if modOf m = 0 then 0 else bp)
  else bx

/-- Effective address: registers + displacement, modulo 2^16. -/
def eaOffset (s : State) (m : BitVec 8) (disp : List (BitVec 8)) : BitVec 16 :=
  BitVec.ofNat 16 (eaRegs s m) + dispVal disp

/-- BP is a base register of the address. -/
def usesBP (m : BitVec 8) : Bool :=
  rmOf m == 2 || rmOf m == 3 || (rmOf m == 6 && modOf m != 0)

/-- Segment register of the memory operand: the override, else SS if BP is a base, else DS. -/
def eaSeg (p : Pfx) (m : BitVec 8) : SReg :=
  p.seg.getD (if usesBP m then .ss else .ds)

/-! ### 32-bit addressing (address-size prefix 67) -/

/-- Little-endian value of a list of bytes. -/
def leVal : List (BitVec 8) → Nat
  | [] => 0
  | b :: bs => b.toNat + 256 * leVal bs

/-- A SIB byte follows the ModR/M byte. -/
def hasSib (m : BitVec 8) : Bool := rmOf m == 4

/-- Base register, from the SIB byte or the ModR/M byte; none for a plain 32-bit displacement (`tl`: the
bytes after the ModR/M byte). -/
def base32 (m : BitVec 8) (tl : List (BitVec 8)) : Option (BitVec 3) :=
  let b := if hasSib m then rmOf (tl.headD 0) else rmOf m
  if modOf m = 0 ∧ b = 5 then none else some b

/-- Scaled index register of the SIB byte (ESP cannot be an index). -/
def index32 (s : State) (m : BitVec 8) (tl : List (BitVec 8)) : BitVec 32 :=
  if hasSib m = true ∧ regOf (tl.headD 0) ≠ 4 then s.gpr (regOf (tl.headD 0)) <<< modOf (tl.headD 0) else 0

/-- The displacement bytes. -/
def dispBytes32 (m : BitVec 8) (tl : List (BitVec 8)) : List (BitVec 8) := if hasSib m then tl.drop 1 else tl

/-- Their number. -/
def dispLen32 (m : BitVec 8) (tl : List (BitVec 8)) : Nat :=
  if modOf m = 1 then 1 else if modOf m = 2 ∨ base32 m tl = none then 4 else 0

/-- Value of the displacement: none, sign-extended byte, or double word. -/
def dispVal32 : List (BitVec 8) → BitVec 32
  | [] => 0
  | [b] => b.signExtend 32
  | l => BitVec.ofNat 32 (leVal l)

/-- Effective address: base + scaled index + displacement, modulo 2^32. -/
def eaOffset32 (s : State) (m : BitVec 8) (tl : List (BitVec 8)) : BitVec 32 :=
  ((base32 m tl).map s.gpr).getD 0 + index32 s m tl + dispVal32 (dispBytes32 m tl)

/-- Segment register: the override, else SS if ESP or EBP is the base, else DS. -/
def eaSeg32 (p : Pfx) (m : BitVec 8) (tl : List (BitVec 8)) : SReg :=
  p.seg.getD (if base32 m tl = some 4 ∨ base32 m tl = some 5 then .ss else .ds)

/-- `rm = m :: disp` (ModR/M byte, SIB byte, displacement) names the register `r` and the operand `o`, by
the manual, at operand width `n`.  With 32-bit addressing the address must lie within the segment. -/
inductive RM (s : State) (p : Pfx) (n : Nat) : List (BitVec 8) → BitVec 3 → Opnd → Prop
  | reg (m : BitVec 8) (h : modOf m = 3) : RM s p n [m] (regOf m) (regOp n (rmOf m))
  | mem (m : BitVec 8) (disp : List (BitVec 8)) (h : modOf m ≠ 3) (ha : p.addr = false)
      (hd : disp.length = dispLen m) :
      RM s p n (m :: disp) (regOf m) (.mem (s.sreg (eaSeg p m)) (eaOffset s m disp))
  | mem32 (m : BitVec 8) (tl : List (BitVec 8)) (h : modOf m ≠ 3) (ha : p.addr = true)
      (hd : tl.length = (if hasSib m then 1 else 0) + dispLen32 m tl) (hlim : (eaOffset32 s m tl).toNat < 65536) :
      RM s p n (m :: tl) (regOf m) (.mem (s.sreg (eaSeg32 p m tl)) ((eaOffset32 s m tl).setWidth 16))

/-- Cases in which the emulator follows the manual (the others are findings).
16-bit addressing: the sum of registers and signed displacement needs no reduction modulo 2^16;
`[BP+SI]`/`[BP+DI]` without displacement have a segment prefix.
32-bit addressing: a SIB byte comes without displacement (or with one that is zero); a displacement added to a
register is between 0 and FFFF; without a segment prefix the base is not ESP or EBP, and a base EDX, EBX or ESI
comes without displacement.
Both: a word does not start at the last byte of a block. -/
def Plain (s : State) (p : Pfx) (n : Nat) : List (BitVec 8) → Prop
  | [] => False
  | m :: tl => modOf m ≠ 3 →
    match p.addr with
    | false =>
      (0 ≤ (eaRegs s m : Int) + (dispVal tl).toInt ∧ (eaRegs s m : Int) + (dispVal tl).toInt < 65536) ∧
      (modOf m = 0 → (rmOf m = 2 ∨ rmOf m = 3) → p.seg ≠ none) ∧
      (n ≠ 8 → linear (s.sreg (eaSeg p m)) (eaOffset s m tl) % 4096 ≠ 4095)
    | true =>
      ((hasSib m = true → modOf m = 0 ∧ dispVal32 (dispBytes32 m tl) = 0) ∧
       (modOf m ≠ 0 → (dispVal32 (dispBytes32 m tl)).toNat < 65536)) ∧
      (p.seg = none → base32 m tl ≠ some 4 ∧ base32 m tl ≠ some 5 ∧ (modOf m ≠ 0 → rmOf m ≠ 2 ∧ rmOf m ≠ 3 ∧ rmOf m ≠ 6)) ∧
      (n ≠ 8 → linear (s.sreg (eaSeg32 p m tl)) ((eaOffset32 s m tl).setWidth 16) % 4096 ≠ 4095)

/-- Operand width selected by the operand-size prefix. -/
def opW (p : Pfx) : Nat := if p.oper then 32 else 16

/-- At CS:IP (host address `h0`) there is an instruction of `len` bytes: prefix bytes meaning `p`
followed by `code`; CS:IP is an ordinary address. -/
structure At (s : State) (h0 : Nat) (p : Pfx) (code : List (BitVec 8)) (len : Nat) : Prop where
  ready : Ready s
  code : ∃ pfx, Pfx.parse {} pfx = some p ∧ CodeAt s h0 (pfx ++ code) ∧ len = pfx.length + code.length

/-- In memory of `t` the instruction of length `len` at `h0` is not `00 00` (the pattern of the
runaway detector). -/
def NotZeroed (t : State) (h0 len : Nat) : Prop :=
  len = 2 → ¬ (t.host h0 = 0 ∧ t.host (h0 + 1) = 0)

/-- `RME_RunOne` succeeds and gives `t`, except that IP is advanced by `len` and the instruction
counter by one. -/
def Falls (env : Env) (s : State) (len : Nat) (t : State) : Prop :=
  StepsTo env s { t with ip := s.ip + BitVec.ofNat 16 len, instrNum := s.instrNum + 1 }

/-- `RME_RunOne` succeeds and gives `t`, except that IP is `ip` and the instruction counter is advanced
by one. -/
def Jumps (env : Env) (s : State) (ip : BitVec 16) (t : State) : Prop :=
  StepsTo env s { t with ip := ip, instrNum := s.instrNum + 1 }

/-- High half of the double-width accumulator: AH, DX or EDX. -/
def hiOp (n : Nat) : Opnd := if n = 8 then .high 0 else .reg 2

/-- The state with the double-width accumulator AX, DX:AX or EDX:EAX set to `hi:lo`. -/
def putPair (s : State) (n : Nat) (hi lo : BitVec n) : State :=
  (Opnd.reg 0).put ((hiOp n).put s n hi) n lo

end RME
