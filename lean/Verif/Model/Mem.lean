import Verif.Model.Base
set_option autoImplicit false
/-
Model of the memory helpers and stack primitives, src/rme_internal.h:225-367.
-/
namespace RME

/-- Little-endian value of `k` host bytes at `h`. -/
def loadLE (host : Nat → BitVec 8) : Nat → Nat → Nat
  | 0, _ => 0
  | k + 1, h => (host h).toNat + 256 * loadLE host k (h + 1)

/-- All of the `k` host bytes at `h` are allocated. -/
def validN (valid : Nat → Bool) : Nat → Nat → Bool
  | 0, _ => true
  | k + 1, h => valid h && validN valid k (h + 1)

/-- Host memory after `*(uintN_t*)h = v` (little endian). -/
def storeLE (host : Nat → BitVec 8) (h : Nat) (n : Nat) (v : BitVec n) : Nat → BitVec 8 :=
  fun a => if h ≤ a ∧ a < h + n / 8 then (v >>> (8 * (a - h))).setWidth 8 else host a

/-- `*(uintN_t*)ptr` as an rvalue, e.g. src/rme_internal.h:295,302,309. -/
def loadM (n : Nat) (h : Nat) : M (BitVec n) := fun _ s =>
  if validN s.valid (n / 8) h then .ok (BitVec.ofNat n (loadLE s.host (n / 8) h)) s
  else .ub .hostInvalid

/-- `*(uintN_t*)ptr = v`, e.g. src/rme_internal.h:316,323,330. -/
def storeM (n : Nat) (h : Nat) (v : BitVec n) : M Unit := fun _ s =>
  if validN s.valid (n / 8) h then .ok () { s with host := storeLE s.host h n v }
  else .ub .hostInvalid

/-- Number of entries of `Memory[]` (0x110000/RME_BLOCK_SIZE), src/rme.h:170. -/
abbrev numBlocks : Nat := 0x110
/-- `RME_BLOCK_SIZE`, src/rme.h:51. -/
abbrev blockSize : Nat := 0x1000

/-- `RME_Int_GetPtr`, src/rme_internal.h:277-290 (RME_ALLOW_ZERO_TO_BE_NULL is never defined).
Indexing `Memory[]` out of range is undefined behaviour in both build settings; without the null
check, forming (and then dereferencing) a pointer from a NULL block is undefined behaviour. -/
def getPtr (seg : BitVec 16) (ofs : BitVec 32) : M Nat := fun env s =>
  let addr : BitVec 32 := seg.setWidth 32 * 16 + ofs
  let block := addr.toNat / blockSize
  if block < numBlocks then
    match s.map block with
    | some b => .ok (b + addr.toNat % blockSize) s
    | none => if env.nullCheck then .err .badmem s else .ub .nullBlock
  else .ub .blockIndexOOB

/-- `RME_Int_Read8/16/32`, src/rme_internal.h:291-311 (`Ofs` is a `uint16_t` parameter). -/
def readMem (n : Nat) (seg : BitVec 16) (ofs : BitVec 16) : M (BitVec n) := do
  let p ← getPtr seg (ofs.setWidth 32)
  loadM n p

/-- `RME_Int_Write8/16/32`, src/rme_internal.h:312-332. -/
def writeMem (n : Nat) (seg : BitVec 16) (ofs : BitVec 16) (v : BitVec n) : M Unit := do
  let p ← getPtr seg (ofs.setWidth 32)
  storeM n p v

/-- `READ_INSTR8/16/32`, src/rme_internal.h:230-235,251-266. -/
def readInstr (n : Nat) : M (BitVec n) := do
  let cs ← getSreg .cs
  let ofs ← nextIP
  let v ← readMem n cs ofs
  modDec (fun d => { d with ipOffset := d.ipOffset + n / 8 })
  pure v

/-- `READ_INSTR8S` assigned to an `n`-bit variable, src/rme_internal.h:240-245. -/
def readInstr8S (n : Nat) : M (BitVec n) := do
  let v ← readInstr 8
  pure (v.signExtend n)

/-- `PUSH(v)`, src/rme_internal.h:356-360.  The argument is evaluated after SP was decremented. -/
def pushM (v : M (BitVec 16)) : M Unit := do
  let sp ← getReg 16 rSP
  setReg 16 rSP (sp - 2)
  let ss ← getSreg .ss
  let sp' ← getReg 16 rSP
  let x ← v
  writeMem 16 ss sp' x

/-- `PUSH(v)` for an argument that does not depend on SP. -/
def push (v : BitVec 16) : M Unit := pushM (pure v)

/-- `POP(dst)` up to the final assignment, src/rme_internal.h:361-367. -/
def pop : M (BitVec 16) := do
  let ss ← getSreg .ss
  let sp ← getReg 16 rSP
  let v ← readMem 16 ss sp
  let sp' ← getReg 16 rSP
  setReg 16 rSP (sp' + 2)
  pure v

/-! ### Locations: the pointers passed around by the decoder -/

/-- A decoded operand pointer: `&GPRs[r]` (.W/.D/.B.L), `&GPRs[r].B.H`, or a host address. -/
inductive Loc where
  | reg (r : BitVec 3)
  | regH (r : BitVec 3)
  | mem (h : Nat)
  deriving DecidableEq, Repr

/-- `RegB(State, num)`, src/rme_internal.h:387-396. -/
def regB (num : BitVec 3) : Loc := if num.toNat ≥ 4 then .regH (num - 4) else .reg num

/-- `RegW(State, num)`, src/rme_internal.h:398-405. -/
def regW (num : BitVec 3) : Loc := .reg num

/-- `*ptr` read with width `n`. -/
def readLoc (n : Nat) (l : Loc) : M (BitVec n) :=
  match l with
  | .reg r => getReg n r
  | .regH r => gets (·.regH n r)
  | .mem h => loadM n h

/-- `*ptr = v` with width `n`. -/
def writeLoc (n : Nat) (l : Loc) (v : BitVec n) : M Unit :=
  match l with
  | .reg r => setReg n r v
  | .regH r => modify (·.setRegH n r v)
  | .mem h => storeM n h v

/-- `outb/outw/outl`, src/ops_io.h:9-11. -/
def portOut (bytes : Nat) (port : BitVec 16) (v : BitVec 32) : M Unit :=
  modify (fun s => { s with io := s.io ++ [.out bytes port v] })

/-- `inb/inw/inl`, src/ops_io.h:12-14. -/
def portIn (n : Nat) (port : BitVec 16) : M (BitVec n) := fun env s =>
  let v : BitVec n := (env.portIn s.io (n / 8) port).setWidth n
  .ok v { s with io := s.io ++ [.inp (n / 8) port (v.setWidth 32)] }

end RME
