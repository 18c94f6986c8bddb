import Verif.Model.Bios
set_option autoImplicit false
/-
Model of the DOS executable loader, nativetest/src/dosexe.c, and of its use in nativetest/src/main.c.
-/
namespace RME.Native
open RME

/-- A `uint16_t` of the file at byte offset `o` (0 stands for values never used: lengths are checked first). -/
def fileWord (file : List (BitVec 8)) (o : Nat) : BitVec 16 := file.getD (o + 1) 0 ++ file.getD o 0

/-- Result of `LoadDosExe`: entry point and stack pointer (with the state's memory updated), `{0,0}` for
a load error, `exit(code)`, or undefined behaviour. -/
inductive LoadOut where
  | ok (cs ip ss sp : BitVec 16) (s : State)
  | fail
  | exit (code : Int)
  | ub

/-- `*(uint16_t*)(data + p) += DESTINATION_SEG`, nativetest/src/dosexe.c:78. -/
def relocWord (buf : Nat → BitVec 8) (p : Nat) : Nat → BitVec 8 :=
  let v : BitVec 16 := (buf (p + 1) ++ buf p) + 0x100
  fun i => if i = p then v.setWidth 8 else if i = p + 1 then (v >>> 8).setWidth 8 else buf i

/-- Outcome of the relocation loop. -/
inductive RelocOut where
  | ok (buf : Nat → BitVec 8)
  | fail
  | ub

/-- The relocation loop, `k` rounds left, next entry at file offset `pos`, nativetest/src/dosexe.c:65-79; `size` is
the size of the heap block `data`. -/
def relocLoop (file : List (BitVec 8)) (size : Nat) : Nat → Nat → (Nat → BitVec 8) → RelocOut
  | 0, _, buf => .ok buf
  | k + 1, pos, buf =>
    if file.length < pos + 4 then .fail
    else
      let p := (fileWord file (pos + 2)).toNat * 16 + (fileWord file pos).toNat
      if size < p + 2 then .ub
      else relocLoop file size k (pos + 4) (relocWord buf p)

/-- The copy loop, `k` rounds left, nativetest/src/dosexe.c:93-99 (`base` = 1, the partial copy of lines 84-92 is
dead code since DESTINATION_SEG*16 is a multiple of the block size); `none` = undefined behaviour (index outside
`Memory[]`, NULL block, block not allocated). -/
def copyLoop (buf : Nat → BitVec 8) (size : Nat) : Nat → Nat → State → Option State
  | 0, _, s => some s
  | k + 1, i, s =>
    if 272 ≤ 1 + i then none
    else match s.map (1 + i) with
    | none => none
    | some h =>
      let n := min 4096 (size - i * 4096)
      if ∀ a < n, s.valid (h + a) = true then
        copyLoop buf size k (i + 1) { s with host := fun a => if h ≤ a ∧ a < h + n then buf (i * 4096 + (a - h)) else s.host a }
      else none

/-- `LoadDosExe`, nativetest/src/dosexe.c:19-114.  `file`: contents of the file, `none` if it cannot be opened.  A
`malloc` of a negative size fails, any other (at most 32 MiB) succeeds. -/
def loadDosExe (s : State) (file : Option (List (BitVec 8))) : LoadOut :=
  match file with
  | none => .fail
  | some file =>
    if file.length < 28 then .exit (-1)
    else if fileWord file 0 ≠ 0x5A4D then .fail
    else
      let (dataStart, dataSize) := dosExeData (fileWord file 8) (fileWord file 4) (fileWord file 2)
      if dataSize < 0 then .exit 1
      else if (file.length : Int) < dataStart + dataSize ∧ 0 < dataSize then .fail
      else
        match relocLoop file dataSize.toNat (fileWord file 6).toNat (fileWord file 24).toNat (fun i => file.getD (dataStart.toNat + i) 0) with
        | .fail => .fail
        | .ub => .ub
        | .ok buf =>
          match copyLoop buf dataSize.toNat ((dataSize.toNat + 4095) / 4096) 0 s with
          | none => .ub
          | some s => .ok (0x100 + fileWord file 22) (fileWord file 20) (0x100 + fileWord file 14) (fileWord file 16) s

/-- `main` with `-d`: lines 105-191 and 254-271 of nativetest/src/main.c. -/
def setupExe (ga : Nat) (host : Nat → BitVec 8) (dbg : Int) (cpu : CPUType) (file : Option (List (BitVec 8))) : Setup :=
  match loadDosExe (newMachine ga biosMem host dbg) file with
  | .fail => .ret (-1)
  | .exit c => .ret c
  | .ub => .ub
  | .ok cs ip ss sp s =>
    if cs = 0 ∧ ip = 0 then .ret (-1)
    else .run (finishSetup ga cpu ((({ s.setSreg .cs cs with ip := ip }).setSreg .ss ss).setReg 16 rSP sp))

end RME.Native
