import Verif.Model.Main
import Verif.Spec.Bios
set_option autoImplicit false
/-
What the native tester's change report and command line should say.
-/
namespace RME.Native
open RME

/-- The word at address `a` differs in the two memories. -/
def Differs (old new : Nat → BitVec 8) (a : Nat) : Prop := old a ≠ new a ∨ old (a + 1) ≠ new (a + 1)

/-- Guest memory of a machine. -/
def memOf (ga : Nat) (s : State) (i : Nat) : BitVec 8 := s.host (ga + i)

/-- A run of the machine with environment `envs k` for instruction `k`: the states after instructions `i`, `i+1`, …; then an instruction that
ends with code `e` in state `t`. -/
inductive RunsTo (envs : Nat → Env) : Nat → State → List State → Err → State → Prop
  | stop {i s e t} (h : runOne (envs i) s = .err e t) : RunsTo envs i s [] e t
  | step {i s u l e t} (h : runOne (envs i) s = .ok () u) (r : RunsTo envs (i + 1) u l e t) : RunsTo envs i s (u :: l) e t

/-- The name by which a CPU is asked for. -/
def cpuWord : CPUType → List Char
  | .i8086 => ['i', '8', '0', '8', '6']
  | .i80286 => ['8', '0', '2', '8', '6']
  | .i386 => ['3', '8', '6']

/-- One element of a command line. -/
inductive Arg where
  /-- a disk image -/
  | image (name : List Char)
  /-- `-b file` -/
  | binary (name : List Char)
  /-- `-d file` -/
  | dosExe (name : List Char)
  /-- `-O file` -/
  | dump (name : List Char)
  /-- `--nogui` -/
  | nogui
  /-- `--cpu name` -/
  | cpu (name : List Char)
  /-- `--debug-level n` -/
  | debug (n : List Char)

/-- The words typed. -/
def Arg.words : Arg → List (List Char)
  | .image n => [n]
  | .binary n => [['-', 'b'], n]
  | .dosExe n => [['-', 'd'], n]
  | .dump n => [['-', 'O'], n]
  | .nogui => [['-', '-', 'n', 'o', 'g', 'u', 'i']]
  | .cpu n => [['-', '-', 'c', 'p', 'u'], n]
  | .debug n => [['-', '-', 'd', 'e', 'b', 'u', 'g', '-', 'l', 'e', 'v', 'e', 'l'], n]

/-- An image name does not look like an option. -/
def Arg.proper : Arg → Prop
  | .image n => n.head? ≠ some '-'
  | _ => True

def Arg.imageName : Arg → Option (List Char)
  | .image n => some n
  | _ => none
def Arg.binaryName : Arg → Option (List Char)
  | .binary n => some n
  | _ => none
def Arg.dosName : Arg → Option (List Char)
  | .dosExe n => some n
  | _ => none
def Arg.dumpName : Arg → Option (List Char)
  | .dump n => some n
  | _ => none
def Arg.cpuName : Arg → Option (List Char)
  | .cpu n => some n
  | _ => none
def Arg.level : Arg → Option (List Char)
  | .debug n => some n
  | _ => none

end RME.Native
