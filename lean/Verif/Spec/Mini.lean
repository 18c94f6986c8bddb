import Verif.Model.Mini
import Verif.Spec.Main
set_option autoImplicit false
/-
Command lines of mini_test.c.
-/
namespace RME.Native
open RME

/-- One element of a command line. -/
inductive MArg where
  /-- the BIOS image -/
  | image (name : List Char)
  /-- `-O file` (more letters after the O are accepted) -/
  | dump (name : List Char)
  /-- `--cpu name` -/
  | cpu (name : List Char)
  /-- `--debug-level n` -/
  | debug (n : List Char)

/-- The words typed. -/
def MArg.words : MArg → List (List Char)
  | .image n => [n]
  | .dump n => [['-', 'O'], n]
  | .cpu n => [['-', '-', 'c', 'p', 'u'], n]
  | .debug n => [['-', '-', 'd', 'e', 'b', 'u', 'g', '-', 'l', 'e', 'v', 'e', 'l'], n]

/-- An image name does not look like an option. -/
def MArg.proper : MArg → Prop
  | .image n => n.head? ≠ some '-'
  | _ => True

def MArg.imageName : MArg → Option (List Char)
  | .image n => some n
  | _ => none
def MArg.dumpName : MArg → Option (List Char)
  | .dump n => some n
  | _ => none
def MArg.cpuName : MArg → Option (List Char)
  | .cpu n => some n
  | _ => none
def MArg.level : MArg → Option (List Char)
  | .debug n => some n
  | _ => none

end RME.Native
