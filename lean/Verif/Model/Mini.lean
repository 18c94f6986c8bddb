import Verif.Model.Main
set_option autoImplicit false
/-
Model of the small test program mini_test.c: `main` (lines 39-212), `ParseArgs` (lines 214-279).  Its emulation loop, change report, dump and exit
status (lines 139-211) are, statement for statement, those of nativetest/src/main.c:273-378, so `mainLoop`, `report` and `runMain` of
Model/Main.lean are used for them.  Not modelled: the text printed, `signal`, a read error of the image (`exit(2)`).
-/
namespace RME.Native
open RME

/-- The environment of the program: no HLE callback is installed (mini_test.c:69-75 are comments); the port functions come from whoever links it. -/
def miniEnv (pin : List IOEv → Nat → BitVec 16 → BitVec 32) : Env where
  nullCheck := false
  portIn := pin
  hle := fun _ => none

/-- `gaMemory` after mini_test.c:50-64. -/
def miniMem (i : Nat) : BitVec 8 :=
  if i < 0x400 then
    (if i % 4 = 0 then BitVec.ofNat 8 (i / 4) else if i % 4 = 1 then 0 else if i % 4 = 2 then 0x00 else 0xB8)
  else if i = 0xF0000 then 0x67
  else if i = 0xF0001 then 0xC9
  else 0xF1

/-- `struct Args`, mini_test.c:12-17, initialised to 0 (line 42). -/
structure MiniOpts where
  debug : Int := 0
  binfile : Option (List Char) := none
  dump : Option (List Char) := none
  cpu : Option (List Char) := none

/-- Outcome of `ParseArgs`: options, `exit(code)`, or a failed `assert` (abort). -/
inductive MiniArgs where
  | ok (o : MiniOpts)
  | exit (code : Int)
  | abort

/-- What `ParseArgs` does with one word (before looking at the following one). -/
inductive MiniAct where
  | image
  | exit (code : Int)
  | allFree
  /-- `-O`: the value is `argv[++i]`, unchecked (NULL if there is none) -/
  | dump
  /-- an option whose value is `argv[++i]` after `assert(i + 1 != argc)` -/
  | long (set : List Char → MiniOpts → MiniOpts)

/-- The classification of one word, mini_test.c:219-277. -/
def miniAct (free : Bool) (arg : List Char) : MiniAct :=
  if free then .image
  else match arg with
    | '-' :: tl =>
      match tl with
      | [] => .exit 1
      | c :: tl' =>
        if c ≠ '-' then
          if c = 'h' then .exit 0
          else if c = 'O' then .dump
          else .exit 1
        else match tl' with
          | [] => .allFree
          | _ :: _ =>
            if arg = "--help".toList then .exit 0
            else if arg = "--cpu".toList then .long fun v o => { o with cpu := some v }
            else if arg = "--debug-level".toList then .long fun v o => { o with debug := strtol10 v }
            else .exit 1
    | _ => .image

/-- The loop of `ParseArgs`, mini_test.c:217-278: remaining arguments, `all_free`, options so far.  `argv[argc]` is NULL. -/
def miniParse : List (List Char) → Bool → MiniOpts → MiniArgs
  | [], _, o => .ok o
  | arg :: rest, free, o =>
    match miniAct free arg with
    | .image => if o.binfile.isNone then miniParse rest free { o with binfile := some arg } else .exit 1
    | .exit c => .exit c
    | .allFree => miniParse rest true o
    | .dump => match rest with
      | [] => .ok { o with dump := none }
      | v :: rest => miniParse rest free { o with dump := some v }
    | .long set => match rest with
      | [] => .abort
      | v :: rest => miniParse rest free (set v o)

/-- `gaMemory` with the image in place, mini_test.c:87,97-112. -/
def miniImage (file : List (BitVec 8)) (i : Nat) : BitVec 8 :=
  if file.length ≤ 0x10000 ∧ 0x100000 - file.length ≤ i ∧ i < 0x100000 then file.getD (i - (0x100000 - file.length)) 0
  else if i < 0x400 then 0
  else miniMem i

/-- Lines 120-136: CPU type (the one of `RME_CreateState` without `--cpu`), stack pointer, the word at 9FFFEh. -/
def miniFinish (ga : Nat) (cpu : Option (List Char)) (s : State) : Setup :=
  match cpu with
  | none => .run (finishSetup ga s.cpuType s)
  | some name => match cpuOf name with
    | some c => .run (finishSetup ga c s)
    | none => .ret 0

/-- `main` up to the loop, mini_test.c:49-138; `fs`: contents of the files that can be opened (`fseek` on a NULL stream is undefined). -/
def miniSetup (fs : List Char → Option (List (BitVec 8))) (ga : Nat) (host : Nat → BitVec 8) (o : MiniOpts) : Setup :=
  match o.binfile with
  | none => miniFinish ga o.cpu (newMachine ga miniMem host o.debug)
  | some f => match fs f with
    | none => .ub
    | some file =>
      if file.length % 16 ≠ 0 then .ret (-1)
      else miniFinish ga o.cpu { (newMachine ga (miniImage file) host o.debug).setSreg .cs 0xF000 with ip := 0xFFF0 }

/-- How the program ends (as far as it is known after `fuel` rounds of the loop). -/
inductive MiniOut where
  /-- ended before the machine was started -/
  | exit (code : Int)
  | abort
  | ub
  /-- the machine ran -/
  | ran (f : Finish)
  | running

/-- `main` of mini_test.c for a command line (without `argv[0]`); `pins`: the port functions at each round; a dump file can always be created. -/
def miniMain (fs : List Char → Option (List (BitVec 8))) (ga : Nat) (host : Nat → BitVec 8) (pin : List IOEv → Nat → BitVec 16 → BitVec 32) (fuel : Nat)
    (argv : List (List Char)) : MiniOut :=
  match miniParse argv false {} with
  | .exit c => .exit c
  | .abort => .abort
  | .ok o => match miniSetup fs ga host o with
    | .ret c => .exit c
    | .ub => .ub
    | .run s => match mainLoop ga (fun _ => miniEnv pin) fuel 0 (prev0 ga s) s [] with
      | .running => .running
      | .ub => .ub
      | .ended e t log =>
        .ran ⟨exitStatus e, if o.dump.isSome then some ((List.range (1024 * 1024)).map fun i => t.host (ga + i)) else none, log⟩

end RME.Native
