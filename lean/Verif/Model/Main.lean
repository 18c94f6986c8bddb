import Verif.Model.DosExe
set_option autoImplicit false
/-
Model of the rest of `main` of the native tester: the emulation loop with its change report, the memory dump and the exit status
(nativetest/src/main.c:273-378), and the command line (nativetest/src/main.c:381-462).
-/
namespace RME.Native
open RME

/-- `gPrevRegisters` and `gaMemory_prev`, nativetest/src/main.c:64-77. -/
structure Prev where
  gpr : BitVec 3 → BitVec 32
  seg : SReg → BitVec 16
  flags : BitVec 16
  mem : Nat → BitVec 8

/-- One item of the change report, nativetest/src/main.c:281-320 (address, old and new value as printed). -/
inductive Item where
  | gpr (r : BitVec 3) (old new : BitVec 32)
  | seg (r : SReg) (old new : BitVec 16)
  | flags (old new : BitVec 16)
  | mem (addr : Nat) (old new : BitVec 16)
  deriving DecidableEq

/-- `CHECK_REG` for a general register, nativetest/src/main.c:283-292. -/
def checkGpr (p : Prev) (s : State) (r : BitVec 3) : List Item := if p.gpr r ≠ s.gpr r then [.gpr r (p.gpr r) (s.gpr r)] else []

/-- `CHECK_REG` for a segment register, nativetest/src/main.c:293-297. -/
def checkSeg (p : Prev) (s : State) (r : SReg) : List Item := if p.seg r ≠ s.sreg r then [.seg r (p.seg r) (s.sreg r)] else []

/-- The register part of the report, nativetest/src/main.c:285-298 (CS and IP are not looked at). -/
def checkRegs (p : Prev) (s : State) : List Item :=
  ([0, 1, 2, 3, 4, 5, 6, 7].map (checkGpr p s)).flatten ++ ([SReg.ss, .ds, .es, .fs, .gs].map (checkSeg p s)).flatten ++
    (if p.flags ≠ s.flags then [.flags p.flags s.flags] else [])

/-- `x[0] | (x[1] << 8)`, nativetest/src/main.c:304-305. -/
def memWord (m : Nat → BitVec 8) (i : Nat) : BitVec 16 := m (i + 1) ++ m i

/-- The memory loop, `k` words left, next at `i`: items and new `gaMemory_prev`; `none` = undefined behaviour (`memcpy(prev, cur, 4)` beyond the
arrays), nativetest/src/main.c:300-309.  The `memcmp` of line 299 only skips the loop when it would do nothing. -/
def memScan (cur : Nat → BitVec 8) : Nat → Nat → (Nat → BitVec 8) → Option (List Item × (Nat → BitVec 8))
  | 0, _, prev => some ([], prev)
  | k + 1, i, prev =>
    if prev i ≠ cur i ∨ prev (i + 1) ≠ cur (i + 1) then
      if MEMSZ < i + 4 then none
      else match memScan cur k (i + 2) (fun a => if i ≤ a ∧ a < i + 4 then cur a else prev a) with
        | none => none
        | some (l, p) => some (.mem i (memWord prev i) (memWord cur i) :: l, p)
    else memScan cur k (i + 2) prev

/-- The report after one instruction, nativetest/src/main.c:277-313. -/
def report (ga : Nat) (p : Prev) (s : State) : Option (List Item × Prev) :=
  if s.debugLevel < 1 then some ([], p)
  else match memScan (fun i => s.host (ga + i)) (MEMSZ / 2) 0 p.mem with
    | none => none
    | some (l, m) => some (checkRegs p s ++ l, { p with gpr := s.gpr, seg := fun r => if r = .cs then p.seg r else s.sreg r, flags := s.flags, mem := m })

/-- Outcome of the loop: still running, ended by a non-zero code, undefined behaviour. -/
inductive LoopOut where
  | running
  | ended (e : Err) (s : State) (log : List (List Item))
  | ub

/-- The main loop, nativetest/src/main.c:273-325 (at most `fuel` rounds).  `envs i`: the environment of round `i` (the callbacks depend on the
tester's variables, which change from call to call; the theorems hold for every sequence). -/
def mainLoop (ga : Nat) (envs : Nat → Env) : Nat → Nat → Prev → State → List (List Item) → LoopOut
  | 0, _, _, _, _ => .running
  | fuel + 1, i, p, s, log =>
    match runOne (envs i) s with
    | .ub _ => .ub
    | .err e t => .ended e t log
    | .ok _ t =>
      match report ga p t with
      | none => .ub
      | some (l, p) => mainLoop ga envs fuel (i + 1) p t (log ++ [l])

/-- `gPrevRegisters` (static, all 0) and `gaMemory_prev` (line 271) when the loop starts. -/
def prev0 (ga : Nat) (s : State) : Prev := { gpr := fun _ => 0, seg := fun _ => 0, flags := 0, mem := fun i => s.host (ga + i) }

/-- What a finished run leaves behind: exit status and, with `-O`, the contents of the dump file; nativetest/src/main.c:328-378. -/
structure Finish where
  status : Nat
  dump : Option (List (BitVec 8))
  log : List (List Item)

/-- `main` from line 273 on; `dumpTo`: `-O file` was given and the file can be created. -/
def runMain (ga : Nat) (envs : Nat → Env) (dumpTo : Bool) (fuel : Nat) (s : State) : Option Finish :=
  match mainLoop ga envs fuel 0 (prev0 ga s) s [] with
  | .ended e t log => some ⟨exitStatus e, if dumpTo then some ((List.range (1024 * 1024)).map fun i => t.host (ga + i)) else none, log⟩
  | _ => none

/-! ### Command line -/

/-- The variables `ParseArgs` sets, with their initial values; nativetest/src/main.c:58-62,78-79 (`DEBUG` is 1). -/
structure Opts where
  fdds : List (Option (List Char)) := [some "fdd.img".toList, none, none, none]
  binary : Option (List Char) := none
  dosExe : Option (List Char) := none
  dump : Option (List Char) := none
  cpu : List Char := "80286".toList
  nogui : Bool := false
  debug : Int := 1

/-- Outcome of `ParseArgs`: options, `exit(code)`, or a failed `assert` (abort). -/
inductive ArgOut where
  | ok (o : Opts)
  | exit (code : Int)
  | abort

/-- An optional sign. -/
def signOf : List Char → Bool × List Char
  | '-' :: s => (true, s)
  | '+' :: s => (false, s)
  | s => (false, s)

/-- `strtol(s, NULL, 10)` assigned to an `int`. -/
def strtol10 (s : List Char) : Int :=
  let s := s.dropWhile (fun c => c = ' ' ∨ ('\t' ≤ c ∧ c ≤ '\r'))
  let (neg, s) := signOf s
  let n : Nat := (s.takeWhile (fun c => '0' ≤ c ∧ c ≤ '9')).foldl (fun n c => n * 10 + (c.toNat - '0'.toNat)) 0
  let v : Int := if neg then max (-(n : Int)) (-2 ^ 63) else min (n : Int) (2 ^ 63 - 1)
  (BitVec.ofInt 32 v).toInt

/-- What `ParseArgs` does with one word (before looking at the following one). -/
inductive ArgAct where
  | image
  | exit (code : Int)
  | flag (set : Opts → Opts)
  | allFree
  /-- an option whose value is `argv[++i]`, unchecked (NULL if there is none) -/
  | short (set : Option (List Char) → Opts → Opts)
  /-- an option whose value is `argv[++i]` after `assert(i+1 < argc)` -/
  | long (set : List Char → Opts → Opts)

/-- The classification of one word, nativetest/src/main.c:387-451. -/
def argAct (free : Bool) (arg : List Char) : ArgAct :=
  if free then .image
  else match arg with
    | '-' :: tl =>
      match tl with
      | [] => .exit 1
      | c :: tl' =>
        if c ≠ '-' then
          if c = 'h' then .exit 0
          else if c = 'b' then .short fun v o => { o with binary := v }
          else if c = 'O' then .short fun v o => { o with dump := v }
          else if c = 'd' then .short fun v o => { o with dosExe := v }
          else .exit 1
        else match tl' with
          | [] => .allFree
          | _ :: _ =>
            if arg = "--help".toList then .exit 0
            else if arg = "--nogui".toList then .flag fun o => { o with nogui := true }
            else if arg = "--cpu".toList then .long fun v o => { o with cpu := v }
            else if arg = "--debug-level".toList then .long fun v o => { o with debug := strtol10 v }
            else .exit 1
    | _ => .image

/-- The loop of `ParseArgs`, nativetest/src/main.c:384-455: remaining arguments, number of images so far, `all_free`.  `argv[argc]` is NULL. -/
def parseArgs : List (List Char) → Nat → Bool → Opts → ArgOut
  | [], _, _, o => .ok o
  | arg :: rest, n, free, o =>
    match argAct free arg with
    | .image => if n < 4 then parseArgs rest (n + 1) free { o with fdds := o.fdds.set n (some arg) } else .exit 1
    | .exit c => .exit c
    | .flag set => parseArgs rest n free (set o)
    | .allFree => parseArgs rest n true o
    | .short set => match rest with
      | [] => .ok (set none o)
      | v :: rest => parseArgs rest n free (set (some v) o)
    | .long set => match rest with
      | [] => .abort
      | v :: rest => parseArgs rest n free (set v o)

/-- The CPU type selected, nativetest/src/main.c:254-266; `none`: "Unknown CPU type", `return 0`. -/
def cpuOf (name : List Char) : Option CPUType :=
  if name = "i8086".toList then some .i8086
  else if name = "80286".toList then some .i80286
  else if name = "386".toList then some .i386
  else none

/-- `main` up to the loop for given options; `fs`: contents of the files that can be opened; nativetest/src/main.c:105-271. -/
def mainSetup (fs : List Char → Option (List (BitVec 8))) (ga : Nat) (host : Nat → BitVec 8) (o : Opts) : Setup :=
  let go (cpu : CPUType) : Setup :=
    match o.dosExe with
    | some f => setupExe ga host o.debug cpu (fs f)
    | none => match o.binary with
      | some f => setup ga host o.debug cpu (.bios (fs f))
      | none => match o.fdds[0]? with
        | some (some (c :: f)) => match fs (c :: f) with
          | some img => setup ga host o.debug cpu (.floppy img)
          | none => setup ga host o.debug cpu .none
        | _ => setup ga host o.debug cpu .none
  match cpuOf o.cpu with
  | some cpu => go cpu
  | none => match go .i80286 with
    | .run _ => .ret 0
    | r => r

end RME.Native
