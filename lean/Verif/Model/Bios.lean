import Verif.Model.Rme
import Verif.Model.Nativetest
set_option autoImplicit false
/-
Model of the BIOS services of the native tester (the HLE callbacks of nativetest/src/main.c) and of
the machine set-up in `main`.
-/
namespace RME.Native
open RME

/-- One entry of `gKeyBuffer`, nativetest/src/main.c:82-85. -/
structure Key where
  scan : BitVec 8
  ascii : BitVec 8
  deriving DecidableEq, Repr

/-- The global variables of nativetest/src/main.c:52-89 that the callbacks use.
`ga` is the host address of `gaMemory` (0x110000 bytes); `keys` are the first `gKeyBufferPos` entries
of `gKeyBuffer`; `img` is the contents of the file `gaFDDs[0]` (`none` = NULL, the image could not be
opened, lines 119-127); `future` are the key presses SDL will still deliver (GUI build). -/
structure World where
  ga : Nat
  x : Int
  y : Int
  attr : BitVec 8
  keys : List Key
  img : Option (List (BitVec 8))
  gui : Bool
  future : List Key

/-- Undefined behaviour in a callback: index outside `gaMemory`, NULL `FILE*`, overflow of `int`. -/
inductive HUB where
  | memory | nullFile | overflow
  deriving DecidableEq, Repr

/-- Outcome of a callback: it returns, the process ends with `exit(code)`, it waits for ever for a key,
or undefined behaviour. -/
inductive HOut where
  | ok (w : World) (s : State)
  | exit (code : Int)
  | blocked
  | ub (u : HUB)

/-- `sizeof(gaMemory)`, nativetest/src/main.c:63. -/
abbrev MEMSZ : Nat := 0x110000

/-- `gaMemory[i]` as an rvalue (0 stands for a value never used: index checked by the caller). -/
def gaAt (w : World) (s : State) (i : Int) : BitVec 8 :=
  if 0 ≤ i ∧ i < MEMSZ then s.host (w.ga + i.toNat) else 0

/-- Copy the bytes `src 0 … src (n-1)` to `&gaMemory[dst]` (`memset`, `memcpy`, `fread`; bounds checked by the caller). -/
def gaCopy (w : World) (s : State) (dst n : Nat) (src : Nat → BitVec 8) : State :=
  { s with host := fun a => if w.ga + dst ≤ a ∧ a < w.ga + dst + n then src (a - (w.ga + dst)) else s.host a }

/-- The screen functions see the cursor and `gaMemory`. -/
def screenOf (w : World) (s : State) : Screen := { x := w.x, y := w.y, mem := gaAt w s, oob := false }

/-- Put the cursor and `gaMemory` back after a screen function. -/
def ofScreen (w : World) (s : State) (r : Screen) : HOut :=
  if r.oob then .ub .memory
  else .ok { w with x := r.x, y := r.y }
    { s with host := fun a => if w.ga ≤ a ∧ a < w.ga + MEMSZ then r.mem ((a : Int) - w.ga) else s.host a }

/-- `AX.B.L = v` etc. -/
def setL (s : State) (r : BitVec 3) (v : BitVec 8) : State := s.setReg 8 r v
/-- `AX.B.H = v` etc. -/
def setH (s : State) (r : BitVec 3) (v : BitVec 8) : State := s.setRegH 8 r v
/-- `Flags |= 1` -/
def setCF (s : State) : State := { s with flags := s.flags ||| FLAG_CF }
/-- `Flags &= ~FLAG_CF` -/
def clrCF (s : State) : State := { s with flags := clr s.flags FLAG_CF }

/-- Index of the character cell at the cursor, nativetest/src/main.c:768,779. -/
def cellIdx (w : World) : Int := 0xB8000 + (w.y * 80 + w.x) * 2

/-- `HLECall10` AH=06h, AL=0: clear the screen, nativetest/src/main.c:745-765.
`attr` is `(uint8_t)(BH << 8)`, i.e. always 0. -/
def clearScreen (w : World) (s : State) : State := gaCopy w s 0xB8000 4000 (fun _ => 0)

/-- `HLECall10` (video), nativetest/src/main.c:718-825. -/
def hle10 (w : World) (s : State) : HOut :=
  let ah := s.regH 8 rAX
  let al := s.reg 8 rAX
  if ah = 0x00 then
    if al = 3 then .ok w (setL s rAX 0x30) else .exit 1
  else if ah = 0x01 then .ok w s
  else if ah = 0x02 then .ok { w with x := (s.reg 8 rDX).toNat, y := (s.regH 8 rDX).toNat } s
  else if ah = 0x05 then .ok w s
  else if ah = 0x06 then
    if al = 0 then .ok w (clearScreen w s) else .ok w s
  else if ah = 0x08 then
    if cellIdx w < 0 ∨ MEMSZ ≤ cellIdx w + 1 then .ub .memory
    else .ok w (setH (setL s rAX (gaAt w s (cellIdx w))) rAX (gaAt w s (cellIdx w + 1)))
  else if ah = 0x09 then
    ofScreen w s (writeChars al (s.reg 8 rBX) (s.reg 16 rCX).toNat (screenOf w s))
  else if ah = 0x0E then ofScreen w s (putChar (screenOf w s) al w.attr)
  else if ah = 0x0F then .ok w (setL (setL (setH s rAX 80) rAX 3) rBX 0)
  else if ah = 0x10 then
    if s.reg 16 rAX = 0x1003 then .ok { w with attr := w.attr ^^^ 0x80 } s else .exit 1
  else if ah = 0x12 then .ok w (setH s rBX 0)
  else .exit 1

/-- `HLECall12` (memory size), nativetest/src/main.c:831-835. -/
def hle12 (w : World) (s : State) : HOut := .ok w (s.setReg 16 rAX (BitVec.ofNat 16 (0xA0000 / 1024 - 1)))

/-- Range of `int`. -/
def intRange (i : Int) : Prop := -2147483648 ≤ i ∧ i ≤ 2147483647

instance (i : Int) : Decidable (intRange i) := inferInstanceAs (Decidable (_ ∧ _))

/-- `ReadDiskLBA` with `Data = &gaMemory[dst]`: number of sectors read and the new state,
nativetest/src/main.c:650-678.  `fseek` fails for a negative offset only; `fread` stores the bytes that
are there (a last incomplete sector is stored but not counted, as in glibc). -/
def readDiskLBA (w : World) (s : State) (disk lba : Int) (count dst : Nat) : Except HUB (Nat × State) :=
  if disk = 0 then
    if ¬ intRange (lba * 512) then .error .overflow
    else match w.img with
    | none => .error .nullFile
    | some img =>
      if lba < 0 then
        if dst + 512 * count ≤ MEMSZ then .ok (0, gaCopy w s dst (512 * count) (fun _ => 0))
        else .error .memory
      else
        let n := min (512 * count) (img.length - lba.toNat * 512)
        if dst + n ≤ MEMSZ then .ok (n / 512, gaCopy w s dst n (fun i => img.getD (lba.toNat * 512 + i) 0))
        else .error .memory
  else .ok (0, s)

/-- `HLECall13` AH=02h (read sectors), nativetest/src/main.c:853-893. -/
def hle13read (w : World) (s : State) : HOut :=
  let al := s.reg 8 rAX
  if al &&& 0x3F = 0 then .ok w (setCF s)
  else
    let (disk, cyl, head, sect) := int13Args (s.reg 16 rCX) (s.regH 8 rDX) (s.reg 8 rDX)
    let dst := (s.sreg .es).toNat * 16 + (s.reg 16 rBX).toNat
    match readDiskCHS disk cyl head sect with
    | none => .ok w (setCF (setH s rAX 1))
    | some lba =>
      match readDiskLBA w s disk lba al.toNat dst with
      | .error u => .ub u
      | .ok (ret, s') =>
        if ret ≠ al.toNat then .ok w (setCF (setL s' rAX (BitVec.ofNat 8 ret)))
        else .ok w (clrCF (setH s' rAX 0))

/-- `HLECall13` AH=08h (drive parameters), nativetest/src/main.c:895-919. -/
def hle13params (w : World) (s : State) : HOut :=
  match getDiskParams (s.reg 8 rDX).toNat with
  | none => .ok w (setCF (clrCF s))
  | some (cyl, heads, sec) =>
    let cyl := cyl - 1
    let heads := heads - 1
    let s := (clrCF s).setReg 16 rAX 0
    let s := setL s rBX 4
    let s := setL s rCX (BitVec.ofNat 8 (sec.toNat ||| ((cyl.toNat >>> 8) <<< 6)))
    let s := setH s rCX (BitVec.ofNat 8 (cyl.toNat &&& 0xFF))
    let s := setL s rDX 1
    let s := setH s rDX (BitVec.ofNat 8 heads.toNat)
    .ok w ((s.setSreg .es 0xF100).setReg 16 rDI 0)

/-- `HLECall13` AH=15h (disk type), nativetest/src/main.c:921-940. -/
def hle13type (w : World) (s : State) : HOut :=
  match getDiskParams (s.reg 8 rDX).toNat with
  | some (cyl, heads, sec) =>
    .ok w (((setH (clrCF s) rAX 2).setReg 16 rCX (BitVec.ofNat 16 (sec * heads * cyl).toNat)).setReg 16 rDX 0)
  | none => .ok w (setCF (setH (clrCF s) rAX 0))

/-- Little-endian value of `k` bytes of `gaMemory` from index `i`. -/
def gaLE (w : World) (s : State) (k i : Nat) : Nat := loadLE s.host k (w.ga + i)

/-- `HLECall13` AH=42h (extended read), nativetest/src/main.c:943-979.  The packet (16 bytes are read)
always lies inside `gaMemory`: DS*16+SI+15 < 0x110000.  `LBAStart` is converted from `uint64_t` to
`int`. -/
def hle13ext (w : World) (s : State) : HOut :=
  let p := (s.sreg .ds).toNat * 16 + (s.reg 16 rSI).toNat
  let count := gaLE w s 2 (p + 2)
  let laddr := gaLE w s 2 (p + 6) * 16 + gaLE w s 2 (p + 4)
  let lba := (BitVec.ofNat 32 (gaLE w s 8 (p + 8))).toInt
  if laddr + count * 512 > 0x110000 then .ok w (setH (setCF s) rAX 0xBB)
  else
    match readDiskLBA w s (s.reg 8 rDX).toNat lba count laddr with
    | .error u => .ub u
    | .ok (_, s') => .ok w (setH (clrCF s') rAX 0)

/-- `HLECall13` (disk), nativetest/src/main.c:840-986.  (The missing `return` is harmless: the emulator
does not use the result.) -/
def hle13 (w : World) (s : State) : HOut :=
  let ah := s.regH 8 rAX
  if ah = 0x00 then .ok w (setH (clrCF s) rAX 0)
  else if ah = 0x02 then hle13read w s
  else if ah = 0x08 then hle13params w s
  else if ah = 0x15 then hle13type w s
  else if ah = 0x42 then hle13ext w s
  else .exit 1

/-- `HandleEvent` for `SDL_KEYDOWN`, nativetest/src/main.c:488-505. -/
def keyDown (w : World) (k : Key) : World :=
  if w.keys.length = 16 then w else { w with keys := w.keys ++ [k] }

/-- The entry made for the SDL key symbol `sym` (both members are `uint8_t`), nativetest/src/main.c:498-500. -/
def sdlKey (sym : BitVec 32) : Key := ⟨sym.setWidth 8, sym.setWidth 8⟩

/-- INT 16h AH=00h once a key is there, nativetest/src/main.c:1032-1036. -/
def takeKey (w : World) (s : State) : HOut :=
  match w.keys with
  | [] => .blocked
  | k :: ks => .ok { w with keys := ks } (setL (setH s rAX k.scan) rAX k.ascii)

/-- `HLECall` 16h AH=00h (get keystroke), nativetest/src/main.c:1020-1036.  Without the GUI an empty
queue ends the process. -/
def getKey (w : World) (s : State) : HOut :=
  if w.keys = [] then
    if w.gui then
      match w.future with
      | [] => .blocked
      | k :: ks => takeKey (keyDown { w with future := ks } k) s
    else .exit 0
  else takeKey w s

/-- `HLECall` 16h AH=01h/11h (check for keystroke), nativetest/src/main.c:1038-1051,1065-1077. -/
def peekKey (w : World) (s : State) : HOut :=
  match w.keys with
  | k :: _ =>
    let s := setL (setH s rAX k.scan) rAX k.ascii
    .ok w { s with flags := clr s.flags FLAG_ZF }
  | [] => .ok w { s with flags := s.flags ||| FLAG_ZF }

/-- `HLECall` case 0x16 (keyboard), nativetest/src/main.c:1016-1083. -/
def hle16 (w : World) (s : State) : HOut :=
  let ah := s.regH 8 rAX
  if ah = 0x00 then getKey w s
  else if ah = 0x01 ∨ ah = 0x11 then peekKey w s
  else if ah = 0x02 then .ok w (setL s rAX 0)
  else .exit 1

/-- The registered callbacks, nativetest/src/main.c:166-172; `HLECall` for 03h, 18h, 19h
(nativetest/src/main.c:996-1013,1086-1104; they end the process, in the GUI build after a key press). -/
def hleCall (n : BitVec 8) : Option (World → State → HOut) :=
  if n = 0x03 then some (fun _ _ => .exit 0)
  else if n = 0x10 then some hle10
  else if n = 0x12 then some hle12
  else if n = 0x13 then some hle13
  else if n = 0x16 then some hle16
  else if n = 0x18 then some (fun _ _ => .exit 0)
  else if n = 0x19 then some (fun _ _ => .exit 0)
  else none

/-- What the emulator sees of a callback when the globals are `w`: the state it leaves.  (If the
callback does not return there is no next state; see `Serves` in Spec/Bios.lean.) -/
def HOut.after (o : HOut) (s : State) : State :=
  match o with
  | .ok _ s' => s'
  | _ => s

/-- The environment of the native tester: null check as built (`RME_DO_NULL_CHECK` is defined too
late), port functions nativetest/src/main.c:1114-1137 (input is 0), callbacks as above. -/
def nativeEnv (w : World) : Env where
  nullCheck := false
  portIn := fun _ _ _ => 0
  hle := fun n => (hleCall n).map (fun f s => (f w s).after s)

/-! ### Machine set-up in `main` -/

/-- `gaMemory` after nativetest/src/main.c:106-107 and 129-161.  The disk parameter block mixes the
array entries 0 and 1 as the code does. -/
def biosMem (i : Nat) : BitVec 8 :=
  if i < 0x400 then
    (if i % 4 = 0 then BitVec.ofNat 8 (i / 4) else if i % 4 = 1 then 0 else if i % 4 = 2 then 0x00 else 0xB8)
  else if 0xB8000 ≤ i ∧ i < 0xB8000 + 4000 then 0
  else if i = 0xF0000 then 0x67
  else if i = 0xF0001 then 0xC9
  else if 0xF1000 ≤ i ∧ i < 0xF1002 then byteOfNat 0x1A (i - 0xF1000)
  else if 0xF1002 ≤ i ∧ i < 0xF1004 then byteOfNat 1 (i - 0xF1002)
  else if 0xF101E ≤ i ∧ i < 0xF1022 then byteOfNat 80 (i - 0xF101E)
  else if 0xF1022 ≤ i ∧ i < 0xF1026 then byteOfNat 2 (i - 0xF1022)
  else if 0xF1026 ≤ i ∧ i < 0xF102A then byteOfNat 18 (i - 0xF1026)
  else if 0xF1010 ≤ i ∧ i < 0xF1018 then byteOfNat 2880 (i - 0xF1010)
  else if 0xF1018 ≤ i ∧ i < 0xF101A then byteOfNat 512 (i - 0xF1018)
  else 0xF1
where
  /-- Byte `k` of a little-endian number. -/
  byteOfNat (v k : Nat) : BitVec 8 := BitVec.ofNat 8 (v / 256 ^ k)

/-- What the command line selects, nativetest/src/main.c:176-251 (for `-b` and the floppy image: the
contents of the file; a `-b` file that cannot be opened is a NULL `FILE*`). -/
inductive Media where
  | bios (file : Option (List (BitVec 8)))
  | floppy (file : List (BitVec 8))
  | none

/-- Result of the set-up: run the machine, `return code` from `main`, or undefined behaviour. -/
inductive Setup where
  | run (s : State)
  | ret (code : Int)
  | ub

/-- The state after nativetest/src/main.c:164-174: `RME_CreateState`, debug level, all 0x110 blocks
mapped onto `gaMemory`. -/
def newMachine (ga : Nat) (mem host : Nat → BitVec 8) (dbg : Int) : State :=
  { createState (fun a => if ga ≤ a ∧ a < ga + MEMSZ then mem (a - ga) else host a)
      (fun a => decide (ga ≤ a ∧ a < ga + MEMSZ)) with
    debugLevel := dbg
    map := fun b => if b < 0x110 then some (ga + b * 0x1000) else none }

/-- Lines 254-271: CPU type, stack pointer, and the word FFFFh at 9FFFEh. -/
def finishSetup (ga : Nat) (cpu : CPUType) (s : State) : State :=
  let s := { s with cpuType := cpu }.setReg 16 rSP 0xFFFE
  { s with host := fun a => if ga + 0x9FFFE ≤ a ∧ a < ga + 0xA0000 then 0xFF else s.host a }

/-- `main` from line 105 to line 271 without the DOS executable case (Model/DosExe.lean);
`ga`, `host`: where `gaMemory` is and what the rest of host memory holds. -/
def setup (ga : Nat) (host : Nat → BitVec 8) (dbg : Int) (cpu : CPUType) (m : Media) : Setup :=
  match m with
  | .bios Option.none => .ub
  | .bios (some file) =>
    if file.length % 16 ≠ 0 then .ret (-1)
    else
      let base := 0x100000 - file.length
      let mem := fun i => if i < 0x400 then 0 else biosMem i
      let mem := fun i => if file.length ≤ 0x10000 ∧ base ≤ i ∧ i < 0x100000 then file.getD (i - base) 0 else mem i
      let s := newMachine ga mem host dbg
      .run (finishSetup ga cpu { s.setSreg .cs 0xF000 with ip := 0xFFF0 })
  | .floppy file =>
    if file.length < 512 then .ret 0
    else if ¬ (file.getD 510 0 = 0x55 ∧ file.getD 511 0 = 0xAA) then .ret 0
    else
      let mem := fun i => if 0x7C00 ≤ i ∧ i < 0x7E00 then file.getD (i - 0x7C00) 0 else biosMem i
      let s := newMachine ga mem host dbg
      .run (finishSetup ga cpu ({ s.setSreg .cs 0x07C0 with ip := 0 }.setReg 16 rDX 0))
  | .none => .run (finishSetup ga cpu (newMachine ga biosMem host dbg))

/-- Exit status for the code that ended the main loop, nativetest/src/main.c:334-378 (without GUI). -/
def exitStatus : Err → Nat
  | .breakpoint => 0
  | .halt => 0
  | _ => 1

end RME.Native
