set_option autoImplicit false
/-
Model of parts of the native tester: screen output and disk geometry, nativetest/src/main.c.
-/
namespace RME.Native

/-- `VIDEO_COLS`, `VIDEO_ROWS`, nativetest/src/main.c:23-24. -/
abbrev COLS : Int := 80
abbrev ROWS : Int := 25

/-- `giCursorX`, `giCursorY` and `gaMemory`, nativetest/src/main.c:63,88.  `oob` records that an index
outside 0 … 0x10FFFF was used (undefined behaviour). -/
structure Screen where
  x : Int
  y : Int
  mem : Int → BitVec 8
  oob : Bool

/-- `gaMemory[a] = v;` -/
def Screen.poke (s : Screen) (a : Int) (v : BitVec 8) : Screen :=
  { s with mem := fun i => if i = a then v else s.mem i
           oob := s.oob || decide (a < 0 ∨ 0x110000 ≤ a) }

/-- `PutChar`, nativetest/src/main.c:594-625 (`Video_ScrollUp` is empty, line 563-566). -/
def putChar (s : Screen) (ch attrib : BitVec 8) : Screen :=
  if ch = 10 then
    let y := s.y + 1
    { s with y := if y = 25 then 0 else y }
  else if ch = 13 then { s with x := 0 }
  else if ch = 8 then { s with x := if s.x > 0 then s.x - 1 else s.x }
  else
    let s := s.poke (0xB8000 + (s.y * COLS + s.x) * 2 + 0) ch
    let s := s.poke (0xB8000 + (s.y * COLS + s.x) * 2 + 1) attrib
    let x := s.x + 1
    if x = COLS then
      let y := s.y + 1
      { s with x := 0, y := if y = ROWS then y - 1 else y }
    else { s with x := x }

/-- `PutString`, nativetest/src/main.c:627-632 (without the redraw). -/
def putString (s : Screen) (str : List (BitVec 8)) (attrib : BitVec 8) : Screen :=
  str.foldl (fun s c => putChar s c attrib) s

/-- `HLECall10` AH=0x02 (set cursor position), nativetest/src/main.c:736-739. -/
def setCursor (s : Screen) (dl dh : BitVec 8) : Screen := { s with x := dl.toNat, y := dh.toNat }

/-- The `for` loop of `HLECall10` AH=0x09 (write character and attribute), `count` rounds left,
nativetest/src/main.c:777-786. -/
def writeChars (ch attr : BitVec 8) : Nat → Screen → Screen
  | 0, s => s
  | k + 1, s =>
    let s := s.poke (0xB8000 + (s.y * 80 + s.x) * 2 + 0) ch
    let s := s.poke (0xB8000 + (s.y * 80 + s.x) * 2 + 1) attr
    let x := s.x + 1
    if x = ROWS then { s with x := x - 1 }
    else writeChars ch attr k { s with x := x }

/-- `GetDiskParams`: (cylinders, heads, sectors per track), nativetest/src/main.c:636-648. -/
def getDiskParams (disk : Int) : Option (Int × Int × Int) :=
  if disk = 0 then some (80, 2, 18) else none

/-- `ReadDiskCHS` up to the call of `ReadDiskLBA`: `none` = return -1, otherwise the LBA address,
nativetest/src/main.c:680-713. -/
def readDiskCHS (disk cyl head sector : Int) : Option Int :=
  match getDiskParams disk with
  | none => none
  | some (nCyl, nHead, spt) =>
    if cyl ≥ nCyl then none
    else if head ≥ nHead then none
    else if sector > spt then none
    else some (cyl * nHead * spt + head * spt + sector - 1)

/-- CHS arguments of INT 13h AH=02h from CX, DH, DL: (disk, cylinder, head, sector),
nativetest/src/main.c:869-872. -/
def int13Args (cx : BitVec 16) (dh dl : BitVec 8) : Int × Int × Int × Int :=
  let cl : BitVec 8 := cx.setWidth 8
  let ch : BitVec 8 := (cx >>> 8).setWidth 8
  ((dl.toNat : Int), ((ch.toNat ||| ((cl.toNat &&& 0xC0) <<< 2) : Nat) : Int), (dh.toNat : Int),
    ((cl.toNat &&& 0x3F : Nat) : Int))

/-- `LoadDosExe`: `dataStart` and `dataSize` computed from the header,
nativetest/src/dosexe.c:44-45 (C `%` on a possibly negative `int`). -/
def dosExeData (headerParagraphs blocksInFile bytesInLast : BitVec 16) : Int × Int :=
  let dataStart : Int := headerParagraphs.toNat * 16
  (dataStart, blocksInFile.toNat * 512 - ((512 : Int) - bytesInLast.toNat).tmod 512 - dataStart)

end RME.Native
