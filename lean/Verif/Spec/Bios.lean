import Verif.Model.Bios
import Verif.Spec.Call
set_option autoImplicit false
/-
Independent vocabulary for the native tester's BIOS services.
-/
namespace RME.Native
open RME

/-- The machine's memory is `gaMemory`: block b of the guest lies at `ga + b * 4096`, all of it allocated. -/
def OnGa (w : World) (s : State) : Prop := Flat s w.ga

/-- Byte `i` of guest memory. -/
def guest (w : World) (s : State) (i : Nat) : BitVec 8 := s.host (w.ga + i)

/-- All a BIOS service may change in the machine: AX, CX, DX, BX, DI (not the upper halves of EAX …), ES, the
flags CF and ZF, and guest memory. -/
structure ServiceFrame (w : World) (s t : State) : Prop where
  mem : ∀ a, (a < w.ga ∨ w.ga + 0x110000 ≤ a) → t.host a = s.host a
  sp : t.gpr 4 = s.gpr 4
  bp : t.gpr 5 = s.gpr 5
  si : t.gpr 6 = s.gpr 6
  high : ∀ r i, 16 ≤ i → (t.gpr r).getLsbD i = (s.gpr r).getLsbD i
  seg : ∀ r, r ≠ .es → t.sreg r = s.sreg r
  ip : t.ip = s.ip
  flags : ∀ i, i ≠ 0 → i ≠ 6 → t.flags.getLsbD i = s.flags.getLsbD i
  map : t.map = s.map
  valid : t.valid = s.valid
  cpu : t.cpuType = s.cpuType
  dbg : t.debugLevel = s.debugLevel
  num : t.instrNum = s.instrNum
  null : t.lastNull = s.lastNull
  dec : t.dec = s.dec
  io : t.io = s.io

/-- AX := AH:AL (the upper half of EAX is kept). -/
def withAX (s : State) (ah al : BitVec 8) : State := s.setReg 16 0 (ah ++ al)

/-- CF := `c`, the other flags unchanged. -/
def withCF (s : State) (c : Bool) : State := { s with flags := (s.flags &&& 0xFFFE) ||| (if c then 1 else 0) }

/-- ZF := `z`, the other flags unchanged. -/
def withZF (s : State) (z : Bool) : State := { s with flags := (s.flags &&& 0xFFBF) ||| (if z then 0x40 else 0) }

/-- The bytes `l` stored in guest memory from guest address `dst` on; every other host byte unchanged. -/
def withBytes (w : World) (s : State) (dst : Nat) (l : List (BitVec 8)) : State :=
  { s with host := fun a => if w.ga + dst ≤ a ∧ a < w.ga + dst + l.length then l.getD (a - (w.ga + dst)) 0 else s.host a }

/-- INT 13h AH=02h with these arguments: drive DL, cylinder CH + 256 * (CL / 64), head DH, sector CL % 64, AL sectors to ES:BX. -/
structure ReadReq (s : State) (drive cyl head sect count buf : Nat) : Prop where
  ah : s.regH 8 0 = 2
  drive : (s.reg 8 2).toNat = drive
  cyl : (s.regH 8 1).toNat + 256 * ((s.reg 8 1).toNat / 64) = cyl
  head : (s.regH 8 2).toNat = head
  sect : (s.reg 8 1).toNat % 64 = sect
  count : (s.reg 8 0).toNat = count
  buf : 16 * (s.sreg .es).toNat + (s.reg 16 3).toNat = buf

/-- `k` sectors of an image from sector `lba` on (less at the end of the image). -/
def sectors (img : List (BitVec 8)) (lba k : Nat) : List (BitVec 8) := (img.drop (lba * 512)).take (k * 512)

/-- The little-endian word at guest address `i`. -/
def gword (w : World) (s : State) (i : Nat) : Nat := (guest w s i).toNat + 256 * (guest w s (i + 1)).toNat

/-- Guest address of DS:SI. -/
def packetAt (s : State) : Nat := 16 * (s.sreg .ds).toNat + (s.reg 16 6).toNat

/-- The address packet of INT 13h AH=42h at DS:SI: word 2 = number of sectors, words 4 and 6 = offset and segment of the buffer, quadword 8 =
first sector. -/
structure ExtReq (w : World) (s : State) (drive count buf lba : Nat) : Prop where
  ah : s.regH 8 0 = 0x42
  drive : (s.reg 8 2).toNat = drive
  count : gword w s (packetAt s + 2) = count
  buf : 16 * gword w s (packetAt s + 6) + gword w s (packetAt s + 4) = buf
  lba : gword w s (packetAt s + 8) + 65536 * gword w s (packetAt s + 10) + 65536 ^ 2 * gword w s (packetAt s + 12) +
    65536 ^ 3 * gword w s (packetAt s + 14) = lba

end RME.Native
