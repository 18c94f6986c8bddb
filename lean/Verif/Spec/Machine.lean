import Verif.Model.Rme
set_option autoImplicit false
/-
Independent vocabulary for the property statements: real-mode addresses, values in guest memory,
instruction bytes at CS:IP, prefix bytes.  Nothing here refers to the decoder or to the monad of the
model; only to the fields of `State`.
-/
namespace RME

/-- Real-mode linear address of `seg:ofs`. -/
def linear (seg ofs : BitVec 16) : Nat := seg.toNat * 16 + ofs.toNat

/-- Host address of the guest byte `seg:ofs`: offset (linear mod 4096) of the host block registered
for (linear div 4096). -/
def hostAddr (s : State) (seg ofs : BitVec 16) : Option Nat :=
  (s.map (linear seg ofs / 4096)).map (· + linear seg ofs % 4096)

/-- Byte `i` (little endian) of an `n`-bit value. -/
def byteOf {n : Nat} (v : BitVec n) (i : Nat) : BitVec 8 := (v >>> (8 * i)).setWidth 8

/-- `seg:ofs` is mapped and the `n/8` host bytes from there are allocated. -/
def Mapped (s : State) (n : Nat) (seg ofs : BitVec 16) (h : Nat) : Prop :=
  hostAddr s seg ofs = some h ∧ ∀ i < n / 8, s.valid (h + i) = true

/-- The `n/8` host bytes at `h` hold the little-endian value `v`. -/
def HostHolds {n : Nat} (s : State) (h : Nat) (v : BitVec n) : Prop :=
  ∀ i < n / 8, s.host (h + i) = byteOf v i

/-- Guest memory at `seg:ofs` holds the `n`-bit little-endian value `v`. -/
def Holds {n : Nat} (s : State) (seg ofs : BitVec 16) (v : BitVec n) : Prop :=
  ∃ h, Mapped s n seg ofs h ∧ HostHolds s h v

/-- Host memory with the `n/8` bytes at `h` replaced by `v` and nothing else changed. -/
def putHost {n : Nat} (host : Nat → BitVec 8) (h : Nat) (v : BitVec n) : Nat → BitVec 8 :=
  fun a => if h ≤ a ∧ a < h + n / 8 then byteOf v (a - h) else host a

/-- The bytes `bytes` are at CS:IP: every one is mapped (offsets modulo 2^16) and allocated, and they
are consecutive in host memory starting at `h0`. -/
def CodeAt (s : State) (h0 : Nat) (bytes : List (BitVec 8)) : Prop :=
  ∀ i, (hi : i < bytes.length) →
    hostAddr s (s.sreg .cs) (s.ip + BitVec.ofNat 16 i) = some (h0 + i) ∧
    s.valid (h0 + i) = true ∧ s.host (h0 + i) = bytes[i]

/-- The byte `b` is at CS:IP+`k` (offset modulo 2^16), mapped and allocated. -/
def ByteAt (s : State) (k : Nat) (b : BitVec 8) : Prop :=
  ∃ h, hostAddr s (s.sreg .cs) (s.ip + BitVec.ofNat 16 k) = some h ∧ s.valid h = true ∧ s.host h = b

/-- The bytes `bytes` are at CS:IP, each at its own guest address (host blocks may be anywhere). -/
def BytesAt (s : State) (bytes : List (BitVec 8)) : Prop :=
  ∀ i, (hi : i < bytes.length) → ByteAt s i bytes[i]

/-- The instruction at CS:IP is executed by the decoder: CS:IP is neither the magic return address
FFFF:FFFF nor an HLE trampoline B800:00nn, and the instruction counter has not reached INT_MAX. -/
structure Ready (s : State) : Prop where
  notMagic : ¬ (s.ip = 0xFFFF ∧ s.sreg .cs = 0xFFFF)
  notHle : ¬ (s.sreg .cs = 0xB800 ∧ s.ip.toNat < 0x100)
  counter : s.instrNum ≠ 2147483647

/-- What a sequence of prefix bytes asks for. -/
structure Pfx where
  seg : Option SReg := none
  rep : Rep := .none
  oper : Bool := false
  addr : Bool := false
  deriving DecidableEq, Repr

/-- Meaning of one prefix byte: 26 2E 36 3E 64 65 (segment), 66, 67, F2, F3.  `none`: not a prefix,
or a prefix kind that was already there. -/
def Pfx.add (p : Pfx) (b : BitVec 8) : Option Pfx :=
  let seg (r : SReg) : Option Pfx := if p.seg = none then some { p with seg := some r } else none
  if b = 0x26 then seg .es else if b = 0x2E then seg .cs else if b = 0x36 then seg .ss
  else if b = 0x3E then seg .ds else if b = 0x64 then seg .fs else if b = 0x65 then seg .gs
  else if b = 0x66 then (if p.oper = false then some { p with oper := true } else none)
  else if b = 0x67 then (if p.addr = false then some { p with addr := true } else none)
  else if b = 0xF2 then (if p.rep = .none then some { p with rep := .repnz } else none)
  else if b = 0xF3 then (if p.rep = .none then some { p with rep := .rep } else none)
  else none

/-- Meaning of a list of prefix bytes (each kind at most once, any order). -/
def Pfx.parse : Pfx → List (BitVec 8) → Option Pfx
  | p, [] => some p
  | p, b :: bs => (p.add b).bind (fun p' => p'.parse bs)

/-- The ten prefix bytes. -/
def isPrefixByte (b : BitVec 8) : Bool :=
  b == 0x26 || b == 0x2E || b == 0x36 || b == 0x3E || b == 0x64 || b == 0x65 || b == 0x66 ||
  b == 0x67 || b == 0xF2 || b == 0xF3

/-- Little-endian 16-bit value of two bytes. -/
def le16 (lo hi : BitVec 8) : BitVec 16 := hi ++ lo

/-- State of the machine a user can observe, without scratch data: `s` and `t` agree on registers,
segments, IP, flags, CPU type, debug level, memory map, memory, instruction counter and port trace
(everything except the decoder scratch area and the runaway detector). -/
def Same (s t : State) : Prop :=
  ∃ d l, t = { s with dec := d, lastNull := l }

/-- One successful `RME_RunOne` from `s` ends in a state that agrees with `t`, and the runaway
detector is off afterwards. -/
def StepsTo (env : Env) (s t : State) : Prop :=
  ∃ d, runOne env s = .ok () { t with dec := d, lastNull := false }

end RME
