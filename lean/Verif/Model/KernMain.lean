import Verif.Model.Testkern
import Verif.Model.Rme
set_option autoImplicit false
/-
Model of `main` of the test kernel, testkern/main.c:17-180: the machine it builds over physical memory, the call of INT 10h, the message.
Not modelled: the text printed and the final halt loop; the parts under `#if 0`.
-/
namespace RME.Testkern
open RME

/-- The environment of the kernel: port functions are real port accesses; no HLE callback; null check as built. -/
def kernEnv (pin : List IOEv → Nat → BitVec 16 → BitVec 32) : Env where
  nullCheck := false
  portIn := pin
  hle := fun _ => none

/-- `emu->Memory[b]` after testkern/main.c:33-35: block 0 is the copy, blocks 1-255 are physical memory, the others stay NULL. -/
def kernMap (low : Nat) (b : Nat) : Option Nat :=
  if b = 0 then some low else if b < 0x100000 / 0x1000 then some (b * 0x1000) else none

/-- The machine `main` builds, testkern/main.c:19-41.  `mem`: physical memory when `main` starts; `kend`: `&gKernelEnd`; `sz`: `sizeof(tRME_State)`
(`RME_CreateState` allocates it with `calloc(sizeof(tRME_State), 1)`, src/rme.c:53).  The emulator's own registers live in the modelled state, not in
that block.  Host memory it may touch: physical 1000h–FFFFFh and the copy of page 0 (`valid`; any other host byte is outside what the table was given, so that
touching it counts as undefined). -/
def kernSetup (mem : BitVec 32 → BitVec 8) (kend sz : BitVec 32) : State :=
  let c := calloc kend mem sz 1
  let m := malloc c.2.1 0x1000
  let mem' := (memcpy c.2.2 m.1 0 0x1000).2
  State.setReg
    { createState (fun a => mem' (BitVec.ofNat 32 a)) (fun a => decide ((0x1000 ≤ a ∧ a < 0x100000) ∨ (m.1.toNat ≤ a ∧ a < m.1.toNat + 0x1000))) with
      map := kernMap m.1.toNat } 16 rAX 0x0011

/-- The message for the code `RME_CallInt` returned, testkern/main.c:152-176. -/
inductive KernMsg where
  | success (ax : BitVec 16)
  | inval | badmem | undefOpcode | divErr
  | unknown (code : Nat)
  deriving DecidableEq

/-- The `switch`, testkern/main.c:152-176 (`none`: undefined behaviour). -/
def kernMsg : Res Unit → Option KernMsg
  | .ok () s => some (.success (s.reg 16 rAX))
  | .err .inval _ => some .inval
  | .err .badmem _ => some .badmem
  | .err .undefOpcode _ => some .undefOpcode
  | .err .divErr _ => some .divErr
  | .err e _ => some (.unknown e.code)
  | .ub _ => none

/-- `main` as a whole: result of the call after at most `fuel` instructions (`none`: still running). -/
def kernMain (mem : BitVec 32 → BitVec 8) (kend sz : BitVec 32) (pin : List IOEv → Nat → BitVec 16 → BitVec 32) (fuel : Nat) : Option (Res Unit) :=
  rmeCallInt (kernEnv pin) fuel 0x10 (kernSetup mem kend sz)

end RME.Testkern
