import Verif.Props.Memory
import Verif.Props.Flags
import Verif.Props.Global
set_option autoImplicit false
/-
C84: a machine made by `RME_CreateState` is one just out of reset, and the first instruction is taken from the reset vector.
-/
namespace RME
open RME

/-- A machine just out of reset: all registers 0 except CS:IP = F000:FFF0 and FLAGS = 0002h (bit 1 always reads 1), an 8086, no memory, nothing executed. -/
structure JustReset (s : State) : Prop where
  gpr : ∀ r, s.gpr r = 0
  cs : s.sreg .cs = 0xF000
  seg : ∀ r, r ≠ .cs → s.sreg r = 0
  ip : s.ip = 0xFFF0
  flags : s.flags = 0x0002
  cpu : s.cpuType = .i8086
  noMemory : ∀ b, s.map b = none
  count : s.instrNum = 0
  io : s.io = []
  lastNull : s.lastNull = false

/-- C84: `RME_CreateState` makes such a machine and leaves host memory alone. -/
theorem C84_created (host : Nat → BitVec 8) (valid : Nat → Bool) :
    JustReset (createState host valid) ∧ (createState host valid).host = host ∧ (createState host valid).valid = valid := by
  refine ⟨⟨fun r => rfl, rfl, fun r h => if_neg h, rfl, rfl, rfl, fun b => rfl, rfl, rfl, rfl⟩, rfl, rfl⟩

/-- C84: once a host block `h` is registered for FF000–FFFFF (whatever else is registered) the first instruction is the one at `h + FF0h`: the bytes there,
up to the end of the block, are the instruction bytes at CS:IP. -/
theorem C84_reset_vector {s : State} (hs : JustReset s) {m : Nat → Option Nat} {h : Nat} (hm : m 0xFF = some h) (hv : ∀ i < 16, s.valid (h + 0xFF0 + i) = true)
    (code : List (BitVec 8)) (hl : code.length ≤ 16) (hc : ∀ i (hi : i < code.length), s.host (h + 0xFF0 + i) = code[i]) {p : Pfx} {pfx rest : List (BitVec 8)}
    (hcode : code = pfx ++ rest) (hp : Pfx.parse {} pfx = some p) :
    At { s with map := m } (h + 0xFF0) p rest code.length := by
  refine ⟨⟨?_, ?_, ?_⟩, pfx, hp, ?_, by rw [hcode, List.length_append]⟩
  · show ¬ (s.ip = 0xFFFF ∧ s.sreg .cs = 0xFFFF)
    rw [hs.ip]; rintro ⟨h, -⟩; exact absurd h (by decide)
  · show ¬ (s.sreg .cs = 0xB800 ∧ _)
    rw [hs.cs]; rintro ⟨h, -⟩; exact absurd h (by decide)
  · show s.instrNum ≠ _
    rw [hs.count]; decide
  · rw [← hcode]
    intro i hi
    refine ⟨?_, hv i (by omega), hc i hi⟩
    show hostAddr { s with map := m } (s.sreg .cs) (s.ip + BitVec.ofNat 16 i) = _
    have e : linear (s.sreg .cs) (s.ip + BitVec.ofNat 16 i) = 0xFFFF0 + i := by
      rw [hs.cs, hs.ip, linear, BitVec.toNat_add, BitVec.toNat_ofNat, show (0xF000 : BitVec 16).toNat = 0xF000 from rfl,
        show (0xFFF0 : BitVec 16).toNat = 0xFFF0 from rfl]
      omega
    rw [hostAddr, e, show (0xFFFF0 + i) / 4096 = 0xFF by omega, show (0xFFFF0 + i) % 4096 = 0xFF0 + i by omega]
    show (m 0xFF).map _ = _
    rw [hm]
    show some (h + (0xFF0 + i)) = _
    rw [Nat.add_assoc]

/-- C84: what an instruction does never depends on what earlier instructions left in the decoder (prefixes seen, instruction length, …): the whole
result is the same. -/
theorem C84_no_history {s : State} (hr : Ready s) (env : Env) (d : Decoder) : runOne env { s with dec := d } = runOne env s := by
  have hr' : Ready { s with dec := d } := ⟨hr.notMagic, hr.notHle, hr.counter⟩
  rw [runOne_ready hr, runOne_ready hr']
  have : doOpcode env { s with dec := d } = doOpcode env s := by
    simp only [doOpcode, bind_apply, getIP_apply, getSreg_apply, resbind_ok, startInstr, INT_MAX]
  rw [this]

/-- HLT at the reset vector of a new machine with a 4 KiB ROM at host address 5000h: the conditions hold and the machine halts. -/
example (env : Env) : let host := fun a : Nat => if a = 0x5FF0 then (0xF4 : BitVec 8) else 0
    ∃ d, runOne env { createState host (fun a => decide (0x5000 ≤ a ∧ a < 0x6000)) with map := fun b => if b = 0xFF then some 0x5000 else none } =
      .err .halt { createState host (fun a => decide (0x5000 ≤ a ∧ a < 0x6000)) with
        map := fun b => if b = 0xFF then some 0x5000 else none, instrNum := 1, dec := d } := by
  intro host
  have h := C84_reset_vector (C84_created host (fun a => decide (0x5000 ≤ a ∧ a < 0x6000))).1 (m := fun b => if b = 0xFF then some 0x5000 else none)
    (h := 0x5000) rfl (fun i hi => by show decide _ = true; rw [decide_eq_true_iff]; omega) [0xF4] (by decide)
    (fun i hi => by have : i = 0 := by simp at hi; exact hi
                    subst this; rfl) (pfx := []) (rest := [0xF4]) rfl rfl
  exact C55_hlt h env

/-- A state to which C84_no_history applies, with a decoder left over from a prefixed instruction. -/
example : Ready (createState (fun _ => 0) (fun _ => false)) ∧ (createState (fun _ => 0) (fun _ => false)).dec ≠ decReset := by
  refine ⟨⟨?_, ?_, ?_⟩, ?_⟩
  · rintro ⟨h, -⟩; exact absurd h (by decide)
  · rintro ⟨h, -⟩; exact absurd h (by decide)
  · decide
  · decide

end RME
