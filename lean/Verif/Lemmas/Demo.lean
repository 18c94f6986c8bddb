import Verif.Lemmas.Decode
set_option autoImplicit false
/-
A family of concrete states used by the `example`s that show hypotheses to be satisfiable: all 272
blocks mapped one after the other, code at 1000:0100.
-/
namespace RME

/-- Fully mapped machine with `code` at 1000:0100, SS:SP = 2000:1000, DS = 3000, ES = 4000. -/
def demo (code : List (BitVec 8)) : State :=
  { gpr := fun r => if r = rAX then 0x11220055 else if r = rCX then 3 else if r = rDX then 0x33
                    else if r = rBX then 0x10 else if r = rSP then 0x1000 else if r = rBP then 0x800
                    else if r = rSI then 0x200 else 0x300
    sreg := fun r => match r with
      | .cs => 0x1000 | .ss => 0x2000 | .ds => 0x3000 | .es => 0x4000 | .fs => 0x5000 | .gs => 0x6000
    ip := 0x100
    flags := 2
    cpuType := .i8086
    debugLevel := 0
    map := fun b => if b < 272 then some (b * 4096) else none
    host := fun a => if 0x10100 ≤ a then code.getD (a - 0x10100) 0 else 0
    valid := fun a => a < 272 * 4096
    instrNum := 0
    lastNull := false
    dec := decReset
    io := [] }

/-- A default environment: no callbacks, every port reads 0. -/
def demoEnv : Env := { nullCheck := false, portIn := fun _ _ _ => 0, hle := fun _ => none }

theorem flat_hostAddr {s : State} (hm : s.map = fun b => if b < 272 then some (b * 4096) else none)
    (seg ofs : BitVec 16) : hostAddr s seg ofs = some (linear seg ofs) := by
  have := linear_lt seg ofs
  simp only [hostAddr, hm]
  rw [if_pos (by omega)]
  simp only [Option.map_some, Option.some.injEq]
  omega

theorem demo_hostAddr (code : List (BitVec 8)) (seg ofs : BitVec 16) :
    hostAddr (demo code) seg ofs = some (linear seg ofs) := flat_hostAddr rfl seg ofs

theorem demo_mapped (code : List (BitVec 8)) (n : Nat) (seg ofs : BitVec 16) (hn : n ≤ 32) :
    Mapped (demo code) n seg ofs (linear seg ofs) := by
  have := linear_lt seg ofs
  refine ⟨demo_hostAddr code seg ofs, fun i hi => ?_⟩
  simp only [demo]
  exact decide_eq_true (by omega)

theorem demo_code (code : List (BitVec 8)) (h : code.length ≤ 0x1000) :
    CodeAt (demo code) 0x10100 code := by
  intro i hi
  refine ⟨?_, ?_, ?_⟩
  · rw [demo_hostAddr]
    have : ((demo code).ip + BitVec.ofNat 16 i).toNat = 0x100 + i := by
      simp [demo]; omega
    simp only [linear, this]
    simp [demo]; omega
  · simp only [demo]; exact decide_eq_true (by omega)
  · simp [demo, hi]

theorem demo_ready (code : List (BitVec 8)) : Ready (demo code) :=
  ⟨by simp [demo], by simp [demo], by simp [demo]⟩

/-- Concrete memory facts can be evaluated. -/
instance {n : Nat} (s : State) (h : Nat) (v : BitVec n) : Decidable (HostHolds s h v) :=
  inferInstanceAs (Decidable (∀ i, i < n / 8 → s.host (h + i) = byteOf v i))
instance (s : State) (n : Nat) (seg ofs : BitVec 16) (h : Nat) : Decidable (Mapped s n seg ofs h) :=
  inferInstanceAs (Decidable (_ ∧ ∀ i, i < n / 8 → _))

end RME
