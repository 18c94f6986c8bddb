import Verif.Spec.Run
set_option autoImplicit false
/-
Independent vocabulary for comparing two runs: what two machines must have in common.
-/
namespace RME

/-- `t` is the machine `s` with its guest memory somewhere else in host memory: registers, decoder
scratch and port history are the same; block `b` lies at `ρ h` instead of `h`; the bytes of the region
`P` (which contains every registered block and the three bytes behind it, which a word or doubleword
access at the end of a block touches) are copied along.  Nothing is said about any other host byte, nor
about debug level, CPU type, instruction counter and runaway detector. -/
structure Moved (P : Nat → Prop) (ρ : Nat → Nat) (s t : State) : Prop where
  gpr : t.gpr = s.gpr
  sreg : t.sreg = s.sreg
  ip : t.ip = s.ip
  flags : t.flags = s.flags
  dec : t.dec = s.dec
  io : t.io = s.io
  unmapped : ∀ b < 272, s.map b = none → t.map b = none
  mapped : ∀ b < 272, ∀ h, s.map b = some h → t.map b = some (ρ h) ∧ ∀ k < 4099, P (h + k) ∧ ρ (h + k) = ρ h + k
  host : ∀ a, P a → t.host (ρ a) = s.host a
  valid : ∀ a, P a → t.valid (ρ a) = s.valid a

/-- No two bytes of the region are moved to the same place. -/
def InjOn (P : Nat → Prop) (ρ : Nat → Nat) : Prop := ∀ a b, P a → P b → ρ a = ρ b → a = b

/-- CPU type, debug level, runaway detector, instruction counter. -/
structure Settings where
  cpuType : CPUType
  debugLevel : Int
  lastNull : Bool
  instrNum : Int

/-- The settings of a machine. -/
def State.settings (s : State) : Settings := ⟨s.cpuType, s.debugLevel, s.lastNull, s.instrNum⟩

/-- Two outcomes correspond: the same return code (or the same undefined behaviour), and related states. -/
def SameOutcome (R : State → State → Prop) : Res Unit → Res Unit → Prop
  | .ok _ s, .ok _ t => R s t
  | .err e s, .err e' t => e = e' ∧ R s t
  | .ub u, .ub u' => u = u'
  | _, _ => False

/-- Two hosts: same build, same answers of the port functions, callbacks registered for the same
interrupt numbers and respecting the relation `R`. -/
structure SameHost (R : State → State → Prop) (e₁ e₂ : Env) : Prop where
  nullCheck : e₂.nullCheck = e₁.nullCheck
  portIn : e₂.portIn = e₁.portIn
  hleNone : ∀ n, e₁.hle n = none → e₂.hle n = none
  hle : ∀ n f, e₁.hle n = some f → ∃ g, e₂.hle n = some g ∧ ∀ s t, R s t → R (f s) (g t)

end RME
