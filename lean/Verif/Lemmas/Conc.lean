import Verif.Lemmas.Demo
set_option autoImplicit false
/-
Evaluating concrete runs in the kernel, for the `example`s and witnesses.
-/
namespace RME

/-- Did the step succeed? -/
def resOk {α : Type} : Res α → Bool
  | .ok _ _ => true
  | _ => false
/-- State left by a step (`s` if there is none). -/
def stOf {α : Type} (s : State) : Res α → State
  | .ok _ t => t
  | .err _ t => t
  | .ub _ => s
/-- State after one `RME_RunOne`. -/
def nx (env : Env) (s : State) : State := stOf s (runOne env s)

theorem conc_ok {env : Env} {s : State} (h : resOk (runOne env s) = true) : runOne env s = .ok () (nx env s) := by
  unfold nx
  cases hr : runOne env s with
  | ok a t => rfl
  | err e t => rw [hr] at h; cases h
  | ub u => rw [hr] at h; cases h

/-- Error code of a step. -/
def resErr {α : Type} : Res α → Option Err
  | .err e _ => some e
  | _ => none
theorem conc_err {env : Env} {s : State} {e : Err} (h : resErr (runOne env s) = some e) : runOne env s = .err e (nx env s) := by
  unfold nx
  cases hr : runOne env s with
  | ok a t => rw [hr] at h; cases h
  | err e' t => rw [hr] at h; cases h; rfl
  | ub u => rw [hr] at h; cases h

/-- Undefined behaviour of a step. -/
def resUB {α : Type} : Res α → Option UB
  | .ub u => some u
  | _ => none
theorem conc_ub {env : Env} {s : State} {u : UB} (h : resUB (runOne env s) = some u) : runOne env s = .ub u := by
  cases hr : runOne env s with
  | ok a t => rw [hr] at h; cases h
  | err e' t => rw [hr] at h; cases h
  | ub u' => rw [hr] at h; cases h; rfl

instance (s : State) : Decidable (Ready s) :=
  decidable_of_iff (¬ (s.ip = 0xFFFF ∧ s.sreg .cs = 0xFFFF) ∧ ¬ (s.sreg .cs = 0xB800 ∧ s.ip.toNat < 0x100) ∧ s.instrNum ≠ 2147483647)
    ⟨fun h => ⟨h.1, h.2.1, h.2.2⟩, fun h => ⟨h.1, h.2, h.3⟩⟩

end RME
