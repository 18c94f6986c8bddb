import Verif.Lemmas.Step
import Verif.Spec.Run
set_option autoImplicit false
/-
The logic of `Kp` applied to one instruction, knowing which opcode function is called.
-/
set_option linter.unusedSectionVars false
namespace RME

section
variable (env : Env)
local instance : (capErr env (· ≠ .divErr)).Base := {
    dec := (by intros; trivial), setDec := (by intros; trivial), ofs := (by intros; trivial), rep := (by intros; trivial),
    fl := (by intros; trivial), ptr := (by intros; trivial), lreg := (by intros; trivial), lregH := (by intros; trivial),
    bad := fun _ _ _ h h2 => (by rw [h2] at h; cases h), w8 := Or.inl rfl, w16 := Or.inr (Or.inl rfl), w32 := fun _ _ _ => Or.inr (Or.inr rfl), wle := fun _ h => h,
    ubNull := (by intros; trivial), ubHost := (by intros; trivial), ubUninit := (by intros; trivial) }
local instance : (capErr env (· ≠ .divErr)).Rg := { setReg := (by intros; trivial), setRegH := (by intros; trivial), setGpr := (by intros; trivial) }
local instance : (capErr env (· ≠ .divErr)).Mm := { store := (by intros; trivial) }
local instance : (capErr env (· ≠ .divErr)).AFl := { arith := (by intros; trivial), setF := (by intros; trivial) }
local instance : (capErr env (· ≠ .divErr)).SFl := { any := (by intros; trivial) }
local instance : (capErr env (· ≠ .divErr)).Ip := { ip := (by intros; trivial), dci := (by intros; trivial) }
local instance : (capErr env (· ≠ .divErr)).Sg := { setS := (by intros; trivial) }
local instance : (capErr env (· ≠ .divErr)).Io := { io := (by intros; trivial) }
local instance : (capErr env (· ≠ .divErr)).Hle := { hle := (by intros; trivial) }
local instance : (capErr env (· ≠ .divErr)).Mr := { oob := trivial, ptrM := (by intros; trivial) }
local instance : (capErr env (· ≠ .divErr)).Ov := ⟨trivial⟩
local instance : (capErr env (· ≠ .divErr)).Sh := ⟨trivial⟩
local instance : (capErr env (· ≠ .divErr)).Ns := ⟨trivial⟩
local instance : (capErr env (· ≠ .divErr)).Fu := ⟨trivial⟩
local instance : (capErr env (· ≠ .divErr)).Hi := { hi := (by intros; trivial), memX := (by intros; trivial) }

/-- Only DIV, IDIV and AAM return DIVERR. -/
theorem opFn_div {o : Op} {p} (ho : o.isPrefix = false) {s t} (h : opFn o p env s = .err .divErr t) : o.isDiv p = true := by
  cases hd : o.isDiv p
  · have hdv : o.isDiv p = true → (capErr env (· ≠ .divErr)).Dv := fun h => absurd (hd.symm.trans h) (by decide)
    have := Kp.opFn_gen (c := capErr env (· ≠ .divErr)) o p
      { sg := fun _ _ => trivial, dv := hdv, halt := fun _ _ _ h => (by cases h) } ho s trivial
    rw [show (capErr env (· ≠ .divErr)).env = env from rfl, h] at this
    exact absurd rfl this
  · rfl
end

/-- Result of a run with respect to a `Cap`. -/
def Cap.Res (c : Cap) : RME.Res Unit → Prop
  | .ok _ t => c.I t
  | .err e t => c.J e t
  | .ub u => c.U u

theorem Kp.callInt0 {c : Cap} [c.Base] [c.Rg] [c.Mm] [c.AFl] [c.SFl] [c.Ip] [c.Sg] (h : c.VS .cs) : Kpt c (RME.callIntInternal 0) := by
  unfold RME.callIntInternal
  refine Kp.bind (V := fun _ => True) (fun s hs => ⟨hs, trivial⟩) fun _ _ => Kp.bind (Kp.pushM Kp.getFlagsV) fun _ _ => Kp.bind (Kp.pushM (Kp.getSregT _)) fun _ _ =>
    Kp.bind (Kp.pushM Kp.getIPT) fun _ _ => Kp.bind Kp.getFlagsV fun _ _ => Kp.bind Kp.setFlagsAny fun _ _ => ?_
  exact Kp.bind (Kp.readMem _ _ (by decide)) fun _ _ => Kp.bind Kp.setIP fun _ _ => Kp.bind (Kp.readMem _ _ (by decide)) fun _ _ =>
      Kp.setSreg h

/-- One ordinary instruction: it is enough to know the opcode function for the instruction at CS:IP,
the delivery of a divide error, and the tail. -/
theorem ready_kp {c : Cap} {s : State} (hr : Ready s)
    (hJ : ∀ p k e, (e = .badmem ∨ e = .undefOpcode ∨ e = .breakpoint) → c.J e (opState s p k))
    (hU : ∀ u k, (u = .nullBlock ∨ u = .hostInvalid ∨ u = .uninit) → (∀ b, ¬ ByteAt s k b) → c.U u)
    (hop : ∀ p k o a, Dec s p k o a → o.isPrefix = false →
      match opFn o a c.env (opState s p k) with
      | .ok _ t => c.Res (finishInstr (s.sreg .cs) s.ip c.env t)
      | .err e t => if e = .divErr then (o.isDiv a = true → c.Res (callIntInternal 0 c.env t)) else c.J e t
      | .ub u => c.U u) :
    c.Res (runOne c.env s) := by
  obtain ⟨r, hs, h⟩ := runOne_shape hr c.env
  rw [h]
  cases hs with
  | ub hu hb => exact hU _ _ hu hb
  | badmem => exact hJ _ _ _ (by simp)
  | brk => exact hJ _ _ _ (by simp)
  | undef => exact hJ _ _ _ (by simp)
  | undefF => exact hJ _ _ _ (by simp)
  | @op p k o a hd hn =>
    have h1 := hop p k o a hd hn
    cases h2 : opFn o a c.env (opState s p k) with
    | ok x t => rw [h2] at h1; exact h1
    | ub u => rw [h2] at h1; exact h1
    | err e t =>
      rw [h2] at h1
      by_cases he : e = .divErr
      · subst he
        exact h1 (opFn_div c.env hn h2)
      · have h1' : c.J e t := by simpa [he] using h1
        cases e <;> first | exact h1' | exact absurd rfl he

/-- The common case: invariant through the opcode function and the tail. -/
theorem ready_inv {c : Cap} [c.Base] [c.Ip] [c.Tl] {s : State} (hr : Ready s)
    (hI : ∀ p k, c.I (opState s p k))
    (hU : ∀ u k, (u = .nullBlock ∨ u = .hostInvalid ∨ u = .uninit) → (∀ b, ¬ ByteAt s k b) → c.U u)
    (hop : ∀ p k o a, Dec s p k o a → o.isPrefix = false → Kpt c (opFn o a))
    (hdiv : ∀ p k o a, Dec s p k o a → o.isDiv a = true → Kpt c (callIntInternal 0) ∧ ∀ t, c.J .divErr t → c.I t) :
    c.Res (runOne c.env s) := by
  refine ready_kp hr ?_ hU fun p k o a hd hn => ?_
  · rintro p k e (rfl | rfl | rfl)
    · exact Cap.Base.bad _ _ (hI p k) rfl
    · exact Cap.Base.bad _ _ (hI p k) rfl
    · exact Cap.Tl.brk _ (hI p k)
  · have h := hop p k o a hd hn (opState s p k) (hI p k)
    cases h2 : opFn o a c.env (opState s p k) with
    | ok x t =>
      rw [h2] at h
      have := Kp.finishInstr (c := c) (s.sreg .cs) s.ip t h.1
      dsimp only
      cases h3 : finishInstr (s.sreg .cs) s.ip c.env t with
      | ok x u => rw [h3] at this; exact this.1
      | err e u => rw [h3] at this; exact this
      | ub u => rw [h3] at this; exact this
    | ub u => rw [h2] at h; exact h
    | err e t =>
      rw [h2] at h
      dsimp only
      split
      · rename_i he
        intro hv
        obtain ⟨h4, h5⟩ := hdiv p k o a hd hv
        have := h4 t (h5 t (he ▸ h))
        cases h3 : callIntInternal 0 c.env t with
        | ok x u => rw [h3] at this; exact this.1
        | err e u => rw [h3] at this; exact this
        | ub u => rw [h3] at this; exact this
      · exact h

/-! ### The bytes of an instruction -/

/-- Check on all entries that select a function with a property. -/
theorem Dec.elim {s p k o a} (h : Dec s p k o a) (f : Op → BitVec 3 → Bool) (hf : f o a = true)
    {P1 PF : BitVec 8 → Bool} {PG : BitVec 8 → BitVec 3 → Bool}
    (h1 : ∀ b, chk (fun b e => e.modrm || (match e.fn with | .base o => (!f o e.arg || P1 b) | _ => true)) b = true)
    (hG : ∀ r b, chk (fun b e => !e.modrm || (match e.fn with | .base o => (!f o r || PG b r) | _ => true)) b = true)
    (hF : ∀ b, chkF (fun b e => match e.fn with | .base o => (!f o e.arg || PF b) | _ => true) b = true) :
    (∃ b, P1 b = true ∧ OpcodeAt s b) ∨ (∃ b r, PG b r = true ∧ OpcodeGrpAt s b r) ∨ (∃ b, PF b = true ∧ Opcode0FAt s b) := by
  cases h with
  | @one pfx p op o a hp hb hn he =>
    have := chk_some (h1 op) he
    simp [hf] at this
    exact Or.inl ⟨op, this, pfx, p, hp, hb⟩
  | @grp pfx p op m o a hp hb hn he =>
    have := chk_some (hG ((m >>> 3).setWidth 3) op) he
    simp [hf] at this
    exact Or.inr (Or.inl ⟨op, _, this, pfx, p, m, hp, hb, rfl⟩)
  | @ext pfx p op o a b hp hb he =>
    have := chkF_some (hF op) he
    simp [hf] at this
    exact Or.inr (Or.inr ⟨op, this, pfx, p, hp, hb⟩)

end RME
