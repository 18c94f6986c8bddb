import Verif.Lemmas.KpAll
set_option autoImplicit false
/-
`RME_RunOne` in every state: the possible outcomes, error codes of the parts, and termination of the
loops (the model's fuel is never exhausted).
-/
namespace RME

/-- Only errors in `E`. -/
def Errs (E : Err → Prop) {α : Type} (m : M α) : Prop := ∀ env s e t, m env s = .err e t → E e

namespace Errs
variable {E : Err → Prop} {α β : Type}
theorem bind {m : M α} {f : α → M β} (hm : Errs E m) (hf : ∀ a, Errs E (f a)) : Errs E (m >>= f) := by
  intro env s e t h
  simp only [bind_apply] at h
  cases h1 : m env s with
  | ok a u => rw [h1] at h; exact hf a env u e t h
  | err e' u => rw [h1] at h; cases h; exact hm env s _ _ h1
  | ub u => rw [h1] at h; cases h
theorem pure (a : α) : Errs E (Pure.pure a) := by intro env s e t h; cases h
theorem gets (f : State → α) : Errs E (RME.gets f) := by intro env s e t h; cases h
theorem modify (f : State → State) : Errs E (RME.modify f) := by intro env s e t h; cases h
theorem guard {x : Bool} {e : Err} (h : E e) : Errs E (guardE x e) := by
  intro env s e' t h1
  cases x
  · cases h1
  · cases h1; exact h
theorem getPtr (hb : E .badmem) (seg ofs) : Errs E (RME.getPtr seg ofs) := by
  intro env s e t h
  unfold RME.getPtr at h
  simp only [] at h
  split at h
  · split at h
    · cases h
    · split at h
      · cases h; exact hb
      · cases h
  · cases h
theorem loadM (n h) : Errs E (RME.loadM n h) := by
  intro env s e t h1
  unfold RME.loadM at h1
  split at h1 <;> cases h1
theorem storeM (n h v) : Errs E (RME.storeM n h v) := by
  intro env s e t h1
  unfold RME.storeM at h1
  split at h1 <;> cases h1
theorem readMem (hb : E .badmem) (n seg ofs) : Errs E (RME.readMem n seg ofs) :=
  bind (getPtr hb _ _) fun _ => loadM _ _
theorem writeMem (hb : E .badmem) (n seg ofs v) : Errs E (RME.writeMem n seg ofs v) :=
  bind (getPtr hb _ _) fun _ => storeM _ _ _
theorem pushM (hb : E .badmem) {m : M (BitVec 16)} (hm : Errs E m) : Errs E (RME.pushM m) :=
  bind (gets _) fun _ => bind (modify _) fun _ => bind (gets _) fun _ => bind (gets _) fun _ => bind hm fun _ =>
    writeMem hb _ _ _ _
end Errs

/-- only BADMEM -/
def onlyBad (e : Err) : Prop := e = .badmem

theorem callInt0_err : Errs onlyBad (callIntInternal 0) := by
  have hb : onlyBad .badmem := rfl
  unfold callIntInternal
  refine Errs.bind (by intro env s e t h; cases h) fun _ => Errs.bind (Errs.pushM hb (Errs.gets _)) fun _ =>
    Errs.bind (Errs.pushM hb (Errs.gets _)) fun _ => Errs.bind (Errs.pushM hb (Errs.gets _)) fun _ =>
    Errs.bind (Errs.gets _) fun _ => Errs.bind (Errs.modify _) fun _ => Errs.bind (Errs.readMem hb _ _ _) fun _ =>
    Errs.bind (Errs.modify _) fun _ => Errs.bind (Errs.readMem hb _ _ _) fun _ => Errs.modify _

theorem dumpLoop_err (cs) : ∀ j i, Errs (fun e => e = .badmem ∨ e = .breakpoint) (dumpLoop cs j i) := by
  intro j
  induction j with
  | zero => intro i; exact Errs.pure _
  | succ j ih => intro i; exact Errs.bind (Errs.readMem (Or.inl rfl) _ _ _) fun _ => ih _

theorem finish_err (cs ip) : Errs (fun e => e = .badmem ∨ e = .breakpoint) (finishInstr cs ip) := by
  have hb : (fun e : Err => e = .badmem ∨ e = .breakpoint) .badmem := Or.inl rfl
  unfold finishInstr
  refine Errs.bind ?_ fun _ => Errs.bind ?_ fun _ => ?_
  · unfold advanceIP
    refine Errs.bind (Errs.gets _) fun d => ?_
    split
    · exact Errs.pure _
    · exact Errs.bind (Errs.gets _) fun _ => Errs.modify _
  · unfold nullCheckTail
    refine Errs.bind (Errs.gets _) fun d => ?_
    split
    · refine Errs.bind (Errs.readMem hb _ _ _) fun _ => Errs.bind (Errs.readMem hb _ _ _) fun _ => ?_
      split
      · exact Errs.bind (Errs.gets _) fun _ => Errs.bind (Errs.guard (Or.inr rfl)) fun _ => Errs.modify _
      · exact Errs.modify _
    · exact Errs.modify _
  · unfold debugTail
    refine Errs.bind (Errs.gets _) fun d => ?_
    split
    · exact Errs.bind (Errs.gets _) fun _ => dumpLoop_err _ _ _
    · exact Errs.pure _

/-- What happens after the opcode function returned `r`. -/
def tailOf (env : Env) (s : State) : Res Unit → Res Unit
  | .ok _ t => finishInstr (s.sreg .cs) s.ip env t
  | .err .divErr t => callIntInternal 0 env t
  | r => r

theorem runOne_shape {s : State} (hr : Ready s) (env : Env) :
    ∃ r, Shape env s r ∧ runOne env s = tailOf env s r := by
  have hs := decodeLoop_shape noCont env s 6 [] {} rfl (by intro i hi; simp at hi) (by simp)
  refine ⟨_, hs, ?_⟩
  rw [runOne_ready hr]
  have : doOpcode env s = (decodeLoop 6 env (opState s {} 0)).bind (fun _ t => finishInstr (s.sreg .cs) s.ip env t) := by
    simp only [doOpcode, bind_apply, getIP_apply, getSreg_apply, resbind_ok, startInstr, INT_MAX]
    rw [if_neg hr.counter]
    rfl
  rw [this]
  simp only [List.length_nil]
  cases h : decodeLoop 6 env (opState s {} 0) with
  | ok a t =>
    simp only [resbind_ok, tailOf]
    cases h2 : finishInstr (s.sreg .cs) s.ip env t with
    | ok _ _ => rfl
    | ub _ => rfl
    | err e u => rcases finish_err _ _ env t e u h2 with rfl | rfl <;> rfl
  | ub u => rfl
  | err e t => cases e <;> rfl

/-- All cases of `RME_RunOne`. -/
theorem runOne_cases (env : Env) (s : State) :
    (s.sreg .cs = 0xFFFF ∧ s.ip = 0xFFFF ∧ runOne env s = .err .fcnRet s) ∨
    (s.sreg .cs = 0xB800 ∧ s.ip.toNat < 0x100 ∧
      runOne env s = ignoreErr opIret env (((env.hle (s.ip.setWidth 8)).getD id) s)) ∨
    (s.instrNum = 2147483647 ∧ runOne env s = .ub .signedOverflow) ∨
    (Ready s ∧ ∃ r, Shape env s r ∧ runOne env s = tailOf env s r) := by
  by_cases h1 : s.ip = MAGIC_IP ∧ s.sreg .cs = MAGIC_CS
  · refine Or.inl ⟨h1.2, h1.1, ?_⟩
    unfold runOne; rw [if_pos h1]
  by_cases h2 : s.sreg .cs = HLE_CS ∧ s.ip.toNat < 0x100
  · refine Or.inr (Or.inl ⟨h2.1, h2.2, ?_⟩)
    unfold runOne; rw [if_neg h1, if_pos h2]
    unfold runHle
    cases env.hle (s.ip.setWidth 8) <;> rfl
  by_cases h3 : s.instrNum = 2147483647
  · refine Or.inr (Or.inr (Or.inl ⟨h3, ?_⟩))
    unfold runOne; rw [if_neg h1, if_neg h2]
    have : doOpcode env s = .ub .signedOverflow := by
      simp only [doOpcode, bind_apply, getIP_apply, getSreg_apply, resbind_ok, startInstr, INT_MAX]
      rw [if_pos h3]; rfl
    rw [this]
  · have hr : Ready s := ⟨h1, h2, h3⟩
    exact Or.inr (Or.inr (Or.inr ⟨hr, runOne_shape hr env⟩))

theorem ignoreErr_noErr (m : M Unit) (env s e t) : ignoreErr m env s ≠ .err e t := by
  unfold ignoreErr
  split <;> intro h
  · cases h
  · rename_i h2; exact h2 _ _ h

/-! ### No loop of the model runs out of fuel -/

/-- `CX` and the decoder are kept, and fuel is not exhausted. -/
def KeepsCX {α : Type} (m : M α) : Prop := ∀ env s, match m env s with
  | .ok _ t => t.gpr rCX = s.gpr rCX ∧ t.dec = s.dec
  | .err _ _ => True
  | .ub u => u ≠ .modelFuel

namespace KeepsCX
variable {α β : Type}
theorem bind {m : M α} {f : α → M β} (hm : KeepsCX m) (hf : ∀ a, KeepsCX (f a)) : KeepsCX (m >>= f) := by
  intro env s
  have h := hm env s
  simp only [bind_apply]
  cases h1 : m env s with
  | ok a t =>
    rw [h1] at h
    have h2 := hf a env t
    simp only [resbind_ok]
    cases h3 : f a env t with
    | ok b u => rw [h3] at h2; exact ⟨h2.1.trans h.1, h2.2.trans h.2⟩
    | err e u => trivial
    | ub u => rw [h3] at h2; exact h2
  | err e t => trivial
  | ub u => rw [h1] at h; exact h
theorem pure (a : α) : KeepsCX (Pure.pure a) := fun _ _ => ⟨rfl, rfl⟩
theorem gets (f : State → α) : KeepsCX (RME.gets f) := fun _ _ => ⟨rfl, rfl⟩
theorem getReg (n r) : KeepsCX (RME.getReg n r) := fun _ _ => ⟨rfl, rfl⟩
theorem getFlags : KeepsCX RME.getFlags := fun _ _ => ⟨rfl, rfl⟩
theorem setFlags (f) : KeepsCX (RME.setFlags f) := fun _ _ => ⟨rfl, rfl⟩
theorem setReg (n v) : KeepsCX (RME.setReg n rAX v) := fun _ _ => ⟨rfl, rfl⟩
theorem getPtr (seg ofs) : KeepsCX (RME.getPtr seg ofs) := by
  intro env s
  unfold RME.getPtr
  simp only []
  split <;> rename_i h
  · split at h
    · split at h
      · cases h; exact ⟨rfl, rfl⟩
      · split at h <;> cases h
    · cases h
  · trivial
  · split at h
    · split at h
      · cases h
      · split at h <;> cases h; decide
    · cases h; decide
theorem loadM (n h) : KeepsCX (RME.loadM n h) := by
  intro env s
  unfold RME.loadM
  split <;> rename_i h
  · split at h <;> cases h; exact ⟨rfl, rfl⟩
  · trivial
  · split at h <;> cases h; decide
theorem storeM (n h v) : KeepsCX (RME.storeM n h v) := by
  intro env s
  unfold RME.storeM
  split <;> rename_i h
  · split at h <;> cases h; exact ⟨rfl, rfl⟩
  · trivial
  · split at h <;> cases h; decide
theorem readMem (n seg ofs) : KeepsCX (RME.readMem n seg ofs) := bind (getPtr _ _) fun _ => loadM _ _
theorem writeMem (n seg ofs v) : KeepsCX (RME.writeMem n seg ofs v) := bind (getPtr _ _) fun _ => storeM _ _ _
theorem portOut (b p v) : KeepsCX (RME.portOut b p v) := fun _ _ => ⟨rfl, rfl⟩
theorem portIn (b p) : KeepsCX (RME.portIn b p) := fun _ _ => ⟨rfl, rfl⟩
end KeepsCX

theorem putLow_low16 (g : BitVec 32) (v : BitVec 16) : (putLow 16 g v).setWidth 16 = v := by
  apply BitVec.eq_of_getLsbD_eq
  intro i hi
  simp [putLow, hi]

theorem strLoop_fuel (z step mask) {body : BitVec 32 → BitVec 32 → M Unit} (hb : ∀ x y, KeepsCX (body x y)) (env) :
    ∀ fuel so dd s, (s.dec.rep = .none ∧ 0 < fuel ∨ (s.reg 16 rCX).toNat < fuel) →
      strLoop z step mask body fuel so dd env s ≠ .ub .modelFuel := by
  intro fuel
  induction fuel with
  | zero => intro so dd s h; rcases h with h | h <;> omega
  | succ fuel ih =>
    intro so dd s h
    unfold strLoop
    simp only [bind_apply, strCount, getDec_apply, resbind_ok, ite_apply]
    by_cases hr : s.dec.rep = .none
    · rw [if_pos hr]
      simp only [pure_apply, resbind_ok]
      rw [if_neg (by simp)]
      have h1 := hb so dd env s
      cases h2 : body so dd env s with
      | err e t => simp
      | ub u => rw [h2] at h1; simpa using h1
      | ok a t =>
        rw [h2] at h1
        simp only [resbind_ok, getFlags_apply, bind_apply, strAgain, getDec_apply, h1.2, hr, pure_apply, ite_apply]
        simp
    · rw [if_neg hr]
      simp only [bind_apply, getReg_apply, resbind_ok, ite_apply]
      by_cases hc : s.reg 16 rCX = 0
      · rw [if_pos hc]
        simp [ite_apply]
      · rw [if_neg hc]
        have hlt : (s.reg 16 rCX).toNat < fuel + 1 := by
          rcases h with h | h
          · exact absurd h.1 hr
          · exact h
        have hpos : 0 < (s.reg 16 rCX).toNat := by
          rcases Nat.eq_zero_or_pos (s.reg 16 rCX).toNat with h | h
          · exact absurd (BitVec.eq_of_toNat_eq h) hc
          · exact h
        simp only [bind_apply, setReg_apply, pure_apply, resbind_ok]
        rw [if_neg (by simp)]
        have h1 := hb so dd env (s.setReg 16 rCX (s.reg 16 rCX - 1))
        cases h2 : body so dd env (s.setReg 16 rCX (s.reg 16 rCX - 1)) with
        | err e t => simp
        | ub u => rw [h2] at h1; simpa using h1
        | ok a t =>
          rw [h2] at h1
          simp only [resbind_ok, getFlags_apply, bind_apply, strAgain, getDec_apply, pure_apply, ite_apply]
          split
          · refine ih _ _ t (Or.inr ?_)
            have : t.reg 16 rCX = s.reg 16 rCX - 1 := by
              show (t.gpr rCX).setWidth 16 = _
              rw [h1.1]
              simp only [State.setReg, State.setGpr, if_true]
              exact putLow_low16 _ _
            rw [this]
            rw [BitVec.toNat_sub]
            have := (s.reg 16 rCX).isLt
            have : BitVec.toNat (1 : BitVec 16) = 1 := rfl
            omega
          · intro h; cases h

theorem resbind_ne {α β : Type} {r : Res α} {f : α → State → Res β} {u} (h : r ≠ .ub u) (hf : ∀ a t, f a t ≠ .ub u) :
    r.bind f ≠ .ub u := by
  cases r with
  | ok a t => exact hf a t
  | err e t => intro h; cases h
  | ub v => intro h2; cases h2; exact h rfl

theorem strPut_fuel (u r v env s) : strPut u r v env s ≠ .ub .modelFuel := by
  unfold strPut
  simp only [ite_apply, bind_apply, getDec_apply, resbind_ok]
  split
  · split <;> simp
  · simp

theorem stringOp_fuel (z u v step) {body} (hb : ∀ p x q y, KeepsCX (body p x q y)) (env s) :
    stringOp z u v step body env s ≠ .ub .modelFuel := by
  unfold stringOp
  simp only [bind_apply, getSreg_apply, getSegment_apply, getDec_apply, resbind_ok]
  have h1 (r) : strOfs r env s = .ok (if s.dec.ovrAddr then s.reg 32 r else (s.reg 16 r).setWidth 32) s := by
    unfold strOfs
    simp only [bind_apply, getDec_apply, resbind_ok, ite_apply, getReg_apply, pure_apply]
    split <;> rfl
  simp only [h1, resbind_ok, getReg_apply, ite_apply, bind_apply]
  split
  · simp [clearRep]
  · refine resbind_ne (strLoop_fuel _ _ _ (fun _ _ => hb _ _ _ _) env _ _ _ _ (Or.inr (s.reg 16 rCX).isLt)) fun a t => ?_
    refine resbind_ne (strPut_fuel _ _ _ _ _) fun _ _ => resbind_ne (strPut_fuel _ _ _ _ _) fun _ _ => ?_
    simp [clearRep]

theorem cmpFlags_keeps {n} (a b : BitVec n) : KeepsCX (cmpFlags a b) :=
  KeepsCX.bind KeepsCX.getFlags fun _ => KeepsCX.setFlags _

theorem string_fuel (o : Op) (p) (ho : o.isString = true) (env s) : opFn o p env s ≠ .ub .modelFuel := by
  have hW (w : Bool) (f : Nat → M Unit) (hf : ∀ n, f n env s ≠ .ub .modelFuel) : strW w f env s ≠ .ub .modelFuel := by
    cases w
    · exact hf 8
    · show withW f env s ≠ _
      rw [withW_apply]
      split <;> exact hf _
  cases o <;> first | (cases ho; done) | skip
  all_goals dsimp only [opFn]
  all_goals first | unfold opIns | unfold opOuts | unfold opMovs | unfold opStos | unfold opLods | unfold opCmps | unfold opScas
  all_goals (refine hW _ _ fun n => ?_)
  all_goals (refine stringOp_fuel _ _ _ _ (fun _ _ _ _ => ?_) env s)
  · exact KeepsCX.bind (KeepsCX.getReg _ _) fun _ => KeepsCX.bind (KeepsCX.portIn _ _) fun _ => KeepsCX.writeMem _ _ _ _
  · exact KeepsCX.bind (KeepsCX.readMem _ _ _) fun _ => KeepsCX.bind (KeepsCX.getReg _ _) fun _ => KeepsCX.portOut _ _ _
  · exact KeepsCX.bind (KeepsCX.readMem _ _ _) fun _ => KeepsCX.writeMem _ _ _ _
  · exact KeepsCX.bind (KeepsCX.getReg _ _) fun _ => KeepsCX.writeMem _ _ _ _
  · exact KeepsCX.bind (KeepsCX.readMem _ _ _) fun _ => KeepsCX.setReg _ _
  · exact KeepsCX.bind (KeepsCX.readMem _ _ _) fun _ => KeepsCX.bind (KeepsCX.readMem _ _ _) fun _ => cmpFlags_keeps _ _
  · exact KeepsCX.bind (KeepsCX.readMem _ _ _) fun _ => KeepsCX.bind (KeepsCX.getReg _ _) fun _ => cmpFlags_keeps _ _

/-- Nothing is required of states; undefined behaviours in `U`. -/
def capUB (env : Env) (U : UB → Prop) : Cap :=
  { env := env, I := fun _ => True, J := fun _ _ => True, W := fun n => n = 8 ∨ n = 16 ∨ n = 32, VF := fun _ => True,
    VL := fun _ _ => True, VD := fun _ => True, VS := fun _ => True, U := U }

section
variable (env : Env)
local instance : (capUB env (· ≠ .modelFuel)).Base := {
    dec := (by intros; trivial), setDec := (by intros; trivial), ofs := (by intros; trivial), rep := (by intros; trivial),
    fl := (by intros; trivial), ptr := (by intros; trivial), lreg := (by intros; trivial), lregH := (by intros; trivial),
    bad := (by intros; trivial), w8 := Or.inl rfl, w16 := Or.inr (Or.inl rfl), w32 := fun _ _ _ => Or.inr (Or.inr rfl), wle := fun _ h => h,
    ubNull := fun _ _ _ _ _ _ h => (by cases h), ubHost := fun _ _ _ _ _ _ h => (by cases h), ubUninit := fun _ _ _ _ _ h => by cases h }
local instance : (capUB env (· ≠ .modelFuel)).Rg := { setReg := (by intros; trivial), setRegH := (by intros; trivial), setGpr := (by intros; trivial) }
local instance : (capUB env (· ≠ .modelFuel)).Mm := { store := (by intros; trivial) }
local instance : (capUB env (· ≠ .modelFuel)).AFl := { arith := (by intros; trivial), setF := (by intros; trivial) }
local instance : (capUB env (· ≠ .modelFuel)).SFl := { any := (by intros; trivial) }
local instance : (capUB env (· ≠ .modelFuel)).Ip := { ip := (by intros; trivial), dci := (by intros; trivial) }
local instance : (capUB env (· ≠ .modelFuel)).Sg := { setS := (by intros; trivial) }
local instance : (capUB env (· ≠ .modelFuel)).Io := { io := (by intros; trivial) }
local instance : (capUB env (· ≠ .modelFuel)).Hle := { hle := (by intros; trivial) }
local instance : (capUB env (· ≠ .modelFuel)).Mr := { oob := fun h => (by cases h), ptrM := (by intros; trivial) }
local instance : (capUB env (· ≠ .modelFuel)).Ov := ⟨fun h => by cases h⟩
local instance : (capUB env (· ≠ .modelFuel)).Dv := ⟨by intros; trivial⟩
local instance : (capUB env (· ≠ .modelFuel)).Sh := ⟨fun h => by cases h⟩
local instance : (capUB env (· ≠ .modelFuel)).Ns := ⟨fun h => by cases h⟩
local instance : (capUB env (· ≠ .modelFuel)).Hi := { hi := (by intros; trivial), memX := (by intros; trivial) }
local instance : (capUB env (· ≠ .modelFuel)).Tl := { ln := (by intros; trivial), brk := (by intros; trivial) }

theorem Kp.noFuel {α} {m : M α} (h : Kpt (capUB env (· ≠ .modelFuel)) m) (s) : m env s ≠ .ub .modelFuel := by
  intro h2
  have := h s trivial
  rw [show (capUB env (· ≠ .modelFuel)).env = env from rfl, h2] at this
  exact this rfl

theorem opFn_fuel (o : Op) (p) (ho : o.isPrefix = false) (s) : opFn o p env s ≠ .ub .modelFuel := by
  cases hs : o.isString
  · have hf : o.isString = true → (capUB env (· ≠ .modelFuel)).Fu := fun h => absurd (hs.symm.trans h) (by decide)
    exact Kp.noFuel env (Kp.opFn_gen (c := capUB env (· ≠ .modelFuel)) o p
      { sg := fun _ _ => trivial, fu := hf, halt := fun _ _ _ => trivial } ho) s
  · exact string_fuel o p hs env s

theorem callInt0_fuel (s) : callIntInternal 0 env s ≠ .ub .modelFuel := by
  refine Kp.noFuel env (?_ : Kpt _ (callIntInternal 0)) s
  unfold callIntInternal
  refine Kp.bind (V := fun _ => True) (fun s hs => ⟨hs, trivial⟩) fun _ _ => Kp.bind (Kp.pushM Kp.getFlagsV) fun _ _ => Kp.bind (Kp.pushM (Kp.getSregT _)) fun _ _ =>
    Kp.bind (Kp.pushM Kp.getIPT) fun _ _ => Kp.bind Kp.getFlagsV fun _ _ => Kp.bind Kp.setFlagsAny fun _ _ => ?_
  exact Kp.bind (Kp.readMem _ _ (by decide)) fun _ _ => Kp.bind Kp.setIP fun _ _ => Kp.bind (Kp.readMem _ _ (by decide)) fun _ _ =>
      Kp.setSreg trivial

theorem finish_fuel (cs ip s) : finishInstr cs ip env s ≠ .ub .modelFuel := Kp.noFuel env (Kp.finishInstr cs ip) s

theorem runOne_fuel (s : State) : runOne env s ≠ .ub .modelFuel := by
  rcases runOne_cases env s with ⟨_, _, h⟩ | ⟨_, _, h⟩ | ⟨_, h⟩ | ⟨_, r, hs, h⟩
  · rw [h]; intro h; cases h
  · rw [h]
    have := Kp.noFuel env (Kp.iret (c := capUB env (· ≠ .modelFuel)) trivial) (((env.hle (s.ip.setWidth 8)).getD id) s)
    unfold ignoreErr
    split
    · intro h; cases h
    · exact this
  · rw [h]; intro h; cases h
  · rw [h]
    cases hs with
    | ub hu _ => simp only [tailOf]; rcases hu with rfl | rfl | rfl <;> (intro h; cases h)
    | badmem => intro h; cases h
    | brk => intro h; cases h
    | undef => intro h; cases h
    | undefF => intro h; cases h
    | op hd hn =>
      rename_i p k o a
      have h1 := opFn_fuel env o a hn (opState s p k)
      cases h2 : opFn o a env (opState s p k) with
      | ok x t => exact finish_fuel env _ _ _
      | ub u => rw [h2] at h1; exact h1
      | err e t => cases e <;> first | exact callInt0_fuel env t | (intro h; cases h)
end

end RME
