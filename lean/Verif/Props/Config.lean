import Verif.Props.Confine
set_option autoImplicit false
/-
C76: a guest program cannot change the emulator's configuration.
-/
namespace RME

/-- Block table, allocation of host memory, CPU type and debug level are the same. -/
def SameConfig (s t : State) : Prop := t.map = s.map ∧ t.valid = s.valid ∧ t.cpuType = s.cpuType ∧ t.debugLevel = s.debugLevel

theorem SameConfig.rfl' (s : State) : SameConfig s s := ⟨rfl, rfl, rfl, rfl⟩
theorem SameConfig.trans' {s t u : State} (h : SameConfig s t) (k : SameConfig t u) : SameConfig s u :=
  ⟨k.1.trans h.1, k.2.1.trans h.2.1, k.2.2.1.trans h.2.2.1, k.2.2.2.trans h.2.2.2⟩

/-- C76: one call of `RME_RunOne`, however it returns, leaves the configuration alone (if the host's callbacks do). -/
theorem C76_step (env : Env) (hcb : CallbacksKeep env SameConfig) (s t : State) (h : Ends env s t) : SameConfig s t := by
  let c := capKeep env (fun t => SameConfig s t) (fun _ => True) (fun _ => True)
  have i1 : c.Base := keepBase (fun _ _ h => h) (fun _ _ => trivial)
  have i2 : c.Rg := keepRg (fun _ _ h => h)
  have i3 : c.Mm := keepMm (fun _ _ h => h)
  have i4 : c.AFl := keepAFl (fun _ _ _ _ => trivial) (fun _ _ h _ => h)
  have i5 : c.SFl := ⟨fun _ => trivial⟩
  have i6 : c.Ip := keepIp (fun _ _ h => h)
  have i7 : c.Sg := keepSg (fun _ _ _ h _ => h)
  have i8 : c.Hle := keepHle (fun n f t hf h => SameConfig.trans' h (hcb n f t hf))
  have i9 : c.Tl := keepTl (fun _ _ h => h)
  have i10 : c.Io := keepIo (fun _ _ h => h)
  by_cases hr : Ready s
  · refine Cap.Res.ends (c := c) (ready_inv (c := c) hr (fun _ _ => SameConfig.rfl' s) (keepU s) ?_ ?_) h (fun _ _ h => h)
    · intro p k o a hd hn
      exact Kp.opFn_gen o a { sg := fun _ _ => trivial, halt := fun _ _ h => h } hn
    · exact fun _ _ _ _ _ _ => ⟨Kp.callInt0 trivial, fun _ h => h⟩
  · exact kept_notReady (I := fun t => SameConfig s t) hr env (fun _ _ h => h) (fun _ _ h => h) (fun _ _ _ h => h) (fun _ _ h => h) (fun _ _ h => h) (fun _ _ h => h)
      (fun n f hf => hcb n f s hf) (SameConfig.rfl' s) h

/-- C76: nor does any number of instructions. -/
theorem C76_run (env : Env) (hcb : CallbacksKeep env SameConfig) (n : Nat) (s t : State) (h : Iter env n s t) : SameConfig s t := by
  induction h with
  | zero => exact SameConfig.rfl' _
  | succ h _ ih => exact SameConfig.trans' (C76_step env hcb _ _ (.inl h)) ih

/-- C76: nor does `RME_Call`. -/
theorem C76_call (env : Env) (hcb : CallbacksKeep env SameConfig) (s t : State) (h : CallReturns env s (.ok () t) ∨ ∃ e, CallReturns env s (.err e t)) :
    SameConfig s t := by
  obtain ⟨r, fuel, hr, hres⟩ : ∃ r fuel, rmeCall env fuel s = some r ∧ (r = .ok () t ∨ ∃ e, r = .err e t) := by
    rcases h with ⟨f, h⟩ | ⟨e, f, h⟩
    · exact ⟨_, f, h, .inl rfl⟩
    · exact ⟨_, f, h, .inr ⟨e, rfl⟩⟩
  clear h
  induction fuel generalizing s with
  | zero => cases hr
  | succ fuel ih =>
    rw [rmeCall] at hr
    cases hro : runOne env s with
    | ok u s' =>
      rw [hro] at hr
      exact SameConfig.trans' (C76_step env hcb s s' (.inl hro)) (ih s' hr)
    | err e s' =>
      have hk := C76_step env hcb s s' (.inr ⟨e, hro⟩)
      rw [hro] at hr
      have : s' = t := by
        cases e <;> simp only [Option.some.injEq] at hr <;> subst hr <;> rcases hres with h | ⟨e', h⟩ <;> cases h <;> rfl
      exact this ▸ hk
    | ub u =>
      rw [hro] at hr
      simp only [Option.some.injEq] at hr
      subst hr
      rcases hres with h | ⟨e', h⟩ <;> cases h

/-- C76: nor does `RME_CallInt`. -/
theorem C76_call_int (env : Env) (hcb : CallbacksKeep env SameConfig) (num : Int) (s t : State)
    (h : CallIntReturns env num s (.ok () t) ∨ ∃ e, CallIntReturns env num s (.err e t)) : SameConfig s t := by
  obtain ⟨r, fuel, hr, hres⟩ : ∃ r fuel, rmeCallInt env fuel num s = some r ∧ (r = .ok () t ∨ ∃ e, r = .err e t) := by
    rcases h with ⟨f, h⟩ | ⟨e, f, h⟩
    · exact ⟨_, f, h, .inl rfl⟩
    · exact ⟨_, f, h, .inr ⟨e, rfl⟩⟩
  let c := capKeep env (fun t => SameConfig s t) (fun _ => True) (fun _ => True)
  have i1 : c.Base := keepBase (fun _ _ h => h) (fun _ _ => trivial)
  have i2 : c.Rg := keepRg (fun _ _ h => h)
  have i3 : c.Mm := keepMm (fun _ _ h => h)
  have i4 : c.AFl := keepAFl (fun _ _ _ _ => trivial) (fun _ _ h _ => h)
  have i5 : c.SFl := ⟨fun _ => trivial⟩
  have i6 : c.Ip := keepIp (fun _ _ h => h)
  have i7 : c.Sg := keepSg (fun _ _ _ h _ => h)
  have i8 : c.Hle := keepHle (fun n f t hf h => SameConfig.trans' h (hcb n f t hf))
  have i9 : c.Tl := keepTl (fun _ _ h => h)
  have hk : Kpt c (RME.callIntInternal num) := by
    unfold RME.callIntInternal
    refine Kp.bind (V := fun _ => True) ?_ fun _ _ => Kp.bind (Kp.pushM Kp.getFlagsV) fun _ _ => Kp.bind (Kp.pushM (Kp.getSregT _)) fun _ _ =>
      Kp.bind (Kp.pushM Kp.getIPT) fun _ _ => Kp.bind Kp.getFlagsV fun _ _ => Kp.bind Kp.setFlagsAny fun _ _ => ?_
    · intro s hs
      cases hb : decide (num < 0) || decide (num > 0xFF)
      · exact ⟨hs, trivial⟩
      · exact hs
    · exact Kp.bind (Kp.readMem _ _ (by decide)) fun _ _ => Kp.bind Kp.setIP fun _ _ => Kp.bind (Kp.readMem _ _ (by decide)) fun _ _ => Kp.setSreg trivial
  have h0 := hk { s.setSreg .cs MAGIC_CS with ip := MAGIC_IP } (SameConfig.rfl' s)
  rw [rmeCallInt] at hr
  simp only [] at hr
  cases hc : RME.callIntInternal num env { s.setSreg .cs MAGIC_CS with ip := MAGIC_IP } with
  | ok u s' =>
    rw [hc] at hr
    have h1 : SameConfig s s' := by
      have := h0
      rw [show c.env = env from rfl, hc] at this
      exact this.1
    refine SameConfig.trans' h1 (C76_call env hcb s' t ?_)
    rcases hres with rfl | ⟨e, rfl⟩
    · exact .inl ⟨fuel, hr⟩
    · exact .inr ⟨e, fuel, hr⟩
  | err e s' =>
    rw [hc] at hr
    have h1 : SameConfig s s' := by
      have := h0
      rw [show c.env = env from rfl, hc] at this
      exact this
    simp only [Option.some.injEq] at hr
    subst hr
    rcases hres with h | ⟨e', h⟩ <;> cases h
    exact h1
  | ub u =>
    rw [hc] at hr
    simp only [Option.some.injEq] at hr
    subst hr
    rcases hres with h | ⟨e', h⟩ <;> cases h

example : CallbacksKeep demoEnv SameConfig := fun _ _ _ h => by cases h
/-- A machine that executes POPF (which writes FLAGS from the stack), then HLT. -/
example : ∃ t, CallReturns demoEnv (demo [0x9D, 0xF4]) (.err .halt t) := ⟨_, 2, rfl⟩

end RME
