import Verif.Props.Int2
import Verif.Props.Confine
set_option autoImplicit false
/-
C43: the runaway detector ("00 00" twice in a row).
-/
namespace RME

/-! ### Vocabulary -/

/-- Callbacks do not touch the detector. -/
def KeepsDetector (s t : State) : Prop := t.lastNull = s.lastNull

/-- The instruction executed from `s`, which ended in `t`, was two bytes long and its bytes (as they are in `t`, i.e. after its
execution) are 00 00. -/
def WasNull (s t : State) : Prop := t.dec.ipOffset = 2 ∧ BytesAt { t with sreg := s.sreg, ip := s.ip } [0, 0]

/-- DIV, IDIV and AAM: the instructions that may raise a divide error. -/
def DivInstr (s : State) : Prop :=
  OpcodeAt s 0xD4 ∨ ∃ b r, (b = 0xF6 ∨ b = 0xF7) ∧ (r = 6 ∨ r = 7) ∧ OpcodeGrpAt s b r

/-- CS:IP is on a trampoline of a high level interrupt. -/
def OnTrampoline (s : State) : Prop := s.sreg .cs = 0xB800 ∧ s.ip.toNat < 0x100

/-- A sequence of successful steps, all of which are DIV/IDIV/AAM instructions or HLE trampolines. -/
inductive OnlyFaults (env : Env) : State → State → Prop
  | refl (s) : OnlyFaults env s s
  | step {s t u} (h : runOne env s = .ok () t) (hs : DivInstr s ∨ OnTrampoline s) (r : OnlyFaults env t u) : OnlyFaults env s u

/-! ### Proofs -/

theorem dec_div {s p k o a} (hd : Dec s p k o a) (h : o.isDiv a = true) : DivInstr s := by
  rcases hd.elim (fun o a => o.isDiv a) h (P1 := fun b => decide (b = 0xD4)) (PF := fun _ => false)
    (PG := fun b r => decide ((b = 0xF6 ∨ b = 0xF7) ∧ (r = 6 ∨ r = 7))) (by decide +kernel)
    (by decide +kernel) (by decide +kernel) with ⟨b, h1, h2⟩ | ⟨b, r, h1, h2⟩ | ⟨b, h1, _⟩
  · have := of_decide_eq_true h1
    subst this; exact Or.inl h2
  · have := of_decide_eq_true h1
    exact Or.inr ⟨b, r, this.1, this.2, h2⟩
  · cases h1

theorem opFn_detector (env : Env) (hcb : CallbacksKeep env KeepsDetector) {o a} (ho : o.isPrefix = false) (s : State) :
    match opFn o a env s with
    | .ok _ t => t.lastNull = s.lastNull
    | .err _ t => t.lastNull = s.lastNull
    | .ub _ => True := by
  let c := capKeep env (fun t => t.lastNull = s.lastNull) (fun _ => True) (fun _ => True)
  have i1 : c.Base := keepBase (fun _ _ h => h) (fun _ _ => trivial)
  have i2 : c.Rg := keepRg (fun _ _ h => h)
  have i3 : c.Mm := keepMm (fun _ _ h => h)
  have i4 : c.AFl := keepAFl (fun _ _ _ _ => trivial) (fun _ _ h _ => h)
  have i5 : c.SFl := ⟨fun _ => trivial⟩
  have i6 : c.Ip := keepIp (fun _ _ h => h)
  have i7 : c.Sg := keepSg (fun _ _ _ h _ => h)
  have i8 : c.Hle := keepHle (fun n f t hf h => (show (f t).lastNull = t.lastNull from hcb n f t hf).trans h)
  have i10 : c.Io := keepIo (fun _ _ h => h)
  have h := Kp.opFn_gen (c := c) o a { sg := fun _ _ => trivial, halt := fun _ _ h => h } ho s rfl
  show match opFn o a c.env s with
    | .ok _ t => t.lastNull = s.lastNull
    | .err _ t => t.lastNull = s.lastNull
    | .ub _ => True
  cases h2 : opFn o a c.env s with
  | ok x t => rw [h2] at h; exact h.1
  | err e t => rw [h2] at h; exact h
  | ub u => trivial

/-- No opcode function returns BREAKPOINT itself. -/
theorem opFn_noBrk {env : Env} {o : Op} {a} (ho : o.isPrefix = false) {s t} : opFn o a env s ≠ .err .breakpoint t := by
  intro h
  let c : Cap := capErr env (· ≠ .breakpoint)
  have i1 : c.Base := {
    dec := (by intros; trivial), setDec := (by intros; trivial), ofs := (by intros; trivial), rep := (by intros; trivial),
    fl := (by intros; trivial), ptr := (by intros; trivial), lreg := (by intros; trivial), lregH := (by intros; trivial),
    bad := fun _ _ _ h h2 => (by rw [h2] at h; cases h), w8 := Or.inl rfl, w16 := Or.inr (Or.inl rfl), w32 := fun _ _ _ => Or.inr (Or.inr rfl), wle := fun _ h => h,
    ubNull := (by intros; trivial), ubHost := (by intros; trivial), ubUninit := (by intros; trivial) }
  have i2 : c.Rg := { setReg := (by intros; trivial), setRegH := (by intros; trivial), setGpr := (by intros; trivial) }
  have i3 : c.Mm := { store := (by intros; trivial) }
  have i4 : c.AFl := { arith := (by intros; trivial), setF := (by intros; trivial) }
  have i5 : c.SFl := { any := (by intros; trivial) }
  have i6 : c.Ip := { ip := (by intros; trivial), dci := (by intros; trivial) }
  have i7 : c.Sg := { setS := (by intros; trivial) }
  have i8 : c.Io := { io := (by intros; trivial) }
  have i9 : c.Hle := { hle := (by intros; trivial) }
  have i10 : c.Mr := { oob := trivial, ptrM := (by intros; trivial) }
  have i11 : c.Ov := ⟨trivial⟩
  have i12 : c.Sh := ⟨trivial⟩
  have i13 : c.Ns := ⟨trivial⟩
  have i14 : c.Fu := ⟨trivial⟩
  have i15 : c.Hi := { hi := (by intros; trivial), memX := (by intros; trivial) }
  have i16 : c.Dv := ⟨fun _ _ => nofun⟩
  have := Kp.opFn_gen (c := c) o a { sg := fun _ _ => trivial, halt := fun _ _ _ h => (by cases h) } ho s trivial
  rw [show c.env = env from rfl, h] at this
  exact absurd rfl this

theorem callInt0_detector (env : Env) (s : State) :
    match callIntInternal 0 env s with
    | .ok _ t => t.lastNull = s.lastNull
    | .err _ t => t.lastNull = s.lastNull
    | .ub _ => True := by
  let c := capKeep env (fun t => t.lastNull = s.lastNull) (fun _ => True) (fun _ => True)
  have i1 : c.Base := keepBase (fun _ _ h => h) (fun _ _ => trivial)
  have i2 : c.Rg := keepRg (fun _ _ h => h)
  have i3 : c.Mm := keepMm (fun _ _ h => h)
  have i4 : c.AFl := keepAFl (fun _ _ _ _ => trivial) (fun _ _ h _ => h)
  have i5 : c.SFl := ⟨fun _ => trivial⟩
  have i6 : c.Ip := keepIp (fun _ _ h => h)
  have i7 : c.Sg := keepSg (fun _ _ _ h _ => h)
  have h := Kp.callInt0 (c := c) trivial s rfl
  show match callIntInternal 0 c.env s with
    | .ok _ t => t.lastNull = s.lastNull
    | .err _ t => t.lastNull = s.lastNull
    | .ub _ => True
  cases h2 : callIntInternal 0 c.env s with
  | ok x t => rw [h2] at h; exact h.1
  | err e t => rw [h2] at h; exact h
  | ub u => trivial

theorem readMem_ok_inv {env : Env} {s t : State} {seg ofs : BitVec 16} {v : BitVec 8} (h : readMem 8 seg ofs env s = .ok v t) :
    t = s ∧ ∃ a, hostAddr s seg ofs = some a ∧ s.valid a = true ∧ s.host a = v := by
  simp only [readMem, bind_apply, getPtr_spec] at h
  cases ha : hostAddr s seg ofs with
  | none => rw [ha] at h; cases hc : env.nullCheck <;> simp [hc] at h
  | some a =>
    rw [ha] at h
    simp only [resbind_ok, loadM] at h
    split at h
    · rename_i hv
      injection h with h1 h2
      refine ⟨h2.symm, a, rfl, ?_, ?_⟩
      · simpa [validN] using hv
      · rw [← h1]; exact (valAt8 s a).symm
    · cases h

theorem dumpLoop_state (cs) : ∀ j i env s, match dumpLoop cs j i env s with
    | .ok _ t => t = s
    | .err e t => e = .badmem ∧ t = s
    | .ub _ => True := by
  intro j
  induction j with
  | zero => intro i env s; rfl
  | succ j ih =>
    intro i env s
    simp only [dumpLoop, bind_apply]
    cases h : readMem 8 cs i env s with
    | ok v t => have := (readMem_ok_inv h).1; subst this; exact ih _ _ _
    | err e t =>
      refine ⟨?_, ?_⟩
      · exact Errs.readMem (E := onlyBad) rfl _ _ _ _ _ _ _ h
      · simp only [readMem, bind_apply, getPtr_spec] at h
        cases ha : hostAddr s cs i with
        | none => rw [ha] at h; cases hc : env.nullCheck <;> simp [hc] at h; exact h.2.symm
        | some a =>
          rw [ha] at h
          simp only [resbind_ok, loadM] at h
          split at h <;> cases h
    | ub u => trivial

theorem debugTail_state (cs ip) (env : Env) (s : State) : match debugTail cs ip env s with
    | .ok _ t => t = s
    | .err e t => e = .badmem ∧ t = s
    | .ub _ => True := by
  simp only [debugTail, bind_apply, gets_apply, resbind_ok, ite_apply]
  by_cases h : s.debugLevel ≥ 1
  · rw [if_pos h]
    exact dumpLoop_state _ _ _ _ _
  · rw [if_neg h]; rfl

/-- The end of an instruction: what the detector does. -/
theorem finish_detector {cs ip : BitVec 16} {env : Env} {s1 : State} :
    match finishInstr cs ip env s1 with
    | .ok _ t => t.lastNull = true → t.dec.ipOffset = 2 ∧ ∀ i < 2, ∃ a, hostAddr t cs (ip + BitVec.ofNat 16 i) = some a ∧ t.valid a = true ∧ t.host a = 0
    | .err .breakpoint t => s1.lastNull = true ∧ t.dec.ipOffset = 2 ∧
        ∀ i < 2, ∃ a, hostAddr t cs (ip + BitVec.ofNat 16 i) = some a ∧ t.valid a = true ∧ t.host a = 0
    | _ => True := by
  have hadv : advanceIP env s1 = .ok () (tailState s1 s1.lastNull) := by
    simp only [advanceIP, bind_apply, getDec_apply, resbind_ok, ite_apply, tailState]
    split <;> simp
  simp only [finishInstr, bind_apply, hadv, resbind_ok]
  have hl : (tailState s1 s1.lastNull).lastNull = s1.lastNull := rfl
  generalize tailState s1 s1.lastNull = u at *
  simp only [nullCheckTail, bind_apply, getDec_apply, resbind_ok, ite_apply]
  have hdone : ∀ (v : State), v.lastNull = false → match (debugTail cs ip env v) with
    | .ok _ t => t.lastNull = true → t.dec.ipOffset = 2 ∧ ∀ i < 2, ∃ a, hostAddr t cs (ip + BitVec.ofNat 16 i) = some a ∧ t.valid a = true ∧ t.host a = 0
    | .err .breakpoint t => s1.lastNull = true ∧ t.dec.ipOffset = 2 ∧
        ∀ i < 2, ∃ a, hostAddr t cs (ip + BitVec.ofNat 16 i) = some a ∧ t.valid a = true ∧ t.host a = 0
    | _ => True := by
    intro v hv
    have := debugTail_state cs ip env v
    cases h : debugTail cs ip env v with
    | ok x t => rw [h] at this; dsimp only at this; subst this; intro h; rw [hv] at h; cases h
    | err e t => rw [h] at this; obtain ⟨rfl, _⟩ := this; trivial
    | ub u => trivial
  by_cases h2 : u.dec.ipOffset = 2
  · rw [if_pos h2]
    cases h3 : readMem 8 cs ip env u with
    | err e t => have := Errs.readMem (E := onlyBad) rfl _ _ _ _ _ _ _ h3; cases this; trivial
    | ub u => trivial
    | ok b1 t =>
      obtain ⟨rfl, a1, ha1, hv1, hb1⟩ := readMem_ok_inv h3
      simp only [resbind_ok]
      cases h4 : readMem 8 cs (ip + 1) env t with
      | err e t => have := Errs.readMem (E := onlyBad) rfl _ _ _ _ _ _ _ h4; cases this; trivial
      | ub u => trivial
      | ok b2 t' =>
        obtain ⟨rfl, a2, ha2, hv2, hb2⟩ := readMem_ok_inv h4
        simp only [resbind_ok, ite_apply]
        by_cases hz : b1 = 0 ∧ b2 = 0
        · rw [if_pos hz]
          have key : ∀ i < 2, ∃ a, hostAddr t' cs (ip + BitVec.ofNat 16 i) = some a ∧ t'.valid a = true ∧ t'.host a = 0 := by
            intro i hi
            have : i = 0 ∨ i = 1 := by omega
            rcases this with rfl | rfl
            · exact ⟨a1, by simpa using ha1, hv1, hb1.trans hz.1⟩
            · exact ⟨a2, ha2, hv2, hb2.trans hz.2⟩
          simp only [bind_apply, gets_apply, resbind_ok, guardE_apply]
          cases hwas : t'.lastNull with
          | true =>
            simp only [if_true, resbind_err]
            exact ⟨hl.symm.trans hwas, h2, key⟩
          | false =>
            simp only [Bool.false_eq_true, if_false, resbind_ok, modify_apply]
            have := debugTail_state cs ip env { t' with lastNull := true }
            cases h : debugTail cs ip env { t' with lastNull := true } with
            | ok x t => rw [h] at this; dsimp only at this; subst this; exact fun _ => ⟨h2, key⟩
            | err e t => rw [h] at this; obtain ⟨rfl, _⟩ := this; trivial
            | ub u => trivial
        · rw [if_neg hz]
          exact hdone _ rfl
  · rw [if_neg h2]
    exact hdone _ rfl

theorem bytesAt2 {s : State} {a b : BitVec 8} (h0 : ByteAt s 0 a) (h1 : ByteAt s 1 b) : BytesAt s [a, b] := by
  intro i hi
  have : i = 0 ∨ i = 1 := by simp at hi; omega
  rcases this with rfl | rfl
  · exact h0
  · exact h1

theorem wasNull_of {s t : State} (h : t.dec.ipOffset = 2 ∧
    ∀ i < 2, ∃ a, hostAddr t (s.sreg .cs) (s.ip + BitVec.ofNat 16 i) = some a ∧ t.valid a = true ∧ t.host a = 0) : WasNull s t := by
  refine ⟨h.1, fun i hi => ?_⟩
  obtain ⟨a, h1, h2, h3⟩ := h.2 i hi
  refine ⟨a, h1, h2, ?_⟩
  show t.host a = _
  rw [h3]
  have : i = 0 ∨ i = 1 := by simp at hi; omega
  rcases this with rfl | rfl <;> rfl

/-- RME_RunOne returns BREAKPOINT only at the opcode F1, or when the detector is armed and the instruction just executed was a
00 00. -/
theorem C43_breakpoint_why (env : Env) (hcb : CallbacksKeep env KeepsDetector) (s t : State) (h : runOne env s = .err .breakpoint t) :
    OpcodeAt s 0xF1 ∨ (s.lastNull = true ∧ WasNull s t) := by
  rcases runOne_cases env s with ⟨_, _, h1⟩ | ⟨_, _, h1⟩ | ⟨_, h1⟩ | ⟨hr, r, hs, h1⟩
  · rw [h1] at h; cases h
  · rw [h1] at h; exact absurd h (ignoreErr_noErr _ _ _ _ _)
  · rw [h1] at h; cases h
  rw [h1] at h
  cases hs with
  | ub hu hb => cases h
  | badmem => cases h
  | @brk pfx p hp hb => exact Or.inl ⟨pfx, p, hp, hb⟩
  | undef => cases h
  | undefF => cases h
  | @op p k o a hd hn =>
    have hk := opFn_detector env hcb hn (opState s p k) (a := a)
    cases h2 : opFn o a env (opState s p k) with
    | ub u => rw [h2] at h; cases h
    | ok x t1 =>
      rw [h2] at hk h
      have := finish_detector (cs := s.sreg .cs) (ip := s.ip) (env := env) (s1 := t1)
      simp only [tailOf] at h
      rw [h] at this
      exact Or.inr ⟨hk.symm.trans this.1, wasNull_of this.2⟩
    | err e t1 =>
      rw [h2] at h
      exfalso
      cases e
      case divErr =>
        simp only [tailOf] at h
        have := callInt0_err env t1 _ _ h
        cases this
      case breakpoint =>
        exact absurd h2 (opFn_noBrk hn)
      all_goals cases h

/-- After an instruction that returned OK the detector is armed only if that instruction was a 00 00, or if it was armed before and the
instruction was a DIV/IDIV/AAM (that faulted) or an HLE trampoline. -/
theorem C43_armed_why (env : Env) (hcb : CallbacksKeep env KeepsDetector) (s t : State) (h : runOne env s = .ok () t)
    (hl : t.lastNull = true) : WasNull s t ∨ (s.lastNull = true ∧ (DivInstr s ∨ OnTrampoline s)) := by
  by_cases hr : Ready s
  · obtain ⟨r, hs, h1⟩ := runOne_shape hr env
    rw [h1] at h
    cases hs with
    | ub hu hb => cases h
    | badmem => cases h
    | brk => cases h
    | undef => cases h
    | undefF => cases h
    | @op p k o a hd hn =>
      have hk := opFn_detector env hcb hn (opState s p k) (a := a)
      cases h2 : opFn o a env (opState s p k) with
      | ub u => rw [h2] at h; cases h
      | ok x t1 =>
        rw [h2] at hk h
        have := finish_detector (cs := s.sreg .cs) (ip := s.ip) (env := env) (s1 := t1)
        simp only [tailOf] at h
        rw [h] at this
        exact Or.inl (wasNull_of (this hl))
      | err e t1 =>
        rw [h2] at h hk
        cases e
        case divErr =>
          simp only [tailOf] at h
          have h3 := callInt0_detector env t1
          rw [h] at h3
          exact Or.inr ⟨(h3.trans hk).symm.trans hl, Or.inl (dec_div hd (opFn_div _ hn h2))⟩
        all_goals cases h
  · have hk := kept_notReady (I := fun t => t.lastNull = s.lastNull) hr env (fun _ _ h => h) (fun _ _ h => h) (fun _ _ _ h => h) (fun _ _ h => h) (fun _ _ h => h)
      (fun _ _ h => h) (fun n f hf => hcb n f s hf) rfl (Or.inl h)
    refine Or.inr ⟨hk.symm.trans hl, Or.inr ?_⟩
    rcases runOne_cases env s with ⟨_, _, h1⟩ | ⟨h2, h3, h1⟩ | ⟨_, h1⟩ | ⟨hr', _⟩
    · rw [h1] at h; cases h
    · exact ⟨h2, h3⟩
    · rw [h1] at h; cases h
    · exact absurd hr' hr

/-- C43 (history): if, starting with the detector not armed, RME_RunOne succeeds `n` times and then returns BREAKPOINT, then that last
instruction is F1 (ICEBP), or both it and an earlier one were 00 00 and between the two there were only DIV/IDIV/AAM instructions and
HLE trampolines. -/
theorem C43_history_partial (env : Env) (hcb : CallbacksKeep env KeepsDetector) (n : Nat) (s t u : State) (h0 : s.lastNull = false)
    (h : Iter env n s t) (hb : runOne env t = .err .breakpoint u) :
    OpcodeAt t 0xF1 ∨ (WasNull t u ∧
      ∃ m x y, Iter env m s x ∧ runOne env x = .ok () y ∧ WasNull x y ∧ OnlyFaults env y t) := by
  rcases C43_breakpoint_why env hcb t u hb with h1 | ⟨hl, hw⟩
  · exact Or.inl h1
  refine Or.inr ⟨hw, ?_⟩
  clear hw hb
  have key : ∀ {n : Nat} {a b : State}, Iter env n a b → b.lastNull = true →
      (a.lastNull = true ∧ OnlyFaults env a b) ∨ ∃ m x y, Iter env m a x ∧ runOne env x = .ok () y ∧ WasNull x y ∧ OnlyFaults env y b := by
    intro n a b hi hb
    induction hi with
    | zero a => exact Or.inl ⟨hb, .refl a⟩
    | @succ n a a' b ha r ih =>
      rcases ih hb with ⟨ha', h1⟩ | ⟨m, x, y, hm, hx, hy, hf⟩
      · rcases C43_armed_why env hcb a a' ha ha' with hw | ⟨hl, hd⟩
        · exact Or.inr ⟨0, a, a', .zero a, ha, hw, h1⟩
        · exact Or.inl ⟨hl, .step ha hd h1⟩
      · exact Or.inr ⟨m + 1, x, y, .succ ha hm, hx, hy, hf⟩
  rcases key h hl with ⟨h1, _⟩ | h1
  · rw [h0] at h1; cases h1
  · exact h1

/-! ### Two 00 00 in a row -/

/-- A 00 00 instruction (ADD [BX+SI],AL without prefix) is at CS:IP (host address `h0`); its memory operand DS:BX+SI is the host byte
`h1`, BX+SI needs no reduction, and the instruction does not overwrite itself. -/
structure AtNull (s : State) (h0 h1 : Nat) : Prop where
  at0 : At s h0 {} [0, 0] 2
  nowrap : ((s.gpr 3).setWidth 16).toNat + ((s.gpr 6).setWidth 16).toNat < 65536
  mapped : Mapped s 8 (s.sreg .ds) ((s.gpr 3).setWidth 16 + (s.gpr 6).setWidth 16) h1
  ne0 : h1 ≠ h0
  ne1 : h1 ≠ h0 + 1

/-- What a 00 00 instruction does: add AL to the byte at `h1` and arm the detector. -/
structure NullDone (s t : State) (h1 : Nat) : Prop where
  ip : t.ip = s.ip + 2
  host : t.host = fun x => if x = h1 then s.host h1 + (s.gpr 0).setWidth 8 else s.host x
  gpr : t.gpr = s.gpr
  sreg : t.sreg = s.sreg
  map : t.map = s.map
  valid : t.valid = s.valid
  armed : t.lastNull = true

theorem null_runs {s : State} {h0 h1 : Nat} (h : AtNull s h0 h1) (env : Env) :
    Runs env s h0 {} [0, 0] 2 { aluResult s 0 8 (.mem (s.sreg .ds) ((s.gpr 3).setWidth 16 + (s.gpr 6).setWidth 16)) (s.host h1) ((s.gpr 0).setWidth 8) with
      dec := decOf {} 2, instrNum := s.instrNum + 1 } := by
  have hea : eaOffset s 0 [] = (s.gpr 3).setWidth 16 + (s.gpr 6).setWidth 16 := by
    show BitVec.ofNat 16 (((s.gpr 3).setWidth 16).toNat + ((s.gpr 6).setWidth 16).toNat) + 0#16 = _
    apply BitVec.eq_of_toNat_eq; simp
  have hrm : RM s {} 8 [0] 0 (.mem (s.sreg .ds) ((s.gpr 3).setWidth 16 + (s.gpr 6).setWidth 16)) := by
    have := RM.mem (s := s) (p := {}) (n := 8) 0 [] (by decide) rfl (by decide)
    rw [hea] at this
    exact this
  have hpl : Plain s {} 8 [0] := fun _ => ⟨⟨by simp [eaRegs, dispVal, rmOf]; omega, by
    have := h.nowrap
    show ((((s.gpr 3).setWidth 16).toNat + ((s.gpr 6).setWidth 16).toNat : Nat) : Int) + (0#16).toInt < 65536
    simp only [BitVec.toInt_zero]; omega⟩, by decide, by simp⟩
  have ha : Opnd.Has s 8 (.mem (s.sreg .ds) ((s.gpr 3).setWidth 16 + (s.gpr 6).setWidth 16)) (s.host h1) :=
    ⟨h1, h.mapped, by have := holds_valAt (n := 8) (by omega) s h1; rwa [valAt8] at this⟩
  have hb : Opnd.Has s 8 (regOp 8 0) ((s.gpr 0).setWidth 8) := rfl
  refine Runs.mk _ 0 (by decide) (alu_entry 0 (by decide)).1 rfl ?_
  intro bytes j hc hj hsub
  have : j = 1 := by simpa using hj
  subst this
  simp only [callFn, opFn, opAlu, bind_apply, parseModRM_rm hc env hrm hpl (ha.ok hrm.no_imm) hsub, resbind_ok,
      readLoc_has (Agree.op s {} _) env (Or.inl rfl) (regOp_ok s _) hb,
      alu_core {} _ 0 (by decide) env (Or.inl rfl) (ha.ok hrm.no_imm) ha]
  rfl

/-- C43: a 00 00 instruction with the detector not armed returns OK (and arms it); with the detector armed it returns BREAKPOINT. -/
theorem C43_null {s : State} {h0 h1 : Nat} (h : AtNull s h0 h1) (env : Env) :
    ∃ t, NullDone s t h1 ∧ runOne env s = if s.lastNull then .err .breakpoint t else .ok () t := by
  have hv : (aluExec (aluOfNum (BitVec.ofNat 3 0)) (s.host h1) ((s.gpr 0).setWidth 8) s.flags).1 = s.host h1 + (s.gpr 0).setWidth 8 := by
    have := (add_spec (n := 8) (by decide) (s.host h1) ((s.gpr 0).setWidth 8) s.flags).val
    apply BitVec.eq_of_toNat_eq
    rw [BitVec.toNat_add]
    exact this
  have hput : ∀ v, Opnd.put s 8 (.mem (s.sreg .ds) ((s.gpr 3).setWidth 16 + (s.gpr 6).setWidth 16)) v =
      { s with host := putHost s.host h1 v } := by
    intro v
    simp only [Opnd.put, h.mapped.1]
  have hout := (null_runs h env).out h.at0 (by rw [aluResult_eq _ _ _ _ _ _ (by decide), hput]) (by rw [aluResult_eq _ _ _ _ _ _ (by decide), hput]) rfl
  rw [aluResult_eq _ _ _ _ _ _ (by decide), hput, hv] at hout
  generalize (aluExec (aluOfNum (BitVec.ofNat 3 0)) (s.host h1) ((s.gpr 0).setWidth 8) s.flags).2 = f at hout
  have hh : putHost s.host h1 (s.host h1 + (s.gpr 0).setWidth 8) = fun x => if x = h1 then s.host h1 + (s.gpr 0).setWidth 8 else s.host x := by
    funext x
    simp only [putHost]
    by_cases hx : x = h1
    · subst hx
      rw [if_pos ⟨Nat.le_refl _, by simp⟩, if_pos rfl, Nat.sub_self]
      simp [byteOf]
    · rw [if_neg (by simp; omega), if_neg hx]
  rw [hh] at hout
  have hz : CodeAt s h0 [0, 0] := by
    obtain ⟨_, pfx, hp, hc, hl⟩ := h.at0
    have : pfx = [] := by
      cases pfx with
      | nil => rfl
      | cons x xs => simp at hl
    subst this; exact hc
  have z0 : s.host h0 = 0 := (hz 0 (by simp)).2.2
  have z1 : s.host (h0 + 1) = 0 := (hz 1 (by simp)).2.2
  have hnull : isNull ({ s with
      host := fun x => if x = h1 then s.host h1 + (s.gpr 0).setWidth 8 else s.host x
      flags := f
      dec := decOf {} 2
      instrNum := s.instrNum + 1 } : State) h0 = true := by
    simp [isNull, decOf, h.ne0.symm, h.ne1.symm, z0, z1]
  simp only [hnull, Bool.true_and] at hout
  refine ⟨_, ?_, hout⟩
  exact ⟨rfl, rfl, rfl, rfl, rfl, rfl, rfl⟩

/-- C43: two 00 00 instructions in a row, starting with the detector not armed: the first returns OK, the second BREAKPOINT. -/
theorem C43_two_nulls {s : State} {h0 h1 : Nat} (hs : s.lastNull = false) (h : AtNull s h0 h1) (env : Env) :
    ∃ t, runOne env s = .ok () t ∧ NullDone s t h1 ∧
      ∀ g0 g1, AtNull t g0 g1 → ∃ u, runOne env t = .err .breakpoint u ∧ NullDone t u g1 := by
  obtain ⟨t, hd, hr⟩ := C43_null h env
  rw [hs, if_neg (by decide)] at hr
  refine ⟨t, hr, hd, fun g0 g1 hg => ?_⟩
  obtain ⟨u, hu, hr2⟩ := C43_null hg env
  rw [hd.armed, if_pos rfl] at hr2
  exact ⟨u, hr2, hu⟩

/-- Four zero bytes at CS:IP meet the hypotheses of both. -/
example : (demo [0, 0, 0, 0]).lastNull = false ∧ AtNull (demo [0, 0, 0, 0]) 0x10100 0x30210 ∧
    AtNull (nx demoEnv (demo [0, 0, 0, 0])) 0x10102 0x30210 :=
  ⟨rfl, ⟨⟨by decide +kernel, [], rfl, by decide +kernel, rfl⟩, by decide +kernel, by decide +kernel, by decide, by decide⟩,
    ⟨⟨by decide +kernel, [], rfl, by decide +kernel, rfl⟩, by decide +kernel, by decide +kernel, by decide, by decide⟩⟩

/-- The hypotheses of `C43_history_partial`. -/
example : CallbacksKeep demoEnv KeepsDetector ∧ ∃ s t u, s.lastNull = false ∧ Iter demoEnv 1 s t ∧ runOne demoEnv t = .err .breakpoint u :=
  ⟨fun _ _ _ h => (by cases h), demo [0, 0, 0, 0], _, _, rfl, .succ (conc_ok (by decide +kernel)) (.zero _), conc_err (by decide +kernel)⟩

/-! ### Where the code differs from the property -/

/-- 00 00; AAM 0, whose fault goes to 1000:0110, where another 00 00 is. -/
def demoFault : State :=
  { demo [0, 0, 0xD4, 0x00] with
    host := fun a => if a = 0 then 0x10 else if a = 1 then 0x01 else if a = 3 then 0x10 else (demo [0, 0, 0xD4, 0x00]).host a }

/-- C43 is violated: a faulting instruction between two 00 00 does not reset the detector. -/
theorem C43_violated_fault : ∃ t u v, runOne demoEnv demoFault = .ok () t ∧ BytesAt t [0xD4, 0x00] ∧ runOne demoEnv t = .ok () u ∧
    BytesAt u [0, 0] ∧ runOne demoEnv u = .err .breakpoint v := by
  refine ⟨_, _, _, conc_ok (by decide +kernel), ?_, conc_ok (by decide +kernel), ?_, conc_err (by decide +kernel)⟩
  · exact bytesAt2 ⟨0x10102, by decide +kernel, by decide +kernel, by decide +kernel⟩
      ⟨0x10103, by decide +kernel, by decide +kernel, by decide +kernel⟩
  · exact bytesAt2 ⟨0x10110, by decide +kernel, by decide +kernel, by decide +kernel⟩
      ⟨0x10111, by decide +kernel, by decide +kernel, by decide +kernel⟩

/-- 00 00; MOV [SI],CX with CX = 0, which overwrites itself. -/
def demoSelf : State :=
  { (demo [0, 0, 0x89, 0x0C]).setSreg .ds 0x1000 with gpr := fun r => if r = 6 then 0x102 else if r = 3 then 0x1000 else 0 }

/-- C43 is violated: the detector looks at the bytes after execution, so an instruction that overwrites itself with 00 00 counts as one. -/
theorem C43_violated_selfmod : ∃ t u, runOne demoEnv demoSelf = .ok () t ∧ BytesAt t [0x89, 0x0C] ∧ runOne demoEnv t = .err .breakpoint u := by
  refine ⟨_, _, conc_ok (by decide +kernel), ?_, conc_err (by decide +kernel)⟩
  exact bytesAt2 ⟨0x10102, by decide +kernel, by decide +kernel, by decide +kernel⟩
      ⟨0x10103, by decide +kernel, by decide +kernel, by decide +kernel⟩

end RME
