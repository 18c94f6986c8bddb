import Verif.Props.TwoRuns
import Verif.Props.Stack2
set_option autoImplicit false
/-
C66: the CPU type is observable through POPF only.
-/
set_option linter.unusedSectionVars false
namespace RME

/-- The machines differ in the CPU type at most. -/
def CpuOnly (s t : State) : Prop := ∃ c, t = { s with cpuType := c }

/-- The instruction at CS:IP is POPF (with any prefixes). -/
def AtPopf (s : State) : Prop := ∃ pfx p, Pfx.parse {} pfx = some p ∧ BytesAt s (pfx ++ [0x9D])

/-- Outcome of a run of `RME_Call`, if it returns within `fuel` instructions. -/
def CallsAgree (R : State → State → Prop) : Option (Res Unit) → Option (Res Unit) → Prop
  | some r, some r' => SameOutcome R r r'
  | none, none => True
  | _, _ => False

/-! ### Proofs -/

namespace Rl
variable {c : Rc}

def isPopf : Fn → Bool
  | .base .popF => true
  | _ => false
theorem popf_entry : ∀ b : BitVec 8, chk (fun b e => b == 0x9D || !isPopf e.fn) b = true := by decide +kernel
theorem popf_entryF : ∀ b : BitVec 8, chkF (fun _ e => !isPopf e.fn) b = true := by decide +kernel

theorem ext0F_np [k : c.Ok] : Rle c RME.ext0F RME.ext0F := by
  unfold RME.ext0F
  refine bindE (readInstr (by decide)) fun x => ?_
  split
  · rename_i o a m he
    refine opFn fun ho => ?_
    subst ho
    have := chkF_some (popf_entryF x) he
    simp [isPopf] at this
  · exact throwE

theorem decodeOne_np [k : c.Ok] {s t : State} (h : c.R s t) (hb : ∀ b u, RME.readInstr 8 c.e₁ s = .ok b u → b ≠ 0x9D) :
    Rr c Eq (RME.decodeOne c.e₁ s) (RME.decodeOne c.e₂ t) := by
  have h1 := readInstr (c := c) (n := 8) (by decide) s t h
  simp only [RME.decodeOne, bind_apply]
  cases h2 : RME.readInstr 8 c.e₁ s <;> cases h3 : RME.readInstr 8 c.e₂ t <;> rw [h2, h3] at h1 <;> try exact h1.elim
  · rename_i b u b' v
    obtain ⟨h1, rfl⟩ := h1
    have hne := hb _ _ h2
    simp only [resbind_ok]
    have key : Rle c (RME.guardE (b == 0xF1) .breakpoint >>= fun _ => match opEntry b with
        | none => RME.throwE .undefOpcode
        | some e => RME.fetchParam e >>= fun a => RME.callFn e.fn a)
        (RME.guardE (b == 0xF1) .breakpoint >>= fun _ => match opEntry b with
        | none => RME.throwE .undefOpcode
        | some e => RME.fetchParam e >>= fun a => RME.callFn e.fn a) := by
      refine bindE guardE fun _ => ?_
      cases he : opEntry b with
      | none => exact throwE
      | some e =>
        refine bindE fetchParam fun a => ?_
        obtain ⟨fn, x, m⟩ := e
        cases fn with
        | ext0F => exact ext0F_np
        | base o =>
          refine opFn fun ho => ?_
          subst ho
          have := chk_some (popf_entry b) he
          simp only [isPopf, Bool.not_true, Bool.or_false, beq_iff_eq] at this; exact absurd this hne
    exact key _ _ h1
  · exact h1
  · exact h1

/-- CONTINUE is returned by prefixes only, which change nothing but the decoder. -/
theorem decodeOne_cont {env : Env} {s u : State} {pfx : List (BitVec 8)} {p : Pfx} (hp : Pfx.parse {} pfx = some p) (hb : BytesAt s pfx)
    (h : RME.decodeOne env (opState s p pfx.length) = .err .cont u) :
    ∃ b p', Pfx.parse {} (pfx ++ [b]) = some p' ∧ BytesAt s (pfx ++ [b]) ∧ u = opState s p' (pfx ++ [b]).length := by
  rcases fetch8_cases env s p pfx.length with ⟨b, hbyte, hr⟩ | ⟨hn, hc, hr⟩ | ⟨hn, u, hu, hr⟩
  · have hb1 := hb.snoc hbyte
    have h1 := decodeOne_at hbyte env p
    by_cases hF1 : b = 0xF1
    · rw [h1, if_pos hF1] at h; cases h
    rw [h1, if_neg hF1] at h
    cases he : opEntry b with
    | none => rw [he] at h; cases h
    | some e =>
      rw [he] at h
      by_cases hpre : isPrefixByte b = true
      · obtain ⟨o, a, he', _⟩ := prefix_entry b hpre
        rw [he] at he'; cases he'
        simp only [RME.fetchParam, Bool.false_eq_true, if_false, pure_apply, resbind_ok] at h
        cases hadd : p.add b with
        | none =>
          have := prefix_again hpre hadd he env s (pfx.length + 1)
          simp only at this
          rw [this] at h; cases h
        | some p' =>
          obtain ⟨_, e, he2, hm2, hf⟩ := Pfx.add_cases hadd
          rw [he] at he2; cases he2
          have := hf env (opState s p (pfx.length + 1)) (pfx.length + 1) rfl
          simp only at this
          rw [this] at h
          refine ⟨b, p', ?_, hb1, ?_⟩
          · have gen : ∀ (l : List (BitVec 8)) (q : Pfx), Pfx.parse q l = some p → Pfx.parse q (l ++ [b]) = some p' := by
              intro l
              induction l with
              | nil => intro q hq; simp [Pfx.parse] at hq; subst hq; simp [Pfx.parse, hadd]
              | cons x xs ihx =>
                intro q hq
                simp only [Pfx.parse, List.cons_append, Option.bind_eq_some_iff] at hq ⊢
                obtain ⟨q', h1, h2⟩ := hq
                exact ⟨q', h1, ihx q' h2⟩
            exact gen pfx {} hp
          · cases h
            simp only [List.length_append, List.length_singleton]
            rfl
      · have hpre : isPrefixByte b = false := by simpa using hpre
        exfalso
        obtain ⟨fn, a, m⟩ := e
        cases fn with
        | base o =>
          have hnc := fun x w => noCont o x env w u (entry_prefix b hpre o a m he)
          cases m with
          | false => exact hnc _ _ h
          | true =>
            simp only [RME.fetchParam, if_true, bind_apply, getModRM_unchecked_eq] at h
            cases hx : RME.readInstr 8 env (opState s p (pfx.length + 1)) with
            | ok y w => rw [hx] at h; exact hnc _ _ h
            | err e w => rw [hx] at h; cases h
            | ub _ => rw [hx] at h; cases h
        | ext0F =>
          obtain ⟨-, rfl⟩ := entry_ext b a m he
          simp only [RME.fetchParam, Bool.false_eq_true, if_false, pure_apply, resbind_ok, RME.callFn, RME.ext0F, bind_apply] at h
          rcases fetch8_cases env s p (pfx.length + 1) with ⟨y, hy, hr⟩ | ⟨hn, hc, hr⟩ | ⟨hn, u, hu, hr⟩
          · rw [hr] at h
            simp only [resbind_ok] at h
            cases hy : opEntry0F y with
            | none => rw [hy] at h; cases h
            | some e =>
              obtain ⟨fn, a', m'⟩ := e
              rw [hy] at h
              cases fn with
              | base o => exact noCont o _ env _ u (entry0F_prefix y o a' m' hy) h
              | ext0F => cases h
          · rw [hr] at h; cases h
          · rw [hr] at h; cases h
  · have : RME.decodeOne env (opState s p pfx.length) = .err .badmem (opState s p pfx.length) := by
      simp only [RME.decodeOne, bind_apply, hr, resbind_err]
    rw [this] at h; cases h
  · have : RME.decodeOne env (opState s p pfx.length) = .ub u := by
      simp only [RME.decodeOne, bind_apply, hr, resbind_ub]
    rw [this] at h; cases h

theorem decodeLoop_np [k : c.Ok] {s : State} (hnp : ¬ AtPopf s) : ∀ fuel pfx p (t : State), Pfx.parse {} pfx = some p → BytesAt s pfx →
    c.R (opState s p pfx.length) t → Rr c Eq (RME.decodeLoop fuel c.e₁ (opState s p pfx.length)) (RME.decodeLoop fuel c.e₂ t) := by
  intro fuel
  induction fuel with
  | zero => intro pfx p t _ _ h; exact ubE (c := c) (V := Eq) _ _ h
  | succ n ih =>
    intro pfx p t hp hb h
    have h1 := decodeOne_np (c := c) h (by
      intro b u hr hbe
      subst hbe
      rcases fetch8_cases c.e₁ s p pfx.length with ⟨y, hy, hr'⟩ | ⟨hn, hc, hr'⟩ | ⟨hn, u, hu, hr'⟩
      · rw [hr'] at hr; cases hr
        exact hnp ⟨pfx, p, hp, hb.snoc hy⟩
      · rw [hr'] at hr; cases hr
      · rw [hr'] at hr; cases hr)
    simp only [RME.decodeLoop]
    cases h2 : RME.decodeOne c.e₁ (opState s p pfx.length) <;> cases h3 : RME.decodeOne c.e₂ t <;> rw [h2, h3] at h1 <;> try exact h1.elim
    · exact h1
    · obtain ⟨rfl, h1⟩ := h1
      rename_i e u v
      cases e
      case cont =>
        obtain ⟨b, p', hp', hb', rfl⟩ := decodeOne_cont hp hb h2
        exact ih _ _ _ hp' hb' h1
      all_goals exact ⟨rfl, h1⟩
    · exact h1

theorem doOpcode_np [k : c.Step0] {s t : State} (hnp : ¬ AtPopf s) (h : c.R s t) : Rr c Eq (RME.doOpcode c.e₁ s) (RME.doOpcode c.e₂ t) := by
  have h0 := startInstr (c := c) s t h
  simp only [RME.doOpcode, bind_apply, getIP_apply, getSreg_apply, resbind_ok, h.1.ip, h.1.sreg]
  cases h2 : RME.startInstr c.e₁ s <;> cases h3 : RME.startInstr c.e₂ t <;> rw [h2, h3] at h0 <;> try exact h0.elim
  · rename_i _ u _ v
    obtain ⟨h0, -⟩ := h0
    have hu : u = opState s {} ([] : List (BitVec 8)).length := by
      simp only [RME.startInstr] at h2
      split at h2
      · cases h2
      · cases h2; rfl
    subst hu
    have h1 := decodeLoop_np (c := c) hnp 6 [] {} v rfl (by intro i hi; simp at hi) h0
    simp only [resbind_ok]
    cases h4 : RME.decodeLoop 6 c.e₁ (opState s {} ([] : List (BitVec 8)).length) <;> cases h5 : RME.decodeLoop 6 c.e₂ v <;> rw [h4, h5] at h1 <;> try exact h1.elim
    · have : Rle c (RME.finishInstr (s.sreg .cs) s.ip) (RME.finishInstr (s.sreg .cs) s.ip) := by
        unfold RME.finishInstr
        exact bindE advanceIP fun _ => bindE nullCheckTail fun _ => k.dbg _ _
      exact this _ _ h1.1
    · exact h1
    · exact h1
  · exact h0
  · exact h0

theorem runOne_np [k : c.Step0] {s t : State} (hnp : Ready s → ¬ AtPopf s) (h : c.R s t) : Rr c Eq (RME.runOne c.e₁ s) (RME.runOne c.e₂ t) := by
  simp only [RME.runOne, h.1.ip, h.1.sreg]
  split
  · exact ⟨rfl, h⟩
  rename_i n1
  split
  · exact bindE (c := c) (m := RME.runHle (s.ip.setWidth 8)) (m' := RME.runHle (s.ip.setWidth 8)) runHle (fun _ => ignoreErr iret) s t h
  · rename_i n2
    have h1 : Rr c Eq (RME.doOpcode c.e₁ s) (RME.doOpcode c.e₂ t) := by
      by_cases h3 : s.instrNum = 2147483647
      · have key : ∀ (e : Env) (x : State), x.instrNum = 2147483647 → RME.doOpcode e x = .ub .signedOverflow := by
          intro e x hx
          simp only [RME.doOpcode, bind_apply, getIP_apply, getSreg_apply, resbind_ok, RME.startInstr, INT_MAX]
          rw [if_pos hx]; rfl
        rw [key _ _ h3, key _ _ ((k.num _ _ h.2.1).trans h3)]
        rfl
      · exact doOpcode_np (hnp ⟨n1, n2, h3⟩) h
    cases h2 : RME.doOpcode c.e₁ s <;> cases h3 : RME.doOpcode c.e₂ t <;> rw [h2, h3] at h1 <;> try exact h1.elim
    · exact h1
    · obtain ⟨rfl, h1⟩ := h1
      rename_i e _ _
      cases e <;> first | exact ⟨rfl, h1⟩ | exact callIntInternal _ _ h1
    · exact h1

end Rl

/-- Everything but the CPU type agrees. -/
def eCpu (a b : Settings) : Prop := b.debugLevel = a.debugLevel ∧ b.lastNull = a.lastNull ∧ b.instrNum = a.instrNum

theorem sameBut_cpu {s t : State} : SameBut eCpu (fun _ _ => True) s t ↔ CpuOnly s t := by
  constructor
  · rintro ⟨c, d, l, n, rfl, ⟨h1, h2, h3⟩, -⟩
    simp only [State.settings] at h1 h2 h3
    subst h1 h2 h3
    exact ⟨c, rfl⟩
  · rintro ⟨c, rfl⟩
    exact ⟨c, s.debugLevel, s.lastNull, s.instrNum, rfl, ⟨rfl, rfl, rfl⟩, trivial⟩

theorem rcCpu_step {env : Env} (h : CallbacksRespect env CpuOnly) : (rcSame env eCpu (fun _ _ => True)).Step0 :=
  have hk : (rcSame env eCpu (fun _ _ => True)).Ok := rcSame_ok fun n f s t hf hr => sameBut_cpu.2 (h n f s t hf (sameBut_cpu.1 hr))
  { toOk := hk
    num := fun _ _ h => h.2.2
    null := fun _ _ h => h.2.1
    setNum := fun _ _ _ h => ⟨h.1, h.2.1, rfl⟩
    setNull := fun _ _ _ h => ⟨h.1, rfl, h.2.2⟩
    dbg := Rl.debugTail_level fun _ _ h => by rw [h.1] }

/-- **C66**: an instruction other than POPF does the same on every CPU type: same return code (or undefined behaviour), same registers, flags and memory. -/
theorem C66_step (env : Env) (hcb : CallbacksRespect env CpuOnly) (s t : State) (h : CpuOnly s t) (hnp : Ready s → ¬ AtPopf s) :
    SameOutcome CpuOnly (runOne env s) (runOne env t) := by
  haveI := rcCpu_step hcb
  refine SameOutcome.mono (R := (rcSame env eCpu (fun _ _ => True)).R) (fun _ _ h => sameBut_cpu.1 (rcSame_R.1 h)) ?_
  have h1 := Rl.runOne_np (c := rcSame env eCpu (fun _ _ => True)) hnp (rcSame_R.2 (sameBut_cpu.2 h))
  revert h1
  show Rr _ _ (runOne env s) (runOne env t) → _
  cases runOne env s <;> cases runOne env t <;> intro h1 <;> first | exact h1.elim | exact h1.1 | exact h1

/-- **C66** for whole runs: as long as no POPF is executed, `RME_Call` does the same on every CPU type, instruction by instruction. -/
theorem C66_call (env : Env) (hcb : CallbacksRespect env CpuOnly) (fuel : Nat) : ∀ (s t : State), CpuOnly s t →
    (∀ n u, Iter env n s u → Ready u → ¬ AtPopf u) → CallsAgree CpuOnly (rmeCall env fuel s) (rmeCall env fuel t) := by
  induction fuel with
  | zero => intro s t _ _; trivial
  | succ fuel ih =>
    intro s t h hnp
    have h1 := C66_step env hcb s t h (hnp 0 s (.zero s))
    simp only [rmeCall]
    cases h2 : runOne env s <;> cases h3 : runOne env t <;> rw [h2, h3] at h1 <;> try exact h1.elim
    · exact ih _ _ h1 fun n u hi => hnp (n + 1) u (.succ h2 hi)
    · obtain ⟨rfl, h1⟩ := h1
      rename_i e _ _
      cases e <;> first | exact ⟨rfl, h1⟩ | exact h1
    · exact h1

/-- **C66**: POPF itself: on two CPU types it succeeds on both, and all that can differ are bits 12 to 15 of FLAGS. -/
theorem C66_popf {s t : State} (h : CpuOnly s t) {h0 : Nat} {p : Pfx} {len : Nat} (hat : At s h0 p [0x9D] len) (ho : p.oper = false) {v : BitVec 16}
    (hv : StackTop s 0 v) (env : Env) :
    ∃ f g, Falls env s len { dropped s 1 with flags := f } ∧ Falls env t len { dropped t 1 with flags := g } ∧ ∀ i, i < 12 → f.getLsbD i = g.getLsbD i := by
  obtain ⟨c, rfl⟩ := h
  have hat' : At { s with cpuType := c } h0 p [0x9D] len := ⟨⟨hat.ready.1, hat.ready.2, hat.ready.3⟩, hat.code⟩
  obtain ⟨f, ⟨f1, f3, f5, -⟩, ff, hf⟩ := C30_popf hat ho hv env
  obtain ⟨g, ⟨g1, g3, g5, -⟩, gg, hg⟩ := C30_popf hat' ho (v := v) hv env
  refine ⟨f, g, hf, hg, fun i hi => ?_⟩
  by_cases h1 : i = 1
  · subst h1; rw [f1, g1]
  by_cases h3 : i = 3
  · subst h3; rw [f3, g3]
  by_cases h5 : i = 5
  · subst h5; rw [f5, g5]
  rw [ff i ⟨by omega, h1, h3, h5, .inr hi⟩, gg i ⟨by omega, h1, h3, h5, .inr hi⟩]

/-- The hypotheses are met: INC AX. -/
example : Ready (demo [0x40]) ∧ ¬ AtPopf (demo [0x40]) ∧ CallbacksRespect demoEnv CpuOnly := by
  refine ⟨demo_ready _, ?_, fun _ _ _ _ h => by cases h⟩
  rintro ⟨pfx, p, hp, hb⟩
  have h0 : ByteAt (demo [0x40]) 0 0x40 := (demo_code [0x40] (by decide)).bytes 0 (by decide)
  cases pfx with
  | nil =>
    have := (hb 0 (by simp)).inj h0
    exact absurd this (by decide)
  | cons b pfx =>
    have := (hb 0 (by simp)).inj h0
    simp only [List.cons_append, List.getElem_cons_zero] at this
    subst this
    simp [Pfx.parse, Pfx.add] at hp
/-- POPF of 0 really differs: F002h on an 8086, 0002h on an 80286. -/
theorem C66_popf_differs : ∃ s t u v, CpuOnly s t ∧ At s 0x10100 {} [0x9D] 1 ∧ runOne demoEnv s = .ok () u ∧ runOne demoEnv t = .ok () v ∧ u.flags = 0xF002 ∧ v.flags = 0x0002 :=
  ⟨{ demo [0x9D] with cpuType := .i8086 }, { demo [0x9D] with cpuType := .i80286 }, _, _, ⟨.i80286, rfl⟩, ⟨by decide +kernel, [], rfl, by decide +kernel, rfl⟩,
    conc_ok (by decide +kernel), conc_ok (by decide +kernel), by decide +kernel, by decide +kernel⟩

end RME
