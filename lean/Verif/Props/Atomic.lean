import Verif.Lemmas.Atomic
import Verif.Props.Frame
import Verif.Props.Sequential
set_option autoImplicit false
/-
C86: an instruction that fails leaves no trace.
-/
namespace RME

theorem add_oper {q q' : Pfx} {b} (h1 : q.add b = some q') : (q'.oper = true ↔ q.oper = true ∨ b = 0x66) := by
  unfold Pfx.add at h1
  dsimp only at h1
  iterate 6
    rcases ite_eq_cases h1 with ⟨hb, h1⟩ | ⟨_, h1⟩
    · subst hb; rw [ite_some h1]; simp
  iterate 2
    rcases ite_eq_cases h1 with ⟨hb, h1⟩ | ⟨_, h1⟩
    · subst hb; rw [ite_some h1]; simp
  iterate 2
    rcases ite_eq_cases h1 with ⟨hb, h1⟩ | ⟨_, h1⟩
    · subst hb; rw [ite_some h1]; simp
  cases h1

theorem parse_oper {pfx : List (BitVec 8)} : ∀ {q p : Pfx}, Pfx.parse q pfx = some p → (p.oper = true ↔ q.oper = true ∨ operIn pfx = true) := by
  induction pfx with
  | nil => intro q p h; simp [Pfx.parse] at h; subst h; simp [operIn]
  | cons b bs ih =>
    intro q p h
    simp only [Pfx.parse, Option.bind_eq_some_iff] at h
    obtain ⟨q', h1, h2⟩ := h
    rw [ih h2, add_oper h1]
    simp only [operIn, List.any_cons, Bool.or_eq_true, decide_eq_true_eq, or_assoc]

/-- LDS, LES, … -/
def Op.isLxs : Op → Bool
  | .lxs _ => true
  | _ => false

/-- The opcode functions that may fail half-way are those of the specification. -/
def tearOk (op : BitVec 8) (e : Entry) (r : BitVec 3) (rep oper : Bool) : Bool :=
  match e.fn with
  | .base o => o.isPrefix ||
    (if e.modrm then o.usesM && (opForm op r).1 && (!o.tears r rep oper || tears op r rep oper)
     else if o.usesM then (opForm op r).1 && (!o.tears e.arg rep oper || (o.isLxs && tears op r rep oper))
     else !(opForm op 0).1 && (!o.tears e.arg rep oper || tears op 0 rep oper))
  | _ => true
def tearOk0F (op : BitVec 8) (e : Entry) (rep oper : Bool) : Bool :=
  match e.fn with
  | .base o => o.isPrefix || (!o.tears e.arg rep oper || tears0F op)
  | _ => true

theorem tearOk_all : ∀ rep oper r b, chk (fun b e => tearOk b e r rep oper) b = true := by decide +kernel
theorem tearOk0F_all : ∀ rep oper b, chkF (fun b e => tearOk0F b e rep oper) b = true := by decide +kernel

theorem dec_tears {s p k o a} (hd : Dec s p k o a) (hn : o.isPrefix = false) (hm : o.isLxs = true → ∃ b, ByteAt s k b)
    (h : o.tears a (decide (p.rep ≠ .none)) p.oper = true) : TearsAt s := by
  have hrep : ∀ {pfx}, Pfx.parse {} pfx = some p → decide (p.rep ≠ .none) = repIn pfx ∧ p.oper = operIn pfx := by
    intro pfx hp
    have h1 := parse_rep hp
    have h2 := parse_oper hp
    simp at h1 h2
    refine ⟨?_, ?_⟩
    · cases hr : repIn pfx <;> simp [h1, hr]
    · cases hr : operIn pfx <;> simp_all
  cases hd with
  | @one pfx p op o a hp hb hne he =>
    obtain ⟨e1, e2⟩ := hrep hp
    rw [e1, e2] at h
    have hc := fun r => chk_some (tearOk_all (repIn pfx) (operIn pfx) r op) he
    have hg := (C36_prefixes pfx).1.1 ⟨p, hp⟩
    cases hu : o.usesM
    · have := hc 0
      simp [tearOk, hn, hu, h] at this
      exact .plain hg hb this.1 this.2
    · have := hc 0
      simp [tearOk, hn, hu, h] at this
      obtain ⟨b, hb1⟩ := hm this.2.1
      have := hc (regOf b)
      simp [tearOk, hn, hu, h] at this
      refine .modrm (m := b) hg ?_ this.1 this.2.2
      have h2 : pfx ++ [op, b] = (pfx ++ [op]) ++ [b] := by simp
      rw [h2]
      exact BytesAt.snoc hb (by simpa using hb1)
  | @grp pfx p op m o a hp hb hne he =>
    obtain ⟨e1, e2⟩ := hrep hp
    rw [e1, e2] at h
    have hg := (C36_prefixes pfx).1.1 ⟨p, hp⟩
    have hm : (m >>> 3).setWidth 3 = regOf m := by
      have := ofByteF_reg m; exact this
    rw [hm] at h
    have := chk_some (tearOk_all (repIn pfx) (operIn pfx) (regOf m) op) he
    simp [tearOk, hn, h] at this
    exact .modrm hg hb this.1.2 this.2
  | @ext pfx p op o a e hp hb he =>
    obtain ⟨e1, e2⟩ := hrep hp
    rw [e1, e2] at h
    have hg := (C36_prefixes pfx).1.1 ⟨p, hp⟩
    have := chkF_some (tearOk0F_all (repIn pfx) (operIn pfx) op) he
    simp [tearOk0F, hn, h] at this
    exact .two hg hb this

theorem lxs_byte {o : Op} {a : BitVec 3} {env : Env} {s : State} {p k e t} (ho : o.isLxs = true) (h : opFn o a env (opState s p k) = .err e t) :
    ∃ b, ByteAt s k b := by
  cases o <;> first | (cases ho; done) | skip
  simp only [opFn, opLxs, bind_apply, getModRM_unchecked, getModRM] at h
  rcases fetch8_cases env s p k with ⟨b', hb, hr⟩ | ⟨hn, _, hr⟩ | ⟨hn, u, hu, hr⟩
  · exact ⟨b', hb⟩
  · rw [hr] at h; cases h
  · rw [hr] at h; cases h

/-- Without the instruction dump only the first two bytes of the instruction are read again. -/
theorem finish_fails0 {cs ip} {env : Env} {s e t} (h : finishInstr cs ip env s = .err e t) (hd : t.debugLevel < 1) :
    e = .breakpoint ∨ (e = .badmem ∧ (hostAddr t cs ip = none ∨ hostAddr t cs (ip + 1) = none)) := by
  rcases finish_err _ _ _ _ _ _ h with rfl | rfl
  · refine Or.inr ⟨rfl, ?_⟩
    simp only [finishInstr, bind_apply] at h
    cases h1 : advanceIP env s with
    | err e w =>
      exfalso
      simp only [advanceIP, bind_apply, getDec_apply, resbind_ok, ite_apply] at h1
      split at h1 <;> cases h1
    | ub w => rw [h1] at h; cases h
    | ok _ s1 =>
    rw [h1, resbind_ok] at h
    cases h2 : nullCheckTail cs ip env s1 with
    | ub w => rw [h2] at h; cases h
    | ok _ s2 =>
      exfalso
      rw [h2, resbind_ok] at h
      simp only [debugTail, bind_apply, gets_apply, resbind_ok, ite_apply] at h
      have hdump : ∀ j i (s : State) e t, dumpLoop cs j i env s = .err e t → t = s := by
        intro j
        induction j with
        | zero => intro i s e t h; cases h
        | succ j ih =>
          intro i s e t h
          simp only [dumpLoop, bind_apply] at h
          cases h1 : readMem 8 cs i env s with
          | ok v w =>
            rw [h1] at h
            obtain ⟨rfl, _⟩ := readMem_inv (by decide) h1
            exact ih _ _ _ _ h
          | err e w => rw [h1] at h; cases h; exact (readMem_fails h1).1
          | ub w => rw [h1] at h; cases h
      split at h
      · rename_i hlv
        have := hdump _ _ _ _ _ h
        subst this
        omega
      · cases h
    | err e w =>
      rw [h2] at h
      cases h
      simp only [nullCheckTail, bind_apply, getDec_apply, resbind_ok, ite_apply] at h2
      split at h2
      · cases h3 : readMem 8 cs ip env s1 with
        | err e w => rw [h3] at h2; cases h2; obtain ⟨rfl, h4⟩ := readMem_fails h3; exact Or.inl h4
        | ub w => rw [h3] at h2; cases h2
        | ok v w =>
        rw [h3, resbind_ok] at h2
        cases h4 : readMem 8 cs (ip + 1) env w with
        | err e w => rw [h4] at h2; cases h2; obtain ⟨rfl, h4⟩ := readMem_fails h4; exact Or.inr h4
        | ub w => rw [h4] at h2; cases h2
        | ok v2 w2 =>
          exfalso
          rw [h4, resbind_ok] at h2
          split at h2
          · simp only [gets_apply, resbind_ok] at h2
            cases hw : w2.lastNull
            · simp [hw, guardE, modify, pure_apply] at h2
            · simp [hw, guardE, throwE] at h2
          · cases h2
      · cases h2
  · exact Or.inl rfl

/-- The bytes the emulator reads again after it has completed an instruction at `cs`:`ip`: all of its bytes if a debug level is set, the first two otherwise. -/
def RereadOk (cs ip : BitVec 16) (t : State) : Prop :=
  (∀ ofs, hostAddr t cs ofs ≠ none) ∨ (t.debugLevel < 1 ∧ hostAddr t cs ip ≠ none ∧ hostAddr t cs (ip + 1) ≠ none)

/-- C86: when RME_RunOne returns an error code, the instruction has left no trace: all registers, segment registers, IP, FLAGS, the memory and the record of port
accesses are as before. Partial: not for the instructions of `TearsAt` (each class is really torn, `C86_violated_*`), and not for an error
found after the instruction is complete — the BREAKPOINT of the runaway detector (`hb`; `C44_violated_detector`) and BADMEM of the instruction dump (`hm`; `C44_violated_dump`). -/
theorem C86_notrace_partial {env : Env} {s t : State} {e : Err} (h : runOne env s = .err e t) (hn : ¬ TearsAt s)
    (hb : e = .breakpoint → OpcodeAt s 0xF1) (hm : e = .badmem → RereadOk (s.sreg .cs) s.ip t) : Untouched s t := by
  rcases runOne_cases env s with ⟨_, _, h1⟩ | ⟨_, _, h1⟩ | ⟨_, h1⟩ | ⟨hr, q, hs, h1⟩
  · rw [h1] at h; cases h; rfl
  · rw [h1] at h; exact absurd h (ignoreErr_noErr _ _ _ _ _)
  · rw [h1] at h; cases h
  rw [h1] at h
  cases hs with
  | ub hu hb => cases h
  | badmem => cases h; rfl
  | brk => cases h; rfl
  | undef => cases h; rfl
  | undefF => cases h; rfl
  | @op p k o a hd hnp =>
    cases h2 : opFn o a env (opState s p k) with
    | ub u => rw [h2] at h; cases h
    | ok x u =>
      rw [h2] at h
      have h3 : finishInstr (s.sreg .cs) s.ip env u = .err e t := h
      have hne : e ≠ .breakpoint := fun he => dec_notF1 hd hnp (hb he)
      rcases finish_fails h3 with he | ⟨he, ofs, h4⟩
      · exact absurd he hne
      · rcases hm he with h5 | ⟨h5, h6, h7⟩
        · exact absurd h4 (h5 ofs)
        · rcases finish_fails0 h3 h5 with h8 | ⟨_, h8 | h8⟩
          · exact absurd h8 hne
          · exact absurd h8 h6
          · exact absurd h8 h7
    | err e' u =>
      rw [h2] at h
      have hk : Keep (opState s p k) u := by
        refine op_atm (rep := decide (p.rep ≠ .none)) (oper := p.oper) hnp (fun h => by simp at h; exact h) (fun h => h) ?_ h2
        cases ht : o.tears a (decide (p.rep ≠ .none)) p.oper
        · rfl
        · exact absurd (dec_tears hd hnp (fun h => lxs_byte h h2) ht) hn
      have hun : Untouched s u := by
        unfold Keep at hk; unfold Untouched; rw [hk]; rfl
      by_cases hdv : e' = .divErr
      · subst hdv
        exfalso
        have hv := opFn_div env hnp h2
        refine hn (dec_tears hd hnp (fun h => lxs_byte h h2) ?_)
        cases o <;> first | (cases hv; done) | rfl | skip
        all_goals simpa [Op.isDiv, Op.tears] using hv
      · have : (Res.err e' u : Res Unit) = .err e t := by
          cases e' <;> first | exact h | exact absurd rfl hdv
        cases this
        exact hun

/-! ### Examples and witnesses -/

/-- The null check is compiled in. -/
def tornEnv : Env := { demoEnv with nullCheck := true }
/-- `code` at 1000:0100; block `b` is not mapped, register `r` is `v`. -/
def torn (code : List (BitVec 8)) (b : Nat) (r : BitVec 3 := 0) (v : BitVec 32 := 0x11220055) : State :=
  { (demo code).setGpr r v with map := fun x => if x = b then none else (demo []).map x }

/-- MOV AX, [BX] with DS:BX not mapped: the hypotheses hold (so AX and everything else are unchanged). -/
example : ∃ t, runOne tornEnv (torn [0x8B, 0x07] 0x30) = .err .badmem t ∧ ¬ TearsAt (torn [0x8B, 0x07] 0x30) ∧
    RereadOk 0x1000 0x100 t := by
  refine ⟨_, conc_err (by decide +kernel), ?_, Or.inr (by decide +kernel)⟩
  have h0 : ∀ b, ByteAt (torn [0x8B, 0x07] 0x30) 0 b → b = 0x8B := fun b h => h.inj ⟨0x10100, by decide +kernel, by decide +kernel, by decide +kernel⟩
  have hp : ∀ {pfx rest}, GoodPrefixes pfx → BytesAt (torn [0x8B, 0x07] 0x30) (pfx ++ rest) → pfx = [] := by
    intro pfx rest hg hb
    cases pfx with
    | nil => rfl
    | cons b bs =>
      have := h0 b (hb 0 (by simp))
      subst this
      exact absurd rfl (hg.1 0x8B (by simp))
  intro h
  cases h with
  | plain hg hb hf ht =>
    have := hp hg hb; subst this
    have he := h0 _ (hb 0 (by simp))
    simp only [List.nil_append, List.getElem_cons_zero] at he
    rw [he] at hf; exact absurd hf (by decide)
  | modrm hg hb hf ht =>
    have := hp hg hb; subst this
    have he := h0 _ (hb 0 (by simp))
    simp only [List.nil_append, List.getElem_cons_zero] at he
    rw [he] at ht
    revert ht
    generalize regOf _ = r
    revert r; decide
  | two hg hb ht =>
    have := hp hg hb; subst this
    have he := h0 _ (hb 0 (by simp))
    simp only [List.nil_append, List.getElem_cons_zero] at he
    exact absurd he (by decide)

/-- C86 is violated by every push: PUSH AX with SS:SP not mapped fails with BADMEM, but SP is already lowered. -/
theorem C86_violated_push : ∃ t, runOne tornEnv (torn [0x50] 0x20) = .err .badmem t ∧ RereadOk 0x1000 0x100 t ∧
    (torn [0x50] 0x20).gpr 4 = 0x1000 ∧ t.gpr 4 = 0xFFE :=
  ⟨_, conc_err (by decide +kernel), Or.inr (by decide +kernel), by decide +kernel, by decide +kernel⟩
/-- CALL likewise. -/
theorem C86_violated_call : ∃ t, runOne tornEnv (torn [0xE8, 5, 0] 0x20) = .err .badmem t ∧ RereadOk 0x1000 0x100 t ∧ t.gpr 4 = 0xFFE :=
  ⟨_, conc_err (by decide +kernel), Or.inr (by decide +kernel), by decide +kernel⟩
/-- C86 is violated by POPA: DI is already loaded when the second pop fails. -/
theorem C86_violated_popa : ∃ t, runOne tornEnv (torn [0x61] 0x21 4 0xFFE) = .err .badmem t ∧ RereadOk 0x1000 0x100 t ∧
    (torn [0x61] 0x21 4 0xFFE).gpr 7 = 0x300 ∧ t.gpr 7 = 0 ∧ t.gpr 4 = 0x1000 :=
  ⟨_, conc_err (by decide +kernel), Or.inr (by decide +kernel), by decide +kernel, by decide +kernel, by decide +kernel⟩
/-- C86 is violated by RET far: SP is moved by the first pop. -/
theorem C86_violated_retf : ∃ t, runOne tornEnv (torn [0xCB] 0x21 4 0xFFE) = .err .badmem t ∧ RereadOk 0x1000 0x100 t ∧ t.gpr 4 = 0x1000 :=
  ⟨_, conc_err (by decide +kernel), Or.inr (by decide +kernel), by decide +kernel⟩
/-- C86 is violated by POP EAX (prefix 66): the lower half is loaded. -/
theorem C86_violated_pop32 : ∃ t, runOne tornEnv (torn [0x66, 0x58] 0x21 4 0xFFE) = .err .badmem t ∧ RereadOk 0x1000 0x100 t ∧
    (torn [0x66, 0x58] 0x21 4 0xFFE).gpr 0 = 0x11220055 ∧ t.gpr 0 = 0x11220000 :=
  ⟨_, conc_err (by decide +kernel), Or.inr (by decide +kernel), by decide +kernel, by decide +kernel⟩
/-- C86 is violated by LEAVE: SP is already BP when the pop fails. -/
theorem C86_violated_leave : ∃ t, runOne tornEnv (torn [0xC9] 0x20) = .err .badmem t ∧ RereadOk 0x1000 0x100 t ∧ t.gpr 4 = 0x800 :=
  ⟨_, conc_err (by decide +kernel), Or.inr (by decide +kernel), by decide +kernel⟩
/-- C86 is violated by LES: the register is loaded when the segment word turns out not to be mapped. -/
theorem C86_violated_les : ∃ t, runOne tornEnv (torn [0xC4, 0x07] 0x31 3 0xFFE) = .err .badmem t ∧ RereadOk 0x1000 0x100 t ∧
    (torn [0xC4, 0x07] 0x31 3 0xFFE).gpr 0 = 0x11220055 ∧ t.gpr 0 = 0x11220000 ∧ t.sreg .es = 0x4000 :=
  ⟨_, conc_err (by decide +kernel), Or.inr (by decide +kernel), by decide +kernel, by decide +kernel, by decide +kernel⟩
/-- C86 is violated by repeated string instructions: REP STOSB stores two bytes and counts CX down to 0, but neither completes nor updates DI (so that it cannot
be resumed). -/
theorem C86_violated_rep : ∃ t, runOne tornEnv (torn [0xF3, 0xAA] 0x41 7 0xFFE) = .err .badmem t ∧ RereadOk 0x1000 0x100 t ∧
    (torn [0xF3, 0xAA] 0x41 7 0xFFE).gpr 1 = 3 ∧ t.gpr 1 = 0 ∧ t.gpr 7 = 0xFFE ∧ (torn [0xF3, 0xAA] 0x41 7 0xFFE).host 0x40FFE = 0 ∧ t.host 0x40FFE = 0x55 :=
  ⟨_, conc_err (by decide +kernel), Or.inr (by decide +kernel), by decide +kernel, by decide +kernel, by decide +kernel, by decide +kernel, by decide +kernel⟩
/-- C86 is violated by INS: the port has been read (a device may have been changed) when the destination turns out not to be mapped. -/
theorem C86_violated_ins : ∃ t, runOne tornEnv (torn [0x6C] 0x40) = .err .badmem t ∧ RereadOk 0x1000 0x100 t ∧
    (torn [0x6C] 0x40).io = [] ∧ t.io = [.inp 1 0x33 0] :=
  ⟨_, conc_err (by decide +kernel), Or.inr (by decide +kernel), rfl, by decide +kernel⟩
/-- ADD AX, imm16 (long form) whose immediate lies in an unmapped block; ZF is set. -/
def tornImm : State :=
  { demo [] with ip := 0xFFE, flags := 0x42, host := fun a => if a = 0x10FFE then 0x81 else if a = 0x10FFF then 0xC0 else 0,
                 map := fun b => if b = 0x11 then none else (demo []).map b }
/-- C86 is violated by the immediate group (opcodes 81 and 83): OF, ZF, SF and PF are cleared before the immediate is fetched. -/
theorem C86_violated_imm : ∃ t, runOne tornEnv tornImm = .err .badmem t ∧ RereadOk 0x1000 0xFFE t ∧ tornImm.flags = 0x42 ∧ t.flags = 2 :=
  ⟨_, conc_err (by decide +kernel), Or.inr (by decide +kernel), rfl, by decide +kernel⟩
/-- C86 is violated by a divide error that cannot be delivered: SP is lowered. -/
theorem C86_violated_div : ∃ t, runOne tornEnv (torn [0xF6, 0xF5] 0x20) = .err .badmem t ∧ RereadOk 0x1000 0x100 t ∧ t.gpr 4 = 0xFFE :=
  ⟨_, conc_err (by decide +kernel), Or.inr (by decide +kernel), by decide +kernel⟩

end RME
