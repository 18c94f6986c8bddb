import Verif.Lemmas.Seq2
import Verif.Lemmas.Conc
set_option autoImplicit false
/-
C44: sequential execution.
-/
namespace RME

/-! ### Proofs -/

theorem dumpLoop_keeps (cs) : ∀ j i (env : Env) (s u t), dumpLoop cs j i env s = .ok u t → t = s := by
  intro j
  induction j with
  | zero => intro i env s u t h; cases h; rfl
  | succ j ih =>
    intro i env s u t h
    simp only [dumpLoop, bind_apply] at h
    cases h1 : readMem 8 cs i env s with
    | ok v w =>
      rw [h1] at h
      obtain ⟨rfl, _⟩ := readMem_inv (by decide) h1
      exact ih _ _ _ _ _ h
    | err e w => rw [h1] at h; cases h
    | ub w => rw [h1] at h; cases h

theorem debugTail_keeps {cs ip} {env : Env} {s u t} (h : debugTail cs ip env s = .ok u t) : t = s := by
  simp only [debugTail, bind_apply, gets_apply, resbind_ok, ite_apply] at h
  split at h
  · exact dumpLoop_keeps _ _ _ _ _ _ _ h
  · cases h; rfl

theorem nullCheckTail_keeps {cs ip} {env : Env} {s u t} (h : nullCheckTail cs ip env s = .ok u t) : ∃ b, t = { s with lastNull := b } := by
  simp only [nullCheckTail, bind_apply, getDec_apply, resbind_ok, ite_apply] at h
  split at h
  · cases h1 : readMem 8 cs ip env s with
    | err e w => rw [h1] at h; cases h
    | ub w => rw [h1] at h; cases h
    | ok v w =>
    rw [h1] at h
    obtain ⟨rfl, _⟩ := readMem_inv (by decide) h1
    simp only [resbind_ok] at h
    cases h2 : readMem 8 cs (ip + 1) env w with
    | err e x => rw [h2] at h; cases h
    | ub x => rw [h2] at h; cases h
    | ok v2 x =>
    rw [h2] at h
    obtain ⟨rfl, _⟩ := readMem_inv (by decide) h2
    simp only [resbind_ok, ite_apply, bind_apply, gets_apply] at h
    split at h
    · cases hl : x.lastNull
      · rw [hl] at h; cases h; exact ⟨_, rfl⟩
      · rw [hl] at h; cases h
    · cases h; exact ⟨_, rfl⟩
  · cases h; exact ⟨_, rfl⟩

theorem finish_adv {cs ip} {env : Env} {s u t} (h : finishInstr cs ip env s = .ok u t) (hd : s.dec.dontChangeIP = false) :
    t.ip = s.ip + BitVec.ofNat 16 s.dec.ipOffset ∧ t.sreg = s.sreg := by
  have ha : advanceIP env s = .ok () { s with ip := s.ip + BitVec.ofNat 16 s.dec.ipOffset } := by
    simp only [advanceIP, bind_apply, getDec_apply, resbind_ok, ite_apply]
    rw [if_neg (by rw [hd]; decide)]
    rfl
  simp only [finishInstr, bind_apply, ha, resbind_ok] at h
  generalize hs1 : ({ s with ip := s.ip + BitVec.ofNat 16 s.dec.ipOffset } : State) = s1 at h
  cases h1 : nullCheckTail cs ip env s1 with
  | err e w => rw [h1] at h; cases h
  | ub w => rw [h1] at h; cases h
  | ok v w =>
  rw [h1] at h
  obtain ⟨b, rfl⟩ := nullCheckTail_keeps h1
  have := debugTail_keeps h
  subst this hs1
  exact ⟨rfl, rfl⟩

theorem Fe.ex {α β : Type} {s : State} {p k} {m : M α} {f : α → M β} {Q} {R : State → Prop} (hm : Fe s p k m Q)
    (hf : ∀ a k', Q a k' → ∀ env t b t', Cst s p k' t → f a env t = .ok b t' → R t') :
    ∀ env t b t', Cst s p k t → (m >>= f) env t = .ok b t' → R t' := by
  intro env t b t' hc h
  simp only [bind_apply] at h
  cases h1 : m env t with
  | ok a u =>
    rw [h1] at h
    obtain ⟨k', h2, h3⟩ := hm env t a u hc h1
    exact hf a k' h3 env u b t' h2 h
  | err e u => rw [h1] at h; cases h
  | ub u => rw [h1] at h; cases h

theorem Fe.readLoc {s : State} {p k} (n l) : Fe s p k (RME.readLoc n l) (fun _ k' => k' = k) := by
  refine Fe.keep fun env t a t' h1 => ?_
  cases l
  · cases h1; exact ⟨rfl, fun _ => rfl⟩
  · cases h1; exact ⟨rfl, fun _ => rfl⟩
  · simp only [RME.readLoc, RME.loadM] at h1
    split at h1 <;> cases h1
    exact ⟨rfl, fun _ => rfl⟩

theorem movSR_keeps {s : State} {p k r n} (ha : AddrAt s p k r n) (hr : r ≠ 1) {env u t} (h : opMovSR env (opState s p k) = .ok u t) :
    t.ip = s.ip ∧ t.sreg .cs = s.sreg .cs ∧ t.dec.dontChangeIP = false := by
  refine Fe.ex (R := fun t => t.ip = s.ip ∧ t.sreg .cs = s.sreg .cs ∧ t.dec.dontChangeIP = false) (s := s) (p := p) (k := k) Fe.getDec (fun d k1 h1 => ?_) env (opState s p k) u t ⟨rfl, rfl, rfl, rfl, rfl, rfl⟩ h
  obtain ⟨rfl, _⟩ := h1
  refine Fe.ex (Fe.guard _ _) (fun _ k2 h2 => ?_)
  obtain ⟨rfl, _⟩ := h2
  refine Fe.ex Fe.peek (fun b k3 h3 => ?_)
  obtain ⟨rfl, hb⟩ := h3
  refine Fe.ex (Fe.segOf _) (fun sr k4 h4 => ?_)
  obtain ⟨rfl, hsr⟩ := h4
  refine Fe.ex Fe.parseModRMX (fun x k5 _ => ?_)
  refine Fe.ex (Fe.readLoc _ _) (fun v k6 h6 => ?_)
  subst h6
  intro env t u t' hc h7
  cases h7
  refine ⟨hc.ip, ?_, by simp only [State.setSreg]; rw [hc.dec]; rfl⟩
  have hne : SReg.cs ≠ sr := by
    rintro rfl
    obtain ⟨m, sib, hm, h8, _⟩ := ha
    have := ByteAt.inj hb hm
    subst this
    rw [regOf_eq, h8] at hsr
    have hd : ∀ r : BitVec 3, segNum r = some .cs → r = 1 := by decide
    exact hr (hd r hsr)
  simp only [State.setSreg]
  rw [if_neg hne]
  exact hc.cs

/-! ### C44 -/

/-- C44: prefixes, opcode, register field and length of the instruction at CS:IP are determined by memory. -/
theorem C44_length_unique {s : State} {p p' : Pfx} {two two' : Bool} {op op' : BitVec 8} {r r' : BitVec 3} {n n' : Nat}
    (h : InstrAt s p two op r n) (h' : InstrAt s p' two' op' r' n') : p = p' ∧ two = two' ∧ op = op' ∧ r = r' ∧ n = n' := by
  have hf : ∀ (op : BitVec 8) (r : BitVec 3), (opForm op r).1 = (opForm op 0).1 := by decide +kernel
  cases h with
  | plain hp hb h1 h2 hf1 =>
    cases h' with
    | plain hp' hb' h1' h2' hf' =>
      obtain ⟨rfl, rfl, rfl⟩ := pfx_unique hb hb' hp hp' h1 h1'
      exact ⟨rfl, rfl, rfl, rfl, rfl⟩
    | rm hp' hb' h1' h2' hf' ha' =>
      obtain ⟨rfl, rfl, rfl⟩ := pfx_unique hb hb' hp hp' h1 h1'
      rw [hf, hf1] at hf'; cases hf'
    | plain0F hp' hb' hf' =>
      obtain ⟨rfl, rfl, rfl⟩ := pfx_unique hb hb' hp hp' h1 (by decide)
      exact absurd rfl h2
    | rm0F hp' hb' hf' ha' =>
      obtain ⟨rfl, rfl, rfl⟩ := pfx_unique hb hb' hp hp' h1 (by decide)
      exact absurd rfl h2
  | rm hp hb h1 h2 hf1 ha =>
    cases h' with
    | plain hp' hb' h1' h2' hf' =>
      obtain ⟨rfl, rfl, rfl⟩ := pfx_unique hb hb' hp hp' h1 h1'
      rw [hf, hf'] at hf1; cases hf1
    | rm hp' hb' h1' h2' hf' ha' =>
      obtain ⟨rfl, rfl, rfl⟩ := pfx_unique hb hb' hp hp' h1 h1'
      obtain ⟨rfl, rfl⟩ := ha.unique ha'
      exact ⟨rfl, rfl, rfl, rfl, rfl⟩
    | plain0F hp' hb' hf' =>
      obtain ⟨rfl, rfl, rfl⟩ := pfx_unique hb hb' hp hp' h1 (by decide)
      exact absurd rfl h2
    | rm0F hp' hb' hf' ha' =>
      obtain ⟨rfl, rfl, rfl⟩ := pfx_unique hb hb' hp hp' h1 (by decide)
      exact absurd rfl h2
  | plain0F hp hb hf1 =>
    cases h' with
    | plain hp' hb' h1' h2' hf' =>
      obtain ⟨rfl, rfl, rfl⟩ := pfx_unique hb hb' hp hp' (by decide) h1'
      exact absurd rfl h2'
    | rm hp' hb' h1' h2' hf' ha' =>
      obtain ⟨rfl, rfl, rfl⟩ := pfx_unique hb hb' hp hp' (by decide) h1'
      exact absurd rfl h2'
    | plain0F hp' hb' hf' =>
      obtain ⟨rfl, rfl, _⟩ := pfx_unique hb hb' hp hp' (by decide) (by decide)
      cases ByteAt.inj (hb.right 1 (by simp)) (hb'.right 1 (by simp))
      exact ⟨rfl, rfl, rfl, rfl, rfl⟩
    | rm0F hp' hb' hf' ha' =>
      obtain ⟨rfl, rfl, _⟩ := pfx_unique hb hb' hp hp' (by decide) (by decide)
      cases ByteAt.inj (hb.right 1 (by simp)) (hb'.right 1 (by simp))
      have hf' : (opForm0F op).1 = true := hf'
      rw [hf1] at hf'; cases hf'
  | rm0F hp hb hf1 ha =>
    cases h' with
    | plain hp' hb' h1' h2' hf' =>
      obtain ⟨rfl, rfl, rfl⟩ := pfx_unique hb hb' hp hp' (by decide) h1'
      exact absurd rfl h2'
    | rm hp' hb' h1' h2' hf' ha' =>
      obtain ⟨rfl, rfl, rfl⟩ := pfx_unique hb hb' hp hp' (by decide) h1'
      exact absurd rfl h2'
    | plain0F hp' hb' hf' =>
      obtain ⟨rfl, rfl, _⟩ := pfx_unique hb hb' hp hp' (by decide) (by decide)
      cases ByteAt.inj (hb.right 1 (by simp)) (hb'.right 1 (by simp))
      have hf' : (opForm0F op).1 = false := hf'
      rw [hf1] at hf'; cases hf'
    | rm0F hp' hb' hf' ha' =>
      obtain ⟨rfl, rfl, _⟩ := pfx_unique hb hb' hp hp' (by decide) (by decide)
      cases ByteAt.inj (hb.right 1 (by simp)) (hb'.right 1 (by simp))
      obtain ⟨rfl, rfl⟩ := ha.unique ha'
      exact ⟨rfl, rfl, rfl, rfl, rfl⟩

/-- C44: wherever code is readable, an opcode after at most one prefix of each kind is an instruction with a length. -/
theorem C44_length_exists {s : State} {pfx : List (BitVec 8)} {p : Pfx} {op : BitVec 8} (hall : ∀ k, ∃ b, ByteAt s k b)
    (hp : Pfx.parse {} pfx = some p) (hb : BytesAt s (pfx ++ [op])) (h1 : isPrefixByte op = false) :
    ∃ two op' r n, InstrAt s p two op' r n := by
  have addr : ∀ k, ∃ r n, AddrAt s p k r n := by
    intro k
    obtain ⟨m, hm⟩ := hall k
    obtain ⟨sib, hs⟩ := hall (k + 1)
    exact ⟨_, _, m, sib, hm, rfl, fun _ _ _ => hs, rfl⟩
  have hf : ∀ (op : BitVec 8) (r : BitVec 3), (opForm op r).1 = (opForm op 0).1 := by decide +kernel
  by_cases h2 : op = 0x0F
  · subst h2
    obtain ⟨op', hop⟩ := hall (pfx.length + 1)
    have hb' : BytesAt s (pfx ++ [0x0F, op']) := by
      have : pfx ++ [0x0F, op'] = (pfx ++ [0x0F]) ++ [op'] := by simp
      rw [this]
      intro i hi
      by_cases h : i < (pfx ++ [0x0F]).length
      · rw [List.getElem_append_left h]
        exact hb i h
      · have hi' : i = pfx.length + 1 := by simp at hi h; omega
        subst hi'
        simpa using hop
    cases h3 : (opForm0F op').1
    · exact ⟨_, _, _, _, .plain0F hp hb' h3⟩
    · obtain ⟨r, n, ha⟩ := addr (pfx.length + 2)
      exact ⟨_, _, _, _, .rm0F hp hb' h3 ha⟩
  · cases h3 : (opForm op 0).1
    · exact ⟨_, _, _, _, .plain hp hb h1 h2 h3⟩
    · obtain ⟨r, n, ha⟩ := addr (pfx.length + 1)
      exact ⟨_, _, _, _, .rm hp hb h1 h2 ((hf op r).trans h3) ha⟩

example : ∀ k, ∃ b, ByteAt (demo [0x90]) k b := fun k =>
  ⟨_, _, demo_hostAddr _ _ _, by have := linear_lt ((demo [0x90]).sreg .cs) ((demo [0x90]).ip + BitVec.ofNat 16 k); simp [demo] at *; omega, rfl⟩

/-- C44: an instruction that is not a control transfer advances IP by its length (modulo 2^16) and leaves CS, unless it
raises a divide error, in which case it continues at the vector of interrupt 0 with the address of the instruction on the stack.
Partial: not for PUSH imm with prefix 66 (`C44_violated_push_imm32`). -/
theorem C44_advances_partial {env : Env} {s t : State} {p : Pfx} {two : Bool} {op : BitVec 8} {r : BitVec 3} {n : Nat} (hr : Ready s)
    (hi : InstrAt s p two op r n) (ht : isTransfer two op r = false) (h68 : ¬ (two = false ∧ op = 0x68 ∧ p.oper = true))
    (h : runOne env s = .ok () t) :
    (t.sreg .cs = s.sreg .cs ∧ t.ip = s.ip + BitVec.ofNat 16 n) ∨
    (isDivide two op r = true ∧ Holds t 0 0 t.ip ∧ Holds t 0 2 (t.sreg .cs) ∧ StackTop t 0 s.ip) := by
  obtain ⟨q, hs, h1⟩ := runOne_shape hr env
  rw [h1] at h
  cases hs with
  | ub hu hb => cases h
  | badmem => cases h
  | brk => cases h
  | undef => cases h
  | undefF => cases h
  | @op p' k o a hd hn =>
    obtain ⟨hc, hsg, hmv, hdv⟩ := transfer_table hd hn hi ht
    have hp : p' = p := (dec_instr hd hn hi).1
    cases h2 : opFn o a env (opState s p' k) with
    | ub u => rw [h2] at h; cases h
    | ok x u =>
      rw [h2] at h
      left
      have hl := opFn_len (s := s) (p := p') (k := k) o a hc hn env (opState s p' k) x u ⟨rfl, rfl, rfl, rfl, rfl, rfl⟩ h2
      have hlen := form_table hd hn hi h68 hc hl
      have hkeep : u.ip = s.ip ∧ u.sreg .cs = s.sreg .cs ∧ u.dec.dontChangeIP = false := by
        by_cases hm : o = .movSR
        · subst hm
          obtain ⟨h3, h4⟩ := hmv rfl
          exact movSR_keeps h3 h4 h2
        · have := Kp.opFn_gen (c := capSeq env (s.sreg .cs) s.ip) o a
            { ip := fun h => by (rw [hc] at h; cases h)
              sg := fun r h hr => by (subst hr; rw [hsg hm] at h; cases h)
              hle := fun h => by (exfalso; cases o <;> simp [Op.isInt] at h <;> cases hc)
              halt := fun _ _ h => ⟨h.1, h.2.1⟩ } hn (opState s p' k) ⟨rfl, rfl, rfl⟩
          rw [show (capSeq env (s.sreg .cs) s.ip).env = env from rfl, h2] at this
          exact this.1
      obtain ⟨h5, h6⟩ := finish_adv (s := u) h hkeep.2.2
      rw [h5, h6, hkeep.1, hkeep.2.1, hlen]
      exact ⟨rfl, rfl⟩
    | err e u =>
      rw [h2] at h
      have he : e = .divErr := by
        cases e <;> first | rfl | cases h
      subst he
      right
      refine ⟨hdv (opFn_div env hn h2), ?_⟩
      have h3 : u.ip = s.ip := by
        have hne : o ≠ .iret := by rintro rfl; cases hc
        have := Ek.opFn (env := env) (cs := s.sreg .cs) (ip := s.ip) (a := a) hn hne ?_ ?_ (opState s p' k) ⟨rfl, rfl, rfl⟩ _ _ h2
        · exact this.1
        · rintro ⟨rfl, rfl⟩; cases hsg (by decide)
        · rintro rfl; cases hsg (by decide)
      have := callInt0_inv (show callIntInternal 0 env u = .ok () t from h)
      rwa [h3] at this

/-! ### Failure -/

theorem readMem_fails {n : Nat} {seg ofs : BitVec 16} {env s e t} (h : readMem n seg ofs env s = .err e t) : t = s ∧ hostAddr s seg ofs = none := by
  cases ha : hostAddr s seg ofs with
  | none =>
    simp only [readMem, bind_apply, getPtr_spec, ha] at h
    cases hn : env.nullCheck
    · simp [hn] at h
    · rw [hn] at h; cases h; exact ⟨rfl, rfl⟩
  | some x =>
    simp only [readMem, bind_apply, getPtr_some env ha, resbind_ok, loadM] at h
    split at h <;> cases h

theorem dumpLoop_fails (cs) : ∀ j i (env : Env) (s e t), dumpLoop cs j i env s = .err e t → ∃ ofs, hostAddr t cs ofs = none := by
  intro j
  induction j with
  | zero => intro i env s e t h; cases h
  | succ j ih =>
    intro i env s e t h
    simp only [dumpLoop, bind_apply] at h
    cases h1 : readMem 8 cs i env s with
    | ok v w =>
      rw [h1] at h
      exact ih _ _ _ _ _ h
    | err e w => rw [h1] at h; cases h; obtain ⟨rfl, h2⟩ := readMem_fails h1; exact ⟨_, h2⟩
    | ub w => rw [h1] at h; cases h

theorem finish_fails {cs ip} {env : Env} {s e t} (h : finishInstr cs ip env s = .err e t) : e = .breakpoint ∨ (e = .badmem ∧ ∃ ofs, hostAddr t cs ofs = none) := by
  rcases finish_err _ _ _ _ _ _ h with rfl | rfl
  · refine Or.inr ⟨rfl, ?_⟩
    simp only [finishInstr, bind_apply] at h
    cases h1 : advanceIP env s with
    | err e w =>
      exfalso
      simp only [advanceIP, bind_apply, getDec_apply, resbind_ok, ite_apply] at h1
      split at h1 <;> cases h1
    | ub w => rw [h1] at h; cases h
    | ok _ s1 =>
    rw [h1, resbind_ok] at h
    cases h2 : nullCheckTail cs ip env s1 with
    | ub w => rw [h2] at h; cases h
    | ok _ s2 =>
      rw [h2, resbind_ok] at h
      simp only [debugTail, bind_apply, gets_apply, resbind_ok, ite_apply] at h
      split at h
      · exact dumpLoop_fails _ _ _ _ _ _ _ h
      · cases h
    | err e w =>
      rw [h2] at h
      cases h
      simp only [nullCheckTail, bind_apply, getDec_apply, resbind_ok, ite_apply] at h2
      split at h2
      · cases h3 : readMem 8 cs ip env s1 with
        | err e w => rw [h3] at h2; cases h2; obtain ⟨rfl, h4⟩ := readMem_fails h3; exact ⟨_, h4⟩
        | ub w => rw [h3] at h2; cases h2
        | ok v w =>
        rw [h3, resbind_ok] at h2
        cases h4 : readMem 8 cs (ip + 1) env w with
        | err e x => rw [h4] at h2; cases h2; obtain ⟨rfl, h5⟩ := readMem_fails h4; exact ⟨_, h5⟩
        | ub x => rw [h4] at h2; cases h2
        | ok v2 x =>
        rw [h4] at h2
        simp only [resbind_ok, ite_apply, bind_apply, gets_apply] at h2
        split at h2
        · cases hl : x.lastNull
          · rw [hl] at h2; cases h2
          · rw [hl] at h2; cases h2
        · cases h2
      · cases h2
  · exact Or.inl rfl

theorem dec_iret {s p k a} (hd : Dec s p k .iret a) : OpcodeAt s 0xCF := by
  rcases hd.elim (fun o _ => decide (o = .iret)) rfl (P1 := fun b => decide (b = 0xCF)) (PF := fun _ => false) (PG := fun _ _ => false) (by decide +kernel)
    (by decide +kernel) (by decide +kernel) with ⟨b, h1, h2⟩ | ⟨b, r, h1, h2⟩ | ⟨b, h1, _⟩
  · have := of_decide_eq_true h1
    subst this; exact h2
  · cases h1
  · cases h1
theorem dec_noCs {s p k o a} (hd : Dec s p k o a) : ¬ (o = .popSeg ∧ a = 1) ∧ o ≠ .lxs .cs := by
  have := fun h => hd.elim (fun o a => decide ((o = .popSeg ∧ a = 1) ∨ o = .lxs .cs)) h (P1 := fun _ => false) (PF := fun _ => false) (PG := fun _ _ => false) (by decide +kernel)
    (by decide +kernel) (by decide +kernel)
  simp only [decide_eq_true_eq, Bool.false_eq_true, false_and, exists_false, or_self, imp_false, not_or] at this
  exact this

theorem pushM_fails {m : M (BitVec 16)} {f : State → BitVec 16} (hm : ∀ env s, m env s = .ok (f s) s) {env s e t} (h : pushM m env s = .err e t) :
    t.ip = s.ip ∧ t.sreg = s.sreg := by
  simp only [pushM, bind_apply, getReg_apply, resbind_ok, setReg_apply, getSreg_apply, hm, writeMem, getPtr_spec] at h
  generalize hostAddr _ _ _ = x at h
  cases x with
  | none =>
    cases hn : env.nullCheck
    · simp [hn] at h
    · rw [hn] at h; cases h; exact ⟨rfl, rfl⟩
  | some x =>
    simp only [resbind_ok, storeM] at h
    split at h <;> cases h

theorem callInt0_fails {env s e t} (h : callIntInternal 0 env s = .err e t) : t.ip = s.ip ∧ t.sreg .cs = s.sreg .cs := by
  have hg : ∀ x, guardE ((decide ((0 : Int) < 0)) || decide ((0 : Int) > 0xFF)) Err.inval env x = .ok () x := fun _ => rfl
  simp only [callIntInternal, bind_apply, hg, resbind_ok] at h
  cases h1 : pushM getFlags env s with
  | err e x =>
    rw [h1] at h; cases h
    have := pushM_fails (f := fun s => s.flags) (fun _ _ => rfl) h1
    exact ⟨this.1, by rw [this.2]⟩
  | ub x => rw [h1] at h; cases h
  | ok _ s1 =>
  rw [h1, resbind_ok] at h
  have p1 := (pushM_inv (f := fun s => s.flags) (fun _ _ => rfl) h1).2
  cases h2 : pushM (getSreg .cs) env s1 with
  | err e x =>
    rw [h2] at h; cases h
    have := pushM_fails (f := fun s => s.sreg .cs) (fun _ _ => rfl) h2
    exact ⟨this.1.trans p1.1, by rw [this.2, p1.2]⟩
  | ub x => rw [h2] at h; cases h
  | ok _ s2 =>
  rw [h2, resbind_ok] at h
  have p2 := (pushM_inv (f := fun s => s.sreg .cs) (fun _ _ => rfl) h2).2
  cases h3 : pushM getIP env s2 with
  | err e x =>
    rw [h3] at h; cases h
    have := pushM_fails (f := fun s => s.ip) (fun _ _ => rfl) h3
    exact ⟨this.1.trans (p2.1.trans p1.1), by rw [this.2, p2.2, p1.2]⟩
  | ub x => rw [h3] at h; cases h
  | ok _ s3 =>
  rw [h3, resbind_ok] at h
  have p3 := (pushM_inv (f := fun s => s.ip) (fun _ _ => rfl) h3).2
  simp only [getFlags_apply, setFlags_apply, resbind_ok] at h
  generalize hs4 : ({ s3 with flags := clr s3.flags (FLAG_IF ||| FLAG_TF) } : State) = s4 at h
  cases h5 : readMem 16 0 (BitVec.ofInt 16 (0 * 4)) env s4 with
  | err e x =>
    rw [h5] at h; cases h
    obtain ⟨rfl, _⟩ := readMem_fails h5
    subst hs4
    exact ⟨p3.1.trans (p2.1.trans p1.1), by rw [p3.2, p2.2, p1.2]⟩
  | ub x => rw [h5] at h; cases h
  | ok ip s5 =>
  rw [h5, resbind_ok] at h
  obtain ⟨rfl, x, ⟨q1, _⟩, _⟩ := readMem_inv (by decide) h5
  simp only [setIP_apply, resbind_ok] at h
  cases h6 : readMem 16 0 (BitVec.ofInt 16 (0 * 4) + 2) env { s5 with ip := ip } with
  | err e x =>
    exfalso
    obtain ⟨_, q2⟩ := readMem_fails h6
    simp only [hostAddr, linear, blockSize] at q1 q2
    simp at q1 q2
    rw [q2] at q1
    simp at q1
  | ub x => rw [h6] at h; cases h
  | ok cs s6 =>
  rw [h6, resbind_ok] at h
  cases h

theorem dec_notF1 {s p k o a} (hd : Dec s p k o a) (hn : o.isPrefix = false) : ¬ OpcodeAt s 0xF1 := by
  rintro ⟨pfx', p', hp', hb'⟩
  have hop : ∀ {op a m}, opEntry op = some ⟨.base o, a, m⟩ → isPrefixByte op = false := by
    intro op a m he
    cases h : isPrefixByte op
    · rfl
    · obtain ⟨o', a', he', h2⟩ := prefix_entry op h
      rw [he] at he'; cases he'; rw [hn] at h2; cases h2
  cases hd with
  | one hp hb h1 he => exact h1 (pfx_unique hb hb' hp hp' (hop he) (by decide)).2.2
  | grp hp hb h1 he => exact h1 (pfx_unique hb hb' hp hp' (hop he) (by decide)).2.2
  | ext hp hb he => exact absurd (pfx_unique hb hb' hp hp' (by decide) (by decide)).2.2 (by decide)

/-- C44: when RME_RunOne returns an error code, CS:IP still designate the failing instruction.
Partial: not for IRET (`C44_violated_iret`); not for the BREAKPOINT of the runaway detector (`C44_violated_detector`); BADMEM only
when the code segment is completely mapped in the end (otherwise the instruction dump may fail after the instruction is completed, `C44_violated_dump`). -/
theorem C44_failure_partial {env : Env} {s t : State} {e : Err} (h : runOne env s = .err e t) (hi : ¬ OpcodeAt s 0xCF)
    (hb : e = .breakpoint → OpcodeAt s 0xF1) (hm : e = .badmem → ∀ ofs, hostAddr t (s.sreg .cs) ofs ≠ none) :
    t.ip = s.ip ∧ t.sreg .cs = s.sreg .cs := by
  rcases runOne_cases env s with ⟨_, _, h1⟩ | ⟨_, _, h1⟩ | ⟨_, h1⟩ | ⟨hr, q, hs, h1⟩
  · rw [h1] at h; cases h; exact ⟨rfl, rfl⟩
  · rw [h1] at h; exact absurd h (ignoreErr_noErr _ _ _ _ _)
  · rw [h1] at h; cases h
  rw [h1] at h
  cases hs with
  | ub hu hb => cases h
  | badmem => cases h; exact ⟨rfl, rfl⟩
  | brk => cases h; exact ⟨rfl, rfl⟩
  | undef => cases h; exact ⟨rfl, rfl⟩
  | undefF => cases h; exact ⟨rfl, rfl⟩
  | @op p k o a hd hn =>
    have hne : o ≠ .iret := by rintro rfl; exact hi (dec_iret hd)
    have hek := Ek.opFn (env := env) (cs := s.sreg .cs) (ip := s.ip) (a := a) hn hne (dec_noCs hd).1 (dec_noCs hd).2 (opState s p k) ⟨rfl, rfl, rfl⟩
    cases h2 : opFn o a env (opState s p k) with
    | ub u => rw [h2] at h; cases h
    | ok x u =>
      rw [h2] at h
      rcases finish_fails (show finishInstr (s.sreg .cs) s.ip env u = .err e t from h) with rfl | ⟨rfl, ofs, h3⟩
      · exact absurd (hb rfl) (dec_notF1 hd hn)
      · exact absurd h3 (hm rfl ofs)
    | err e' u =>
      rw [h2] at h
      have h3 := hek _ _ h2
      by_cases hdv : e' = .divErr
      · subst hdv
        have h4 := callInt0_fails (show callIntInternal 0 env u = .err e t from h)
        exact ⟨h4.1.trans h3.1, h4.2.trans h3.2⟩
      · have : (Res.err e' u : Res Unit) = .err e t := by
          cases e' <;> first | exact h | exact absurd rfl hdv
        cases this
        exact h3

/-! ### Examples -/

instance decByteAt (s : State) (k b) : Decidable (ByteAt s k b) :=
  decidable_of_iff ((match hostAddr s (s.sreg .cs) (s.ip + BitVec.ofNat 16 k) with
    | some h => s.valid h && s.host h == b
    | none => false) = true) (by
    unfold ByteAt
    cases hostAddr s (s.sreg .cs) (s.ip + BitVec.ofNat 16 k) <;> simp)
instance decBytesAt (s : State) (l) : Decidable (BytesAt s l) := by unfold BytesAt; infer_instance

/-- MOV word [BX+SI+1234h], 5678h with prefixes ES and 66 (9 bytes … the immediate has four). -/
def demoLong : State := demo [0x26, 0x66, 0xC7, 0x80, 0x34, 0x12, 0x78, 0x56, 0x34, 0x12]
example : ∃ t, Ready demoLong ∧ InstrAt demoLong { seg := some .es, oper := true } false 0xC7 0 10 ∧ isTransfer false 0xC7 0 = false ∧
    runOne demoEnv demoLong = .ok () t :=
  ⟨_, by decide +kernel, InstrAt.rm (pfx := [0x26, 0x66]) (n := 3) rfl (by decide +kernel) rfl (by decide) rfl
    ⟨0x80, 0, by decide +kernel, rfl, fun h => (by cases h), rfl⟩, rfl, conc_ok (by decide +kernel)⟩
/-- DIV BL with BL = 0: the second alternative. -/
example : ∃ t, Ready (demo [0xF6, 0xF5]) ∧ InstrAt (demo [0xF6, 0xF5]) {} false 0xF6 6 2 ∧ isTransfer false 0xF6 6 = false ∧
    runOne demoEnv (demo [0xF6, 0xF5]) = .ok () t ∧ t.ip = 0 :=
  ⟨_, by decide +kernel, InstrAt.rm (pfx := []) (n := 1) rfl (by decide +kernel) rfl (by decide) rfl
    ⟨0xF5, 0, by decide +kernel, rfl, fun h => (by cases h), rfl⟩, rfl, conc_ok (by decide +kernel), by decide +kernel⟩
/-- HLT, INT 21h without a handler, and INT3-style F1: failing instructions. -/
example : ∃ t, runOne demoEnv (demo [0xF4]) = .err .halt t := ⟨_, conc_err (by decide +kernel)⟩
example : ∃ t, runOne demoEnv (demo [0xCD, 0x21]) = .err .badmem t ∧ (∀ ofs, hostAddr t 0x1000 ofs ≠ none) :=
  ⟨_, conc_err (by decide +kernel), fun ofs => by rw [flat_hostAddr rfl]; simp⟩
example : ∃ t, runOne demoEnv (demo [0xF1]) = .err .breakpoint t ∧ OpcodeAt (demo [0xF1]) 0xF1 :=
  ⟨_, conc_err (by decide +kernel), [], {}, rfl, by decide +kernel⟩

/-! ### Where the code differs from the property -/

/-- C44 is violated by 66 68 (PUSH imm32, six bytes): only four bytes are consumed. -/
theorem C44_violated_push_imm32 : ∃ t, InstrAt (demo [0x66, 0x68, 1, 2, 3, 4]) { oper := true } false 0x68 0 6 ∧
    isTransfer false 0x68 0 = false ∧ runOne demoEnv (demo [0x66, 0x68, 1, 2, 3, 4]) = .ok () t ∧
    t.ip = (demo [0x66, 0x68, 1, 2, 3, 4]).ip + 4 :=
  ⟨_, InstrAt.plain (pfx := [0x66]) rfl (by decide +kernel) rfl (by decide) rfl, rfl, conc_ok (by decide +kernel), by decide +kernel⟩

/-- IRET with the top of the stack at the end of a mapped block, and the next block not mapped. -/
def demoIret : State :=
  { (Opnd.reg 4).put (demo [0xCF]) 16 (0xFFE : BitVec 16) with map := fun b => if b = 0x21 then none else (demo []).map b }
/-- C44 is violated by IRET: it fails at the second pop, but IP is already changed. -/
theorem C44_violated_iret : ∃ t, runOne { demoEnv with nullCheck := true } demoIret = .err .badmem t ∧ demoIret.ip = 0x100 ∧ t.ip = 0 :=
  ⟨_, conc_err (by decide +kernel), by decide +kernel, by decide +kernel⟩

/-- C44 is violated by the runaway detector: the second 00 00 is executed, then BREAKPOINT is returned. -/
theorem C44_violated_detector : ∃ s t u, runOne demoEnv s = .ok () t ∧ BytesAt t [0, 0] ∧ runOne demoEnv t = .err .breakpoint u ∧ u.ip = t.ip + 2 :=
  ⟨demo [0, 0, 0, 0], _, _, conc_ok (by decide +kernel), by decide +kernel, conc_err (by decide +kernel), by decide +kernel⟩

/-- MOV AX, imm16 whose immediate crosses into an unmapped block, at debug level 1. -/
def demoDump : State :=
  { demo [] with ip := 0xFFE, debugLevel := 1, host := fun a => if a = 0x10FFE then 0xB8 else 0,
                 map := fun b => if b = 0x11 then none else (demo []).map b }
/-- C44 is violated by the instruction dump: the instruction is completed, then BADMEM is returned. -/
theorem C44_violated_dump : ∃ t, runOne { demoEnv with nullCheck := true } demoDump = .err .badmem t ∧ t.ip = demoDump.ip + 3 ∧
    t.gpr 0 ≠ demoDump.gpr 0 :=
  ⟨_, conc_err (by decide +kernel), by decide +kernel, by decide +kernel⟩

end RME
