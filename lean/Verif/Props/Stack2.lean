import Verif.Props.Stack
set_option autoImplicit false
/-
C26 (32-bit pushes), C27 PUSHA/POPA, C30 PUSHF/POPF.
-/
namespace RME

theorem pushed_map2 {s : State} : ∀ (vs : List (BitVec 16)), (pushedAll s vs).map = s.map ∧ (pushedAll s vs).valid = s.valid ∧ (pushedAll s vs).ip = s.ip :=
  fun vs => ⟨(pushedAll_frame s vs).2.2.2.1, (pushedAll_frame s vs).2.2.2.2.1, (pushedAll_frame s vs).2.1⟩

/-- Registers other than SP survive pushes. -/
theorem pushed_gpr_ne (s : State) (v : BitVec 16) {r : BitVec 3} (h : r ≠ 4) : (pushed s v).gpr r = s.gpr r := by
  rw [pushed_gpr]; exact withSP_gpr_ne s _ h

theorem push_reg_step {s : State} {env : Env} {r : BitVec 3} (hr : r ≠ 4) {k : Nat} (hroom : Room s (k + 1)) :
    pushM (getReg 16 r) env s = .ok () (pushed s (wordOf s r)) := by
  obtain ⟨a, hm⟩ := hroom.first
  refine pushM_ok hm ?_
  show Res.ok _ _ = _
  congr 1
  simp only [State.reg, withSP_gpr_ne _ _ hr]
  rfl

theorem wordOf_pushed (s : State) (v : BitVec 16) {r : BitVec 3} (h : r ≠ 4) : wordOf (pushed s v) r = wordOf s r := by
  simp only [wordOf, pushed_gpr_ne s v h]

theorem wordOf_op (s : State) (p : Pfx) (j : Nat) (r : BitVec 3) : wordOf (opState s p j) r = wordOf s r := rfl

/-- The words PUSHA pushes. -/
theorem pusha_run {s : State} (hr : Room s 8) (env : Env) (hd : s.dec.ovrOper = false) :
    opPushA env s = .ok () (pushedAll s [wordOf s 0, wordOf s 1, wordOf s 2, wordOf s 3, spOf s, wordOf s 5, wordOf s 6, wordOf s 7]) := by
  have r1 := hr.pushed (wordOf s 0)
  have r2 := r1.pushed (wordOf s 1)
  have r3 := r2.pushed (wordOf s 2)
  have r4 := r3.pushed (wordOf s 3)
  have r5 := r4.pushed (spOf s)
  have r6 := r5.pushed (wordOf s 5)
  have r7 := r6.pushed (wordOf s 6)
  unfold opPushA
  simp only [bind_apply, getDec_apply, resbind_ok, hd, guardE_false, getReg_apply]
  rw [push_reg_step (by decide) hr, resbind_ok]
  rw [push_reg_step (by decide) r1, resbind_ok, wordOf_pushed _ _ (by decide)]
  rw [push_reg_step (by decide) r2, resbind_ok, wordOf_pushed _ _ (by decide), wordOf_pushed _ _ (by decide)]
  rw [push_reg_step (by decide) r3, resbind_ok, wordOf_pushed _ _ (by decide), wordOf_pushed _ _ (by decide), wordOf_pushed _ _ (by decide)]
  obtain ⟨a, hm⟩ := r4.first
  rw [push_ok (x := s.reg 16 rSP) hm, resbind_ok]
  rw [show s.reg 16 rSP = spOf s from rfl]
  rw [push_reg_step (by decide) r5, resbind_ok, wordOf_pushed _ _ (by decide), wordOf_pushed _ _ (by decide), wordOf_pushed _ _ (by decide),
    wordOf_pushed _ _ (by decide), wordOf_pushed _ _ (by decide)]
  rw [push_reg_step (by decide) r6, resbind_ok, wordOf_pushed _ _ (by decide), wordOf_pushed _ _ (by decide), wordOf_pushed _ _ (by decide),
    wordOf_pushed _ _ (by decide), wordOf_pushed _ _ (by decide), wordOf_pushed _ _ (by decide)]
  rw [push_reg_step (by decide) r7, wordOf_pushed _ _ (by decide), wordOf_pushed _ _ (by decide), wordOf_pushed _ _ (by decide),
    wordOf_pushed _ _ (by decide), wordOf_pushed _ _ (by decide), wordOf_pushed _ _ (by decide), wordOf_pushed _ _ (by decide)]
  rfl

theorem pusha_runs {s : State} {h0 : Nat} {p : Pfx} {len : Nat} (ho : p.oper = false) (hr : Room s 8) (env : Env) :
    Runs env s h0 p [0x60] len { pushedAll s [wordOf s 0, wordOf s 1, wordOf s 2, wordOf s 3, spOf s, wordOf s 5, wordOf s 6, wordOf s 7] with
      dec := decOf p len, instrNum := s.instrNum + 1 } := by
  refine .mk ⟨.base .pushA, 0, false⟩ 0 (by decide) (by decide +kernel) rfl ?_
  intro bytes j _ hj _
  obtain rfl : j = len := hj
  show opPushA env (opState s p j) = _
  rw [pusha_run (s := opState s p j) (hr.congr rfl rfl rfl rfl) env ho]
  exact congrArg _ (pushedAll_op ..)

/-- C27: PUSHA pushes AX, CX, DX, BX, the original SP, BP, SI, DI in this order. -/
theorem C27_pusha {s : State} {h0 : Nat} {p : Pfx} {len : Nat} (hat : At s h0 p [0x60] len) (ho : p.oper = false) (hr : Room s 8) (env : Env)
    (hnz : NotZeroed (pushedAll s [wordOf s 0, wordOf s 1, wordOf s 2, wordOf s 3, spOf s, wordOf s 5, wordOf s 6, wordOf s 7]) h0 len) :
    Falls env s len (pushedAll s [wordOf s 0, wordOf s 1, wordOf s 2, wordOf s 3, spOf s, wordOf s 5, wordOf s 6, wordOf s 7]) := by
  obtain ⟨h1, h2, h3⟩ := pushed_map2 (s := s) [wordOf s 0, wordOf s 1, wordOf s 2, wordOf s 3, spOf s, wordOf s 5, wordOf s 6, wordOf s 7]
  exact (pusha_runs ho hr env).falls hat h3 h1 h2 rfl rfl hnz

/-! POPA -/

theorem popReg_step {s : State} {env : Env} {r : BitVec 3} {v : BitVec 16} (h : StackTop s 0 v) :
    popReg r env s = .ok () ((Opnd.reg r).put (dropped s 1) 16 v) := by
  simp only [popReg, bind_apply, pop_ok h, resbind_ok, setReg_apply]
  rfl

/-- State `t` differs from `s` only in general registers. -/
structure GprOnly (s t : State) : Prop where
  eq : t = { s with gpr := t.gpr }

theorem gprOnly_top {s t : State} (h : GprOnly s t) {k i : Nat} (hsp : spOf t = spOf s + BitVec.ofNat 16 (2 * k)) {v : BitVec 16}
    (hs : StackTop s (k + i) v) : StackTop t i v := by
  have e := h.eq
  have h1 : t.sreg = s.sreg := by rw [e]
  have h2 : t.map = s.map := by rw [e]
  have h3 : t.valid = s.valid := by rw [e]
  have h4 : t.host = s.host := by rw [e]
  simp only [StackTop, hsp, h1, BitVec.add_assoc, ← BitVec.ofNat_add]
  rw [show 2 * k + 2 * i = 2 * (k + i) by omega]
  exact readMem_at (by decide) hs h2 h3 h4

theorem spOf_put_reg (s : State) {r : BitVec 3} (hr : r ≠ 4) (v : BitVec 16) : spOf ((Opnd.reg r).put s 16 v) = spOf s := by
  simp only [spOf, Opnd.put, setGpr_gpr]
  rw [if_neg (fun h => hr h.symm)]

theorem spOf_dropped (s : State) (k : Nat) : spOf (dropped s k) = spOf s + BitVec.ofNat 16 (2 * k) := by
  rw [dropped, spOf_withSP]

theorem GprOnly.step {s t : State} (h : GprOnly s t) (r : BitVec 3) (v : BitVec 16) (k : Nat) :
    GprOnly s ((Opnd.reg r).put (dropped t k) 16 v) := by
  constructor
  rw [h.eq]
  rfl

/-- low word of register `r` replaced -/
abbrev lowW (g : BitVec 32) (v : BitVec 16) : BitVec 32 := ((g >>> 16) <<< 16) ||| v.setWidth 32

theorem lowW_lowW (g : BitVec 32) (v w : BitVec 16) : lowW (lowW g v) w = lowW g w := by
  apply BitVec.eq_of_getLsbD_eq
  intro i hi
  simp only [lowW, BitVec.getLsbD_or, BitVec.getLsbD_shiftLeft, BitVec.getLsbD_ushiftRight, BitVec.getLsbD_setWidth]
  by_cases h : i < 16
  · simp [h, hi]
  · have : 16 + (i - 16) = i := by omega
    simp [h, this, hi, BitVec.getLsbD_of_ge v i (by omega)]

theorem gpr_put (s : State) (r : BitVec 3) (v : BitVec 16) (x : BitVec 3) :
    ((Opnd.reg r).put s 16 v).gpr x = if x = r then lowW (s.gpr x) v else s.gpr x := by
  simp only [Opnd.put, setGpr_gpr]
  split
  · rename_i h; subst h; rfl
  · rfl

theorem gpr_dropped (s : State) (k : Nat) (x : BitVec 3) :
    (dropped s k).gpr x = if x = 4 then lowW (s.gpr x) (spOf s + BitVec.ofNat 16 (2 * k)) else s.gpr x := gpr_put _ _ _ _

theorem bv3_cases (x : BitVec 3) : x = 0 ∨ x = 1 ∨ x = 2 ∨ x = 3 ∨ x = 4 ∨ x = 5 ∨ x = 6 ∨ x = 7 := by
  revert x; decide

theorem popa_run {s : State} (env : Env) (hd : s.dec.ovrOper = false) (v : BitVec 3 → BitVec 16) (hsp : v 4 = spOf s + 16)
    (h0 : StackTop s 0 (v 7)) (h1 : StackTop s 1 (v 6)) (h2 : StackTop s 2 (v 5)) (h4 : StackTop s 4 (v 3))
    (h5 : StackTop s 5 (v 2)) (h6 : StackTop s 6 (v 1)) (h7 : StackTop s 7 (v 0)) :
    opPopA env s = .ok () (setWords s v) := by
  unfold opPopA
  simp only [bind_apply, getDec_apply, resbind_ok, hd, guardE_false]
  let s1 := (Opnd.reg 7).put (dropped s 1) 16 (v 7)
  have g1 : GprOnly s s1 := GprOnly.step ⟨rfl⟩ _ _ _
  have p1 : spOf s1 = spOf s + BitVec.ofNat 16 (2 * 1) := by
    rw [spOf_put_reg _ (by decide), spOf_dropped]
  let s2 := (Opnd.reg 6).put (dropped s1 1) 16 (v 6)
  have g2 : GprOnly s s2 := g1.step _ _ _
  have p2 : spOf s2 = spOf s + BitVec.ofNat 16 (2 * 2) := by
    rw [spOf_put_reg _ (by decide), spOf_dropped, p1, BitVec.add_assoc]; rfl
  let s3 := (Opnd.reg 5).put (dropped s2 1) 16 (v 5)
  have g3 : GprOnly s s3 := g2.step _ _ _
  have p3 : spOf s3 = spOf s + BitVec.ofNat 16 (2 * 3) := by
    rw [spOf_put_reg _ (by decide), spOf_dropped, p2, BitVec.add_assoc]; rfl
  let s4 := dropped s3 1
  have g4 : GprOnly s s4 := by constructor; rw [show s4 = dropped s3 1 from rfl, g3.eq]; rfl
  have p4 : spOf s4 = spOf s + BitVec.ofNat 16 (2 * 4) := by
    rw [spOf_dropped, p3, BitVec.add_assoc]; rfl
  let s5 := (Opnd.reg 3).put (dropped s4 1) 16 (v 3)
  have g5 : GprOnly s s5 := g4.step _ _ _
  have p5 : spOf s5 = spOf s + BitVec.ofNat 16 (2 * 5) := by
    rw [spOf_put_reg _ (by decide), spOf_dropped, p4, BitVec.add_assoc]; rfl
  let s6 := (Opnd.reg 2).put (dropped s5 1) 16 (v 2)
  have g6 : GprOnly s s6 := g5.step _ _ _
  have p6 : spOf s6 = spOf s + BitVec.ofNat 16 (2 * 6) := by
    rw [spOf_put_reg _ (by decide), spOf_dropped, p5, BitVec.add_assoc]; rfl
  let s7 := (Opnd.reg 1).put (dropped s6 1) 16 (v 1)
  have g7 : GprOnly s s7 := g6.step _ _ _
  have p7 : spOf s7 = spOf s + BitVec.ofNat 16 (2 * 7) := by
    rw [spOf_put_reg _ (by decide), spOf_dropped, p6, BitVec.add_assoc]; rfl
  let s8 := (Opnd.reg 0).put (dropped s7 1) 16 (v 0)
  have g8 : GprOnly s s8 := g7.step _ _ _
  rw [popReg_step h0, resbind_ok, popReg_step (gprOnly_top g1 p1 (i := 0) h1), resbind_ok, popReg_step (gprOnly_top g2 p2 (i := 0) h2), resbind_ok]
  show ((getReg 16 rSP env s3).bind fun a s' => _) = _
  rw [getReg_apply, resbind_ok, setReg_apply, resbind_ok]
  show ((popReg rBX env s4).bind fun _ s' => _) = _
  rw [popReg_step (gprOnly_top g4 p4 (i := 0) h4), resbind_ok, popReg_step (gprOnly_top g5 p5 (i := 0) h5), resbind_ok,
    popReg_step (gprOnly_top g6 p6 (i := 0) h6), resbind_ok, popReg_step (gprOnly_top g7 p7 (i := 0) h7)]
  congr 1
  show s8 = _
  rw [g8.eq]
  unfold setWords
  congr 1
  funext x
  have sp : spOf s7 + BitVec.ofNat 16 (2 * 1) = v 4 := by rw [p7, hsp, BitVec.add_assoc]; rfl
  rcases bv3_cases x with rfl | rfl | rfl | rfl | rfl | rfl | rfl | rfl <;>
    simp only [s8, s7, s6, s5, s4, s3, s2, s1, gpr_put, gpr_dropped, lowW_lowW] at sp ⊢ <;>
    simp [lowW_lowW]
  exact congrArg (lowW (s.gpr 4)) sp

/-- C27: POPA loads DI, SI, BP, (skipping the SP slot) BX, DX, CX, AX from the stack and adds 16 to SP; nothing else changes. -/
theorem C27_popa {s : State} {h0 : Nat} {p : Pfx} {len : Nat} (hat : At s h0 p [0x61] len) (ho : p.oper = false) (env : Env)
    (v : BitVec 3 → BitVec 16) (hsp : v 4 = spOf s + 16)
    (h0' : StackTop s 0 (v 7)) (h1 : StackTop s 1 (v 6)) (h2 : StackTop s 2 (v 5)) (h4 : StackTop s 4 (v 3))
    (h5 : StackTop s 5 (v 2)) (h6 : StackTop s 6 (v 1)) (h7 : StackTop s 7 (v 0)) :
    Falls env s len (setWords s v) := by
  refine one_falls hat env (by decide) (by decide) (o := .popA) (a := 0) (by decide +kernel) _ ?_ rfl rfl rfl rfl
  exact popa_run (s := opState s p len) env ho v hsp h0' h1 h2 h4 h5 h6 h7

theorem setWords_self (s : State) : setWords s (wordOf s) = s := by
  refine State.ext' ?_ rfl rfl rfl rfl rfl rfl rfl rfl rfl rfl rfl rfl
  funext r
  show lowW (s.gpr r) ((s.gpr r).setWidth 16) = s.gpr r
  apply BitVec.eq_of_getLsbD_eq
  intro i hi
  simp only [lowW, BitVec.getLsbD_or, BitVec.getLsbD_shiftLeft, BitVec.getLsbD_ushiftRight, BitVec.getLsbD_setWidth]
  by_cases h : i < 16
  · simp [h, hi]
  · have : 16 + (i - 16) = i := by omega
    simp [h, this, hi]

/-- C27: PUSHA followed by POPA restores all eight registers (all 32 bits of each). -/
theorem C27_pusha_popa {s : State} {h0 h1 : Nat} {p p2 : Pfx} {len len2 : Nat} (hat : At s h0 p [0x60] len) (ho : p.oper = false) (hr : Room s 8)
    (env : Env) (hnz : NotZeroed (pushedAll s [wordOf s 0, wordOf s 1, wordOf s 2, wordOf s 3, spOf s, wordOf s 5, wordOf s 6, wordOf s 7]) h0 len)
    (hat2 : ∀ d, At (movedTo (pushedAll s [wordOf s 0, wordOf s 1, wordOf s 2, wordOf s 3, spOf s, wordOf s 5, wordOf s 6, wordOf s 7])
      (s.ip + BitVec.ofNat 16 len) d) h1 p2 [0x61] len2) (ho2 : p2.oper = false) :
    ∃ u, Iter env 2 s u ∧ u.gpr = s.gpr ∧ u.sreg = s.sreg ∧ u.flags = s.flags ∧
      u.host = (pushedAll s [wordOf s 0, wordOf s 1, wordOf s 2, wordOf s 3, spOf s, wordOf s 5, wordOf s 6, wordOf s 7]).host ∧
      u.ip = s.ip + BitVec.ofNat 16 len + BitVec.ofNat 16 len2 := by
  obtain ⟨d, hs1⟩ := C27_pusha hat ho hr env hnz
  have htop := pushedAll_top [wordOf s 0, wordOf s 1, wordOf s 2, wordOf s 3, spOf s, wordOf s 5, wordOf s 6, wordOf s 7] hr (by simp)
  have hfr := pushedAll_frame s [wordOf s 0, wordOf s 1, wordOf s 2, wordOf s 3, spOf s, wordOf s 5, wordOf s 6, wordOf s 7]
  have hgpr := pushedAll_gpr s [wordOf s 0, wordOf s 1, wordOf s 2, wordOf s 3, spOf s, wordOf s 5, wordOf s 6, wordOf s 7]
  have hspp := spOf_pushedAll s [wordOf s 0, wordOf s 1, wordOf s 2, wordOf s 3, spOf s, wordOf s 5, wordOf s 6, wordOf s 7]
  generalize hP : pushedAll s [wordOf s 0, wordOf s 1, wordOf s 2, wordOf s 3, spOf s, wordOf s 5, wordOf s 6, wordOf s 7] = P at *
  have hin : P.instrNum = s.instrNum := hfr.2.2.2.2.2.2.1
  have hst : ({ P with ip := s.ip + BitVec.ofNat 16 len, instrNum := s.instrNum + 1, dec := d, lastNull := false } : State) =
      movedTo P (s.ip + BitVec.ofNat 16 len) d := by rw [← hin]; rfl
  have hs1' : runOne env s = .ok () (movedTo P (s.ip + BitVec.ofNat 16 len) d) := hs1.trans (congrArg _ hst)
  have hpop := C27_popa (hat2 d) ho2 env (wordOf s) (by
    show spOf s = spOf P + 16
    rw [hspp]; exact (BitVec.sub_add_cancel _ _).symm) (htop 0 (by simp)) (htop 1 (by simp)) (htop 2 (by simp)) (htop 4 (by simp))
    (htop 5 (by simp)) (htop 6 (by simp)) (htop 7 (by simp))
  obtain ⟨d2, hs2⟩ := hpop
  refine ⟨_, .succ hs1' (.succ hs2 (.zero _)), ?_, hfr.1, hfr.2.2.1, rfl, rfl⟩
  have : s.gpr = (setWords s (wordOf s)).gpr := by rw [setWords_self]
  rw [this]
  show (setWords P (wordOf s)).gpr = _
  simp only [setWords, hgpr]
  funext r
  show lowW _ _ = lowW _ _
  by_cases h : r = 4
  · subst h
    show lowW (lowW (s.gpr 4) _) _ = _
    rw [lowW_lowW]
  · rw [withSP_gpr_ne s _ h]

example : ∃ s, At s 0x10100 {} [0x60] 1 ∧ Room s 8 ∧
    NotZeroed (pushedAll s [wordOf s 0, wordOf s 1, wordOf s 2, wordOf s 3, spOf s, wordOf s 5, wordOf s 6, wordOf s 7]) 0x10100 1 ∧
    (∀ d, At (movedTo (pushedAll s [wordOf s 0, wordOf s 1, wordOf s 2, wordOf s 3, spOf s, wordOf s 5, wordOf s 6, wordOf s 7])
      (s.ip + BitVec.ofNat 16 1) d) 0x10101 {} [0x61] 1) :=
  ⟨demo [0x60, 0x61], ⟨demo_ready _, [], rfl, by decide +kernel, rfl⟩, (demo_flat _).room.mono (by decide), (by intro h; cases h),
    fun d => at_moved (by decide +kernel) (by decide +kernel) (by decide +kernel) (by decide +kernel)⟩

/-! ### C30 PUSHF, POPF -/

theorem popf_bits (cpu : CPUType) (v : BitVec 16) :
    canonBits cpu ((v ||| (popfMasks cpu).1) &&& ~~~(popfMasks cpu).2) ∧
    ∀ i, freeBit cpu i → ((v ||| (popfMasks cpu).1) &&& ~~~(popfMasks cpu).2).getLsbD i = v.getLsbD i := by
  refine ⟨⟨?_, ?_, ?_, ?_, ?_⟩, ?_⟩
  · cases cpu <;> simp [popfMasks]
  · cases cpu <;> simp [popfMasks]
  · cases cpu <;> simp [popfMasks]
  · rintro rfl i h1 h2
    have : i = 12 ∨ i = 13 ∨ i = 14 ∨ i = 15 := by omega
    rcases this with rfl | rfl | rfl | rfl <;> simp [popfMasks]
  · rintro rfl i h1 h2
    have : i = 12 ∨ i = 13 ∨ i = 14 ∨ i = 15 := by omega
    rcases this with rfl | rfl | rfl | rfl <;> simp [popfMasks]
  · rintro i ⟨h1, h2, h3, h4, h5⟩
    revert h2 h3 h4 h5
    revert i
    cases cpu <;> refine forall_bits ?_ <;> simp [popfMasks]

/-- C30: POPF pops a word into FLAGS; the reserved bits of the CPU are forced, the other bits are those of the word. -/
theorem C30_popf {s : State} {h0 : Nat} {p : Pfx} {len : Nat} (hat : At s h0 p [0x9D] len) (ho : p.oper = false) {v : BitVec 16}
    (hv : StackTop s 0 v) (env : Env) :
    ∃ f', canonBits s.cpuType f' ∧ (∀ i, freeBit s.cpuType i → f'.getLsbD i = v.getLsbD i) ∧
      Falls env s len { dropped s 1 with flags := f' } := by
  obtain ⟨h1, h2⟩ := popf_bits s.cpuType v
  refine ⟨_, h1, h2, ?_⟩
  refine one_falls hat env (by decide) (by decide) (o := .popF) (a := 0) (by decide +kernel) _ ?_ rfl rfl rfl rfl
  show opPopF env (opState s p len) = _
  simp only [opPopF, bind_apply, getDec_apply, resbind_ok]
  rw [show (opState s p len).dec.ovrOper = false from ho, guardE_false, resbind_ok, pop_op hv, resbind_ok]
  rfl

theorem canon_unique {cpu : CPUType} {f g : BitVec 16} (hf : canonBits cpu f) (hg : canonBits cpu g)
    (h : ∀ i, freeBit cpu i → f.getLsbD i = g.getLsbD i) : f = g := by
  apply BitVec.eq_of_getLsbD_eq
  intro i hi
  obtain ⟨f1, f3, f5, f8, f2⟩ := hf
  obtain ⟨g1, g3, g5, g8, g2⟩ := hg
  by_cases h1 : i = 1
  · subst h1; rw [f1, g1]
  by_cases h3 : i = 3
  · subst h3; rw [f3, g3]
  by_cases h5 : i = 5
  · subst h5; rw [f5, g5]
  by_cases h12 : i < 12
  · exact h i ⟨hi, h1, h3, h5, Or.inr h12⟩
  · cases cpu with
    | i8086 => rw [f8 rfl i (by omega) hi, g8 rfl i (by omega) hi]
    | i80286 => rw [f2 rfl i (by omega) hi, g2 rfl i (by omega) hi]
    | i386 => exact h i ⟨hi, h1, h3, h5, Or.inl rfl⟩

/-- C30: the forced bits make POPF idempotent: loading a word that already has the reserved bits of the CPU gives exactly that word. -/
theorem C30_popf_canon {s : State} {h0 : Nat} {p : Pfx} {len : Nat} (hat : At s h0 p [0x9D] len) (ho : p.oper = false) {v : BitVec 16}
    (hv : StackTop s 0 v) (hcan : canonBits s.cpuType v) (env : Env) : Falls env s len { dropped s 1 with flags := v } := by
  obtain ⟨f', h1, h2, h3⟩ := C30_popf hat ho hv env
  rw [canon_unique h1 hcan h2] at h3
  exact h3

/-- C30: PUSHF; POPF leaves FLAGS (with canonical reserved bits), registers and SP as they were. -/
theorem C30_pushf_popf {s : State} {h0 h1 : Nat} {p p2 : Pfx} {len len2 : Nat} (hat : At s h0 p [0x9C] len) (ho : p.oper = false) (hr : Room s 1)
    (env : Env) (hnz : NotZeroed (pushed s s.flags) h0 len) (hcan : canonBits s.cpuType s.flags)
    (hat2 : ∀ d, At (movedTo (pushed s s.flags) (s.ip + BitVec.ofNat 16 len) d) h1 p2 [0x9D] len2) (ho2 : p2.oper = false) :
    ∃ u, Iter env 2 s u ∧ u.flags = s.flags ∧ u.gpr = s.gpr ∧ u.sreg = s.sreg ∧ u.host = (pushed s s.flags).host ∧
      u.ip = s.ip + BitVec.ofNat 16 len + BitVec.ofNat 16 len2 := by
  obtain ⟨d, hs1⟩ := C26_push hat ho .flags hr env hnz
  have htop := pushedAll_top [s.flags] hr (by simp) 0 (by simp)
  have hst : ({ pushed s s.flags with ip := s.ip + BitVec.ofNat 16 len, instrNum := s.instrNum + 1, dec := d, lastNull := false } : State) =
      movedTo (pushed s s.flags) (s.ip + BitVec.ofNat 16 len) d := by rw [movedTo, pushed_instrNum]
  have hs1' : runOne env s = .ok () (movedTo (pushed s s.flags) (s.ip + BitVec.ofNat 16 len) d) := hs1.trans (congrArg _ hst)
  obtain ⟨d2, hs2⟩ := C30_popf_canon (hat2 d) ho2 (v := s.flags) htop (by
    show canonBits (pushed s s.flags).cpuType _
    rw [pushed_cpuType]; exact hcan) env
  refine ⟨_, .succ hs1' (.succ hs2 (.zero _)), rfl, ?_, pushed_sreg .., rfl, rfl⟩
  funext r
  show (dropped (movedTo (pushed s s.flags) (s.ip + BitVec.ofNat 16 len) d) 1).gpr r = _
  rw [gpr_dropped]
  show (if r = 4 then lowW ((pushed s s.flags).gpr r) (spOf (pushed s s.flags) + _) else (pushed s s.flags).gpr r) = _
  rw [spOf_pushed, pushed_gpr]
  split
  · rename_i h; subst h
    rw [show spOf s - 2 + BitVec.ofNat 16 (2 * 1) = spOf s from BitVec.sub_add_cancel _ _]
    show lowW (lowW (s.gpr 4) _) _ = _
    rw [lowW_lowW]
    have := congrArg (fun t => t.gpr 4) (setWords_self s)
    exact this
  · rename_i h; exact withSP_gpr_ne s _ h

example : ∃ s, At s 0x10100 {} [0x9C] 1 ∧ Room s 1 ∧ NotZeroed (pushed s s.flags) 0x10100 1 ∧ canonBits s.cpuType s.flags ∧
    (∀ d, At (movedTo (pushed s s.flags) (s.ip + BitVec.ofNat 16 1) d) 0x10101 {} [0x9D] 1) :=
  ⟨{ demo [0x9C, 0x9D] with cpuType := .i386, flags := 0x0ED7 }, ⟨by decide +kernel, [], rfl, by decide +kernel, rfl⟩,
    ((demo_flat [0x9C, 0x9D]).room.mono (by decide)).congr rfl rfl rfl rfl, (by intro h; cases h), ⟨by decide, by decide, by decide, (by intro h; cases h), (by intro h; cases h)⟩,
    fun d => at_moved (by decide +kernel) (by decide +kernel) (by decide +kernel) (by decide +kernel)⟩
example : ∃ s v, At s 0x10100 {} [0x9D] 1 ∧ StackTop s 0 v :=
  ⟨demo [0x9D], 0, ⟨demo_ready _, [], rfl, by decide +kernel, rfl⟩, _, demo_mapped _ _ _ _ (by decide), by decide +kernel⟩

/-! ### C26 with operand-size prefix -/

/-- Upper word of a register. -/
def hiWord (s : State) (r : BitVec 3) : BitVec 16 := (s.gpr r >>> 16).setWidth 16

/-- C61: PUSH r32 (66 50+r, other than ESP) pushes the high word and then the low word, so that the 32-bit value is at SS:SP. -/
theorem C61_push32_partial {s : State} {h0 : Nat} {p : Pfx} {len : Nat} {r : BitVec 3} (hat : At s h0 p [0x50 + r.setWidth 8] len) (ho : p.oper = true)
    (hr : r ≠ 4) (hroom : Room s 2) (env : Env) (hnz : NotZeroed (pushedAll s [hiWord s r, wordOf s r]) h0 len) :
    Falls env s len (pushedAll s [hiWord s r, wordOf s r]) := by
  obtain ⟨h1, h2, h3⟩ := pushed_map2 (s := s) [hiWord s r, wordOf s r]
  refine Runs.falls (d := decOf p len) hat ?_ h3 h1 h2 rfl rfl hnz
  refine .mk _ _ (push_entry r).2.2.1 (push_entry r).1 rfl ?_
  intro bytes j _ hj _
  obtain rfl : j = len := hj
  simp only [callFn, opFn, opPushReg, bind_apply, getDec_apply, resbind_ok, ite_apply]
  rw [if_pos (by show p.oper = true; exact ho)]
  have hro : Room (opState s p j) 2 := hroom.congr rfl rfl rfl rfl
  obtain ⟨a, hm⟩ := hro.first
  rw [pushM_ok (x := hiWord s r) hm, resbind_ok]
  · rw [push_reg_step hr (hro.pushed _), wordOf_pushed _ _ hr]
    exact congrArg _ (pushedAll_op s (decOf p j) (s.instrNum + 1) [hiWord s r, wordOf s r])
  · show Res.ok _ _ = _
    congr 1
    simp only [withSP_gpr_ne _ _ hr]
    rfl

theorem gpr_put32 (s : State) (r : BitVec 3) (v : BitVec 32) (x : BitVec 3) :
    ((Opnd.reg r).put s 32 v).gpr x = if x = r then v else s.gpr x := by
  simp only [Opnd.put, setGpr_gpr]
  split
  · apply BitVec.eq_of_getLsbD_eq
    intro i hi
    simp [BitVec.getLsbD_or, BitVec.getLsbD_shiftLeft, hi]
  · rfl

theorem append_lowW (hi lo : BitVec 16) (g : BitVec 32) : hi ++ (lowW g lo).setWidth 16 = hi ++ lo := by
  have : (lowW g lo).setWidth 16 = lo := by
    apply BitVec.eq_of_getLsbD_eq
    intro i hi
    simp [lowW, hi]
  rw [this]

theorem pop32_state {s s1 : State} {r : BitVec 3} (hr : r ≠ 4) {lo hi : BitVec 16} (h : s1 = (Opnd.reg r).put (dropped s 1) 16 lo)
    (hsp1 : spOf s1 = spOf s + BitVec.ofNat 16 (2 * 1)) (x : BitVec 3) :
    ((dropped s1 1).setGpr r (hi ++ ((dropped s1 1).gpr r).setWidth 16)).gpr x = ((Opnd.reg r).put (dropped s 2) 32 (hi ++ lo)).gpr x := by
  simp only [setGpr_gpr, gpr_put32]
  by_cases hx : x = r
  · rw [if_pos hx, if_pos hx, gpr_dropped, if_neg hr, h, gpr_put, if_pos rfl, append_lowW]
  · rw [if_neg hx, if_neg hx, gpr_dropped, gpr_dropped, hsp1, h, gpr_put, if_neg hx, gpr_dropped]
    split
    · rw [lowW_lowW, BitVec.add_assoc]; rfl
    · rfl

theorem pop32_op {s : State} {r : BitVec 3} (env : Env) (ho : s.dec.ovrOper = true)
    (hr : r ≠ 4) {lo hi : BitVec 16} (h1 : StackTop s 0 lo) (h2 : StackTop s 1 hi) :
    opPopReg r env s = .ok () ((Opnd.reg r).put (dropped s 2) 32 (hi ++ lo)) := by
  simp only [opPopReg, bind_apply, pop_ok h1, resbind_ok, setReg_apply, getDec_apply, ite_apply]
  generalize hs : (dropped s 1).setReg 16 r lo = s1
  have hs' : s1 = (Opnd.reg r).put (dropped s 1) 16 lo := hs.symm
  have hsp1 : spOf s1 = spOf s + BitVec.ofNat 16 (2 * 1) := by rw [hs']; exact (spOf_put_reg _ hr lo).trans (spOf_dropped s 1)
  have hd : s1.dec.ovrOper = true := by rw [hs']; exact ho
  rw [if_pos hd]
  have hp : pop env s1 = .ok hi (dropped s1 1) := by
    refine pop_ok ?_
    simp only [StackTop, hsp1, BitVec.add_assoc, ← BitVec.ofNat_add]
    rw [hs']
    exact readMem_at (by decide) h2 rfl rfl rfl
  rw [hp, resbind_ok]
  simp only [setRegHi, modify_apply]
  have hg := pop32_state (hi := hi) hr hs' hsp1
  subst hs'
  refine congrArg (Res.ok ()) ?_
  revert hg
  generalize hi ++ lo = w
  intro hg
  exact State.ext' (funext hg) (Eq.refl s.sreg) (Eq.refl s.ip) (Eq.refl s.flags) (Eq.refl s.cpuType) (Eq.refl s.debugLevel) (Eq.refl s.map)
    (Eq.refl s.host) (Eq.refl s.valid) (Eq.refl s.instrNum) (Eq.refl s.lastNull) (Eq.refl s.dec) (Eq.refl s.io)

/-- C61: POP r32 (66 58+r, other than ESP) loads the 32-bit value at SS:SP and adds 4 to SP. -/
theorem C61_pop32_partial {s : State} {h0 : Nat} {p : Pfx} {len : Nat} {r : BitVec 3} (hat : At s h0 p [0x58 + r.setWidth 8] len) (ho : p.oper = true)
    (hr : r ≠ 4) {lo hi : BitVec 16} (h1 : StackTop s 0 lo) (h2 : StackTop s 1 hi) (env : Env) :
    Falls env s len ((Opnd.reg r).put (dropped s 2) 32 (hi ++ lo)) := by
  have hne : ∀ r : BitVec 3, 0x58 + r.setWidth 8 ≠ (0 : BitVec 8) := by decide +kernel
  refine one_falls hat env (push_entry r).2.2.2 (hne r) (push_entry r).2.1 _ ?_ rfl rfl rfl rfl
  exact pop32_op (s := opState s p len) env ho hr h1 h2

example : ∃ s, At s 0x10100 { oper := true } [0x50 + (0 : BitVec 3).setWidth 8] 2 ∧ Room s 2 ∧ NotZeroed (pushedAll s [hiWord s 0, wordOf s 0]) 0x10100 2 :=
  ⟨demo [0x66, 0x50], ⟨demo_ready _, [0x66], rfl, by decide +kernel, rfl⟩, (demo_flat _).room.mono (by decide), (by unfold NotZeroed; decide +kernel)⟩
example : ∃ s, At s 0x10100 { oper := true } [0x58 + (0 : BitVec 3).setWidth 8] 2 ∧ StackTop s 0 0 ∧ StackTop s 1 0 :=
  ⟨demo [0x66, 0x58], ⟨demo_ready _, [0x66], rfl, by decide +kernel, rfl⟩, ⟨_, demo_mapped _ _ _ _ (by decide), by decide +kernel⟩,
    ⟨_, demo_mapped _ _ _ _ (by decide), by decide +kernel⟩⟩

/-- Witness: PUSH DWORD [BX] (66 FF 37) pushes only one word (SP is decremented by 2, not 4), so that a following POP EAX (66 58) does
not restore SP. -/
theorem C61_violated_push_dword : ∃ s t u, At s 0x10100 { oper := true } [0xFF, 0x37] 3 ∧ runOne demoEnv s = .ok () t ∧
    At t 0x10103 { oper := true } [0x58] 2 ∧ runOne demoEnv t = .ok () u ∧ spOf s = 0x1000 ∧ spOf t = 0xFFE ∧ spOf u = 0x1002 :=
  ⟨demo [0x66, 0xFF, 0x37, 0x66, 0x58], _, _, ⟨demo_ready _, [0x66], rfl, by decide +kernel, rfl⟩, conc_ok (by decide +kernel),
    ⟨by decide +kernel, [0x66], rfl, by decide +kernel, rfl⟩, conc_ok (by decide +kernel), by decide +kernel, by decide +kernel, by decide +kernel⟩

/-- Witness: PUSH imm32 (66 68 44 33 22 11) reads only a 16-bit immediate: IP is advanced by 4 instead of 6 and 00003344 is pushed. -/
theorem C61_violated_push_imm32 : ∃ s t, At s 0x10100 { oper := true } [0x68, 0x44, 0x33, 0x22, 0x11] 6 ∧ runOne demoEnv s = .ok () t ∧
    t.ip = s.ip + 4 ∧ StackTop t 0 0x3344 ∧ StackTop t 1 0 :=
  ⟨demo [0x66, 0x68, 0x44, 0x33, 0x22, 0x11], _, ⟨demo_ready _, [0x66], rfl, by decide +kernel, rfl⟩, conc_ok (by decide +kernel),
    by decide +kernel, ⟨0x20FFC, by decide +kernel, by decide +kernel⟩, ⟨0x20FFE, by decide +kernel, by decide +kernel⟩⟩

end RME
