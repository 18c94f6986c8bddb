import Verif.Props.EA
import Verif.Props.MulDiv
import Verif.Props.Flags
import Verif.Lemmas.Interrupt
set_option autoImplicit false
/-
C50: LEA, XLAT, LDS/LES/LSS/LFS/LGS, MOVZX, BSF.
-/
namespace RME

theorem lea_entry : opEntry 0x8D = some ⟨.base .lea, 0, false⟩ := by decide +kernel
theorem xlat_entry : opEntry 0xD7 = some ⟨.base .xlat, 0, false⟩ := by decide +kernel

theorem mod_ne3 {m : BitVec 8} (h : modOf m ≠ 3) : ¬ (ModRM.ofByte m).mod = 3 := fun e => h ((mod_eq_ofByte m 3 (by omega)).1 e)
theorem mod_eq3 {m : BitVec 8} (h : modOf m = 3) : (ModRM.ofByte m).mod = 3 := (mod_eq_ofByte m 3 (by omega)).2 h

theorem ofNat_sext (regs : Nat) (d : BitVec 16) (hr : regs < 2 ^ 17) :
    BitVec.ofNat 32 regs + d.signExtend 32 = BitVec.ofInt 32 ((regs : Int) + d.toInt) := by
  apply BitVec.eq_of_toInt_eq
  have e4 : (BitVec.ofNat 32 regs).toInt = regs := by
    rw [BitVec.toInt_eq_toNat_cond, BitVec.toNat_ofNat, Nat.mod_eq_of_lt (by omega), if_pos (by omega)]
  rw [BitVec.toInt_add, BitVec.toInt_signExtend_of_le (by omega), BitVec.toInt_ofInt, e4]

theorem lea_run {s : State} {h0 : Nat} {bytes : List (BitVec 8)} (hc : CodeAt s h0 bytes) (env : Env) {p : Pfx} {j : Nat} {m : BitVec 8}
    {disp : List (BitVec 8)} (hm : Mem16 p m disp) (hs : Sub bytes j (m :: disp)) :
    opLea env (opState s p j) = .ok () { (Opnd.reg (regOf m)).put s (opW p)
        ((BitVec.ofNat 32 (eaRegs s m) + (dispVal disp).signExtend 32).setWidth (opW p)) with
      dec := decOf p (j + (m :: disp).length), instrNum := s.instrNum + 1 } := by
  simp only [opLea, getModRM, bind_apply, fetch8 hc env p _ hs.head, resbind_ok, pure_apply]
  rw [beq_eq_false_iff_ne.2 hm.mod3, guardE_false, resbind_ok, getMMM_any hc env hm hs.tail]
  simp only [resbind_ok, withW_op (p := p) _ _ (opState _ _ _) rfl, ofByte_rrr, regW]
  have e : j + 1 + disp.length = j + (m :: disp).length := by simp; omega
  rw [e]
  exact writeLoc_op (dst := .reg (regOf m)) p _ env trivial _

/-- C50: 16-bit LEA loads the effective address of the 8086 table (modulo 2^16), for every ModR/M byte, registers and displacement; memory
is not accessed and no flag changes. -/
theorem C50_lea {s : State} {h0 : Nat} {p : Pfx} {m : BitVec 8} {disp : List (BitVec 8)} {len : Nat}
    (hat : At s h0 p (0x8D :: m :: disp) len) (hm : Mem16 p m disp) (ho : p.oper = false) (env : Env) :
    Falls env s len ((Opnd.reg (regOf m)).put s 16 (eaOffset s m disp)) := by
  refine step_falls hat env (by decide) lea_entry rfl _ (decOf p len) ?_ rfl rfl rfl rfl rfl (notZeroed_same hat (by decide) rfl)
  intro bytes j hc hj hsub
  subst hj
  simp only [callFn, opFn]
  rw [lea_run hc env hm hsub, ← used_trunc]
  have : opW p = 16 := by simp [opW, ho]
  rw [this]

/-- 32-bit LEA (66 8D): the sum is not reduced modulo 2^16. -/
theorem C50_lea32_exact {s : State} {h0 : Nat} {p : Pfx} {m : BitVec 8} {disp : List (BitVec 8)} {len : Nat}
    (hat : At s h0 p (0x8D :: m :: disp) len) (hm : Mem16 p m disp) (ho : p.oper = true) (env : Env) :
    Falls env s len ((Opnd.reg (regOf m)).put s 32 (BitVec.ofInt 32 ((eaRegs s m : Int) + (dispVal disp).toInt))) := by
  refine step_falls hat env (by decide) lea_entry rfl _ (decOf p len) ?_ rfl rfl rfl rfl rfl (notZeroed_same hat (by decide) rfl)
  intro bytes j hc hj hsub
  subst hj
  simp only [callFn, opFn]
  rw [lea_run hc env hm hsub]
  have : opW p = 32 := by simp [opW, ho]
  rw [this]
  rw [BitVec.setWidth_eq, ofNat_sext _ _ (eaRegs_lt s m)]

/-- When the sum stays within 0..FFFF, 32-bit LEA gives the zero-extended effective address. Missing: `C50_violated_lea32`. -/
theorem C50_lea32_partial {s : State} {h0 : Nat} {p : Pfx} {m : BitVec 8} {disp : List (BitVec 8)} {len : Nat}
    (hat : At s h0 p (0x8D :: m :: disp) len) (hm : Mem16 p m disp) (ho : p.oper = true) (env : Env)
    (h : 0 ≤ (eaRegs s m : Int) + (dispVal disp).toInt ∧ (eaRegs s m : Int) + (dispVal disp).toInt < 65536) :
    Falls env s len ((Opnd.reg (regOf m)).put s 32 ((eaOffset s m disp).setWidth 32)) := by
  have h1 := C50_lea32_exact hat hm ho env
  have h2 := addr_plain (eaRegs s m) (dispVal disp) (eaRegs_lt s m) h
  have h3 : BitVec.ofInt 32 ((eaRegs s m : Int) + (dispVal disp).toInt) = (eaOffset s m disp).setWidth 32 := by
    rw [eaOffset, ← h2, ofNat_sext _ _ (eaRegs_lt s m)]
  rwa [h3] at h1

/-- LEA with 32-bit addressing. -/
theorem C50_lea_addr32_partial {s : State} {h0 : Nat} {p : Pfx} {m : BitVec 8} {tl : List (BitVec 8)} {len : Nat}
    (hat : At s h0 p (0x8D :: m :: tl) len) (hm : modOf m ≠ 3) (ha : p.addr = true)
    (hd : tl.length = (if hasSib m then 1 else 0) + dispLen32 m tl) (hp : Plain s p 8 (m :: tl)) (env : Env) :
    Falls env s len ((Opnd.reg (regOf m)).put s (opW p) ((eaOffset32 s m tl).setWidth (opW p))) := by
  refine step_falls hat env (by decide) lea_entry rfl _ (decOf p len) ?_ rfl rfl rfl rfl rfl (notZeroed_same hat (by decide) rfl)
  intro bytes j hc hj hsub
  subst hj
  have hpl := hp hm
  rw [ha] at hpl
  obtain ⟨⟨h1, h2⟩, hq, _⟩ := hpl
  simp only [callFn, opFn, opLea, getModRM, bind_apply, fetch8 hc env p _ hsub.head, resbind_ok, pure_apply]
  rw [beq_eq_false_iff_ne.2 (mod_ne3 hm), guardE_false, resbind_ok, getMMM_plain32 hc env hm ha hd hsub.tail h1 h2 hq]
  simp only [resbind_ok, withW_op (p := p) _ _ (opState _ _ _) rfl, ofByte_rrr, regW]
  have e : j + 1 + tl.length = j + (m :: tl).length := by simp; omega
  rw [e]
  exact writeLoc_op (dst := .reg (regOf m)) p _ env trivial _

/-- LEA with a register operand is an undefined opcode; nothing changes. -/
theorem C50_lea_reg {s : State} {h0 : Nat} {p : Pfx} {m : BitVec 8} {len : Nat}
    (hat : At s h0 p [0x8D, m] len) (hm : modOf m = 3) (env : Env) :
    ∃ d, runOne env s = .err .undefOpcode { s with dec := d, instrNum := s.instrNum + 1 } := by
  obtain ⟨hready, pfx, hp, hc, hl⟩ := hat
  refine ⟨decOf p (pfx.length + 1 + 1), runOne_code_err hready hc env hp (by decide) lea_entry rfl _ _ ?_ (by simp) (by simp)⟩
  have : (pfx ++ [0x8D, m])[pfx.length + 1]? = some m := by simp
  simp only [callFn, opFn, opLea, getModRM, bind_apply, fetch8 hc env p _ this, resbind_ok, pure_apply]
  rw [(beq_iff_eq).2 (mod_eq3 hm)]
  rfl

/-- LEA AX,[BX-20h] = FFF0; LEA EAX,[BX+4]; LEA AX,[EBX+ECX*4]; LEA AX,BX. -/
example : ∃ (s : State) (m : BitVec 8) (disp : List (BitVec 8)), At s 0x10100 {} (0x8D :: m :: disp) 3 ∧ Mem16 {} m disp ∧ eaOffset s m disp = 0xFFF0 :=
  ⟨demo [0x8D, 0x47, 0xE0], 0x47, [0xE0], ⟨demo_ready _, [], rfl, by decide +kernel, rfl⟩, ⟨by decide, rfl, by decide⟩, by decide +kernel⟩
example : ∃ (s : State) (p : Pfx) (m : BitVec 8) (disp : List (BitVec 8)), At s 0x10100 p (0x8D :: m :: disp) 4 ∧ Mem16 p m disp ∧ p.oper = true ∧
    (0 ≤ (eaRegs s m : Int) + (dispVal disp).toInt ∧ (eaRegs s m : Int) + (dispVal disp).toInt < 65536) :=
  ⟨demo [0x66, 0x8D, 0x47, 0x04], { oper := true }, 0x47, [0x04], ⟨demo_ready _, [0x66], rfl, by decide +kernel, rfl⟩, ⟨by decide, rfl, by decide⟩, rfl,
    by decide +kernel⟩
example : ∃ (s : State) (p : Pfx) (m : BitVec 8) (tl : List (BitVec 8)), At s 0x10100 p (0x8D :: m :: tl) 4 ∧ modOf m ≠ 3 ∧ p.addr = true ∧
    tl.length = (if hasSib m then 1 else 0) + dispLen32 m tl ∧ Plain s p 8 (m :: tl) :=
  ⟨demo [0x67, 0x8D, 0x04, 0x8B], { addr := true }, 0x04, [0x8B], ⟨demo_ready _, [0x67], rfl, by decide +kernel, rfl⟩, by decide, rfl, by decide,
    fun _ => ⟨by decide +kernel, by decide +kernel, by decide⟩⟩
example : ∃ (s : State) (m : BitVec 8), At s 0x10100 {} [0x8D, m] 2 ∧ modOf m = 3 :=
  ⟨demo [0x8D, 0xC3], 0xC3, ⟨demo_ready _, [], rfl, by decide +kernel, rfl⟩, by decide⟩

/-- C50 is violated by 32-bit LEA: LEA EAX,[BX-20h] with BX = 10h gives FFFFFFF0, not 0000FFF0. -/
theorem C50_violated_lea32 : ∃ (s : State) (m : BitVec 8) (disp : List (BitVec 8)), At s 0x10100 { oper := true } (0x8D :: m :: disp) 4 ∧
    eaOffset s m disp = 0xFFF0 ∧ ∀ env, Falls env s 4 ((Opnd.reg 0).put s 32 0xFFFFFFF0) := by
  have hat : At (demo [0x66, 0x8D, 0x47, 0xE0]) 0x10100 { oper := true } [0x8D, 0x47, 0xE0] 4 := ⟨demo_ready _, [0x66], rfl, by decide +kernel, rfl⟩
  refine ⟨demo [0x66, 0x8D, 0x47, 0xE0], 0x47, [0xE0], hat, by decide +kernel, fun env => ?_⟩
  have := C50_lea32_exact hat ⟨by decide, rfl, by decide⟩ rfl env
  have e : BitVec.ofInt 32 ((eaRegs (demo [0x66, 0x8D, 0x47, 0xE0]) 0x47 : Int) + (dispVal [0xE0]).toInt) = 0xFFFFFFF0 := by decide +kernel
  rwa [e] at this

/-! ### XLAT -/

/-- C50: XLAT loads AL from segment:(BX + AL modulo 2^16); DS unless there is a segment prefix. -/
theorem C50_xlat {s : State} {h0 : Nat} {p : Pfx} {len : Nat} {v : BitVec 8} (hat : At s h0 p [0xD7] len) (ha : p.addr = false) (env : Env)
    (hv : Holds s (s.sreg (p.seg.getD .ds)) ((s.gpr 3).setWidth 16 + ((s.gpr 0).setWidth 8).setWidth 16) v) :
    Falls env s len ((Opnd.reg 0).put s 8 v) := by
  refine one_falls hat env (by decide) (by decide) xlat_entry _ ?_ rfl rfl rfl rfl
  have e : (((s.gpr 3).setWidth 16).setWidth 32 + ((s.gpr 0).setWidth 8).setWidth 32 : BitVec 32).setWidth 16 =
      (s.gpr 3).setWidth 16 + ((s.gpr 0).setWidth 8).setWidth 16 := by
    apply BitVec.eq_of_toNat_eq
    simp only [BitVec.toNat_setWidth, BitVec.toNat_add]
    omega
  have hd : (opState s p len).dec.ovrAddr = false := ha
  simp only [opFn, opXlat, bind_apply, getSegment_op, resbind_ok, getDec_apply, getReg_apply, hd, Bool.false_eq_true, if_false]
  show (readMem 8 _ ((((s.gpr 3).setWidth 16).setWidth 32 + ((s.gpr 0).setWidth 8).setWidth 32 : BitVec 32).setWidth 16) env _).bind _ = _
  rw [e, readMem_op (Or.inl rfl) hv, resbind_ok]
  rfl

/-- XLAT with 32-bit addressing: segment:(EBX + AL) when that lies within the segment. -/
theorem C50_xlat_addr32 {s : State} {h0 : Nat} {p : Pfx} {len : Nat} {v : BitVec 8} (hat : At s h0 p [0xD7] len) (ha : p.addr = true) (env : Env)
    {ofs : BitVec 16} (ho : (s.gpr 3).toNat + ((s.gpr 0).setWidth 8).toNat = ofs.toNat)
    (hv : Holds s (s.sreg (p.seg.getD .ds)) ofs v) :
    Falls env s len ((Opnd.reg 0).put s 8 v) := by
  refine one_falls hat env (by decide) (by decide) xlat_entry _ ?_ rfl rfl rfl rfl
  have e : (s.gpr 3 + ((s.gpr 0).setWidth 8).setWidth 32 : BitVec 32).setWidth 16 = ofs := by
    apply BitVec.eq_of_toNat_eq
    have := ofs.isLt
    simp only [BitVec.toNat_setWidth, BitVec.toNat_add] at *
    omega
  have hd : (opState s p len).dec.ovrAddr = true := ha
  simp only [opFn, opXlat, bind_apply, getSegment_op, resbind_ok, getDec_apply, getReg_apply, hd, if_true]
  have e2 : (opState s p len).reg 32 rBX = s.gpr 3 := by simp [State.reg, opState]
  rw [e2]
  show (readMem 8 _ ((s.gpr 3 + ((s.gpr 0).setWidth 8).setWidth 32 : BitVec 32).setWidth 16) env _).bind _ = _
  rw [e, readMem_op (Or.inl rfl) hv, resbind_ok]
  rfl

/-- ES: XLAT with BX = 10h, AL = 55h; XLAT with 67. -/
example : ∃ (s : State) (p : Pfx), At s 0x10100 p [0xD7] 2 ∧ p.addr = false ∧ p.seg = some .es ∧
    Holds s (s.sreg (p.seg.getD .ds)) ((s.gpr 3).setWidth 16 + ((s.gpr 0).setWidth 8).setWidth 16) (0x77 : BitVec 8) :=
  ⟨demoAt [0x26, 0xD7] 0x40065, { seg := some .es }, ⟨by decide +kernel, [0x26], rfl, by decide +kernel, rfl⟩, rfl, rfl,
    ⟨0x40065, by decide +kernel, by decide +kernel⟩⟩
example : ∃ (s : State) (p : Pfx) (ofs : BitVec 16), At s 0x10100 p [0xD7] 2 ∧ p.addr = true ∧
    (s.gpr 3).toNat + ((s.gpr 0).setWidth 8).toNat = ofs.toNat ∧ Holds s (s.sreg (p.seg.getD .ds)) ofs (0x77 : BitVec 8) :=
  ⟨demoAt [0x67, 0xD7] 0x30065, { addr := true }, 0x65, ⟨by decide +kernel, [0x67], rfl, by decide +kernel, rfl⟩, rfl, by decide +kernel,
    ⟨0x30065, by decide +kernel, by decide +kernel⟩⟩

/-! ### LDS, LES, LSS, LFS, LGS -/

/-- Opcodes of the far pointer loads. -/
inductive LxsEnc : List (BitVec 8) → SReg → Prop
  | les : LxsEnc [0xC4] .es
  | lds : LxsEnc [0xC5] .ds
  | lss : LxsEnc [0x0F, 0xB2] .ss
  | lfs : LxsEnc [0x0F, 0xB4] .fs
  | lgs : LxsEnc [0x0F, 0xB5] .gs

/-- The state with segment register `sr` set. -/
def setSeg (s : State) (sr : SReg) (w : BitVec 16) : State := { s with sreg := fun r => if r = sr then w else s.sreg r }

theorem lxs_run {s : State} {h0 : Nat} {bytes : List (BitVec 8)} (hc : CodeAt s h0 bytes) (env : Env) {p : Pfx} {j : Nat} {m : BitVec 8}
    {disp : List (BitVec 8)} (hm : Mem16 p m disp) (hs : Sub bytes j (m :: disp)) (sr : SReg) {v : BitVec (opW p)} {w : BitVec 16}
    (hv : Holds s (s.sreg (usedSeg p m)) (eaOffset s m disp) v)
    (hw : Holds s (s.sreg (usedSeg p m)) (eaOffset s m disp + BitVec.ofNat 16 (opW p / 8)) w) :
    opLxs sr env (opState s p j) = .ok () { setSeg ((Opnd.reg (regOf m)).put s (opW p) v) sr w with
      dec := decOf p (j + (m :: disp).length), instrNum := s.instrNum + 1 } := by
  have hg : getModRM_unchecked env (opState s p j) = .ok (ModRM.ofByte m) (opState s p (j + 1)) := by
    have : getModRM env (opState s p j) = .ok (ModRM.ofByte m) (opState s p (j + 1)) := by
      simp only [getModRM, bind_apply, fetch8 hc env p _ hs.head, resbind_ok, pure_apply]
    simp only [getModRM_unchecked, this]
  simp only [opLxs, bind_apply, hg, resbind_ok]
  rw [beq_eq_false_iff_ne.2 hm.mod3, guardE_false, resbind_ok, getMMM_any hc env hm hs.tail]
  simp only [resbind_ok, withW_op (p := p) _ _ (opState _ _ _) rfl, ofByte_rrr, regW, bind_apply]
  have e2 : (BitVec.ofNat 32 (eaRegs s m) + (dispVal disp).signExtend 32 + BitVec.ofNat 32 (opW p / 8)).setWidth 16 =
      eaOffset s m disp + BitVec.ofNat 16 (opW p / 8) := by
    rw [← used_trunc]
    have := opW_ok p
    apply BitVec.eq_of_toNat_eq
    simp only [BitVec.toNat_setWidth, BitVec.toNat_add, BitVec.toNat_ofNat]
    omega
  rw [used_trunc, e2, readMem_op (opW_ok p) hv, resbind_ok]
  have e : j + 1 + disp.length = j + (m :: disp).length := by simp; omega
  rw [e]
  have hwr : writeLoc (opW p) (.reg (regOf m)) v env (opState s p (j + (m :: disp).length)) = _ :=
    writeLoc_op (dst := .reg (regOf m)) p _ env trivial v
  rw [hwr, resbind_ok]
  rw [readMem_like hw (by decide) (by rfl) (by rfl) (by rfl), resbind_ok]
  rfl

/-- Far pointer loads with 16-bit addressing: the register gets the word (double word with 66) at the effective address
(modulo 2^16), the segment register the word behind it, whatever the registers and the displacement; the segment is the one of C39. -/
theorem C50_lxs_exact {s : State} {h0 : Nat} {p : Pfx} {m : BitVec 8} {op disp : List (BitVec 8)} {len : Nat} {sr : SReg}
    (henc : LxsEnc op sr) (hat : At s h0 p (op ++ m :: disp) len) (hm : Mem16 p m disp) (env : Env) {v : BitVec (opW p)} {w : BitVec 16}
    (hv : Holds s (s.sreg (usedSeg p m)) (eaOffset s m disp) v)
    (hw : Holds s (s.sreg (usedSeg p m)) (eaOffset s m disp + BitVec.ofNat 16 (opW p / 8)) w) :
    Falls env s len (setSeg ((Opnd.reg (regOf m)).put s (opW p) v) sr w) := by
  have one : ∀ (o : BitVec 8), o ≠ 0xF1 → o ≠ 0 → opEntry o = some ⟨.base (.lxs sr), 0, false⟩ → At s h0 p (o :: m :: disp) len →
      Falls env s len (setSeg ((Opnd.reg (regOf m)).put s (opW p) v) sr w) := by
    intro o h1 h2 h3 hat
    refine step_falls hat env h1 h3 rfl _ (decOf p len) ?_ rfl rfl rfl rfl rfl (notZeroed_same hat h2 rfl)
    intro bytes j hc hj hsub
    subst hj
    simp only [callFn, opFn]
    exact lxs_run hc env hm hsub sr hv hw
  have two : ∀ (o : BitVec 8), opEntry0F o = some ⟨.base (.lxs sr), 0, false⟩ → At s h0 p (0x0F :: o :: m :: disp) len →
      Falls env s len (setSeg ((Opnd.reg (regOf m)).put s (opW p) v) sr w) := by
    intro o h3 hat
    refine step_falls hat env (by decide) (e := ⟨.ext0F, 0, false⟩) (a := 0) (by decide) rfl _ (decOf p len) ?_ rfl rfl rfl rfl rfl
      (notZeroed_same hat (by decide) rfl)
    intro bytes j hc hj hsub
    subst hj
    simp only [callFn, ext0F_run hc env p hsub.head h3, opFn]
    rw [lxs_run hc env hm hsub.tail sr hv hw]
    have e : j + 1 + (m :: disp).length = j + (o :: m :: disp).length := by simp; omega
    rw [e]
  cases henc with
  | les => exact one _ (by decide) (by decide) (by decide) hat
  | lds => exact one _ (by decide) (by decide) (by decide) hat
  | lss => exact two _ (by decide) hat
  | lfs => exact two _ (by decide) hat
  | lgs => exact two _ (by decide) hat

/-- C50, far pointer loads, as in the manual.  Missing: `[BP+SI]`, `[BP+DI]` without prefix (`C39_violated`) and 32-bit addressing. -/
theorem C50_lxs_partial {s : State} {h0 : Nat} {p : Pfx} {m : BitVec 8} {op disp : List (BitVec 8)} {len : Nat} {sr : SReg}
    (henc : LxsEnc op sr) (hat : At s h0 p (op ++ m :: disp) len) (hm : Mem16 p m disp) (env : Env)
    (hx : p.seg ≠ none ∨ ¬ (modOf m = 0 ∧ (rmOf m = 2 ∨ rmOf m = 3))) {v : BitVec (opW p)} {w : BitVec 16}
    (hv : Holds s (s.sreg (eaSeg p m)) (eaOffset s m disp) v)
    (hw : Holds s (s.sreg (eaSeg p m)) (eaOffset s m disp + BitVec.ofNat 16 (opW p / 8)) w) :
    Falls env s len (setSeg ((Opnd.reg (regOf m)).put s (opW p) v) sr w) := by
  rw [← (C39_agrees_iff p m).2 hx] at hv hw
  exact C50_lxs_exact henc hat hm env hv hw

/-- LES SI,[BP+DI+2] and 66 LSS EBX,[8000h]. -/
example : ∃ (s : State) (m : BitVec 8) (disp : List (BitVec 8)), At s 0x10100 {} ([0xC4] ++ m :: disp) 3 ∧ Mem16 {} m disp ∧
    Holds s (s.sreg (eaSeg {} m)) (eaOffset s m disp) (0 : BitVec 16) ∧ eaSeg {} m = .ss ∧
    Holds s (s.sreg (eaSeg {} m)) (eaOffset s m disp + BitVec.ofNat 16 (opW {} / 8)) (0 : BitVec 16) :=
  ⟨demo [0xC4, 0x73, 0x02], 0x73, [0x02], ⟨demo_ready _, [], rfl, by decide +kernel, rfl⟩, ⟨by decide, rfl, by decide⟩,
    ⟨0x20B02, by decide +kernel, by decide +kernel⟩, rfl, ⟨0x20B04, by decide +kernel, by decide +kernel⟩⟩
example : ∃ (s : State) (p : Pfx) (m : BitVec 8) (disp : List (BitVec 8)), At s 0x10100 p ([0x0F, 0xB2] ++ m :: disp) 6 ∧ Mem16 p m disp ∧
    p.oper = true ∧ Holds s (s.sreg (eaSeg p m)) (eaOffset s m disp) (0 : BitVec 32) ∧ eaOffset s m disp = 0x8000 ∧
    Holds s (s.sreg (eaSeg p m)) (eaOffset s m disp + BitVec.ofNat 16 (opW p / 8)) (0 : BitVec 16) :=
  ⟨demo [0x66, 0x0F, 0xB2, 0x1E, 0x00, 0x80], { oper := true }, 0x1E, [0x00, 0x80], ⟨demo_ready _, [0x66], rfl, by decide +kernel, rfl⟩,
    ⟨by decide, rfl, by decide⟩, rfl, ⟨0x38000, by decide +kernel, by decide +kernel⟩, by decide +kernel, ⟨0x38004, by decide +kernel, by decide +kernel⟩⟩

/-! ### MOVZX -/

/-- C50: MOVZX r,r/m8 (0F B6) stores the zero-extended byte. -/
theorem C50_movzx8 {s : State} {h0 : Nat} {p : Pfx} {rm : List (BitVec 8)} {r : BitVec 3} {o : Opnd} {len : Nat} {v : BitVec 8}
    (hat : At s h0 p (0x0F :: 0xB6 :: rm) len) (h : RM s p 8 rm r o) (hp : Plain s p 8 rm) (hv : o.Has s 8 v) (env : Env) :
    Falls env s len ((Opnd.reg r).put s (opW p) (v.setWidth (opW p))) := by
  refine step_falls hat env (by decide) (e := ⟨.ext0F, 0, false⟩) (a := 0) (by decide) rfl _ (decOf p len) ?_ rfl rfl rfl rfl rfl
    (notZeroed_same hat (by decide) rfl)
  intro bytes j hc hj hsub
  subst hj
  have hx := hv.ok h.no_imm
  have hpm := parseModRM_rm hc env h hp hx hsub.tail
  have hz : opMovZ env (opState s p (j + 1)) = (parseModRM env (opState s p (j + 1))).bind (fun q t =>
      withW (fun n => do let v ← readLoc 8 q.2; writeLoc n (regW r) (v.setWidth n)) env t) := by
    obtain ⟨m, tl, rfl, rfl⟩ := h.head
    simp only [opMovZ, parseModRM, getModRM, bind_apply, fetch8 hc env p _ hsub.tail.head, resbind_ok, pure_apply, ofByte_rrr]
    cases decodeModM (ModRM.ofByte m) env (opState s p (j + 1 + 1)) <;> rfl
  simp only [callFn, ext0F_run hc env p hsub.head (o := .movZ) (a := 0) (b := false) (by decide), opFn]
  rw [hz, hpm, resbind_ok]
  simp only [withW_op (p := p) _ _ (opState _ _ _) rfl, bind_apply, readLoc_has (Agree.op s p _) env (Or.inl rfl) hx hv, resbind_ok, regW]
  have e : j + 1 + rm.length = j + (0xB6 :: rm).length := by simp; omega
  rw [e]
  exact writeLoc_op (dst := .reg r) p _ env trivial _

/-- C50: MOVZX r,r/m16 (0F B7). -/
theorem C50_movzx16 {s : State} {h0 : Nat} {p : Pfx} {rm : List (BitVec 8)} {r : BitVec 3} {o : Opnd} {len : Nat} {v : BitVec 16}
    (hat : At s h0 p (0x0F :: 0xB7 :: rm) len) (h : RM s p 16 rm r o) (hp : Plain s p 16 rm) (hv : o.Has s 16 v) (env : Env) :
    Falls env s len ((Opnd.reg r).put s (opW p) (v.setWidth (opW p))) := by
  refine step_falls hat env (by decide) (e := ⟨.ext0F, 0, false⟩) (a := 0) (by decide) rfl _ (decOf p len) ?_ rfl rfl rfl rfl rfl
    (notZeroed_same hat (by decide) rfl)
  intro bytes j hc hj hsub
  subst hj
  have hx := hv.ok h.no_imm
  have hpm := parseModRMX_rm hc env (by decide) h hp hx hsub.tail
  have hz : opMovZX env (opState s p (j + 1)) = (parseModRMX env (opState s p (j + 1))).bind (fun q t =>
      withW (fun n => do let v ← readLoc 16 q.2; writeLoc n (regW r) (v.setWidth n)) env t) := by
    obtain ⟨m, tl, rfl, rfl⟩ := h.head
    simp only [opMovZX, parseModRMX, getModRM, bind_apply, fetch8 hc env p _ hsub.tail.head, resbind_ok, pure_apply, ofByte_rrr]
    cases decodeModMX (ModRM.ofByte m) env (opState s p (j + 1 + 1)) <;> rfl
  simp only [callFn, ext0F_run hc env p hsub.head (o := .movZX) (a := 0) (b := false) (by decide), opFn]
  rw [hz, hpm, resbind_ok]
  simp only [withW_op (p := p) _ _ (opState _ _ _) rfl, bind_apply, readLoc_has (Agree.op s p _) env (Or.inr (Or.inl rfl)) hx hv, resbind_ok, regW]
  have e : j + 1 + rm.length = j + (0xB7 :: rm).length := by simp; omega
  rw [e]
  exact writeLoc_op (dst := .reg r) p _ env trivial _

/-- 66 MOVZX ECX,BH and MOVZX DX,[BX+4]. -/
example : ∃ (s : State) (p : Pfx) (rm : List (BitVec 8)) (o : Opnd), At s 0x10100 p (0x0F :: 0xB6 :: rm) 4 ∧ RM s p 8 rm 1 o ∧ Plain s p 8 rm ∧
    o.Has s 8 (0 : BitVec 8) ∧ opW p = 32 :=
  ⟨demo [0x66, 0x0F, 0xB6, 0xCF], { oper := true }, [0xCF], .high 3, ⟨demo_ready _, [0x66], rfl, by decide +kernel, rfl⟩,
    RM.reg (s := demo _) (p := { oper := true }) (n := 8) 0xCF (by decide), fun h => absurd (by decide) h, ⟨rfl, by decide +kernel⟩, rfl⟩
example : ∃ (s : State) (rm : List (BitVec 8)) (o : Opnd), At s 0x10100 {} (0x0F :: 0xB7 :: rm) 4 ∧ RM s {} 16 rm 2 o ∧ Plain s {} 16 rm ∧
    o.Has s 16 (0 : BitVec 16) :=
  ⟨demo [0x0F, 0xB7, 0x57, 0x04], [0x57, 0x04], .mem 0x3000 0x14, ⟨demo_ready _, [], rfl, by decide +kernel, rfl⟩,
    RM.mem (p := {}) 0x57 [0x04] (by decide) rfl (by decide), fun _ => ⟨by decide +kernel, by decide, by decide +kernel⟩,
    ⟨0x30014, by decide +kernel, by decide +kernel⟩⟩

/-! ### BSF -/

theorem bsfLoop_spec (v : BitVec 16) : ∀ k val, val + k = 16 → (∃ i, val ≤ i ∧ i < 16 ∧ v.getLsbD i = true) →
    v.getLsbD (bsfLoop v k val) = true ∧ val ≤ bsfLoop v k val ∧ bsfLoop v k val < 16 ∧ ∀ j, val ≤ j → j < bsfLoop v k val → v.getLsbD j = false := by
  intro k
  induction k with
  | zero => intro val h ⟨i, h1, h2, _⟩; omega
  | succ k ih =>
    intro val h ⟨i, h1, h2, h3⟩
    simp only [bsfLoop]
    by_cases hb : v.getLsbD val = true
    · rw [if_pos hb]; exact ⟨hb, Nat.le_refl _, by omega, fun j h4 h5 => by omega⟩
    · rw [if_neg hb]
      have hne : i ≠ val := by intro he; rw [he] at h3; exact hb h3
      obtain ⟨q1, q2, q3, q4⟩ := ih (val + 1) (by omega) ⟨i, by omega, h2, h3⟩
      refine ⟨q1, by omega, q3, fun j h4 h5 => ?_⟩
      by_cases he : j = val
      · rw [he]; simpa using hb
      · exact q4 j (by omega) h5

theorem zf_bits : ∀ i, i < 16 → i ≠ bZF → FLAG_ZF.getLsbD i = false := by decide

theorem bsf_run {s : State} {h0 : Nat} {p : Pfx} {rm : List (BitVec 8)} {r : BitVec 3} {o : Opnd} {len : Nat} {v : BitVec 16} (t : State)
    (hat : At s h0 p (0x0F :: 0xBC :: rm) len) (h : RM s p 16 rm r o) (hp : Plain s p 16 rm) (hv : o.Has s 16 v) (env : Env)
    (hx : (if v = 0 then { s with flags := s.flags ||| FLAG_ZF } else
      { (Opnd.reg r).put s 16 (BitVec.ofNat 16 (bsfLoop v 16 0)) with flags := clr s.flags FLAG_ZF }) = t) :
    Falls env s len t := by
  have hok := hv.ok h.no_imm
  have ht : t.ip = s.ip ∧ t.map = s.map ∧ t.valid = s.valid ∧ t.host = s.host := by
    rw [← hx]; split <;> exact ⟨rfl, rfl, rfl, rfl⟩
  refine step_falls hat env (by decide) (e := ⟨.ext0F, 0, false⟩) (a := 0) (by decide) rfl _ (decOf p len) ?_ ht.1 ht.2.1 ht.2.2.1 rfl rfl
    (notZeroed_same hat (by decide) ht.2.2.2)
  intro bytes j hc hj hsub
  subst hj
  simp only [callFn, ext0F_run hc env p hsub.head (o := .bsf) (a := 0) (b := false) (by decide), opFn, opBsf, bind_apply,
    parseModRMX_rm hc env (by decide) h hp hok hsub.tail, resbind_ok, readLoc_has (Agree.op s p _) env (Or.inr (Or.inl rfl)) hok hv,
    getFlags_apply, ite_apply]
  have e : j + 1 + rm.length = j + (0xBC :: rm).length := by simp; omega
  rw [e, ← hx]
  by_cases h0 : v = 0
  · rw [if_pos h0, if_pos h0]; rfl
  · rw [if_neg h0, if_neg h0]; rfl

/-- C50: 16-bit BSF: ZF tells whether the source is zero; if not, the destination gets the index of the lowest set bit; no
other flag changes. (BSF leaves the other flags undefined in the manual.)  Missing: the operand-size prefix is ignored, `C50_violated_bsf32`. -/
theorem C50_bsf_partial {s : State} {h0 : Nat} {p : Pfx} {rm : List (BitVec 8)} {r : BitVec 3} {o : Opnd} {len : Nat} {v : BitVec 16}
    (hat : At s h0 p (0x0F :: 0xBC :: rm) len) (h : RM s p 16 rm r o) (hp : Plain s p 16 rm) (hv : o.Has s 16 v) (env : Env) :
    ∃ f : BitVec 16, OnlyBits [bZF] s.flags f ∧ f.getLsbD bZF = decide (v = 0) ∧
      ((v = 0 → Falls env s len { s with flags := f }) ∧
       (v ≠ 0 → ∃ i, i < 16 ∧ v.getLsbD i = true ∧ (∀ j < i, v.getLsbD j = false) ∧
          Falls env s len { (Opnd.reg r).put s 16 (BitVec.ofNat 16 i) with flags := f })) := by
  by_cases h0 : v = 0
  · refine ⟨s.flags ||| FLAG_ZF, ?_, ?_, fun _ => bsf_run _ hat h hp hv env (by rw [if_pos h0]), fun hn => absurd h0 hn⟩
    · intro i hi hn
      rw [BitVec.getLsbD_or, zf_bits i hi (by simpa using hn), Bool.or_false]
    · rw [decide_eq_true h0]
      simp [BitVec.getLsbD_or, FLAG_ZF, bZF]
  · have hex : ∃ i, 0 ≤ i ∧ i < 16 ∧ v.getLsbD i = true := by
      refine Classical.byContradiction fun hc => h0 ?_
      apply BitVec.eq_of_getLsbD_eq
      intro i hi
      have : ¬ v.getLsbD i = true := fun hb => hc ⟨i, Nat.zero_le _, hi, hb⟩
      simpa using this
    obtain ⟨q1, _, q3, q4⟩ := bsfLoop_spec v 16 0 rfl hex
    refine ⟨clr s.flags FLAG_ZF, ?_, ?_, fun hn => absurd hn h0, fun _ => ⟨_, q3, q1, fun j hj => q4 j (Nat.zero_le _) hj,
      bsf_run _ hat h hp hv env (by rw [if_neg h0])⟩⟩
    · intro i hi hn
      rw [clr_bit _ _ _ hi, zf_bits i hi (by simpa using hn)]; simp
    · rw [decide_eq_false h0, clr_bit _ _ _ (by decide)]
      simp [FLAG_ZF, bZF]

/-- BSF CX,[BX+4] and BSF AX,DX. -/
example : ∃ (s : State) (rm : List (BitVec 8)) (o : Opnd), At s 0x10100 {} (0x0F :: 0xBC :: rm) 4 ∧ RM s {} 16 rm 1 o ∧ Plain s {} 16 rm ∧
    o.Has s 16 (0 : BitVec 16) :=
  ⟨demo [0x0F, 0xBC, 0x4F, 0x04], [0x4F, 0x04], .mem 0x3000 0x14, ⟨demo_ready _, [], rfl, by decide +kernel, rfl⟩,
    RM.mem (p := {}) 0x4F [0x04] (by decide) rfl (by decide), fun _ => ⟨by decide +kernel, by decide, by decide +kernel⟩,
    ⟨0x30014, by decide +kernel, by decide +kernel⟩⟩
example : ∃ (s : State) (rm : List (BitVec 8)) (o : Opnd), At s 0x10100 {} (0x0F :: 0xBC :: rm) 3 ∧ RM s {} 16 rm 0 o ∧ Plain s {} 16 rm ∧
    o.Has s 16 (0x33 : BitVec 16) :=
  ⟨demo [0x0F, 0xBC, 0xC2], [0xC2], .reg 2, ⟨demo_ready _, [], rfl, by decide +kernel, rfl⟩,
    RM.reg (s := demo _) (p := {}) (n := 16) 0xC2 (by decide), fun h => absurd (by decide) h, rfl⟩

/-- C50 is violated by 32-bit BSF: 66 BSF ECX,EBX with EBX = 00010000 reports "zero". -/
theorem C50_violated_bsf32 : ∃ s : State, At s 0x10100 { oper := true } [0x0F, 0xBC, 0xCB] 4 ∧ s.gpr 3 = 0x10000 ∧
    ∀ env, Falls env s 4 { s with flags := s.flags ||| FLAG_ZF } := by
  let s : State := (demo [0x66, 0x0F, 0xBC, 0xCB]).setGpr 3 0x10000
  have hat : At s 0x10100 { oper := true } [0x0F, 0xBC, 0xCB] 4 := ⟨by decide +kernel, [0x66], rfl, by decide +kernel, rfl⟩
  refine ⟨s, hat, by decide +kernel, fun env => bsf_run (r := 1) (o := .reg 3) (v := 0) _ hat ?_ ?_ (show (0 : BitVec 16) = _ by decide +kernel) env (by rw [if_pos rfl])⟩
  · exact RM.reg (s := s) (p := { oper := true }) (n := 16) 0xCB (by decide)
  · exact fun h => absurd (by decide) h

end RME
