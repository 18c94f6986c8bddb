import Verif.Lemmas.DepOps
set_option autoImplicit false
/-
Every opcode function depends only on its sources.
-/
set_option linter.unusedSectionVars false
set_option linter.unusedVariables false
namespace RME

def segSrc (a : BitVec 3) : List Src := match segSel a with | some r => [.sreg r] | none => []

/-- Sources of the opcode functions (compared with the specification `srcs` in `Verif.Props.Sources`); `a`: parameter from the table,
`r`: register field of the ModR/M byte. -/
def Op.srcs (a r : BitVec 3) : Op → List Src
  | .alu k form => (if k = .adc ∨ k = .sbb then [.flags 0x001] else []) ++
      (match form with | .MR | .RM => [.rm8, .reg8] | .MRX | .RMX => [.rm, .reg] | .AI | .AIX => [.gpr 0])
  | .pushSeg => segSrc a ++ [.gpr 4, .sreg .ss]
  | .popSeg | .popReg | .popA | .popF | .pushI | .pushI8 | .callN | .callF | .retN | .retF | .retiN | .retiF | .iret => [.gpr 4, .sreg .ss]
  | .daa | .das => [.gpr 0, .flags 0x011]
  | .aaa | .aas => [.gpr 0, .flags 0x010]
  | .aam => [.gpr 0, .fault]
  | .aad | .sahf | .testAI | .testAIX | .cbw | .cwd | .outAI | .outAIX => [.gpr 0]
  | .incReg | .decReg => [.gpr a]
  | .pushReg => [.gpr a, .gpr 4, .sreg .ss]
  | .xchgReg => if a = 0 then [] else [.gpr 0, .gpr a]
  | .pushA => [.gpr 0, .gpr 1, .gpr 2, .gpr 3, .gpr 4, .gpr 5, .gpr 6, .gpr 7, .sreg .ss]
  | .pushF => [.gpr 4, .sreg .ss, .flags 0xFFFF]
  | .popMX => [.addr, .gpr 4, .sreg .ss]
  | .imulMIX | .imulMI8X | .movRMX | .movSR | .movZX | .bsf => [.rm]
  | .btx => if a.toNat < 4 then [] else [.rm]
  | .imulRMX | .testMRX | .xchgRMX | .shxdI8 _ => [.rm, .reg]
  | .shxdCl _ => [.rm, .reg, .gpr 1]
  | .ins _ => [.gpr 2, .gpr 7, .sreg .es, .flags 0x400, .count]
  | .outs _ => [.gpr 2, .gpr 6, .dseg .ds, .flags 0x400, .count]
  | .movs _ | .cmps _ => [.gpr 6, .gpr 7, .dseg .ds, .sreg .es, .flags 0x400, .count]
  | .stos _ | .scas _ => [.gpr 0, .gpr 7, .sreg .es, .flags 0x400, .count]
  | .lods _ => [.gpr 6, .dseg .ds, .flags 0x400, .count]
  | .jccS k | .jccN k => [.flags k.mask]
  | .loop k => .gpr 1 :: (if k = .always then [] else [.flags 0x040])
  | .jcxz => [.gpr 1]
  | .arithMI | .shiftMI | .shiftM1 => .rm8 :: carryIf a
  | .arithMIX | .arithMI8X | .shiftMI8X | .shiftM1X => .rm :: carryIf a
  | .shiftMCl => .gpr 1 :: .rm8 :: carryIf a
  | .shiftMClX => .gpr 1 :: .rm :: carryIf a
  | .miscMI => .rm8 :: (if a = 4 ∨ a = 5 then [.gpr 0] else if a = 6 ∨ a = 7 then [.gpr 0, .fault] else [])
  | .miscMIX => .rm :: (if a = 4 ∨ a = 5 then [.gpr 0] else if a = 6 ∨ a = 7 then [.gpr 0, .gpr 2, .fault] else [])
  | .unaryM => if a = 0 ∨ a = 1 then [.rm8] else []
  | .unaryMX => if a = 0 ∨ a = 1 ∨ a = 4 then [.rm] else if a = 2 ∨ a = 6 then [.rm, .gpr 4, .sreg .ss]
      else if a = 3 then [.addr, .gpr 4, .sreg .ss] else if a = 5 then [.addr] else []
  | .testMR | .xchgRM => [.rm8, .reg8]
  | .movMR => [.addr, .reg8]
  | .movMRX => [.addr, .reg]
  | .movRM | .movZ => [.rm8]
  | .movRS => .addr :: segSrc r
  | .movMI | .movMIX | .lxs _ => [.addr]
  | .movAMo | .movAMoX => [.dseg .ds]
  | .movMoA | .movMoAX => [.dseg .ds, .gpr 0]
  | .lea => [.ofs]
  | .xlat => [.gpr 0, .gpr 3, .dseg .ds]
  | .enter => [.gpr 4, .gpr 5, .sreg .ss]
  | .leave => [.gpr 5, .sreg .ss]
  | .int3 | .intI | .into => [.any]
  | .inADx | .inADxX => [.gpr 2]
  | .outDxA | .outDxAX => [.gpr 0, .gpr 2]
  | .lahf => [.flags 0x0FF]
  | _ => []

theorem allFlags {q : BitVec 16} (h : q &&& 0xFFFF = 0) : q = 0 := by
  have e : q &&& 0xFFFF = q := by
    apply BitVec.eq_of_getLsbD_eq
    intro i hi
    rw [BitVec.getLsbD_and, show (0xFFFF : BitVec 16) = BitVec.allOnes 16 from rfl, BitVec.getLsbD_allOnes]
    simp [hi]
  rw [← e, h]

theorem segSrc_cov {H : Hid} {b a} (h : ∀ d ∈ segSrc a, H.Cov b d) : ∀ r, segSel a = some r → H.SegOk r := by
  intro r hr
  unfold segSrc at h
  rw [hr] at h
  exact h (.sreg r) (by simp)

namespace Tw
variable {H : Hid} [ck : H.CS] {env : Env} {a : BitVec 3}
theorem opIncReg (h : H.RegX a) : Te H env (RME.opIncReg a) (RME.opIncReg a) :=
  Tw.withW fun n hn => Tw.incApply (l := regW a) (n := n) (show Tw.RdOk H n (regW a) from h.okW hn) Tw.wrRegW
theorem opDecReg (h : H.RegX a) : Te H env (RME.opDecReg a) (RME.opDecReg a) :=
  Tw.withW fun n hn => Tw.decApply (l := regW a) (n := n) (show Tw.RdOk H n (regW a) from h.okW hn) Tw.wrRegW
theorem opMovRegB : Te H env (RME.opMovRegB a) (RME.opMovRegB a) := Tw.bindE Tw.readInstr fun _ => Tw.writeLoc Tw.wrRegB
theorem opMovReg : Te H env (RME.opMovReg a) (RME.opMovReg a) := Tw.withW fun n hn => Tw.bindE Tw.readInstr fun _ => Tw.writeLoc Tw.wrRegW
theorem opTestAI (h : H.RegX 0) : Te H env RME.opTestAI RME.opTestAI := Tw.bindE Tw.readInstr fun _ => Tw.testApply (show Tw.RdOk H 8 (.reg rAX) from h.ok8)
theorem opTestAIX (h : H.RegX 0) : Te H env RME.opTestAIX RME.opTestAIX :=
  Tw.withW fun n hn => Tw.bindE Tw.readInstr fun _ => Tw.testApply (show Tw.RdOk H n (.reg rAX) from h.okW hn)
end Tw

set_option maxHeartbeats 4000000 in
theorem op_dep_plain {H : Hid} [H.CS] {env : Env} {o : Op} {a r : BitVec 3} (hp : o.isPrefix = false) (hm : o.usesM = false)
    (h : ∀ d ∈ o.srcs a r, H.Cov 0 d) (hle : Src.any ∈ o.srcs a r → H.HleOk env) : Tz H env (opFn o a) (opFn o a) := by
  cases o <;> first | (cases hp; done) | (cases hm; done) | skip
  case alu k form =>
    cases form <;> first | (cases hm; done) | skip
    all_goals
      have h0 : H.RegX 0 := h (.gpr 0) (by simp [Op.srcs])
      have hk : k = .adc ∨ k = .sbb → H.fl &&& FLAG_CF = 0 := fun e => h (.flags 0x001) (by simp [Op.srcs, e])
      dsimp only [opFn, opAlu]
    · exact Tw.weak (Tw.bindE Tw.readInstr fun _ => Tw.aluApply hk h0.ok8 trivial)
    · exact Tw.weak (Tw.withW fun n hn => Tw.bindE Tw.readInstr fun _ => Tw.aluApply hk (h0.okW hn) trivial)
  case pushSeg => exact Tw.weak (Tw.opPushSeg (h (.gpr 4) (by simp [Op.srcs])) (h (.sreg .ss) (by simp [Op.srcs])) (segSrc_cov fun d hd => h d (by simp [Op.srcs, hd])))
  case loop k => exact Tw.weak (Tw.opLoop (h (.gpr 1) (by simp [Op.srcs])) fun e => h (.flags 0x040) (by simp [Op.srcs, e]))
  case xchgReg =>
    refine Tw.weak (Tw.ite (fun _ => Tw.pureE) fun e => Tw.withW fun n hn => ?_)
    have h0 : H.RegX 0 := h (.gpr 0) (by simp only [Op.srcs]; rw [if_neg e]; simp)
    have h1 : H.RegX a := h (.gpr a) (by simp only [Op.srcs]; rw [if_neg e]; simp)
    exact Tw.xchgLoc (h0.okW hn) (h1.okW hn) trivial trivial
  case int3 => exact Tw.callInterrupt (hle (by simp [Op.srcs])) ((h .any (by simp [Op.srcs])).1 4) ((h .any (by simp [Op.srcs])).2.1 .ss) (h .any (by simp [Op.srcs])).2.2
  case intI => exact Tw.bindE Tw.readInstr fun _ => Tw.callInterrupt (hle (by simp [Op.srcs])) ((h .any (by simp [Op.srcs])).1 4) ((h .any (by simp [Op.srcs])).2.1 .ss) (h .any (by simp [Op.srcs])).2.2
  case into =>
    refine Tw.bindE (Tw.getFlagsE (h .any (by simp [Op.srcs])).2.2) fun f => Tw.ite (fun _ => ?_) fun _ => Tw.weak Tw.pureE
    exact Tw.callInterrupt (hle (by simp [Op.srcs])) ((h .any (by simp [Op.srcs])).1 4) ((h .any (by simp [Op.srcs])).2.1 .ss) (h .any (by simp [Op.srcs])).2.2
  all_goals (simp only [Op.srcs, List.mem_cons, forall_eq_or_imp, List.not_mem_nil, false_implies, implies_true, and_true, Hid.Cov] at h)
  case incReg => exact Tw.weak (Tw.opIncReg h)
  case decReg => exact Tw.weak (Tw.opDecReg h)
  case movRegB => exact Tw.weak (Tw.opMovRegB)
  case movReg => exact Tw.weak (Tw.opMovReg)
  case pushA =>
    obtain ⟨h0, h1, h2, h3, h4, h5, h6, h7, hs⟩ := h
    refine Tw.weak (Tw.opPushA (fun r => ?_) hs)
    rcases Tw.rm8cases r with e | e | e | e | e | e | e | e <;> rw [e] <;> assumption
  case pushF => exact Tw.weak (Tw.opPushF h.1 h.2.1 (allFlags h.2.2))
  case ins w => exact Tw.opIns h.2.2.2.2 h.2.2.2.1 h.2.1 h.2.2.1 h.1
  case outs w => exact Tw.opOuts h.2.2.2.2 h.2.2.2.1 h.2.1 h.2.2.1 h.1
  case movs w => exact Tw.opMovs h.2.2.2.2.2 h.2.2.2.2.1 h.2.1 h.2.2.2.1 h.1 h.2.2.1
  case cmps w => exact Tw.opCmps h.2.2.2.2.2 h.2.2.2.2.1 h.2.1 h.2.2.2.1 h.1 h.2.2.1
  case stos w => exact Tw.opStos h.2.2.2.2 h.2.2.2.1 h.2.1 h.2.2.1 h.1
  case scas w => exact Tw.opScas h.2.2.2.2 h.2.2.2.1 h.2.1 h.2.2.1 h.1
  case lods w => exact Tw.opLods h.2.2.2 h.2.2.1 h.1 h.2.1
  case testAI => exact Tw.weak (Tw.opTestAI h)
  case testAIX => exact Tw.weak (Tw.opTestAIX h)
  case hlt => exact Tw.throw
  case xlat => exact Tw.weak (Tw.opXlat h.2.2 h.1 h.2.1)
  case enter => exact Tw.weak (Tw.opEnter h.1 h.2.1 h.2.2)
  case leave => exact Tw.weak (Tw.opLeave h.1 h.2)
  case pushReg => exact Tw.weak (Tw.opPushReg h.1 h.2.1 h.2.2)
  case daa => exact Tw.weak (Tw.opDA h.1 h.2)
  case das => exact Tw.weak (Tw.opDA h.1 h.2)
  case aaa => exact Tw.weak (Tw.opAA h.1 h.2)
  case aas => exact Tw.weak (Tw.opAA h.1 h.2)
  case aam => exact Tw.weak (Tw.opAam h.1)
  case aad => exact Tw.weak (Tw.opAad h)
  case sahf => exact Tw.weak (Tw.opSahf h)
  case lahf => exact Tw.weak (Tw.opLahf h)
  case popSeg => exact Tw.weak (Tw.opPopSeg h.1 h.2)
  case popReg => exact Tw.weak (Tw.opPopReg h.1 h.2)
  case popA => exact Tw.weak (Tw.opPopA h.1 h.2)
  case popF => exact Tw.weak (Tw.opPopF h.1 h.2)
  case pushI => exact Tw.weak (Tw.opPushI h.1 h.2)
  case pushI8 => exact Tw.weak (Tw.opPushI8 h.1 h.2)
  case callN => exact Tw.weak (Tw.opCallN h.1 h.2)
  case callF => exact Tw.weak (Tw.opCallF h.1 h.2)
  case retN => exact Tw.weak (Tw.opRetN h.1 h.2)
  case retF => exact Tw.weak (Tw.opRetF h.1 h.2)
  case retiN => exact Tw.weak (Tw.opRetiN h.1 h.2)
  case retiF => exact Tw.weak (Tw.opRetiF h.1 h.2)
  case iret => exact Tw.weak (Tw.opIret h.1 h.2)
  case jccS k => exact Tw.weak (Tw.opJccS h)
  case jccN k => exact Tw.weak (Tw.opJccN h)
  case jcxz => exact Tw.weak (Tw.opJcxz h)
  case movAMo => exact Tw.weak (Tw.opMovAMo h)
  case movAMoX => exact Tw.weak (Tw.opMovAMoX h)
  case movMoA => exact Tw.weak (Tw.opMovMoA h.1 h.2)
  case movMoAX => exact Tw.weak (Tw.opMovMoAX h.1 h.2)
  case cbw => exact Tw.weak (Tw.opCbw h)
  case cwd => exact Tw.weak (Tw.opCwd h)
  case jmpN => exact Tw.weak Tw.opJmpN
  case jmpF => exact Tw.weak Tw.opJmpF
  case jmpS => exact Tw.weak Tw.opJmpS
  case inAI => exact Tw.weak Tw.opInAI
  case inAIX => exact Tw.weak Tw.opInAIX
  case inADx => exact Tw.weak (Tw.opInADx h)
  case inADxX => exact Tw.weak (Tw.opInADxX h)
  case outAI => exact Tw.weak (Tw.opOutAI h)
  case outAIX => exact Tw.weak (Tw.opOutAIX h)
  case outDxA => exact Tw.weak (Tw.opOutDxA h.1 h.2)
  case outDxAX => exact Tw.weak (Tw.opOutDxAX h.1 h.2)
  case flag k => exact Tw.weak Tw.opFlag

namespace Tw
variable {H : Hid} [ck : H.CS] {env : Env} {C : BitVec 8 → Prop} {α β β' : Type} {R' : State → State → Prop}

theorem rbR {s t} (h : RB H env C s t) : H.R s t := h.1
theorem rbS {s t} (h : RB H env C s t) : H.Sim s t := h.1.1
/-- read the decoder, the ModR/M byte comes later -/
theorem rbDec {V : β → β' → Prop} {f : Decoder → M β} {f' : Decoder → M β'}
    (h : ∀ d, d.ovrOper = H.p.oper → Tw H env (RB H env C) R' V (f d) (f' d)) : Tw H env (RB H env C) R' V (RME.getDec >>= f) (RME.getDec >>= f') :=
  bind (getDecR fun _ _ h => h.1) fun d d' hd => by obtain ⟨rfl, _, _, h3, _⟩ := hd; exact h d h3
theorem rbGuard {x e} : Tw H env (RB H env C) (RB H env C) Eq (RME.guardE x e) (RME.guardE x e) := guardR fun _ _ h => h.1.1
theorem peek_eq (s : State) : RME.peekInstr8 env s = (match RME.readInstr 8 env s with | .ok b _ => .ok b s | .err e t => .err e t | .ub u => .ub u) := by
  have hr : RME.readInstr 8 env s = (RME.readMem 8 (s.sreg .cs) (s.ip + BitVec.ofNat 16 s.dec.ipOffset) env s).bind
      (fun v t => .ok v { t with dec := { t.dec with ipOffset := t.dec.ipOffset + 1 } }) := rfl
  simp only [RME.peekInstr8, bind_apply]
  rw [hr]
  cases h2 : RME.readMem 8 (s.sreg .cs) (s.ip + BitVec.ofNat 16 s.dec.ipOffset) env s with
  | ok v t =>
    have := readMem_keep _ _ _ h2
    subst this
    rfl
  | err e t => rfl
  | ub u => rfl
theorem bindPeek {V : β → β' → Prop} {f : BitVec 8 → M β} {f' : BitVec 8 → M β'}
    (h : ∀ b, C b → Tw H env (RB H env (fun x => x = b ∧ C x)) R' V (f b) (f' b)) : Tw H env (RB H env C) R' V (RME.peekInstr8 >>= f) (RME.peekInstr8 >>= f') := by
  intro s t hs
  have hb := readByte s t hs
  simp only [bind_apply, peek_eq]
  cases h1 : RME.readInstr 8 env s <;> cases h2 : RME.readInstr 8 env t <;> rw [h1, h2] at hb <;> try exact hb.elim
  · rename_i b _ b' _
    obtain ⟨_, rfl, hc⟩ := hb
    refine h b hc s t ⟨hs.1, fun x hx => ?_⟩
    rw [modByte, h1] at hx
    cases hx
    exact ⟨rfl, hc⟩
  · exact hb
  · exact hb
end Tw

theorem shxd_locs {H : Hid} {b : BitVec 8} {l} (hr : H.Cov b .rm) (hg : H.Cov b .reg) (hl : Fr.isRM (regB (rmOf b)) b l)
    (hx : (¬ 4 ≤ (regOf b).toNat ∧ ¬ (modOf b = 3 ∧ 4 ≤ (rmOf b).toNat)) ∨ ∀ r, H.RegOk 32 r) :
    (∀ n, H.Wid n → Tw.RdOk H n (regB (regOf b))) ∧ ∀ n, H.Wid n → Tw.RdOk H n l ∧ Tw.WrOk H n l := by
  rcases hx with ⟨h1, h2⟩ | hx
  · rw [Tw.regB_lt (by omega)]
    refine ⟨fun n hn => hg.okW hn, fun n hn => ?_⟩
    rcases hl with ⟨h3, rfl⟩ | ⟨_, p, rfl⟩
    · have h4 : ¬ 4 ≤ (rmOf b).toNat := fun h => h2 ⟨h3, h⟩
      rw [Tw.regB_lt (by omega)]
      exact ⟨(hr.1 h3).okW hn, trivial⟩
    · exact ⟨trivial, trivial⟩
  · have key : ∀ n l, H.Wid n → Tw.RdOk H n l ∧ Tw.WrOk H n l := by
      intro n l hn
      have hn32 : n ≤ 32 := by unfold Hid.Wid at hn; split at hn <;> omega
      cases l
      · exact ⟨Nat.le_trans hn32 (hx _), trivial⟩
      · exact ⟨Or.inr hx, Or.inr hx⟩
      · exact ⟨trivial, trivial⟩
    exact ⟨fun n hn => (key n _ hn).1, fun n hn => key n _ hn⟩

theorem carry_cov {H : Hid} {b : BitVec 8} {a : BitVec 3} (h : ∀ d ∈ carryIf a, H.Cov b d) : a = 2 ∨ a = 3 → H.fl &&& FLAG_CF = 0 :=
  fun e => h (.flags 0x001) (by unfold carryIf; rw [if_pos e]; simp)
theorem alu_carry : ∀ a : BitVec 3, (aluOfNum a = .adc ∨ aluOfNum a = .sbb) → (a = 2 ∨ a = 3) := by decide
theorem shift_carry : ∀ a : BitVec 3, (shiftOfNum a = .rcl ∨ shiftOfNum a = .rcr) → (a = 2 ∨ a = 3) := by decide

set_option maxHeartbeats 2000000 in
/-- Every opcode function depends only on its sources. -/
theorem op_dep {H : Hid} [ck : H.CS] {env : Env} {C : BitVec 8 → Prop} {o : Op} {a : BitVec 3} (hp : o.isPrefix = false)
    (h0 : o.usesM = false → ∀ d ∈ o.srcs a 0, H.Cov 0 d) (h : o.usesM = true → ∀ b, C b → ∀ d ∈ o.srcs a (regOf b), H.Cov b d)
    (hle : Src.any ∈ o.srcs a 0 → H.HleOk env)
    (hx : (o.isShxd = true → ∀ b, C b → ¬ 4 ≤ (regOf b).toNat ∧ ¬ (modOf b = 3 ∧ 4 ≤ (rmOf b).toNat)) ∨ ∀ r, H.RegOk 32 r) :
    Tw H env (Tw.RB H env C) H.Sim Eq (opFn o a) (opFn o a) := by
  cases hm : o.usesM
  · exact Tw.pre (op_dep_plain hp hm (h0 hm) hle) fun _ _ h => h.1
  replace h := h hm
  cases o <;> first | (cases hp; done) | (cases hm; done) | skip
  case alu k form =>
    cases form <;> first | (cases hm; done) | skip
    all_goals
      have hk : ∀ b, C b → k = .adc ∨ k = .sbb → H.fl &&& FLAG_CF = 0 := fun b hb e => h b hb (.flags 0x001) (by simp [Op.srcs, e])
      dsimp only [opFn, opAlu]
    case MR => 
      have h1 : ∀ b, C b → H.Cov b .rm8 ∧ H.Cov b .reg8 := fun b hb => ⟨h b hb _ (by simp [Op.srcs]), h b hb _ (by simp [Op.srcs])⟩
      exact Tw.bindRM (fun b hb => (h1 b hb).1.2) fun b l hb hl => Tw.weak (Tw.bindE (Tw.readLoc (Tw.rdRegB (h1 b hb).2)) fun _ => Tw.aluApply (hk b hb) (Tw.rdRM8 (h1 b hb).1 hl) (Tw.wrRM8 hl))
    case RM => 
      have h1 : ∀ b, C b → H.Cov b .rm8 ∧ H.Cov b .reg8 := fun b hb => ⟨h b hb _ (by simp [Op.srcs]), h b hb _ (by simp [Op.srcs])⟩
      exact Tw.bindRM (fun b hb => (h1 b hb).1.2) fun b l hb hl => Tw.weak (Tw.bindE (Tw.readLoc (Tw.rdRM8 (h1 b hb).1 hl)) fun _ => Tw.aluApply (hk b hb) (Tw.rdRegB (h1 b hb).2) Tw.wrRegB)
    case MRX => 
      have h1 : ∀ b, C b → H.Cov b .rm ∧ H.Cov b .reg := fun b hb => ⟨h b hb _ (by simp [Op.srcs]), h b hb _ (by simp [Op.srcs])⟩
      exact Tw.bindRMX (fun b hb => (h1 b hb).1.2) fun b l hb hl => Tw.weak (Tw.withW fun n hn => Tw.bindE (Tw.readLoc (Tw.rdRegW (h1 b hb).2 hn)) fun _ => Tw.aluApply (hk b hb) (Tw.rdRMX (h1 b hb).1 hl hn) (Tw.wrRMX hl))
    case RMX => 
      have h1 : ∀ b, C b → H.Cov b .rm ∧ H.Cov b .reg := fun b hb => ⟨h b hb _ (by simp [Op.srcs]), h b hb _ (by simp [Op.srcs])⟩
      exact Tw.bindRMX (fun b hb => (h1 b hb).1.2) fun b l hb hl => Tw.weak (Tw.withW fun n hn => Tw.bindE (Tw.readLoc (Tw.rdRMX (h1 b hb).1 hl hn)) fun _ => Tw.aluApply (hk b hb) (Tw.rdRegW (h1 b hb).2 hn) Tw.wrRegW)
  case arithMI =>
    have h1 : ∀ b, C b → H.Cov b .rm8 := fun b hb => h b hb _ (by simp [Op.srcs])
    have hk : ∀ b, C b → (aluOfNum a = .adc ∨ aluOfNum a = .sbb) → H.fl &&& FLAG_CF = 0 := fun b hb e => carry_cov (fun d hd => h b hb d (by simp [Op.srcs, hd])) (alu_carry a e)
    exact Tw.bindRM (fun b hb => (h1 b hb).2) fun b l hb hl => Tw.weak (Tw.bindE Tw.readInstr fun _ => Tw.aluApply (hk b hb) (Tw.rdRM8 (h1 b hb) hl) (Tw.wrRM8 hl))
  case arithMIX =>
    have h1 : ∀ b, C b → H.Cov b .rm := fun b hb => h b hb _ (by simp [Op.srcs])
    have hk : ∀ b, C b → (aluOfNum a = .adc ∨ aluOfNum a = .sbb) → H.fl &&& FLAG_CF = 0 := fun b hb e => carry_cov (fun d hd => h b hb d (by simp [Op.srcs, hd])) (alu_carry a e)
    exact Tw.bindRMX (fun b hb => (h1 b hb).2) fun b l hb hl => Tw.weak (Tw.bindE Tw.clearOZSP fun _ => Tw.withW fun n hn => Tw.bindE Tw.readInstr fun _ => Tw.aluApply (hk b hb) (Tw.rdRMX (h1 b hb) hl hn) (Tw.wrRMX hl))
  case arithMI8X =>
    have h1 : ∀ b, C b → H.Cov b .rm := fun b hb => h b hb _ (by simp [Op.srcs])
    have hk : ∀ b, C b → (aluOfNum a = .adc ∨ aluOfNum a = .sbb) → H.fl &&& FLAG_CF = 0 := fun b hb e => carry_cov (fun d hd => h b hb d (by simp [Op.srcs, hd])) (alu_carry a e)
    exact Tw.bindRMX (fun b hb => (h1 b hb).2) fun b l hb hl => Tw.weak (Tw.bindE Tw.clearOZSP fun _ => Tw.withW fun n hn => Tw.bindE Tw.readInstr8S fun _ => Tw.aluApply (hk b hb) (Tw.rdRMX (h1 b hb) hl hn) (Tw.wrRMX hl))
  case miscMI =>
    have h1 : ∀ b, C b → H.Cov b .rm8 := fun b hb => h b hb _ (by simp [Op.srcs])
    have hax : ∀ b, C b → a = 4 ∨ a = 5 ∨ a = 6 ∨ a = 7 → H.RegX 0 := fun b hb e => h b hb (.gpr 0) (by rcases e with rfl | rfl | rfl | rfl <;> simp [Op.srcs])
    exact Tw.bindRM (fun b hb => (h1 b hb).2) fun b l hb hl => Tw.weak (Tw.miscOp (Tw.rdRM8 (h1 b hb) hl) (Tw.wrRM8 hl) (fun e => (hax b hb e).ok8) (fun e _ => (hax b hb e).ok16) fun _ e => absurd rfl e)
  case miscMIX =>
    have h1 : ∀ b, C b → H.Cov b .rm := fun b hb => h b hb _ (by simp [Op.srcs])
    have hax : ∀ b, C b → a = 4 ∨ a = 5 ∨ a = 6 ∨ a = 7 → H.RegX 0 := fun b hb e => h b hb (.gpr 0) (by rcases e with rfl | rfl | rfl | rfl <;> simp [Op.srcs])
    have hdx : ∀ b, C b → a = 6 ∨ a = 7 → H.RegX 2 := fun b hb e => h b hb (.gpr 2) (by rcases e with rfl | rfl <;> simp [Op.srcs])
    exact Tw.bindRMX (fun b hb => (h1 b hb).2) fun b l hb hl => Tw.weak (Tw.withW fun n hn => Tw.miscOp (Tw.rdRMX (h1 b hb) hl hn) (Tw.wrRMX hl) (fun e => (hax b hb e).okW hn) (fun e _ => (hax b hb e).ok16) fun e _ => (hdx b hb e).okW hn)
  case shiftMI =>
    have h1 : ∀ b, C b → H.Cov b .rm8 := fun b hb => h b hb _ (by simp [Op.srcs])
    have hk : ∀ b, C b → (shiftOfNum a = .rcl ∨ shiftOfNum a = .rcr) → H.fl &&& FLAG_CF = 0 := fun b hb e => carry_cov (fun d hd => h b hb d (by simp [Op.srcs, hd])) (shift_carry a e)
    exact Tw.bindRM (fun b hb => (h1 b hb).2) fun b l hb hl => Tw.weak (Tw.bindE Tw.readInstr fun _ => Tw.shiftApply (hk b hb) (Tw.rdRM8 (h1 b hb) hl) (Tw.wrRM8 hl))
  case shiftM1 =>
    have h1 : ∀ b, C b → H.Cov b .rm8 := fun b hb => h b hb _ (by simp [Op.srcs])
    have hk : ∀ b, C b → (shiftOfNum a = .rcl ∨ shiftOfNum a = .rcr) → H.fl &&& FLAG_CF = 0 := fun b hb e => carry_cov (fun d hd => h b hb d (by simp [Op.srcs, hd])) (shift_carry a e)
    exact Tw.bindRM (fun b hb => (h1 b hb).2) fun b l hb hl => Tw.weak (Tw.shiftApply (hk b hb) (Tw.rdRM8 (h1 b hb) hl) (Tw.wrRM8 hl))
  case shiftMI8X =>
    have h1 : ∀ b, C b → H.Cov b .rm := fun b hb => h b hb _ (by simp [Op.srcs])
    have hk : ∀ b, C b → (shiftOfNum a = .rcl ∨ shiftOfNum a = .rcr) → H.fl &&& FLAG_CF = 0 := fun b hb e => carry_cov (fun d hd => h b hb d (by simp [Op.srcs, hd])) (shift_carry a e)
    exact Tw.bindRMX (fun b hb => (h1 b hb).2) fun b l hb hl => Tw.weak (Tw.bindE Tw.readInstr fun _ => Tw.withW fun n hn => Tw.shiftApply (hk b hb) (Tw.rdRMX (h1 b hb) hl hn) (Tw.wrRMX hl))
  case shiftM1X =>
    have h1 : ∀ b, C b → H.Cov b .rm := fun b hb => h b hb _ (by simp [Op.srcs])
    have hk : ∀ b, C b → (shiftOfNum a = .rcl ∨ shiftOfNum a = .rcr) → H.fl &&& FLAG_CF = 0 := fun b hb e => carry_cov (fun d hd => h b hb d (by simp [Op.srcs, hd])) (shift_carry a e)
    exact Tw.bindRMX (fun b hb => (h1 b hb).2) fun b l hb hl => Tw.weak (Tw.withW fun n hn => Tw.shiftApply (hk b hb) (Tw.rdRMX (h1 b hb) hl hn) (Tw.wrRMX hl))
  case shiftMCl =>
    have h1 : ∀ b, C b → H.Cov b .rm8 ∧ H.RegX 1 := fun b hb => ⟨h b hb _ (by simp [Op.srcs]), h b hb (.gpr 1) (by simp [Op.srcs])⟩
    have hk : ∀ b, C b → (shiftOfNum a = .rcl ∨ shiftOfNum a = .rcr) → H.fl &&& FLAG_CF = 0 := fun b hb e => carry_cov (fun d hd => h b hb d (by simp [Op.srcs, hd])) (shift_carry a e)
    refine Tw.bind (V := fun x y => (∃ b, C b) → x = y) (R1 := Tw.RB H env C) (Tw.getsR fun s t hs ⟨b, hb⟩ => hs.1.1.reg (h1 b hb).2.ok8) fun c c' hc => ?_
    refine Tw.bindRM (fun b hb => (h1 b hb).1.2) fun b l hb hl => ?_
    rw [hc ⟨b, hb⟩]
    exact Tw.weak (Tw.shiftApply (hk b hb) (Tw.rdRM8 (h1 b hb).1 hl) (Tw.wrRM8 hl))
  case shiftMClX =>
    have h1 : ∀ b, C b → H.Cov b .rm ∧ H.RegX 1 := fun b hb => ⟨h b hb _ (by simp [Op.srcs]), h b hb (.gpr 1) (by simp [Op.srcs])⟩
    have hk : ∀ b, C b → (shiftOfNum a = .rcl ∨ shiftOfNum a = .rcr) → H.fl &&& FLAG_CF = 0 := fun b hb e => carry_cov (fun d hd => h b hb d (by simp [Op.srcs, hd])) (shift_carry a e)
    refine Tw.bind (V := fun x y => (∃ b, C b) → x = y) (R1 := Tw.RB H env C) (Tw.getsR fun s t hs ⟨b, hb⟩ => hs.1.1.reg (h1 b hb).2.ok8) fun c c' hc => ?_
    refine Tw.bindRMX (fun b hb => (h1 b hb).1.2) fun b l hb hl => ?_
    rw [hc ⟨b, hb⟩]
    exact Tw.weak (Tw.withW fun n hn => Tw.shiftApply (hk b hb) (Tw.rdRMX (h1 b hb).1 hl hn) (Tw.wrRMX hl))
  case unaryM =>
    dsimp only [opFn, opUnaryM]
    refine Tw.ite (fun e => ?_) fun _ => Tw.ite (fun e => ?_) fun _ => Tw.throwE fun _ _ h => h.1.1
    · have h1 : ∀ b, C b → H.Cov b .rm8 := fun b hb => h b hb _ (by simp [Op.srcs, e])
      exact Tw.bindRM (fun b hb => (h1 b hb).2) fun b l hb hl => Tw.weak (Tw.incApply (Tw.rdRM8 (h1 b hb) hl) (Tw.wrRM8 hl))
    · have h1 : ∀ b, C b → H.Cov b .rm8 := fun b hb => h b hb _ (by simp [Op.srcs, e])
      exact Tw.bindRM (fun b hb => (h1 b hb).2) fun b l hb hl => Tw.weak (Tw.decApply (Tw.rdRM8 (h1 b hb) hl) (Tw.wrRM8 hl))
  case unaryMX =>
    dsimp only [opFn, opUnaryMX]
    have hid : ∀ d n, (a = 0 ∨ a = 1) → H.Wid n → Tw H env (Tw.RB H env C) H.Sim Eq (parseModRMX >>= fun x => unaryIncDec d n x.2) (parseModRMX >>= fun x => unaryIncDec d n x.2) := by
      intro d n e hn
      have h1 : ∀ b, C b → H.Cov b .rm := fun b hb => h b hb _ (by rcases e with rfl | rfl <;> simp [Op.srcs])
      exact Tw.bindRMX (fun b hb => (h1 b hb).2) fun b l hb hl => Tw.weak (Tw.unaryIncDec (Tw.rdRMX (h1 b hb) hl hn) (Tw.wrRMX hl))
    have hst : ∀ b, C b → (a = 2 ∨ a = 3 ∨ a = 6) → H.RegX 4 ∧ H.SegOk .ss := by
      rintro b hb ha
      refine ⟨h b hb (.gpr 4) ?_, h b hb (.sreg .ss) ?_⟩ <;> rcases ha with rfl | rfl | rfl <;> simp [Op.srcs]
    have hrm : ∀ b, C b → (a = 2 ∨ a = 4 ∨ a = 6) → H.Cov b .rm := by
      rintro b hb ha
      refine h b hb .rm ?_
      rcases ha with rfl | rfl | rfl <;> simp [Op.srcs]
    have far : ∀ {f : BitVec 16 × BitVec 16 → M Unit}, (a = 3 ∨ a = 5) → (∀ b x, C b → Tw H env H.R H.Sim Eq (f x) (f x)) → Tw H env (Tw.RB H env C) H.Sim Eq (parseFarPtr >>= f) (parseFarPtr >>= f) := by
      intro f e hf
      have : (RME.parseFarPtr >>= f) = (RME.getModRM >>= fun m => (do
          guardE (m.mod == 3) .undefOpcode
          let (seg, ofs) ← getMMM m
          let ip ← readMem 16 seg (ofs.setWidth 16)
          let cs ← readMem 16 seg ((ofs + 2).setWidth 16)
          pure (cs, ip)) >>= f) := Fr.bind_assoc3 _ _ _
      rw [this]
      refine Tw.bindModRM fun b hb => Tw.bindE (R1 := H.R) ?_ fun x => hf b x hb
      have hea : H.Cov b .addr := h b hb .addr (by rcases e with rfl | rfl <;> simp [Op.srcs])
      by_cases h3 : modOf b = 3
      · have e3 : ((ModRM.ofByte b).mod == 3) = true := by simp [(ofByteF_mod b).2 h3]
        rw [e3]
        intro s t hs
        exact ⟨rfl, hs.1⟩
      · exact Tw.bindE Tw.guardE fun _ => Tw.bindE (Tw.getMMME h3 (hea h3)) fun x => Tw.bindE Tw.readMem fun _ => Tw.bindE Tw.readMem fun _ => Tw.pureE
    refine Tw.rbDec fun d hd => ?_
    rw [hd]
    refine Tw.ite (fun ho => ?_) fun ho => ?_
    · have hn : H.Wid 32 := by rw [Hid.Wid, if_pos ho]
      refine Tw.ite (fun e => hid _ _ (Or.inl e) hn) fun _ => Tw.ite (fun e => hid _ _ (Or.inr e) hn) fun _ => Tw.ite (fun e => ?_) fun _ => Tw.throwE fun _ _ h => h.1.1
      refine Tw.bindRMX (fun b hb => (hrm b hb (by simp [e])).2) fun b l hb hl => Tw.weak ?_
      exact Tw.pushM (hst b hb (by simp [e])).1 (hst b hb (by simp [e])).2 (Tw.bindE (Tw.readLoc (Tw.rdRMX (hrm b hb (by simp [e])) hl hn)) fun _ => Tw.pureE)
    · have hn : H.Wid 16 := by rw [Hid.Wid, if_neg ho]
      refine Tw.ite (fun e => hid _ _ (Or.inl e) hn) fun _ => Tw.ite (fun e => hid _ _ (Or.inr e) hn) fun _ => Tw.ite (fun e => ?_) fun _ => Tw.ite (fun e => ?_) fun _ =>
        Tw.ite (fun e => ?_) fun _ => Tw.ite (fun e => ?_) fun _ => Tw.ite (fun e => ?_) fun _ => Tw.throwE fun _ _ h => h.1.1
      · refine Tw.bindRMX (fun b hb => (hrm b hb (by simp [e])).2) fun b l hb hl => Tw.weak ?_
        exact Tw.bindE (Tw.pushM (hst b hb (by simp [e])).1 (hst b hb (by simp [e])).2 Tw.nextIP) fun _ => Tw.bindE (Tw.readLoc (Tw.rdRMX16 (hrm b hb (by simp [e])) hl)) fun _ =>
          Tw.bindE Tw.setIP fun _ => Tw.setDontChangeIP
      · refine far (Or.inl e) fun b x hb => Tw.weak ?_
        have h4 := hst b hb (by simp [e])
        exact Tw.bindE (Tw.pushM h4.1 h4.2 (Tw.getSreg ck.cs)) fun _ => Tw.bindE (Tw.pushM h4.1 h4.2 Tw.nextIP) fun _ => Tw.bindE Tw.setIP fun _ => Tw.bindE Tw.setSreg fun _ => Tw.setDontChangeIP
      · refine Tw.bindRMX (fun b hb => (hrm b hb (by simp [e])).2) fun b l hb hl => Tw.weak ?_
        exact Tw.bindE (Tw.readLoc (Tw.rdRMX16 (hrm b hb (by simp [e])) hl)) fun _ => Tw.bindE Tw.setIP fun _ => Tw.setDontChangeIP
      · exact far (Or.inr e) fun b x hb => Tw.weak (Tw.bindE Tw.setIP fun _ => Tw.bindE Tw.setSreg fun _ => Tw.setDontChangeIP)
      · refine Tw.bindRMX (fun b hb => (hrm b hb (by simp [e])).2) fun b l hb hl => Tw.weak ?_
        exact Tw.pushM (hst b hb (by simp [e])).1 (hst b hb (by simp [e])).2 (Tw.readLoc (Tw.rdRMX16 (hrm b hb (by simp [e])) hl))
  case btx =>
    dsimp only [opFn, opBtx]
    refine Tw.ite (fun _ => Tw.throwE fun _ _ h => h.1.1) fun e => ?_
    have h1 : ∀ b, C b → H.Cov b .rm := fun b hb => h b hb _ (by simp only [Op.srcs]; rw [if_neg e]; simp)
    refine Tw.bindRMX (fun b hb => (h1 b hb).2) fun b l hb hl => Tw.weak (Tw.bindE Tw.readInstr fun _ => Tw.withW fun n hn => Tw.bindE (Tw.readLoc (Tw.rdRMX (h1 b hb) hl hn)) fun v => Tw.bind Tw.getFlags fun f g hf => ?_)
    refine Tw.bindE (Tw.setFlags (FEq.ite (hf.clr _) (hf.or _))) fun _ => ?_
    exact Tw.ite (fun _ => Tw.pureE) fun _ => Tw.ite (fun _ => Tw.writeLoc (Tw.wrRMX hl)) fun _ => Tw.ite (fun _ => Tw.writeLoc (Tw.wrRMX hl)) fun _ => Tw.writeLoc (Tw.wrRMX hl)
  all_goals (simp only [Op.srcs, List.mem_cons, forall_eq_or_imp, List.not_mem_nil, false_implies, implies_true, and_true] at h)
  case popMX =>
    exact Tw.rbDec fun d hd => Tw.bindE Tw.rbGuard fun _ => Tw.bindRMX (fun b hb => (h b hb).1) fun b l hb hl => Tw.weak (Tw.bindE (Tw.pop (h b hb).2.1 (h b hb).2.2) fun _ => Tw.writeLoc (Tw.wrRMX hl))
  case imulMIX =>
    exact Tw.rbDec fun d hd => Tw.bindE Tw.rbGuard fun _ => Tw.bindRMX (fun b hb => (h b hb).2) fun b l hb hl => Tw.weak (Tw.bindE Tw.readInstr fun _ => Tw.bindE (Tw.readLoc (Tw.rdRMX16 (h b hb) hl)) fun _ => Tw.imulMulti Tw.wrRegW)
  case imulMI8X =>
    exact Tw.rbDec fun d hd => Tw.bindE Tw.rbGuard fun _ => Tw.bindRMX (fun b hb => (h b hb).2) fun b l hb hl => Tw.weak (Tw.bindE Tw.readInstr8S fun _ => Tw.bindE (Tw.readLoc (Tw.rdRMX16 (h b hb) hl)) fun _ => Tw.imulMulti Tw.wrRegW)
  case imulRMX =>
    exact Tw.rbDec fun d hd => Tw.bindE Tw.rbGuard fun _ => Tw.bindRMX (fun b hb => (h b hb).1.2) fun b l hb hl => Tw.weak (Tw.bindE (Tw.readLoc (Tw.rdRMX16 (h b hb).1 hl)) fun _ => Tw.bindE (Tw.readLoc (Tw.rdRegW16 (h b hb).2)) fun _ => Tw.imulMulti Tw.wrRegW)
  case testMR =>
    exact Tw.bindRM (fun b hb => (h b hb).1.2) fun b l hb hl => Tw.weak (Tw.bindE (Tw.readLoc (Tw.rdRegB (h b hb).2)) fun _ => Tw.testApply (Tw.rdRM8 (h b hb).1 hl))
  case testMRX =>
    exact Tw.bindRMX (fun b hb => (h b hb).1.2) fun b l hb hl => Tw.weak (Tw.withW fun n hn => Tw.bindE (Tw.readLoc (Tw.rdRegW (h b hb).2 hn)) fun _ => Tw.testApply (Tw.rdRMX (h b hb).1 hl hn))
  case xchgRM =>
    exact Tw.bindRM (fun b hb => (h b hb).1.2) fun b l hb hl => Tw.weak (Tw.xchgLoc (Tw.rdRegB (h b hb).2) (Tw.rdRM8 (h b hb).1 hl) Tw.wrRegB (Tw.wrRM8 hl))
  case xchgRMX =>
    exact Tw.bindRMX (fun b hb => (h b hb).1.2) fun b l hb hl => Tw.weak (Tw.withW fun n hn => Tw.xchgLoc (Tw.rdRegW (h b hb).2 hn) (Tw.rdRMX (h b hb).1 hl hn) Tw.wrRegW (Tw.wrRMX hl))
  case movMR =>
    exact Tw.bindRM (fun b hb => (h b hb).1) fun b l hb hl => Tw.weak (Tw.movLoc (Tw.rdRegB (h b hb).2) (Tw.wrRM8 hl))
  case movMRX =>
    exact Tw.bindRMX (fun b hb => (h b hb).1) fun b l hb hl => Tw.weak (Tw.withW fun n hn => Tw.movLoc (Tw.rdRegW (h b hb).2 hn) (Tw.wrRMX hl))
  case movRM =>
    exact Tw.bindRM (fun b hb => (h b hb).2) fun b l hb hl => Tw.weak (Tw.movLoc (Tw.rdRM8 (h b hb) hl) Tw.wrRegB)
  case movRMX =>
    exact Tw.bindRMX (fun b hb => (h b hb).2) fun b l hb hl => Tw.weak (Tw.withW fun n hn => Tw.movLoc (Tw.rdRMX (h b hb) hl hn) Tw.wrRegW)
  case movRS =>
    refine Tw.rbDec fun d hd => Tw.bindE Tw.rbGuard fun _ => Tw.bindPeek fun b hb => Tw.bindRMX (fun b hb => (h b hb.2).1) fun b' l hb' hl => ?_
    obtain ⟨rfl, hb'⟩ := hb'
    refine Tw.weak (Tw.bind Tw.segOfV fun x y hxy => ?_)
    obtain ⟨rfl, hx⟩ := hxy
    refine Tw.bindE (Tw.getSreg (segSrc_cov (h b' hb').2 x ?_)) fun _ => Tw.writeLoc (Tw.wrRMX hl)
    rw [← hx, show (b' >>> 3).setWidth 3 = regOf b' from ofByteF_reg b']
  case movSR =>
    refine Tw.rbDec fun d hd => Tw.bindE Tw.rbGuard fun _ => Tw.bindPeek fun b hb => Tw.bind Tw.segOfV fun x y hxy => ?_
    obtain ⟨rfl, hx⟩ := hxy
    exact Tw.bindRMX (fun b hb => (h b hb.2).2) fun b' l hb' hl => Tw.weak (Tw.bindE (Tw.readLoc (Tw.rdRMX16 (h b' hb'.2) hl)) fun _ => Tw.setSreg)
  case movMI =>
    exact Tw.bindRM (fun b hb => h b hb) fun b l hb hl => Tw.weak (Tw.bindE Tw.readInstr fun _ => Tw.writeLoc (Tw.wrRM8 hl))
  case movMIX =>
    exact Tw.bindRMX (fun b hb => h b hb) fun b l hb hl => Tw.weak (Tw.withW fun n hn => Tw.bindE Tw.readInstr fun _ => Tw.writeLoc (Tw.wrRMX hl))
  case movZ =>
    refine Tw.bindModRM fun b hb => Tw.bind (Tw.decodeModM (h b hb).2) fun l l' hl => ?_
    obtain ⟨rfl, hl⟩ := hl
    exact Tw.weak (Tw.withW fun n hn => Tw.bindE (Tw.readLoc (Tw.rdRM8 (h b hb) hl)) fun _ => Tw.writeLoc Tw.wrRegW)
  case movZX =>
    refine Tw.bindModRM fun b hb => Tw.bind (Tw.decodeModMX (h b hb).2) fun l l' hl => ?_
    obtain ⟨rfl, hl⟩ := hl
    exact Tw.weak (Tw.withW fun n hn => Tw.bindE (Tw.readLoc (Tw.rdRMX16 (h b hb) hl)) fun _ => Tw.writeLoc Tw.wrRegW)
  case lea =>
    refine Tw.bindModRM fun b hb => ?_
    by_cases h3 : modOf b = 3
    · have e3 : ((ModRM.ofByte b).mod == 3) = true := by simp [(ofByteF_mod b).2 h3]
      rw [e3]
      intro s t hs
      exact ⟨rfl, hs.1⟩
    · refine Tw.bindE Tw.guardE fun _ => Tw.bind (Tw.getMMM h3 (h b hb h3)) fun x y hxy => Tw.weak (Tw.withW fun n hn => ?_)
      obtain ⟨x1, x2⟩ := x
      obtain ⟨y1, y2⟩ := y
      have := hxy.1
      dsimp only at this ⊢
      rw [this]
      exact Tw.writeLoc Tw.wrRegW
  case lxs sr =>
    refine Tw.bindUnchecked fun b hb => ?_
    by_cases h3 : modOf b = 3
    · have e3 : ((ModRM.ofByte b).mod == 3) = true := by simp [(ofByteF_mod b).2 h3]
      rw [e3]
      intro s t hs
      exact ⟨rfl, hs.1⟩
    · exact Tw.bindE Tw.guardE fun _ => Tw.bindE (Tw.getMMME h3 (h b hb h3)) fun x => Tw.weak (Tw.withW fun n hn => Tw.bindE Tw.readMem fun _ => Tw.bindE (Tw.writeLoc Tw.wrRegW) fun _ =>
        Tw.bindE Tw.readMem fun _ => Tw.setSreg)
  case bsf =>
    refine Tw.bindRMX (fun b hb => (h b hb).2) fun b l hb hl => Tw.weak (Tw.bindE (Tw.readLoc (Tw.rdRMX16 (h b hb) hl)) fun v => Tw.bind Tw.getFlags fun f g hf => ?_)
    exact Tw.ite (fun _ => Tw.setFlags (hf.or _)) fun _ => Tw.bindE (Tw.writeLoc Tw.wrRegW) fun _ => Tw.setFlags (hf.clr _)
  case shxdI8 right =>
    refine Tw.bindRM (fun b hb => (h b hb).1.2) fun b l hb hl => Tw.weak (Tw.bindE Tw.readInstr fun _ => ?_)
    have hl2 := shxd_locs (h b hb).1 (h b hb).2 hl (hx.imp (fun hx => hx rfl b hb) id)
    exact Tw.shxdApply hl2.1 hl2.2
  case shxdCl right =>
    refine Tw.bindRM (fun b hb => (h b hb).1.2) fun b l hb hl => Tw.weak (Tw.bindE (Tw.getReg (h b hb).2.2.ok8) fun _ => ?_)
    have hl2 := shxd_locs (h b hb).1 (h b hb).2.1 hl (hx.imp (fun hx => hx rfl b hb) id)
    exact Tw.shxdApply hl2.1 hl2.2

end RME
