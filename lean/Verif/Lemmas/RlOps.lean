import Verif.Lemmas.Rl
set_option autoImplicit false
/-
The relational logic of `Verif.Lemmas.Rl` applied to every opcode function and to `RME_RunOne`.
-/
set_option linter.unusedSectionVars false
set_option linter.unusedVariables false
namespace RME

theorem Rl.vx {c : Rc} {n : Nat} {l l' : Loc} (h : c.VX l l') (hn : n = 8 ∨ n = 16 ∨ n = 32) : c.VL n l l' := h n hn

/-- width side conditions -/
macro "rlw" : tactic => `(tactic| first | assumption | decide)
/-- operand side conditions -/
macro "rlv" : tactic => `(tactic| first
  | assumption
  | exact Rl.vx Rl.VXreg (by rlw)
  | exact Rl.vx Rl.VXregB (by rlw)
  | exact Rl.vx Rl.VXregW (by rlw)
  | exact Rl.vx (by assumption) (by rlw))

syntax "rl1" : tactic
macro_rules | `(tactic| rl1) => `(tactic| with_reducible first
  | exact Rl.pureE
  | exact Rl.ubE
  | exact Rl.throwE
  | exact Rl.guardE
  | exact Rl.liftUB
  | exact Rl.getReg
  | exact Rl.getRegHE
  | exact Rl.getSreg
  | exact Rl.getIP
  | exact Rl.getFlags
  | exact Rl.getDec
  | exact Rl.nextIP
  | exact Rl.getSegment
  | exact Rl.dividend
  | exact Rl.getRegHi
  | exact Rl.setReg
  | exact Rl.setRegH
  | exact Rl.setRegHi
  | exact Rl.setSreg
  | exact Rl.setIP
  | exact Rl.setFlags
  | exact Rl.modDec
  | exact Rl.setDontChangeIP
  | exact Rl.clearRep
  | exact Rl.addIP
  | exact Rl.segOf
  | exact Rl.portOut
  | exact Rl.portIn
  | exact Rl.runHle
  | exact Rl.readInstr8S
  | exact Rl.readInstr (by rlw)
  | exact Rl.readMem (by rlw)
  | exact Rl.writeMem (by rlw)
  | exact Rl.push
  | exact Rl.pop
  | exact Rl.popReg
  | exact Rl.getModRM
  | exact Rl.getModRM_unchecked
  | exact Rl.getMMM
  | exact Rl.parseFarPtr
  | exact Rl.peekInstr8
  | exact Rl.moffs
  | (refine Rl.readLoc ?_ <;> rlv)
  | (refine Rl.writeLoc ?_ <;> rlv))

macro "rlstep" : tactic => `(tactic| first
  | rl1
  | ((with_reducible refine Rl.bindRM ?_); intro _ _ _ _ _ _; dsimp only)
  | ((with_reducible refine Rl.bindRMX ?_); intro _ _ _ _ _ _; dsimp only)
  | ((with_reducible refine Rl.withW ?_); intro _ _)
  | (with_reducible refine Rl.pushM ?_)
  | (with_reducible refine Rl.bind Rl.decodeModM (fun _ _ _ => ?_))
  | (with_reducible refine Rl.bind Rl.decodeModMX (fun _ _ _ => ?_))
  | ((with_reducible refine Rl.bindE ?_ ?_); rotate_left; intro _)
  | ((with_reducible refine Rl.ite ?_ ?_) <;> intro _)
  | split
  | dsimp only)
macro "rl" : tactic => `(tactic| repeat' rlstep)

namespace Rl
variable {c : Rc} {α β : Type} [k : c.Ok]
theorem aluApply {k n l l' s} (hv : c.VL n l l') : Rle c (RME.aluApply k n l s) (RME.aluApply k n l' s) := by
  unfold RME.aluApply; rl
theorem testApply {n l l' s} (hv : c.VL n l l') : Rle c (RME.testApply n l s) (RME.testApply n l' s) := by
  unfold RME.testApply; rl
theorem incApply {n l l'} (hv : c.VL n l l') : Rle c (RME.incApply n l) (RME.incApply n l') := by
  unfold RME.incApply; rl
theorem decApply {n l l'} (hv : c.VL n l l') : Rle c (RME.decApply n l) (RME.decApply n l') := by
  unfold RME.decApply; rl
theorem clearOZSP : Rle c RME.clearOZSP RME.clearOZSP := by unfold RME.clearOZSP; rl
theorem storeProduct {n lo hi} : Rle c (RME.storeProduct n lo hi) (RME.storeProduct n lo hi) := by
  unfold RME.storeProduct; rl
theorem storeQuot {n lo hi} : Rle c (RME.storeQuot n lo hi) (RME.storeQuot n lo hi) := by
  unfold RME.storeQuot; rl
theorem imulMulti {l l' a b} (hv : c.VL 16 l l') : Rle c (RME.imulMulti l a b) (RME.imulMulti l' a b) := by
  unfold RME.imulMulti; rl
theorem shiftApply {k n l l' x} (hv : c.VL n l l') : Rle c (RME.shiftApply k n l x) (RME.shiftApply k n l' x) := by
  unfold RME.shiftApply; rl
theorem movLoc {n l l' m m'} (hv : c.VL n l l') (hw : c.VL n m m') : Rle c (RME.movLoc n l m) (RME.movLoc n l' m') := by
  unfold RME.movLoc; rl
theorem xchgLoc {n l l' m m'} (hv : c.VL n l l') (hw : c.VL n m m') : Rle c (RME.xchgLoc n l m) (RME.xchgLoc n l' m') := by
  unfold RME.xchgLoc; rl
theorem pushVal {v} : Rle c (RME.pushVal v) (RME.pushVal v) := by unfold RME.pushVal; rl
theorem addSP {v} : Rle c (RME.addSP v) (RME.addSP v) := by unfold RME.addSP; rl
theorem cmpFlags {n} {a b : BitVec n} : Rle c (RME.cmpFlags a b) (RME.cmpFlags a b) := by unfold RME.cmpFlags; rl
theorem enterLoop {k} : Rle c (RME.enterLoop k) (RME.enterLoop k) := by
  induction k with
  | zero => exact pureE
  | succ k ih => unfold RME.enterLoop; rl; exact ih
theorem callInterrupt {n} : Rle c (RME.callInterrupt n) (RME.callInterrupt n) := by
  unfold RME.callInterrupt; rl
theorem matchQuot {n : Nat} {x : Option (BitVec n × BitVec n)} :
    Rle c (match x with | none => RME.throwE .divErr | some (q, r) => RME.storeQuot n q r)
      (match x with | none => RME.throwE .divErr | some (q, r) => RME.storeQuot n q r) := by
  cases x with
  | none => exact throwE
  | some x => exact storeQuot
theorem miscOp {n p l l'} (hn : n = 8 ∨ n = 16 ∨ n = 32) (hv : c.VL n l l') : Rle c (RME.miscOp n p l) (RME.miscOp n p l') := by
  unfold RME.miscOp
  refine ite (fun _ => bindE (readInstr hn) fun _ => bindE (readLoc hv) fun _ => bindE getFlags fun _ => setFlags) fun _ =>
    ite (fun _ => throwE) fun _ =>
    ite (fun _ => bindE (readLoc hv) fun _ => writeLoc hv) fun _ =>
    ite (fun _ => bindE (readLoc hv) fun _ => bindE getFlags fun _ => bindE (writeLoc hv) fun _ => setFlags) fun _ =>
    ite (fun _ => bindE (readLoc hv) fun _ => bindE getReg fun _ => bindE getFlags fun _ => bindE storeProduct fun _ => setFlags) fun _ =>
    ite (fun _ => bindE (readLoc hv) fun _ => bindE getReg fun _ => bindE getFlags fun _ => bindE storeProduct fun _ => setFlags) fun _ =>
    ite (fun _ => bindE (readLoc hv) fun _ => bindE guardE fun _ => bindE dividend fun _ => matchQuot) fun _ =>
    bindE (readLoc hv) fun _ => bindE guardE fun _ => bindE dividend fun _ => bindE liftUB fun _ => matchQuot
theorem shxdApply {r l l' m m' x} (hv : c.VX l l') (hw : c.VX m m') : Rle c (RME.shxdApply r l m x) (RME.shxdApply r l' m' x) := by
  unfold RME.shxdApply; rl
theorem unaryIncDec {d n l l'} (hv : c.VL n l l') : Rle c (RME.unaryIncDec d n l) (RME.unaryIncDec d n l') := by
  unfold RME.unaryIncDec; rl
  · exact decApply hv
  · exact incApply hv
theorem strCount : Rle c RME.strCount RME.strCount := by unfold RME.strCount; rl
theorem strAgain {z} : Rle c (RME.strAgain z) (RME.strAgain z) := by unfold RME.strAgain; rl
theorem strOfs {r} : Rle c (RME.strOfs r) (RME.strOfs r) := by unfold RME.strOfs; rl
theorem strPut {u r v} : Rle c (RME.strPut u r v) (RME.strPut u r v) := by unfold RME.strPut; rl
theorem strLoop {z step mask body} (hb : ∀ x y, Rle c (body x y) (body x y)) {fuel} : ∀ {so dd},
    Rle c (RME.strLoop z step mask body fuel so dd) (RME.strLoop z step mask body fuel so dd) := by
  induction fuel with
  | zero => intro so dd; exact ubE
  | succ k ih =>
    intro so dd
    unfold RME.strLoop
    refine bindE strCount fun _ => ite (fun _ => pureE) fun _ => bindE (hb _ _) fun _ => bindE getFlags fun _ => ?_
    dsimp only
    exact bindE strAgain fun _ => ite (fun _ => ih) fun _ => pureE
theorem stringOp {z u v step body} (hb : ∀ p x q y, Rle c (body p x q y) (body p x q y)) :
    Rle c (RME.stringOp z u v step body) (RME.stringOp z u v step body) := by
  unfold RME.stringOp
  refine bindE getSreg fun _ => bindE getSegment fun _ => bindE getDec fun _ => bindE strOfs fun _ => bindE strOfs fun _ => ?_
  dsimp only
  exact bindE getReg fun _ => ite (fun _ => clearRep) fun _ => bindE (strLoop fun _ _ => hb _ _ _ _) fun _ =>
    bindE strPut fun _ => bindE strPut fun _ => clearRep
theorem strW {w} {f : Nat → M Unit} (h : ∀ n, (n = 8 ∨ n = 16 ∨ n = 32) → Rle c (f n) (f n)) : Rle c (RME.strW w f) (RME.strW w f) := by
  unfold RME.strW
  exact ite (fun _ => withW h) fun _ => h 8 (by decide)
end Rl

macro_rules | `(tactic| rl1) => `(tactic| with_reducible first
  | (refine Rl.aluApply ?_ <;> rlv)
  | (refine Rl.testApply ?_ <;> rlv)
  | (refine Rl.incApply ?_ <;> rlv)
  | (refine Rl.decApply ?_ <;> rlv)
  | exact Rl.clearOZSP
  | (refine Rl.imulMulti ?_ <;> rlv)
  | (refine Rl.shiftApply ?_ <;> rlv)
  | (refine Rl.movLoc ?_ ?_ <;> rlv)
  | (refine Rl.xchgLoc ?_ ?_ <;> rlv)
  | exact Rl.pushVal
  | exact Rl.addSP
  | exact Rl.cmpFlags
  | exact Rl.enterLoop
  | exact Rl.callInterrupt
  | (refine Rl.miscOp ?_ ?_ <;> first | rlw | rlv)
  | (refine Rl.shxdApply ?_ ?_ <;> assumption)
  | (refine Rl.unaryIncDec ?_ <;> rlv)
  | ((refine Rl.strW ?_); intro _ _)
  | ((refine Rl.stringOp ?_); intro _ _ _ _))

namespace Rl
variable {c : Rc}

set_option linter.unusedSimpArgs false in
set_option maxHeartbeats 8000000 in
/-- Every opcode function respects the relation (POPF: if the CPU types are related). -/
theorem opFn [k : c.Ok] {o p} (hp : o = .popF → c.Cpu) : Rle c (RME.opFn o p) (RME.opFn o p) := by
  cases o
  case popF =>
    have hc := hp rfl
    show Rle c RME.opPopF RME.opPopF
    unfold RME.opPopF
    refine bindE getDec fun _ => bindE guardE fun _ => bindE pop fun _ => bindE (gets fun s t h => hc.cpu _ _ h.2.1) fun _ => setFlags
  case alu k form =>
    simp only [RME.opFn, RME.opAlu]; cases form <;> dsimp only <;> rl
  all_goals
    simp only [RME.opFn, opPushSeg, opPopSeg, opOvrSeg, opOvrOper, opOvrAddr, opPrefixRep, opDA, opAA, opAam, opAad, opIncReg, opDecReg,
      opPushReg, opPopReg, opXchgReg, opMovRegB, opMovReg, opPushA, opPopA, opPushF, opPopMX, opPushI, opPushI8, opImulMIX, opImulMI8X,
      opImulRMX, opIns, opOuts, opMovs, opStos, opLods, opCmps, opScas, opJccS, opJccN, opLoop, opJcxz, opArithMI, opArithMIX,
      opArithMI8X, opMiscMI, opMiscMIX, opShiftMI, opShiftMI8X, opShiftM1, opShiftM1X, opShiftMCl, opShiftMClX, opUnaryM, opUnaryMX,
      opTestMR, opTestMRX, opTestAI, opTestAIX, opXchgRM, opXchgRMX, opMovMR, opMovMRX, opMovRM, opMovRMX, opMovRS, opMovSR, opMovMI,
      opMovMIX, opMovAMo, opMovAMoX, opMovMoA, opMovMoAX, opMovZ, opMovZX, opLea, opLxs, opXlat, opCbw, opCwd, opHlt, opBsf, opBtx,
      opCallN, opCallF, opRetN, opRetF, opRetiN, opRetiF, opEnter, opLeave, opInt3, opIntI, opInto, opIret, opJmpN, opJmpF, opJmpS,
      opInAI, opInAIX, opInADx, opInADxX, opOutAI, opOutAIX, opOutDxA, opOutDxAX, opFlag, opSahf, opLahf, opShxdI8, opShxdCl]
    rl

theorem ext0F [k : c.Ok] [hc : c.Cpu] : Rle c RME.ext0F RME.ext0F := by
  unfold RME.ext0F
  refine bindE (readInstr (by decide)) fun x => ?_
  split
  · exact opFn fun _ => hc
  · exact throwE
theorem callFn [k : c.Ok] [hc : c.Cpu] {f p} : Rle c (RME.callFn f p) (RME.callFn f p) := by
  cases f
  · exact opFn fun _ => hc
  · exact ext0F
theorem fetchParam [k : c.Ok] {e} : Rle c (RME.fetchParam e) (RME.fetchParam e) := by
  unfold RME.fetchParam; rl
theorem decodeOne [k : c.Ok] [hc : c.Cpu] : Rle c RME.decodeOne RME.decodeOne := by
  unfold RME.decodeOne
  refine bindE (readInstr (by decide)) fun x => bindE guardE fun _ => ?_
  split
  · exact throwE
  · exact bindE fetchParam fun _ => callFn
theorem decodeLoop [k : c.Ok] [hc : c.Cpu] {fuel} : Rle c (RME.decodeLoop fuel) (RME.decodeLoop fuel) := by
  induction fuel with
  | zero => exact ubE
  | succ n ih =>
    intro s t h
    have h1 := decodeOne (c := c) s t h
    simp only [RME.decodeLoop]
    cases h2 : RME.decodeOne c.e₁ s <;> cases h3 : RME.decodeOne c.e₂ t <;> rw [h2, h3] at h1 <;> try exact h1.elim
    · exact h1
    · obtain ⟨rfl, h1⟩ := h1
      rename_i e _ _
      cases e <;> first | exact ⟨rfl, h1⟩ | exact ih _ _ h1
    · exact h1
theorem advanceIP [k : c.Ok] : Rle c RME.advanceIP RME.advanceIP := by
  unfold RME.advanceIP; rl
theorem callIntInternal [k : c.Ok] {n} : Rle c (RME.callIntInternal n) (RME.callIntInternal n) := by
  unfold RME.callIntInternal; rl
theorem dumpLoop [k : c.Ok] {cs j} : ∀ {i}, Rle c (RME.dumpLoop cs j i) (RME.dumpLoop cs j i) := by
  induction j with
  | zero => intro i; exact pureE
  | succ j ih => intro i; exact bindE (readMem (by decide)) fun _ => ih
end Rl

/-- What is needed of the settings for a whole instruction other than POPF. -/
class Rc.Step0 (c : Rc) : Prop extends c.Ok where
  num : ∀ a b, c.E a b → b.instrNum = a.instrNum
  null : ∀ a b, c.E a b → b.lastNull = a.lastNull
  setNum : ∀ a b n, c.E a b → c.E { a with instrNum := n } { b with instrNum := n }
  setNull : ∀ a b l, c.E a b → c.E { a with lastNull := l } { b with lastNull := l }
  dbg : ∀ cs ip, Rle c (RME.debugTail cs ip) (RME.debugTail cs ip)

/-- What is needed of the settings for a whole instruction. -/
class Rc.Step (c : Rc) : Prop extends c.Step0, c.Cpu

namespace Rl
variable {c : Rc}
/-- The debug dump: both machines print it or neither. -/
theorem debugTail_level [k : c.Ok] (hE : ∀ a b, c.E a b → (1 ≤ b.debugLevel ↔ 1 ≤ a.debugLevel)) (cs ip) :
    Rle c (RME.debugTail cs ip) (RME.debugTail cs ip) := by
  intro s t h
  have h1 : t.debugLevel ≥ 1 ↔ s.debugLevel ≥ 1 := hE _ _ h.2.1
  simp only [RME.debugTail, bind_apply, gets_apply, resbind_ok, ite_apply, h1]
  split
  · exact bindE (c := c) getDec (fun _ => dumpLoop) s t h
  · exact ⟨h, rfl⟩

section
variable [k : c.Step0]
theorem startInstr : Rle c RME.startInstr RME.startInstr := by
  intro s t h
  have h1 : t.instrNum = s.instrNum := k.num _ _ h.2.1
  simp only [RME.startInstr, h1]
  split
  · rfl
  · exact ⟨⟨{ h.1 with dec := rfl }, k.setNum _ _ _ h.2.1, h.2.2⟩, rfl⟩
theorem setNullE {b} : Rle c (RME.modify (fun s => { s with lastNull := b })) (RME.modify (fun s => { s with lastNull := b })) :=
  modify fun s t h => ⟨{ h.1 with }, k.setNull _ _ _ h.2.1, h.2.2⟩
theorem nullCheckTail {cs ip} : Rle c (RME.nullCheckTail cs ip) (RME.nullCheckTail cs ip) := by
  unfold RME.nullCheckTail
  exact bindE getDec fun _ => ite (fun _ => bindE (readMem (by decide)) fun _ => bindE (readMem (by decide)) fun _ =>
    ite (fun _ => bindE (gets fun s t h => k.null _ _ h.2.1) fun _ => bindE guardE fun _ => setNullE) fun _ => setNullE) fun _ => setNullE
theorem iret : Rle c RME.opIret RME.opIret := opFn (o := .iret) (p := 0) fun h => by cases h
theorem ignoreErr {m : M Unit} (hm : Rle c m m) : Rle c (RME.ignoreErr m) (RME.ignoreErr m) := by
  intro s t h
  have h1 := hm s t h
  simp only [RME.ignoreErr]
  cases h2 : m c.e₁ s <;> cases h3 : m c.e₂ t <;> rw [h2, h3] at h1 <;> try exact h1.elim
  · exact h1
  · exact ⟨h1.2, rfl⟩
  · exact h1
end
section
variable [k : c.Step]
theorem doOpcode : Rle c RME.doOpcode RME.doOpcode := by
  unfold RME.doOpcode RME.finishInstr
  exact bindE getIP fun _ => bindE getSreg fun _ => bindE startInstr fun _ => bindE decodeLoop fun _ => bindE advanceIP fun _ =>
    bindE nullCheckTail fun _ => k.dbg _ _
theorem runOne : Rle c RME.runOne RME.runOne := by
  intro s t h
  simp only [RME.runOne, h.1.ip, h.1.sreg]
  split
  · exact ⟨rfl, h⟩
  split
  · exact bindE (c := c) (m := RME.runHle (s.ip.setWidth 8)) (m' := RME.runHle (s.ip.setWidth 8)) runHle (fun _ => ignoreErr iret) s t h
  · have h1 := doOpcode (c := c) s t h
    cases h2 : RME.doOpcode c.e₁ s <;> cases h3 : RME.doOpcode c.e₂ t <;> rw [h2, h3] at h1 <;> try exact h1.elim
    · exact h1
    · obtain ⟨rfl, h1⟩ := h1
      rename_i e _ _
      cases e <;> first | exact ⟨rfl, h1⟩ | exact callIntInternal _ _ h1
    · exact h1

theorem toSame {r r' : Res Unit} (h : Rr c Eq r r') : SameOutcome c.R r r' := by
  cases r <;> cases r' <;> first | exact h.elim | exact h.1 | exact h

/-- One call of `RME_RunOne` on two related machines. -/
theorem runOne_same {s t} (h : c.R s t) : SameOutcome c.R (RME.runOne c.e₁ s) (RME.runOne c.e₂ t) := toSame (runOne s t h)

/-- `RME_Call` on two related machines, instruction by instruction. -/
theorem rmeCall_same (fuel) : ∀ {s t}, c.R s t → match RME.rmeCall c.e₁ fuel s, RME.rmeCall c.e₂ fuel t with
    | some r, some r' => SameOutcome c.R r r'
    | none, none => True
    | _, _ => False := by
  induction fuel with
  | zero => intro s t h; trivial
  | succ n ih =>
    intro s t h
    have h1 := runOne (c := c) s t h
    simp only [RME.rmeCall]
    cases h2 : RME.runOne c.e₁ s <;> cases h3 : RME.runOne c.e₂ t <;> rw [h2, h3] at h1 <;> try exact h1.elim
    · exact ih h1.1
    · obtain ⟨rfl, h1⟩ := h1
      rename_i e _ _
      cases e <;> first | exact ⟨rfl, h1⟩ | exact h1
    · exact h1
/-- `RME_CallInt` on two related machines. -/
theorem rmeCallInt_same (fuel num) {s t} (h : c.R s t) : match RME.rmeCallInt c.e₁ fuel num s, RME.rmeCallInt c.e₂ fuel num t with
    | some r, some r' => SameOutcome c.R r r'
    | none, none => True
    | _, _ => False := by
  have h0 : c.R { s.setSreg .cs MAGIC_CS with ip := MAGIC_IP } { t.setSreg .cs MAGIC_CS with ip := MAGIC_IP } :=
    ⟨{ h.1 with ip := rfl, sreg := by simp only [State.setSreg, h.1.sreg] }, h.2⟩
  have h1 := callIntInternal (c := c) (n := num) _ _ h0
  simp only [RME.rmeCallInt]
  cases h2 : RME.callIntInternal num c.e₁ { s.setSreg .cs MAGIC_CS with ip := MAGIC_IP } <;>
    cases h3 : RME.callIntInternal num c.e₂ { t.setSreg .cs MAGIC_CS with ip := MAGIC_IP } <;> rw [h2, h3] at h1 <;> try exact h1.elim
  · exact rmeCall_same fuel h1.1
  · exact h1
  · exact h1
end
end Rl
end RME
