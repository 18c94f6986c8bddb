import Verif.Lemmas.KpAll
import Verif.Spec.Run
set_option autoImplicit false
/-
Which opcode functions keep the repeat prefix recorded by the decoder, and which ones use it up.
-/
namespace RME

/-- The recorded repeat prefix is kept. -/
def Nr {α : Type} (m : M α) : Prop := ∀ env t a t', CallbacksKeep env (fun s t => t.dec = s.dec) → m env t = .ok a t' → t'.dec.rep = t.dec.rep

namespace Nr
variable {α β : Type}
theorem bind {m : M α} {f : α → M β} (hm : Nr m) (hf : ∀ a, Nr (f a)) : Nr (m >>= f) := by
  intro env t b t' hk h
  simp only [bind_apply] at h
  cases h1 : m env t with
  | ok a u => rw [h1] at h; exact (hf a env u b t' hk h).trans (hm env t a u hk h1)
  | err e u => rw [h1] at h; cases h
  | ub u => rw [h1] at h; cases h
theorem pure (a : α) : Nr (Pure.pure a) := by intro env t b t' _ h; cases h; rfl
theorem gets (f : State → α) : Nr (RME.gets f) := by intro env t b t' _ h; cases h; rfl
theorem throw (e : Err) : Nr (throwE e : M α) := by intro env t b t' _ h; cases h
theorem ubx (u : UB) : Nr (ubE u : M α) := by intro env t b t' _ h; cases h
theorem guard (c : Bool) (e : Err) : Nr (guardE c e) := by cases c <;> (intro env t b t' _ h; cases h; try rfl)
theorem lift (x : Except UB α) : Nr (liftUB x) := by cases x <;> (intro env t b t' _ h; cases h; try rfl)
theorem getReg (n r) : Nr (RME.getReg n r) := gets _
theorem setReg (n r v) : Nr (RME.setReg n r v) := by intro env t b t' _ h; cases h; rfl
theorem setRegH (n r v) : Nr (RME.modify (·.setRegH n r v)) := by intro env t b t' _ h; cases h; rfl
theorem getSreg (r) : Nr (RME.getSreg r) := gets _
theorem setSreg (r v) : Nr (RME.setSreg r v) := by intro env t b t' _ h; cases h; rfl
theorem getFlags : Nr RME.getFlags := gets _
theorem setFlags (v) : Nr (RME.setFlags v) := by intro env t b t' _ h; cases h; rfl
theorem getDec : Nr RME.getDec := gets _
theorem getRegHi (r) : Nr (RME.getRegHi r) := gets _
theorem setRegHi (r v) : Nr (RME.setRegHi r v) := by intro env t b t' _ h; cases h; rfl
theorem portOut (b p v) : Nr (RME.portOut b p v) := by intro env t b t' _ h; cases h; rfl
theorem portIn (b p) : Nr (RME.portIn b p) := by intro env t b t' _ h; cases h; rfl
theorem ite (c : Prop) [Decidable c] {a b : M α} (ha : c → Nr a) (hb : ¬ c → Nr b) : Nr (if c then a else b) := by
  split
  · exact ha ‹_›
  · exact hb ‹_›
theorem withW {f : Nat → M α} (hf : ∀ n, Nr (f n)) : Nr (RME.withW f) :=
  bind getDec fun _ => ite _ (fun _ => hf _) (fun _ => hf _)
theorem segOf (c) : Nr (RME.segOf c) := by
  unfold RME.segOf
  repeat' (first | exact pure _ | exact ubx _ | refine ite _ (fun _ => ?_) (fun _ => ?_))
theorem getSegment (d) : Nr (RME.getSegment d) := bind getDec fun _ => getSreg _
theorem getPtr (seg ofs) : Nr (RME.getPtr seg ofs) := by
  intro env s e t _ h
  unfold RME.getPtr at h
  simp only [] at h
  split at h
  · split at h
    · cases h; rfl
    · split at h <;> cases h
  · cases h
theorem loadM (n h) : Nr (RME.loadM n h) := by
  intro env s e t _ h1
  unfold RME.loadM at h1
  split at h1 <;> cases h1; rfl
theorem storeM (n h v) : Nr (RME.storeM n h v) := by
  intro env s e t _ h1
  unfold RME.storeM at h1
  split at h1 <;> cases h1; rfl
theorem readMem (n seg ofs) : Nr (RME.readMem n seg ofs) := bind (getPtr _ _) fun _ => loadM _ _
theorem writeMem (n seg ofs v) : Nr (RME.writeMem n seg ofs v) := bind (getPtr _ _) fun _ => storeM _ _ _
theorem pushM {m : M (BitVec 16)} (hm : Nr m) : Nr (RME.pushM m) :=
  bind (getReg _ _) fun _ => bind (setReg _ _ _) fun _ => bind (getSreg _) fun _ => bind (getReg _ _) fun _ => bind hm fun _ =>
    writeMem _ _ _ _
theorem push (v) : Nr (RME.push v) := pushM (pure _)
theorem pop : Nr RME.pop :=
  bind (getSreg _) fun _ => bind (getReg _ _) fun _ => bind (readMem _ _ _) fun _ => bind (getReg _ _) fun _ => bind (setReg _ _ _) fun _ => pure _
theorem readLoc (n l) : Nr (RME.readLoc n l) := by
  cases l
  · exact getReg _ _
  · exact gets _
  · exact loadM _ _
theorem writeLoc (n l v) : Nr (RME.writeLoc n l v) := by
  cases l
  · exact setReg _ _ _
  · exact setRegH _ _ _
  · exact storeM _ _ _
theorem popReg (r) : Nr (RME.popReg r) := bind pop fun _ => setReg _ _ _
theorem modDec (f : Decoder → Decoder) (h : ∀ d, (f d).rep = d.rep) : Nr (RME.modDec f) := by intro env t b t' _ h1; cases h1; exact h _
theorem setIP (v) : Nr (RME.setIP v) := by intro env t b t' _ h; cases h; rfl
theorem getIP : Nr RME.getIP := gets _
theorem nextIP : Nr RME.nextIP := by intro env t b t' _ h; cases h; rfl
theorem setDontChangeIP : Nr RME.setDontChangeIP := by intro env t b t' _ h; cases h; rfl
theorem readInstr (n) : Nr (RME.readInstr n) := bind (getSreg _) fun _ => bind nextIP fun _ => bind (readMem _ _ _) fun _ => bind (modDec _ fun _ => rfl) fun _ => pure _
theorem readInstr8S (n) : Nr (RME.readInstr8S n) := bind (readInstr _) fun _ => pure _
theorem getModRM : Nr RME.getModRM := bind (readInstr _) fun _ => pure _
theorem getModRM_unchecked : Nr RME.getModRM_unchecked := by
  intro env t b t' hk h
  refine getModRM env t b t' hk ?_
  unfold RME.getModRM_unchecked at h
  split at h
  · cases h
  · exact h
theorem peek : Nr RME.peekInstr8 := by
  unfold RME.peekInstr8
  exact bind (readInstr _) fun _ => bind (modDec _ fun _ => rfl) fun _ => pure _
end Nr

/-- Prove that the repeat prefix is kept. -/
syntax "nr" : tactic
macro_rules
  | `(tactic| nr) => `(tactic| repeat' (with_reducible first
    | assumption
    | exact Nr.pure _ | exact Nr.getReg _ _ | exact Nr.setReg _ _ _ | exact Nr.setRegH _ _ _ | exact Nr.getSreg _ | exact Nr.setSreg _ _
    | exact Nr.getFlags | exact Nr.setFlags _ | exact Nr.getDec | exact Nr.throw _ | exact Nr.ubx _ | exact Nr.guard _ _ | exact Nr.lift _
    | exact Nr.getRegHi _ | exact Nr.setRegHi _ _ | exact Nr.portOut _ _ _ | exact Nr.portIn _ _
    | exact Nr.segOf _ | exact Nr.getSegment _ | exact Nr.getPtr _ _ | exact Nr.readMem _ _ _ | exact Nr.writeMem _ _ _ _
    | exact Nr.push _ | exact Nr.pop | exact Nr.readLoc _ _ | exact Nr.writeLoc _ _ _ | exact Nr.popReg _
    | exact Nr.setIP _ | exact Nr.getIP | exact Nr.nextIP | exact Nr.setDontChangeIP | exact Nr.readInstr _ | exact Nr.readInstr8S _
    | exact Nr.getModRM | exact Nr.getModRM_unchecked | exact Nr.peek
    | exact Nr.gets _
    | refine Nr.pushM ?_
    | refine Nr.withW (fun _ => ?_)
    | refine Nr.ite _ (fun _ => ?_) (fun _ => ?_)
    | refine Nr.bind ?_ (fun _ => ?_)
    | split))

namespace Nr
theorem doFunc (a b c) : Nr (RME.doFunc a b c) := by unfold RME.doFunc; nr
theorem doFunc32 (a b c) : Nr (RME.doFunc32 a b c) := by unfold RME.doFunc32; nr
theorem getMMM (m) : Nr (RME.getMMM m) := by
  unfold RME.getMMM
  repeat' (first | with_reducible exact doFunc _ _ _ | with_reducible exact doFunc32 _ _ _ | with_reducible exact getDec | with_reducible exact readInstr _ | with_reducible exact readInstr8S _ | with_reducible exact throw _ | with_reducible exact ubx _ | with_reducible refine Nr.ite _ (fun _ => ?_) (fun _ => ?_) | with_reducible refine Nr.bind ?_ (fun _ => ?_) | split)
theorem decodeModM (m) : Nr (RME.decodeModM m) := by
  unfold RME.decodeModM
  exact ite _ (fun _ => pure _) (fun _ => bind (getMMM _) fun _ => by nr)
theorem decodeModMX (m) : Nr (RME.decodeModMX m) := by
  unfold RME.decodeModMX
  exact ite _ (fun _ => pure _) (fun _ => bind (getMMM _) fun _ => by nr)
theorem parseModRM : Nr RME.parseModRM := by
  unfold RME.parseModRM
  exact bind getModRM fun _ => bind (decodeModM _) fun _ => pure _
theorem parseModRMX : Nr RME.parseModRMX := by
  unfold RME.parseModRMX
  exact bind getModRM fun _ => bind (decodeModMX _) fun _ => pure _
theorem parseFarPtr : Nr RME.parseFarPtr := by
  unfold RME.parseFarPtr
  refine bind getModRM fun _ => ?_
  first
    | (refine bind (guard _ _) fun _ => bind (getMMM _) fun _ => ?_; nr)
    | (refine ite _ (fun _ => ?_) (fun _ => bind (getMMM _) fun _ => ?_) <;> nr)
theorem aluApply (k n d s) : Nr (RME.aluApply k n d s) := by unfold RME.aluApply; nr
theorem testApply (n d s) : Nr (RME.testApply n d s) := by unfold RME.testApply; nr
theorem incApply (n d) : Nr (RME.incApply n d) := by unfold RME.incApply; nr
theorem decApply (n d) : Nr (RME.decApply n d) := by unfold RME.decApply; nr
theorem storeProduct (n a b) : Nr (RME.storeProduct n a b) := by unfold RME.storeProduct; nr
theorem storeQuot (n a b) : Nr (RME.storeQuot n a b) := by unfold RME.storeQuot; nr
theorem imulMulti (d a b) : Nr (RME.imulMulti d a b) := by unfold RME.imulMulti; nr
theorem shiftApply (k n d c) : Nr (RME.shiftApply k n d c) := by unfold RME.shiftApply; nr
theorem shxdApply (r s d a) : Nr (RME.shxdApply r s d a) := by unfold RME.shxdApply; nr
theorem movLoc (n d s) : Nr (RME.movLoc n d s) := by unfold RME.movLoc; nr
theorem xchgLoc (n d s) : Nr (RME.xchgLoc n d s) := by unfold RME.xchgLoc; nr
theorem pushVal (v) : Nr (RME.pushVal v) := by unfold RME.pushVal; nr
theorem clearOZSP : Nr RME.clearOZSP := by unfold RME.clearOZSP; nr
theorem enterLoop : ∀ k, Nr (RME.enterLoop k) := by
  intro k
  induction k with
  | zero => exact pure _
  | succ k ih => unfold RME.enterLoop; nr
theorem unaryIncDec (d n l) : Nr (RME.unaryIncDec d n l) := by
  unfold RME.unaryIncDec
  refine bind (ite _ (fun _ => decApply _ _) (fun _ => incApply _ _)) fun _ => ?_
  nr
theorem addIP (d) : Nr (RME.addIP d) := by unfold RME.addIP; nr
theorem addSP (d) : Nr (RME.addSP d) := by unfold RME.addSP; nr
theorem moffs : Nr RME.moffs := by unfold RME.moffs; nr
theorem runHle (n) : Nr (RME.runHle n) := by
  intro env t b t' hk h
  unfold RME.runHle at h
  split at h
  · rename_i f hf
    cases h
    rw [hk _ _ t hf]
  · cases h; rfl
theorem callInterrupt (n) : Nr (RME.callInterrupt n) := by
  unfold RME.callInterrupt
  refine bind (readMem _ _ _) fun _ => bind (readMem _ _ _) fun _ => bind (guard _ _) fun _ => ite _ (fun _ => runHle _) (fun _ => ?_)
  nr
end Nr

/-- As `nr`, with the parts of the opcode functions. -/
syntax "nrr" : tactic
macro_rules
  | `(tactic| nrr) => `(tactic| repeat' (first
    | with_reducible exact Nr.parseModRM | with_reducible exact Nr.parseModRMX | with_reducible exact Nr.parseFarPtr | with_reducible exact Nr.getMMM _
    | with_reducible exact Nr.decodeModM _ | with_reducible exact Nr.decodeModMX _
    | with_reducible exact Nr.aluApply _ _ _ _ | with_reducible exact Nr.testApply _ _ _ | with_reducible exact Nr.incApply _ _ | with_reducible exact Nr.decApply _ _
    | with_reducible exact Nr.storeProduct _ _ _ | with_reducible exact Nr.storeQuot _ _ _ | with_reducible exact Nr.imulMulti _ _ _
    | with_reducible exact Nr.shiftApply _ _ _ _ | with_reducible exact Nr.shxdApply _ _ _ _ | with_reducible exact Nr.movLoc _ _ _
    | with_reducible exact Nr.xchgLoc _ _ _ | with_reducible exact Nr.pushVal _ | with_reducible exact Nr.clearOZSP | with_reducible exact Nr.enterLoop _
    | with_reducible exact Nr.unaryIncDec _ _ _ | with_reducible exact Nr.addIP _ | with_reducible exact Nr.addSP _ | with_reducible exact Nr.moffs
    | with_reducible exact Nr.callInterrupt _
    | (with_reducible first
    | assumption
    | exact Nr.pure _ | exact Nr.getReg _ _ | exact Nr.setReg _ _ _ | exact Nr.setRegH _ _ _ | exact Nr.getSreg _ | exact Nr.setSreg _ _
    | exact Nr.getFlags | exact Nr.setFlags _ | exact Nr.getDec | exact Nr.throw _ | exact Nr.ubx _ | exact Nr.guard _ _ | exact Nr.lift _
    | exact Nr.getRegHi _ | exact Nr.setRegHi _ _ | exact Nr.portOut _ _ _ | exact Nr.portIn _ _
    | exact Nr.segOf _ | exact Nr.getSegment _ | exact Nr.getPtr _ _ | exact Nr.readMem _ _ _ | exact Nr.writeMem _ _ _ _
    | exact Nr.push _ | exact Nr.pop | exact Nr.readLoc _ _ | exact Nr.writeLoc _ _ _ | exact Nr.popReg _
    | exact Nr.setIP _ | exact Nr.getIP | exact Nr.nextIP | exact Nr.setDontChangeIP | exact Nr.readInstr _ | exact Nr.readInstr8S _
    | exact Nr.getModRM | exact Nr.getModRM_unchecked | exact Nr.peek
    | exact Nr.gets _
    | refine Nr.pushM ?_
    | refine Nr.withW (fun _ => ?_)
    | refine Nr.ite _ (fun _ => ?_) (fun _ => ?_)
    | refine Nr.bind ?_ (fun _ => ?_)
    | split)))

namespace Nr
theorem miscOp (n p m) : Nr (RME.miscOp n p m) := by unfold RME.miscOp; nrr
theorem opFlag (k) : Nr (RME.opFlag k) := by unfold RME.opFlag RME.flagOp; nrr
theorem opAlu (a b) : Nr (RME.opAlu a b) := by unfold RME.opAlu; nrr
theorem opPushSeg (a) : Nr (RME.opPushSeg a) := by unfold RME.opPushSeg; nrr
theorem opPopSeg (a) : Nr (RME.opPopSeg a) := by unfold RME.opPopSeg; nrr
theorem opDA (a) : Nr (RME.opDA a) := by unfold RME.opDA; nrr
theorem opAA (a) : Nr (RME.opAA a) := by unfold RME.opAA; nrr
theorem opAam : Nr (RME.opAam) := by unfold RME.opAam; nrr
theorem opAad : Nr (RME.opAad) := by unfold RME.opAad; nrr
theorem opIncReg (a) : Nr (RME.opIncReg a) := by unfold RME.opIncReg; nrr
theorem opDecReg (a) : Nr (RME.opDecReg a) := by unfold RME.opDecReg; nrr
theorem opPushReg (a) : Nr (RME.opPushReg a) := by unfold RME.opPushReg; nrr
theorem opPopReg (a) : Nr (RME.opPopReg a) := by unfold RME.opPopReg; nrr
theorem opXchgReg (a) : Nr (RME.opXchgReg a) := by unfold RME.opXchgReg; nrr
theorem opMovRegB (a) : Nr (RME.opMovRegB a) := by unfold RME.opMovRegB; nrr
theorem opMovReg (a) : Nr (RME.opMovReg a) := by unfold RME.opMovReg; nrr
theorem opPushA : Nr (RME.opPushA) := by unfold RME.opPushA; nrr
theorem opPopA : Nr (RME.opPopA) := by unfold RME.opPopA; nrr
theorem opPushF : Nr (RME.opPushF) := by unfold RME.opPushF; nrr
theorem opPopF : Nr (RME.opPopF) := by unfold RME.opPopF; nrr
theorem opPopMX : Nr (RME.opPopMX) := by unfold RME.opPopMX; nrr
theorem opPushI : Nr (RME.opPushI) := by unfold RME.opPushI; nrr
theorem opPushI8 : Nr (RME.opPushI8) := by unfold RME.opPushI8; nrr
theorem opImulMIX : Nr (RME.opImulMIX) := by unfold RME.opImulMIX; nrr
theorem opImulMI8X : Nr (RME.opImulMI8X) := by unfold RME.opImulMI8X; nrr
theorem opImulRMX : Nr (RME.opImulRMX) := by unfold RME.opImulRMX; nrr
theorem opJccS (a) : Nr (RME.opJccS a) := by unfold RME.opJccS; nrr
theorem opJccN (a) : Nr (RME.opJccN a) := by unfold RME.opJccN; nrr
theorem opLoop (a) : Nr (RME.opLoop a) := by unfold RME.opLoop; nrr
theorem opJcxz : Nr (RME.opJcxz) := by unfold RME.opJcxz; nrr
theorem opArithMI (a) : Nr (RME.opArithMI a) := by unfold RME.opArithMI; nrr
theorem opArithMIX (a) : Nr (RME.opArithMIX a) := by unfold RME.opArithMIX; nrr
theorem opArithMI8X (a) : Nr (RME.opArithMI8X a) := by unfold RME.opArithMI8X; nrr
theorem opMiscMI (a) : Nr (RME.opMiscMI a) := bind parseModRM fun _ => miscOp _ _ _
theorem opMiscMIX (a) : Nr (RME.opMiscMIX a) := bind parseModRMX fun _ => withW fun _ => miscOp _ _ _
theorem opShiftMI (a) : Nr (RME.opShiftMI a) := by unfold RME.opShiftMI; nrr
theorem opShiftMI8X (a) : Nr (RME.opShiftMI8X a) := by unfold RME.opShiftMI8X; nrr
theorem opShiftM1 (a) : Nr (RME.opShiftM1 a) := by unfold RME.opShiftM1; nrr
theorem opShiftM1X (a) : Nr (RME.opShiftM1X a) := by unfold RME.opShiftM1X; nrr
theorem opShiftMCl (a) : Nr (RME.opShiftMCl a) := by unfold RME.opShiftMCl; nrr
theorem opShiftMClX (a) : Nr (RME.opShiftMClX a) := by unfold RME.opShiftMClX; nrr
theorem opUnaryM (a) : Nr (RME.opUnaryM a) := by unfold RME.opUnaryM; nrr
theorem opUnaryMX (a) : Nr (RME.opUnaryMX a) := by unfold RME.opUnaryMX; nrr
theorem opTestMR : Nr (RME.opTestMR) := by unfold RME.opTestMR; nrr
theorem opTestMRX : Nr (RME.opTestMRX) := by unfold RME.opTestMRX; nrr
theorem opTestAI : Nr (RME.opTestAI) := by unfold RME.opTestAI; nrr
theorem opTestAIX : Nr (RME.opTestAIX) := by unfold RME.opTestAIX; nrr
theorem opXchgRM : Nr (RME.opXchgRM) := by unfold RME.opXchgRM; nrr
theorem opXchgRMX : Nr (RME.opXchgRMX) := by unfold RME.opXchgRMX; nrr
theorem opMovMR : Nr (RME.opMovMR) := by unfold RME.opMovMR; nrr
theorem opMovMRX : Nr (RME.opMovMRX) := by unfold RME.opMovMRX; nrr
theorem opMovRM : Nr (RME.opMovRM) := by unfold RME.opMovRM; nrr
theorem opMovRMX : Nr (RME.opMovRMX) := by unfold RME.opMovRMX; nrr
theorem opMovRS : Nr (RME.opMovRS) := by unfold RME.opMovRS; nrr
theorem opMovSR : Nr (RME.opMovSR) := by unfold RME.opMovSR; nrr
theorem opMovMI : Nr (RME.opMovMI) := by unfold RME.opMovMI; nrr
theorem opMovMIX : Nr (RME.opMovMIX) := by unfold RME.opMovMIX; nrr
theorem opMovAMo : Nr (RME.opMovAMo) := by unfold RME.opMovAMo; nrr
theorem opMovAMoX : Nr (RME.opMovAMoX) := by unfold RME.opMovAMoX; nrr
theorem opMovMoA : Nr (RME.opMovMoA) := by unfold RME.opMovMoA; nrr
theorem opMovMoAX : Nr (RME.opMovMoAX) := by unfold RME.opMovMoAX; nrr
theorem opMovZ : Nr (RME.opMovZ) := by unfold RME.opMovZ; nrr
theorem opMovZX : Nr (RME.opMovZX) := by unfold RME.opMovZX; nrr
theorem opLea : Nr (RME.opLea) := by unfold RME.opLea; nrr
theorem opLxs (a) : Nr (RME.opLxs a) := by unfold RME.opLxs; nrr
theorem opXlat : Nr (RME.opXlat) := by unfold RME.opXlat; nrr
theorem opCbw : Nr (RME.opCbw) := by unfold RME.opCbw; nrr
theorem opCwd : Nr (RME.opCwd) := by unfold RME.opCwd; nrr
theorem opHlt : Nr (RME.opHlt) := by unfold RME.opHlt; nrr
theorem opBsf : Nr (RME.opBsf) := by unfold RME.opBsf; nrr
theorem opBtx (a) : Nr (RME.opBtx a) := by unfold RME.opBtx; nrr
theorem opCallN : Nr (RME.opCallN) := by unfold RME.opCallN; nrr
theorem opCallF : Nr (RME.opCallF) := by unfold RME.opCallF; nrr
theorem opRetN : Nr (RME.opRetN) := by unfold RME.opRetN; nrr
theorem opRetF : Nr (RME.opRetF) := by unfold RME.opRetF; nrr
theorem opRetiN : Nr (RME.opRetiN) := by unfold RME.opRetiN; nrr
theorem opRetiF : Nr (RME.opRetiF) := by unfold RME.opRetiF; nrr
theorem opEnter : Nr (RME.opEnter) := by unfold RME.opEnter; nrr
theorem opLeave : Nr (RME.opLeave) := by unfold RME.opLeave; nrr
theorem opInt3 : Nr (RME.opInt3) := by unfold RME.opInt3; nrr
theorem opIntI : Nr (RME.opIntI) := by unfold RME.opIntI; nrr
theorem opInto : Nr (RME.opInto) := by unfold RME.opInto; nrr
theorem opIret : Nr (RME.opIret) := by unfold RME.opIret; nrr
theorem opJmpN : Nr (RME.opJmpN) := by unfold RME.opJmpN; nrr
theorem opJmpF : Nr (RME.opJmpF) := by unfold RME.opJmpF; nrr
theorem opJmpS : Nr (RME.opJmpS) := by unfold RME.opJmpS; nrr
theorem opInAI : Nr (RME.opInAI) := by unfold RME.opInAI; nrr
theorem opInAIX : Nr (RME.opInAIX) := by unfold RME.opInAIX; nrr
theorem opInADx : Nr (RME.opInADx) := by unfold RME.opInADx; nrr
theorem opInADxX : Nr (RME.opInADxX) := by unfold RME.opInADxX; nrr
theorem opOutAI : Nr (RME.opOutAI) := by unfold RME.opOutAI; nrr
theorem opOutAIX : Nr (RME.opOutAIX) := by unfold RME.opOutAIX; nrr
theorem opOutDxA : Nr (RME.opOutDxA) := by unfold RME.opOutDxA; nrr
theorem opOutDxAX : Nr (RME.opOutDxAX) := by unfold RME.opOutDxAX; nrr
theorem opSahf : Nr (RME.opSahf) := by unfold RME.opSahf; nrr
theorem opLahf : Nr (RME.opLahf) := by unfold RME.opLahf; nrr
theorem opShxdI8 (a) : Nr (RME.opShxdI8 a) := by unfold RME.opShxdI8; nrr
theorem opShxdCl (a) : Nr (RME.opShxdCl a) := by unfold RME.opShxdCl; nrr
end Nr

theorem opFn_keepsRep (o : Op) (q : BitVec 3) (hp : o.isPrefix = false) (hs : o.isString = false) : Nr (opFn o q) := by
  cases o with
  | alu k form => exact Nr.opAlu _ _
  | pushSeg => exact Nr.opPushSeg _
  | popSeg => exact Nr.opPopSeg _
  | daa => exact Nr.opDA _
  | das => exact Nr.opDA _
  | aaa => exact Nr.opAA _
  | aas => exact Nr.opAA _
  | aam => exact Nr.opAam
  | aad => exact Nr.opAad
  | incReg => exact Nr.opIncReg _
  | decReg => exact Nr.opDecReg _
  | pushReg => exact Nr.opPushReg _
  | popReg => exact Nr.opPopReg _
  | xchgReg => exact Nr.opXchgReg _
  | movRegB => exact Nr.opMovRegB _
  | movReg => exact Nr.opMovReg _
  | pushA => exact Nr.opPushA
  | popA => exact Nr.opPopA
  | pushF => exact Nr.opPushF
  | popF => exact Nr.opPopF
  | popMX => exact Nr.opPopMX
  | pushI => exact Nr.opPushI
  | pushI8 => exact Nr.opPushI8
  | imulMIX => exact Nr.opImulMIX
  | imulMI8X => exact Nr.opImulMI8X
  | imulRMX => exact Nr.opImulRMX
  | jccS k => exact Nr.opJccS _
  | jccN k => exact Nr.opJccN _
  | loop k => exact Nr.opLoop _
  | jcxz => exact Nr.opJcxz
  | arithMI => exact Nr.opArithMI _
  | arithMIX => exact Nr.opArithMIX _
  | arithMI8X => exact Nr.opArithMI8X _
  | miscMI => exact Nr.opMiscMI _
  | miscMIX => exact Nr.opMiscMIX _
  | shiftMI => exact Nr.opShiftMI _
  | shiftMI8X => exact Nr.opShiftMI8X _
  | shiftM1 => exact Nr.opShiftM1 _
  | shiftM1X => exact Nr.opShiftM1X _
  | shiftMCl => exact Nr.opShiftMCl _
  | shiftMClX => exact Nr.opShiftMClX _
  | unaryM => exact Nr.opUnaryM _
  | unaryMX => exact Nr.opUnaryMX _
  | testMR => exact Nr.opTestMR
  | testMRX => exact Nr.opTestMRX
  | testAI => exact Nr.opTestAI
  | testAIX => exact Nr.opTestAIX
  | xchgRM => exact Nr.opXchgRM
  | xchgRMX => exact Nr.opXchgRMX
  | movMR => exact Nr.opMovMR
  | movMRX => exact Nr.opMovMRX
  | movRM => exact Nr.opMovRM
  | movRMX => exact Nr.opMovRMX
  | movRS => exact Nr.opMovRS
  | movSR => exact Nr.opMovSR
  | movMI => exact Nr.opMovMI
  | movMIX => exact Nr.opMovMIX
  | movAMo => exact Nr.opMovAMo
  | movAMoX => exact Nr.opMovAMoX
  | movMoA => exact Nr.opMovMoA
  | movMoAX => exact Nr.opMovMoAX
  | movZ => exact Nr.opMovZ
  | movZX => exact Nr.opMovZX
  | lea => exact Nr.opLea
  | lxs sr => exact Nr.opLxs _
  | xlat => exact Nr.opXlat
  | cbw => exact Nr.opCbw
  | cwd => exact Nr.opCwd
  | hlt => exact Nr.opHlt
  | bsf => exact Nr.opBsf
  | btx => exact Nr.opBtx _
  | callN => exact Nr.opCallN
  | callF => exact Nr.opCallF
  | retN => exact Nr.opRetN
  | retF => exact Nr.opRetF
  | retiN => exact Nr.opRetiN
  | retiF => exact Nr.opRetiF
  | enter => exact Nr.opEnter
  | leave => exact Nr.opLeave
  | int3 => exact Nr.opInt3
  | intI => exact Nr.opIntI
  | into => exact Nr.opInto
  | iret => exact Nr.opIret
  | jmpN => exact Nr.opJmpN
  | jmpF => exact Nr.opJmpF
  | jmpS => exact Nr.opJmpS
  | inAI => exact Nr.opInAI
  | inAIX => exact Nr.opInAIX
  | inADx => exact Nr.opInADx
  | inADxX => exact Nr.opInADxX
  | outAI => exact Nr.opOutAI
  | outAIX => exact Nr.opOutAIX
  | outDxA => exact Nr.opOutDxA
  | outDxAX => exact Nr.opOutDxAX
  | flag k => exact Nr.opFlag _
  | sahf => exact Nr.opSahf
  | lahf => exact Nr.opLahf
  | shxdI8 r => exact Nr.opShxdI8 _
  | shxdCl r => exact Nr.opShxdCl _
  | ins w => cases hs
  | outs w => cases hs
  | movs w => cases hs
  | stos w => cases hs
  | lods w => cases hs
  | cmps w => cases hs
  | scas w => cases hs
  | _ => cases hp

theorem bind_ok {α β : Type} {m : M α} {f : α → M β} {env : Env} {s t : State} {b : β} (h : (m >>= f) env s = .ok b t) :
    ∃ a u, m env s = .ok a u ∧ f a env u = .ok b t := by
  simp only [bind_apply] at h
  cases hm : m env s with
  | ok a u => rw [hm] at h; exact ⟨a, u, rfl, h⟩
  | err e u => rw [hm] at h; cases h
  | ub u => rw [hm] at h; cases h

theorem stringOp_clears {c d i : Bool} {k : Nat} {body} {env : Env} {s t : State} {x : Unit} (h : stringOp c d i k body env s = .ok x t) : t.dec.rep = .none := by
  unfold stringOp at h
  obtain ⟨_, _, _, h⟩ := bind_ok h
  obtain ⟨_, _, _, h⟩ := bind_ok h
  obtain ⟨_, _, _, h⟩ := bind_ok h
  obtain ⟨_, _, _, h⟩ := bind_ok h
  obtain ⟨_, _, _, h⟩ := bind_ok h
  obtain ⟨_, _, _, h⟩ := bind_ok h
  simp only [ite_apply] at h
  split at h
  · cases h; rfl
  · obtain ⟨_, _, _, h⟩ := bind_ok h
    obtain ⟨_, _, _, h⟩ := bind_ok h
    obtain ⟨_, _, _, h⟩ := bind_ok h
    cases h; rfl

theorem strW_clears {w : Bool} {f : Nat → M Unit} {env : Env} {s t : State} {x : Unit}
    (hf : ∀ n env s x t, f n env s = .ok x t → t.dec.rep = .none) (h : strW w f env s = .ok x t) : t.dec.rep = .none := by
  unfold strW at h
  cases w with
  | false => exact hf _ _ _ _ _ h
  | true =>
    simp only [if_true, withW] at h
    obtain ⟨d, u, _, h⟩ := bind_ok h
    simp only [ite_apply] at h
    split at h <;> exact hf _ _ _ _ _ h

theorem opFn_clearsRep {o : Op} {q : BitVec 3} (hs : o.isString = true) {env : Env} {s t : State} {x : Unit} (h : opFn o q env s = .ok x t) : t.dec.rep = .none := by
  cases o with
  | ins w =>
    have h1 : opIns w env s = .ok x t := h
    clear h
    unfold opIns at h1
    refine strW_clears ?_ h1
    intro n env s x t h2
    exact stringOp_clears h2
  | outs w =>
    have h1 : opOuts w env s = .ok x t := h
    clear h
    unfold opOuts at h1
    refine strW_clears ?_ h1
    intro n env s x t h2
    exact stringOp_clears h2
  | movs w =>
    have h1 : opMovs w env s = .ok x t := h
    clear h
    unfold opMovs at h1
    refine strW_clears ?_ h1
    intro n env s x t h2
    exact stringOp_clears h2
  | stos w =>
    have h1 : opStos w env s = .ok x t := h
    clear h
    unfold opStos at h1
    refine strW_clears ?_ h1
    intro n env s x t h2
    exact stringOp_clears h2
  | lods w =>
    have h1 : opLods w env s = .ok x t := h
    clear h
    unfold opLods at h1
    refine strW_clears ?_ h1
    intro n env s x t h2
    exact stringOp_clears h2
  | cmps w =>
    have h1 : opCmps w env s = .ok x t := h
    clear h
    unfold opCmps at h1
    refine strW_clears ?_ h1
    intro n env s x t h2
    exact stringOp_clears h2
  | scas w =>
    have h1 : opScas w env s = .ok x t := h
    clear h
    unfold opScas at h1
    refine strW_clears ?_ h1
    intro n env s x t h2
    exact stringOp_clears h2
  | _ => cases hs

end RME
