import Verif.Lemmas.FrameOps
import Verif.Spec.Tear
set_option autoImplicit false
/-
A logic for "if it fails, nothing has changed".
-/
set_option linter.unusedSectionVars false
namespace RME

/-- Nothing but the decoder differs. -/
def Keep (s t : State) : Prop := t = { s with dec := t.dec }
theorem Keep.refl (s : State) : Keep s s := rfl
theorem Keep.trans {s t u : State} (h1 : Keep s t) (h2 : Keep t u) : Keep s u := by
  unfold Keep at *; rw [h2, h1]

/-- On failure nothing has changed. -/
def Atm {α : Type} (m : M α) : Prop := ∀ env s e t, m env s = .err e t → Keep s t
def ClRes {α : Type} (s : State) : Res α → Prop
  | .ok _ t => Keep s t
  | .err _ t => Keep s t
  | .ub _ => True
/-- Nothing changes, whether it fails or not. -/
def Cl {α : Type} (m : M α) : Prop := ∀ env s, ClRes s (m env s)
/-- It does not fail. -/
def Ne {α : Type} (m : M α) : Prop := ∀ env s e t, m env s ≠ .err e t

variable {α β : Type}

namespace Cl
theorem bind {m : M α} {f : α → M β} (hm : Cl m) (hf : ∀ a, Cl (f a)) : Cl (m >>= f) := by
  intro env s
  have h1 := hm env s
  simp only [bind_apply]
  cases h : m env s with
  | ok a t =>
    rw [h] at h1
    have h2 := hf a env t
    simp only [resbind_ok]
    cases h3 : f a env t with
    | ok b u => rw [h3] at h2; exact h1.trans h2
    | err e u => rw [h3] at h2; exact h1.trans h2
    | ub u => trivial
  | err e t => rw [h] at h1; exact h1
  | ub u => trivial
theorem pure (a : α) : Cl (Pure.pure a) := fun _ s => Keep.refl s
theorem gets (f : State → α) : Cl (RME.gets f) := fun _ s => Keep.refl s
theorem getReg (n r) : Cl (RME.getReg n r) := fun _ s => Keep.refl s
theorem getSreg (r) : Cl (RME.getSreg r) := fun _ s => Keep.refl s
theorem getIP : Cl RME.getIP := fun _ s => Keep.refl s
theorem nextIP : Cl RME.nextIP := fun _ s => Keep.refl s
theorem getFlags : Cl RME.getFlags := fun _ s => Keep.refl s
theorem getDec : Cl RME.getDec := fun _ s => Keep.refl s
theorem getSegment (r) : Cl (RME.getSegment r) := fun _ s => Keep.refl s
theorem throwE (e : Err) : Cl (RME.throwE e : M α) := fun _ s => Keep.refl s
theorem ubE (u : UB) : Cl (RME.ubE u : M α) := fun _ _ => trivial
theorem liftUB (x : Except UB α) : Cl (RME.liftUB x) := by cases x; exact ubE _; exact pure _
theorem guardE (c : Bool) (e : Err) : Cl (RME.guardE c e) := by cases c; exact pure _; exact throwE _
theorem modDec (f) : Cl (RME.modDec f) := fun _ _ => rfl
theorem loadM (n h) : Cl (RME.loadM n h) := fun env s => by
  unfold RME.loadM; split <;> first | exact Keep.refl s | trivial
theorem getPtr (a b) : Cl (RME.getPtr a b) := fun env s => by
  unfold RME.getPtr; dsimp only
  repeat' split
  all_goals first | exact Keep.refl s | trivial
theorem readMem (n a b) : Cl (RME.readMem n a b) := bind (getPtr _ _) fun _ => loadM _ _
theorem readInstr (n) : Cl (RME.readInstr n) :=
  bind (getSreg _) fun _ => bind nextIP fun _ => bind (readMem _ _ _) fun _ => bind (modDec _) fun _ => pure _
theorem readInstr8S (n) : Cl (RME.readInstr8S n) := bind (readInstr _) fun _ => pure _
theorem readLoc (n l) : Cl (RME.readLoc n l) := by
  cases l
  · exact getReg _ _
  · exact gets _
  · exact loadM _ _
theorem withW {f : Nat → M α} (h : ∀ n, Cl (f n)) : Cl (RME.withW f) := by
  refine bind getDec fun d => ?_
  split
  · exact h 32
  · exact h 16
theorem segOf (p) : Cl (RME.segOf p) := by
  unfold RME.segOf
  repeat' split
  all_goals first | exact pure _ | exact ubE _
theorem ite {p : Prop} [Decidable p] {a b : M α} (ha : Cl a) (hb : Cl b) : Cl (if p then a else b) := by
  split <;> assumption
theorem getModRM : Cl RME.getModRM := bind (readInstr _) fun _ => pure _
theorem getModRM_unchecked : Cl RME.getModRM_unchecked := by
  intro env s
  have h1 := getModRM env s
  unfold RME.getModRM_unchecked
  cases h : RME.getModRM env s with
  | ok a t => rw [h] at h1; exact h1
  | err e t => trivial
  | ub u => trivial
theorem doFunc (a b c) : Cl (RME.doFunc a b c) := by
  refine bind (getSegment _) fun _ => bind (gets _) fun _ => ?_
  refine ite ?_ (pure _)
  exact bind (readInstr _) fun _ => pure _
theorem doFunc32 (a b c) : Cl (RME.doFunc32 a b c) := by
  refine bind (getSegment _) fun _ => bind (gets _) fun _ => ?_
  refine ite ?_ (ite ?_ (pure _))
  · refine bind (readInstr _) fun _ => ?_
    refine ite ?_ (pure _)
    exact bind (readInstr _) fun _ => pure _
  · exact bind (readInstr _) fun _ => pure _
theorem getMMM (m) : Cl (RME.getMMM m) := by
  refine bind getDec fun _ => ?_
  refine ite (ite (doFunc32 _ _ _) (ite ?_ (ite ?_ (throwE _)))) (ite (doFunc _ _ _) (ite ?_ (ite ?_ (throwE _))))
  · exact bind (readInstr8S _) fun _ => doFunc32 _ _ _
  · exact bind (readInstr _) fun _ => doFunc32 _ _ _
  · exact bind (readInstr8S _) fun _ => doFunc _ _ _
  · exact bind (readInstr _) fun _ => doFunc _ _ _
theorem decodeModM (m) : Cl (RME.decodeModM m) := ite (pure _) (bind (getMMM _) fun _ => bind (getPtr _ _) fun _ => pure _)
theorem decodeModMX (m) : Cl (RME.decodeModMX m) :=
  ite (pure _) (bind (getMMM _) fun _ => bind (guardE _ _) fun _ => bind (getPtr _ _) fun _ => pure _)
theorem parseModRM : Cl RME.parseModRM := bind getModRM fun _ => bind (decodeModM _) fun _ => pure _
theorem parseModRMX : Cl RME.parseModRMX := bind getModRM fun _ => bind (decodeModMX _) fun _ => pure _
theorem parseFarPtr : Cl RME.parseFarPtr :=
  bind getModRM fun _ => bind (guardE _ _) fun _ => bind (getMMM _) fun _ => bind (readMem _ _ _) fun _ => bind (readMem _ _ _) fun _ => pure _
theorem moffs : Cl RME.moffs := by
  refine bind getDec fun _ => ite ?_ (readInstr _)
  exact bind (readInstr _) fun _ => pure _
theorem peekInstr8 : Cl RME.peekInstr8 := bind (readInstr _) fun _ => bind (modDec _) fun _ => pure _
theorem strOfs (r) : Cl (RME.strOfs r) := by
  refine bind getDec fun _ => ite (getReg _ _) ?_
  exact bind (getReg _ _) fun _ => pure _
end Cl

namespace Ne
theorem bind {m : M α} {f : α → M β} (hm : Ne m) (hf : ∀ a, Ne (f a)) : Ne (m >>= f) := by
  intro env s e t
  simp only [bind_apply]
  cases h : m env s with
  | ok a u => simp only [resbind_ok]; exact hf a env u e t
  | err e' u => exact absurd h (hm _ _ _ _)
  | ub u => intro h; cases h
theorem pure (a : α) : Ne (Pure.pure a) := fun _ _ _ _ h => by cases h
theorem gets (f : State → α) : Ne (RME.gets f) := fun _ _ _ _ h => by cases h
theorem getReg (n r) : Ne (RME.getReg n r) := fun _ _ _ _ h => by cases h
theorem getSreg (r) : Ne (RME.getSreg r) := fun _ _ _ _ h => by cases h
theorem getIP : Ne RME.getIP := fun _ _ _ _ h => by cases h
theorem nextIP : Ne RME.nextIP := fun _ _ _ _ h => by cases h
theorem getFlags : Ne RME.getFlags := fun _ _ _ _ h => by cases h
theorem getDec : Ne RME.getDec := fun _ _ _ _ h => by cases h
theorem ubE (u : UB) : Ne (RME.ubE u : M α) := fun _ _ _ _ h => by cases h
theorem liftUB (x : Except UB α) : Ne (RME.liftUB x) := by cases x; exact ubE _; exact pure _
theorem modify (f) : Ne (RME.modify f) := fun _ _ _ _ h => by cases h
theorem setReg (n r v) : Ne (RME.setReg n r v) := modify _
theorem setSreg (r v) : Ne (RME.setSreg r v) := modify _
theorem setIP (v) : Ne (RME.setIP v) := modify _
theorem setFlags (v) : Ne (RME.setFlags v) := modify _
theorem setDontChangeIP : Ne RME.setDontChangeIP := modify _
theorem modDec (f) : Ne (RME.modDec f) := modify _
theorem loadM (n h) : Ne (RME.loadM n h) := fun env s e t => by unfold RME.loadM; split <;> (intro h; cases h)
theorem storeM (n h v) : Ne (RME.storeM n h v) := fun env s e t => by unfold RME.storeM; split <;> (intro h; cases h)
theorem readLoc (n l) : Ne (RME.readLoc n l) := by
  cases l
  · exact getReg _ _
  · exact gets _
  · exact loadM _ _
theorem writeLoc (n l v) : Ne (RME.writeLoc n l v) := by
  cases l
  · exact setReg _ _ _
  · exact modify _
  · exact storeM _ _ _
theorem portOut (a b c) : Ne (RME.portOut a b c) := modify _
theorem portIn (a b) : Ne (RME.portIn a b) := fun _ _ _ _ h => by cases h
theorem withW {f : Nat → M α} (h : ∀ n, Ne (f n)) : Ne (RME.withW f) := by
  refine bind getDec fun d => ?_
  split
  · exact h 32
  · exact h 16
theorem ite {p : Prop} [Decidable p] {a b : M α} (ha : Ne a) (hb : Ne b) : Ne (if p then a else b) := by
  split <;> assumption
theorem strPut (u r v) : Ne (RME.strPut u r v) := by
  refine ite (bind getDec fun _ => ?_) (pure _)
  exact ite (setReg _ _ _) (setReg _ _ _)
theorem clearRep : Ne RME.clearRep := modDec _
theorem addIP (d) : Ne (RME.addIP d) := bind getIP fun _ => setIP _
theorem addSP (d) : Ne (RME.addSP d) := bind (getReg _ _) fun _ => setReg _ _ _
end Ne

namespace Atm
theorem bind {m : M α} {f : α → M β} (hm : Cl m) (hf : ∀ a, Atm (f a)) : Atm (m >>= f) := by
  intro env s e t h
  have h1 := hm env s
  simp only [bind_apply] at h
  cases h2 : m env s with
  | ok a u => rw [h2] at h1; rw [h2, resbind_ok] at h; exact Keep.trans h1 (hf a env u e t h)
  | err e u => rw [h2] at h1; rw [h2] at h; cases h; exact h1
  | ub u => rw [h2] at h; cases h
theorem seq {m : M α} {f : α → M β} (hm : Atm m) (hf : ∀ a, Ne (f a)) : Atm (m >>= f) := by
  intro env s e t h
  simp only [bind_apply] at h
  cases h2 : m env s with
  | ok a u => rw [h2, resbind_ok] at h; exact absurd h (hf a env u e t)
  | err e u => rw [h2] at h; cases h; exact hm _ _ _ _ h2
  | ub u => rw [h2] at h; cases h
theorem cl {m : M α} (h : Cl m) : Atm m := fun env s e t h2 => by have := h env s; rw [h2] at this; exact this
theorem ne {m : M α} (h : Ne m) : Atm m := fun env s e t h2 => absurd h2 (h _ _ _ _)
theorem ite {p : Prop} [Decidable p] {a b : M α} (ha : Atm a) (hb : Atm b) : Atm (if p then a else b) := by
  split <;> assumption
theorem withW {f : Nat → M α} (h : ∀ n, Atm (f n)) : Atm (RME.withW f) := by
  refine bind Cl.getDec fun d => ?_
  split
  · exact h 32
  · exact h 16
theorem writeMem (n a b v) : Atm (RME.writeMem n a b v) := bind (Cl.getPtr _ _) fun _ => ne (Ne.storeM _ _ _)
theorem pop : Atm RME.pop :=
  bind (Cl.getSreg _) fun _ => bind (Cl.getReg _ _) fun _ => bind (Cl.readMem _ _ _) fun _ =>
    ne (Ne.bind (Ne.getReg _ _) fun _ => Ne.bind (Ne.setReg _ _ _) fun _ => Ne.pure _)
end Atm

macro "cl1" : tactic => `(tactic| first
  | with_reducible exact Cl.pure _ | with_reducible exact Cl.gets _ | with_reducible exact Cl.getReg _ _ | with_reducible exact Cl.getSreg _
  | with_reducible exact Cl.getIP | with_reducible exact Cl.nextIP | with_reducible exact Cl.getFlags | with_reducible exact Cl.getDec
  | with_reducible exact Cl.getSegment _ | with_reducible exact Cl.throwE _ | with_reducible exact Cl.ubE _ | with_reducible exact Cl.liftUB _
  | with_reducible exact Cl.guardE _ _ | with_reducible exact Cl.modDec _ | with_reducible exact Cl.loadM _ _ | with_reducible exact Cl.getPtr _ _
  | with_reducible exact Cl.readMem _ _ _ | with_reducible exact Cl.readInstr _ | with_reducible exact Cl.readInstr8S _ | with_reducible exact Cl.readLoc _ _
  | with_reducible exact Cl.segOf _ | with_reducible exact Cl.getModRM | with_reducible exact Cl.getModRM_unchecked | with_reducible exact Cl.getMMM _
  | with_reducible exact Cl.decodeModM _ | with_reducible exact Cl.decodeModMX _ | with_reducible exact Cl.parseModRM | with_reducible exact Cl.parseModRMX
  | with_reducible exact Cl.parseFarPtr | with_reducible exact Cl.moffs | with_reducible exact Cl.peekInstr8 | with_reducible exact Cl.strOfs _)

macro "ne1" : tactic => `(tactic| first
  | with_reducible exact Ne.pure _ | with_reducible exact Ne.gets _ | with_reducible exact Ne.getReg _ _ | with_reducible exact Ne.getSreg _
  | with_reducible exact Ne.getIP | with_reducible exact Ne.nextIP | with_reducible exact Ne.getFlags | with_reducible exact Ne.getDec
  | with_reducible exact Ne.ubE _ | with_reducible exact Ne.liftUB _ | with_reducible exact Ne.modify _ | with_reducible exact Ne.setReg _ _ _
  | with_reducible exact Ne.setSreg _ _ | with_reducible exact Ne.setIP _ | with_reducible exact Ne.setFlags _ | with_reducible exact Ne.setDontChangeIP
  | with_reducible exact Ne.modDec _ | with_reducible exact Ne.loadM _ _ | with_reducible exact Ne.storeM _ _ _ | with_reducible exact Ne.readLoc _ _
  | with_reducible exact Ne.writeLoc _ _ _ | with_reducible exact Ne.portOut _ _ _ | with_reducible exact Ne.portIn _ _ | with_reducible exact Ne.strPut _ _ _
  | with_reducible exact Ne.clearRep | with_reducible exact Ne.addIP _ | with_reducible exact Ne.addSP _)

macro "nes" : tactic => `(tactic| repeat' first
  | ne1
  | (with_reducible refine Ne.bind ?_ fun _ => ?_)
  | (with_reducible refine Ne.ite ?_ ?_)
  | (with_reducible refine Ne.withW fun _ => ?_)
  | split)

macro "ats" : tactic => `(tactic| repeat' first
  | (with_reducible refine Atm.cl ?_; cl1)
  | (with_reducible refine Atm.ne ?_; ne1)
  | with_reducible exact Atm.writeMem _ _ _ _
  | with_reducible exact Atm.pop
  | (with_reducible refine Atm.bind ?_ fun _ => ?_; cl1)
  | (with_reducible refine Atm.seq Atm.pop fun _ => ?_; nes; done)
  | (with_reducible refine Atm.ite ?_ ?_)
  | (with_reducible refine Atm.withW fun _ => ?_)
  | (with_reducible refine Atm.ne ?_; nes; done)
  | split)

/-- Which opcode functions may fail half-way. -/
def Op.tears (o : Op) (a : BitVec 3) (rep oper : Bool) : Bool :=
  match o with
  | .pushSeg | .pushReg | .pushA | .popA | .pushF | .pushI | .pushI8 | .ins _ | .arithMIX | .arithMI8X | .callN | .callF | .retF | .retiF
  | .enter | .leave | .int3 | .intI | .into | .iret | .lxs _ | .aam => true
  | .popReg => oper
  | .outs _ | .movs _ | .stos _ | .lods _ | .cmps _ | .scas _ => rep
  | .miscMI | .miscMIX => a = 6 ∨ a = 7
  | .unaryMX => a = 2 ∨ a = 3 ∨ a = 6
  | _ => false

theorem atm_miscOp {n : Nat} {p : BitVec 3} {l : Loc} (h : p ≠ 6) (h7 : p ≠ 7) : Atm (miscOp n p l) := by
  unfold miscOp
  rw [if_neg h]
  have h7' : ¬ ¬ (p = 0 ∨ p = 1 ∨ p = 2 ∨ p = 3 ∨ p = 4 ∨ p = 5) := by
    revert p; decide
  repeat' split
  all_goals first | (ats; done) | skip
  all_goals first | (unfold storeProduct; ats; done) | (exfalso; apply h7'; simp_all)

theorem strLoop_fails {c : Bool} {step : Nat} {mask : BitVec 32} {body : BitVec 32 → BitVec 32 → M Unit}
    (hb : ∀ x y, Atm (body x y)) (hf : ∀ x y, Fr ⟨fun _ => true, true, true, true⟩ (body x y)) {fuel : Nat} {so dd : BitVec 32}
    {env : Env} {s : State} {e : Err} {t : State}
    (hs : s.dec.rep = .none) (h : strLoop c step mask body fuel so dd env s = .err e t) : Keep s t := by
  cases fuel with
  | zero => cases h
  | succ fuel =>
  have hc : strCount env s = .ok false s := by
    simp only [strCount, bind_apply, getDec_apply, resbind_ok]; rw [if_pos hs]; rfl
  rw [strLoop] at h
  simp only [bind_apply, hc, resbind_ok, Bool.false_eq_true, if_false] at h
  cases h1 : body so dd env s with
  | err e' u => rw [h1] at h; cases h; exact hb _ _ _ _ _ _ h1
  | ub u => rw [h1] at h; cases h
  | ok a u =>
    exfalso
    have h2 := hf so dd env s (fun _ => hs)
    rw [h1] at h2
    have h3 : u.dec.rep = .none := h2.norep rfl hs
    rw [h1] at h
    simp only [resbind_ok, getFlags_apply, strAgain, bind_apply, getDec_apply, pure_apply, h3] at h
    cases c <;> cases h

theorem strOfs_ok (r env s) : ∃ v, strOfs r env s = .ok v s := by
  simp only [strOfs, bind_apply, getDec_apply, resbind_ok]
  split <;> exact ⟨_, rfl⟩

theorem kbind {m : M α} {f : α → M β} {a : α} {env : Env} {s : State} {e : Err} {t : State} (hm : m env s = .ok a s)
    (hf : f a env s = .err e t → Keep s t) (h : (m >>= f) env s = .err e t) : Keep s t := by
  rw [bind_apply, hm] at h; exact hf h
theorem kseq {m : M α} {f : α → M β} {env : Env} {s : State} {e : Err} {t : State} (hm : m env s = .err e t → Keep s t) (hf : ∀ a, Ne (f a))
    (h : (m >>= f) env s = .err e t) : Keep s t := by
  rw [bind_apply] at h
  cases h1 : m env s with
  | ok a u => rw [h1] at h; exact absurd h (hf a _ _ _ _)
  | err e' u => rw [h1] at h; cases h; exact hm h1
  | ub u => rw [h1] at h; cases h

theorem atm_stringOp {b1 b2 b3 : Bool} {step : Nat} {body : BitVec 16 → BitVec 32 → BitVec 16 → BitVec 32 → M Unit}
    (hb : ∀ x y z w, Atm (body x y z w)) (hf : ∀ x y z w, Fr ⟨fun _ => true, true, true, true⟩ (body x y z w)) {env : Env} {s : State} {e : Err} {t : State}
    (hs : s.dec.rep = .none) (h : stringOp b1 b2 b3 step body env s = .err e t) : Keep s t := by
  unfold stringOp at h
  obtain ⟨v1, h1⟩ := strOfs_ok rDI env s
  obtain ⟨v2, h2⟩ := strOfs_ok rSI env s
  refine kbind (m := getSreg .es) rfl (fun h => ?_) h
  refine kbind (m := getSegment .ds) rfl (fun h => ?_) h
  refine kbind (m := getDec) rfl (fun h => ?_) h
  refine kbind h1 (fun h => ?_) h
  refine kbind h2 (fun h => ?_) h
  refine kbind (m := getReg 16 rCX) rfl (fun h => ?_) h
  have hc : ¬ (s.dec.rep ≠ .none ∧ s.reg 16 rCX = 0) := fun h => h.1 hs
  rw [if_neg hc] at h
  refine kseq (fun h => strLoop_fails (fun _ _ => hb _ _ _ _) (fun _ _ => hf _ _ _ _) hs h) (fun r => ?_) h
  exact Ne.bind (Ne.strPut _ _ _) (fun _ => Ne.bind (Ne.strPut _ _ _) fun _ => Ne.clearRep)

theorem atm_strW {w : Bool} {f : Nat → M Unit} {env : Env} {s : State} {e : Err} {t : State} (h : strW w f env s = .err e t)
    (hf : ∀ n, f n env s = .err e t → Keep s t) : Keep s t := by
  cases w
  · exact hf 8 h
  · have h : (if s.dec.ovrOper = true then f 32 else f 16) env s = .err e t := h
    split at h
    · exact hf 32 h
    · exact hf 16 h

theorem atm_popReg {p : BitVec 3} {env : Env} {s : State} {e : Err} {t : State} (hs : s.dec.ovrOper = false) (h : opPopReg p env s = .err e t) : Keep s t := by
  unfold opPopReg at h
  simp only [bind_apply] at h
  cases h1 : pop env s with
  | err e' u => rw [h1] at h; cases h; exact Atm.pop _ _ _ _ h1
  | ub u => rw [h1] at h; cases h
  | ok v u =>
    exfalso
    have hd : u.dec = s.dec := by
      simp only [pop, bind_apply, getSreg_apply, getReg_apply, resbind_ok] at h1
      cases h2 : readMem 16 (s.sreg .ss) (s.reg 16 rSP) env s with
      | err e' u => rw [h2] at h1; cases h1
      | ub u => rw [h2] at h1; cases h1
      | ok x y =>
        rw [h2, resbind_ok] at h1
        have : y = s := by
          simp only [readMem, bind_apply] at h2
          cases h3 : getPtr (s.sreg .ss) ((s.reg 16 rSP).setWidth 32) env s with
          | err e' u => rw [h3] at h2; cases h2
          | ub u => rw [h3] at h2; cases h2
          | ok p z =>
            have h5 : z = s := by
              revert h3; unfold getPtr; dsimp only; repeat' split
              all_goals (intro h; cases h)
              rfl
            rw [h3, resbind_ok] at h2
            subst h5
            revert h2; unfold loadM; split <;> (intro h; cases h)
            rfl
        subst this
        cases h1; rfl
    rw [h1] at h
    simp only [resbind_ok, setReg_apply, getDec_apply] at h
    have : (u.setReg 16 p v).dec.ovrOper = false := by show u.dec.ovrOper = false; rw [hd, hs]
    rw [this] at h
    cases h

macro "unfold_ops" : tactic => `(tactic| try simp only [opDA, opAA, opAad, opIncReg, opDecReg, incApply, decApply, opXchgReg, xchgLoc, opMovRegB, opMovReg, opPopF, opPopMX,
  opImulMIX, opImulMI8X, opImulRMX, imulMulti, opJccS, opJccN, opLoop, opJcxz, opArithMI, aluApply, opShiftMI, opShiftMI8X, opShiftM1, opShiftM1X, opShiftMCl,
  opShiftMClX, shiftApply, opUnaryM, opTestMR, opTestMRX, opTestAI, opTestAIX, testApply, opXchgRM, opXchgRMX, opMovMR, opMovMRX, opMovRM, opMovRMX, movLoc,
  opMovRS, opMovSR, opMovMI, opMovMIX, opMovAMo, opMovAMoX, opMovMoA, opMovMoAX, opMovZ, opMovZX, opLea, opXlat, opCbw, opCwd, opHlt, opBsf, opBtx,
  opRetN, opRetiN, opJmpN, opJmpF, opJmpS, opInAI, opInAIX, opInADx, opInADxX, opOutAI, opOutAIX, opOutDxA, opOutDxAX, opFlag, opSahf, opLahf,
  opShxdI8, opShxdCl, shxdApply])

theorem op_atm {o : Op} {a : BitVec 3} {env : Env} {s : State} {rep oper : Bool} (hn : o.isPrefix = false) (hr : rep = false → s.dec.rep = .none)
    (ho : oper = false → s.dec.ovrOper = false) (ht : o.tears a rep oper = false) {e : Err} {t : State} (h : opFn o a env s = .err e t) : Keep s t := by
  have key : ∀ {m : M Unit}, Atm m → m env s = .err e t → Keep s t := fun hm h => hm _ _ _ _ h
  cases o <;> first | (cases ht; done) | (cases hn; done) | skip
  all_goals simp only [opFn] at h
  case popReg => exact atm_popReg (ho (by simpa [Op.tears] using ht)) h
  case outs w => 
    refine atm_strW h fun n h => atm_stringOp (fun _ _ _ _ => ?_) (fun _ _ _ _ => ?_) (hr (by simpa [Op.tears] using ht)) h
    · ats
    · exact Fr.bind (Fr.readMem _ _ _) fun _ => Fr.bind (Fr.getReg _ _) fun _ => Fr.portOut _ _ _
  case movs w =>
    refine atm_strW h fun n h => atm_stringOp (fun _ _ _ _ => ?_) (fun _ _ _ _ => ?_) (hr (by simpa [Op.tears] using ht)) h
    · ats
    · exact Fr.bind (Fr.readMem _ _ _) fun _ => Fr.writeMem _ _ _ _ rfl
  case stos w =>
    refine atm_strW h fun n h => atm_stringOp (fun _ _ _ _ => ?_) (fun _ _ _ _ => ?_) (hr (by simpa [Op.tears] using ht)) h
    · ats
    · exact Fr.bind (Fr.getReg _ _) fun _ => Fr.writeMem _ _ _ _ rfl
  case lods w =>
    refine atm_strW h fun n h => atm_stringOp (fun _ _ _ _ => ?_) (fun _ _ _ _ => ?_) (hr (by simpa [Op.tears] using ht)) h
    · ats
    · exact Fr.bind (Fr.readMem _ _ _) fun _ => Fr.setReg _ _ _ rfl
  case cmps w =>
    refine atm_strW h fun n h => atm_stringOp (fun _ _ _ _ => ?_) (fun _ _ _ _ => ?_) (hr (by simpa [Op.tears] using ht)) h
    · unfold cmpFlags; ats
    · exact Fr.bind (Fr.readMem _ _ _) fun _ => Fr.bind (Fr.readMem _ _ _) fun _ => Fr.bind Fr.getFlags fun _ => Fr.setFlags _ rfl
  case scas w =>
    refine atm_strW h fun n h => atm_stringOp (fun _ _ _ _ => ?_) (fun _ _ _ _ => ?_) (hr (by simpa [Op.tears] using ht)) h
    · unfold cmpFlags; ats
    · exact Fr.bind (Fr.readMem _ _ _) fun _ => Fr.bind (Fr.getReg _ _) fun _ => Fr.bind Fr.getFlags fun _ => Fr.setFlags _ rfl
  case miscMI =>
    have : ¬ (a = 6 ∨ a = 7) := by simpa [Op.tears] using ht
    exact key (Atm.bind Cl.parseModRM fun _ => atm_miscOp (fun h => this (Or.inl h)) (fun h => this (Or.inr h))) h
  case miscMIX =>
    have : ¬ (a = 6 ∨ a = 7) := by simpa [Op.tears] using ht
    exact key (Atm.bind Cl.parseModRMX fun _ => Atm.withW fun _ => atm_miscOp (fun h => this (Or.inl h)) (fun h => this (Or.inr h))) h
  case unaryMX =>
    have h1 : ¬ (a = 2 ∨ a = 3 ∨ a = 6) := by simpa [Op.tears] using ht
    refine key ?_ h
    unfold opUnaryMX
    rw [if_neg (fun h => h1 (Or.inr (Or.inr h))), if_neg (fun h => h1 (Or.inl h)), if_neg (fun h => h1 (Or.inr (Or.inl h))), if_neg (fun h => h1 (Or.inr (Or.inr h)))]
    unfold unaryIncDec incApply decApply
    ats
  all_goals refine key ?_ h
  case alu k form => cases form <;> (unfold opAlu aluApply; dsimp only; ats)
  case popSeg => unfold opPopSeg; ats
  all_goals (unfold_ops; ats)

end RME
