import Verif.Lemmas.Kp
import Verif.Model.Table
set_option autoImplicit false
/-
The logic of `Verif.Lemmas.Kp` applied to every opcode function.
-/
set_option linter.unusedSectionVars false
set_option linter.unusedVariables false
namespace RME

/-! ### FLAGS: only the six arithmetic flags -/

/-- `g` differs from `f` at most in CF, PF, AF, ZF, SF, OF. -/
def AO (f g : BitVec 16) : Prop := g &&& 0xF72A = f &&& 0xF72A

theorem AO.refl (f : BitVec 16) : AO f f := rfl
theorem AO.clr {f g m : BitVec 16} (h : AO f g) (hm : m &&& 0xF72A = 0) : AO f (clr g m) := by
  unfold AO RME.clr at *
  rw [← h]
  ext i hi
  have := congrArg (fun x => x.getLsbD i) hm
  simp [hi] at this ⊢
  grind
theorem AO.or {f g m : BitVec 16} (h : AO f g) (hm : m &&& 0xF72A = 0) : AO f (g ||| m) := by
  unfold AO at *
  rw [← h]
  ext i hi
  have := congrArg (fun x => x.getLsbD i) hm
  simp [hi] at this ⊢
  grind
theorem AO.xor {f g m : BitVec 16} (h : AO f g) (hm : m &&& 0xF72A = 0) : AO f (g ^^^ m) := by
  unfold AO at *
  rw [← h]
  ext i hi
  have := congrArg (fun x => x.getLsbD i) hm
  simp [hi] at this ⊢
  grind
theorem AO.orIf {f g m : BitVec 16} {c : Bool} (h : AO f g) (hm : m &&& 0xF72A = 0) : AO f (orIf g c m) := by
  unfold RME.orIf
  cases c
  · simpa using h
  · exact h.or hm
theorem AO.ite {f g g' : BitVec 16} {p : Prop} [Decidable p] (h : AO f g) (h' : AO f g') : AO f (if p then g else g') := by
  split <;> assumption
theorem AO.trans {f g h : BitVec 16} (h1 : AO f g) (h2 : AO g h) : AO f h := Eq.trans h2 h1
theorem AO.setComm {n : Nat} {f g : BitVec 16} {v : BitVec n} (h : AO f g) : AO f (setCommFlags g v) := by
  unfold setCommFlags
  exact (((h.clr (by decide)).orIf (by decide)).orIf (by decide)).orIf (by decide)

/-- solve `AO f (expression)` -/
macro "ao" : tactic => `(tactic| repeat' (with_reducible first
  | exact AO.refl _
  | assumption
  | apply AO.setComm
  | refine AO.clr ?_ (by decide)
  | refine AO.orIf ?_ (by decide)
  | refine AO.or ?_ (by decide)
  | refine AO.xor ?_ (by decide)
  | apply AO.ite))

theorem AO.aluExec {n : Nat} (k : AluOp) (d s : BitVec n) (f : BitVec 16) : AO f (aluExec k d s f).2 := by
  cases k <;> simp only [RME.aluExec, aluCode, aluAdd, aluAdc, aluSbb, aluSub, aluLogic, addSetFlags] <;> ao
theorem AO.aluTest {n : Nat} (d s : BitVec n) (f : BitVec 16) : AO f (aluTest d s f) := by
  unfold RME.aluTest; ao
theorem AO.aluInc {n : Nat} (d : BitVec n) (f : BitVec 16) : AO f (aluInc d f).2 := by
  unfold RME.aluInc; dsimp only; ao
theorem AO.aluDec {n : Nat} (d : BitVec n) (f : BitVec 16) : AO f (aluDec d f).2 := by
  unfold RME.aluDec; dsimp only; ao
theorem AO.aluNeg {n : Nat} (d : BitVec n) (f : BitVec 16) : AO f (aluNeg d f).2 := by
  unfold RME.aluNeg; dsimp only; split <;> dsimp only <;> ao
theorem AO.setCFOF {f g : BitVec 16} {b : Bool} (h : AO f g) : AO f (setCFOF g b) := by
  unfold RME.setCFOF; ao
theorem AO.mulCode {n : Nat} (a s : BitVec n) (f : BitVec 16) : AO f (mulCode a s f).2.2 := by
  unfold RME.mulCode; exact AO.setCFOF (by ao)
theorem AO.imulCode {n : Nat} (a s : BitVec n) (f : BitVec 16) : AO f (imulCode a s f).2.2 := by
  unfold RME.imulCode; exact AO.setCFOF (by ao)
theorem AO.shShl {n : Nat} {d : BitVec n} {amt f r} (h : shShl d amt f = .ok r) : AO f r.2 := by
  unfold RME.shShl at h; dsimp only at h
  split at h
  · cases h; dsimp only; ao
  · split at h
    · cases h
    · cases h; dsimp only; ao
theorem AO.shiftCode {n : Nat} {k : ShiftOp} {d : BitVec n} {amt f r} (h : shiftCode k d amt f = .ok r) : AO f r.2 := by
  unfold RME.shiftCode at h
  cases k <;> dsimp only at h
  · cases h; simp only [shRol]; ao
  · cases h; simp only [shRor]; ao
  · cases h; simp only [shRcl]; ao
  · cases h; simp only [shRcr]; ao
  · exact AO.shShl h
  · cases h; simp only [shShr, highOF]; split <;> dsimp only <;> ao
  · exact AO.shShl h
  · cases h; simp only [shSar, highOF]; split <;> dsimp only <;> ao
theorem AO.shShrd {n : Nat} {d s : BitVec n} {amt f r} (h : shShrd d s amt f = .ok r) : AO f r.2 := by
  unfold RME.shShrd at h; dsimp only at h
  split at h
  · cases h
  · cases h; dsimp only; ao
theorem AO.shShld {n : Nat} {d s : BitVec n} {amt f r} (h : shShld d s amt f = .ok r) : AO f r.2 := by
  unfold RME.shShld at h; dsimp only at h
  split at h
  · cases h
  · cases h; dsimp only; ao
theorem AO.aaCode (sub : Bool) (al ah f) : AO f (aaCode sub al ah f).2.2 := by
  unfold RME.aaCode; dsimp only; split <;> dsimp only <;> ao
theorem AO.daaCode (al f) : AO f (daaCode al f).2 := by
  unfold RME.daaCode; dsimp only; apply AO.setComm; repeat' (first | split | dsimp only) 
  all_goals (first | ao | skip)
theorem AO.dasCode (al f) : AO f (dasCode al f).2 := by
  unfold RME.dasCode; dsimp only; apply AO.setComm; repeat' (first | split | dsimp only) 
  all_goals (first | ao | skip)


theorem wl8 : (8:Nat) = 8 ∨ (8:Nat) = 16 ∨ (8:Nat) = 32 := by decide
theorem wl16 : (16:Nat) = 8 ∨ (16:Nat) = 16 ∨ (16:Nat) = 32 := by decide
theorem wl32 : (32:Nat) = 8 ∨ (32:Nat) = 16 ∨ (32:Nat) = 32 := by decide

namespace Kp
variable {c : Cap} {α β : Type}
theorem bindRM [c.Base] [c.Mr] {V : β → Prop} {f : Loc × Loc → M β}
    (h : ∀ r m, c.VL 8 r → c.VL 8 m → Kp c V (f (r, m))) : Kp c V (RME.parseModRM >>= f) :=
  bind parseModRM fun a ha => h a.1 a.2 ha.1 ha.2
theorem bindRMX [c.Base] [c.Mr] {V : β → Prop} {f : Loc × Loc → M β}
    (h : ∀ r m, (∀ n, (n = 8 ∨ n = 16 ∨ n = 32) → c.VL n r) → (∀ n, (n = 8 ∨ n = 16 ∨ n = 32) → c.VL n m) →
      Kp c V (f (r, m))) : Kp c V (RME.parseModRMX >>= f) :=
  bind parseModRMX fun a ha => h a.1 a.2 ha.1 ha.2
theorem liftUB {x : Except UB α} (h : ∀ u, x = .error u → c.U u) : Kp c (fun a => x = .ok a) (RME.liftUB x) := by
  cases x with
  | ok a => exact pure rfl
  | error u => exact ubE (h u rfl)
theorem arithAO [c.AFl] {f g} (h : c.VF f) (ha : AO f g) : c.VF g := Cap.AFl.arith _ _ h ha
theorem segOf (p : BitVec 3) (hu : (p = 6 ∨ p = 7) → c.U .nullSegPtr) : Kp c
    (fun r => (p = 0 ∧ r = .es) ∨ (p = 1 ∧ r = .cs) ∨ (p = 2 ∧ r = .ss) ∨ (p = 3 ∧ r = .ds) ∨ (p = 4 ∧ r = .fs) ∨
      (p = 5 ∧ r = .gs)) (RME.segOf p) := by
  unfold RME.segOf
  repeat' split
  · exact pure (Or.inl ⟨‹_›, rfl⟩)
  · exact pure (Or.inr (Or.inl ⟨‹_›, rfl⟩))
  · exact pure (Or.inr (Or.inr (Or.inl ⟨‹_›, rfl⟩)))
  · exact pure (Or.inr (Or.inr (Or.inr (Or.inl ⟨‹_›, rfl⟩))))
  · exact pure (Or.inr (Or.inr (Or.inr (Or.inr (Or.inl ⟨‹_›, rfl⟩)))))
  · exact pure (Or.inr (Or.inr (Or.inr (Or.inr (Or.inr ⟨‹_›, rfl⟩)))))
  · refine ubE (hu ?_)
    clear hu; revert p; decide
end Kp

/-- side conditions -/
macro "kps" : tactic => `(tactic| first
  | assumption
  | rfl
  | exact Cap.Base.w8
  | exact Cap.Base.w16
  | exact wl8
  | exact wl16
  | exact wl32
  | solve_by_elim [Cap.Base.wle, Cap.Base.lreg, Kp.regBV, Kp.regWV, wl8, wl16, wl32]
  | exact trivial)

/-- FLAGS side conditions -/
macro "kpf" : tactic => `(tactic| (with_reducible refine Kp.arithAO (by assumption) ?_
                                   with_reducible first
                                     | exact AO.aluExec _ _ _ _
                                     | exact AO.aluTest _ _ _
                                     | exact AO.aluInc _ _
                                     | exact AO.aluDec _ _
                                     | exact AO.aluNeg _ _
                                     | exact AO.mulCode _ _ _
                                     | exact AO.imulCode _ _ _
                                     | exact AO.shiftCode (by assumption)
                                     | exact AO.shShld (by assumption)
                                     | exact AO.shShrd (by assumption)
                                     | exact AO.aaCode _ _ _ _
                                     | exact AO.daaCode _ _
                                     | exact AO.dasCode _ _
                                     | ao))

syntax "kp1" : tactic
macro_rules | `(tactic| kp1) => `(tactic| first
  | with_reducible exact Kp.pureT
  | with_reducible exact Kp.getRegT _ _
  | with_reducible exact Kp.getSregT _
  | with_reducible exact Kp.getIPT
  | with_reducible exact Kp.nextIPT
  | with_reducible exact Kp.getSegmentT _
  | with_reducible exact Kp.getDecV
  | with_reducible exact Kp.getFlagsV
  | with_reducible exact Kp.top Kp.getDecV
  | with_reducible exact Kp.top Kp.getFlagsV
  | with_reducible exact Kp.top (Kp.guardE (by decide))
  | (with_reducible refine Kp.guardE ?_; decide)
  | (with_reducible refine Kp.throwE ?_; decide)
  | with_reducible exact Kp.throwDv
  | (with_reducible refine Kp.readMem _ _ ?_ <;> kps)
  | (with_reducible refine Kp.readInstr ?_ <;> kps)
  | with_reducible exact Kp.readInstr8S _
  | (with_reducible refine Kp.readLoc ?_ <;> kps)
  | with_reducible exact Kp.getModRM
  | with_reducible exact Kp.getModRM_unchecked
  | with_reducible exact Kp.getMMM _
  | with_reducible exact Kp.decodeModM _
  | with_reducible exact Kp.decodeModMX _
  | with_reducible exact Kp.parseFarPtr
  | with_reducible exact Kp.clearRep
  | with_reducible exact Kp.getsT _)
macro_rules | `(tactic| kp1) => `(tactic| first
  | (with_reducible refine Kp.setReg ?_ <;> kps)
  | with_reducible exact Kp.setRegH8
  | with_reducible exact Kp.pop
  | with_reducible exact Kp.popReg _
  | (with_reducible refine Kp.storeM ?_ ?_ <;> kps)
  | (with_reducible refine Kp.writeMem _ _ _ ?_ <;> kps)
  | (with_reducible refine Kp.writeLoc ?_ ?_ <;> kps)
  | with_reducible exact Kp.push _
  | (with_reducible refine Kp.setFlags ?_ <;> (first | kps | kpf))
  | with_reducible exact Kp.setIP
  | with_reducible exact Kp.setDontChangeIP
  | with_reducible exact Kp.addIP
  | (with_reducible refine Kp.setSreg ?_ <;> kps)
  | with_reducible exact Kp.portOut
  | with_reducible exact Kp.portIn
  | with_reducible exact Kp.runHle)

/-- one step of the proof search -/
macro "kpstep" : tactic => `(tactic| first
  | kp1
  | ((with_reducible refine Kp.bindRM ?_); intro _ _ _ _; dsimp only)
  | ((with_reducible refine Kp.bindRMX ?_); intro _ _ _ _; dsimp only)
  | ((with_reducible refine Kp.withW ?_); intro _ _ _)
  | ((with_reducible refine Kp.strW _ ?_); intro _ _)
  | ((with_reducible refine Kp.stringOp _ _ _ _ ?_); intro _ _ _ _)
  | (with_reducible refine Kp.pushM (V := fun _ => True) ?_)
  | with_reducible refine Kp.bind Kp.getFlagsV (fun _ _ => ?_)
  | with_reducible refine Kp.bind Kp.getDecV (fun _ _ => ?_)
  | with_reducible refine Kp.bind (Kp.decodeModM _) (fun _ _ => ?_)
  | with_reducible refine Kp.bind (Kp.decodeModMX _) (fun _ _ => ?_)
  | with_reducible refine Kp.bind (Kp.guardE (by decide)) (fun _ _ => ?_)
  | with_reducible refine Kp.bind Kp.guardDv (fun _ _ => ?_)
  | with_reducible refine Kp.bind (Kp.liftUB (by assumption)) (fun _ _ => ?_)
  | with_reducible refine Kp.bind (Kp.segOf _ (by assumption)) (fun _ _ => ?_)
  | (with_reducible refine Kp.bind (V := fun _ => True) ?_ (fun _ _ => ?_))
  | ((with_reducible refine Kp.ite ?_ ?_) <;> intro _)
  | split
  | dsimp only)
macro "kp" : tactic => `(tactic| repeat' kpstep)

namespace Kp
variable {c : Cap} {α β : Type}
section std
variable [c.Base] [c.Rg] [c.Mm] [c.AFl]

theorem aluApply (k n l s) (hn : c.W n) (hl : c.VL n l) : Kpt c (RME.aluApply k n l s) := by
  unfold RME.aluApply; kp
theorem testApply (n l s) (hn : c.W n) (hl : c.VL n l) : Kpt c (RME.testApply n l s) := by
  unfold RME.testApply; kp
theorem incApply (n l) (hn : c.W n) (hl : c.VL n l) : Kpt c (RME.incApply n l) := by
  unfold RME.incApply; kp
theorem decApply (n l) (hn : c.W n) (hl : c.VL n l) : Kpt c (RME.decApply n l) := by
  unfold RME.decApply; kp
theorem clearOZSP : Kpt c RME.clearOZSP := by
  unfold RME.clearOZSP; kp
theorem storeProduct (n lo hi) (hn : c.W n) : Kpt c (RME.storeProduct n lo hi) := by
  unfold RME.storeProduct; kp
theorem storeQuot (n lo hi) (hn : c.W n) : Kpt c (RME.storeQuot n lo hi) := by
  unfold RME.storeQuot; kp

/-- undefined shifts -/
theorem shiftCodeUB {n : Nat} {k : ShiftOp} {d : BitVec n} {amt f u} (h : shiftCode k d amt f = .error u) : u = .shiftRange := by
  unfold RME.shiftCode at h
  cases k <;> dsimp only at h <;> try cases h
  all_goals
    unfold RME.shShl at h; dsimp only at h
    split at h
    · cases h
    · split at h
      · cases h; rfl
      · cases h
theorem shShrdUB {n : Nat} {d s : BitVec n} {amt f u} (h : shShrd d s amt f = .error u) : u = .shiftRange := by
  unfold RME.shShrd at h; dsimp only at h
  split at h
  · cases h; rfl
  · cases h
theorem shShldUB {n : Nat} {d s : BitVec n} {amt f u} (h : shShld d s amt f = .error u) : u = .shiftRange := by
  unfold RME.shShld at h; dsimp only at h
  split at h
  · cases h; rfl
  · cases h
theorem idivUB {n : Nat} {a b : Int} {u} (h : idivCode n a b = .error u) : u = .signedOverflow := by
  unfold RME.idivCode at h; dsimp only at h
  repeat' (split at h)
  all_goals (first | cases h; done | (cases h; rfl))


end std
end Kp

macro_rules | `(tactic| kp1) => `(tactic| first
  | (with_reducible refine Kp.aluApply _ _ _ _ ?_ ?_ <;> kps)
  | (with_reducible refine Kp.testApply _ _ _ ?_ ?_ <;> kps)
  | (with_reducible refine Kp.incApply _ _ ?_ ?_ <;> kps)
  | (with_reducible refine Kp.decApply _ _ ?_ ?_ <;> kps)
  | with_reducible exact Kp.clearOZSP
  | (with_reducible refine Kp.storeProduct _ _ _ ?_ <;> kps)
  | (with_reducible refine Kp.storeQuot _ _ _ ?_ <;> kps))

/-- undefined behaviours of particular instructions -/
class Cap.Ov (c : Cap) : Prop where
  ov : c.U .signedOverflow
class Cap.Sh (c : Cap) : Prop where
  sh : c.U .shiftRange
class Cap.Ns (c : Cap) : Prop where
  ns : c.U .nullSegPtr
/-- AH CH DH BH may be accessed with any width (SHLD/SHRD) -/
class Cap.Hi (c : Cap) : Prop where
  hi : ∀ n r, (n = 8 ∨ n = 16 ∨ n = 32) → c.VL n (.regH r)
  memX : ∀ n h, c.VL 8 (.mem h) → (n = 8 ∨ n = 16 ∨ n = 32) → c.VL n (.mem h)

namespace Kp
variable {c : Cap} {α β : Type}
section std
variable [c.Base] [c.Rg] [c.Mm] [c.AFl]
theorem bindUB {x : Except UB α} {V : β → Prop} {f : α → M β} (h : ∀ u, x = .error u → c.U u)
    (hf : ∀ a, x = .ok a → Kp c V (f a)) : Kp c V (RME.liftUB x >>= f) := bind (liftUB h) hf

theorem alu (k form) [c.Mr] : Kpt c (RME.opAlu k form) := by
  unfold RME.opAlu; cases form <;> dsimp only <;> kp
theorem aluAI (k) : Kpt c (RME.opAlu k .AI) := by unfold RME.opAlu; dsimp only; kp
theorem aluAIX (k) : Kpt c (RME.opAlu k .AIX) := by unfold RME.opAlu; dsimp only; kp
theorem testMR [c.Mr] : Kpt c RME.opTestMR := by unfold RME.opTestMR; kp
theorem testMRX [c.Mr] : Kpt c RME.opTestMRX := by unfold RME.opTestMRX; kp
theorem testAI : Kpt c RME.opTestAI := by unfold RME.opTestAI; kp
theorem testAIX : Kpt c RME.opTestAIX := by unfold RME.opTestAIX; kp
theorem arithMI (p) [c.Mr] : Kpt c (RME.opArithMI p) := by unfold RME.opArithMI; kp
theorem arithMIX (p) [c.Mr] : Kpt c (RME.opArithMIX p) := by unfold RME.opArithMIX; kp
theorem arithMI8X (p) [c.Mr] : Kpt c (RME.opArithMI8X p) := by unfold RME.opArithMI8X; kp
theorem incReg (p) : Kpt c (RME.opIncReg p) := by unfold RME.opIncReg; kp
theorem decReg (p) : Kpt c (RME.opDecReg p) := by unfold RME.opDecReg; kp
theorem miscOp (n p l) (ho : p = 7 → c.Ov) (hd : (p = 6 ∨ p = 7) → c.Dv) (hn : c.W n) (hl : c.VL n l) : Kpt c (RME.miscOp n p l) := by
  unfold RME.miscOp
  repeat' (split)
  case isFalse h0 h1 h2 h3 h4 h5 h6 =>
    have hp7 : p = 7 := by clear hd ho; bv_omega
    haveI : c.Dv := hd (Or.inr hp7)
    have o : c.Ov := ho hp7
    refine bind (readLoc hl) fun _ _ => bind guardDv fun _ _ => bind (getsT _) fun _ _ =>
      bindUB (fun u h => (idivUB h) ▸ o.ov) fun _ _ => ?_
    kp
  all_goals first | (haveI : c.Dv := hd (Or.inl (by assumption)); kp; done) | kp
theorem miscMI (p) [c.Mr] (ho : p = 7 → c.Ov) (hd : (p = 6 ∨ p = 7) → c.Dv) : Kpt c (RME.opMiscMI p) := by
  unfold RME.opMiscMI
  exact bindRM fun _ _ _ h => miscOp _ _ _ ho hd Cap.Base.w8 h
theorem miscMIX (p) [c.Mr] (ho : p = 7 → c.Ov) (hd : (p = 6 ∨ p = 7) → c.Dv) : Kpt c (RME.opMiscMIX p) := by
  unfold RME.opMiscMIX
  exact bindRMX fun _ _ _ h => withW fun n hn _ => miscOp _ _ _ ho hd hn (h n (Cap.Base.wle n hn))
theorem imulMulti (l a b) [o : c.Ov] (hl : c.VL 16 l) : Kpt c (RME.imulMulti l a b) := by
  unfold RME.imulMulti
  split
  · exact ubE o.ov
  · refine bind getFlagsV fun f hf => bind (setFlags (arithAO hf ?_)) fun _ _ => writeLoc Cap.Base.w16 hl
    exact AO.setCFOF (by ao)
theorem imulMIX [c.Mr] [c.Ov] : Kpt c RME.opImulMIX := by
  unfold RME.opImulMIX; kp
  exact imulMulti _ _ _ (by kps)
theorem imulMI8X [c.Mr] [c.Ov] : Kpt c RME.opImulMI8X := by
  unfold RME.opImulMI8X; kp
  exact imulMulti _ _ _ (by kps)
theorem imulRMX [c.Mr] [c.Ov] : Kpt c RME.opImulRMX := by
  unfold RME.opImulRMX; kp
  exact imulMulti _ _ _ (by kps)
theorem shiftCodeSh {n : Nat} {k : ShiftOp} {d : BitVec n} {amt f u} (h : shiftCode k d amt f = .error u) : k = .shl ∨ k = .sal := by
  unfold RME.shiftCode at h
  cases k <;> dsimp only at h <;> first | (cases h; done) | simp
theorem shiftOfNum_sh {p : BitVec 3} (h : shiftOfNum p = .shl ∨ shiftOfNum p = .sal) : p = 4 ∨ p = 6 := by
  revert p; decide
theorem shiftApply (k n l x) (o : (k = .shl ∨ k = .sal) → c.Sh) (hn : c.W n) (hl : c.VL n l) : Kpt c (RME.shiftApply k n l x) := by
  unfold RME.shiftApply
  dsimp only
  split
  · exact pureT
  · refine bind (readLoc hl) fun _ _ => bind getFlagsV fun _ _ =>
      bindUB (fun u h => (shiftCodeUB h) ▸ (o (shiftCodeSh h)).sh) fun _ _ => ?_
    kp
theorem shiftMI (p) [c.Mr] (o : (p = 4 ∨ p = 6) → c.Sh) : Kpt c (RME.opShiftMI p) := by
  unfold RME.opShiftMI; kp; exact shiftApply _ _ _ _ (fun h => o (shiftOfNum_sh h)) (by kps) (by kps)
theorem shiftMI8X (p) [c.Mr] (o : (p = 4 ∨ p = 6) → c.Sh) : Kpt c (RME.opShiftMI8X p) := by
  unfold RME.opShiftMI8X; kp; exact shiftApply _ _ _ _ (fun h => o (shiftOfNum_sh h)) (by kps) (by kps)
theorem shShl1 {n : Nat} {d : BitVec n} {f u} (hn : n = 8 ∨ n = 16 ∨ n = 32) : shShl d 1 f ≠ .error u := by
  intro h
  unfold RME.shShl at h; dsimp only at h
  rw [if_neg (by omega), if_neg (by omega)] at h
  cases h
theorem shiftApply1 (k n l) (hn : c.W n) (hl : c.VL n l) : Kpt c (RME.shiftApply k n l 1) := by
  unfold RME.shiftApply
  dsimp only
  split
  · exact pureT
  · refine bind (readLoc hl) fun _ _ => bind getFlagsV fun _ _ =>
      bindUB (fun u h => ?_) fun _ _ => ?_
    · rcases shiftCodeSh h with rfl | rfl
      · exact absurd h (shShl1 (Cap.Base.wle n hn))
      · exact absurd h (shShl1 (Cap.Base.wle n hn))
    kp
theorem shiftM1 (p) [c.Mr] : Kpt c (RME.opShiftM1 p) := by
  unfold RME.opShiftM1; kp; exact shiftApply1 _ _ _ (by kps) (by kps)
theorem shiftM1X (p) [c.Mr] : Kpt c (RME.opShiftM1X p) := by
  unfold RME.opShiftM1X; kp; exact shiftApply1 _ _ _ (by kps) (by kps)
theorem shiftMCl (p) [c.Mr] (o : (p = 4 ∨ p = 6) → c.Sh) : Kpt c (RME.opShiftMCl p) := by
  unfold RME.opShiftMCl; kp; exact shiftApply _ _ _ _ (fun h => o (shiftOfNum_sh h)) (by kps) (by kps)
theorem shiftMClX (p) [c.Mr] (o : (p = 4 ∨ p = 6) → c.Sh) : Kpt c (RME.opShiftMClX p) := by
  unfold RME.opShiftMClX; kp; exact shiftApply _ _ _ _ (fun h => o (shiftOfNum_sh h)) (by kps) (by kps)
theorem regBX [h : c.Hi] {l n} (hl : c.VL 8 l) (hn : n = 8 ∨ n = 16 ∨ n = 32) : c.VL n l := by
  cases l
  · exact Cap.Base.lreg _ _
  · exact h.hi n _ hn
  · exact h.memX _ _ hl hn
theorem shxdApply (r a b x) [o : c.Sh] [c.Hi] (ha : c.VL 8 a) (hb : c.VL 8 b) : Kpt c (RME.shxdApply r a b x) := by
  unfold RME.shxdApply
  refine withW fun n hn _ => ?_
  have ha := regBX ha (Cap.Base.wle n hn)
  have hb := regBX hb (Cap.Base.wle n hn)
  split
  · exact pureT
  · refine bind (readLoc hb) fun _ _ => bind (readLoc ha) fun _ _ => bind getFlagsV fun _ _ =>
      bindUB (fun u h => ?_) fun _ _ => ?_
    · split at h
      · exact (shShrdUB h) ▸ o.sh
      · exact (shShldUB h) ▸ o.sh
    · rename_i h
      refine bind (writeLoc hn hb) fun _ _ => setFlags (arithAO ‹_› ?_)
      split at h
      · exact AO.shShrd h
      · exact AO.shShld h
theorem shxdI8 (r) [c.Mr] [c.Sh] [c.Hi] : Kpt c (RME.opShxdI8 r) := by
  unfold RME.opShxdI8; kp; exact shxdApply _ _ _ _ (by kps) (by kps)
theorem shxdCl (r) [c.Mr] [c.Sh] [c.Hi] : Kpt c (RME.opShxdCl r) := by
  unfold RME.opShxdCl; kp; exact shxdApply _ _ _ _ (by kps) (by kps)
theorem movLoc (n a b) (hn : c.W n) (ha : c.VL n a) (hb : c.VL n b) : Kpt c (RME.movLoc n a b) := by
  unfold RME.movLoc; kp
theorem xchgLoc (n a b) (hn : c.W n) (ha : c.VL n a) (hb : c.VL n b) : Kpt c (RME.xchgLoc n a b) := by
  unfold RME.xchgLoc; kp
theorem moffs : Kpt c RME.moffs := by unfold RME.moffs; kp
end std
end Kp
macro_rules | `(tactic| kp1) => `(tactic| first
  | (with_reducible refine Kp.movLoc _ _ _ ?_ ?_ ?_ <;> kps)
  | (with_reducible refine Kp.xchgLoc _ _ _ ?_ ?_ ?_ <;> kps)
  | with_reducible exact Kp.moffs)
namespace Kp
variable {c : Cap} {α β : Type}
section std
variable [c.Base] [c.Rg] [c.Mm] [c.AFl]
theorem movMR [c.Mr] : Kpt c RME.opMovMR := by unfold RME.opMovMR; kp
theorem movMRX [c.Mr] : Kpt c RME.opMovMRX := by unfold RME.opMovMRX; kp
theorem movRM [c.Mr] : Kpt c RME.opMovRM := by unfold RME.opMovRM; kp
theorem movRMX [c.Mr] : Kpt c RME.opMovRMX := by unfold RME.opMovRMX; kp
theorem movMI [c.Mr] : Kpt c RME.opMovMI := by unfold RME.opMovMI; kp
theorem movMIX [c.Mr] : Kpt c RME.opMovMIX := by unfold RME.opMovMIX; kp
theorem movAMo : Kpt c RME.opMovAMo := by unfold RME.opMovAMo; kp
theorem movAMoX : Kpt c RME.opMovAMoX := by unfold RME.opMovAMoX; kp
theorem movMoA : Kpt c RME.opMovMoA := by unfold RME.opMovMoA; kp
theorem movMoAX : Kpt c RME.opMovMoAX := by unfold RME.opMovMoAX; kp
theorem peekInstr8 : Kpt c RME.peekInstr8 := by
  unfold RME.peekInstr8
  exact bind (readInstr (by decide)) fun _ _ => bind (modDec fun d hd => Cap.Base.ofs d _ hd) fun _ _ => pureT
theorem segOfT [o : c.Ns] (p) : Kpt c (RME.segOf p) := top (segOf p fun _ => o.ns)
theorem movRS [c.Mr] [c.Ns] : Kpt c RME.opMovRS := by
  unfold RME.opMovRS
  refine bind getDecV fun _ _ => bind (guardE (by decide)) fun _ _ => bind peekInstr8 fun _ _ => bindRMX fun _ _ _ h => 
    bind (segOfT _) fun _ _ => ?_
  kp
theorem movRegB (p) : Kpt c (RME.opMovRegB p) := by unfold RME.opMovRegB; kp
theorem movReg (p) : Kpt c (RME.opMovReg p) := by unfold RME.opMovReg; kp
theorem movZ [c.Mr] : Kpt c RME.opMovZ := by unfold RME.opMovZ; kp
theorem movZX [c.Mr] : Kpt c RME.opMovZX := by unfold RME.opMovZX; kp
theorem xchgRM [c.Mr] : Kpt c RME.opXchgRM := by unfold RME.opXchgRM; kp
theorem xchgRMX [c.Mr] : Kpt c RME.opXchgRMX := by unfold RME.opXchgRMX; kp
theorem xchgReg (p) : Kpt c (RME.opXchgReg p) := by unfold RME.opXchgReg; kp
theorem pushReg (p) : Kpt c (RME.opPushReg p) := by unfold RME.opPushReg RME.getRegHi; kp
theorem popRegOp (p) : Kpt c (RME.opPopReg p) := by
  unfold RME.opPopReg RME.setRegHi
  refine bind pop fun _ _ => bind (setReg Cap.Base.w16) fun _ _ => bind getDecV fun d hd => ?_
  split
  · exact bind pop fun _ _ => fun s hs => ⟨Cap.Rg.setGpr s _ _ hs (Cap.Base.w32 d hd (Or.inl ‹_›)), trivial⟩
  · exact pureT
theorem pushA : Kpt c RME.opPushA := by unfold RME.opPushA; kp
theorem popA : Kpt c RME.opPopA := by unfold RME.opPopA; kp
theorem pushF : Kpt c RME.opPushF := by unfold RME.opPushF; kp
theorem popMX [c.Mr] : Kpt c RME.opPopMX := by unfold RME.opPopMX; kp
theorem pushVal (v) : Kpt c (RME.pushVal v) := by unfold RME.pushVal; kp
theorem pushI : Kpt c RME.opPushI := by unfold RME.opPushI; kp; exact pushVal _
theorem pushI8 : Kpt c RME.opPushI8 := by unfold RME.opPushI8; kp; exact pushVal _
theorem pushSeg (p) (hp : (p = 6 ∨ p = 7) → c.U .nullSegPtr) : Kpt c (RME.opPushSeg p) := by
  unfold RME.opPushSeg
  refine bind (segOf p hp) fun _ _ => ?_
  kp
theorem enterLoop (k) : Kpt c (RME.enterLoop k) := by
  induction k with
  | zero => exact pureT
  | succ k ih => unfold RME.enterLoop; kp; exact ih
theorem enter : Kpt c RME.opEnter := by
  unfold RME.opEnter; kp; exact enterLoop _
theorem leave : Kpt c RME.opLeave := by unfold RME.opLeave; kp
theorem sahf : Kpt c RME.opSahf := by
  unfold RME.opSahf
  refine bind getFlagsV fun f hf => bind (getsT _) fun _ _ => setFlags (arithAO hf ?_)
  have : ∀ (f : BitVec 16) (a : BitVec 8), AO f (clr f 0xD5 ||| ((a &&& 0xD5).setWidth 16)) := by
    intro f a
    refine AO.or (AO.clr (AO.refl f) (by decide)) ?_
    revert a; decide
  exact this f _
theorem lahf : Kpt c RME.opLahf := by unfold RME.opLahf; kp
theorem flag (k) (hk : k = .clc ∨ k = .stc ∨ k = .cmc) : Kpt c (RME.opFlag k) := by
  unfold RME.opFlag
  refine bind getFlagsV fun f hf => setFlags (arithAO hf ?_)
  rcases hk with rfl | rfl | rfl <;> simp only [flagOp] <;> ao
theorem cmpFlags {n} (a b : BitVec n) : Kpt c (RME.cmpFlags a b) := by unfold RME.cmpFlags; kp
end std
end Kp
macro_rules | `(tactic| kp1) => `(tactic| first
  | with_reducible exact Kp.cmpFlags _ _)
namespace Kp
variable {c : Cap} {α β : Type}
section std
variable [c.Base] [c.Rg] [c.Mm] [c.AFl]
theorem movs [c.Fu] (w) : Kpt c (RME.opMovs w) := by unfold RME.opMovs; kp
theorem stos [c.Fu] (w) : Kpt c (RME.opStos w) := by unfold RME.opStos; kp
theorem lods [c.Fu] (w) : Kpt c (RME.opLods w) := by unfold RME.opLods; kp
theorem cmps [c.Fu] (w) : Kpt c (RME.opCmps w) := by unfold RME.opCmps; kp
theorem scas [c.Fu] (w) : Kpt c (RME.opScas w) := by unfold RME.opScas; kp
theorem cbw : Kpt c RME.opCbw := by unfold RME.opCbw; kp
theorem bsf [c.Mr] : Kpt c RME.opBsf := by unfold RME.opBsf; kp
theorem aa (b) : Kpt c (RME.opAA b) := by unfold RME.opAA; kp
theorem aam [c.Dv] : Kpt c RME.opAam := by unfold RME.opAam; kp
theorem aad : Kpt c RME.opAad := by unfold RME.opAad; kp
theorem da (b) : Kpt c (RME.opDA b) := by unfold RME.opDA; cases b <;> simp only [if_true, if_false, Bool.false_eq_true] <;> kp
theorem cwd : Kpt c RME.opCwd := by unfold RME.opCwd; kp
theorem lea : Kpt c RME.opLea := by unfold RME.opLea; kp
theorem xlat : Kpt c RME.opXlat := by unfold RME.opXlat; kp
theorem btx (p) [c.Mr] : Kpt c (RME.opBtx p) := by unfold RME.opBtx; kp
theorem unaryM (p) [c.Mr] : Kpt c (RME.opUnaryM p) := by unfold RME.opUnaryM; kp
theorem unaryIncDec (d n l) (hn : c.W n) (hl : c.VL n l) : Kpt c (RME.unaryIncDec d n l) := by unfold RME.unaryIncDec; kp
end std

section ctl
variable [c.Base] [c.Rg] [c.Mm] [c.AFl] [c.Ip]
theorem callN : Kpt c RME.opCallN := by unfold RME.opCallN; kp
theorem retN : Kpt c RME.opRetN := by unfold RME.opRetN; kp
theorem addSP (k) : Kpt c (RME.addSP k) := by unfold RME.addSP; kp
theorem retiN : Kpt c RME.opRetiN := by unfold RME.opRetiN; kp; exact addSP _
theorem jccS (k) : Kpt c (RME.opJccS k) := by unfold RME.opJccS; kp
theorem jccN (k) : Kpt c (RME.opJccN k) := by unfold RME.opJccN; kp
theorem jcxz : Kpt c RME.opJcxz := by unfold RME.opJcxz; kp
theorem loop (k) : Kpt c (RME.opLoop k) := by unfold RME.opLoop; kp
theorem jmpN : Kpt c RME.opJmpN := by unfold RME.opJmpN; kp
theorem jmpS : Kpt c RME.opJmpS := by unfold RME.opJmpS; kp
variable [c.Sg]
theorem callF (h : c.VS .cs) : Kpt c RME.opCallF := by unfold RME.opCallF; kp
theorem retF (h : c.VS .cs) : Kpt c RME.opRetF := by unfold RME.opRetF; kp
theorem retiF (h : c.VS .cs) : Kpt c RME.opRetiF := by unfold RME.opRetiF; kp; exact addSP _
theorem jmpF (h : c.VS .cs) : Kpt c RME.opJmpF := by unfold RME.opJmpF; kp
end ctl

section seg
variable [c.Base] [c.Rg] [c.Mm] [c.AFl] [c.Sg]
theorem movSR [c.Mr] [c.Ns] (h : ∀ r, c.VS r) : Kpt c RME.opMovSR := by
  unfold RME.opMovSR
  refine bind getDecV fun _ _ => bind (guardE (by decide)) fun _ _ => bind peekInstr8 fun _ _ => bind (segOfT _) fun r _ =>
    bindRMX fun _ _ _ hm => bind (readLoc (hm 16 (by decide))) fun _ _ => setSreg (h r)
/-- `MOV Sreg, r/m` with a known register field -/
theorem popSeg (p) (hp : (p = 6 ∨ p = 7) → c.U .nullSegPtr)
    (h : ∀ r, (p = 0 ∧ r = .es) ∨ (p = 1 ∧ r = .cs) ∨ (p = 2 ∧ r = .ss) ∨ (p = 3 ∧ r = .ds) ∨ (p = 4 ∧ r = .fs) ∨
      (p = 5 ∧ r = .gs) → c.VS r) : Kpt c (RME.opPopSeg p) := by
  unfold RME.opPopSeg
  exact bind (segOf p hp) fun r hr => bind pop fun _ _ => setSreg (h r hr)
theorem lxs (sr) (h : c.VS sr) : Kpt c (RME.opLxs sr) := by
  unfold RME.opLxs; kp
end seg

section unary
variable [c.Base] [c.Rg] [c.Mm] [c.AFl] [c.Mr]
theorem unaryMX_std (p) (h2 : p ≠ 2) (h3 : p ≠ 3) (h4 : p ≠ 4) (h5 : p ≠ 5) : Kpt c (RME.opUnaryMX p) := by
  unfold RME.opUnaryMX
  simp only [h2, h3, h4, h5, if_false]
  have w (d) (hd : c.VD d) (h : d.ovrOper = true) : c.W 32 := Cap.Base.w32 d hd (Or.inl h)
  refine bind getDecV fun d hd => ?_
  split
  · have := w d hd ‹_›
    repeat' split
    · exact bindRMX fun _ _ _ h => unaryIncDec _ _ _ this (h _ (by decide))
    · exact bindRMX fun _ _ _ h => unaryIncDec _ _ _ this (h _ (by decide))
    · kp
    · kp
  · repeat' split
    · exact bindRMX fun _ _ _ h => unaryIncDec _ _ _ Cap.Base.w16 (h _ (by decide))
    · exact bindRMX fun _ _ _ h => unaryIncDec _ _ _ Cap.Base.w16 (h _ (by decide))
    · kp
    · kp
theorem unaryMX_near [c.Ip] (p) (h3 : p ≠ 3) (h5 : p ≠ 5) : Kpt c (RME.opUnaryMX p) := by
  by_cases h2 : p = 2
  · subst h2; unfold RME.opUnaryMX; simp only [show ¬ ((2:BitVec 3) = 0) by decide, show ¬ ((2:BitVec 3) = 1) by decide, show ¬ ((2:BitVec 3) = 6) by decide, if_false, if_true]
    kp
  by_cases h4 : p = 4
  · subst h4; unfold RME.opUnaryMX; simp only [show ¬ ((4:BitVec 3) = 0) by decide, show ¬ ((4:BitVec 3) = 1) by decide, show ¬ ((4:BitVec 3) = 2) by decide, show ¬ ((4:BitVec 3) = 3) by decide, show ¬ ((4:BitVec 3) = 6) by decide, if_false, if_true]
    kp
  exact unaryMX_std p h2 h3 h4 h5
theorem unaryMX [c.Ip] [c.Sg] (p) (h : c.VS .cs) : Kpt c (RME.opUnaryMX p) := by
  by_cases h3 : p = 3
  · subst h3; unfold RME.opUnaryMX; simp only [show ¬ ((3:BitVec 3) = 0) by decide, show ¬ ((3:BitVec 3) = 1) by decide, show ¬ ((3:BitVec 3) = 2) by decide, show ¬ ((3:BitVec 3) = 6) by decide, if_false, if_true]
    kp
  by_cases h5 : p = 5
  · subst h5; unfold RME.opUnaryMX; simp only [show ¬ ((5:BitVec 3) = 0) by decide, show ¬ ((5:BitVec 3) = 1) by decide, show ¬ ((5:BitVec 3) = 2) by decide, show ¬ ((5:BitVec 3) = 3) by decide, show ¬ ((5:BitVec 3) = 4) by decide, show ¬ ((5:BitVec 3) = 6) by decide, if_false, if_true]
    kp
  exact unaryMX_near p h3 h5
end unary

section io
variable [c.Base] [c.Rg] [c.Mm] [c.Io]
theorem inADx : Kpt c RME.opInADx := by unfold RME.opInADx; kp
theorem inADxX : Kpt c RME.opInADxX := by unfold RME.opInADxX; kp
theorem inAI : Kpt c RME.opInAI := by unfold RME.opInAI; kp
theorem inAIX : Kpt c RME.opInAIX := by unfold RME.opInAIX; kp
theorem outDxA : Kpt c RME.opOutDxA := by unfold RME.opOutDxA; kp
theorem outDxAX : Kpt c RME.opOutDxAX := by unfold RME.opOutDxAX; kp
theorem outAI : Kpt c RME.opOutAI := by unfold RME.opOutAI; kp
theorem outAIX : Kpt c RME.opOutAIX := by unfold RME.opOutAIX; kp
theorem ins [c.Fu] (w) : Kpt c (RME.opIns w) := by unfold RME.opIns; kp
theorem outs [c.Fu] (w) : Kpt c (RME.opOuts w) := by unfold RME.opOuts; kp
end io

section sys
variable [c.Base] [c.Rg] [c.Mm] [c.AFl] [g : c.SFl]
theorem setFlagsAny {f} : Kpt c (RME.setFlags f) := setFlags (g.any f)
theorem popF : Kpt c RME.opPopF := by
  unfold RME.opPopF
  exact bind getDecV fun _ _ => bind (guardE (by decide)) fun _ _ => bind pop fun _ _ => bind (getsT _) fun _ _ => setFlagsAny
theorem flagAny (k) : Kpt c (RME.opFlag k) := by
  unfold RME.opFlag
  exact bind getFlagsV fun _ _ => setFlagsAny
theorem flagAFl (k) : Kpt c (RME.opFlag k) := flagAny k
variable [c.Ip] [c.Sg]
theorem callInterrupt [c.Hle] (n) (h : c.VS .cs) : Kpt c (RME.callInterrupt n) := by
  unfold RME.callInterrupt
  refine bind (readMem _ _ (by decide)) fun _ _ => bind (readMem _ _ (by decide)) fun _ _ => bind (guardE (by decide)) fun _ _ => ?_
  split
  · exact runHle
  · refine bind (pushM getFlagsV) fun _ _ => bind (pushM (getSregT _)) fun _ _ => bind (pushM nextIPT) fun _ _ =>
      bind setIP fun _ _ => bind (setSreg h) fun _ _ => bind getFlagsV fun _ _ => bind setFlagsAny fun _ _ => setDontChangeIP
theorem int3 [c.Hle] (h : c.VS .cs) : Kpt c RME.opInt3 := callInterrupt _ h
theorem intI [c.Hle] (h : c.VS .cs) : Kpt c RME.opIntI := bind (readInstr (by decide)) fun _ _ => callInterrupt _ h
theorem into [c.Hle] (h : c.VS .cs) : Kpt c RME.opInto := by
  unfold RME.opInto
  refine bind getFlagsV fun _ _ => ?_
  split
  · exact callInterrupt _ h
  · exact pureT
theorem iret (h : c.VS .cs) : Kpt c RME.opIret := by
  unfold RME.opIret
  exact bind pop fun _ _ => bind setIP fun _ _ => bind pop fun _ _ => bind (setSreg h) fun _ _ => bind pop fun _ _ =>
    bind setFlagsAny fun _ _ => setDontChangeIP
end sys

section pfx
variable [c.Base] [x : c.Px]
theorem throwCont {V : α → Prop} : Kp c V (RME.throwE .cont) := fun s hs => x.cont s hs
theorem ovrSeg (p) (hp : (p = 6 ∨ p = 7) → c.U .nullSegPtr) : Kpt c (RME.opOvrSeg p) := by
  unfold RME.opOvrSeg
  exact bind getDecV fun _ _ => bind (guardE (by decide)) fun _ _ => bind (segOf p hp) fun r _ => 
    bind (modDec fun d hd => x.seg d r hd) fun _ _ => throwCont
theorem ovrOper : Kpt c RME.opOvrOper := by
  unfold RME.opOvrOper
  exact bind getDecV fun _ _ => bind (guardE (by decide)) fun _ _ => bind (modDec fun d hd => x.oper d hd) fun _ _ => throwCont
theorem ovrAddr : Kpt c RME.opOvrAddr := by
  unfold RME.opOvrAddr
  exact bind getDecV fun _ _ => bind (guardE (by decide)) fun _ _ => bind (modDec fun d hd => x.addr d hd) fun _ _ => throwCont
theorem prefixRep (r) : Kpt c (RME.opPrefixRep r) := by
  unfold RME.opPrefixRep
  exact bind getDecV fun _ _ => bind (guardE (by decide)) fun _ _ => bind (modDec fun d hd => x.repx d r hd) fun _ _ => throwCont
end pfx
theorem hlt (h : ∀ s, c.I s → c.J .halt s) : Kpt c RME.opHlt := fun s hs => h s hs
end Kp
end RME
