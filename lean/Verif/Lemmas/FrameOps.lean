import Verif.Lemmas.Frame
import Verif.Lemmas.KpAll
set_option autoImplicit false
/-
The logic of `Verif.Lemmas.Frame` applied to every opcode function.
-/
set_option linter.unusedSectionVars false
set_option linter.unusedVariables false
namespace RME

/-- The destination `d`, with ModR/M byte `b`, may change. -/
def Eff.Cov (E : Eff) (b : BitVec 8) : Dest → Prop
  | .rm8 => (modOf b = 3 → E.regs (rmOf b &&& 3) = true) ∧ (modOf b ≠ 3 → E.mem = true)
  | .rm => (modOf b = 3 → E.regs (rmOf b) = true) ∧ (modOf b ≠ 3 → E.mem = true)
  | .reg8 => E.regs (regOf b &&& 3) = true
  | .reg => E.regs (regOf b) = true
  | .gpr r => E.regs r = true
  | .mem => E.mem = true
  | .flags => E.flags = true
  | .count => E.norep = true ∨ E.regs 1 = true
  | .fault => E.regs 4 = true ∧ E.mem = true ∧ E.flags = true
  | .any => (∀ r, E.regs r = true) ∧ E.mem = true ∧ E.flags = true ∧ E.norep = false

/-- The byte the next instruction fetch gets. -/
def modByte (env : Env) (s : State) : Option (BitVec 8) :=
  match readInstr 8 env s with
  | .ok b _ => some b
  | _ => none

theorem ofByteF_mod (b : BitVec 8) : (ModRM.ofByte b).mod = 3 ↔ modOf b = 3 := by
  simp only [ModRM.ofByte, modOf]
  constructor
  · intro h
    have := congrArg BitVec.toNat h
    simp [Nat.shiftRight_eq_div_pow] at this
    have := b.isLt; omega
  · intro h
    apply BitVec.eq_of_toNat_eq
    simp [Nat.shiftRight_eq_div_pow]
    have := b.isLt; omega
theorem ofByteF_reg (b : BitVec 8) : (ModRM.ofByte b).rrr = regOf b := by
  simp only [ModRM.ofByte, regOf]
  apply BitVec.eq_of_toNat_eq
  simp [Nat.shiftRight_eq_div_pow]
theorem ofByteF_rm (b : BitVec 8) : (ModRM.ofByte b).mmm = rmOf b := by
  simp only [ModRM.ofByte, rmOf]
  apply BitVec.eq_of_toNat_eq
  simp

namespace Fr
variable {E : Eff} {α β : Type}

theorem getModRM : Fr E RME.getModRM := bind (readInstr _) fun _ => pure _
theorem getModRM_unchecked : Fr E RME.getModRM_unchecked := by
  intro env s hs
  have := getModRM (E := E) env s hs
  unfold RME.getModRM_unchecked
  cases h : RME.getModRM env s with
  | ok a t => rw [h] at this; exact this
  | err e t => trivial
  | ub u => trivial
theorem doFunc (a b c) : Fr E (RME.doFunc a b c) := by
  refine bind (getSegment _) fun _ => bind (gets _) fun _ => ?_
  dsimp only
  split
  · exact bind (readInstr _) fun _ => pure _
  · exact pure _
theorem doFunc32 (a b c) : Fr E (RME.doFunc32 a b c) := by
  refine bind (getSegment _) fun _ => bind (gets _) fun _ => ?_
  dsimp only
  split
  · refine bind (readInstr _) fun _ => ?_
    split
    · exact bind (readInstr _) fun _ => pure _
    · exact pure _
  · split
    · exact bind (readInstr _) fun _ => pure _
    · exact pure _
theorem getMMM (m) : Fr E (RME.getMMM m) := by
  refine bind getDec fun _ => ?_
  split
  · split
    · exact doFunc32 _ _ _
    split
    · exact bind (readInstr8S _) fun _ => doFunc32 _ _ _
    split
    · exact bind (readInstr _) fun _ => doFunc32 _ _ _
    · exact throwE _
  · split
    · exact doFunc _ _ _
    split
    · exact bind (readInstr8S _) fun _ => doFunc _ _ _
    split
    · exact bind (readInstr _) fun _ => doFunc _ _ _
    · exact throwE _
theorem decodeModM (m) : Fr E (RME.decodeModM m) := by
  unfold RME.decodeModM
  split
  · exact pure _
  · exact bind (getMMM _) fun _ => bind (getPtr _ _) fun _ => pure _
theorem decodeModMX (m) : Fr E (RME.decodeModMX m) := by
  unfold RME.decodeModMX
  split
  · exact pure _
  · exact bind (getMMM _) fun _ => bind (guardE _ _) fun _ => bind (getPtr _ _) fun _ => pure _

/-- where mod and r/m lead -/
def isRM (l3 : Loc) (b : BitVec 8) (l : Loc) : Prop := (modOf b = 3 ∧ l = l3) ∨ (modOf b ≠ 3 ∧ ∃ h, l = .mem h)

theorem decodeModM_val {b env s l t} (h : RME.decodeModM (ModRM.ofByte b) env s = .ok l t) : isRM (regB (rmOf b)) b l := by
  unfold RME.decodeModM at h
  by_cases h3 : (ModRM.ofByte b).mod = 3
  · rw [if_pos h3] at h
    cases h
    exact Or.inl ⟨(ofByteF_mod b).1 h3, by rw [ofByteF_rm]⟩
  · rw [if_neg h3] at h
    refine Or.inr ⟨fun h' => h3 ((ofByteF_mod b).2 h'), ?_⟩
    simp only [bind_apply] at h
    revert h
    cases RME.getMMM (ModRM.ofByte b) env s <;> simp
    rename_i a u
    cases RME.getPtr a.1 a.2 env u <;> simp
    rintro rfl _; exact ⟨_, rfl⟩
theorem decodeModMX_val {b env s l t} (h : RME.decodeModMX (ModRM.ofByte b) env s = .ok l t) : isRM (regW (rmOf b)) b l := by
  unfold RME.decodeModMX at h
  by_cases h3 : (ModRM.ofByte b).mod = 3
  · rw [if_pos h3] at h
    cases h
    exact Or.inl ⟨(ofByteF_mod b).1 h3, by rw [ofByteF_rm]⟩
  · rw [if_neg h3] at h
    refine Or.inr ⟨fun h' => h3 ((ofByteF_mod b).2 h'), ?_⟩
    simp only [bind_apply] at h
    revert h
    cases RME.getMMM (ModRM.ofByte b) env s with
    | err e u => simp
    | ub u => simp
    | ok a u =>
    simp only [resbind_ok]
    generalize ((a.1.setWidth 32 * 16 + a.2).toNat % blockSize == blockSize - 1) = c
    cases c
    · cases hp : RME.getPtr a.1 a.2 env u <;> simp [RME.guardE, hp]
      rintro rfl _; exact ⟨_, rfl⟩
    · simp [RME.guardE]

/-- At a state. -/
def At (E : Eff) (env : Env) (s : State) (m : M α) : Prop := WithinRes E s (m env s)

theorem atFr {m : M α} (h : Fr E m) {env s} (hs : E.pre s) : At E env s m := h env s hs

theorem atGetModRM {env s} (hs : E.pre s) {f : ModRM → M α}
    (h : ∀ b, modByte env s = some b → Fr E (f (ModRM.ofByte b))) : At E env s (RME.getModRM >>= f) := by
  refine bindAt hs (getModRM env s hs) fun a t ha ht => ?_
  revert ha
  simp only [RME.getModRM, bind_apply]
  cases hb : RME.readInstr 8 env s with
  | ok b u =>
    simp only [resbind_ok, pure_apply]
    rintro h2; cases h2
    exact h b (by rw [modByte, hb]) env _ ht
  | err e u => simp
  | ub u => simp

theorem atUnchecked {env s} (hs : E.pre s) {f : ModRM → M α}
    (h : ∀ b, modByte env s = some b → Fr E (f (ModRM.ofByte b))) : At E env s (RME.getModRM_unchecked >>= f) := by
  refine bindAt hs (getModRM_unchecked env s hs) fun a t ha ht => ?_
  revert ha
  simp only [RME.getModRM_unchecked, RME.getModRM, bind_apply]
  cases hb : RME.readInstr 8 env s with
  | ok b u =>
    simp only [resbind_ok, pure_apply]
    rintro h2; cases h2
    exact h b (by rw [modByte, hb]) env _ ht
  | err e u => simp
  | ub u => simp

theorem bindM {b : BitVec 8} {f : Loc → M α} (h : ∀ l, isRM (regB (rmOf b)) b l → Fr E (f l)) : Fr E (RME.decodeModM (ModRM.ofByte b) >>= f) :=
  bindV (decodeModM _) (fun _ _ _ _ _ h => decodeModM_val h) h
theorem bindMX {b : BitVec 8} {f : Loc → M α} (h : ∀ l, isRM (regW (rmOf b)) b l → Fr E (f l)) : Fr E (RME.decodeModMX (ModRM.ofByte b) >>= f) :=
  bindV (decodeModMX _) (fun _ _ _ _ _ h => decodeModMX_val h) h

theorem bind_assoc3 {α β γ : Type} (a : M α) (g : α → M β) (f : β → M γ) : (a >>= g) >>= f = a >>= fun x => g x >>= f := by
  funext env s
  simp only [bind_apply]
  cases a env s <;> rfl

theorem atRM {env s} (hs : E.pre s) {f : Loc × Loc → M α}
    (h : ∀ b l, modByte env s = some b → isRM (regB (rmOf b)) b l → Fr E (f (regB (regOf b), l))) : At E env s (RME.parseModRM >>= f) := by
  have : (RME.parseModRM >>= f) = (RME.getModRM >>= fun m => RME.decodeModM m >>= fun l => f (regB m.rrr, l)) := by
    funext env s
    simp only [RME.parseModRM, bind_apply]
    cases RME.getModRM env s with
    | ok m t =>
      simp only [resbind_ok]
      cases RME.decodeModM m env t <;> rfl
    | err e t => rfl
    | ub u => rfl
  rw [this]
  refine atGetModRM hs fun b hb => bindM fun l hl => ?_
  rw [ofByteF_reg]
  exact h b l hb hl
theorem atRMX {env s} (hs : E.pre s) {f : Loc × Loc → M α}
    (h : ∀ b l, modByte env s = some b → isRM (regW (rmOf b)) b l → Fr E (f (regW (regOf b), l))) : At E env s (RME.parseModRMX >>= f) := by
  have : (RME.parseModRMX >>= f) = (RME.getModRM >>= fun m => RME.decodeModMX m >>= fun l => f (regW m.rrr, l)) := by
    funext env s
    simp only [RME.parseModRMX, bind_apply]
    cases RME.getModRM env s with
    | ok m t =>
      simp only [resbind_ok]
      cases RME.decodeModMX m env t <;> rfl
    | err e t => rfl
    | ub u => rfl
  rw [this]
  refine atGetModRM hs fun b hb => bindMX fun l hl => ?_
  rw [ofByteF_reg]
  exact h b l hb hl

/-- a read that leaves the state alone comes first -/
theorem atGets {env s} (g : State → β) {f : β → M α} (h : At E env s (f (g s))) : At E env s (RME.gets g >>= f) := h
theorem atDec {env s} {f : Decoder → M α} (h : At E env s (f s.dec)) : At E env s (RME.getDec >>= f) := h
theorem atReg {env s n r} {f : BitVec n → M α} (h : At E env s (f (s.reg n r))) : At E env s (RME.getReg n r >>= f) := h
theorem atGuard {env s c e} {f : Unit → M α} (h : At E env s (f ())) : At E env s (RME.guardE c e >>= f) := by
  cases c
  · exact h
  · exact Within.refl E s
theorem atPeek {env s} {f : BitVec 8 → M α} (h : ∀ b, modByte env s = some b → At E env s (f b)) : At E env s (RME.peekInstr8 >>= f) := by
  unfold At at *
  have hr : RME.readInstr 8 env s = (RME.readMem 8 (s.sreg .cs) (s.ip + BitVec.ofNat 16 s.dec.ipOffset) env s).bind
      (fun v t => .ok v { t with dec := { t.dec with ipOffset := t.dec.ipOffset + 1 } }) := rfl
  have hk : ∀ v t, RME.readMem 8 (s.sreg .cs) (s.ip + BitVec.ofNat 16 s.dec.ipOffset) env s = .ok v t → t = s := by
    intro v t
    simp only [RME.readMem, bind_apply, getPtr_spec]
    repeat' split
    all_goals simp only [resbind_ok, resbind_err, resbind_ub, RME.loadM]
    all_goals (try split) <;> (intro h; cases h) <;> rfl
  have hb := h
  simp only [modByte] at hb
  simp only [RME.peekInstr8, bind_apply]
  rw [hr] at hb ⊢
  cases h2 : RME.readMem 8 (s.sreg .cs) (s.ip + BitVec.ofNat 16 s.dec.ipOffset) env s with
  | ok v t =>
    have := hk v t h2
    subst this
    rw [h2] at hb
    exact hb v rfl
  | err e t =>
    have h3 := readMem (E := E) 8 (s.sreg .cs) (s.ip + BitVec.ofNat 16 s.dec.ipOffset) env s
    rw [h2] at h3
    simp only [resbind_err]
    revert h2
    simp only [RME.readMem, bind_apply, getPtr_spec]
    repeat' split
    all_goals simp only [resbind_ok, resbind_err, resbind_ub, RME.loadM]
    all_goals (try split) <;> (intro h; cases h)
    exact Within.refl E s
  | ub u => trivial

/-! ### locations -/
theorem okRegB {i : BitVec 3} (h : E.regs (i &&& 3) = true) : okLoc E 8 (regB i) := by
  unfold regB
  split
  · refine Or.inl ⟨rfl, ?_⟩
    rw [show i - 4 = i &&& 3 from by clear h; revert i; decide]; exact h
  · show E.regs i = true
    rwa [show i &&& 3 = i from by clear h; revert i; decide] at h
theorem okRM8 {b l} (h : E.Cov b .rm8) (hl : isRM (regB (rmOf b)) b l) : okLoc E 8 l := by
  rcases hl with ⟨h3, rfl⟩ | ⟨h3, x, rfl⟩
  · exact okRegB (h.1 h3)
  · exact h.2 h3
theorem okRMX {b l} (n : Nat) (h : E.Cov b .rm) (hl : isRM (regW (rmOf b)) b l) : okLoc E n l := by
  rcases hl with ⟨h3, rfl⟩ | ⟨h3, x, rfl⟩
  · exact h.1 h3
  · exact h.2 h3
theorem okRM8X {b l} (n : Nat) (h : E.Cov b .rm) (hl : isRM (regB (rmOf b)) b l) (hn : ¬ (modOf b = 3 ∧ 4 ≤ (rmOf b).toNat) ∨ ∀ r, E.regs r = true) : okLoc E n l := by
  rcases hl with ⟨h3, rfl⟩ | ⟨h3, x, rfl⟩
  · rcases hn with hn | hn
    case inr =>
      unfold regB
      split
      · exact Or.inr hn
      · exact hn _
    have h4 : ¬ (rmOf b).toNat ≥ 4 := fun h => hn ⟨h3, h⟩
    rw [regB, if_neg h4]
    exact h.1 h3
  · exact h.2 h3

end Fr

/-! ### Every opcode function -/

macro "frstep" : tactic => `(tactic| first
  | fr1
  | (with_reducible refine Fr.writeLoc _ _ _ ?_; first | assumption | solve_by_elim)
  | ((with_reducible refine Fr.withW ?_); intro _)
  | (with_reducible refine Fr.bind ?_ (fun _ => ?_))
  | ((with_reducible refine Fr.ite ?_ ?_) <;> intro _)
  | split
  | dsimp only)
macro "fr" : tactic => `(tactic| repeat' frstep)

namespace Fr
variable {E : Eff} {α β : Type}

theorem okReg {n r} (h : E.regs r = true) : okLoc E n (.reg r) := h
theorem okRegW {n r} (h : E.regs r = true) : okLoc E n (regW r) := h
theorem aluApply {k n l s} (hf : E.flags = true) (hl : k.writes = true → okLoc E n l) : Fr E (RME.aluApply k n l s) := by
  unfold RME.aluApply
  refine bind (readLoc _ _) fun _ => bind getFlags fun _ => ?_
  dsimp only
  refine bind (setFlags _ hf) fun _ => ?_
  split
  · rename_i h; exact writeLoc _ _ _ (hl h)
  · exact pure _
theorem testApply {n l s} (hf : E.flags = true) : Fr E (RME.testApply n l s) := by unfold RME.testApply; fr
theorem incApply {n l} (hf : E.flags = true) (hl : okLoc E n l) : Fr E (RME.incApply n l) := by unfold RME.incApply; fr
theorem decApply {n l} (hf : E.flags = true) (hl : okLoc E n l) : Fr E (RME.decApply n l) := by unfold RME.decApply; fr
theorem clearOZSP (hf : E.flags = true) : Fr E RME.clearOZSP := by unfold RME.clearOZSP; fr
theorem storeProduct {n lo hi} (h0 : E.regs 0 = true) (h2 : n ≠ 8 → E.regs 2 = true) : Fr E (RME.storeProduct n lo hi) := by
  unfold RME.storeProduct
  split
  · exact setReg _ _ _ h0
  · rename_i h
    exact bind (setReg _ _ _ (h2 h)) fun _ => setReg _ _ _ h0
theorem storeQuot {n lo hi} (h0 : E.regs 0 = true) (h2 : n ≠ 8 → E.regs 2 = true) : Fr E (RME.storeQuot n lo hi) := by
  unfold RME.storeQuot
  split
  · exact bind (setRegH _ _ h0) fun _ => setReg _ _ _ h0
  · rename_i h
    exact bind (setReg _ _ _ (h2 h)) fun _ => setReg _ _ _ h0
theorem miscOp {n p l} (hf : p = 0 ∨ p = 3 ∨ p = 4 ∨ p = 5 → E.flags = true) (hl : p = 2 ∨ p = 3 → okLoc E n l)
    (h0 : p = 4 ∨ p = 5 ∨ p = 6 ∨ p = 7 → E.regs 0 = true) (h2 : p = 4 ∨ p = 5 ∨ p = 6 ∨ p = 7 → n ≠ 8 → E.regs 2 = true) : Fr E (RME.miscOp n p l) := by
  unfold RME.miscOp
  by_cases e0 : p = 0
  · rw [if_pos e0]; have := hf (by simp [e0]); fr
  rw [if_neg e0]
  by_cases e1 : p = 1
  · rw [if_pos e1]; fr
  rw [if_neg e1]
  by_cases e2 : p = 2
  · rw [if_pos e2]; have := hl (by simp [e2]); fr
  rw [if_neg e2]
  by_cases e3 : p = 3
  · rw [if_pos e3]; have := hl (by simp [e3]); have := hf (by simp [e3]); fr
  rw [if_neg e3]
  by_cases e4 : p = 4
  · rw [if_pos e4]; have i := hf (by simp [e4])
    refine bind (readLoc _ _) fun _ => bind (getReg _ _) fun _ => bind getFlags fun _ => ?_
    exact bind (storeProduct (h0 (by simp [e4])) (h2 (by simp [e4]))) fun _ => setFlags _ i
  rw [if_neg e4]
  by_cases e5 : p = 5
  · rw [if_pos e5]; have i := hf (by simp [e5])
    refine bind (readLoc _ _) fun _ => bind (getReg _ _) fun _ => bind getFlags fun _ => ?_
    exact bind (storeProduct (h0 (by simp [e5])) (h2 (by simp [e5]))) fun _ => setFlags _ i
  rw [if_neg e5]
  by_cases e6 : p = 6
  · rw [if_pos e6]
    refine bind (readLoc _ _) fun _ => bind (guardE _ _) fun _ => bind (gets _) fun _ => ?_
    split
    · exact throwE _
    · exact storeQuot (h0 (by simp [e6])) (h2 (by simp [e6]))
  rw [if_neg e6]
  have e7 : p = 7 := by
    bv_omega
  refine bind (readLoc _ _) fun _ => bind (guardE _ _) fun _ => bind (gets _) fun _ => bind (liftUB _) fun _ => ?_
  split
  · exact throwE _
  · exact storeQuot (h0 (by simp [e7])) (h2 (by simp [e7]))
theorem imulMulti {l a b} (hf : E.flags = true) (hl : okLoc E 16 l) : Fr E (RME.imulMulti l a b) := by unfold RME.imulMulti; fr
theorem shiftApply {k n l c} (hf : E.flags = true) (hl : okLoc E n l) : Fr E (RME.shiftApply k n l c) := by unfold RME.shiftApply; fr
theorem shxdApply {r a l c} (hf : E.flags = true) (hl : ∀ n, okLoc E n l) : Fr E (RME.shxdApply r a l c) := by unfold RME.shxdApply; fr
theorem movLoc {n a b} (hl : okLoc E n a) : Fr E (RME.movLoc n a b) := by unfold RME.movLoc; fr
theorem moffs : Fr E RME.moffs := by unfold RME.moffs; fr
theorem xchgLoc {n a b} (hl : okLoc E n a) (hl2 : okLoc E n b) : Fr E (RME.xchgLoc n a b) := by unfold RME.xchgLoc; fr
theorem popReg {r} (h4 : E.regs 4 = true) (hr : E.regs r = true) : Fr E (RME.popReg r) := by unfold RME.popReg; fr
theorem pushVal {v} (h4 : E.regs 4 = true) (hm : E.mem = true) : Fr E (RME.pushVal v) := by unfold RME.pushVal; fr
theorem addSP {v} (h4 : E.regs 4 = true) : Fr E (RME.addSP v) := by unfold RME.addSP; fr
theorem enterLoop (h4 : E.regs 4 = true) (h5 : E.regs 5 = true) (hm : E.mem = true) : ∀ n, Fr E (RME.enterLoop n)
  | 0 => pure _
  | n + 1 => by
    have := enterLoop h4 h5 hm n
    unfold RME.enterLoop
    repeat' (first | assumption | frstep)
theorem addIP {v} : Fr E (RME.addIP v) := by unfold RME.addIP; fr
theorem strCount (h : E.norep = true ∨ E.regs 1 = true) : Fr E RME.strCount := by
  rcases h with h | h
  · intro env s hs
    have : s.dec.rep = .none := hs h
    have h2 : RME.strCount env s = .ok false s := by
      simp [RME.strCount, RME.getDec, this]
    rw [h2]
    exact Within.refl E s
  · unfold RME.strCount; fr
theorem strAgain {b} : Fr E (RME.strAgain b) := by unfold RME.strAgain; fr
theorem strLoop {z step mask body} (h : E.norep = true ∨ E.regs 1 = true) (hb : ∀ a b, Fr E (body a b)) :
    ∀ n a b, Fr E (RME.strLoop z step mask body n a b)
  | 0, _, _ => ubE _
  | n + 1, a, b => by
    unfold RME.strLoop
    refine bind (strCount h) fun _ => ?_
    split
    · exact pure _
    · refine bind (hb _ _) fun _ => bind getFlags fun _ => ?_
      dsimp only
      refine bind strAgain fun _ => ?_
      split
      · exact strLoop h hb n _ _
      · exact pure _
theorem strOfs {r} : Fr E (RME.strOfs r) := by unfold RME.strOfs; fr
theorem strPut {u r v} (h : u = true → E.regs r = true) : Fr E (RME.strPut u r v) := by
  unfold RME.strPut
  cases u
  · exact pure _
  · have := h rfl
    fr
theorem clearRep : Fr E RME.clearRep := modDec _ fun _ _ => rfl
theorem stringOp {z di si step body} (h : E.norep = true ∨ E.regs 1 = true) (hd : di = true → E.regs 7 = true) (hs : si = true → E.regs 6 = true)
    (hb : ∀ a b c d, Fr E (body a b c d)) : Fr E (RME.stringOp z di si step body) := by
  unfold RME.stringOp
  refine bind (getSreg _) fun _ => bind (getSegment _) fun _ => bind getDec fun _ => bind strOfs fun _ => bind strOfs fun _ => ?_
  dsimp only
  refine bind (getReg _ _) fun _ => ?_
  split
  · exact clearRep
  · exact bind (strLoop h (fun _ _ => hb _ _ _ _) _ _ _) fun _ => bind (strPut hd) fun _ => bind (strPut hs) fun _ => clearRep
theorem strW {w} {f : Nat → M Unit} (h : ∀ n, Fr E (f n)) : Fr E (RME.strW w f) := by
  unfold RME.strW
  split
  · exact withW h
  · exact h 8
theorem cmpFlags {n} {a b : BitVec n} (h : E.flags = true) : Fr E (RME.cmpFlags a b) := by unfold RME.cmpFlags; fr
theorem unaryIncDec {d n l} (hf : E.flags = true) (hl : okLoc E n l) : Fr E (RME.unaryIncDec d n l) := by
  unfold RME.unaryIncDec
  refine bind ?_ fun _ => ?_
  · split
    · exact decApply hf hl
    · exact incApply hf hl
  · fr
theorem getRegHi {r} : Fr E (RME.getRegHi r) := gets _
theorem setRegHi {r v} (h : E.regs r = true) : Fr E (RME.setRegHi r v) := setGpr _ _ h
end Fr

/-- Destinations of the opcode functions (compared with the specification `dests` in `Verif.Props.Frame`). -/
def Op.dests (a : BitVec 3) : Op → List Dest
  | .alu k form => .flags :: (if k.writes then
      [match form with | .MR => .rm8 | .MRX => .rm | .RM => .reg8 | .RMX => .reg | .AI | .AIX => .gpr 0] else [])
  | .pushSeg | .pushReg | .pushA | .pushF | .pushI | .pushI8 | .callN | .callF => [.mem, .gpr 4]
  | .popSeg | .retN | .retF | .retiN | .retiF => [.gpr 4]
  | .daa | .das | .aaa | .aas | .aad => [.gpr 0, .flags]
  | .aam => [.gpr 0, .flags, .fault]
  | .incReg | .decReg => [.gpr a, .flags]
  | .popReg => [.gpr 4, .gpr a]
  | .xchgReg => if a = 0 then [] else [.gpr 0, .gpr a]
  | .movRegB => [.gpr (a &&& 3)]
  | .movReg => [.gpr a]
  | .popA => [.gpr 0, .gpr 1, .gpr 2, .gpr 3, .gpr 4, .gpr 5, .gpr 6, .gpr 7]
  | .popF | .iret => [.gpr 4, .flags]
  | .popMX => [.rm, .gpr 4]
  | .imulMIX | .imulMI8X | .imulRMX | .bsf => [.reg, .flags]
  | .ins _ | .stos _ => [.mem, .gpr 7, .count]
  | .outs _ => [.gpr 6, .count]
  | .movs _ => [.mem, .gpr 6, .gpr 7, .count]
  | .lods _ => [.gpr 0, .gpr 6, .count]
  | .cmps _ => [.flags, .gpr 6, .gpr 7, .count]
  | .scas _ => [.flags, .gpr 7, .count]
  | .loop _ => [.gpr 1]
  | .arithMI => if a = 7 then [.flags] else [.rm8, .flags]
  | .arithMIX | .arithMI8X => if a = 7 then [.flags] else [.rm, .flags]
  | .miscMI => if a = 0 then [.flags] else if a = 1 then [] else if a = 2 then [.rm8] else if a = 3 then [.rm8, .flags]
      else if a = 4 ∨ a = 5 then [.gpr 0, .flags] else [.gpr 0, .fault]
  | .miscMIX => if a = 0 then [.flags] else if a = 1 then [] else if a = 2 then [.rm] else if a = 3 then [.rm, .flags]
      else if a = 4 ∨ a = 5 then [.gpr 0, .gpr 2, .flags] else [.gpr 0, .gpr 2, .fault]
  | .shiftMI | .shiftM1 | .shiftMCl => [.rm8, .flags]
  | .shiftMI8X | .shiftM1X | .shiftMClX | .btx | .shxdI8 _ | .shxdCl _ => [.rm, .flags]
  | .unaryM => if a = 0 ∨ a = 1 then [.rm8, .flags] else []
  | .unaryMX => if a = 0 ∨ a = 1 then [.rm, .flags] else if a = 2 ∨ a = 3 ∨ a = 6 then [.mem, .gpr 4] else []
  | .testMR | .testMRX | .testAI | .testAIX | .flag _ | .sahf => [.flags]
  | .xchgRM => [.rm8, .reg8]
  | .xchgRMX => [.rm, .reg]
  | .movMR | .movMI => [.rm8]
  | .movMRX | .movMIX | .movRS => [.rm]
  | .movRM => [.reg8]
  | .movRMX | .lea | .lxs _ | .movZ | .movZX => [.reg]
  | .movAMo | .movAMoX | .xlat | .cbw | .lahf | .inAI | .inAIX | .inADx | .inADxX => [.gpr 0]
  | .movMoA | .movMoAX => [.mem]
  | .cwd => [.gpr 2]
  | .enter => [.mem, .gpr 4, .gpr 5]
  | .leave => [.gpr 4, .gpr 5]
  | .int3 | .intI | .into => [.any]
  | _ => []

/-- The opcode function reads a ModR/M byte. -/
def Op.usesM : Op → Bool
  | .alu _ form => match form with | .AI | .AIX => false | _ => true
  | .popMX | .imulMIX | .imulMI8X | .imulRMX | .bsf | .arithMI | .arithMIX | .arithMI8X | .miscMI | .miscMIX | .shiftMI | .shiftMI8X
  | .shiftM1 | .shiftM1X | .shiftMCl | .shiftMClX | .unaryM | .unaryMX | .testMR | .testMRX | .xchgRM | .xchgRMX | .movMR | .movMRX
  | .movRM | .movRMX | .movRS | .movSR | .movMI | .movMIX | .movZ | .movZX | .lea | .lxs _ | .btx | .shxdI8 _ | .shxdCl _ => true
  | _ => false

theorem aluOfNum_writes : ∀ a : BitVec 3, a ≠ 7 → (aluOfNum a).writes = true := by decide
theorem aluOfNum_7 : (aluOfNum 7).writes = false := by decide

namespace Fr
variable {E : Eff}
theorem opPushSeg {p} (h4 : E.regs 4 = true) (hm : E.mem = true) : Fr E (RME.opPushSeg p) := by
  unfold RME.opPushSeg
  repeat' (first | exact Fr.moffs | (refine Fr.addSP ?_; assumption) | (refine Fr.pushVal ?_ ?_ <;> assumption) | (refine Fr.popReg ?_ ?_ <;> assumption) | exact Fr.addIP | (refine Fr.testApply ?_; assumption) | frstep)
theorem opPopSeg {p} (h4 : E.regs 4 = true) : Fr E (RME.opPopSeg p) := by
  unfold RME.opPopSeg
  repeat' (first | exact Fr.moffs | (refine Fr.addSP ?_; assumption) | (refine Fr.pushVal ?_ ?_ <;> assumption) | (refine Fr.popReg ?_ ?_ <;> assumption) | exact Fr.addIP | (refine Fr.testApply ?_; assumption) | frstep)
theorem opDA {b} (h0 : E.regs 0 = true) (hf : E.flags = true) : Fr E (RME.opDA b) := by
  unfold RME.opDA
  repeat' (first | exact Fr.moffs | (refine Fr.addSP ?_; assumption) | (refine Fr.pushVal ?_ ?_ <;> assumption) | (refine Fr.popReg ?_ ?_ <;> assumption) | exact Fr.addIP | (refine Fr.testApply ?_; assumption) | frstep)
theorem opAA {b} (h0 : E.regs 0 = true) (hf : E.flags = true) : Fr E (RME.opAA b) := by
  unfold RME.opAA
  repeat' (first | exact Fr.moffs | (refine Fr.addSP ?_; assumption) | (refine Fr.pushVal ?_ ?_ <;> assumption) | (refine Fr.popReg ?_ ?_ <;> assumption) | exact Fr.addIP | (refine Fr.testApply ?_; assumption) | frstep)
theorem opAam (h0 : E.regs 0 = true) (hf : E.flags = true) : Fr E (RME.opAam) := by
  unfold RME.opAam
  repeat' (first | exact Fr.moffs | (refine Fr.addSP ?_; assumption) | (refine Fr.pushVal ?_ ?_ <;> assumption) | (refine Fr.popReg ?_ ?_ <;> assumption) | exact Fr.addIP | (refine Fr.testApply ?_; assumption) | frstep)
theorem opAad (h0 : E.regs 0 = true) (hf : E.flags = true) : Fr E (RME.opAad) := by
  unfold RME.opAad
  repeat' (first | exact Fr.moffs | (refine Fr.addSP ?_; assumption) | (refine Fr.pushVal ?_ ?_ <;> assumption) | (refine Fr.popReg ?_ ?_ <;> assumption) | exact Fr.addIP | (refine Fr.testApply ?_; assumption) | frstep)
theorem opPushA (h4 : E.regs 4 = true) (hm : E.mem = true) : Fr E (RME.opPushA) := by
  unfold RME.opPushA
  repeat' (first | exact Fr.moffs | (refine Fr.addSP ?_; assumption) | (refine Fr.pushVal ?_ ?_ <;> assumption) | (refine Fr.popReg ?_ ?_ <;> assumption) | exact Fr.addIP | (refine Fr.testApply ?_; assumption) | frstep)
theorem opPushF (h4 : E.regs 4 = true) (hm : E.mem = true) : Fr E (RME.opPushF) := by
  unfold RME.opPushF
  repeat' (first | exact Fr.moffs | (refine Fr.addSP ?_; assumption) | (refine Fr.pushVal ?_ ?_ <;> assumption) | (refine Fr.popReg ?_ ?_ <;> assumption) | exact Fr.addIP | (refine Fr.testApply ?_; assumption) | frstep)
theorem opPopF (h4 : E.regs 4 = true) (hf : E.flags = true) : Fr E (RME.opPopF) := by
  unfold RME.opPopF
  repeat' (first | exact Fr.moffs | (refine Fr.addSP ?_; assumption) | (refine Fr.pushVal ?_ ?_ <;> assumption) | (refine Fr.popReg ?_ ?_ <;> assumption) | exact Fr.addIP | (refine Fr.testApply ?_; assumption) | frstep)
theorem opPushI (h4 : E.regs 4 = true) (hm : E.mem = true) : Fr E (RME.opPushI) := by
  unfold RME.opPushI
  repeat' (first | exact Fr.moffs | (refine Fr.addSP ?_; assumption) | (refine Fr.pushVal ?_ ?_ <;> assumption) | (refine Fr.popReg ?_ ?_ <;> assumption) | exact Fr.addIP | (refine Fr.testApply ?_; assumption) | frstep)
theorem opPushI8 (h4 : E.regs 4 = true) (hm : E.mem = true) : Fr E (RME.opPushI8) := by
  unfold RME.opPushI8
  repeat' (first | exact Fr.moffs | (refine Fr.addSP ?_; assumption) | (refine Fr.pushVal ?_ ?_ <;> assumption) | (refine Fr.popReg ?_ ?_ <;> assumption) | exact Fr.addIP | (refine Fr.testApply ?_; assumption) | frstep)
theorem opJccS {x} : Fr E (RME.opJccS x) := by
  unfold RME.opJccS
  repeat' (first | exact Fr.moffs | (refine Fr.addSP ?_; assumption) | (refine Fr.pushVal ?_ ?_ <;> assumption) | (refine Fr.popReg ?_ ?_ <;> assumption) | exact Fr.addIP | (refine Fr.testApply ?_; assumption) | frstep)
theorem opJccN {x} : Fr E (RME.opJccN x) := by
  unfold RME.opJccN
  repeat' (first | exact Fr.moffs | (refine Fr.addSP ?_; assumption) | (refine Fr.pushVal ?_ ?_ <;> assumption) | (refine Fr.popReg ?_ ?_ <;> assumption) | exact Fr.addIP | (refine Fr.testApply ?_; assumption) | frstep)
theorem opLoop {k} (h1 : E.regs 1 = true) : Fr E (RME.opLoop k) := by
  unfold RME.opLoop
  repeat' (first | exact Fr.moffs | (refine Fr.addSP ?_; assumption) | (refine Fr.pushVal ?_ ?_ <;> assumption) | (refine Fr.popReg ?_ ?_ <;> assumption) | exact Fr.addIP | (refine Fr.testApply ?_; assumption) | frstep)
theorem opJcxz  : Fr E (RME.opJcxz) := by
  unfold RME.opJcxz
  repeat' (first | exact Fr.moffs | (refine Fr.addSP ?_; assumption) | (refine Fr.pushVal ?_ ?_ <;> assumption) | (refine Fr.popReg ?_ ?_ <;> assumption) | exact Fr.addIP | (refine Fr.testApply ?_; assumption) | frstep)
theorem opTestAI (hf : E.flags = true) : Fr E (RME.opTestAI) := by
  unfold RME.opTestAI
  repeat' (first | exact Fr.moffs | (refine Fr.addSP ?_; assumption) | (refine Fr.pushVal ?_ ?_ <;> assumption) | (refine Fr.popReg ?_ ?_ <;> assumption) | exact Fr.addIP | (refine Fr.testApply ?_; assumption) | frstep)
theorem opTestAIX (hf : E.flags = true) : Fr E (RME.opTestAIX) := by
  unfold RME.opTestAIX
  repeat' (first | exact Fr.moffs | (refine Fr.addSP ?_; assumption) | (refine Fr.pushVal ?_ ?_ <;> assumption) | (refine Fr.popReg ?_ ?_ <;> assumption) | exact Fr.addIP | (refine Fr.testApply ?_; assumption) | frstep)
theorem opMovAMo (h0 : E.regs 0 = true) : Fr E (RME.opMovAMo) := by
  unfold RME.opMovAMo
  repeat' (first | exact Fr.moffs | (refine Fr.addSP ?_; assumption) | (refine Fr.pushVal ?_ ?_ <;> assumption) | (refine Fr.popReg ?_ ?_ <;> assumption) | exact Fr.addIP | (refine Fr.testApply ?_; assumption) | frstep)
theorem opMovAMoX (h0 : E.regs 0 = true) : Fr E (RME.opMovAMoX) := by
  unfold RME.opMovAMoX
  repeat' (first | exact Fr.moffs | (refine Fr.addSP ?_; assumption) | (refine Fr.pushVal ?_ ?_ <;> assumption) | (refine Fr.popReg ?_ ?_ <;> assumption) | exact Fr.addIP | (refine Fr.testApply ?_; assumption) | frstep)
theorem opMovMoA (hm : E.mem = true) : Fr E (RME.opMovMoA) := by
  unfold RME.opMovMoA
  repeat' (first | exact Fr.moffs | (refine Fr.addSP ?_; assumption) | (refine Fr.pushVal ?_ ?_ <;> assumption) | (refine Fr.popReg ?_ ?_ <;> assumption) | exact Fr.addIP | (refine Fr.testApply ?_; assumption) | frstep)
theorem opMovMoAX (hm : E.mem = true) : Fr E (RME.opMovMoAX) := by
  unfold RME.opMovMoAX
  repeat' (first | exact Fr.moffs | (refine Fr.addSP ?_; assumption) | (refine Fr.pushVal ?_ ?_ <;> assumption) | (refine Fr.popReg ?_ ?_ <;> assumption) | exact Fr.addIP | (refine Fr.testApply ?_; assumption) | frstep)
theorem opXlat (h0 : E.regs 0 = true) : Fr E (RME.opXlat) := by
  unfold RME.opXlat
  repeat' (first | exact Fr.moffs | (refine Fr.addSP ?_; assumption) | (refine Fr.pushVal ?_ ?_ <;> assumption) | (refine Fr.popReg ?_ ?_ <;> assumption) | exact Fr.addIP | (refine Fr.testApply ?_; assumption) | frstep)
theorem opCbw (h0 : E.regs 0 = true) : Fr E (RME.opCbw) := by
  unfold RME.opCbw
  repeat' (first | exact Fr.moffs | (refine Fr.addSP ?_; assumption) | (refine Fr.pushVal ?_ ?_ <;> assumption) | (refine Fr.popReg ?_ ?_ <;> assumption) | exact Fr.addIP | (refine Fr.testApply ?_; assumption) | frstep)
theorem opCwd (h2 : E.regs 2 = true) : Fr E (RME.opCwd) := by
  unfold RME.opCwd
  repeat' (first | exact Fr.moffs | (refine Fr.addSP ?_; assumption) | (refine Fr.pushVal ?_ ?_ <;> assumption) | (refine Fr.popReg ?_ ?_ <;> assumption) | exact Fr.addIP | (refine Fr.testApply ?_; assumption) | frstep)
theorem opHlt  : Fr E (RME.opHlt) := by
  unfold RME.opHlt
  repeat' (first | exact Fr.moffs | (refine Fr.addSP ?_; assumption) | (refine Fr.pushVal ?_ ?_ <;> assumption) | (refine Fr.popReg ?_ ?_ <;> assumption) | exact Fr.addIP | (refine Fr.testApply ?_; assumption) | frstep)
theorem opCallN (h4 : E.regs 4 = true) (hm : E.mem = true) : Fr E (RME.opCallN) := by
  unfold RME.opCallN
  repeat' (first | exact Fr.moffs | (refine Fr.addSP ?_; assumption) | (refine Fr.pushVal ?_ ?_ <;> assumption) | (refine Fr.popReg ?_ ?_ <;> assumption) | exact Fr.addIP | (refine Fr.testApply ?_; assumption) | frstep)
theorem opCallF (h4 : E.regs 4 = true) (hm : E.mem = true) : Fr E (RME.opCallF) := by
  unfold RME.opCallF
  repeat' (first | exact Fr.moffs | (refine Fr.addSP ?_; assumption) | (refine Fr.pushVal ?_ ?_ <;> assumption) | (refine Fr.popReg ?_ ?_ <;> assumption) | exact Fr.addIP | (refine Fr.testApply ?_; assumption) | frstep)
theorem opRetN (h4 : E.regs 4 = true) : Fr E (RME.opRetN) := by
  unfold RME.opRetN
  repeat' (first | exact Fr.moffs | (refine Fr.addSP ?_; assumption) | (refine Fr.pushVal ?_ ?_ <;> assumption) | (refine Fr.popReg ?_ ?_ <;> assumption) | exact Fr.addIP | (refine Fr.testApply ?_; assumption) | frstep)
theorem opRetF (h4 : E.regs 4 = true) : Fr E (RME.opRetF) := by
  unfold RME.opRetF
  repeat' (first | exact Fr.moffs | (refine Fr.addSP ?_; assumption) | (refine Fr.pushVal ?_ ?_ <;> assumption) | (refine Fr.popReg ?_ ?_ <;> assumption) | exact Fr.addIP | (refine Fr.testApply ?_; assumption) | frstep)
theorem opRetiN (h4 : E.regs 4 = true) : Fr E (RME.opRetiN) := by
  unfold RME.opRetiN
  repeat' (first | exact Fr.moffs | (refine Fr.addSP ?_; assumption) | (refine Fr.pushVal ?_ ?_ <;> assumption) | (refine Fr.popReg ?_ ?_ <;> assumption) | exact Fr.addIP | (refine Fr.testApply ?_; assumption) | frstep)
theorem opRetiF (h4 : E.regs 4 = true) : Fr E (RME.opRetiF) := by
  unfold RME.opRetiF
  repeat' (first | exact Fr.moffs | (refine Fr.addSP ?_; assumption) | (refine Fr.pushVal ?_ ?_ <;> assumption) | (refine Fr.popReg ?_ ?_ <;> assumption) | exact Fr.addIP | (refine Fr.testApply ?_; assumption) | frstep)
theorem opLeave (h4 : E.regs 4 = true) (h5 : E.regs 5 = true) : Fr E (RME.opLeave) := by
  unfold RME.opLeave
  repeat' (first | exact Fr.moffs | (refine Fr.addSP ?_; assumption) | (refine Fr.pushVal ?_ ?_ <;> assumption) | (refine Fr.popReg ?_ ?_ <;> assumption) | exact Fr.addIP | (refine Fr.testApply ?_; assumption) | frstep)
theorem opIret (h4 : E.regs 4 = true) (hf : E.flags = true) : Fr E (RME.opIret) := by
  unfold RME.opIret
  repeat' (first | exact Fr.moffs | (refine Fr.addSP ?_; assumption) | (refine Fr.pushVal ?_ ?_ <;> assumption) | (refine Fr.popReg ?_ ?_ <;> assumption) | exact Fr.addIP | (refine Fr.testApply ?_; assumption) | frstep)
theorem opJmpN  : Fr E (RME.opJmpN) := by
  unfold RME.opJmpN
  repeat' (first | exact Fr.moffs | (refine Fr.addSP ?_; assumption) | (refine Fr.pushVal ?_ ?_ <;> assumption) | (refine Fr.popReg ?_ ?_ <;> assumption) | exact Fr.addIP | (refine Fr.testApply ?_; assumption) | frstep)
theorem opJmpF  : Fr E (RME.opJmpF) := by
  unfold RME.opJmpF
  repeat' (first | exact Fr.moffs | (refine Fr.addSP ?_; assumption) | (refine Fr.pushVal ?_ ?_ <;> assumption) | (refine Fr.popReg ?_ ?_ <;> assumption) | exact Fr.addIP | (refine Fr.testApply ?_; assumption) | frstep)
theorem opJmpS  : Fr E (RME.opJmpS) := by
  unfold RME.opJmpS
  repeat' (first | exact Fr.moffs | (refine Fr.addSP ?_; assumption) | (refine Fr.pushVal ?_ ?_ <;> assumption) | (refine Fr.popReg ?_ ?_ <;> assumption) | exact Fr.addIP | (refine Fr.testApply ?_; assumption) | frstep)
theorem opInAI (h0 : E.regs 0 = true) : Fr E (RME.opInAI) := by
  unfold RME.opInAI
  repeat' (first | exact Fr.moffs | (refine Fr.addSP ?_; assumption) | (refine Fr.pushVal ?_ ?_ <;> assumption) | (refine Fr.popReg ?_ ?_ <;> assumption) | exact Fr.addIP | (refine Fr.testApply ?_; assumption) | frstep)
theorem opInAIX (h0 : E.regs 0 = true) : Fr E (RME.opInAIX) := by
  unfold RME.opInAIX
  repeat' (first | exact Fr.moffs | (refine Fr.addSP ?_; assumption) | (refine Fr.pushVal ?_ ?_ <;> assumption) | (refine Fr.popReg ?_ ?_ <;> assumption) | exact Fr.addIP | (refine Fr.testApply ?_; assumption) | frstep)
theorem opInADx (h0 : E.regs 0 = true) : Fr E (RME.opInADx) := by
  unfold RME.opInADx
  repeat' (first | exact Fr.moffs | (refine Fr.addSP ?_; assumption) | (refine Fr.pushVal ?_ ?_ <;> assumption) | (refine Fr.popReg ?_ ?_ <;> assumption) | exact Fr.addIP | (refine Fr.testApply ?_; assumption) | frstep)
theorem opInADxX (h0 : E.regs 0 = true) : Fr E (RME.opInADxX) := by
  unfold RME.opInADxX
  repeat' (first | exact Fr.moffs | (refine Fr.addSP ?_; assumption) | (refine Fr.pushVal ?_ ?_ <;> assumption) | (refine Fr.popReg ?_ ?_ <;> assumption) | exact Fr.addIP | (refine Fr.testApply ?_; assumption) | frstep)
theorem opOutAI  : Fr E (RME.opOutAI) := by
  unfold RME.opOutAI
  repeat' (first | exact Fr.moffs | (refine Fr.addSP ?_; assumption) | (refine Fr.pushVal ?_ ?_ <;> assumption) | (refine Fr.popReg ?_ ?_ <;> assumption) | exact Fr.addIP | (refine Fr.testApply ?_; assumption) | frstep)
theorem opOutAIX  : Fr E (RME.opOutAIX) := by
  unfold RME.opOutAIX
  repeat' (first | exact Fr.moffs | (refine Fr.addSP ?_; assumption) | (refine Fr.pushVal ?_ ?_ <;> assumption) | (refine Fr.popReg ?_ ?_ <;> assumption) | exact Fr.addIP | (refine Fr.testApply ?_; assumption) | frstep)
theorem opOutDxA  : Fr E (RME.opOutDxA) := by
  unfold RME.opOutDxA
  repeat' (first | exact Fr.moffs | (refine Fr.addSP ?_; assumption) | (refine Fr.pushVal ?_ ?_ <;> assumption) | (refine Fr.popReg ?_ ?_ <;> assumption) | exact Fr.addIP | (refine Fr.testApply ?_; assumption) | frstep)
theorem opOutDxAX  : Fr E (RME.opOutDxAX) := by
  unfold RME.opOutDxAX
  repeat' (first | exact Fr.moffs | (refine Fr.addSP ?_; assumption) | (refine Fr.pushVal ?_ ?_ <;> assumption) | (refine Fr.popReg ?_ ?_ <;> assumption) | exact Fr.addIP | (refine Fr.testApply ?_; assumption) | frstep)
theorem opFlag {k} (hf : E.flags = true) : Fr E (RME.opFlag k) := by
  unfold RME.opFlag
  repeat' (first | exact Fr.moffs | (refine Fr.addSP ?_; assumption) | (refine Fr.pushVal ?_ ?_ <;> assumption) | (refine Fr.popReg ?_ ?_ <;> assumption) | exact Fr.addIP | (refine Fr.testApply ?_; assumption) | frstep)
theorem opSahf (hf : E.flags = true) : Fr E (RME.opSahf) := by
  unfold RME.opSahf
  repeat' (first | exact Fr.moffs | (refine Fr.addSP ?_; assumption) | (refine Fr.pushVal ?_ ?_ <;> assumption) | (refine Fr.popReg ?_ ?_ <;> assumption) | exact Fr.addIP | (refine Fr.testApply ?_; assumption) | frstep)
theorem opLahf (h0 : E.regs 0 = true) : Fr E (RME.opLahf) := by
  unfold RME.opLahf
  repeat' (first | exact Fr.moffs | (refine Fr.addSP ?_; assumption) | (refine Fr.pushVal ?_ ?_ <;> assumption) | (refine Fr.popReg ?_ ?_ <;> assumption) | exact Fr.addIP | (refine Fr.testApply ?_; assumption) | frstep)
end Fr

set_option maxHeartbeats 1000000 in
/-- plain functions: destinations do not depend on a ModR/M byte -/
theorem op_frame_plain {E : Eff} {o : Op} {a : BitVec 3} (hp : o.isPrefix = false) (hm : o.usesM = false) (h : ∀ d ∈ o.dests a, E.Cov 0 d) :
    Fr E (opFn o a) := by
  cases o <;> first | (cases hp; done) | (cases hm; done) | skip
  case alu k form =>
    cases form <;> first | (cases hm; done) | skip
    all_goals
      simp only [Op.dests, List.mem_cons, forall_eq_or_imp] at h
      have hf : E.flags = true := h.1
      have h0 : k.writes = true → E.regs 0 = true := fun hk => by
        rw [if_pos hk] at h; exact h.2 _ (List.mem_singleton_self _)
      dsimp only [opFn, opAlu]
    · exact Fr.bind (Fr.readInstr _) fun _ => Fr.aluApply hf fun h => Fr.okReg (h0 h)
    · exact Fr.withW fun n => Fr.bind (Fr.readInstr _) fun _ => Fr.aluApply hf fun h => Fr.okReg (h0 h)
  case xchgReg =>
    dsimp only [opFn, opXchgReg]
    split
    · exact Fr.pure _
    · rename_i ha
      simp only [Op.dests, if_neg ha, List.mem_cons, forall_eq_or_imp, List.not_mem_nil, false_implies, implies_true, and_true, Eff.Cov] at h
      exact Fr.withW fun n => Fr.xchgLoc (Fr.okReg h.1) (Fr.okRegW h.2)
  case int3 => simp [Op.dests, Eff.Cov] at h; exact Fr.any h.1 h.2.1 h.2.2.1 h.2.2.2
  case intI => simp [Op.dests, Eff.Cov] at h; exact Fr.any h.1 h.2.1 h.2.2.1 h.2.2.2
  case into => simp [Op.dests, Eff.Cov] at h; exact Fr.any h.1 h.2.1 h.2.2.1 h.2.2.2
  case movRegB =>
    simp [Op.dests, Eff.Cov] at h
    dsimp only [opFn, opMovRegB]; exact Fr.bind (Fr.readInstr _) fun _ => Fr.writeLoc _ _ _ (Fr.okRegB h)
  case movReg =>
    simp [Op.dests, Eff.Cov] at h
    dsimp only [opFn, opMovReg]; exact Fr.withW fun n => Fr.bind (Fr.readInstr _) fun _ => Fr.writeLoc _ _ _ (Fr.okRegW h)
  case incReg => simp [Op.dests, Eff.Cov] at h; dsimp only [opFn, opIncReg]; exact Fr.withW fun n => Fr.incApply h.2 (Fr.okRegW h.1)
  case decReg => simp [Op.dests, Eff.Cov] at h; dsimp only [opFn, opDecReg]; exact Fr.withW fun n => Fr.decApply h.2 (Fr.okRegW h.1)
  all_goals (simp only [Op.dests, List.mem_cons, forall_eq_or_imp, List.not_mem_nil, false_implies, implies_true, and_true, Eff.Cov] at h)
  case ins w =>
    dsimp only [opFn, opIns]
    exact Fr.strW fun n => Fr.stringOp h.2.2 (fun _ => h.2.1) (fun h => by cases h) fun _ _ _ _ =>
      Fr.bind (Fr.getReg _ _) fun _ => Fr.bind (Fr.portIn _ _) fun _ => Fr.writeMem _ _ _ _ h.1
  case outs w =>
    dsimp only [opFn, opOuts]
    exact Fr.strW fun n => Fr.stringOp h.2 (fun h => by cases h) (fun _ => h.1) fun _ _ _ _ =>
      Fr.bind (Fr.readMem _ _ _) fun _ => Fr.bind (Fr.getReg _ _) fun _ => Fr.portOut _ _ _
  case movs w =>
    dsimp only [opFn, opMovs]
    exact Fr.strW fun n => Fr.stringOp h.2.2.2 (fun _ => h.2.2.1) (fun _ => h.2.1) fun _ _ _ _ =>
      Fr.bind (Fr.readMem _ _ _) fun _ => Fr.writeMem _ _ _ _ h.1
  case stos w =>
    dsimp only [opFn, opStos]
    exact Fr.strW fun n => Fr.stringOp h.2.2 (fun _ => h.2.1) (fun h => by cases h) fun _ _ _ _ =>
      Fr.bind (Fr.getReg _ _) fun _ => Fr.writeMem _ _ _ _ h.1
  case lods w =>
    dsimp only [opFn, opLods]
    exact Fr.strW fun n => Fr.stringOp h.2.2 (fun h => by cases h) (fun _ => h.2.1) fun _ _ _ _ =>
      Fr.bind (Fr.readMem _ _ _) fun _ => Fr.setReg _ _ _ h.1
  case cmps w =>
    dsimp only [opFn, opCmps]
    exact Fr.strW fun n => Fr.stringOp h.2.2.2 (fun _ => h.2.2.1) (fun _ => h.2.1) fun _ _ _ _ =>
      Fr.bind (Fr.readMem _ _ _) fun _ => Fr.bind (Fr.readMem _ _ _) fun _ => Fr.cmpFlags h.1
  case scas w =>
    dsimp only [opFn, opScas]
    exact Fr.strW fun n => Fr.stringOp h.2.2 (fun _ => h.2.1) (fun h => by cases h) fun _ _ _ _ =>
      Fr.bind (Fr.readMem _ _ _) fun _ => Fr.bind (Fr.getReg _ _) fun _ => Fr.cmpFlags h.1
  case enter =>
    obtain ⟨hm, h4, h5⟩ := h
    have := Fr.enterLoop h4 h5 hm
    dsimp only [opFn, opEnter]
    repeat' (first | (with_reducible exact this _) | frstep)
  case popA =>
    obtain ⟨h0, h1, h2, h3, h4, h5, h6, h7⟩ := h
    dsimp only [opFn, opPopA, RME.popReg]
    fr
  case popReg =>
    obtain ⟨h4, ha⟩ := h
    dsimp only [opFn, opPopReg]
    repeat' (first | (with_reducible exact Fr.setRegHi ha) | frstep)
  case pushReg =>
    obtain ⟨h4, ha⟩ := h
    dsimp only [opFn, opPushReg, RME.getRegHi]
    fr
  all_goals try (obtain ⟨h1, h2, h3⟩ := h)
  all_goals try (obtain ⟨h1, h2⟩ := h)
  all_goals (dsimp only [opFn]; with_reducible first
    | (exact Fr.opPushSeg (by assumption) (by assumption))
    | (exact Fr.opPopSeg (by assumption))
    | (exact Fr.opDA (by assumption) (by assumption))
    | (exact Fr.opAA (by assumption) (by assumption))
    | (exact Fr.opAam (by assumption) (by assumption))
    | (exact Fr.opAad (by assumption) (by assumption))
    | (exact Fr.opPushA (by assumption) (by assumption))
    | (exact Fr.opPushF (by assumption) (by assumption))
    | (exact Fr.opPopF (by assumption) (by assumption))
    | (exact Fr.opPushI (by assumption) (by assumption))
    | (exact Fr.opPushI8 (by assumption) (by assumption))
    | (exact Fr.opJccS)
    | (exact Fr.opJccN)
    | (exact Fr.opLoop (by assumption))
    | (exact Fr.opJcxz)
    | (exact Fr.opTestAI (by assumption))
    | (exact Fr.opTestAIX (by assumption))
    | (exact Fr.opMovAMo (by assumption))
    | (exact Fr.opMovAMoX (by assumption))
    | (exact Fr.opMovMoA (by assumption))
    | (exact Fr.opMovMoAX (by assumption))
    | (exact Fr.opXlat (by assumption))
    | (exact Fr.opCbw (by assumption))
    | (exact Fr.opCwd (by assumption))
    | (exact Fr.opHlt)
    | (exact Fr.opCallN (by assumption) (by assumption))
    | (exact Fr.opCallF (by assumption) (by assumption))
    | (exact Fr.opRetN (by assumption))
    | (exact Fr.opRetF (by assumption))
    | (exact Fr.opRetiN (by assumption))
    | (exact Fr.opRetiF (by assumption))
    | (exact Fr.opLeave (by assumption) (by assumption))
    | (exact Fr.opIret (by assumption) (by assumption))
    | (exact Fr.opJmpN)
    | (exact Fr.opJmpF)
    | (exact Fr.opJmpS)
    | (exact Fr.opInAI (by assumption))
    | (exact Fr.opInAIX (by assumption))
    | (exact Fr.opInADx (by assumption))
    | (exact Fr.opInADxX (by assumption))
    | (exact Fr.opOutAI)
    | (exact Fr.opOutAIX)
    | (exact Fr.opOutDxA)
    | (exact Fr.opOutDxAX)
    | (exact Fr.opFlag (by assumption))
    | (exact Fr.opSahf (by assumption))
    | (exact Fr.opLahf (by assumption)))

theorem regs_of_imm {E : Eff} {b : BitVec 8} {k : AluOp} {d : Dest} {l : List Dest} (h : ∀ x ∈ (.flags :: if k.writes then [d] else l), E.Cov b x) :
    E.flags = true ∧ (k.writes = true → E.Cov b d) := by
  refine ⟨h _ List.mem_cons_self, fun hk => ?_⟩
  rw [if_pos hk] at h
  exact h _ (List.mem_cons_of_mem _ (List.mem_singleton_self _))

theorem arith_cov {E : Eff} {b : BitVec 8} {a : BitVec 3} {d : Dest} (h : ∀ x ∈ (if a = 7 then [Dest.flags] else [d, .flags]), E.Cov b x) :
    E.flags = true ∧ ((aluOfNum a).writes = true → E.Cov b d) := by
  by_cases ha : a = 7
  · subst ha
    exact ⟨h .flags (by simp), fun h => absurd (aluOfNum_7.symm.trans h) (by decide)⟩
  · rw [if_neg ha] at h
    exact ⟨h .flags (by simp), fun _ => h d (by simp)⟩

theorem misc_cov {E : Eff} {b : BitVec 8} {a : BitVec 3} {d : Dest} {l : List Dest}
    (h : ∀ x ∈ (if a = 0 then [Dest.flags] else if a = 1 then [] else if a = 2 then [d] else if a = 3 then [d, .flags]
      else if a = 4 ∨ a = 5 then .gpr 0 :: l ++ [.flags] else .gpr 0 :: l ++ [.fault]), E.Cov b x) :
    (a = 0 ∨ a = 3 ∨ a = 4 ∨ a = 5 → E.flags = true) ∧ (a = 2 ∨ a = 3 → E.Cov b d) ∧
    (a = 4 ∨ a = 5 ∨ a = 6 ∨ a = 7 → E.regs 0 = true ∧ ∀ x ∈ l, E.Cov b x) := by
  refine ⟨?_, ?_, ?_⟩
  · rintro (rfl | rfl | rfl | rfl) <;> exact h .flags (by simp)
  · rintro (rfl | rfl) <;> exact h d (by simp)
  · rintro (rfl | rfl | rfl | rfl) <;> exact ⟨h (.gpr 0) (by simp), fun x hx => h x (by simp [hx])⟩

set_option maxHeartbeats 1000000 in
/-- Every opcode function changes only its destinations. -/
theorem op_frame {E : Eff} {o : Op} {a : BitVec 3} (hp : o.isPrefix = false) {env : Env} {s : State} (hs : E.pre s)
    (h0 : o.usesM = false → ∀ d ∈ o.dests a, E.Cov 0 d)
    (h : o.usesM = true → ∀ b, modByte env s = some b → ∀ d ∈ o.dests a, E.Cov b d)
    (hx : (o.isShxd = true → ∀ b, modByte env s = some b → ¬ (modOf b = 3 ∧ 4 ≤ (rmOf b).toNat)) ∨ ∀ r, E.regs r = true) :
    Fr.At E env s (opFn o a) := by
  cases hm : o.usesM
  · exact Fr.atFr (op_frame_plain hp hm (h0 hm)) hs
  replace h := h hm
  cases o <;> first | (cases hp; done) | (cases hm; done) | skip
  case alu k form =>
    cases form <;> first | (cases hm; done) | skip
    all_goals dsimp only [opFn, opAlu]
    · exact Fr.atRM hs fun b l hb hl => Fr.bind (Fr.readLoc _ _) fun _ => Fr.aluApply (regs_of_imm (h b hb)).1 fun hk => Fr.okRM8 ((regs_of_imm (h b hb)).2 hk) hl
    · exact Fr.atRMX hs fun b l hb hl => Fr.withW fun n => Fr.bind (Fr.readLoc _ _) fun _ => Fr.aluApply (regs_of_imm (h b hb)).1 fun hk => Fr.okRMX _ ((regs_of_imm (h b hb)).2 hk) hl
    · exact Fr.atRM hs fun b l hb hl => Fr.bind (Fr.readLoc _ _) fun _ => Fr.aluApply (regs_of_imm (h b hb)).1 fun hk => Fr.okRegB ((regs_of_imm (h b hb)).2 hk)
    · exact Fr.atRMX hs fun b l hb hl => Fr.withW fun n => Fr.bind (Fr.readLoc _ _) fun _ => Fr.aluApply (regs_of_imm (h b hb)).1 fun hk => Fr.okRegW ((regs_of_imm (h b hb)).2 hk)
  case arithMI =>
    dsimp only [opFn, opArithMI]
    exact Fr.atRM hs fun b l hb hl => Fr.bind (Fr.readInstr _) fun _ => Fr.aluApply (arith_cov (h b hb)).1 fun hk => Fr.okRM8 ((arith_cov (h b hb)).2 hk) hl
  case arithMIX =>
    dsimp only [opFn, opArithMIX]
    exact Fr.atRMX hs fun b l hb hl => Fr.bind (Fr.clearOZSP (arith_cov (h b hb)).1) fun _ => Fr.withW fun n => Fr.bind (Fr.readInstr _) fun _ =>
      Fr.aluApply (arith_cov (h b hb)).1 fun hk => Fr.okRMX _ ((arith_cov (h b hb)).2 hk) hl
  case arithMI8X =>
    dsimp only [opFn, opArithMI8X]
    exact Fr.atRMX hs fun b l hb hl => Fr.bind (Fr.clearOZSP (arith_cov (h b hb)).1) fun _ => Fr.withW fun n => Fr.bind (Fr.readInstr8S _) fun _ =>
      Fr.aluApply (arith_cov (h b hb)).1 fun hk => Fr.okRMX _ ((arith_cov (h b hb)).2 hk) hl
  case miscMI =>
    dsimp only [opFn, opMiscMI]
    refine Fr.atRM hs fun b l hb hl => ?_
    have h := misc_cov (l := []) (h b hb)
    exact Fr.miscOp h.1 (fun ha => Fr.okRM8 (h.2.1 ha) hl) (fun ha => (h.2.2 ha).1) fun _ h => absurd rfl h
  case miscMIX =>
    dsimp only [opFn, opMiscMIX]
    refine Fr.atRMX hs fun b l hb hl => Fr.withW fun n => ?_
    have h := misc_cov (l := [.gpr 2]) (h b hb)
    exact Fr.miscOp h.1 (fun ha => Fr.okRMX _ (h.2.1 ha) hl) (fun ha => (h.2.2 ha).1) fun ha _ => (h.2.2 ha).2 (.gpr 2) (by simp)
  case unaryM =>
    dsimp only [opFn, opUnaryM]
    split
    · rename_i ha; subst ha
      exact Fr.atRM hs fun b l hb hl => Fr.incApply (h b hb .flags (by simp [Op.dests])) (Fr.okRM8 (h b hb .rm8 (by simp [Op.dests])) hl)
    split
    · rename_i ha; subst ha
      exact Fr.atRM hs fun b l hb hl => Fr.decApply (h b hb .flags (by simp [Op.dests])) (Fr.okRM8 (h b hb .rm8 (by simp [Op.dests])) hl)
    · exact Fr.atFr (Fr.throwE _) hs
  case unaryMX =>
    dsimp only [opFn, opUnaryMX]
    refine Fr.atDec ?_
    have hid : ∀ d n, (a = 0 ∨ a = 1) → Fr.At E env s (parseModRMX >>= fun x => unaryIncDec d n x.2) := by
      rintro d n ha
      refine Fr.atRMX hs fun b l hb hl => Fr.unaryIncDec (h b hb .flags ?_) (Fr.okRMX _ (h b hb .rm ?_) hl) <;>
        rcases ha with rfl | rfl <;> simp [Op.dests]
    have hst : ∀ b, modByte env s = some b → (a = 2 ∨ a = 3 ∨ a = 6) → E.mem = true ∧ E.regs 4 = true := by
      rintro b hb ha
      refine ⟨h b hb .mem ?_, h b hb (.gpr 4) ?_⟩ <;> rcases ha with rfl | rfl | rfl <;> simp [Op.dests]
    have far : ∀ {f : BitVec 16 × BitVec 16 → M Unit}, (∀ b x, modByte env s = some b → Fr E (f x)) → Fr.At E env s (parseFarPtr >>= f) := by
      intro f hf
      have : (RME.parseFarPtr >>= f) = (RME.getModRM >>= fun m => (do
          guardE (m.mod == 3) .undefOpcode
          let (seg, ofs) ← getMMM m
          let ip ← readMem 16 seg (ofs.setWidth 16)
          let cs ← readMem 16 seg ((ofs + 2).setWidth 16)
          pure (cs, ip)) >>= f) := Fr.bind_assoc3 _ _ _
      rw [this]
      exact Fr.atGetModRM hs fun b hb => Fr.bind (Fr.bind (Fr.guardE _ _) fun _ => Fr.bind (Fr.getMMM _) fun _ => Fr.bind (Fr.readMem _ _ _) fun _ => Fr.bind (Fr.readMem _ _ _) fun _ => Fr.pure _) fun x => hf b x hb
    split
    · split
      · rename_i ha; exact hid _ _ (Or.inl ha)
      split
      · rename_i ha; exact hid _ _ (Or.inr ha)
      split
      · rename_i ha
        exact Fr.atRMX hs fun b l hb hl => Fr.pushM (Fr.bind (Fr.readLoc _ _) fun _ => Fr.pure _) (hst b hb (by simp [ha])).2 (hst b hb (by simp [ha])).1
      · exact Fr.atFr (Fr.throwE _) hs
    · split
      · rename_i ha; exact hid _ _ (Or.inl ha)
      split
      · rename_i ha; exact hid _ _ (Or.inr ha)
      split
      · rename_i ha
        exact Fr.atRMX hs fun b l hb hl => Fr.bind (Fr.pushM Fr.nextIP (hst b hb (by simp [ha])).2 (hst b hb (by simp [ha])).1) fun _ =>
          Fr.bind (Fr.readLoc _ _) fun _ => Fr.bind (Fr.setIP _) fun _ => Fr.setDontChangeIP
      split
      · rename_i ha
        exact far fun b x hb => Fr.bind (Fr.pushM (Fr.getSreg _) (hst b hb (by simp [ha])).2 (hst b hb (by simp [ha])).1) fun _ =>
          Fr.bind (Fr.pushM Fr.nextIP (hst b hb (by simp [ha])).2 (hst b hb (by simp [ha])).1) fun _ =>
          Fr.bind (Fr.setIP _) fun _ => Fr.bind (Fr.setSreg _ _) fun _ => Fr.setDontChangeIP
      split
      · exact Fr.atRMX hs fun b l hb hl => Fr.bind (Fr.readLoc _ _) fun _ => Fr.bind (Fr.setIP _) fun _ => Fr.setDontChangeIP
      split
      · exact far fun b x hb => Fr.bind (Fr.setIP _) fun _ => Fr.bind (Fr.setSreg _ _) fun _ => Fr.setDontChangeIP
      split
      · rename_i ha
        exact Fr.atRMX hs fun b l hb hl => Fr.pushM (Fr.readLoc _ _) (hst b hb (by simp [ha])).2 (hst b hb (by simp [ha])).1
      · exact Fr.atFr (Fr.throwE _) hs
  all_goals (simp only [Op.dests, List.mem_cons, forall_eq_or_imp, List.not_mem_nil, false_implies, implies_true, and_true] at h)
  case popMX =>
    dsimp only [opFn, opPopMX]
    exact Fr.atDec (Fr.atGuard (Fr.atRMX hs fun b l hb hl => Fr.bind (Fr.pop (h b hb).2) fun _ => Fr.writeLoc _ _ _ (Fr.okRMX _ (h b hb).1 hl)))
  case imulMIX =>
    dsimp only [opFn, opImulMIX]
    exact Fr.atDec (Fr.atGuard (Fr.atRMX hs fun b l hb hl => Fr.bind (Fr.readInstr _) fun _ => Fr.bind (Fr.readLoc _ _) fun _ => Fr.imulMulti (h b hb).2 (Fr.okRegW (h b hb).1)))
  case imulMI8X =>
    dsimp only [opFn, opImulMI8X]
    exact Fr.atDec (Fr.atGuard (Fr.atRMX hs fun b l hb hl => Fr.bind (Fr.readInstr8S _) fun _ => Fr.bind (Fr.readLoc _ _) fun _ => Fr.imulMulti (h b hb).2 (Fr.okRegW (h b hb).1)))
  case imulRMX =>
    dsimp only [opFn, opImulRMX]
    exact Fr.atDec (Fr.atGuard (Fr.atRMX hs fun b l hb hl => Fr.bind (Fr.readLoc _ _) fun _ => Fr.bind (Fr.readLoc _ _) fun _ => Fr.imulMulti (h b hb).2 (Fr.okRegW (h b hb).1)))
  case shiftMI =>
    dsimp only [opFn, opShiftMI]
    exact Fr.atRM hs fun b l hb hl => Fr.bind (Fr.readInstr _) fun _ => Fr.shiftApply (h b hb).2 (Fr.okRM8 (h b hb).1 hl)
  case shiftMI8X =>
    dsimp only [opFn, opShiftMI8X]
    exact Fr.atRMX hs fun b l hb hl => Fr.bind (Fr.readInstr _) fun _ => Fr.withW fun n => Fr.shiftApply (h b hb).2 (Fr.okRMX _ (h b hb).1 hl)
  case shiftM1 =>
    dsimp only [opFn, opShiftM1]
    exact Fr.atRM hs fun b l hb hl => Fr.shiftApply (h b hb).2 (Fr.okRM8 (h b hb).1 hl)
  case shiftM1X =>
    dsimp only [opFn, opShiftM1X]
    exact Fr.atRMX hs fun b l hb hl => Fr.withW fun n => Fr.shiftApply (h b hb).2 (Fr.okRMX _ (h b hb).1 hl)
  case shiftMCl =>
    dsimp only [opFn, opShiftMCl]
    exact Fr.atReg (Fr.atRM hs fun b l hb hl => Fr.shiftApply (h b hb).2 (Fr.okRM8 (h b hb).1 hl))
  case shiftMClX =>
    dsimp only [opFn, opShiftMClX]
    exact Fr.atReg (Fr.atRMX hs fun b l hb hl => Fr.withW fun n => Fr.shiftApply (h b hb).2 (Fr.okRMX _ (h b hb).1 hl))
  case testMR =>
    dsimp only [opFn, opTestMR]
    exact Fr.atRM hs fun b l hb hl => Fr.bind (Fr.readLoc _ _) fun _ => Fr.testApply (h b hb)
  case testMRX =>
    dsimp only [opFn, opTestMRX]
    exact Fr.atRMX hs fun b l hb hl => Fr.withW fun n => Fr.bind (Fr.readLoc _ _) fun _ => Fr.testApply (h b hb)
  case xchgRM =>
    dsimp only [opFn, opXchgRM]
    exact Fr.atRM hs fun b l hb hl => Fr.xchgLoc (Fr.okRegB (h b hb).2) (Fr.okRM8 (h b hb).1 hl)
  case xchgRMX =>
    dsimp only [opFn, opXchgRMX]
    exact Fr.atRMX hs fun b l hb hl => Fr.withW fun n => Fr.xchgLoc (Fr.okRegW (h b hb).2) (Fr.okRMX _ (h b hb).1 hl)
  case movMR =>
    dsimp only [opFn, opMovMR]
    exact Fr.atRM hs fun b l hb hl => Fr.movLoc (Fr.okRM8 (h b hb) hl)
  case movMRX =>
    dsimp only [opFn, opMovMRX]
    exact Fr.atRMX hs fun b l hb hl => Fr.withW fun n => Fr.movLoc (Fr.okRMX _ (h b hb) hl)
  case movRM =>
    dsimp only [opFn, opMovRM]
    exact Fr.atRM hs fun b l hb hl => Fr.movLoc (Fr.okRegB (h b hb))
  case movRMX =>
    dsimp only [opFn, opMovRMX]
    exact Fr.atRMX hs fun b l hb hl => Fr.withW fun n => Fr.movLoc (Fr.okRegW (h b hb))
  case movRS =>
    dsimp only [opFn, opMovRS]
    exact Fr.atDec (Fr.atGuard (Fr.atPeek fun _ _ => Fr.atRMX hs fun b l hb hl => Fr.bind (Fr.segOf _) fun _ => Fr.bind (Fr.getSreg _) fun _ =>
      Fr.writeLoc _ _ _ (Fr.okRMX _ (h b hb) hl)))
  case movSR =>
    dsimp only [opFn, opMovSR]
    refine Fr.atFr (Fr.bind Fr.getDec fun _ => Fr.bind (Fr.guardE _ _) fun _ => Fr.bind ?_ fun _ => Fr.bind (Fr.segOf _) fun _ => Fr.bind ?_ fun _ => Fr.bind (Fr.readLoc _ _) fun _ => Fr.setSreg _ _) hs
    · exact Fr.bind (Fr.readInstr _) fun _ => Fr.bind (Fr.modDec _ fun _ h => h) fun _ => Fr.pure _
    · exact Fr.bind Fr.getModRM fun _ => Fr.bind (Fr.decodeModMX _) fun _ => Fr.pure _
  case movMI =>
    dsimp only [opFn, opMovMI]
    exact Fr.atRM hs fun b l hb hl => Fr.bind (Fr.readInstr _) fun _ => Fr.writeLoc _ _ _ (Fr.okRM8 (h b hb) hl)
  case movMIX =>
    dsimp only [opFn, opMovMIX]
    exact Fr.atRMX hs fun b l hb hl => Fr.withW fun n => Fr.bind (Fr.readInstr _) fun _ => Fr.writeLoc _ _ _ (Fr.okRMX _ (h b hb) hl)
  case movZ =>
    dsimp only [opFn, opMovZ]
    exact Fr.atGetModRM hs fun b hb => Fr.bind (Fr.decodeModM _) fun _ => Fr.withW fun n => Fr.bind (Fr.readLoc _ _) fun _ =>
      Fr.writeLoc _ _ _ (Fr.okRegW (by rw [ofByteF_reg]; exact h b hb))
  case movZX =>
    dsimp only [opFn, opMovZX]
    exact Fr.atGetModRM hs fun b hb => Fr.bind (Fr.decodeModMX _) fun _ => Fr.withW fun n => Fr.bind (Fr.readLoc _ _) fun _ =>
      Fr.writeLoc _ _ _ (Fr.okRegW (by rw [ofByteF_reg]; exact h b hb))
  case lea =>
    dsimp only [opFn, opLea]
    exact Fr.atGetModRM hs fun b hb => Fr.bind (Fr.guardE _ _) fun _ => Fr.bind (Fr.getMMM _) fun _ => Fr.withW fun n =>
      Fr.writeLoc _ _ _ (Fr.okRegW (by rw [ofByteF_reg]; exact h b hb))
  case lxs =>
    dsimp only [opFn, opLxs]
    exact Fr.atUnchecked hs fun b hb => Fr.bind (Fr.guardE _ _) fun _ => Fr.bind (Fr.getMMM _) fun _ => Fr.withW fun n => Fr.bind (Fr.readMem _ _ _) fun _ =>
      Fr.bind (Fr.writeLoc _ _ _ (Fr.okRegW (by rw [ofByteF_reg]; exact h b hb))) fun _ => Fr.bind (Fr.readMem _ _ _) fun _ => Fr.setSreg _ _
  case bsf =>
    dsimp only [opFn, opBsf]
    refine Fr.atRMX hs fun b l hb hl => Fr.bind (Fr.readLoc _ _) fun _ => Fr.bind Fr.getFlags fun _ => ?_
    split
    · exact Fr.setFlags _ (h b hb).2
    · exact Fr.bind (Fr.writeLoc _ _ _ (Fr.okRegW (h b hb).1)) fun _ => Fr.setFlags _ (h b hb).2
  case btx =>
    dsimp only [opFn, opBtx]
    split
    · exact Fr.atFr (Fr.throwE _) hs
    · refine Fr.atRMX hs fun b l hb hl => Fr.bind (Fr.readInstr _) fun _ => Fr.withW fun n => Fr.bind (Fr.readLoc _ _) fun _ => ?_
      have hl := Fr.okRMX n (h b hb).1 hl
      have hf : E.flags = true := (h b hb).2
      fr
  case shxdI8 =>
    dsimp only [opFn, opShxdI8]
    exact Fr.atRM hs fun b l hb hl => Fr.bind (Fr.readInstr _) fun _ => Fr.shxdApply (h b hb).2 fun n => Fr.okRM8X n (h b hb).1 hl (hx.imp (fun hx => hx rfl b hb) id)
  case shxdCl =>
    dsimp only [opFn, opShxdCl]
    exact Fr.atRM hs fun b l hb hl => Fr.bind (Fr.getReg _ _) fun _ => Fr.shxdApply (h b hb).2 fun n => Fr.okRM8X n (h b hb).1 hl (hx.imp (fun hx => hx rfl b hb) id)

end RME
