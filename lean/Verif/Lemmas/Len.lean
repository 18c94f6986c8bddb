import Verif.Lemmas.Ready
import Verif.Lemmas.Operand
import Verif.Spec.Length
set_option autoImplicit false
/-
How many bytes the opcode functions consume.
-/
namespace RME

/-- No instruction byte is consumed. -/
def Nf {α : Type} (m : M α) : Prop := ∀ env t a t', m env t = .ok a t' → t'.dec.ipOffset = t.dec.ipOffset

namespace Nf
variable {α β : Type}
theorem bind {m : M α} {f : α → M β} (hm : Nf m) (hf : ∀ a, Nf (f a)) : Nf (m >>= f) := by
  intro env t b t' h
  simp only [bind_apply] at h
  cases h1 : m env t with
  | ok a u => rw [h1] at h; exact (hf a env u b t' h).trans (hm env t a u h1)
  | err e u => rw [h1] at h; cases h
  | ub u => rw [h1] at h; cases h
theorem pure (a : α) : Nf (Pure.pure a) := by intro env t b t' h; cases h; rfl
theorem gets (f : State → α) : Nf (RME.gets f) := by intro env t b t' h; cases h; rfl
theorem throw (e : Err) : Nf (throwE e : M α) := by intro env t b t' h; cases h
theorem ubx (u : UB) : Nf (ubE u : M α) := by intro env t b t' h; cases h
theorem guard (c : Bool) (e : Err) : Nf (guardE c e) := by cases c <;> (intro env t b t' h; cases h; try rfl)
theorem lift (x : Except UB α) : Nf (liftUB x) := by cases x <;> (intro env t b t' h; cases h; try rfl)
theorem getReg (n r) : Nf (RME.getReg n r) := gets _
theorem setReg (n r v) : Nf (RME.setReg n r v) := by intro env t b t' h; cases h; rfl
theorem setRegH (n r v) : Nf (RME.modify (·.setRegH n r v)) := by intro env t b t' h; cases h; rfl
theorem getSreg (r) : Nf (RME.getSreg r) := gets _
theorem setSreg (r v) : Nf (RME.setSreg r v) := by intro env t b t' h; cases h; rfl
theorem getFlags : Nf RME.getFlags := gets _
theorem setFlags (v) : Nf (RME.setFlags v) := by intro env t b t' h; cases h; rfl
theorem getDec : Nf RME.getDec := gets _
theorem getRegHi (r) : Nf (RME.getRegHi r) := gets _
theorem setRegHi (r v) : Nf (RME.setRegHi r v) := by intro env t b t' h; cases h; rfl
theorem clearRep : Nf RME.clearRep := by intro env t b t' h; cases h; rfl
theorem portOut (b p v) : Nf (RME.portOut b p v) := by intro env t b t' h; cases h; rfl
theorem portIn (b p) : Nf (RME.portIn b p) := by intro env t b t' h; cases h; rfl
theorem ite (c : Prop) [Decidable c] {a b : M α} (ha : c → Nf a) (hb : ¬ c → Nf b) : Nf (if c then a else b) := by
  split
  · exact ha ‹_›
  · exact hb ‹_›
theorem withW {f : Nat → M α} (hf : ∀ n, Nf (f n)) : Nf (RME.withW f) :=
  bind getDec fun _ => ite _ (fun _ => hf _) (fun _ => hf _)
theorem segOf (c) : Nf (RME.segOf c) := by
  unfold RME.segOf
  repeat' (first | exact pure _ | exact ubx _ | refine ite _ (fun _ => ?_) (fun _ => ?_))
theorem getSegment (d) : Nf (RME.getSegment d) := bind getDec fun _ => getSreg _
theorem getPtr (seg ofs) : Nf (RME.getPtr seg ofs) := by
  intro env s e t h
  unfold RME.getPtr at h
  simp only [] at h
  split at h
  · split at h
    · cases h; rfl
    · split at h <;> cases h
  · cases h
theorem loadM (n h) : Nf (RME.loadM n h) := by
  intro env s e t h1
  unfold RME.loadM at h1
  split at h1 <;> cases h1; rfl
theorem storeM (n h v) : Nf (RME.storeM n h v) := by
  intro env s e t h1
  unfold RME.storeM at h1
  split at h1 <;> cases h1; rfl
theorem readMem (n seg ofs) : Nf (RME.readMem n seg ofs) := bind (getPtr _ _) fun _ => loadM _ _
theorem writeMem (n seg ofs v) : Nf (RME.writeMem n seg ofs v) := bind (getPtr _ _) fun _ => storeM _ _ _
theorem pushM {m : M (BitVec 16)} (hm : Nf m) : Nf (RME.pushM m) :=
  bind (getReg _ _) fun _ => bind (setReg _ _ _) fun _ => bind (getSreg _) fun _ => bind (getReg _ _) fun _ => bind hm fun _ =>
    writeMem _ _ _ _
theorem push (v) : Nf (RME.push v) := pushM (pure _)
theorem pop : Nf RME.pop :=
  bind (getSreg _) fun _ => bind (getReg _ _) fun _ => bind (readMem _ _ _) fun _ => bind (getReg _ _) fun _ => bind (setReg _ _ _) fun _ => pure _
theorem readLoc (n l) : Nf (RME.readLoc n l) := by
  cases l
  · exact getReg _ _
  · exact gets _
  · exact loadM _ _
theorem writeLoc (n l v) : Nf (RME.writeLoc n l v) := by
  cases l
  · exact setReg _ _ _
  · exact setRegH _ _ _
  · exact storeM _ _ _
theorem popReg (r) : Nf (RME.popReg r) := bind pop fun _ => setReg _ _ _
end Nf

/-- Prove that nothing is consumed. -/
syntax "nf" : tactic
macro_rules
  | `(tactic| nf) => `(tactic| repeat' (with_reducible first
    | assumption
    | exact Nf.pure _ | exact Nf.getReg _ _ | exact Nf.setReg _ _ _ | exact Nf.setRegH _ _ _ | exact Nf.getSreg _ | exact Nf.setSreg _ _
    | exact Nf.getFlags | exact Nf.setFlags _ | exact Nf.getDec | exact Nf.throw _ | exact Nf.ubx _ | exact Nf.guard _ _ | exact Nf.lift _
    | exact Nf.getRegHi _ | exact Nf.setRegHi _ _ | exact Nf.clearRep | exact Nf.portOut _ _ _ | exact Nf.portIn _ _
    | exact Nf.segOf _ | exact Nf.getSegment _ | exact Nf.getPtr _ _ | exact Nf.readMem _ _ _ | exact Nf.writeMem _ _ _ _
    | exact Nf.push _ | exact Nf.pop | exact Nf.readLoc _ _ | exact Nf.writeLoc _ _ _ | exact Nf.popReg _
    | exact Nf.gets _
    | refine Nf.pushM ?_
    | refine Nf.withW (fun _ => ?_)
    | refine Nf.ite _ (fun _ => ?_) (fun _ => ?_)
    | refine Nf.bind ?_ (fun _ => ?_)
    | split))

namespace Nf
theorem aluApply (k n d s) : Nf (RME.aluApply k n d s) := by unfold RME.aluApply; nf
theorem testApply (n d s) : Nf (RME.testApply n d s) := by unfold RME.testApply; nf
theorem incApply (n d) : Nf (RME.incApply n d) := by unfold RME.incApply; nf
theorem decApply (n d) : Nf (RME.decApply n d) := by unfold RME.decApply; nf
theorem storeProduct (n a b) : Nf (RME.storeProduct n a b) := by unfold RME.storeProduct; nf
theorem storeQuot (n a b) : Nf (RME.storeQuot n a b) := by unfold RME.storeQuot; nf
theorem imulMulti (d a b) : Nf (RME.imulMulti d a b) := by unfold RME.imulMulti; nf
theorem shiftApply (k n d c) : Nf (RME.shiftApply k n d c) := by unfold RME.shiftApply; nf
theorem shxdApply (r s d a) : Nf (RME.shxdApply r s d a) := by unfold RME.shxdApply; nf
theorem movLoc (n d s) : Nf (RME.movLoc n d s) := by unfold RME.movLoc; nf
theorem xchgLoc (n d s) : Nf (RME.xchgLoc n d s) := by unfold RME.xchgLoc; nf
theorem pushVal (v) : Nf (RME.pushVal v) := by unfold RME.pushVal; nf
theorem clearOZSP : Nf RME.clearOZSP := by unfold RME.clearOZSP; nf
theorem enterLoop : ∀ k, Nf (RME.enterLoop k) := by
  intro k
  induction k with
  | zero => exact pure _
  | succ k ih => unfold RME.enterLoop; nf
theorem unaryIncDec (d n l) : Nf (RME.unaryIncDec d n l) := by
  unfold RME.unaryIncDec
  refine bind (ite _ (fun _ => decApply _ _) (fun _ => incApply _ _)) fun _ => ?_
  nf
theorem strCount : Nf RME.strCount := by unfold RME.strCount; nf
theorem strAgain (z) : Nf (RME.strAgain z) := by unfold RME.strAgain; nf
theorem strOfs (r) : Nf (RME.strOfs r) := by unfold RME.strOfs; nf
theorem strPut (u r v) : Nf (RME.strPut u r v) := by unfold RME.strPut; nf
theorem cmpFlags {n} (a b : BitVec n) : Nf (RME.cmpFlags a b) := by unfold RME.cmpFlags; nf
theorem strLoop (z step mask) {body : BitVec 32 → BitVec 32 → M Unit} (hb : ∀ x y, Nf (body x y)) :
    ∀ fuel so dd, Nf (RME.strLoop z step mask body fuel so dd) := by
  intro fuel
  induction fuel with
  | zero => intro so dd; exact ubx _
  | succ fuel ih =>
    intro so dd
    unfold RME.strLoop
    refine bind strCount fun _ => ite _ (fun _ => pure _) (fun _ => bind (hb _ _) fun _ => bind getFlags fun _ => bind (strAgain _) fun _ =>
      ite _ (fun _ => ih _ _) (fun _ => pure _))
theorem stringOp (z u v step) {body} (hb : ∀ p x q y, Nf (body p x q y)) : Nf (RME.stringOp z u v step body) := by
  unfold RME.stringOp
  refine bind (getSreg _) fun _ => bind (getSegment _) fun _ => bind getDec fun _ => bind (strOfs _) fun _ => bind (strOfs _) fun _ =>
    bind (getReg _ _) fun _ => ite _ (fun _ => clearRep) (fun _ => bind (strLoop _ _ _ (fun _ _ => hb _ _ _ _) _ _ _) fun _ =>
      bind (strPut _ _ _) fun _ => bind (strPut _ _ _) fun _ => clearRep)
theorem strW (w) {f : Nat → M Unit} (hf : ∀ n, Nf (f n)) : Nf (RME.strW w f) := by
  cases w
  · exact hf 8
  · exact withW hf
end Nf

/-- Same code bytes and CS:IP as `s`; prefixes `p`; `k` bytes consumed. -/
structure Cst (s : State) (p : Pfx) (k : Nat) (t : State) : Prop where
  dec : t.dec = decOf p k
  ip : t.ip = s.ip
  cs : t.sreg .cs = s.sreg .cs
  map : t.map = s.map
  valid : t.valid = s.valid
  host : t.host = s.host

theorem Cst.byteAt {s p k t} (h : Cst s p k t) {j b} : ByteAt t j b ↔ ByteAt s j b := by
  unfold ByteAt hostAddr
  rw [h.ip, h.cs, h.map, h.valid, h.host]

/-- Fetching part of an opcode function: only the number of bytes consumed (and registers, flags) change. -/
def Fe {α : Type} (s : State) (p : Pfx) (k : Nat) (m : M α) (Q : α → Nat → Prop) : Prop :=
  ∀ env t a t', Cst s p k t → m env t = .ok a t' → ∃ k', Cst s p k' t' ∧ Q a k'

/-- Opcode function: `Q` holds of the number of bytes consumed. -/
def Ln {α : Type} (s : State) (p : Pfx) (k : Nat) (m : M α) (Q : Nat → Prop) : Prop :=
  ∀ env t a t', Cst s p k t → m env t = .ok a t' → Q t'.dec.ipOffset

variable {α β : Type} {s : State} {p : Pfx} {k : Nat}

theorem Fe.bind {m : M α} {f : α → M β} {Q R} (hm : Fe s p k m Q) (hf : ∀ a k', Q a k' → Fe s p k' (f a) R) : Fe s p k (m >>= f) R := by
  intro env t b t' hc h
  simp only [bind_apply] at h
  cases h1 : m env t with
  | ok a u =>
    rw [h1] at h
    obtain ⟨k', h2, h3⟩ := hm env t a u hc h1
    exact hf a k' h3 env u b t' h2 h
  | err e u => rw [h1] at h; cases h
  | ub u => rw [h1] at h; cases h
theorem Fe.ln {m : M α} {f : α → M β} {Q R} (hm : Fe s p k m Q) (hf : ∀ a k', Q a k' → Ln s p k' (f a) R) : Ln s p k (m >>= f) R := by
  intro env t b t' hc h
  simp only [bind_apply] at h
  cases h1 : m env t with
  | ok a u =>
    rw [h1] at h
    obtain ⟨k', h2, h3⟩ := hm env t a u hc h1
    exact hf a k' h3 env u b t' h2 h
  | err e u => rw [h1] at h; cases h
  | ub u => rw [h1] at h; cases h
theorem Nf.ln {m : M α} {Q : Nat → Prop} (hm : Nf m) (hQ : Q k) : Ln s p k m Q := by
  intro env t a t' hc h
  rw [hm env t a t' h, hc.dec]
  exact hQ
/-- computations that keep the state -/
theorem Fe.keep {m : M α} {Q : α → Nat → Prop} (hm : ∀ env t a t', m env t = .ok a t' → t' = t ∧ (Cst s p k t → Q a k)) : Fe s p k m Q := by
  intro env t a t' hc h
  obtain ⟨rfl, h2⟩ := hm env t a t' h
  exact ⟨k, hc, h2 hc⟩
theorem Fe.pure {a : α} {Q : α → Nat → Prop} (h : Q a k) : Fe s p k (Pure.pure a) Q :=
  Fe.keep fun env t a t' h1 => by cases h1; exact ⟨rfl, fun _ => h⟩
theorem Fe.throw {e : Err} {Q : α → Nat → Prop} : Fe s p k (throwE e) Q := by intro env t a t' _ h; cases h
theorem Ln.throw {e : Err} {Q : Nat → Prop} : Ln s p k (throwE e : M α) Q := by intro env t a t' _ h; cases h
theorem Fe.gets (f : State → α) : Fe s p k (RME.gets f) (fun _ k' => k' = k) :=
  Fe.keep fun env t a t' h1 => by cases h1; exact ⟨rfl, fun _ => rfl⟩
theorem Fe.getDec : Fe s p k RME.getDec (fun d k' => k' = k ∧ d = decOf p k) :=
  Fe.keep fun env t a t' h1 => by cases h1; exact ⟨rfl, fun h => ⟨rfl, h.dec⟩⟩
theorem Fe.guard (c : Bool) (e : Err) : Fe s p k (guardE c e) (fun _ k' => k' = k ∧ c = false) :=
  Fe.keep fun env t a t' h1 => by cases c <;> cases h1; exact ⟨rfl, fun _ => ⟨rfl, rfl⟩⟩
theorem Fe.segOf (c) : Fe s p k (RME.segOf c) (fun r k' => k' = k ∧ segNum c = some r) := by
  refine Fe.keep fun env t a t' h => ?_
  revert h
  simp only [RME.segOf, ite_apply, segNum]
  repeat' split
  all_goals (intro h; cases h; try exact ⟨rfl, fun _ => ⟨trivial, rfl⟩⟩)
theorem Fe.getSegment (d) : Fe s p k (RME.getSegment d) (fun _ k' => k' = k) :=
  Fe.keep fun env t a t' h1 => by cases h1; exact ⟨rfl, fun _ => rfl⟩
theorem Fe.getPtr (seg ofs) : Fe s p k (RME.getPtr seg ofs) (fun _ k' => k' = k) := by
  refine Fe.keep fun env t a t' h => ?_
  unfold RME.getPtr at h
  simp only [] at h
  split at h
  · split at h
    · cases h; exact ⟨rfl, fun _ => rfl⟩
    · split at h <;> cases h
  · cases h
theorem Fe.clearOZSP : Fe s p k RME.clearOZSP (fun _ k' => k' = k) := by
  intro env t a t' hc h
  cases h
  exact ⟨k, ⟨hc.dec, hc.ip, hc.cs, hc.map, hc.valid, hc.host⟩, rfl⟩
theorem Fe.ite (c : Prop) [Decidable c] {a b : M α} {Q} (ha : c → Fe s p k a Q) (hb : ¬ c → Fe s p k b Q) : Fe s p k (if c then a else b) Q := by
  split
  · exact ha ‹_›
  · exact hb ‹_›
theorem Fe.mono {m : M α} {Q R : α → Nat → Prop} (hm : Fe s p k m Q) (h : ∀ a k', Q a k' → R a k') : Fe s p k m R := by
  intro env t a t' hc h1
  obtain ⟨k', h2, h3⟩ := hm env t a t' hc h1
  exact ⟨k', h2, h _ _ h3⟩
theorem Ln.withW {f : Nat → M α} {Q} (h : Ln s p k (f (opW p)) Q) : Ln s p k (RME.withW f) Q := by
  intro env t a t' hc h1
  rw [withW_apply, hc.dec] at h1
  refine h env t a t' hc ?_
  rw [← h1]
  unfold opW decOf
  cases p.oper <;> rfl

theorem Fe.readMem (n seg ofs) : Fe s p k (RME.readMem n seg ofs) (fun _ k' => k' = k) := by
  refine Fe.bind (Fe.getPtr _ _) fun h k' hk => ?_
  subst hk
  refine Fe.keep fun env t a t' h1 => ?_
  unfold RME.loadM at h1
  split at h1 <;> cases h1
  exact ⟨rfl, fun _ => rfl⟩

theorem Fe.readInstr (n : Nat) : Fe s p k (RME.readInstr n) (fun _ k' => k' = k + n / 8) := by
  intro env t a t' hc h
  have hr : RME.readInstr n env t = (RME.readMem n (t.sreg .cs) (t.ip + BitVec.ofNat 16 t.dec.ipOffset) env t).bind
      (fun v t => .ok v { t with dec := { t.dec with ipOffset := t.dec.ipOffset + n / 8 } }) := rfl
  rw [hr] at h
  cases h1 : RME.readMem n (t.sreg .cs) (t.ip + BitVec.ofNat 16 t.dec.ipOffset) env t with
  | ok v u =>
    rw [h1] at h
    cases h
    obtain ⟨k', h2, h3⟩ := Fe.readMem n _ _ env t _ _ hc h1
    subst h3
    exact ⟨k' + n / 8, ⟨by simp only [h2.dec]; rfl, h2.ip, h2.cs, h2.map, h2.valid, h2.host⟩, rfl⟩
  | err e u => rw [h1] at h; cases h
  | ub u => rw [h1] at h; cases h

theorem readInstr8_byte {env : Env} {t b t'} (h : RME.readInstr 8 env t = .ok b t') : ByteAt t t.dec.ipOffset b := by
  have hr : RME.readInstr 8 env t = (RME.readMem 8 (t.sreg .cs) (t.ip + BitVec.ofNat 16 t.dec.ipOffset) env t).bind
      (fun v t => .ok v { t with dec := { t.dec with ipOffset := t.dec.ipOffset + 8 / 8 } }) := rfl
  cases ha : hostAddr t (t.sreg .cs) (t.ip + BitVec.ofNat 16 t.dec.ipOffset) with
  | none =>
    rw [hr] at h
    simp only [RME.readMem, bind_apply, getPtr_spec, ha] at h
    cases hn : env.nullCheck <;> simp [hn] at h
  | some x =>
    cases hv : t.valid x
    · rw [hr] at h
      simp [RME.readMem, bind_apply, getPtr_some env ha, resbind_ok, RME.loadM, validN, hv] at h
    · have hm : Mapped t 8 (t.sreg .cs) (t.ip + BitVec.ofNat 16 t.dec.ipOffset) x :=
        ⟨ha, fun i hi => by
          have : i = 0 := by omega
          subst this; exact hv⟩
      rw [hr, readMem_mapped env hm, resbind_ok, valAt8] at h
      cases h
      exact ⟨x, ha, hv, rfl⟩

theorem Fe.readInstr8 : Fe s p k (RME.readInstr 8) (fun b k' => k' = k + 1 ∧ ByteAt s k b) := by
  intro env t a t' hc h
  obtain ⟨k', h1, h2⟩ := Fe.readInstr 8 env t a t' hc h
  refine ⟨k', h1, h2, ?_⟩
  have := readInstr8_byte h
  rw [hc.byteAt, hc.dec] at this
  exact this

theorem Fe.readInstr8S (n) : Fe s p k (RME.readInstr8S n) (fun _ k' => k' = k + 1) :=
  Fe.bind (Fe.readInstr 8) fun _ _ h => Fe.pure h

theorem Fe.getModRM : Fe s p k RME.getModRM (fun m k' => k' = k + 1 ∧ ∃ b, ByteAt s k b ∧ m = ModRM.ofByte b) :=
  Fe.bind Fe.readInstr8 fun b _ h => Fe.pure ⟨h.1, b, h.2, rfl⟩

theorem Fe.getModRM_unchecked : Fe s p k RME.getModRM_unchecked (fun m k' => k' = k + 1 ∧ ∃ b, ByteAt s k b ∧ m = ModRM.ofByte b) := by
  intro env t a t' hc h
  refine Fe.getModRM env t a t' hc ?_
  unfold RME.getModRM_unchecked at h
  split at h
  · cases h
  · exact h

theorem Fe.peek : Fe s p k RME.peekInstr8 (fun b k' => k' = k ∧ ByteAt s k b) := by
  intro env t a t' hc h
  have hr : RME.peekInstr8 env t = (RME.readInstr 8 env t).bind
      (fun v t => .ok v { t with dec := { t.dec with ipOffset := t.dec.ipOffset - 1 } }) := rfl
  rw [hr] at h
  cases h1 : RME.readInstr 8 env t with
  | ok v u =>
    rw [h1] at h
    cases h
    obtain ⟨k', h2, h3⟩ := Fe.readInstr8 env t _ _ hc h1
    refine ⟨k, ⟨?_, h2.ip, h2.cs, h2.map, h2.valid, h2.host⟩, rfl, h3.2⟩
    simp only [h2.dec, h3.1]
    rfl
  | err e u => rw [h1] at h; cases h
  | ub u => rw [h1] at h; cases h

theorem Fe.doFunc (mmm mod0 d) : Fe s p k (RME.doFunc mmm mod0 d) (fun _ k' => k' = k + if mmm = 6 ∧ mod0 = true then 2 else 0) := by
  unfold RME.doFunc
  refine Fe.bind (Fe.getSegment _) fun _ _ h => ?_
  subst h
  refine Fe.bind (Fe.gets _) fun _ _ h => ?_
  subst h
  dsimp only
  refine Fe.ite _ (fun h => ?_) (fun h => ?_)
  · rw [if_pos h]
    exact Fe.bind (Fe.readInstr _) fun _ _ h => Fe.pure h
  · rw [if_neg h]
    exact Fe.pure rfl

theorem Fe.doFunc32 (mmm mod0 d) : Fe s p k (RME.doFunc32 mmm mod0 d) (fun _ k' =>
    if mmm = 4 then ∃ sib, ByteAt s k sib ∧ k' = k + 1 + if sib.toNat % 8 = 5 ∧ mod0 = true then 4 else 0
    else k' = k + if mmm = 5 ∧ mod0 = true then 4 else 0) := by
  unfold RME.doFunc32
  refine Fe.bind (Fe.getSegment _) fun _ _ h => ?_
  subst h
  refine Fe.bind (Fe.gets _) fun _ _ h => ?_
  subst h
  refine Fe.ite _ (fun h4 => ?_) (fun h4 => ?_)
  · refine Fe.bind Fe.readInstr8 fun sib k1 h => ?_
    obtain ⟨rfl, hb⟩ := h
    dsimp only
    have h5 : (sib.setWidth 3 = (5 : BitVec 3)) ↔ sib.toNat % 8 = 5 := by
      rw [← BitVec.toNat_inj]; simp
    refine Fe.ite _ (fun h => ?_) (fun h => ?_)
    · refine Fe.bind (Fe.readInstr _) fun _ _ h2 => Fe.pure ?_
      simp only [h4, if_true]
      exact ⟨sib, hb, by rw [if_pos (by rwa [h5] at h)]; exact h2⟩
    · refine Fe.pure ?_
      simp only [h4, if_true]
      exact ⟨sib, hb, by rw [if_neg (by rwa [h5] at h)]⟩
  · simp only [if_neg h4]
    refine Fe.ite _ (fun h => ?_) (fun h => ?_)
    · simp only [if_pos h]
      exact Fe.bind (Fe.readInstr _) fun _ _ h => Fe.pure h
    · simp only [if_neg h]
      exact Fe.pure rfl

theorem mod_cases (m : BitVec 8) : modOf m = 0 ∨ modOf m = 1 ∨ modOf m = 2 ∨ modOf m = 3 := by
  have := m.isLt
  unfold modOf
  omega

theorem Fe.getMMM {b : BitVec 8} (hb : ByteAt s k b) : Fe s p (k + 1) (RME.getMMM (ModRM.ofByte b))
    (fun _ k' => ∃ n, AddrAt s p k (regOf b) n ∧ k' = k + n ∧ modOf b ≠ 3) := by
  unfold RME.getMMM
  refine Fe.bind Fe.getDec fun d k1 h => ?_
  obtain ⟨rfl, rfl⟩ := h
  have e0 := mod_eq_ofByte b 0 (by decide)
  have e1 := mod_eq_ofByte b 1 (by decide)
  have e2 := mod_eq_ofByte b 2 (by decide)
  have e3 := mod_eq_ofByte b 3 (by decide)
  have q (n : Nat) (sib : BitVec 8) (h1 : p.addr = true → modOf b = 0 → rmOf b = 4 → ByteAt s (k + 1) sib) (h2 : n = rmLen p b sib) :
      AddrAt s p k (regOf b) n := ⟨b, sib, hb, rfl, h1, h2⟩
  refine Fe.ite _ (fun ha => ?_) (fun ha => ?_)
  · have ha : p.addr = true := ha
    refine Fe.ite _ (fun h => ?_) (fun h0 => Fe.ite _ (fun h => ?_) (fun h1 => Fe.ite _ (fun h => ?_) (fun _ => Fe.throw)))
    · have hm := e0.1 h
      refine Fe.mono (Fe.doFunc32 _ _ _) fun _ k' h => ?_
      rw [ofByte_mmm] at h
      split at h
      · obtain ⟨sib, h1, h2⟩ := h
        refine ⟨_, q (2 + if sib.toNat % 8 = 5 then 4 else 0) sib (fun _ _ _ => h1) ?_, ?_, ?_⟩
        · simp [rmLen, hm, ha, *]; split <;> omega
        · simp at h2; omega
        · omega
      · refine ⟨_, q (1 + if rmOf b = 5 then 4 else 0) 0 (fun _ _ h => absurd h ‹_›) ?_, ?_, ?_⟩
        · have : ¬ rmOf b = 4 := ‹_›
          simp only [rmLen, hm, ha, if_neg this]; simp [this]
        · simp at h; split at h <;> simp_all <;> omega
        · omega
    · have hm := e1.1 h
      refine Fe.bind (Fe.readInstr8S _) fun _ _ h => ?_
      subst h
      refine Fe.mono (Fe.doFunc32 _ _ _) fun _ k' h => ?_
      rw [ofByte_mmm] at h
      split at h
      · obtain ⟨sib, h1, h2⟩ := h
        refine ⟨_, q 3 0 (fun _ h _ => by omega) ?_, ?_, ?_⟩
        · simp [rmLen, hm, ha, *]
        · simp at h2; omega
        · omega
      · refine ⟨_, q 2 0 (fun _ h _ => by omega) ?_, ?_, ?_⟩
        · have : ¬ rmOf b = 4 := ‹_›
          simp only [rmLen, hm, ha, if_neg this]; simp
        · simp at h; omega
        · omega
    · have hm := e2.1 h
      refine Fe.bind (Fe.readInstr _) fun _ _ h => ?_
      subst h
      refine Fe.mono (Fe.doFunc32 _ _ _) fun _ k' h => ?_
      rw [ofByte_mmm] at h
      split at h
      · obtain ⟨sib, h1, h2⟩ := h
        refine ⟨_, q 6 0 (fun _ h _ => by omega) ?_, ?_, ?_⟩
        · simp [rmLen, hm, ha, *]
        · simp at h2; omega
        · omega
      · refine ⟨_, q 5 0 (fun _ h _ => by omega) ?_, ?_, ?_⟩
        · have : ¬ rmOf b = 4 := ‹_›
          simp only [rmLen, hm, ha, if_neg this]; simp
        · simp at h; omega
        · omega
  · have ha : p.addr = false := by
      cases h : p.addr
      · rfl
      · exact absurd h ha
    refine Fe.ite _ (fun h => ?_) (fun h0 => Fe.ite _ (fun h => ?_) (fun h1 => Fe.ite _ (fun h => ?_) (fun _ => Fe.throw)))
    · have hm := e0.1 h
      refine Fe.mono (Fe.doFunc _ _ _) fun _ k' h => ?_
      rw [ofByte_mmm] at h
      refine ⟨_, q (1 + if rmOf b = 6 then 2 else 0) 0 (fun h _ _ => by simp [ha] at h) ?_, ?_, ?_⟩
      · simp [rmLen, hm, ha]
      · rw [h]; by_cases h6 : rmOf b = 6 <;> simp [h6] <;> omega
      · omega
    · have hm := e1.1 h
      refine Fe.bind (Fe.readInstr8S _) fun _ _ h => ?_
      subst h
      refine Fe.mono (Fe.doFunc _ _ _) fun _ k' h => ?_
      refine ⟨_, q 2 0 (fun _ h _ => by omega) ?_, ?_, ?_⟩
      · simp [rmLen, hm, ha]
      · simp at h; omega
      · omega
    · have hm := e2.1 h
      refine Fe.bind (Fe.readInstr _) fun _ _ h => ?_
      subst h
      refine Fe.mono (Fe.doFunc _ _ _) fun _ k' h => ?_
      refine ⟨_, q 3 0 (fun _ h _ => by omega) ?_, ?_, ?_⟩
      · simp [rmLen, hm, ha]
      · simp at h; omega
      · omega

/-- Addressing bytes were consumed. -/
abbrev QA (s : State) (p : Pfx) (k k' : Nat) : Prop := ∃ r n, AddrAt s p k r n ∧ k' = k + n

theorem addrAt_reg {b : BitVec 8} (hb : ByteAt s k b) (h : modOf b = 3) : AddrAt s p k (regOf b) 1 :=
  ⟨b, 0, hb, rfl, fun _ h2 => by omega, by simp [rmLen, h]⟩

theorem Fe.decodeModM {b : BitVec 8} (hb : ByteAt s k b) : Fe s p (k + 1) (RME.decodeModM (ModRM.ofByte b)) (fun _ k' => QA s p k k') := by
  unfold RME.decodeModM
  refine Fe.ite _ (fun h => ?_) (fun h => ?_)
  · exact Fe.pure ⟨_, 1, addrAt_reg hb ((mod_eq_ofByte b 3 (by decide)).1 h), rfl⟩
  · refine Fe.bind (Fe.getMMM hb) fun x k' h => ?_
    obtain ⟨n, h1, h2, _⟩ := h
    refine Fe.bind (Fe.getPtr _ _) fun _ k'' h => ?_
    subst h
    exact Fe.pure ⟨_, n, h1, h2⟩
theorem Fe.decodeModMX {b : BitVec 8} (hb : ByteAt s k b) : Fe s p (k + 1) (RME.decodeModMX (ModRM.ofByte b)) (fun _ k' => QA s p k k') := by
  unfold RME.decodeModMX
  refine Fe.ite _ (fun h => ?_) (fun h => ?_)
  · exact Fe.pure ⟨_, 1, addrAt_reg hb ((mod_eq_ofByte b 3 (by decide)).1 h), rfl⟩
  · refine Fe.bind (Fe.getMMM hb) fun x k' h => ?_
    obtain ⟨n, h1, h2, _⟩ := h
    refine Fe.bind (Fe.guard _ _) fun _ k'' h => ?_
    obtain ⟨rfl, _⟩ := h
    refine Fe.bind (Fe.getPtr _ _) fun _ k'' h => ?_
    subst h
    exact Fe.pure ⟨_, n, h1, h2⟩
theorem Fe.parseModRM : Fe s p k RME.parseModRM (fun _ k' => QA s p k k') := by
  refine Fe.bind Fe.getModRM fun m k' h => ?_
  obtain ⟨rfl, b, hb, rfl⟩ := h
  exact Fe.bind (Fe.decodeModM hb) fun _ _ h => Fe.pure h
theorem Fe.parseModRMX : Fe s p k RME.parseModRMX (fun _ k' => QA s p k k') := by
  refine Fe.bind Fe.getModRM fun m k' h => ?_
  obtain ⟨rfl, b, hb, rfl⟩ := h
  exact Fe.bind (Fe.decodeModMX hb) fun _ _ h => Fe.pure h

theorem Fe.moffs : Fe s p k RME.moffs (fun _ k' => k' = k + immLen p .moffs) := by
  refine Fe.bind Fe.getDec fun d k' h => ?_
  obtain ⟨rfl, rfl⟩ := h
  refine Fe.ite _ (fun h => ?_) (fun h => ?_)
  · have h : p.addr = true := h
    refine Fe.bind (Fe.readInstr _) fun _ _ h2 => Fe.pure ?_
    simpa [immLen, h] using h2
  · have h : p.addr = false := by cases h1 : p.addr with
      | false => rfl
      | true => exact absurd h1 h
    refine Fe.mono (Fe.readInstr _) fun _ _ h2 => ?_
    simpa [immLen, h] using h2

end RME
