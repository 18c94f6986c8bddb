import Verif.Lemmas.DepRM
set_option autoImplicit false
/-
The logic of `Verif.Lemmas.Dep` applied to every opcode function.
-/
set_option linter.unusedSectionVars false
set_option linter.unusedVariables false
namespace RME

/-- The host services respect the relation. -/
def Hid.HleOk (H : Hid) (env : Env) : Prop := ∀ n f, env.hle n = some f → ∀ s t, H.Sim s t → H.Sim (f s) (f t)

/-- The segment register with number `a`. -/
def segSel (a : BitVec 3) : Option SReg :=
  if a = 0 then some .es else if a = 1 then some .cs else if a = 2 then some .ss else if a = 3 then some .ds
  else if a = 4 then some .fs else if a = 5 then some .gs else none

namespace Tw
variable {H : Hid} {env : Env} {α β α' β' γ γ' : Type} {R R1 R' : State → State → Prop}

theorem aluApply {k n l} {s : BitVec n} (hk : k = .adc ∨ k = .sbb → H.fl &&& FLAG_CF = 0) (hr : RdOk H n l) (hw : WrOk H n l) :
    Te H env (RME.aluApply k n l s) (RME.aluApply k n l s) := by
  unfold RME.aluApply
  refine bindE (readLoc hr) fun d => bind getFlags fun f g h => ?_
  have := aluExec_dep hk h d s
  dsimp only
  refine bindE (setFlags this.2) fun _ => ite (fun _ => ?_) fun _ => pureE
  rw [this.1]
  exact writeLoc hw
theorem testApply {n l} {s : BitVec n} (hr : RdOk H n l) : Te H env (RME.testApply n l s) (RME.testApply n l s) :=
  bindE (readLoc hr) fun d => bind getFlags fun f g h => setFlags (aluTest_dep h _ _)
theorem clearOZSP : Te H env RME.clearOZSP RME.clearOZSP := bind getFlags fun f g h => setFlags (h.clr _)
theorem incApply {n l} (hr : RdOk H n l) (hw : WrOk H n l) : Te H env (RME.incApply n l) (RME.incApply n l) :=
  bindE (readLoc hr) fun d => bind getFlags fun f g h => bindE (writeLoc hw) fun _ => setFlags (aluInc_dep h d).2
theorem decApply {n l} (hr : RdOk H n l) (hw : WrOk H n l) : Te H env (RME.decApply n l) (RME.decApply n l) :=
  bindE (readLoc hr) fun d => bind getFlags fun f g h => bindE (writeLoc hw) fun _ => setFlags (aluDec_dep h d).2
theorem unaryIncDec {d n l} (hr : RdOk H n l) (hw : WrOk H n l) : Te H env (RME.unaryIncDec d n l) (RME.unaryIncDec d n l) := by
  unfold RME.unaryIncDec
  refine bindE (ite (fun _ => decApply hr hw) fun _ => incApply hr hw) fun _ => bindE (readLoc hr) fun v => bind getFlags fun f g h => ?_
  exact setFlags (h.comm _)
theorem storeProduct {n lo hi} : Te H env (RME.storeProduct n lo hi) (RME.storeProduct n lo hi) :=
  ite (fun _ => setReg) fun _ => bindE setReg fun _ => setReg
theorem storeQuot {n lo hi} : Te H env (RME.storeQuot n lo hi) (RME.storeQuot n lo hi) :=
  ite (fun _ => bindE setRegH fun _ => setReg) fun _ => bindE setReg fun _ => setReg
theorem dividendE {n} (h0 : H.RegOk n 0) (h0' : n = 8 → H.RegOk 16 0) (h2 : n ≠ 8 → H.RegOk n 2) : Te H env (RME.gets (dividend · n)) (RME.gets (dividend · n)) := by
  refine getsR fun s t h => ?_
  unfold dividend
  split
  · rename_i h8; subst h8; rw [show rAX = 0 from rfl, h.1.reg (h0' rfl)]
  · rename_i h8; rw [show rAX = 0 from rfl, show rDX = 2 from rfl, h.1.reg h0, h.1.reg (h2 h8)]

variable [ck : H.CS]
theorem miscOp {n p l} (hr : RdOk H n l) (hw : WrOk H n l) (h0 : p = 4 ∨ p = 5 ∨ p = 6 ∨ p = 7 → H.RegOk n 0) (h0' : p = 4 ∨ p = 5 ∨ p = 6 ∨ p = 7 → n = 8 → H.RegOk 16 0)
    (h2 : p = 6 ∨ p = 7 → n ≠ 8 → H.RegOk n 2) : Te H env (RME.miscOp n p l) (RME.miscOp n p l) := by
  unfold RME.miscOp
  refine ite (fun _ => bindE readInstr fun _ => bindE (readLoc hr) fun _ => bind getFlags fun f g h => setFlags (aluTest_dep h _ _)) fun e0 => ?_
  refine ite (fun _ => throw) fun e1 => ?_
  refine ite (fun _ => bindE (readLoc hr) fun _ => writeLoc hw) fun e2 => ?_
  refine ite (fun _ => bindE (readLoc hr) fun v => bind getFlags fun f g h => ?_) fun e3 => ?_
  · have := aluNeg_dep h v
    dsimp only
    rw [this.1]
    exact bindE (writeLoc hw) fun _ => setFlags this.2
  refine ite (fun e => bindE (readLoc hr) fun v => bindE (getReg (h0 (by simp [e]))) fun a => bind getFlags fun f g h => ?_) fun e4 => ?_
  · exact bindE storeProduct fun _ => setFlags (mulCode_dep h a v).2.2
  refine ite (fun e => bindE (readLoc hr) fun v => bindE (getReg (h0 (by simp [e]))) fun a => bind getFlags fun f g h => ?_) fun e5 => ?_
  · exact bindE storeProduct fun _ => setFlags (imulCode_dep h a v).2.2
  refine ite (fun e => ?_) fun e6 => ?_
  · refine bindE (readLoc hr) fun v => bindE guardE fun _ => bindE (dividendE (h0 (by simp [e])) (h0' (by simp [e])) (h2 (by simp [e]))) fun num => ?_
    split
    · exact throw
    · exact storeQuot
  · have e7 : p = 7 := by bv_omega
    refine bindE (readLoc hr) fun v => bindE guardE fun _ => bindE (dividendE (h0 (by simp [e7])) (h0' (by simp [e7])) (h2 (by simp [e7]))) fun num => ?_
    refine bindE liftUB fun r => ?_
    split
    · exact throw
    · exact storeQuot
theorem imulMulti {l a b} (hw : WrOk H 16 l) : Te H env (RME.imulMulti l a b) (RME.imulMulti l a b) :=
  ite (fun _ => ubE) fun _ => bind getFlags fun f g h => bindE (setFlags ((h.comm _).cfof _)) fun _ => writeLoc hw
theorem shiftApply {k n l c} (hk : k = .rcl ∨ k = .rcr → H.fl &&& FLAG_CF = 0) (hr : RdOk H n l) (hw : WrOk H n l) :
    Te H env (RME.shiftApply k n l c) (RME.shiftApply k n l c) := by
  unfold RME.shiftApply
  refine ite (fun _ => pureE) fun _ => bindE (readLoc hr) fun d => bind getFlags fun f g h => bind (liftUB2 (shiftCode_dep hk h _ _)) fun r r' hr => ?_
  rw [hr.1]
  exact bindE (writeLoc hw) fun _ => setFlags hr.2
theorem shxdApply {b a l c} (ha : ∀ n, H.Wid n → RdOk H n a) (hl : ∀ n, H.Wid n → RdOk H n l ∧ WrOk H n l) :
    Te H env (RME.shxdApply b a l c) (RME.shxdApply b a l c) := by
  unfold RME.shxdApply
  refine withW fun n hn => ite (fun _ => pureE) fun _ => bindE (readLoc (hl n hn).1) fun d => bindE (readLoc (ha n hn)) fun s => bind getFlags fun f g h => ?_
  refine bind (liftUB2 ?_) fun r r' hr => ?_
  · cases b
    · exact shShld_dep h _ _ _
    · exact shShrd_dep h _ _ _
  · rw [hr.1]
    exact bindE (writeLoc (hl n hn).2) fun _ => setFlags hr.2
theorem movLoc {n a b} (hr : RdOk H n b) (hw : WrOk H n a) : Te H env (RME.movLoc n a b) (RME.movLoc n a b) := bindE (readLoc hr) fun _ => writeLoc hw
theorem moffs : Te H env RME.moffs RME.moffs := bindDec fun d _ _ _ ha => ite (fun _ => bindE readInstr fun _ => pureE) fun _ => readInstr
theorem xchgLoc {n a b} (hr : RdOk H n a) (hr' : RdOk H n b) (hw : WrOk H n a) (hw' : WrOk H n b) : Te H env (RME.xchgLoc n a b) (RME.xchgLoc n a b) :=
  bindE (readLoc hr) fun _ => bindE (readLoc hr') fun _ => bindE (writeLoc hw) fun _ => writeLoc hw'
theorem getRegHi {r} (h : H.RegOk 32 r) : Te H env (RME.getRegHi r) (RME.getRegHi r) := getsR fun s t hs => by
  show (s.gpr r >>> 16).setWidth 16 = (t.gpr r >>> 16).setWidth 16
  rw [(hs.1.gpr r).eq h]
theorem pushVal {v} (h4 : H.RegX 4) (hs : H.SegOk .ss) : Te H env (RME.pushVal v) (RME.pushVal v) :=
  bindDec fun d _ _ _ _ => ite (fun _ => bindE (push h4 hs) fun _ => push h4 hs) fun _ => push h4 hs
theorem addSP {v} (h4 : H.RegX 4) : Te H env (RME.addSP v) (RME.addSP v) := bindE (getReg h4.ok16) fun _ => setReg
theorem enterLoop (h4 : H.RegX 4) (h5 : H.RegX 5) (hs : H.SegOk .ss) : ∀ n, Te H env (RME.enterLoop n) (RME.enterLoop n)
  | 0 => pureE
  | n + 1 => bindDec fun d _ _ _ _ => bindE guardE fun _ => bindE (getReg h5.ok16) fun _ => bindE setReg fun _ => bindE (getSreg hs) fun _ =>
      bindE (getReg h5.ok16) fun _ => bindE readMem fun _ => bindE (push h4 hs) fun _ => enterLoop h4 h5 hs n

/-! ### Strings -/
theorem getRegV {n r} {P : Prop} (h : P → H.RegOk n r) : Tm H env (fun a b => P → a = b) (RME.getReg n r) (RME.getReg n r) :=
  getsR fun s t hs hp => hs.1.reg (h hp)
theorem getSregV {r} {P : Prop} (h : P → H.SegOk r) : Tm H env (fun a b => P → a = b) (RME.getSreg r) (RME.getSreg r) :=
  getsR fun s t hs hp => hs.1.sreg r (h hp)
theorem getSegmentP {r} {P : Prop} (h : P → H.SegOk (H.p.seg.getD r)) : Tm H env (fun a b => P → a = b) (RME.getSegment r) (RME.getSegment r) :=
  bindDec fun d h1 _ _ _ => by rw [h1]; exact getSregV h
theorem strOfs {r} {P : Prop} (h : P → H.RegX r) : Tm H env (fun a b => P → a = b) (RME.strOfs r) (RME.strOfs r) :=
  bindDec fun d _ _ _ ha => by
    rw [ha]
    exact ite (fun h1 => getRegV fun hp => (h hp).ok32 (Or.inr h1)) fun _ =>
      bind (getRegV fun hp => (h hp).ok16) fun a a' hab => pure fun hp => by rw [hab hp]
theorem strCount (h : H.p.rep ≠ .none → H.RegX 1) : Te H env RME.strCount RME.strCount :=
  bindDec fun d _ hr _ _ => by
    rw [hr]
    exact ite (fun _ => pureE) fun h1 => bindE (getReg (h h1).ok16) fun cx => ite (fun _ => pureE) fun _ => bindE setReg fun _ => pureE
/-- with ZF known to agree -/
def RZ (H : Hid) (z : Bool) (s t : State) : Prop := H.R s t ∧ (z = true → tst s.flags FLAG_ZF = tst t.flags FLAG_ZF)
theorem strAgain {z} : Tw H env (RZ H z) H.R Eq (RME.strAgain z) (RME.strAgain z) := by
  unfold RME.strAgain
  refine bind (getDecR fun _ _ h => h.1) fun d d' hd => ?_
  obtain ⟨rfl, -⟩ := hd
  refine bind (V := fun f g => z = true → tst f FLAG_ZF = tst g FLAG_ZF) (R1 := H.R)
    (post (getsR fun s t h => h.2) fun _ _ h => h.1) fun f g h => pure ?_
  cases z
  · simp
  · simp only [h rfl]
theorem strLoop {z step mask si di} {body body' : BitVec 32 → BitVec 32 → M Unit} (hc : H.p.rep ≠ .none → H.RegX 1) (hdf : H.fl &&& FLAG_DF = 0)
    (hb : ∀ so so' dd dd', (si = true → so = so') → (di = true → dd = dd') → Tw H env H.R (RZ H z) Eq (body so dd) (body' so' dd')) :
    ∀ n so so' dd dd', (si = true → so = so') → (di = true → dd = dd') →
      Tm H env (fun x y => (si = true → x.1 = y.1) ∧ (di = true → x.2 = y.2)) (RME.strLoop z step mask body n so dd) (RME.strLoop z step mask body' n so' dd')
  | 0, _, _, _, _, _, _ => ubE
  | n + 1, so, so', dd, dd', hs, hd => by
    unfold RME.strLoop
    refine bindE (strCount hc) fun stop => ite (fun _ => pure ⟨hs, hd⟩) fun _ => bindE (hb _ _ _ _ hs hd) fun _ => ?_
    refine bind (V := FEq H.fl) (R1 := RZ H z) (getsR fun s t h => h.1.1.flags) fun f g h => ?_
    dsimp only
    rw [h.tst hdf]
    refine bindE strAgain fun again => ite (fun _ => ?_) fun _ => ?_
    · exact strLoop hc hdf hb n _ _ _ _ (fun e => by rw [hs e]) fun e => by rw [hd e]
    · exact pure ⟨fun e => by rw [hs e], fun e => by rw [hd e]⟩
theorem strPut {u r v v'} (h : u = true → v = v') : Te H env (RME.strPut u r v) (RME.strPut u r v') := by
  cases u
  · exact pureE
  · rw [h rfl]
    exact bindDec fun d _ _ _ _ => ite (fun _ => setReg) fun _ => setReg
theorem stringOp {z di si step} {body : BitVec 16 → BitVec 32 → BitVec 16 → BitVec 32 → M Unit} (hc : H.p.rep ≠ .none → H.RegX 1) (hdf : H.fl &&& FLAG_DF = 0)
    (hd : di = true → H.RegX 7 ∧ H.SegOk .es) (hs : si = true → H.RegX 6 ∧ H.SegOk (H.p.seg.getD .ds))
    (hb : ∀ a a' so so' b b' dd dd', (si = true → a = a' ∧ so = so') → (di = true → b = b' ∧ dd = dd') → Tw H env H.R (RZ H z) Eq (body a so b dd) (body a' so' b' dd')) :
    Tz H env (RME.stringOp z di si step body) (RME.stringOp z di si step body) := by
  unfold RME.stringOp
  refine bind (getSregV (P := di = true) fun h => (hd h).2) fun ds ds' hds => bind (getSegmentP (P := si = true) fun h => (hs h).2) fun ss ss' hss => ?_
  refine bindDec fun d _ hr _ ha => bind (strOfs (P := di = true) fun h => (hd h).1) fun dd dd' hdd => bind (strOfs (P := si = true) fun h => (hs h).1) fun so so' hso => ?_
  refine bind (getRegV (P := H.p.rep ≠ .none) fun h => (hc h).ok16) fun cx cx' hcx => ?_
  rw [hr]
  have hcond : (H.p.rep ≠ .none ∧ cx = 0) ↔ (H.p.rep ≠ .none ∧ cx' = 0) := by
    constructor
    · rintro ⟨h1, h2⟩; exact ⟨h1, hcx h1 ▸ h2⟩
    · rintro ⟨h1, h2⟩; exact ⟨h1, (hcx h1).symm ▸ h2⟩
  by_cases hh : H.p.rep ≠ .none ∧ cx = 0
  · rw [if_pos hh, if_pos (hcond.1 hh)]
    exact clearRep
  · rw [if_neg hh, if_neg (fun h => hh (hcond.2 h))]
    refine bind (strLoop (si := si) (di := di) hc hdf ?_ _ _ _ _ _ hso hdd) fun x y hxy => ?_
    · intro a a' b b' h1 h2
      exact hb _ _ _ _ _ _ _ _ (fun e => ⟨hss e, h1 e⟩) fun e => ⟨hds e, h2 e⟩
    · exact bindE (strPut hxy.2) fun _ => bindE (strPut hxy.1) fun _ => clearRep
theorem strW {w} {f : Nat → M Unit} (h : ∀ n, (n = 8 ∨ H.Wid n) → Tz H env (f n) (f n)) : Tz H env (RME.strW w f) (RME.strW w f) :=
  ite (fun _ => withW fun n hn => h n (Or.inr hn)) fun _ => h 8 (Or.inl rfl)
theorem rz0 {m m' : M Unit} (h : Te H env m m') : Tw H env H.R (RZ H false) Eq m m' := post h fun s t h => ⟨h, fun e => by cases e⟩
theorem clr_own (f g m : BitVec 16) : FEq (~~~m) (RME.clr f m) (RME.clr g m) := by
  intro i hi
  unfold RME.clr
  simp only [BitVec.getLsbD_and, BitVec.getLsbD_not] at hi ⊢
  rw [hi]; simp
theorem tst_comm {n : Nat} (f g : BitVec 16) (v : BitVec n) : tst (setCommFlags f v) FLAG_ZF = tst (setCommFlags g v) FLAG_ZF :=
  ((((clr_own f g _).orIf _ _).orIf _ _).orIf _ _).tst (by decide)
theorem cmpFlags {n} {a b : BitVec n} : Tw H env H.R (RZ H true) Eq (RME.cmpFlags a b) (RME.cmpFlags a b) := by
  intro s t h
  have h1 := aluExec_dep (k := .cmp) (fun h => by rcases h with h | h <;> cases h) h.1.flags a b
  refine ⟨⟨⟨{ h.1 with flags := h1.2 }, h.2.1, h.2.2, h.2.3, h.2.4⟩, fun _ => ?_⟩, rfl⟩
  exact tst_comm _ _ _

theorem segOfV {p} : Tw H env R R (fun a b => a = b ∧ segSel p = some a) (RME.segOf p) (RME.segOf p) := by
  rcases rm8cases p with h | h | h | h | h | h | h | h <;> subst h
  iterate 6 exact pure ⟨rfl, rfl⟩
  all_goals exact ubE

/-! ### Plain opcode functions -/
theorem opPushSeg {p} (h4 : H.RegX 4) (hs : H.SegOk .ss) (hp : ∀ r, segSel p = some r → H.SegOk r) : Te H env (RME.opPushSeg p) (RME.opPushSeg p) :=
  bind segOfV fun a b h => by obtain ⟨rfl, h⟩ := h; exact pushM h4 hs (getSreg (hp _ h))
theorem opPopSeg {p} (h4 : H.RegX 4) (hs : H.SegOk .ss) : Te H env (RME.opPopSeg p) (RME.opPopSeg p) :=
  bindE segOf fun _ => bindE (pop h4 hs) fun _ => setSreg
theorem opDA {b} (h0 : H.RegX 0) (hf : H.fl &&& 0x011 = 0) : Te H env (RME.opDA b) (RME.opDA b) := by
  unfold RME.opDA
  refine bindE (getReg h0.ok8) fun al => bind getFlags fun f g h => ?_
  have : PairR H.fl (if b then dasCode al f else daaCode al f) (if b then dasCode al g else daaCode al g) := by
    cases b
    · exact daaCode_dep h hf al
    · exact dasCode_dep h hf al
  dsimp only
  rw [this.1]
  exact bindE setReg fun _ => setFlags this.2
theorem opAA {b} (h0 : H.RegX 0) (hf : H.fl &&& 0x010 = 0) : Te H env (RME.opAA b) (RME.opAA b) := by
  unfold RME.opAA
  refine bindE (getReg h0.ok8) fun al => bindE (getRegH h0.ok16) fun ah => bind getFlags fun f g h => ?_
  have := aaCode_dep h hf b al ah
  dsimp only
  rw [this.1, this.2.1]
  exact bindE setReg fun _ => bindE setRegH fun _ => setFlags this.2.2
theorem opAam (h0 : H.RegX 0) : Te H env RME.opAam RME.opAam :=
  bindE readInstr fun _ => bindE guardE fun _ => bindE (getReg h0.ok8) fun _ => bindE setRegH fun _ => bindE setReg fun _ =>
    bind getFlags fun f g h => setFlags (h.comm _)
theorem opAad (h0 : H.RegX 0) : Te H env RME.opAad RME.opAad :=
  bindE readInstr fun _ => bindE (getReg h0.ok8) fun _ => bindE (getRegH h0.ok16) fun _ => bindE setReg fun _ => bindE setRegH fun _ =>
    bind getFlags fun f g h => setFlags ((h.comm _).clr _)
theorem opPushReg {p} (h : H.RegX p) (h4 : H.RegX 4) (hs : H.SegOk .ss) : Te H env (RME.opPushReg p) (RME.opPushReg p) :=
  bindDec fun d _ _ ho _ => by
    rw [ho]
    exact ite (fun e => bindE (pushM h4 hs (getRegHi (h.ok32 (Or.inl e)))) fun _ => pushM h4 hs (getReg h.ok16)) fun _ => pushM h4 hs (getReg h.ok16)
theorem opPopReg {p} (h4 : H.RegX 4) (hs : H.SegOk .ss) : Te H env (RME.opPopReg p) (RME.opPopReg p) :=
  bindE (pop h4 hs) fun _ => bindE setReg fun _ => bindDec fun d _ _ _ _ => ite (fun _ => bindE (pop h4 hs) fun _ => setRegHi) fun _ => pureE
theorem opPushA (h : ∀ r, H.RegX r) (hs : H.SegOk .ss) : Te H env RME.opPushA RME.opPushA :=
  bindDec fun d _ _ _ _ => bindE guardE fun _ => bindE (getReg (h _).ok16) fun _ =>
    bindE (pushM (h 4) hs (getReg (h _).ok16)) fun _ => bindE (pushM (h 4) hs (getReg (h _).ok16)) fun _ =>
    bindE (pushM (h 4) hs (getReg (h _).ok16)) fun _ => bindE (pushM (h 4) hs (getReg (h _).ok16)) fun _ =>
    bindE (push (h 4) hs) fun _ => bindE (pushM (h 4) hs (getReg (h _).ok16)) fun _ =>
    bindE (pushM (h 4) hs (getReg (h _).ok16)) fun _ => pushM (h 4) hs (getReg (h _).ok16)
theorem opPopA (h4 : H.RegX 4) (hs : H.SegOk .ss) : Te H env RME.opPopA RME.opPopA :=
  bindDec fun d _ _ _ _ => bindE guardE fun _ => bindE (popReg h4 hs) fun _ => bindE (popReg h4 hs) fun _ => bindE (popReg h4 hs) fun _ =>
    bindE (getReg h4.ok16) fun _ => bindE setReg fun _ => bindE (popReg h4 hs) fun _ => bindE (popReg h4 hs) fun _ => bindE (popReg h4 hs) fun _ => popReg h4 hs
theorem opPushF (h4 : H.RegX 4) (hs : H.SegOk .ss) (hf : H.fl = 0) : Te H env RME.opPushF RME.opPushF :=
  bindDec fun d _ _ _ _ => bindE guardE fun _ => pushM h4 hs (getFlagsE hf)
theorem opPopF (h4 : H.RegX 4) (hs : H.SegOk .ss) : Te H env RME.opPopF RME.opPopF :=
  bindDec fun d _ _ _ _ => bindE guardE fun _ => bindE (pop h4 hs) fun _ => bindE (getsR fun s t h => h.1.cpuType) fun _ => setFlags (FEq.refl _)
theorem opPushI (h4 : H.RegX 4) (hs : H.SegOk .ss) : Te H env RME.opPushI RME.opPushI := bindE readInstr fun _ => pushVal h4 hs
theorem opPushI8 (h4 : H.RegX 4) (hs : H.SegOk .ss) : Te H env RME.opPushI8 RME.opPushI8 := bindE readInstr8S fun _ => pushVal h4 hs
theorem opFlag {k} : Te H env (RME.opFlag k) (RME.opFlag k) := bind getFlags fun f g h => setFlags (flagOp_dep h k)
theorem opSahf (h0 : H.RegX 0) : Te H env RME.opSahf RME.opSahf :=
  bind getFlags fun f g h => bindE (getRegH h0.ok16) fun _ => setFlags ((h.clr _).or _)
theorem opLahf (hf : H.fl &&& 0xFF = 0) : Te H env RME.opLahf RME.opLahf :=
  bind getFlags fun f g h => by rw [h.setWidth8 hf]; exact setRegH
theorem opCallN (h4 : H.RegX 4) (hs : H.SegOk .ss) : Te H env RME.opCallN RME.opCallN :=
  bindE readInstr fun _ => bindE (pushM h4 hs nextIP) fun _ => bindE getIP fun _ => setIP
theorem opCallF (h4 : H.RegX 4) (hs : H.SegOk .ss) : Te H env RME.opCallF RME.opCallF :=
  bindE readInstr fun _ => bindE readInstr fun _ => bindE (pushM h4 hs (getSreg ck.cs)) fun _ => bindE (pushM h4 hs nextIP) fun _ =>
    bindE setSreg fun _ => bindE setIP fun _ => setDontChangeIP
theorem opRetN (h4 : H.RegX 4) (hs : H.SegOk .ss) : Te H env RME.opRetN RME.opRetN := bindE (pop h4 hs) fun _ => bindE setIP fun _ => setDontChangeIP
theorem opRetF (h4 : H.RegX 4) (hs : H.SegOk .ss) : Te H env RME.opRetF RME.opRetF :=
  bindE (pop h4 hs) fun _ => bindE (pop h4 hs) fun _ => bindE setSreg fun _ => bindE setIP fun _ => setDontChangeIP
theorem opRetiN (h4 : H.RegX 4) (hs : H.SegOk .ss) : Te H env RME.opRetiN RME.opRetiN :=
  bindE readInstr fun _ => bindE (pop h4 hs) fun _ => bindE setIP fun _ => bindE (addSP h4) fun _ => setDontChangeIP
theorem opRetiF (h4 : H.RegX 4) (hs : H.SegOk .ss) : Te H env RME.opRetiF RME.opRetiF :=
  bindE readInstr fun _ => bindE (pop h4 hs) fun _ => bindE (pop h4 hs) fun _ => bindE setSreg fun _ => bindE setIP fun _ => bindE (addSP h4) fun _ => setDontChangeIP
theorem opEnter (h4 : H.RegX 4) (h5 : H.RegX 5) (hs : H.SegOk .ss) : Te H env RME.opEnter RME.opEnter :=
  bindE readInstr fun _ => bindE readInstr fun _ => bindE (pushM h4 hs (getReg h5.ok16)) fun _ => bindE (getReg h4.ok16) fun _ =>
    bindE (ite (fun _ => bindE (enterLoop h4 h5 hs _) fun _ => bindDec fun d _ _ _ _ => ite (fun _ => pureE) fun _ => push h4 hs) fun _ => pureE) fun _ =>
    bindE setReg fun _ => bindE (getReg h4.ok16) fun _ => setReg

/-- with the stack pointer known to agree -/
def R4 (H : Hid) (s t : State) : Prop := H.R s t ∧ s.reg 16 4 = t.reg 16 4
theorem r4_keep {V : α → α' → Prop} {m : M α} {m' : M α'} (h : Tm H env V m m') (k : ∀ s a s', m env s = .ok a s' → s' = s) (k' : ∀ s a s', m' env s = .ok a s' → s' = s) :
    Tw H env (R4 H) (R4 H) V m m' := by
  intro s t hs
  have := h s t hs.1
  cases h1 : m env s <;> cases h2 : m' env t <;> rw [h1, h2] at this <;> try exact this.elim
  · rename_i a s' b t'
    have e1 := k _ _ _ h1; have e2 := k' _ _ _ h2
    subst e1; subst e2
    exact ⟨hs, this.2⟩
  · exact this
  · exact this
theorem readMem_keep {n sg o} (s : State) (a : BitVec n) (s') (h : RME.readMem n sg o env s = .ok a s') : s' = s := by
  revert h
  simp only [RME.readMem, bind_apply, getPtr_spec]
  repeat' split
  all_goals simp only [resbind_ok, resbind_err, resbind_ub, RME.loadM]
  all_goals (try split) <;> (intro h; cases h) <;> rfl
theorem opLeave (h5 : H.RegX 5) (hs : H.SegOk .ss) : Te H env RME.opLeave RME.opLeave := by
  refine bindE (getReg h5.ok16) fun bp => bindE (R1 := R4 H) ?_ fun _ => ?_
  · intro s t h
    have h1 := setReg (H := H) (env := env) (n := 16) (r := rSP) (v := bp) s t h
    refine ⟨⟨h1.1, ?_⟩, rfl⟩
    show State.reg _ 16 4 = State.reg _ 16 4
    simp only [State.reg, State.setReg, State.setGpr, rSP]
    simp
    apply BitVec.eq_of_getLsbD_eq
    intro i hi
    simp only [BitVec.getLsbD_setWidth]
    rw [putLow_bit _ _ _ (by omega), putLow_bit _ _ _ (by omega)]
    simp [hi]
  · refine bind (getDecR fun _ _ h => h.1) fun d d' hd => ?_
    obtain ⟨rfl, -⟩ := hd
    refine ite (fun _ => post pureE fun _ _ h => h.1) fun _ => bindE (R1 := H.R) ?_ fun _ => setReg
    unfold RME.pop
    refine bindE (R1 := R4 H) (getsR fun s t h => h.1.1.sreg _ hs) fun ss => bindE (R1 := R4 H) (getsR fun s t h => h.2) fun sp => ?_
    refine bindE (r4_keep readMem readMem_keep readMem_keep) fun v => bindE (R1 := R4 H) (getsR fun s t h => h.2) fun sp' => ?_
    exact pre (bindE setReg fun _ => pureE) fun _ _ h => h.1
theorem runHle {n} (h : H.HleOk env) : Tz H env (RME.runHle n) (RME.runHle n) := by
  intro s t hs
  unfold RME.runHle
  cases hn : env.hle n with
  | none => exact ⟨hs.1, rfl⟩
  | some f => exact ⟨h n f hn s t hs.1, rfl⟩
theorem callInterrupt {n} (h : H.HleOk env) (h4 : H.RegX 4) (hs : H.SegOk .ss) (hf : H.fl = 0) : Tz H env (RME.callInterrupt n) (RME.callInterrupt n) :=
  bindE readMem fun _ => bindE readMem fun _ => bindE guardE fun _ => ite (fun _ => runHle h) fun _ =>
    bindE (pushM h4 hs (getFlagsE hf)) fun _ => bindE (pushM h4 hs (getSreg ck.cs)) fun _ => bindE (pushM h4 hs nextIP) fun _ =>
    bindE setIP fun _ => bindE setSreg fun _ => bind getFlags fun f g hfg => bindE (setFlags (hfg.clr _)) fun _ => weak setDontChangeIP
theorem opIret (h4 : H.RegX 4) (hs : H.SegOk .ss) : Te H env RME.opIret RME.opIret :=
  bindE (pop h4 hs) fun _ => bindE setIP fun _ => bindE (pop h4 hs) fun _ => bindE setSreg fun _ => bindE (pop h4 hs) fun _ =>
    bindE (setFlags (FEq.refl _)) fun _ => setDontChangeIP
theorem opJccS {k : Cond} (hf : H.fl &&& k.mask = 0) : Te H env (RME.opJccS k) (RME.opJccS k) :=
  bindE readInstr8S fun _ => bind getFlags fun f g h => by rw [cond_dep h hf]; exact ite (fun _ => addIP) fun _ => pureE
theorem opJccN {k : Cond} (hf : H.fl &&& k.mask = 0) : Te H env (RME.opJccN k) (RME.opJccN k) :=
  bindE readInstr fun _ => bind getFlags fun f g h => by rw [cond_dep h hf]; exact ite (fun _ => addIP) fun _ => pureE
theorem opJcxz (h1 : H.RegX 1) : Te H env RME.opJcxz RME.opJcxz :=
  bindE readInstr8S fun _ => bindDec fun d _ _ ho _ => bind (getRegV (P := H.p.oper = true) fun e => h1.ok32 (Or.inl e)) fun a b hab =>
    bindE (getReg h1.ok16) fun cx => by
      rw [ho]
      cases he : H.p.oper
      · simp only [Bool.false_and, Bool.false_eq_true, if_false]
        exact ite (fun _ => pureE) fun _ => addIP
      · rw [hab he]
        exact ite (fun _ => pureE) fun _ => ite (fun _ => pureE) fun _ => addIP
theorem opLoop {k : LoopKind} (h1 : H.RegX 1) (hf : k ≠ .always → H.fl &&& FLAG_ZF = 0) : Te H env (RME.opLoop k) (RME.opLoop k) :=
  bindE readInstr8S fun _ => bindE (getReg h1.ok16) fun _ => bindE setReg fun _ => bindE (getReg h1.ok16) fun _ => bind getFlags fun f g h => by
    have : k.eval f = k.eval g := by
      cases k
      · simp only [LoopKind.eval]; rw [h.tst (hf (by decide))]
      · simp only [LoopKind.eval]; rw [h.tst (hf (by decide))]
      · rfl
    rw [this]
    exact ite (fun _ => addIP) fun _ => pureE
theorem opJmpN : Te H env RME.opJmpN RME.opJmpN := bindE readInstr fun _ => addIP
theorem opJmpS : Te H env RME.opJmpS RME.opJmpS := bindE readInstr8S fun _ => addIP
theorem opJmpF : Te H env RME.opJmpF RME.opJmpF := bindE readInstr fun _ => bindE readInstr fun _ => bindE setSreg fun _ => bindE setIP fun _ => setDontChangeIP
theorem opMovAMo (hd : H.SegOk (H.p.seg.getD .ds)) : Te H env RME.opMovAMo RME.opMovAMo :=
  bindE (getSegment hd) fun _ => bindE moffs fun _ => bindE readMem fun _ => setReg
theorem opMovAMoX (hd : H.SegOk (H.p.seg.getD .ds)) : Te H env RME.opMovAMoX RME.opMovAMoX :=
  bindE (getSegment hd) fun _ => bindE moffs fun _ => withW fun n hn => bindE readMem fun _ => setReg
theorem opMovMoA (hd : H.SegOk (H.p.seg.getD .ds)) (h0 : H.RegX 0) : Te H env RME.opMovMoA RME.opMovMoA :=
  bindE (getSegment hd) fun _ => bindE moffs fun _ => bindE (getReg h0.ok8) fun _ => writeMem
theorem opMovMoAX (hd : H.SegOk (H.p.seg.getD .ds)) (h0 : H.RegX 0) : Te H env RME.opMovMoAX RME.opMovMoAX :=
  bindE (getSegment hd) fun _ => bindE moffs fun _ => withW fun n hn => bindE (getReg (h0.okW hn)) fun _ => writeMem
theorem opXlat (hd : H.SegOk (H.p.seg.getD .ds)) (h0 : H.RegX 0) (h3 : H.RegX 3) : Te H env RME.opXlat RME.opXlat :=
  bindE (getSegment hd) fun _ => bindDec fun d _ _ _ ha => bind (getRegV (P := H.p.addr = true) fun e => h3.ok32 (Or.inr e)) fun a b hab =>
    bindE (getReg h3.ok16) fun bx => bindE (getReg h0.ok8) fun al => by
      rw [ha]
      cases he : H.p.addr
      · exact bindE readMem fun _ => setReg
      · rw [hab he]; exact bindE readMem fun _ => setReg
theorem opCbw (h0 : H.RegX 0) : Te H env RME.opCbw RME.opCbw := withW fun n hn => bindE (getReg h0.ok8) fun _ => setReg
theorem opCwd (h0 : H.RegX 0) : Te H env RME.opCwd RME.opCwd := withW fun n hn => bindE (getReg (h0.okW hn)) fun _ => setReg
theorem opInADx (h2 : H.RegX 2) : Te H env RME.opInADx RME.opInADx := bindE (getReg h2.ok16) fun _ => bindE portIn fun _ => setReg
theorem opInADxX (h2 : H.RegX 2) : Te H env RME.opInADxX RME.opInADxX := withW fun n hn => bindE (getReg h2.ok16) fun _ => bindE portIn fun _ => setReg
theorem opInAI : Te H env RME.opInAI RME.opInAI := bindE readInstr fun _ => bindE portIn fun _ => setReg
theorem opInAIX : Te H env RME.opInAIX RME.opInAIX := bindE readInstr fun _ => withW fun n hn => bindE portIn fun _ => setReg
theorem opOutDxA (h0 : H.RegX 0) (h2 : H.RegX 2) : Te H env RME.opOutDxA RME.opOutDxA := bindE (getReg h2.ok16) fun _ => bindE (getReg h0.ok8) fun _ => portOut
theorem opOutDxAX (h0 : H.RegX 0) (h2 : H.RegX 2) : Te H env RME.opOutDxAX RME.opOutDxAX :=
  withW fun n hn => bindE (getReg h2.ok16) fun _ => bindE (getReg (h0.okW hn)) fun _ => portOut
theorem opOutAI (h0 : H.RegX 0) : Te H env RME.opOutAI RME.opOutAI := bindE readInstr fun _ => bindE (getReg h0.ok8) fun _ => portOut
theorem opOutAIX (h0 : H.RegX 0) : Te H env RME.opOutAIX RME.opOutAIX := bindE readInstr fun _ => withW fun n hn => bindE (getReg (h0.okW hn)) fun _ => portOut
theorem regOkN {r n} (h : H.RegX r) (hn : n = 8 ∨ H.Wid n) : H.RegOk n r := by
  rcases hn with rfl | hn
  · exact h.ok8
  · exact h.okW hn
theorem opMovs {w} (hc : H.p.rep ≠ .none → H.RegX 1) (hdf : H.fl &&& 0x400 = 0) (h7 : H.RegX 7) (he : H.SegOk .es) (h6 : H.RegX 6) (hd : H.SegOk (H.p.seg.getD .ds)) :
    Tz H env (RME.opMovs w) (RME.opMovs w) :=
  strW fun n hn => stringOp hc hdf (fun _ => ⟨h7, he⟩) (fun _ => ⟨h6, hd⟩) fun a a' so so' b b' dd dd' h1 h2 => by
    obtain ⟨rfl, rfl⟩ := h1 rfl; obtain ⟨rfl, rfl⟩ := h2 rfl
    exact rz0 (bindE readMem fun _ => writeMem)
theorem opStos {w} (hc : H.p.rep ≠ .none → H.RegX 1) (hdf : H.fl &&& 0x400 = 0) (h7 : H.RegX 7) (he : H.SegOk .es) (h0 : H.RegX 0) :
    Tz H env (RME.opStos w) (RME.opStos w) :=
  strW fun n hn => stringOp hc hdf (fun _ => ⟨h7, he⟩) (fun h => by cases h) fun a a' so so' b b' dd dd' h1 h2 => by
    obtain ⟨rfl, rfl⟩ := h2 rfl
    exact rz0 (bindE (getReg (regOkN h0 hn)) fun _ => writeMem)
theorem opLods {w} (hc : H.p.rep ≠ .none → H.RegX 1) (hdf : H.fl &&& 0x400 = 0) (h6 : H.RegX 6) (hd : H.SegOk (H.p.seg.getD .ds)) :
    Tz H env (RME.opLods w) (RME.opLods w) :=
  strW fun n hn => stringOp hc hdf (fun h => by cases h) (fun _ => ⟨h6, hd⟩) fun a a' so so' b b' dd dd' h1 h2 => by
    obtain ⟨rfl, rfl⟩ := h1 rfl
    exact rz0 (bindE readMem fun _ => setReg)
theorem opCmps {w} (hc : H.p.rep ≠ .none → H.RegX 1) (hdf : H.fl &&& 0x400 = 0) (h7 : H.RegX 7) (he : H.SegOk .es) (h6 : H.RegX 6) (hd : H.SegOk (H.p.seg.getD .ds)) :
    Tz H env (RME.opCmps w) (RME.opCmps w) :=
  strW fun n hn => stringOp hc hdf (fun _ => ⟨h7, he⟩) (fun _ => ⟨h6, hd⟩) fun a a' so so' b b' dd dd' h1 h2 => by
    obtain ⟨rfl, rfl⟩ := h1 rfl; obtain ⟨rfl, rfl⟩ := h2 rfl
    exact bindE readMem fun _ => bindE readMem fun _ => cmpFlags
theorem opScas {w} (hc : H.p.rep ≠ .none → H.RegX 1) (hdf : H.fl &&& 0x400 = 0) (h7 : H.RegX 7) (he : H.SegOk .es) (h0 : H.RegX 0) :
    Tz H env (RME.opScas w) (RME.opScas w) :=
  strW fun n hn => stringOp hc hdf (fun _ => ⟨h7, he⟩) (fun h => by cases h) fun a a' so so' b b' dd dd' h1 h2 => by
    obtain ⟨rfl, rfl⟩ := h2 rfl
    exact bindE readMem fun _ => bindE (getReg (regOkN h0 hn)) fun _ => cmpFlags
theorem opIns {w} (hc : H.p.rep ≠ .none → H.RegX 1) (hdf : H.fl &&& 0x400 = 0) (h7 : H.RegX 7) (he : H.SegOk .es) (h2 : H.RegX 2) :
    Tz H env (RME.opIns w) (RME.opIns w) :=
  strW fun n hn => stringOp hc hdf (fun _ => ⟨h7, he⟩) (fun h => by cases h) fun a a' so so' b b' dd dd' h1 h2' => by
    obtain ⟨rfl, rfl⟩ := h2' rfl
    exact rz0 (bindE (getReg h2.ok16) fun _ => bindE portIn fun _ => writeMem)
theorem opOuts {w} (hc : H.p.rep ≠ .none → H.RegX 1) (hdf : H.fl &&& 0x400 = 0) (h6 : H.RegX 6) (hd : H.SegOk (H.p.seg.getD .ds)) (h2 : H.RegX 2) :
    Tz H env (RME.opOuts w) (RME.opOuts w) :=
  strW fun n hn => stringOp hc hdf (fun h => by cases h) (fun _ => ⟨h6, hd⟩) fun a a' so so' b b' dd dd' h1 h2' => by
    obtain ⟨rfl, rfl⟩ := h1 rfl
    exact rz0 (bindE readMem fun _ => bindE (getReg h2.ok16) fun _ => portOut)
end Tw
end RME
