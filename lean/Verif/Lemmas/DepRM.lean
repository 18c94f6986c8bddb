import Verif.Lemmas.Dep
import Verif.Spec.Sources
set_option autoImplicit false
/-
The logic of `Verif.Lemmas.Dep`: flags functions, ModR/M operands.
-/
set_option linter.unusedSectionVars false
set_option linter.unusedVariables false
namespace RME

/-! ### Flags -/
section
variable {q f g : BitVec 16} {n : Nat}

/-- same value, related flags -/
def PairR (q : BitVec 16) {α : Type} (x y : α × BitVec 16) : Prop := x.1 = y.1 ∧ FEq q x.2 y.2

theorem addSetFlags_dep (h : FEq q f g) (d s v : BitVec n) : FEq q (addSetFlags f d s v) (addSetFlags g d s v) := by
  unfold addSetFlags
  dsimp only
  have h1 := h.orIf ((d &&& smask n) == (s &&& smask n) && (v &&& smask n) != (d &&& smask n)) FLAG_OF
  have h2 := FEq.ite (p := (d != 0) = true) (h1.orIf (v.toNat ≤ s.toNat) FLAG_CF) (h1.orIf (v.toNat < s.toNat) FLAG_CF)
  exact FEq.ite (h2.orIf _ _) (h2.orIf _ _)
theorem aluExec_dep {k : AluOp} (hk : k = .adc ∨ k = .sbb → q &&& FLAG_CF = 0) (h : FEq q f g) (d s : BitVec n) :
    PairR q (aluExec k d s f) (aluExec k d s g) := by
  have key : PairR q (aluCode k d s f) (aluCode k d s g) := by
    cases k
    · exact ⟨rfl, addSetFlags_dep (h.clr _) _ _ _⟩
    · exact ⟨rfl, h.clr _⟩
    · have hc := h.tst (hk (Or.inl rfl))
      unfold aluCode aluAdc
      dsimp only
      rw [hc]
      exact ⟨rfl, (addSetFlags_dep (h.clr _) _ _ _).orIf _ _⟩
    · have hc := h.tst (hk (Or.inr rfl))
      unfold aluCode aluSbb
      dsimp only
      rw [hc]
      exact ⟨rfl, (((h.clr _).orIf _ _).orIf _ _).orIf _ _⟩
    · exact ⟨rfl, h.clr _⟩
    · exact ⟨rfl, (((h.clr _).orIf _ _).orIf _ _).orIf _ _⟩
    · exact ⟨rfl, h.clr _⟩
    · exact ⟨rfl, (((h.clr _).orIf _ _).orIf _ _).orIf _ _⟩
  unfold aluExec
  dsimp only
  refine ⟨key.1, ?_⟩
  dsimp only
  rw [key.1]
  exact key.2.comm _
theorem aluTest_dep (h : FEq q f g) (d s : BitVec n) : FEq q (aluTest d s f) (aluTest d s g) := (h.clr _).comm _
theorem aluInc_dep (h : FEq q f g) (d : BitVec n) : PairR q (aluInc d f) (aluInc d g) := ⟨rfl, (((h.clr _).orIf _ _).orIf _ _).comm _⟩
theorem aluDec_dep (h : FEq q f g) (d : BitVec n) : PairR q (aluDec d f) (aluDec d g) := ⟨rfl, (((h.clr _).orIf _ _).orIf _ _).comm _⟩
theorem aluNeg_dep (h : FEq q f g) (d : BitVec n) : PairR q (aluNeg d f) (aluNeg d g) := by
  unfold aluNeg
  dsimp only
  split
  · exact ⟨rfl, (h.clr _).comm _⟩
  · exact ⟨rfl, ((((h.clr _).or _).orIf _ _).orIf _ _).comm _⟩
theorem mulCode_dep (h : FEq q f g) (a s : BitVec n) : (mulCode a s f).1 = (mulCode a s g).1 ∧ (mulCode a s f).2.1 = (mulCode a s g).2.1 ∧
    FEq q (mulCode a s f).2.2 (mulCode a s g).2.2 := ⟨rfl, rfl, (h.comm _).cfof _⟩
theorem imulCode_dep (h : FEq q f g) (a s : BitVec n) : (imulCode a s f).1 = (imulCode a s g).1 ∧ (imulCode a s f).2.1 = (imulCode a s g).2.1 ∧
    FEq q (imulCode a s f).2.2 (imulCode a s g).2.2 := ⟨rfl, rfl, (h.comm _).cfof _⟩

/-- related outcomes of a calculation that may be undefined -/
def ExR (q : BitVec 16) {α : Type} : Except UB (α × BitVec 16) → Except UB (α × BitVec 16) → Prop
  | .ok x, .ok y => PairR q x y
  | .error u, .error v => u = v
  | _, _ => False

theorem shShl_dep (h : FEq q f g) (d : BitVec n) (amt) : ExR q (shShl d amt f) (shShl d amt g) := by
  unfold shShl
  dsimp only
  split
  · exact ⟨rfl, (h.clr _).comm _⟩
  split
  · rfl
  · exact ⟨rfl, (((h.clr _).orIf _ _).orIf _ _).comm _⟩
theorem highOF_dep (h : FEq q f g) (v : BitVec n) : FEq q (highOF v f) (highOF v g) := h.orIf _ _
theorem shiftCode_dep {k : ShiftOp} (hk : k = .rcl ∨ k = .rcr → q &&& FLAG_CF = 0) (h : FEq q f g) (d : BitVec n) (amt) :
    ExR q (shiftCode k d amt f) (shiftCode k d amt g) := by
  cases k
  · exact ⟨rfl, ((h.clr _).orIf _ _).orIf _ _⟩
  · exact ⟨rfl, ((h.clr _).orIf _ _).orIf _ _⟩
  · have hc := h.tst (hk (Or.inl rfl))
    unfold shiftCode shRcl
    dsimp only
    rw [hc]
    exact ⟨rfl, ((h.clr _).orIf _ _).orIf _ _⟩
  · have hc := h.tst (hk (Or.inr rfl))
    unfold shiftCode shRcr
    dsimp only
    rw [hc]
    exact ⟨rfl, ((h.clr _).orIf _ _).orIf _ _⟩
  · exact shShl_dep h d amt
  · show PairR q (shShr d amt f) (shShr d amt g)
    unfold shShr
    dsimp only
    split
    · exact ⟨rfl, (highOF_dep (h.clr _) _).comm _⟩
    · exact ⟨rfl, (highOF_dep ((h.clr _).orIf _ _) _).comm _⟩
  · exact shShl_dep h d amt
  · show PairR q (shSar d amt f) (shSar d amt g)
    unfold shSar
    dsimp only
    split
    · exact ⟨rfl, (highOF_dep ((h.clr _).orIf _ _) _).comm _⟩
    · exact ⟨rfl, (highOF_dep ((h.clr _).orIf _ _) _).comm _⟩
theorem shShrd_dep (h : FEq q f g) (d s : BitVec n) (amt) : ExR q (shShrd d s amt f) (shShrd d s amt g) := by
  unfold shShrd
  dsimp only
  split
  · rfl
  · split
    · exact ⟨rfl, (((h.clr _).orIf _ _).orIf _ _).comm _⟩
    · exact ⟨rfl, ((h.clr _).orIf _ _).comm _⟩
theorem tst_orIf_clr (f : BitVec 16) (c : Bool) : tst (orIf (clr f (FLAG_CF ||| FLAG_OF ||| FLAG_AF)) c FLAG_CF) FLAG_CF = c := by
  unfold tst orIf clr
  have : (f &&& ~~~(FLAG_CF ||| FLAG_OF ||| FLAG_AF)) &&& FLAG_CF = 0 := by
    rw [BitVec.and_assoc, show ~~~(FLAG_CF ||| FLAG_OF ||| FLAG_AF) &&& FLAG_CF = 0 by decide]; simp
  cases c
  · show ((f &&& ~~~(FLAG_CF ||| FLAG_OF ||| FLAG_AF) ||| 0#16) &&& FLAG_CF != 0) = false
    rw [BitVec.or_zero, this]; decide
  · simp only [if_true]
    have e : ((f &&& ~~~(FLAG_CF ||| FLAG_OF ||| FLAG_AF)) ||| FLAG_CF) &&& FLAG_CF = FLAG_CF := by
      apply BitVec.eq_of_getLsbD_eq
      intro i hi
      simp only [BitVec.getLsbD_and, BitVec.getLsbD_or]
      cases (FLAG_CF : BitVec 16).getLsbD i <;> simp
    rw [e]; decide
theorem shShld_dep (h : FEq q f g) (d s : BitVec n) (amt) : ExR q (shShld d s amt f) (shShld d s amt g) := by
  unfold shShld
  dsimp only
  split
  · rfl
  · rw [tst_orIf_clr, tst_orIf_clr]
    split
    · exact ⟨rfl, (((h.clr _).orIf _ _).orIf _ _).comm _⟩
    · exact ⟨rfl, ((h.clr _).orIf _ _).comm _⟩
theorem aaCode_dep (h : FEq q f g) (hq : q &&& FLAG_AF = 0) (sub al ah) : (aaCode sub al ah f).1 = (aaCode sub al ah g).1 ∧
    (aaCode sub al ah f).2.1 = (aaCode sub al ah g).2.1 ∧ FEq q (aaCode sub al ah f).2.2 (aaCode sub al ah g).2.2 := by
  unfold aaCode
  rw [h.tst hq]
  dsimp only
  split
  · exact ⟨rfl, rfl, (h.or _).comm _⟩
  · exact ⟨rfl, rfl, (h.clr _).comm _⟩
theorem PairR.ite {α : Type} {p : Prop} [Decidable p] {x y x' y' : α × BitVec 16} (h : p → PairR q x y) (h' : ¬p → PairR q x' y') :
    PairR q (if p then x else x') (if p then y else y') := by split <;> simp_all
theorem PairR.comm {x y : BitVec 8 × BitVec 16} (h : PairR q x y) : PairR q (x.1, setCommFlags x.2 x.1) (y.1, setCommFlags y.2 y.1) :=
  ⟨h.1, by rw [h.1]; exact h.2.comm _⟩
/-- the calculation with the two flags it tests apart -/
def daaAux (al : BitVec 8) (c a : Bool) (f : BitVec 16) : BitVec 8 × BitVec 16 :=
  let r : BitVec 8 × BitVec 16 :=
    if (al &&& 0xF).toNat > 9 || a then (al + 6, orIf f (al.toNat ≥ 0x100 - 6) FLAG_CF ||| FLAG_AF) else (al, clr f FLAG_AF)
  let r : BitVec 8 × BitVec 16 := if al.toNat > 0x99 || c then (r.1 + 0x60, r.2 ||| FLAG_CF) else (r.1, clr r.2 FLAG_CF)
  (r.1, setCommFlags r.2 r.1)
theorem daa_aux (al f) : daaCode al f = daaAux al (tst f FLAG_CF) (tst (clr f FLAG_CF) FLAG_AF) (clr f FLAG_CF) := rfl
theorem daaCode_dep (h : FEq q f g) (hq : q &&& 0x011 = 0) (al) : PairR q (daaCode al f) (daaCode al g) := by
  have hc : q &&& FLAG_CF = 0 := FEq.sub hq (by decide)
  have ha : q &&& FLAG_AF = 0 := FEq.sub hq (by decide)
  rw [daa_aux, daa_aux, h.tst hc, (h.clr FLAG_CF).tst ha]
  unfold daaAux
  refine PairR.comm ?_
  have h1 : ∀ r r' : BitVec 8 × BitVec 16, PairR q r r' → PairR q (if (al.toNat > 0x99 || tst g FLAG_CF) = true then (r.1 + 0x60, r.2 ||| FLAG_CF)
    else (r.1, clr r.2 FLAG_CF)) (if (al.toNat > 0x99 || tst g FLAG_CF) = true then (r'.1 + 0x60, r'.2 ||| FLAG_CF)
    else (r'.1, clr r'.2 FLAG_CF)) := fun r r' hr => PairR.ite (fun _ => ⟨congrArg (· + 0x60) hr.1, hr.2.or _⟩) fun _ => ⟨hr.1, hr.2.clr _⟩
  exact h1 _ _ (PairR.ite (fun _ => ⟨rfl, ((h.clr _).orIf _ _).or _⟩) fun _ => ⟨rfl, (h.clr _).clr _⟩)
/-- the calculation with the two flags it tests apart -/
def dasAux (al : BitVec 8) (c a : Bool) (f : BitVec 16) : BitVec 8 × BitVec 16 :=
  let r : BitVec 8 × BitVec 16 :=
    if (al &&& 0xF).toNat > 9 || a then (al - 6, orIf f (al.toNat < 6) FLAG_CF ||| FLAG_AF) else (al, clr f FLAG_AF)
  let r : BitVec 8 × BitVec 16 := if al.toNat > 0x99 || c then (r.1 - 0x60, r.2 ||| FLAG_CF) else r
  (r.1, setCommFlags r.2 r.1)
theorem das_aux (al f) : dasCode al f = dasAux al (tst f FLAG_CF) (tst (clr f FLAG_CF) FLAG_AF) (clr f FLAG_CF) := rfl
theorem dasCode_dep (h : FEq q f g) (hq : q &&& 0x011 = 0) (al) : PairR q (dasCode al f) (dasCode al g) := by
  have hc : q &&& FLAG_CF = 0 := FEq.sub hq (by decide)
  have ha : q &&& FLAG_AF = 0 := FEq.sub hq (by decide)
  rw [das_aux, das_aux, h.tst hc, (h.clr FLAG_CF).tst ha]
  unfold dasAux
  refine PairR.comm ?_
  have h1 : ∀ r r' : BitVec 8 × BitVec 16, PairR q r r' → PairR q (if (al.toNat > 0x99 || tst g FLAG_CF) = true then (r.1 - 0x60, r.2 ||| FLAG_CF)
    else r) (if (al.toNat > 0x99 || tst g FLAG_CF) = true then (r'.1 - 0x60, r'.2 ||| FLAG_CF)
    else r') := fun r r' hr => PairR.ite (fun _ => ⟨congrArg (· - 0x60) hr.1, hr.2.or _⟩) fun _ => hr
  exact h1 _ _ (PairR.ite (fun _ => ⟨rfl, ((h.clr _).orIf _ _).or _⟩) fun _ => ⟨rfl, (h.clr _).clr _⟩)
theorem flagOp_dep (h : FEq q f g) (k : FlagOp) : FEq q (flagOp k f) (flagOp k g) := by
  cases k
  · exact h.clr _
  · exact h.or _
  · exact h.clr _
  · exact h.or _
  · exact h.clr _
  · exact h.or _
  · exact h.xor _
end

/-- The flags a condition tests. -/
def Cond.mask : Cond → BitVec 16
  | .o | .no => 0x800
  | .c | .nc => 0x001
  | .z | .nz => 0x040
  | .be | .a => 0x041
  | .s | .ns => 0x080
  | .pe | .po => 0x004
  | .l | .ge => 0x880
  | .le | .g => 0x8C0
theorem cond_dep {q f g : BitVec 16} (h : FEq q f g) {k : Cond} (hq : q &&& k.mask = 0) : k.eval f = k.eval g := by
  cases k <;> simp only [Cond.eval] <;> simp only [Cond.mask] at hq
  · rw [h.tst hq]
  · rw [h.tst hq]
  · rw [h.tst hq]
  · rw [h.tst hq]
  · rw [h.tst hq]
  · rw [h.tst hq]
  · rw [h.tst (FEq.sub hq (k := FLAG_CF) (by decide)), h.tst (FEq.sub hq (k := FLAG_ZF) (by decide))]
  · rw [h.tst (FEq.sub hq (k := FLAG_CF) (by decide)), h.tst (FEq.sub hq (k := FLAG_ZF) (by decide))]
  · rw [h.tst hq]
  · rw [h.tst hq]
  · rw [h.tst hq]
  · rw [h.tst hq]
  · rw [h.tst (FEq.sub hq (k := FLAG_SF) (by decide)), h.tst (FEq.sub hq (k := FLAG_OF) (by decide))]
  · rw [h.tst (FEq.sub hq (k := FLAG_SF) (by decide)), h.tst (FEq.sub hq (k := FLAG_OF) (by decide))]
  · rw [h.tst (FEq.sub hq (k := FLAG_SF) (by decide)), h.tst (FEq.sub hq (k := FLAG_OF) (by decide)), h.tst (FEq.sub hq (k := FLAG_ZF) (by decide))]
  · rw [h.tst (FEq.sub hq (k := FLAG_SF) (by decide)), h.tst (FEq.sub hq (k := FLAG_OF) (by decide)), h.tst (FEq.sub hq (k := FLAG_ZF) (by decide))]

/-! ### Operands -/
/-- The registers of the address may be read. -/
def Hid.EaOfs (H : Hid) (b : BitVec 8) : Prop := ∀ r, eaReads H.p.addr b r = true → H.RegX r
def Hid.EaOk (H : Hid) (b : BitVec 8) : Prop := H.EaOfs b ∧ H.SegOk (usedSeg H.p b)

/-- The source `d`, with ModR/M byte `b`, may be read. -/
def Hid.Cov (H : Hid) (b : BitVec 8) : Src → Prop
  | .rm8 => (modOf b = 3 → H.RegX (rmOf b &&& 3)) ∧ (modOf b ≠ 3 → H.EaOk b)
  | .rm => (modOf b = 3 → H.RegX (rmOf b)) ∧ (modOf b ≠ 3 → H.EaOk b)
  | .addr => modOf b ≠ 3 → H.EaOk b
  | .ofs => modOf b ≠ 3 → H.EaOfs b
  | .reg8 => H.RegX (regOf b &&& 3)
  | .reg => H.RegX (regOf b)
  | .gpr r => H.RegX r
  | .sreg r => H.SegOk r
  | .dseg r => H.SegOk (H.p.seg.getD r)
  | .flags m => H.fl &&& m = 0
  | .count => H.p.rep ≠ .none → H.RegX 1
  | .fault => H.RegX 4 ∧ H.SegOk .ss ∧ H.fl = 0
  | .any => (∀ r, H.RegX r) ∧ (∀ r, H.SegOk r) ∧ H.fl = 0

namespace Tw
variable {H : Hid} {env : Env} {α β α' β' γ γ' : Type} {R R1 R' : State → State → Prop}

theorem liftUB2 {x y : Except UB (α × BitVec 16)} (h : ExR H.fl x y) : Tm H env (PairR H.fl) (RME.liftUB x) (RME.liftUB y) := by
  cases x <;> cases y <;> try exact h.elim
  · cases h; exact ubE
  · exact pure h

theorem usedSeg_eq (b : BitVec 8) : defaultSeg (rmOf b) (decide (modOf b = 0)) = (if usesBP b && modOf b != 0 then .ss else .ds) := by
  unfold defaultSeg usesBP
  by_cases h : modOf b = 0
  · simp [h]
  · simp [h]

/-- same offset; same segment if it may be read -/
def AddrR (H : Hid) (b : BitVec 8) (x y : BitVec 16 × BitVec 32) : Prop := x.2 = y.2 ∧ (H.SegOk (usedSeg H.p b) → x.1 = y.1)

theorem getSegmentV {r} : Tm H env (fun a a' => H.SegOk (H.p.seg.getD r) → a = a') (RME.getSegment r) (RME.getSegment r) :=
  bindDec fun d h1 _ _ _ => by rw [h1]; exact getsR fun s t h hs => h.1.sreg _ hs

theorem rm8cases : ∀ x : BitVec 3, x = 0 ∨ x = 1 ∨ x = 2 ∨ x = 3 ∨ x = 4 ∨ x = 5 ∨ x = 6 ∨ x = 7 := by decide

section
variable [k : H.CS]
theorem doFunc {b : BitVec 8} {mod0 : Bool} {disp} (hm : mod0 = decide (modOf b = 0)) (ha : H.p.addr = false) (he : H.EaOfs b) :
    Tm H env (AddrR H b) (RME.doFunc (rmOf b) mod0 disp) (RME.doFunc (rmOf b) mod0 disp) := by
  subst hm
  unfold RME.doFunc
  refine bind getSegmentV fun sg sg' hsg => ?_
  rw [usedSeg_eq] at hsg
  change H.SegOk (usedSeg H.p b) → sg = sg' at hsg
  refine bind (V := H.Sim) (getsR fun s t h => h.1) fun s t hst => ?_
  dsimp only
  refine ite (fun _ => bindE readInstr fun _ => pure ⟨rfl, hsg⟩) fun hne => pure ⟨?_, hsg⟩
  have rd : ∀ r, eaReads false b r = true → s.reg 16 r = t.reg 16 r := fun r hr => hst.reg (he r (by rw [ha]; exact hr)).ok16
  dsimp only
  have h5 : rmOf b = 6 → modOf b ≠ 0 := fun h6 h0 => hne ⟨h6, by simp [h0]⟩
  rcases rm8cases (rmOf b) with h | h | h | h | h | h | h | h <;>
    simp only [h, show rBX = 3 from rfl, show rSI = 6 from rfl, show rDI = 7 from rfl, show rBP = 5 from rfl] <;> simp (decide := true) only [if_true, if_false]
  · rw [rd 3 (by simp [eaReads, h]), rd 6 (by simp [eaReads, h])]
  · rw [rd 3 (by simp [eaReads, h]), rd 7 (by simp [eaReads, h])]
  · rw [rd 5 (by simp [eaReads, h]), rd 6 (by simp [eaReads, h])]
  · rw [rd 5 (by simp [eaReads, h]), rd 7 (by simp [eaReads, h])]
  · rw [rd 6 (by simp [eaReads, h])]
  · rw [rd 7 (by simp [eaReads, h])]
  · rw [rd 5 (by simp [eaReads, h, h5 h])]
  · rw [rd 3 (by simp [eaReads, h])]
theorem doFunc32 {b : BitVec 8} {mod0 : Bool} {disp} (hm : mod0 = decide (modOf b = 0)) (ha : H.p.addr = true) (he : H.EaOfs b) :
    Tm H env (AddrR H b) (RME.doFunc32 (rmOf b) mod0 disp) (RME.doFunc32 (rmOf b) mod0 disp) := by
  subst hm
  unfold RME.doFunc32
  refine bind getSegmentV fun sg sg' hsg => ?_
  rw [usedSeg_eq] at hsg
  change H.SegOk (usedSeg H.p b) → sg = sg' at hsg
  refine bind (V := H.Sim) (getsR fun s t h => h.1) fun s t hst => ?_
  have rd : ∀ r, eaReads true b r = true → s.gpr r = t.gpr r := fun r hr => (hst.gpr r).eq ((he r (by rw [ha]; exact hr)).ok32 (Or.inr ha))
  refine ite (fun h4 => bindE readInstr fun sib => ?_) fun h4 => ite (fun _ => bindE readInstr fun _ => pure ⟨rfl, hsg⟩) fun h5 => pure ⟨?_, hsg⟩
  · have hall : s.gpr = t.gpr := funext fun r => rd r (by simp [eaReads, h4])
    dsimp only
    simp only [sibIndex, hall]
    exact ite (fun _ => bindE readInstr fun _ => pure ⟨rfl, hsg⟩) fun _ => pure ⟨rfl, hsg⟩
  · dsimp only
    rw [rd (rmOf b) (by
      unfold eaReads
      rw [if_pos rfl, if_neg h4, if_neg]
      · simp
      · intro h; exact h5 ⟨h.2, by simp [h.1]⟩)]

theorem ofB_mod0 (b : BitVec 8) : (ModRM.ofByte b).mod = 0 ↔ modOf b = 0 := by
  simp only [ModRM.ofByte, modOf]
  constructor
  · intro h
    have := congrArg BitVec.toNat h
    simp [Nat.shiftRight_eq_div_pow] at this
    have := b.isLt; omega
  · intro h
    apply BitVec.eq_of_toNat_eq
    simp [Nat.shiftRight_eq_div_pow]
    have := b.isLt; omega

theorem getMMM {b : BitVec 8} (h3 : modOf b ≠ 3) (he : H.EaOfs b) : Tm H env (AddrR H b) (RME.getMMM (ModRM.ofByte b)) (RME.getMMM (ModRM.ofByte b)) := by
  unfold RME.getMMM
  rw [ofByteF_rm]
  have e0 : (ModRM.ofByte b).mod = 0 → true = decide (modOf b = 0) := fun h => by simp [(ofB_mod0 b).1 h]
  have e1 : (ModRM.ofByte b).mod ≠ 0 → false = decide (modOf b = 0) := fun h => by
    have : modOf b ≠ 0 := fun h' => h ((ofB_mod0 b).2 h')
    simp [this]
  refine bindDec fun d _ _ _ ha => ?_
  rw [ha]
  refine ite (fun h => ite (fun h0 => doFunc32 (e0 h0) h he) fun h0 => ite (fun _ => bindE readInstr8S fun _ => doFunc32 (e1 h0) h he) fun _ =>
      ite (fun _ => bindE readInstr fun _ => doFunc32 (e1 h0) h he) fun _ => throw) fun h => ?_
  have h : H.p.addr = false := by simpa using h
  exact ite (fun h0 => doFunc (e0 h0) h he) fun h0 => ite (fun _ => bindE readInstr8S fun _ => doFunc (e1 h0) h he) fun _ =>
      ite (fun _ => bindE readInstr fun _ => doFunc (e1 h0) h he) fun _ => throw
theorem getMMME {b : BitVec 8} (h3 : modOf b ≠ 3) (he : H.EaOk b) : Te H env (RME.getMMM (ModRM.ofByte b)) (RME.getMMM (ModRM.ofByte b)) := by
  intro s t h
  have := getMMM (env := env) h3 he.1 s t h
  cases h1 : RME.getMMM (ModRM.ofByte b) env s <;> cases h2 : RME.getMMM (ModRM.ofByte b) env t <;> rw [h1, h2] at this <;> try exact this.elim
  · exact ⟨this.1, Prod.ext (this.2.2 he.2) this.2.1⟩
  · exact this
  · exact this

/-- same location, the one mod and r/m name -/
def LocR (l3 : Loc) (b : BitVec 8) (l l' : Loc) : Prop := l = l' ∧ Fr.isRM l3 b l

theorem decodeModM {b : BitVec 8} (he : modOf b ≠ 3 → H.EaOk b) :
    Tm H env (LocR (regB (rmOf b)) b) (RME.decodeModM (ModRM.ofByte b)) (RME.decodeModM (ModRM.ofByte b)) := by
  unfold RME.decodeModM
  refine ite (fun h3 => ?_) fun h3 => ?_
  · rw [ofByteF_rm]
    exact pure ⟨rfl, Or.inl ⟨(ofByteF_mod b).1 h3, rfl⟩⟩
  · have h3' : modOf b ≠ 3 := fun h => h3 ((ofByteF_mod b).2 h)
    exact bindE (getMMME h3' (he h3')) fun _ => bindE getPtr fun _ => pure ⟨rfl, Or.inr ⟨h3', _, rfl⟩⟩
theorem decodeModMX {b : BitVec 8} (he : modOf b ≠ 3 → H.EaOk b) :
    Tm H env (LocR (regW (rmOf b)) b) (RME.decodeModMX (ModRM.ofByte b)) (RME.decodeModMX (ModRM.ofByte b)) := by
  unfold RME.decodeModMX
  refine ite (fun h3 => ?_) fun h3 => ?_
  · rw [ofByteF_rm]
    exact pure ⟨rfl, Or.inl ⟨(ofByteF_mod b).1 h3, rfl⟩⟩
  · have h3' : modOf b ≠ 3 := fun h => h3 ((ofByteF_mod b).2 h)
    exact bindE (getMMME h3' (he h3')) fun _ => bindE guardE fun _ => bindE getPtr fun _ => pure ⟨rfl, Or.inr ⟨h3', _, rfl⟩⟩

/-- Related states in which the next byte (ModR/M) is known to satisfy `C`. -/
def RB (H : Hid) (env : Env) (C : BitVec 8 → Prop) (s t : State) : Prop := H.R s t ∧ ∀ b, modByte env s = some b → C b

theorem readByte {C : BitVec 8 → Prop} : Tw H env (RB H env C) H.R (fun b b' => b = b' ∧ C b) (RME.readInstr 8) (RME.readInstr 8) := by
  intro s t h
  have := readInstr (n := 8) (env := env) s t h.1
  cases h1 : RME.readInstr 8 env s <;> cases h2 : RME.readInstr 8 env t <;> rw [h1, h2] at this <;> try exact this.elim
  · exact ⟨this.1, this.2, h.2 _ (by rw [modByte, h1])⟩
  · exact this
  · exact this
theorem bindModRM {C : BitVec 8 → Prop} {V : β → β' → Prop} {f : ModRM → M β} {f' : ModRM → M β'}
    (h : ∀ b, C b → Tw H env H.R R' V (f (ModRM.ofByte b)) (f' (ModRM.ofByte b))) : Tw H env (RB H env C) R' V (RME.getModRM >>= f) (RME.getModRM >>= f') := by
  refine bind (V := fun m m' => m = m' ∧ ∃ b, m = ModRM.ofByte b ∧ C b) (R1 := H.R) ?_ ?_
  · refine bind readByte fun b b' hb => ?_
    obtain ⟨rfl, hc⟩ := hb
    exact pure ⟨rfl, b, rfl, hc⟩
  · rintro m m' ⟨rfl, b, rfl, hc⟩
    exact h b hc
theorem bindUnchecked {C : BitVec 8 → Prop} {V : β → β' → Prop} {f : ModRM → M β} {f' : ModRM → M β'}
    (h : ∀ b, C b → Tw H env H.R R' V (f (ModRM.ofByte b)) (f' (ModRM.ofByte b))) :
    Tw H env (RB H env C) R' V (RME.getModRM_unchecked >>= f) (RME.getModRM_unchecked >>= f') := by
  refine bind (V := fun m m' => m = m' ∧ ∃ b, m = ModRM.ofByte b ∧ C b) (R1 := H.R) ?_ ?_
  · intro s t hs
    have : Tw H env (RB H env C) H.R (fun m m' => m = m' ∧ ∃ b, m = ModRM.ofByte b ∧ C b) RME.getModRM RME.getModRM := by
      refine bind readByte fun b b' hb => ?_
      obtain ⟨rfl, hc⟩ := hb
      exact pure ⟨rfl, b, rfl, hc⟩
    have := this s t hs
    simp only [RME.getModRM_unchecked]
    cases h1 : RME.getModRM env s <;> cases h2 : RME.getModRM env t <;> rw [h1, h2] at this <;> try exact this.elim
    · exact this
    · rfl
    · exact this
  · rintro m m' ⟨rfl, b, rfl, hc⟩
    exact h b hc
theorem parseRM_eq (f : Loc × Loc → M α) : (RME.parseModRM >>= f) = (RME.getModRM >>= fun m => RME.decodeModM m >>= fun l => f (regB m.rrr, l)) := by
  funext env s
  simp only [RME.parseModRM, bind_apply]
  cases RME.getModRM env s with
  | ok m t =>
    simp only [resbind_ok]
    cases RME.decodeModM m env t <;> rfl
  | err e t => rfl
  | ub u => rfl
theorem parseRMX_eq (f : Loc × Loc → M α) : (RME.parseModRMX >>= f) = (RME.getModRM >>= fun m => RME.decodeModMX m >>= fun l => f (regW m.rrr, l)) := by
  funext env s
  simp only [RME.parseModRMX, bind_apply]
  cases RME.getModRM env s with
  | ok m t =>
    simp only [resbind_ok]
    cases RME.decodeModMX m env t <;> rfl
  | err e t => rfl
  | ub u => rfl
theorem bindRM {C : BitVec 8 → Prop} {V : β → β' → Prop} {f : Loc × Loc → M β} {f' : Loc × Loc → M β'}
    (he : ∀ b, C b → modOf b ≠ 3 → H.EaOk b)
    (h : ∀ b l, C b → Fr.isRM (regB (rmOf b)) b l → Tw H env H.R R' V (f (regB (regOf b), l)) (f' (regB (regOf b), l))) :
    Tw H env (RB H env C) R' V (RME.parseModRM >>= f) (RME.parseModRM >>= f') := by
  rw [parseRM_eq, parseRM_eq]
  refine bindModRM fun b hb => bind (decodeModM (he b hb)) fun l l' hl => ?_
  obtain ⟨rfl, hl⟩ := hl
  rw [ofByteF_reg]
  exact h b l hb hl
theorem bindRMX {C : BitVec 8 → Prop} {V : β → β' → Prop} {f : Loc × Loc → M β} {f' : Loc × Loc → M β'}
    (he : ∀ b, C b → modOf b ≠ 3 → H.EaOk b)
    (h : ∀ b l, C b → Fr.isRM (regW (rmOf b)) b l → Tw H env H.R R' V (f (regW (regOf b), l)) (f' (regW (regOf b), l))) :
    Tw H env (RB H env C) R' V (RME.parseModRMX >>= f) (RME.parseModRMX >>= f') := by
  rw [parseRMX_eq, parseRMX_eq]
  refine bindModRM fun b hb => bind (decodeModMX (he b hb)) fun l l' hl => ?_
  obtain ⟨rfl, hl⟩ := hl
  rw [ofByteF_reg]
  exact h b l hb hl
end

/-! Locations -/
theorem regB_lt {r : BitVec 3} (h : r.toNat < 4) : regB r = .reg r := by unfold regB; rw [if_neg (by omega)]
theorem regB_cases : ∀ r : BitVec 3, regB r = .reg (r &&& 3) ∨ regB r = .regH (r &&& 3) := by decide
theorem rdRegB {r : BitVec 3} (h : H.RegX (r &&& 3)) : RdOk H 8 (regB r) := by
  rcases regB_cases r with e | e <;> rw [e]
  · exact h.ok8
  · exact Or.inl ⟨rfl, h.ok16⟩
theorem rdRegW {n} {r : BitVec 3} (h : H.RegX r) (hn : H.Wid n) : RdOk H n (regW r) := h.okW hn
theorem rdRegW16 {r : BitVec 3} (h : H.RegX r) : RdOk H 16 (regW r) := h.ok16
theorem rdRM8 {b : BitVec 8} {l} (h : H.Cov b .rm8) (hl : Fr.isRM (regB (rmOf b)) b l) : RdOk H 8 l := by
  rcases hl with ⟨h3, rfl⟩ | ⟨_, p, rfl⟩
  · exact rdRegB (h.1 h3)
  · trivial
theorem rdRMX {b : BitVec 8} {l n} (h : H.Cov b .rm) (hl : Fr.isRM (regW (rmOf b)) b l) (hn : H.Wid n) : RdOk H n l := by
  rcases hl with ⟨h3, rfl⟩ | ⟨_, p, rfl⟩
  · exact rdRegW (h.1 h3) hn
  · trivial
theorem rdRMX16 {b : BitVec 8} {l} (h : H.Cov b .rm) (hl : Fr.isRM (regW (rmOf b)) b l) : RdOk H 16 l := by
  rcases hl with ⟨h3, rfl⟩ | ⟨_, p, rfl⟩
  · exact rdRegW16 (h.1 h3)
  · trivial
theorem wrRM8 {b : BitVec 8} {l} (hl : Fr.isRM (regB (rmOf b)) b l) : WrOk H 8 l := by
  rcases hl with ⟨h3, rfl⟩ | ⟨_, p, rfl⟩
  · exact wrRegB
  · trivial
theorem wrRMX {b : BitVec 8} {l n} (hl : Fr.isRM (regW (rmOf b)) b l) : WrOk H n l := by
  rcases hl with ⟨h3, rfl⟩ | ⟨_, p, rfl⟩
  · exact wrRegW
  · trivial
end Tw
end RME
