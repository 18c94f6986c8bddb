import Verif.Model.ImmText
import Verif.Props.Mnemonic
import Verif.Props.OperandText
set_option autoImplicit false
/-
The text of the opcode functions does not change what they do; the text of a function is the one given to `say`.
-/
namespace RME.Trace

/-- `m` does what `m'` does and gives a text. -/
def Er (m : M (List Char)) (m' : M Unit) : Prop := ∀ env s, (m env s).bind (fun _ t => .ok () t) = m' env s

theorem Er.bind {α : Type} {m : M α} {k : α → M (List Char)} {k' : α → M Unit} (h : ∀ x, Er (k x) (k' x)) : Er (m >>= k) (m >>= k') := by
  intro env s
  simp only [bind_apply]
  cases m env s with
  | ok x t => exact h x env t
  | err e t => rfl
  | ub u => rfl

theorem Er.say {t : List Char} {m : M (List Char)} {m' : M Unit} (h : Er m m') : Er (say t m) m' := by
  intro env s
  rw [← h env s]
  simp only [Trace.say, bind_apply]
  cases m env s <;> rfl

theorem Er.quiet (m : M Unit) : Er (quiet m) m := by
  intro env s
  simp only [Trace.quiet, bind_apply]
  cases m env s <;> rfl

theorem Er.sayq {t : List Char} {m : M Unit} : Er (Trace.say t (Trace.quiet m)) m := Er.say (Er.quiet m)

theorem Er.withW {f : Nat → M (List Char)} {f' : Nat → M Unit} (h : ∀ n, Er (f n) (f' n)) : Er (withW f) (withW f') := by
  intro env s
  simp only [RME.withW, bind_apply, getDec_apply, resbind_ok, ite_apply]
  split
  · exact h 32 env s
  · exact h 16 env s

theorem Er.dec {k : Decoder → M (List Char)} {m' : M Unit} (h : ∀ d, Er (k d) m') : Er (getDec >>= k) m' := by
  intro env s
  simp only [bind_apply, getDec_apply, resbind_ok]
  exact h _ env s

theorem Er.moffs {k : (BitVec 16 × BitVec 16) × List Char → M (List Char)} {k' : BitVec 16 → BitVec 16 → M Unit}
    (h : ∀ seg ofs t, Er (k ((seg, ofs), t)) (k' seg ofs)) : Er (moffsT >>= k) (getSegment .ds >>= fun seg => RME.moffs >>= fun ofs => k' seg ofs) := by
  intro env s
  simp only [moffsT, segUsed, getSegment, RME.moffs, bind_apply, getDec_apply, resbind_ok, pure_apply, getSreg_apply, ite_apply]
  split
  · cases readInstr 32 env s with
    | ok x t => exact h _ _ _ env t
    | err e t => rfl
    | ub u => rfl
  · cases readInstr 16 env s with
    | ok x t => exact h _ _ _ env t
    | err e t => rfl
    | ub u => rfl

theorem Er.seg {d : SReg} {k : SReg → M (List Char)} {m' : M Unit} (h : ∀ x, Er (k x) m') : Er (segUsed d >>= k) m' := by
  intro env s
  simp only [segUsed, bind_apply, getDec_apply, resbind_ok, pure_apply]
  exact h _ env s

theorem Er.reg {n : Nat} {r : BitVec 3} {k : BitVec n → M (List Char)} {m' : M Unit} (h : ∀ x, Er (k x) m') : Er (getReg n r >>= k) m' := by
  intro env s
  simp only [bind_apply, getReg_apply, resbind_ok]
  exact h _ env s

theorem Er.stringOp (z uD uS : Bool) (a b : String) (step : Nat) (body : BitVec 16 → BitVec 32 → BitVec 16 → BitVec 32 → M Unit) :
    Er (stringOpT z uD uS a b step body) (RME.stringOp z uD uS step body) := by
  refine .bind fun es => .seg fun sr => .bind fun seg => .bind fun d => .bind fun dd => .bind fun so => .bind fun cx => .say ?_
  show Er (ite _ _ _) (ite _ _ _)
  split
  · exact .quiet _
  · exact .bind fun r => .bind fun _ => .bind fun _ => .dec fun _ => .reg fun _ => .sayq

theorem Er.strW {w : Bool} {f : Nat → M (List Char)} {f' : Nat → M Unit} (h : ∀ n, Er (f n) (f' n)) : Er (strWT w f) (RME.strW w f') := by
  cases w
  · exact h 8
  · exact .withW h

theorem Er.rmB {rev : Bool} {k : Loc → Loc → M (List Char)} {k' : Loc × Loc → M Unit} (h : ∀ x, Er (k x.1 x.2) (k' x)) : Er (rmB rev k) (RME.parseModRM >>= k') := by
  intro env s
  simp only [Trace.rmB, bind_apply]
  rw [← (C91_operands8 rev env s).1]
  cases parseModRMT rev env s with
  | ok x t => exact Er.say (h x.1) env t
  | err e t => rfl
  | ub u => rfl

theorem Er.rmX {rev : Bool} {k : Loc → Loc → M (List Char)} {k' : Loc × Loc → M Unit} (h : ∀ x, Er (k x.1 x.2) (k' x)) : Er (rmX rev k) (RME.parseModRMX >>= k') := by
  intro env s
  simp only [Trace.rmX, bind_apply]
  rw [← (C91_operands rev env s).1]
  cases parseModRMXT rev env s with
  | ok x t => exact Er.say (h x.1) env t
  | err e t => rfl
  | ub u => rfl

theorem Er.mB {k : Loc → M (List Char)} {k' : Loc × Loc → M Unit} (h : ∀ x, Er (k x.2) (k' x)) : Er (mB k) (RME.parseModRM >>= k') := by
  intro env s
  simp only [Trace.mB, RME.parseModRM, bind_apply]
  cases getModRM env s with
  | err e t => rfl
  | ub u => rfl
  | ok m t =>
    simp only [resbind_ok]
    rw [← (decodeModM_says m env t).1]
    cases decodeModMT m env t with
    | ok x t => exact Er.say (h (regB m.rrr, x.1)) env t
    | err e t => rfl
    | ub u => rfl

theorem Er.mX {k : Loc → M (List Char)} {k' : Loc × Loc → M Unit} (h : ∀ x, Er (k x.2) (k' x)) : Er (mX k) (RME.parseModRMX >>= k') := by
  intro env s
  simp only [Trace.mX, RME.parseModRMX, bind_apply]
  cases getModRM env s with
  | err e t => rfl
  | ub u => rfl
  | ok m t =>
    simp only [resbind_ok]
    rw [← (decodeModMX_says m env t).1]
    cases decodeModMXT m env t with
    | ok x t => exact Er.say (h (regW m.rrr, x.1)) env t
    | err e t => rfl
    | ub u => rfl

theorem Er.misc (n : Nat) (p : BitVec 3) (m : Loc) : Er (miscOpT n p m) (miscOp n p m) := by
  by_cases h : p = 0
  · simp only [miscOpT, miscOp, if_pos h]
    exact .bind fun _ => .sayq
  · simp only [miscOpT, if_neg h]
    exact .quiet _

theorem Er.mM {m : ModRM} {k : BitVec 16 × BitVec 32 → M (List Char)} {k' : BitVec 16 × BitVec 32 → M Unit} (h : ∀ x, Er (k x) (k' x)) :
    Er (Trace.mM m k) (getMMM m >>= k') := by
  intro env s
  simp only [Trace.mM, bind_apply]
  rw [← (getMMM_says m env s).1]
  cases getMMMT m env s with
  | ok x t => exact Er.say (h x.1) env t
  | err e t => rfl
  | ub u => rfl

theorem Er.mod (m : ModRM) {k : Loc → M Unit} : Er (do let x ← decodeModMT m; Trace.say x.2 (Trace.quiet (k x.1))) (decodeModM m >>= k) := by
  intro env s
  simp only [bind_apply]
  rw [← (decodeModM_says m env s).1]
  cases decodeModMT m env s with
  | ok x t => exact Er.say (Er.quiet _) env t
  | err e t => rfl
  | ub u => rfl

theorem Er.modX (m : ModRM) {k : Loc → M Unit} : Er (do let x ← decodeModMXT m; Trace.say x.2 (Trace.quiet (k x.1))) (decodeModMX m >>= k) := by
  intro env s
  simp only [bind_apply]
  rw [← (decodeModMX_says m env s).1]
  cases decodeModMXT m env s with
  | ok x t => exact Er.say (Er.quiet _) env t
  | err e t => rfl
  | ub u => rfl

theorem Er.far {k : BitVec 16 × BitVec 16 → M Unit} : Er (farT k) (parseFarPtr >>= k) := by
  have e : (parseFarPtr >>= k) = (do
      let m ← getModRM
      guardE (m.mod == 3) .undefOpcode
      let x ← getMMM m
      let ip ← readMem 16 x.1 (x.2.setWidth 16)
      let cs ← readMem 16 x.1 ((x.2 + 2).setWidth 16)
      k (cs, ip) : M Unit) := by
    funext env s
    simp only [parseFarPtr, bind_apply]
    cases getModRM env s with
    | err e t => rfl
    | ub u => rfl
    | ok m t =>
    simp only [resbind_ok]
    cases guardE (m.mod == 3) .undefOpcode env t with
    | err e t => rfl
    | ub u => rfl
    | ok _ t =>
    simp only [resbind_ok]
    cases getMMM m env t with
    | err e t => rfl
    | ub u => rfl
    | ok x t =>
    simp only [resbind_ok]
    cases readMem 16 x.1 (x.2.setWidth 16) env t with
    | err e t => rfl
    | ub u => rfl
    | ok ip t =>
    simp only [resbind_ok]
    cases readMem 16 x.1 ((x.2 + 2).setWidth 16) env t with
    | err e t => rfl
    | ub u => rfl
    | ok cs t => rfl
  rw [e]
  exact .bind fun m => .bind fun _ => .mM fun x => .quiet _

theorem Er.unaryMX (p : BitVec 3) : Er (unaryMXT p) (opUnaryMX p) := by
  unfold unaryMXT opUnaryMX
  refine .bind fun d => ?_
  have thr : Er (throwE .undefOpcode) (throwE .undefOpcode) := fun env s => rfl
  split
  · repeat' (first | (split; exact .mX fun _ => .quiet _) | exact thr)
  · split
    · exact .mX fun _ => .quiet _
    split
    · exact .mX fun _ => .quiet _
    split
    · exact .mX fun _ => .quiet _
    split
    · exact .far
    split
    · exact .mX fun _ => .quiet _
    split
    · exact .far
    split
    · exact .mX fun _ => .quiet _
    · exact thr

theorem opRMT_erase (other : Op → BitVec 3 → List Char) (o : Op) (p : BitVec 3) : Er (opRMT other o p) (opFn o p) := by
  cases o with
  | alu k form =>
    cases form with
    | RM => unfold opRMT opFn opAlu; refine .rmB ?_; exact fun _ => .quiet _
    | RMX => unfold opRMT opFn opAlu; refine .rmX ?_; exact fun _ => .quiet _
    | MR => unfold opRMT opFn opAlu; refine .rmB ?_; exact fun _ => .quiet _
    | MRX => unfold opRMT opFn opAlu; refine .rmX ?_; exact fun _ => .quiet _
    | _ => exact .sayq
  | testMR => unfold opRMT opFn opTestMR; refine .rmB ?_; exact fun _ => .quiet _
  | testMRX => unfold opRMT opFn opTestMRX; refine .rmX ?_; exact fun _ => .quiet _
  | movMR => unfold opRMT opFn opMovMR; refine .rmB ?_; exact fun _ => .quiet _
  | movMRX => unfold opRMT opFn opMovMRX; refine .rmX ?_; exact fun _ => .quiet _
  | movRM => unfold opRMT opFn opMovRM; refine .rmB ?_; exact fun _ => .quiet _
  | movRMX => unfold opRMT opFn opMovRMX; refine .rmX ?_; exact fun _ => .quiet _
  | xchgRM => unfold opRMT opFn opXchgRM; refine .rmB ?_; exact fun _ => .quiet _
  | xchgRMX => unfold opRMT opFn opXchgRMX; refine .rmX ?_; exact fun _ => .quiet _
  | arithMI => unfold opRMT opFn opArithMI; refine .mB ?_; exact fun _ => .bind fun _ => .sayq
  | arithMIX => unfold opRMT opFn opArithMIX; refine .mX ?_; exact fun _ => .bind fun _ => .withW fun _ => .bind fun _ => .sayq
  | arithMI8X => unfold opRMT opFn opArithMI8X; refine .mX ?_; exact fun _ => .bind fun _ => .withW fun _ => .bind fun _ => .sayq
  | movMI => unfold opRMT opFn opMovMI; refine .mB ?_; exact fun _ => .bind fun _ => .sayq
  | movMIX => unfold opRMT opFn opMovMIX; refine .mX ?_; exact fun _ => .withW fun _ => .bind fun _ => .sayq
  | shiftMI => unfold opRMT opFn opShiftMI; refine .mB ?_; exact fun _ => .bind fun _ => .sayq
  | shiftMI8X => unfold opRMT opFn opShiftMI8X; refine .mX ?_; exact fun _ => .bind fun _ => .sayq
  | shiftM1 => unfold opRMT opFn opShiftM1; refine .mB ?_; exact fun _ => .sayq
  | shiftM1X => unfold opRMT opFn opShiftM1X; refine .mX ?_; exact fun _ => .sayq
  | shiftMCl => exact .bind fun _ => .mB fun _ => .sayq
  | shiftMClX => exact .bind fun _ => .mX fun _ => .sayq
  | miscMI => unfold opRMT opFn opMiscMI; refine .mB ?_; exact fun _ => .misc _ _ _
  | miscMIX => unfold opRMT opFn opMiscMIX; refine .mX ?_; exact fun _ => .withW fun _ => .misc _ _ _
  | unaryM =>
    show Er (ite _ _ _) (ite _ _ _)
    split
    · exact .mB fun _ => .quiet _
    · show Er (ite _ _ _) (ite _ _ _)
      split
      · exact .mB fun _ => .quiet _
      · exact fun env s => rfl
  | imulMIX => exact .bind fun _ => .bind fun _ => .rmX fun _ => .bind fun _ => .sayq
  | imulMI8X => exact .bind fun _ => .bind fun _ => .rmX fun _ => .bind fun _ => .sayq
  | imulRMX => exact .bind fun _ => .bind fun _ => .rmX fun _ => .quiet _
  | unaryMX => exact .unaryMX p
  | popMX => exact .bind fun _ => .bind fun _ => .mX fun _ => .quiet _
  | movRS => exact .bind fun _ => .bind fun _ => .bind fun _ => .mX fun _ => .bind fun _ => .sayq
  | movSR => exact .bind fun _ => .bind fun _ => .bind fun _ => .bind fun _ => .say (.mX fun _ => .quiet _)
  | lea => exact .bind fun _ => .bind fun _ => .dec fun _ => .say (.mM fun _ => .quiet _)
  | lxs sr => exact .bind fun _ => .bind fun _ => .mM fun _ => .dec fun _ => .sayq
  | movZ => exact .bind fun m => .dec fun _ => .say (Er.mod m (k := fun l => withW fun n => do let v ← readLoc 8 l; writeLoc n (regW m.rrr) (v.setWidth n)))
  | movZX => exact .bind fun m => .dec fun _ => .say (Er.modX m (k := fun l => withW fun n => do let v ← readLoc 16 l; writeLoc n (regW m.rrr) (v.setWidth n)))
  | bsf => unfold opRMT opFn opBsf; refine .rmX ?_; exact fun _ => .quiet _
  | shxdI8 right => unfold opRMT opFn opShxdI8; refine .rmB ?_; exact fun _ => .bind fun _ => .sayq
  | shxdCl right => unfold opRMT opFn opShxdCl; refine .rmB ?_; exact fun _ => .sayq
  | _ => exact .sayq

theorem opFnT_erase (other : Op → BitVec 3 → List Char) (o : Op) (p : BitVec 3) : Er (opFnT other o p) (opFn o p) := by
  cases o with
  | alu k form =>
    cases form with
    | AI => exact .bind fun _ => .sayq
    | AIX =>
      exact Er.withW (f := fun n => do let s ← readInstr n; Trace.say (" ".toList ++ accX n ++ num " 0x" (n / 4) s.toNat) (Trace.quiet (aluApply k n (.reg rAX) s))) (f' := fun n => do let s ← readInstr n; aluApply k n (.reg rAX) s) fun n => .bind fun _ => .sayq
    | _ => simp only [opFnT]; exact opRMT_erase other _ p
  | testAI => exact .bind fun _ => .sayq
  | testAIX =>
    exact Er.withW (f := fun n => do let s ← readInstr n; Trace.say (" ".toList ++ accX n ++ num " 0x" (n / 4) s.toNat) (Trace.quiet (testApply n (.reg rAX) s))) (f' := fun n => do let s ← readInstr n; testApply n (.reg rAX) s) fun n => .bind fun _ => .sayq
  | incReg => exact .dec fun _ => .sayq
  | decReg => exact .dec fun _ => .sayq
  | pushReg => exact .dec fun _ => .sayq
  | popReg => exact .dec fun _ => .sayq
  | xchgReg =>
    refine .dec fun d => ?_
    show Er (ite _ _ _) _
    split
    · exact .sayq
    · exact .say .sayq
  | pushSeg => exact .bind fun _ => .sayq
  | popSeg => exact .bind fun _ => .sayq
  | movRegB => exact .bind fun _ => .say .sayq
  | movReg => exact .dec fun _ => .withW fun _ => .bind fun _ => .say .sayq
  | pushI => exact .bind fun _ => .sayq
  | pushI8 => exact .bind fun _ => .sayq
  | movAMo => exact .moffs fun _ _ _ => .say .sayq
  | movAMoX => exact .dec fun _ => .moffs fun _ _ _ => .say .sayq
  | movMoA => exact .moffs fun _ _ _ => .say .sayq
  | movMoAX => exact .dec fun _ => .moffs fun _ _ _ => .say .sayq
  | jccS k => exact .bind fun _ => .sayq
  | jccN k => exact .bind fun _ => .sayq
  | jcxz => exact .bind fun _ => .sayq
  | loop k => exact .bind fun _ => .sayq
  | jmpN => exact .bind fun _ => .sayq
  | jmpS => exact .bind fun _ => .sayq
  | jmpF => exact .bind fun _ => .bind fun _ => .sayq
  | callN => exact .bind fun _ => .sayq
  | callF => exact .bind fun _ => .bind fun _ => .sayq
  | intI => exact .bind fun _ => .sayq
  | enter => exact .bind fun _ => .say (.bind fun _ => .sayq)
  | inADx => exact .sayq
  | inADxX => exact .dec fun _ => .sayq
  | inAI => exact .bind fun _ => .sayq
  | inAIX => exact .bind fun _ => .say (.withW fun _ => .sayq)
  | outDxA => exact .sayq
  | outDxAX => exact .dec fun _ => .sayq
  | outAI => exact .bind fun _ => .sayq
  | outAIX => exact .bind fun _ => .withW fun _ => .sayq
  | daa | das | aaa | aas | aam | aad | pushA | popA | pushF | popF | cbw | cwd | hlt => exact .quiet _
  | retN | retF | retiN | retiF | leave | int3 | into | iret | flag _ | sahf | lahf => exact .quiet _
  | ovrSeg | ovrOper | ovrAddr | rep | repnz => exact .quiet _
  | movs w | stos w | lods w | cmps w | scas w | ins w | outs w => exact .strW fun n => .stringOp _ _ _ _ _ _ _
  | xlat => exact .seg fun _ => .dec fun _ => .sayq
  | _ => simp only [opFnT]; exact opRMT_erase other _ p

theorem callFnT_erase (other : Op → BitVec 3 → List Char) (f : Fn) (p : BitVec 3) : Er (callFnT other f p) (callFn f p) := by
  cases f with
  | base o => exact opFnT_erase other o p
  | ext0F =>
    refine .bind fun x => ?_
    have hu : Er (throwE .undefOpcode) (throwE .undefOpcode) := fun env s => rfl
    cases opEntry0F x with
    | none => exact hu
    | some e =>
      obtain ⟨f, a, b⟩ := e
      cases f with
      | base o => exact opFnT_erase other o a
      | ext0F => exact hu

/-- What is printed belongs to the opcode function that ran: the complete line is the line of C92 with a text of the operands. -/
theorem decodeAll_body (other : Op → BitVec 3 → List Char) (env : Env) : ∀ fuel acc s x t, decodeAll other fuel acc env s = .ok x t →
    ∃ body, decodeText body fuel acc env s = .ok x t := by
  intro fuel
  induction fuel with
  | zero => intro acc s x t h; cases h
  | succ fuel ih =>
    intro acc s x t h
    rw [decodeAll] at h
    simp only [decodeText]
    cases h1 : readInstr 8 env s with
    | err e t => simp only [h1] at h; cases h
    | ub u => simp only [h1] at h; cases h
    | ok op t1 =>
    simp only [h1] at h
    simp only
    split at h
    · cases h
    rename_i h2
    simp only [if_neg h2]
    cases h3 : opEntry op with
    | none => rw [h3] at h; cases h
    | some e =>
    rw [h3] at h
    simp only at h ⊢
    cases h4 : fetchParam e env t1 with
    | err e t => rw [h4] at h; cases h
    | ub u => rw [h4] at h; cases h
    | ok q t2 =>
    rw [h4] at h
    simp only at h ⊢
    have he := callFnT_erase other e.fn q env t2
    cases h5 : callFnT other e.fn q env t2 with
    | ub u => rw [h5] at h; cases h
    | ok body t3 =>
      rw [h5] at h he
      rw [← he]
      cases h
      exact ⟨body, rfl⟩
    | err e' t3 =>
      rw [h5] at h he
      rw [← he]
      cases e' <;> first | (cases h; done) | exact ih _ _ _ _ h

end RME.Trace
