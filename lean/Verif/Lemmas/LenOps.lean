import Verif.Lemmas.Len
set_option autoImplicit false
/-
Number of bytes consumed by each opcode function.
-/
namespace RME

/-- ModR/M byte?, immediate, of each opcode function. -/
def Op.form (a : BitVec 3) : Op → Bool × ImmKind
  | .alu _ .AI => (false, .b)
  | .alu _ .AIX => (false, .z)
  | .alu _ _ => (true, .none)
  | .aam | .aad | .movRegB | .pushI8 | .testAI | .inAI | .inAIX | .outAI | .outAIX => (false, .b)
  | .movReg | .testAIX => (false, .z)
  | .pushI => (false, .w)
  | .enter => (false, .wb)
  | .movAMo | .movAMoX | .movMoA | .movMoAX => (false, .moffs)
  | .imulMIX | .arithMIX | .movMIX => (true, .z)
  | .imulMI8X | .arithMI | .arithMI8X | .shiftMI | .shiftMI8X | .shxdI8 _ | .btx | .movMI => (true, .b)
  | .miscMI => (true, if a = 0 then .b else .none)
  | .miscMIX => (true, if a = 0 then .z else .none)
  | .imulRMX | .shiftM1 | .shiftM1X | .shiftMCl | .shiftMClX | .unaryM | .unaryMX | .testMR | .testMRX | .xchgRM | .xchgRMX
  | .movMR | .movMRX | .movRM | .movRMX | .movRS | .movSR | .movZ | .movZX | .lea | .lxs _ | .bsf | .popMX | .shxdCl _ => (true, .none)
  | _ => (false, .none)

/-- The bytes of form `f` are between `k` and `k'`. -/
def QForm (s : State) (p : Pfx) (k : Nat) (f : Bool × ImmKind) (k' : Nat) : Prop :=
  if f.1 then ∃ r n, AddrAt s p k r n ∧ k' = k + n + immLen p f.2 else k' = k + immLen p f.2

section
variable {s : State} {p : Pfx} {k : Nat}

theorem Ln.none {m : M Unit} (h : Nf m) : Ln s p k m (QForm s p k (false, .none)) := Nf.ln h (by simp [QForm, immLen])

theorem Ln.rm {α : Type} {m : M α} {f : α → M Unit} (hm : Fe s p k m (fun _ k' => QA s p k k')) (h : ∀ a, Nf (f a)) :
    Ln s p k (m >>= f) (QForm s p k (true, .none)) :=
  Fe.ln hm fun a k' ⟨r, n, h1, h2⟩ => Nf.ln (h a) (by simpa [QForm, immLen] using ⟨r, n, h1, h2⟩)

theorem Ln.parse {f : Loc × Loc → M Unit} (h : ∀ a, Nf (f a)) : Ln s p k (parseModRM >>= f) (QForm s p k (true, .none)) := Ln.rm Fe.parseModRM h
theorem Ln.parseX {f : Loc × Loc → M Unit} (h : ∀ a, Nf (f a)) : Ln s p k (parseModRMX >>= f) (QForm s p k (true, .none)) := Ln.rm Fe.parseModRMX h

theorem QForm.imm {r n i j} (h1 : AddrAt s p k r n) (h2 : immLen p i = j) : QForm s p k (true, i) (k + n + j) :=
  ⟨r, n, h1, by rw [← h2]⟩
theorem opW_immLen : opW p / 8 = immLen p .z := by unfold opW immLen; cases p.oper <;> rfl

/-- ModR/M, then an immediate byte -/
theorem Ln.rmb {α β : Type} {m : M α} {g : α → M β} {f : α → β → M Unit} (hm : Fe s p k m (fun _ k' => QA s p k k'))
    (hg : ∀ a k, Fe s p k (g a) (fun _ k' => k' = k + 1)) (h : ∀ a b, Nf (f a b)) :
    Ln s p k (m >>= fun a => g a >>= f a) (QForm s p k (true, .b)) := by
  refine Fe.ln hm fun a k' hk => ?_
  obtain ⟨r, n, h1, rfl⟩ := hk
  refine Fe.ln (hg a _) fun b k'' hk => ?_
  subst hk
  exact Nf.ln (h a b) (QForm.imm h1 rfl)

theorem Ln.b {β : Type} {g : M β} {f : β → M Unit} (hg : Fe s p k g (fun _ k' => k' = k + 1)) (h : ∀ b, Nf (f b)) :
    Ln s p k (g >>= f) (QForm s p k (false, .b)) :=
  Fe.ln hg fun b k' hk => Nf.ln (h b) (by simpa [QForm, immLen] using hk)
theorem Fe.r8 : Fe s p k (RME.readInstr 8) (fun _ k' => k' = k + 1) := Fe.readInstr 8
theorem Ln.z {f : (n : Nat) → BitVec n → M Unit} (h : ∀ n b, Nf (f n b)) :
    Ln s p k (RME.withW fun n => RME.readInstr n >>= f n) (QForm s p k (false, .z)) :=
  Ln.withW (Fe.ln (Fe.readInstr _) fun b k' hk => Nf.ln (h _ b) (by rw [opW_immLen] at hk; simpa [QForm] using hk))

theorem Ln.m {f : BitVec 16 → BitVec 16 → M Unit} (h : ∀ a b, Nf (f a b)) :
    Ln s p k (RME.getSegment .ds >>= fun a => RME.moffs >>= f a) (QForm s p k (false, .moffs)) := by
  refine Fe.ln (Fe.getSegment _) fun a k' hk => ?_
  subst hk
  exact Fe.ln Fe.moffs fun b k' hk => Nf.ln (h a b) (by simpa [QForm] using hk)

theorem Ln.alu (c form) (a) : Ln s p k (opAlu c form) (QForm s p k ((Op.alu c form).form a)) := by
  cases form <;> unfold opAlu
  · exact Ln.parse fun x => by nf; exact Nf.aluApply _ _ _ _
  · exact Ln.parseX fun x => by nf; exact Nf.aluApply _ _ _ _
  · exact Ln.parse fun x => by nf; exact Nf.aluApply _ _ _ _
  · exact Ln.parseX fun x => by nf; exact Nf.aluApply _ _ _ _
  · exact Ln.b Fe.r8 fun x => Nf.aluApply _ _ _ _
  · exact Ln.z fun n x => Nf.aluApply _ _ _ _

theorem Ln.rmz {g : Loc → (n : Nat) → BitVec n → M Unit} {pre : M Unit} (hp : ∀ k, Fe s p k pre (fun _ k' => k' = k)) (h : ∀ m n v, Nf (g m n v)) :
    Ln s p k (parseModRMX >>= fun x => match x with | (_, m) => pre >>= fun _ => RME.withW fun n => RME.readInstr n >>= g m n) (QForm s p k (true, .z)) := by
  refine Fe.ln Fe.parseModRMX fun a k' hk => ?_
  obtain ⟨r, n, h1, rfl⟩ := hk
  refine Fe.ln (hp _) fun b k'' hk => ?_
  subst hk
  refine Ln.withW (Fe.ln (Fe.readInstr _) fun b k'' hk => ?_)
  subst hk
  exact Nf.ln (h _ _ b) (QForm.imm h1 opW_immLen.symm)

theorem Ln.miscRest {n : Nat} {a r j} {m : Loc} {i : ImmKind} (h1 : AddrAt s p k r j) (hi : immLen p i = n / 8) :
    Ln s p (k + j) (miscOp n a m) (QForm s p k (true, if a = 0 then i else .none)) := by
  unfold miscOp
  by_cases h0 : a = 0
  · simp only [if_pos h0]
    refine Fe.ln (Fe.readInstr _) fun b k' hk => ?_
    subst hk
    exact Nf.ln (by nf) (QForm.imm h1 hi)
  · simp only [if_neg h0]
    refine Nf.ln ?_ ⟨r, j, h1, rfl⟩
    nf
    all_goals with_reducible first | exact Nf.storeProduct _ _ _ | exact Nf.storeQuot _ _ _

theorem Ln.unaryX (a) (hc : (Op.unaryMX).ctl a = false) : Ln s p k (opUnaryMX a) (QForm s p k (true, .none)) := by
  have hc : ¬ a = 2 ∧ ¬ a = 3 ∧ ¬ a = 4 ∧ ¬ a = 5 := by simpa [Op.ctl, and_assoc] using hc
  unfold opUnaryMX
  refine Fe.ln Fe.getDec fun d k' hk => ?_
  obtain ⟨rfl, rfl⟩ := hk
  simp only [if_neg hc.1, if_neg hc.2.1, if_neg hc.2.2.1, if_neg hc.2.2.2]
  split
  all_goals
    split
    · exact Ln.parseX fun x => Nf.unaryIncDec _ _ _
    · split
      · exact Ln.parseX fun x => Nf.unaryIncDec _ _ _
      · split
        · exact Ln.parseX fun x => by nf
        · exact Ln.throw

theorem Ln.dOper {e : Err} {f : M Unit} {Q} (h : p.oper = false → Ln s p k f Q) : Ln s p k (do let d ← getDec; guardE d.ovrOper e; f) Q := by
  refine Fe.ln Fe.getDec fun d k' hk => ?_
  obtain ⟨rfl, rfl⟩ := hk
  refine Fe.ln (Fe.guard _ _) fun d k' hk => ?_
  obtain ⟨rfl, h1⟩ := hk
  exact h h1

/-- How far each opcode function reads. -/
theorem opFn_len (o : Op) (a) (hc : o.ctl a = false) (hp : o.isPrefix = false) : Ln s p k (opFn o a) (QForm s p k (o.form a)) := by
  cases o <;> first | (cases hc; done) | (cases hp; done) | skip
  all_goals dsimp only [opFn]
  case alu c f => exact Ln.alu c f a
  case unaryMX => exact Ln.unaryX a hc
  case arithMI =>
    refine Ln.rmb Fe.parseModRM (fun a k => ?_) (fun a b => Nf.aluApply _ _ _ _)
    exact Fe.r8
  case arithMIX => exact Ln.rmz (g := fun m n s => aluApply (aluOfNum a) n m s) (fun _ => Fe.clearOZSP) fun _ _ _ => Nf.aluApply _ _ _ _
  case arithMI8X =>
    unfold opArithMI8X
    refine Fe.ln Fe.parseModRMX fun a k' hk => ?_
    obtain ⟨r, n, h1, rfl⟩ := hk
    refine Fe.ln Fe.clearOZSP fun b k'' hk => ?_
    subst hk
    refine Ln.withW (Fe.ln (Fe.readInstr8S _) fun b k'' hk => ?_)
    subst hk
    exact Nf.ln (Nf.aluApply _ _ _ _) (QForm.imm h1 rfl)
  case miscMI =>
    refine Fe.ln Fe.parseModRM fun x k' hk => ?_
    obtain ⟨r, n, h1, rfl⟩ := hk
    exact Ln.miscRest h1 rfl
  case miscMIX =>
    refine Fe.ln Fe.parseModRMX fun x k' hk => ?_
    obtain ⟨r, n, h1, rfl⟩ := hk
    exact Ln.withW (Ln.miscRest h1 opW_immLen.symm)
  case imulMIX =>
    refine Ln.dOper fun ho => ?_
    refine Fe.ln Fe.parseModRMX fun x k' hk => ?_
    obtain ⟨r, n, h1, rfl⟩ := hk
    refine Fe.ln (Fe.readInstr _) fun b k'' hk => ?_
    subst hk
    exact Nf.ln (by nf; exact Nf.imulMulti _ _ _) (QForm.imm h1 (by simp [immLen, ho]))
  case imulMI8X =>
    refine Ln.dOper fun ho => ?_
    refine Ln.rmb Fe.parseModRMX (fun a k => ?_) (fun a b => by nf; exact Nf.imulMulti _ _ _)
    exact Fe.readInstr8S _
  case imulRMX =>
    refine Ln.dOper fun ho => ?_
    exact Ln.parseX fun x => by nf; exact Nf.imulMulti _ _ _
  case movRS =>
    refine Ln.dOper fun ho => ?_
    refine Fe.ln Fe.peek fun b k' hk => ?_
    obtain ⟨rfl, _⟩ := hk
    exact Ln.parseX fun x => by nf
  case movSR =>
    refine Ln.dOper fun ho => ?_
    refine Fe.ln Fe.peek fun b k' hk => ?_
    obtain ⟨rfl, _⟩ := hk
    refine Fe.ln (Fe.segOf _) fun b k' hk => ?_
    obtain ⟨rfl, _⟩ := hk
    exact Ln.parseX fun x => by nf
  case popMX =>
    refine Ln.dOper fun ho => ?_
    exact Ln.parseX fun x => by nf
  case enter =>
    unfold opEnter
    refine Fe.ln (Fe.readInstr _) fun b k' hk => ?_
    subst hk
    refine Fe.ln (Fe.readInstr _) fun b k' hk => ?_
    subst hk
    refine Nf.ln ?_ rfl
    dsimp only
    refine Nf.bind (by nf) fun _ => Nf.bind (by nf) fun _ => Nf.bind ?_ fun _ => by nf
    refine Nf.ite _ (fun _ => Nf.bind (Nf.enterLoop _) fun _ => by nf) fun _ => Nf.pure _
  case lea =>
    unfold opLea
    refine Fe.ln Fe.getModRM fun m k' hk => ?_
    obtain ⟨rfl, b, hb, rfl⟩ := hk
    refine Fe.ln (Fe.guard _ _) fun _ k' hk => ?_
    obtain ⟨rfl, _⟩ := hk
    refine Fe.ln (Fe.getMMM hb) fun x k' hk => ?_
    obtain ⟨n, h1, rfl, _⟩ := hk
    exact Nf.ln (by nf) ⟨_, n, h1, rfl⟩
  case lxs =>
    unfold opLxs
    refine Fe.ln Fe.getModRM_unchecked fun m k' hk => ?_
    obtain ⟨rfl, b, hb, rfl⟩ := hk
    refine Fe.ln (Fe.guard _ _) fun _ k' hk => ?_
    obtain ⟨rfl, _⟩ := hk
    refine Fe.ln (Fe.getMMM hb) fun x k' hk => ?_
    obtain ⟨n, h1, rfl, _⟩ := hk
    exact Nf.ln (by nf) ⟨_, n, h1, rfl⟩
  case movZ =>
    unfold opMovZ
    refine Fe.ln Fe.getModRM fun m k' hk => ?_
    obtain ⟨rfl, b, hb, rfl⟩ := hk
    refine Fe.ln (Fe.decodeModM hb) fun x k' hk => ?_
    obtain ⟨r, n, h1, rfl⟩ := hk
    exact Nf.ln (by nf) ⟨_, n, h1, rfl⟩
  case movZX =>
    unfold opMovZX
    refine Fe.ln Fe.getModRM fun m k' hk => ?_
    obtain ⟨rfl, b, hb, rfl⟩ := hk
    refine Fe.ln (Fe.decodeModMX hb) fun x k' hk => ?_
    obtain ⟨r, n, h1, rfl⟩ := hk
    exact Nf.ln (by nf) ⟨_, n, h1, rfl⟩
  case shiftMI =>
    refine Ln.rmb Fe.parseModRM (fun a k => ?_) (fun a b => Nf.shiftApply _ _ _ _)
    exact Fe.r8
  case shiftMI8X =>
    refine Ln.rmb Fe.parseModRMX (fun a k => ?_) (fun a b => Nf.withW fun _ => Nf.shiftApply _ _ _ _)
    exact Fe.r8
  case shxdI8 =>
    refine Ln.rmb Fe.parseModRM (fun a k => ?_) (fun a b => Nf.shxdApply _ _ _ _)
    exact Fe.r8
  case shxdCl => exact Ln.parse fun x => by nf; exact Nf.shxdApply _ _ _ _
  case btx =>
    unfold opBtx
    split
    · exact Ln.throw
    · refine Ln.rmb Fe.parseModRMX (fun a k => ?_) (fun a b => by nf)
      exact Fe.r8
  case movMI =>
    refine Ln.rmb Fe.parseModRM (fun a k => ?_) (fun a b => by nf)
    exact Fe.r8
  case movMIX =>
    refine Fe.ln Fe.parseModRMX fun a k' hk => ?_
    obtain ⟨r, n, h1, rfl⟩ := hk
    refine Ln.withW (Fe.ln (Fe.readInstr _) fun b k'' hk => ?_)
    subst hk
    exact Nf.ln (Nf.writeLoc _ _ _) (QForm.imm h1 opW_immLen.symm)
  case movAMo => exact Ln.m fun _ _ => by nf
  case movAMoX => exact Ln.m fun _ _ => by nf
  case movMoA => exact Ln.m fun _ _ => by nf
  case movMoAX => exact Ln.m fun _ _ => by nf
  case pushI =>
    exact Fe.ln (Fe.readInstr _) fun b k' hk => Nf.ln (Nf.pushVal _) hk
  case pushI8 => exact Ln.b (Fe.readInstr8S _) fun _ => Nf.pushVal _
  case aam => exact Ln.b Fe.r8 fun _ => by nf
  case aad => exact Ln.b Fe.r8 fun _ => by dsimp only; nf
  case movRegB => exact Ln.b Fe.r8 fun _ => by nf
  case movReg => exact Ln.z fun _ _ => by nf
  case testAI => exact Ln.b Fe.r8 fun _ => Nf.testApply _ _ _
  case testAIX => exact Ln.z fun _ _ => Nf.testApply _ _ _
  case inAI => exact Ln.b Fe.r8 fun _ => by nf
  case inAIX => exact Ln.b Fe.r8 fun _ => by nf
  case outAI => exact Ln.b Fe.r8 fun _ => by nf
  case outAIX => exact Ln.b Fe.r8 fun _ => by nf
  case unaryM =>
    unfold opUnaryM
    split
    · exact Ln.parse fun _ => Nf.incApply _ _
    · split
      · exact Ln.parse fun _ => Nf.decApply _ _
      · exact Ln.throw
  case testMR => exact Ln.parse fun x => by nf; exact Nf.testApply _ _ _
  case testMRX => exact Ln.parseX fun x => by nf; exact Nf.testApply _ _ _
  case xchgRM => exact Ln.parse fun x => by nf; exact Nf.xchgLoc _ _ _
  case xchgRMX => exact Ln.parseX fun x => by nf; exact Nf.xchgLoc _ _ _
  case movMR => exact Ln.parse fun x => by nf; exact Nf.movLoc _ _ _
  case movMRX => exact Ln.parseX fun x => by nf; exact Nf.movLoc _ _ _
  case movRM => exact Ln.parse fun x => by nf; exact Nf.movLoc _ _ _
  case movRMX => exact Ln.parseX fun x => by nf; exact Nf.movLoc _ _ _
  case bsf => exact Ln.parseX fun x => by nf
  case shiftM1 => exact Ln.parse fun x => Nf.shiftApply _ _ _ _
  case shiftM1X => exact Ln.parseX fun x => Nf.withW fun _ => Nf.shiftApply _ _ _ _
  case shiftMCl =>
    refine Fe.ln (Fe.gets _) fun _ _ h => ?_
    subst h
    exact Ln.parse fun x => Nf.shiftApply _ _ _ _
  case shiftMClX =>
    refine Fe.ln (Fe.gets _) fun _ _ h => ?_
    subst h
    exact Ln.parseX fun x => Nf.withW fun _ => Nf.shiftApply _ _ _ _
  case hlt => exact Ln.throw
  all_goals refine Ln.none ?_
  case ins => exact Nf.strW _ fun _ => Nf.stringOp _ _ _ _ fun _ _ _ _ => by nf
  case outs => exact Nf.strW _ fun _ => Nf.stringOp _ _ _ _ fun _ _ _ _ => by nf
  case movs => exact Nf.strW _ fun _ => Nf.stringOp _ _ _ _ fun _ _ _ _ => by nf
  case stos => exact Nf.strW _ fun _ => Nf.stringOp _ _ _ _ fun _ _ _ _ => by nf
  case lods => exact Nf.strW _ fun _ => Nf.stringOp _ _ _ _ fun _ _ _ _ => by nf
  case cmps => exact Nf.strW _ fun _ => Nf.stringOp _ _ _ _ fun _ _ _ _ => by nf; exact Nf.cmpFlags _ _
  case scas => exact Nf.strW _ fun _ => Nf.stringOp _ _ _ _ fun _ _ _ _ => by nf; exact Nf.cmpFlags _ _
  case pushSeg => unfold opPushSeg; nf
  case popSeg => unfold opPopSeg; nf
  case daa => unfold opDA; nf
  case das => unfold opDA; nf
  case aaa => unfold opAA; dsimp only; nf
  case aas => unfold opAA; dsimp only; nf
  case incReg => exact Nf.withW fun _ => Nf.incApply _ _
  case decReg => exact Nf.withW fun _ => Nf.decApply _ _
  case pushReg => unfold opPushReg; nf
  case popReg => unfold opPopReg; nf
  case xchgReg => unfold opXchgReg; nf; exact Nf.xchgLoc _ _ _
  case pushA => unfold opPushA; nf
  case popA => unfold opPopA; nf
  case pushF => unfold opPushF; nf
  case popF => unfold opPopF; nf
  case xlat => unfold opXlat; dsimp only; nf
  case cbw => unfold opCbw; nf
  case cwd => unfold opCwd; nf
  case leave => unfold opLeave; nf
  case inADx => unfold opInADx; nf
  case inADxX => unfold opInADxX; nf
  case outDxA => unfold opOutDxA; nf
  case outDxAX => unfold opOutDxAX; nf
  case flag => unfold opFlag; nf
  case sahf => unfold opSahf; nf
  case lahf => unfold opLahf; nf

end
end RME
