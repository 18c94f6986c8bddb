import Verif.Lemmas.KpOps
import Verif.Lemmas.Shape
set_option autoImplicit false
/-
The logic of `Kp` for all opcode functions at once, for the decode loop, `RME_Int_DoOpcode` and
`RME_RunOne`.
-/
set_option linter.unusedSectionVars false
namespace RME

/-- The tail of an instruction. -/
class Cap.Tl (c : Cap) : Prop where
  ln : ∀ s b, c.I s → c.I { s with lastNull := b }
  brk : ∀ s, c.I s → c.J .breakpoint s

/-- Everything. -/
class Cap.All (c : Cap) : Prop extends Cap.Base c, Cap.Rg c, Cap.Mm c, Cap.AFl c, Cap.SFl c, Cap.Ip c, Cap.Sg c, Cap.Io c,
    Cap.Hle c, Cap.Mr c, Cap.Px c, Cap.Ov c, Cap.Sh c, Cap.Ns c, Cap.Hi c, Cap.Tl c, Cap.Fu c, Cap.Dv c where
  vs : ∀ r, c.VS r
  halt : ∀ s, c.I s → c.J .halt s
  fcn : ∀ s, c.I s → c.J .fcnRet s
  inv : ∀ s, c.I s → c.J .inval s
  start : ∀ s, c.I s → c.I { s with dec := decReset, instrNum := s.instrNum + 1 }
  jI : ∀ e s, c.J e s → c.I s

/-! Classification of the opcode functions -/

/-- calls host port functions -/
def Op.usesIo : Op → Bool
  | .ins _ | .outs _ | .inAI | .inAIX | .inADx | .inADxX | .outAI | .outAIX | .outDxA | .outDxAX => true
  | _ => false
/-- may change flags other than the six arithmetic ones -/
def Op.sysFl : Op → Bool
  | .popF | .iret | .int3 | .intI | .into | .flag .cli | .flag .sti | .flag .cld | .flag .std => true
  | _ => false
/-- may set IP -/
def Op.ctl (p : BitVec 3) : Op → Bool
  | .callN | .callF | .retN | .retF | .retiN | .retiF | .int3 | .intI | .into | .iret | .jmpN | .jmpF | .jmpS
  | .jccS _ | .jccN _ | .loop _ | .jcxz => true
  | .unaryMX => p == 2 || p == 3 || p == 4 || p == 5
  | _ => false
/-- may set the segment register `r` -/
def Op.segs (p : BitVec 3) (r : SReg) : Op → Bool
  | .popSeg => (p == 0 && r == .es) || (p == 1 && r == .cs) || (p == 2 && r == .ss) || (p == 3 && r == .ds) ||
      (p == 4 && r == .fs) || (p == 5 && r == .gs)
  | .lxs q => r == q
  | .movSR => true
  | .callF | .retF | .retiF | .jmpF | .iret | .int3 | .intI | .into => r == .cs
  | .unaryMX => (p == 3 || p == 5) && r == .cs
  | _ => false
/-- may call an HLE callback -/
def Op.isInt : Op → Bool
  | .int3 | .intI | .into => true
  | _ => false
/-- may return DIVERR -/
def Op.isDiv (p : BitVec 3) : Op → Bool
  | .miscMI | .miscMIX => p == 6 || p == 7
  | .aam => true
  | _ => false
/-- string instructions -/
def Op.isString : Op → Bool
  | .ins _ | .outs _ | .movs _ | .stos _ | .lods _ | .cmps _ | .scas _ => true
  | _ => false

/-- may divide or multiply with signed overflow in the host -/
def Op.isOv (p : BitVec 3) : Op → Bool
  | .miscMI | .miscMIX => p == 7
  | .imulMIX | .imulMI8X | .imulRMX => true
  | _ => false
/-- shifts by a host shift operator that may be out of range -/
def Op.isShift (p : BitVec 3) : Op → Bool
  | .shiftMI | .shiftMI8X | .shiftMCl | .shiftMClX => p == 4 || p == 6
  | .shxdI8 _ | .shxdCl _ => true
  | _ => false
/-- selects a segment register by number -/
def Op.bySeg (p : BitVec 3) : Op → Bool
  | .movRS | .movSR => true
  | .pushSeg | .popSeg => p == 6 || p == 7
  | _ => false
/-- SHLD, SHRD -/
def Op.isShxd : Op → Bool
  | .shxdI8 _ | .shxdCl _ => true
  | _ => false
/-- accesses a ModR/M operand -/
def Op.modM : Op → Bool
  | .alu _ .MR | .alu _ .MRX | .alu _ .RM | .alu _ .RMX | .arithMI | .arithMIX | .arithMI8X | .miscMI | .miscMIX
  | .shiftMI | .shiftMI8X | .shiftM1 | .shiftM1X | .shiftMCl | .shiftMClX | .unaryM | .unaryMX | .testMR | .testMRX
  | .xchgRM | .xchgRMX | .movMR | .movMRX | .movRM | .movRMX | .movRS | .movSR | .movMI | .movMIX | .movZ | .movZX
  | .bsf | .btx | .popMX | .imulMIX | .imulMI8X | .imulRMX | .shxdI8 _ | .shxdCl _ => true
  | _ => false

/-- What the logic must provide for the opcode function `o` with parameter `p`. -/
structure OpReq (c : Cap) (o : Op) (p : BitVec 3) : Prop where
  io : o.usesIo = true → c.Io := by intro h; first | (cases h; done) | infer_instance
  sf : o.sysFl = true → c.SFl := by intro h; first | (cases h; done) | infer_instance
  ip : o.ctl p = true → c.Ip := by intro h; first | (cases h; done) | infer_instance
  sg : ∀ r, o.segs p r = true → c.VS r
  hle : o.isInt = true → c.Hle := by intro h; first | (cases h; done) | infer_instance
  fu : o.isString = true → c.Fu := by intro h; first | (cases h; done) | infer_instance
  dv : o.isDiv p = true → c.Dv := by intro h; first | (cases h; done) | infer_instance
  ov : o.isOv p = true → c.Ov := by intro h; first | (cases h; done) | infer_instance
  sh : o.isShift p = true → c.Sh := by intro h; first | (cases h; done) | infer_instance
  ns : o.bySeg p = true → c.Ns := by intro h; first | (cases h; done) | infer_instance
  hi : o.isShxd = true → c.Hi := by intro h; first | (cases h; done) | infer_instance
  mr : o.modM = true → c.Mr := by intro h; first | (cases h; done) | infer_instance
  halt : o = .hlt → ∀ s, c.I s → c.J .halt s

namespace Kp
variable {c : Cap}

/-- Conditional version: what an opcode function needs depends on what it is. -/
theorem opFn_gen [c.Base] [c.Rg] [c.Mm] [c.AFl] [c.Sg] (o p) (q : OpReq c o p) (ho : o.isPrefix = false) : Kpt c (RME.opFn o p) := by
  have hio := q.io
  have hsf := q.sf
  have hip := q.ip
  have hsg := q.sg
  have hle := q.hle
  have hfu := q.fu
  have hdv := q.dv
  have hov := q.ov
  have hsh := q.sh
  have hns := q.ns
  have hhi := q.hi
  have hmr := q.mr
  have hh := q.halt
  clear q
  cases o
  case unaryMX =>
    haveI := hmr rfl
    dsimp only [RME.opFn]
    by_cases h3 : p = 3
    · subst h3
      haveI := hip rfl
      exact unaryMX _ (hsg .cs rfl)
    by_cases h5 : p = 5
    · subst h5
      haveI := hip rfl
      exact unaryMX _ (hsg .cs rfl)
    by_cases h2 : p = 2
    · subst h2
      haveI := hip rfl
      exact unaryMX_near _ h3 h5
    by_cases h4 : p = 4
    · subst h4
      haveI := hip rfl
      exact unaryMX_near _ h3 h5
    exact unaryMX_std p h2 h3 h4 h5
  case popSeg =>
    refine popSeg p (fun h => (hns (by rcases h with rfl | rfl <;> rfl)).ns) fun r hr => hsg r ?_
    rcases hr with ⟨rfl, rfl⟩ | ⟨rfl, rfl⟩ | ⟨rfl, rfl⟩ | ⟨rfl, rfl⟩ | ⟨rfl, rfl⟩ | ⟨rfl, rfl⟩ <;> rfl
  case pushSeg => exact pushSeg p (fun h => (hns (by rcases h with rfl | rfl <;> rfl)).ns)
  case movSR => haveI := hmr rfl; haveI := hns rfl; exact movSR fun r => hsg r rfl
  case lxs sr => exact lxs sr (hsg sr (by simp [Op.segs]))
  case miscMI => haveI := hmr rfl; exact miscMI p (fun h => hov (by rw [h]; rfl)) fun h => hdv (by rcases h with rfl | rfl <;> rfl)
  case alu k form =>
    cases form
    case RM => haveI := hmr rfl; dsimp only [RME.opFn]; exact alu _ _
    case MR => haveI := hmr rfl; dsimp only [RME.opFn]; exact alu _ _
    case RMX => haveI := hmr rfl; dsimp only [RME.opFn]; exact alu _ _
    case MRX => haveI := hmr rfl; dsimp only [RME.opFn]; exact alu _ _
    case AI => exact aluAI k
    case AIX => exact aluAIX k
  case miscMIX => haveI := hmr rfl; exact miscMIX p (fun h => hov (by rw [h]; rfl)) fun h => hdv (by rcases h with rfl | rfl <;> rfl)
  case shiftMI => haveI := hmr rfl; exact shiftMI p (fun h => hsh (by rcases h with rfl | rfl <;> rfl))
  case shiftMI8X => haveI := hmr rfl; exact shiftMI8X p (fun h => hsh (by rcases h with rfl | rfl <;> rfl))
  case shiftM1 => haveI := hmr rfl; exact shiftM1 p
  case shiftM1X => haveI := hmr rfl; exact shiftM1X p
  case shiftMCl => haveI := hmr rfl; exact shiftMCl p (fun h => hsh (by rcases h with rfl | rfl <;> rfl))
  case shiftMClX => haveI := hmr rfl; exact shiftMClX p (fun h => hsh (by rcases h with rfl | rfl <;> rfl))
  case aam => haveI := hdv rfl; exact aam
  case hlt => exact hlt (hh rfl)
  case flag k =>
    cases k
    case clc => exact flag _ (Or.inl rfl)
    case stc => exact flag _ (Or.inr (Or.inl rfl))
    case cmc => exact flag _ (Or.inr (Or.inr rfl))
    all_goals (haveI := hsf rfl; exact flagAny _)
  all_goals first | (simp [Op.isPrefix] at ho; done) | skip
  all_goals first | haveI i1 := hio rfl | skip
  all_goals first | haveI i2 := hsf rfl | skip
  all_goals first | haveI i3 := hip rfl | skip
  all_goals first | haveI i4 := hle rfl | skip
  all_goals first | haveI i5 := hfu rfl | skip
  all_goals first | haveI i6 := hmr rfl | skip
  all_goals first | haveI i7 := hov rfl | skip
  all_goals first | haveI i8 := hsh rfl | skip
  all_goals first | haveI i9 := hns rfl | skip
  all_goals first | haveI i10 := hhi rfl | skip
  all_goals first | have vs := hsg .cs rfl | skip
  all_goals (dsimp only [RME.opFn]; first
    | with_reducible exact da _ | with_reducible exact aa _ | with_reducible exact aad
    | with_reducible exact incReg p | with_reducible exact decReg p | with_reducible exact pushReg p | with_reducible exact popRegOp p | with_reducible exact xchgReg p | with_reducible exact movRegB p
    | with_reducible exact movReg p | with_reducible exact pushA | with_reducible exact popA | with_reducible exact pushF | with_reducible exact popF | with_reducible exact popMX | with_reducible exact pushI | with_reducible exact pushI8
    | with_reducible exact imulMIX | with_reducible exact imulMI8X | with_reducible exact imulRMX | with_reducible exact ins _ | with_reducible exact outs _ | with_reducible exact movs _ | with_reducible exact stos _
    | with_reducible exact lods _ | with_reducible exact cmps _ | with_reducible exact scas _ | with_reducible exact jccS _ | with_reducible exact jccN _ | with_reducible exact loop _ | with_reducible exact jcxz
    | with_reducible exact arithMI p | with_reducible exact arithMIX p | with_reducible exact arithMI8X p
    
    | with_reducible exact unaryM p | with_reducible exact testMR | with_reducible exact testMRX | with_reducible exact testAI | with_reducible exact testAIX
    | with_reducible exact xchgRM | with_reducible exact xchgRMX | with_reducible exact movMR | with_reducible exact movMRX | with_reducible exact movRM | with_reducible exact movRMX | with_reducible exact movRS
    | with_reducible exact movMI | with_reducible exact movMIX | with_reducible exact movAMo | with_reducible exact movAMoX | with_reducible exact movMoA | with_reducible exact movMoAX
    | with_reducible exact movZ | with_reducible exact movZX | with_reducible exact lea | with_reducible exact xlat | with_reducible exact cbw | with_reducible exact cwd
    | with_reducible exact bsf | with_reducible exact btx p | with_reducible exact callN | with_reducible exact callF vs | with_reducible exact retN | with_reducible exact retF vs | with_reducible exact retiN
    | with_reducible exact retiF vs | with_reducible exact enter | with_reducible exact leave | with_reducible exact int3 vs | with_reducible exact intI vs | with_reducible exact into vs
    | with_reducible exact iret vs | with_reducible exact jmpN | with_reducible exact jmpF vs | with_reducible exact jmpS | with_reducible exact inAI | with_reducible exact inAIX | with_reducible exact inADx
    | with_reducible exact inADxX | with_reducible exact outAI | with_reducible exact outAIX | with_reducible exact outDxA | with_reducible exact outDxAX | with_reducible exact sahf | with_reducible exact lahf
    | with_reducible exact shxdI8 _ | with_reducible exact shxdCl _)

theorem opFn_np [c.Base] [c.Rg] [c.Mm] [c.AFl] [c.SFl] [c.Ip] [c.Sg] [c.Io] [c.Hle] [c.Mr] [c.Ov] [c.Sh] [c.Ns] [c.Hi] [c.Fu] [c.Dv]
    (vs : ∀ r, c.VS r) (hh : ∀ s, c.I s → c.J .halt s) (o p) (ho : o.isPrefix = false) : Kpt c (RME.opFn o p) :=
  opFn_gen o p { sg := fun r _ => vs r, halt := fun _ => hh } ho

theorem opFn_all [h : c.All] (o p) : Kpt c (RME.opFn o p) := by
  have hp : (p = 6 ∨ p = 7) → c.U .nullSegPtr := fun _ => Cap.Ns.ns
  cases ho : o.isPrefix
  · exact opFn_np h.vs h.halt o p ho
  · cases o <;> first | (simp [Op.isPrefix] at ho; done) | skip
    all_goals (dsimp only [RME.opFn]; first
    | with_reducible exact ovrSeg p hp | with_reducible exact ovrOper | with_reducible exact ovrAddr | with_reducible exact prefixRep _)

theorem ext0F [h : c.All] : Kpt c RME.ext0F := by
  unfold RME.ext0F
  refine bind (readInstr (by decide)) fun b _ => ?_
  split
  · exact opFn_all _ _
  · exact throwE rfl
theorem callFn [h : c.All] (f p) : Kpt c (RME.callFn f p) := by
  cases f
  · exact opFn_all _ _
  · exact ext0F
theorem fetchParam [h : c.Base] (e) : Kpt c (RME.fetchParam e) := by
  unfold RME.fetchParam
  split
  · exact bind getModRM_unchecked fun _ _ => bind (modDec fun d hd => h.ofs d _ hd) fun _ _ => pureT
  · exact pureT
theorem decodeOne [h : c.All] : Kpt c RME.decodeOne := by
  unfold RME.decodeOne
  refine bind (readInstr (by decide)) fun b _ => bind (V := fun _ => True) ?_ fun _ _ => ?_
  · intro s hs
    cases hb : b == 0xF1
    · exact ⟨hs, trivial⟩
    · exact h.brk s hs
  · split
    · exact throwE rfl
    · exact bind (fetchParam _) fun _ _ => callFn _ _
theorem decodeLoop [h : c.All] (n) : Kpt c (RME.decodeLoop n) := by
  induction n with
  | zero => intro s _; exact h.fu
  | succ n ih =>
    intro s hs
    rw [decodeLoop_succ]
    have := decodeOne (c := c) s hs
    cases hr : RME.decodeOne c.env s with
    | ok a t => rw [hr] at this; exact this
    | ub u => rw [hr] at this; exact this
    | err e t =>
      rw [hr] at this
      cases e <;> first | exact this | exact ih t (h.jI _ _ this)
theorem advanceIP [h : c.Base] [c.Ip] : Kpt c RME.advanceIP := by
  unfold RME.advanceIP
  refine bind getDecV fun _ _ => ?_
  split
  · exact pureT
  · exact bind nextIPT fun _ _ => setIP
theorem setLN [h : c.Tl] (b) : Kpt c (RME.modify (fun s => { s with lastNull := b })) := fun s hs => ⟨h.ln s b hs, trivial⟩
theorem nullCheckTail [h : c.Base] [t : c.Tl] (a b) : Kpt c (RME.nullCheckTail a b) := by
  unfold RME.nullCheckTail
  refine bind getDecV fun _ _ => ?_
  split
  · refine bind (readMem _ _ (by decide)) fun _ _ => bind (readMem _ _ (by decide)) fun _ _ => ?_
    split
    · refine bind (getsT _) fun w _ => bind (V := fun _ => True) ?_ fun _ _ => setLN _
      intro s hs
      cases w
      · exact ⟨hs, trivial⟩
      · exact t.brk s hs
    · exact setLN _
  · exact setLN _
theorem dumpLoop [h : c.Base] (cs j) : ∀ i, Kpt c (RME.dumpLoop cs j i) := by
  induction j with
  | zero => intro i; exact pureT
  | succ j ih => intro i; exact bind (readMem _ _ (by decide)) fun _ _ => ih _
theorem debugTail [h : c.Base] (a b) : Kpt c (RME.debugTail a b) := by
  unfold RME.debugTail
  refine bind (getsT _) fun _ _ => ?_
  split
  · exact bind getDecV fun _ _ => dumpLoop _ _ _
  · exact pureT
theorem finishInstr [h : c.Base] [c.Ip] [c.Tl] (a b) : Kpt c (RME.finishInstr a b) :=
  bind advanceIP fun _ _ => bind (nullCheckTail _ _) fun _ _ => debugTail _ _
theorem startInstr [h : c.All] : Kpt c RME.startInstr := by
  intro s hs
  unfold RME.startInstr
  by_cases hi : s.instrNum = INT_MAX
  · rw [if_pos hi]; exact Cap.Ov.ov
  · rw [if_neg hi]; exact ⟨h.start s hs, trivial⟩
theorem doOpcode [h : c.All] : Kpt c RME.doOpcode :=
  bind getIPT fun _ _ => bind (getSregT _) fun _ _ => bind startInstr fun _ _ => bind (decodeLoop _) fun _ _ => finishInstr _ _
theorem callIntInternal [h : c.All] (n) : Kpt c (RME.callIntInternal n) := by
  unfold RME.callIntInternal
  refine bind (V := fun _ => True) ?_ fun _ _ => bind (pushM getFlagsV) fun _ _ => bind (pushM (getSregT _)) fun _ _ =>
    bind (pushM getIPT) fun _ _ => bind getFlagsV fun _ _ => bind setFlagsAny fun _ _ => ?_
  · intro s hs
    cases hb : decide (n < 0) || decide (n > 0xFF)
    · exact ⟨hs, trivial⟩
    · exact h.inv s hs
  · exact bind (readMem _ _ (by decide)) fun _ _ => bind setIP fun _ _ => bind (readMem _ _ (by decide)) fun _ _ =>
      setSreg (h.vs _)
theorem runOne [h : c.All] : Kpt c RME.runOne := by
  intro s hs
  unfold RME.runOne
  by_cases h1 : s.ip = MAGIC_IP ∧ s.sreg .cs = MAGIC_CS
  · rw [if_pos h1]; exact h.fcn s hs
  rw [if_neg h1]
  by_cases h2 : s.sreg .cs = HLE_CS ∧ s.ip.toNat < 0x100
  · rw [if_pos h2]
    have := runHle (c := c) (n := s.ip.setWidth 8) s hs
    cases hr : RME.runHle (s.ip.setWidth 8) c.env s with
    | ub u => rw [hr] at this; exact this
    | err e t => rw [hr] at this; exact this
    | ok a t =>
      rw [hr] at this
      have h3 := iret (c := c) (h.vs _) t this.1
      simp only [resbind_ok, RME.ignoreErr]
      cases hi : RME.opIret c.env t with
      | ok b t2 => rw [hi] at h3; exact h3
      | ub u => rw [hi] at h3; exact h3
      | err e t2 => rw [hi] at h3; exact ⟨h.jI _ _ h3, trivial⟩
  · rw [if_neg h2]
    have := doOpcode (c := c) s hs
    cases hr : RME.doOpcode c.env s with
    | ok a t => rw [hr] at this; exact this
    | ub u => rw [hr] at this; exact this
    | err e t =>
      rw [hr] at this
      cases e <;> first | exact this | exact callIntInternal 0 t (h.jI _ _ this)
end Kp

/-- Nothing is required of states; errors other than those in `E`. -/
def capErr (env : Env) (E : Err → Prop) : Cap :=
  { env := env, I := fun _ => True, J := fun e _ => E e, W := fun n => n = 8 ∨ n = 16 ∨ n = 32, VF := fun _ => True,
    VL := fun _ _ => True, VD := fun _ => True, VS := fun _ => True, U := fun _ => True }

/-- codes an opcode function may return -/
def opErrs (e : Err) : Prop := opErr e = true ∨ e = .divErr ∨ e = .halt

theorem opFn_err (o p) (ho : o.isPrefix = false) (env s e t) (h : opFn o p env s = .err e t) : opErrs e := by
  let c := capErr env opErrs
  have b : c.Base := {
    dec := (by intros; trivial), setDec := (by intros; trivial), ofs := (by intros; trivial), rep := (by intros; trivial),
    fl := (by intros; trivial), ptr := (by intros; trivial), lreg := (by intros; trivial), lregH := (by intros; trivial),
    bad := fun _ _ _ h => Or.inl h, w8 := Or.inl rfl, w16 := Or.inr (Or.inl rfl), w32 := fun _ _ _ => Or.inr (Or.inr rfl), wle := fun _ h => h,
    ubNull := (by intros; trivial), ubHost := (by intros; trivial), ubUninit := (by intros; trivial) }
  have r : c.Rg := { setReg := (by intros; trivial), setRegH := (by intros; trivial), setGpr := (by intros; trivial) }
  have m : c.Mm := { store := (by intros; trivial) }
  have f : c.AFl := { arith := (by intros; trivial), setF := (by intros; trivial) }
  have sf : c.SFl := { any := (by intros; trivial) }
  have ip : c.Ip := { ip := (by intros; trivial), dci := (by intros; trivial) }
  have sg : c.Sg := { setS := (by intros; trivial) }
  have io : c.Io := { io := (by intros; trivial) }
  have hl : c.Hle := { hle := (by intros; trivial) }
  have mr : c.Mr := { oob := trivial, ptrM := (by intros; trivial) }
  have ov : c.Ov := ⟨trivial⟩
  have sh : c.Sh := ⟨trivial⟩
  have ns : c.Ns := ⟨trivial⟩
  have fu : c.Fu := ⟨trivial⟩
  have dv : c.Dv := ⟨fun _ _ => Or.inr (Or.inl rfl)⟩
  have hi : c.Hi := { hi := (by intros; trivial), memX := (by intros; trivial) }
  have := Kp.opFn_np (c := c) (fun _ => trivial) (fun _ _ => Or.inr (Or.inr rfl)) o p ho
  have := this s trivial
  rw [show c.env = env from rfl, h] at this
  exact this

theorem noCont : NoCont := by
  intro o p env s t ho h
  rcases opFn_err o p ho env s _ t h with h | h <;> simp [opErr] at h

end RME
