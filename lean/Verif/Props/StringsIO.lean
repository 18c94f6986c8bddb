import Verif.Props.Strings
set_option autoImplicit false
/-
C35 (REP with CX = 0, INS, OUTS) and the exact port accesses of IN and OUT (C46).
-/
namespace RME

theorem stringOp_zero {s : State} {p : Pfx} {j : Nat} (hr : p.rep ≠ .none) (hc : cxOf s = 0) (z uD uS : Bool) (step : Nat)
    (body : BitVec 16 → BitVec 32 → BitVec 16 → BitVec 32 → M Unit) (env : Env) :
    stringOp z uD uS step body env (opState s p j) =
      .ok () { s with dec := { decOf p j with rep := .none }, instrNum := s.instrNum + 1 } := by
  have ho : ∀ r, ∃ v, strOfs r env (opState s p j) = .ok v (opState s p j) := by
    intro r
    simp only [strOfs, bind_apply, getDec_apply, resbind_ok, ite_apply]
    split
    · exact ⟨_, rfl⟩
    · exact ⟨_, rfl⟩
  obtain ⟨v1, e1⟩ := ho rDI
  obtain ⟨v2, e2⟩ := ho rSI
  simp only [stringOp, bind_apply, getSreg_apply, resbind_ok, getSegment, getDec_apply, e1, e2, getReg_apply, ite_apply]
  rw [if_pos ⟨hr, hc⟩]
  rfl

/-- Opcode bytes of the string instructions: INS OUTS MOVS CMPS STOS LODS SCAS, byte and word forms. -/
def stringOpcode (b : BitVec 8) : Prop :=
  b = 0x6C ∨ b = 0x6D ∨ b = 0x6E ∨ b = 0x6F ∨ b = 0xA4 ∨ b = 0xA5 ∨ b = 0xA6 ∨ b = 0xA7 ∨ b = 0xAA ∨ b = 0xAB ∨ b = 0xAC ∨ b = 0xAD ∨
  b = 0xAE ∨ b = 0xAF

theorem stringOpcode_entry {b : BitVec 8} (h : stringOpcode b) : b ≠ 0xF1 ∧ b ≠ 0 ∧ ∃ o, opEntry b = some ⟨.base o, 0, false⟩ ∧
    ∀ (s : State) (p : Pfx) (j : Nat) (env : Env), p.rep ≠ .none → cxOf s = 0 → opFn o 0 env (opState s p j) =
      .ok () { s with dec := { decOf p j with rep := .none }, instrNum := s.instrNum + 1 } := by
  rcases h with rfl | rfl | rfl | rfl | rfl | rfl | rfl | rfl | rfl | rfl | rfl | rfl | rfl | rfl
  · exact ⟨by decide, by decide, .ins false, by decide +kernel, fun s p j env hr hc => by
      simp only [opFn, opIns, strW_op]; exact stringOp_zero hr hc ..⟩
  · exact ⟨by decide, by decide, .ins true, by decide +kernel, fun s p j env hr hc => by
      simp only [opFn, opIns, strW_op]; exact stringOp_zero hr hc ..⟩
  · exact ⟨by decide, by decide, .outs false, by decide +kernel, fun s p j env hr hc => by
      simp only [opFn, opOuts, strW_op]; exact stringOp_zero hr hc ..⟩
  · exact ⟨by decide, by decide, .outs true, by decide +kernel, fun s p j env hr hc => by
      simp only [opFn, opOuts, strW_op]; exact stringOp_zero hr hc ..⟩
  · exact ⟨by decide, by decide, .movs false, by decide +kernel, fun s p j env hr hc => by
      simp only [opFn, opMovs, strW_op]; exact stringOp_zero hr hc ..⟩
  · exact ⟨by decide, by decide, .movs true, by decide +kernel, fun s p j env hr hc => by
      simp only [opFn, opMovs, strW_op]; exact stringOp_zero hr hc ..⟩
  · exact ⟨by decide, by decide, .cmps false, by decide +kernel, fun s p j env hr hc => by
      simp only [opFn, opCmps, strW_op]; exact stringOp_zero hr hc ..⟩
  · exact ⟨by decide, by decide, .cmps true, by decide +kernel, fun s p j env hr hc => by
      simp only [opFn, opCmps, strW_op]; exact stringOp_zero hr hc ..⟩
  · exact ⟨by decide, by decide, .stos false, by decide +kernel, fun s p j env hr hc => by
      simp only [opFn, opStos, strW_op]; exact stringOp_zero hr hc ..⟩
  · exact ⟨by decide, by decide, .stos true, by decide +kernel, fun s p j env hr hc => by
      simp only [opFn, opStos, strW_op]; exact stringOp_zero hr hc ..⟩
  · exact ⟨by decide, by decide, .lods false, by decide +kernel, fun s p j env hr hc => by
      simp only [opFn, opLods, strW_op]; exact stringOp_zero hr hc ..⟩
  · exact ⟨by decide, by decide, .lods true, by decide +kernel, fun s p j env hr hc => by
      simp only [opFn, opLods, strW_op]; exact stringOp_zero hr hc ..⟩
  · exact ⟨by decide, by decide, .scas false, by decide +kernel, fun s p j env hr hc => by
      simp only [opFn, opScas, strW_op]; exact stringOp_zero hr hc ..⟩
  · exact ⟨by decide, by decide, .scas true, by decide +kernel, fun s p j env hr hc => by
      simp only [opFn, opScas, strW_op]; exact stringOp_zero hr hc ..⟩

/-- C35: a string instruction with a repeat prefix and CX = 0 changes nothing but IP, whatever the other prefixes. -/
theorem C35_cx_zero {s : State} {h0 : Nat} {p : Pfx} {op : BitVec 8} {len : Nat} (hop : stringOpcode op) (hat : At s h0 p [op] len)
    (hr : p.rep ≠ .none) (hc : cxOf s = 0) (env : Env) : Falls env s len s := by
  obtain ⟨hF1, h0', o, he, ho⟩ := stringOpcode_entry hop
  refine Runs.falls (d := { decOf p len with rep := .none }) hat (Runs.mk _ 0 hF1 he rfl ?_) rfl rfl rfl rfl rfl (notZeroed_same hat h0' rfl)
  intro bytes j _ hj _
  obtain rfl : j = len := hj
  exact ho s p j env hr hc

theorem loopSt_io (d : Decoder) (i : Int) (p : Pfx) (t : State) (l : List IOEv) (k : Nat) :
    loopSt d i p { t with io := l } k = { loopSt d i p t k with io := l } := by
  by_cases h : p.rep = .none
  · simp only [loopSt, countDown_none h]
  · simp only [loopSt, countDown_some h]; rfl

theorem loopSt_dx (d : Decoder) (i : Int) (p : Pfx) (t : State) (k : Nat) :
    (loopSt d i p t k).reg 16 rDX = (t.gpr 2).setWidth 16 := by
  show ((countDown p t k).gpr 2).setWidth 16 = _
  rw [(countDown_frame p t k).2.2.2.2.2.2.2 2 (by decide)]

/-- The port writes of OUTS for the elements `x 0 … x (k-1)`. -/
def outEvents {n : Nat} (port : BitVec 16) (x : Nat → BitVec n) (k : Nat) : List IOEv :=
  (List.range k).map fun i => .out (n / 8) port ((x i).setWidth 32)

theorem outs_rounds {s : State} {p : Pfx} {w : Bool} {K : Nat} {x : Nat → BitVec (elemW p w)} (hx : ∀ k < K, Holds s (srcSeg s p) (srcOfs s (elemW p w) k) (x k))
    (env : Env) (len : Nat) :
    Rounds env (decOf p len) (s.instrNum + 1) p (elemW p w) false (dfOf s) (s.gpr 6) (s.gpr 7)
      (fun so _ => (do let v ← readMem (elemW p w) (srcSeg s p) (so.setWidth 16); let q ← getReg 16 rDX; portOut (elemW p w / 8) q (v.setWidth 32)))
      (fun k => { s with io := s.io ++ outEvents ((s.gpr 2).setWidth 16) x k }) K := by
  constructor
  · rfl
  · exact elemW_cases p w
  · intro k _; rfl
  · intro k _; rfl
  · intro k hk so dd hso hdd
    obtain ⟨_, cm, cv, ch, _⟩ := countDown_frame p { s with io := s.io ++ outEvents ((s.gpr 2).setWidth 16) x k } (k + 1)
    simp only [bind_apply, hso, hdd]
    rw [show elemOfs (dfOf s) (elemW p w) (BitVec.setWidth 16 (s.gpr 6)) k = srcOfs s (elemW p w) k from rfl,
      readMem_like (t := loopSt (decOf p len) (s.instrNum + 1) p { s with io := s.io ++ outEvents ((s.gpr 2).setWidth 16) x k } (k + 1))
        (hx k hk) (elemW_cases p w) cm cv ch, resbind_ok]
    simp only [getReg_apply, resbind_ok, loopSt_dx, portOut, modify_apply]
    refine congrArg (Res.ok ()) ?_
    simp only [loopSt_io, outEvents, List.range_succ, List.map_append, List.map_cons, List.map_nil, List.append_assoc]

/-- C35: OUTS sends the source elements (CX of them with a repeat prefix, else one), in order, to port DX; SI advances, CX counts down;
memory and everything else is unchanged. -/
theorem C35_outs {s : State} {h0 : Nat} {p : Pfx} {len : Nat} {w : Bool} (hat : At s h0 p [strOpc 0x6E w] len)
    (env : Env) {x : Nat → BitVec (elemW p w)} (hx : ∀ k < reps s p, Holds s (srcSeg s p) (srcOfs s (elemW p w) k) (x k)) :
    Falls env s len (moveSI s p (elemW p w) (reps s p) (countDown p { s with io := s.io ++ outEvents ((s.gpr 2).setWidth 16) x (reps s p) } (reps s p))) := by
  refine string_falls (o := .outs w) (w := w) (z := false) (uD := false) (uS := true)
    (body := fun n ss so _ _ => (do
      let v ← readMem n ss (so.setWidth 16); let p ← getReg 16 rDX; portOut (n / 8) p (v.setWidth 32)))
    hat env (by cases w <;> decide) (by cases w <;> decide +kernel) rfl
    (T := fun k => { s with io := s.io ++ outEvents ((s.gpr 2).setWidth 16) x k }) (by simp [outEvents])
    (outs_rounds hx env len) reps_one (fun h => Nat.le_of_eq (reps_cx h)) (goes_reps (fun _ => s.flags))
    (fun h => Or.inl (reps_cx h)) rfl rfl rfl (notZeroed_same hat (by cases w <;> decide) rfl)

theorem inputs_frame (env : Env) (s : State) (n k : Nat) : ∃ H l, inputs env s n k = { s with host := H, io := l } := by
  induction k with
  | zero => exact ⟨s.host, s.io, rfl⟩
  | succ k ih =>
    obtain ⟨H, l, e⟩ := ih
    simp only [inputs, inputElem, e, Opnd.put]
    split
    · exact ⟨_, _, rfl⟩
    · exact ⟨_, _, rfl⟩

theorem ins_rounds {s : State} {p : Pfx} {w : Bool} {K : Nat} (hd : DstMapped s (elemW p w) K) (env : Env) (len : Nat) :
    Rounds env (decOf p len) (s.instrNum + 1) p (elemW p w) false (dfOf s) (s.gpr 6) (s.gpr 7)
      (fun _ dd => (do let q ← getReg 16 rDX; let v ← portIn (elemW p w) q; writeMem (elemW p w) (dstSeg s) (dd.setWidth 16) v))
      (inputs env s (elemW p w)) K := by
  constructor
  · rfl
  · exact elemW_cases p w
  · intro k _; obtain ⟨H, l, e⟩ := inputs_frame env s (elemW p w) k; rw [e]; rfl
  · intro k _; obtain ⟨H, l, e⟩ := inputs_frame env s (elemW p w) k; rw [e]; rfl
  · intro k hk so dd hso hdd
    obtain ⟨a, hm⟩ := hd k hk
    obtain ⟨H, l, e⟩ := inputs_frame env s (elemW p w) k
    have hio : ∀ (t : State) (m : Nat), (loopSt (decOf p len) (s.instrNum + 1) p t m).io = t.io := fun t m => (countDown_frame p t m).2.2.2.2.2.1
    have hm' : ∀ l, Mapped ({ inputs env s (elemW p w) k with io := l }) (elemW p w) (dstSeg s) (dstOfs s (elemW p w) k) a := by
      intro l; rw [e]; exact hm
    simp only [bind_apply, hso, hdd, getReg_apply, resbind_ok, loopSt_dx, portIn, hio]
    rw [← loopSt_io, show elemOfs (dfOf s) (elemW p w) (BitVec.setWidth 16 (s.gpr 7)) k = dstOfs s (elemW p w) k from rfl, loopSt_write (hm' _)]
    have : (inputs env s (elemW p w) k).gpr 2 = s.gpr 2 := by rw [e]
    rw [this]
    rfl

/-- C35: INS reads port DX once per element (CX of them with a repeat prefix, else one) and stores the answers, in order, into the
destination elements; DI advances, CX counts down; nothing else changes.  `inputs` is the sequence of port reads and stores. -/
theorem C35_ins {s : State} {h0 : Nat} {p : Pfx} {len : Nat} {w : Bool} (hat : At s h0 p [strOpc 0x6C w] len)
    (env : Env) (hd : DstMapped s (elemW p w) (reps s p)) (hnz : NotZeroed (inputs env s (elemW p w) (reps s p)) h0 len) :
    Falls env s len (moveDI s p (elemW p w) (reps s p) (countDown p (inputs env s (elemW p w) (reps s p)) (reps s p))) := by
  obtain ⟨H, l, e⟩ := inputs_frame env s (elemW p w) (reps s p)
  refine string_falls (o := .ins w) (w := w) (z := false) (uD := true) (uS := false)
    (body := fun n _ _ ds dd => (do let p ← getReg 16 rDX; let v ← portIn n p; writeMem n ds (dd.setWidth 16) v))
    hat env (by cases w <;> decide) (by cases w <;> decide +kernel) rfl (T := inputs env s (elemW p w)) rfl
    (ins_rounds hd env len) reps_one (fun h => Nat.le_of_eq (reps_cx h)) (goes_reps (fun k => (inputs env s (elemW p w) k).flags))
    (fun h => Or.inl (reps_cx h)) (by rw [e]) (by rw [e]) (by rw [e]) hnz

/-! ### C46: IN and OUT -/

/-- Encodings of IN and OUT: width and port number. -/
inductive PortEnc (s : State) (p : Pfx) (base dxBase : BitVec 8) : Nat → List (BitVec 8) → BitVec 16 → Prop
  | imm8 (i : BitVec 8) : PortEnc s p base dxBase 8 [base, i] (i.setWidth 16)
  | imm (i : BitVec 8) : PortEnc s p base dxBase (opW p) [base + 1, i] (i.setWidth 16)
  | dx8 : PortEnc s p base dxBase 8 [dxBase] ((s.gpr 2).setWidth 16)
  | dx : PortEnc s p base dxBase (opW p) [dxBase + 1] ((s.gpr 2).setWidth 16)

/-- C46: OUT makes exactly one port access: the accumulator at the operand width to the port of the instruction; nothing else changes. -/
theorem C46_out {s : State} {h0 : Nat} {p : Pfx} {code : List (BitVec 8)} {len n : Nat} {port : BitVec 16} (hat : At s h0 p code len)
    (henc : PortEnc s p 0xE6 0xEE n code port) (env : Env) {v : BitVec n} (hv : (Opnd.reg 0).Has s n v) :
    Falls env s len { s with io := s.io ++ [.out (n / 8) port (v.setWidth 32)] } := by
  cases henc with
  | imm8 i =>
    refine step_falls hat env (by decide) (e := ⟨.base .outAI, 0, false⟩) (by decide) (a := 0) rfl _ (decOf p len) ?_ rfl rfl rfl rfl rfl
      (notZeroed_same hat (by decide) rfl)
    intro bytes j hc hj hsub
    have hj' : j + 1 = len := hj
    subst hj'
    have hv' : (opState s p (j + 1)).reg 8 rAX = v := hv.symm
    simp only [callFn, opFn, opOutAI, bind_apply, fetch8 hc env p _ hsub.head, resbind_ok, getReg_apply, portOut, modify_apply, hv']
    rfl
  | imm i =>
    refine step_falls hat env (by decide) (e := ⟨.base .outAIX, 0, false⟩) (by decide) (a := 0) rfl _ (decOf p len) ?_ rfl rfl rfl rfl rfl
      (notZeroed_same hat (by decide) rfl)
    intro bytes j hc hj hsub
    have hj' : j + 1 = len := hj
    subst hj'
    have hv' : (opState s p (j + 1)).reg (opW p) rAX = v := hv.symm
    simp only [callFn, opFn, opOutAIX, bind_apply, fetch8 hc env p _ hsub.head, resbind_ok]
    rw [withW_op _ env _ p rfl]
    simp only [bind_apply, resbind_ok, getReg_apply, portOut, modify_apply, hv']
    rfl
  | dx8 =>
    refine one_falls hat env (by decide) (by decide) (o := .outDxA) (a := 0) (by decide +kernel) _ ?_ rfl rfl rfl rfl
    have hv' : (opState s p len).reg 8 rAX = v := hv.symm
    simp only [opFn, opOutDxA, bind_apply, resbind_ok, getReg_apply, portOut, modify_apply, hv']
    rfl
  | dx =>
    refine one_falls hat env (by decide) (by decide) (o := .outDxAX) (a := 0) (by decide +kernel) _ ?_ rfl rfl rfl rfl
    have hv' : (opState s p len).reg (opW p) rAX = v := hv.symm
    simp only [opFn, opOutDxAX]
    rw [withW_op _ env _ p rfl]
    simp only [bind_apply, resbind_ok, getReg_apply, portOut, modify_apply, hv']
    rfl

/-- C46: IN makes exactly one port access, a read at the operand width from the port of the instruction, and loads the device's answer
into the accumulator; nothing else changes. -/
theorem C46_in {s : State} {h0 : Nat} {p : Pfx} {code : List (BitVec 8)} {len n : Nat} {port : BitVec 16} (hat : At s h0 p code len)
    (henc : PortEnc s p 0xE4 0xEC n code port) (env : Env) :
    Falls env s len ((Opnd.reg 0).put { s with io := s.io ++ [.inp (n / 8) port (((env.portIn s.io (n / 8) port).setWidth n).setWidth 32)] } n
      ((env.portIn s.io (n / 8) port).setWidth n)) := by
  rw [put_reg]
  cases henc with
  | imm8 i =>
    refine step_falls hat env (by decide) (e := ⟨.base .inAI, 0, false⟩) (by decide) (a := 0) rfl _ (decOf p len) ?_ rfl rfl rfl rfl rfl
      (notZeroed_same hat (by decide) rfl)
    intro bytes j hc hj hsub
    have hj' : j + 1 = len := hj
    subst hj'
    simp only [callFn, opFn, opInAI, bind_apply, fetch8 hc env p _ hsub.head, resbind_ok, setReg_apply, portIn]
    rfl
  | imm i =>
    refine step_falls hat env (by decide) (e := ⟨.base .inAIX, 0, false⟩) (by decide) (a := 0) rfl _ (decOf p len) ?_ rfl rfl rfl rfl rfl
      (notZeroed_same hat (by decide) rfl)
    intro bytes j hc hj hsub
    have hj' : j + 1 = len := hj
    subst hj'
    simp only [callFn, opFn, opInAIX, bind_apply, fetch8 hc env p _ hsub.head, resbind_ok]
    rw [withW_op _ env _ p rfl]
    simp only [bind_apply, resbind_ok, setReg_apply, portIn]
    rfl
  | dx8 =>
    refine one_falls hat env (by decide) (by decide) (o := .inADx) (a := 0) (by decide +kernel) _ ?_ rfl rfl rfl rfl
    simp only [opFn, opInADx, bind_apply, resbind_ok, getReg_apply, setReg_apply, portIn]
    rfl
  | dx =>
    refine one_falls hat env (by decide) (by decide) (o := .inADxX) (a := 0) (by decide +kernel) _ ?_ rfl rfl rfl rfl
    simp only [opFn, opInADxX]
    rw [withW_op _ env _ p rfl]
    simp only [bind_apply, resbind_ok, getReg_apply, setReg_apply, portIn]
    rfl

/-! ### The hypotheses can be met -/

theorem Flat.dstMapped {s : State} {base : Nat} (h : Flat s base) (p : Pfx) (w : Bool) (K : Nat) : DstMapped s (elemW p w) K :=
  fun k _ => ⟨_, h.mapped (by rcases elemW_cases p w with e | e | e <;> rw [e] <;> decide) _ _⟩

theorem Flat.srcMapped {s : State} {base : Nat} (h : Flat s base) (p : Pfx) (w : Bool) (K : Nat) : SrcMapped s p (elemW p w) K :=
  fun k _ => ⟨_, h.mapped (by rcases elemW_cases p w with e | e | e <;> rw [e] <;> decide) _ _⟩

theorem demo_rep (b op : BitVec 8) {p : Pfx} (h : Pfx.parse {} [b] = some p) : At (demo [b, op]) 0x10100 p [op] 2 :=
  ⟨demo_ready _, [b], h, demo_code [b, op] (by simp), rfl⟩

theorem holds_memVal (code : List (BitVec 8)) {n : Nat} (hn : n = 8 ∨ n = 16 ∨ n = 32) (seg ofs : BitVec 16) :
    Holds (demo code) seg ofs (memVal (demo code) n seg ofs) := by
  have h := demo_mapped code n seg ofs (by omega)
  refine ⟨_, h, ?_⟩
  rw [memVal, h.1]
  exact holds_valAt (by omega) _ _

-- C32: REP MOVSW of three words
example : ∃ (s : State) (p : Pfx), At s 0x10100 p [strOpc 0xA4 true] 2 ∧ p.addr = false ∧ reps s p = 3 ∧ SrcMapped s p (elemW p true) (reps s p) ∧
    DstMapped s (elemW p true) (reps s p) ∧ Apart s p (elemW p true) (reps s p) := by
  have h := demo_flat [0xF3, 0xA5]
  refine ⟨demo [0xF3, 0xA5], { rep := .rep }, demo_rep 0xF3 0xA5 rfl, rfl, rfl, h.srcMapped _ _ _, h.dstMapped _ _ _, ⟨?_, ?_⟩⟩
  · intro i hi j hj a b ha hb
    have e : reps (demo [0xF3, 0xA5]) { rep := .rep } = 3 := rfl
    rw [e] at hi hj
    rw [h.hostAddr] at ha hb
    cases ha; cases hb
    revert j; revert i
    decide
  · intro i hi j hj hne a b ha hb
    have e : reps (demo [0xF3, 0xA5]) { rep := .rep } = 3 := rfl
    rw [e] at hi hj
    rw [h.hostAddr] at ha hb
    cases ha; cases hb
    revert hne hj; revert j; revert hi; revert i
    decide

-- C33
example : ∃ (s : State) (p : Pfx) (v : BitVec 8), At s 0x10100 p [0xAA] 2 ∧ p.addr = false ∧ p.rep ≠ .none ∧ (Opnd.reg 0).Has s 8 v ∧
    DstMapped s 8 (cxOf s).toNat ∧ (cxOf s).toNat = 3 ∧ NotZeroed (filled s 8 v (cxOf s).toNat) 0x10100 2 :=
  ⟨demo [0xF3, 0xAA], { rep := .rep }, 0x55, demo_rep 0xF3 0xAA rfl, rfl, by decide, rfl, (demo_flat _).dstMapped {} false _, rfl,
    fun _ h => absurd h.1 (by decide +kernel)⟩

-- C34: AL = 55h; the destination starts with two zero bytes and then contains AL (stored beforehand)
def demoScan (code : List (BitVec 8)) : State := { demo code with host := fun a => if a = 0x40302 then 0x55 else (demo code).host a }

theorem demoScan_at (b op : BitVec 8) {p : Pfx} (h : Pfx.parse {} [b] = some p) : At (demoScan [b, op]) 0x10100 p [op] 2 := by
  have hd := demo_rep b op h
  refine ⟨⟨hd.ready.notMagic, hd.ready.notHle, hd.ready.counter⟩, [b], h, ?_, rfl⟩
  intro i hi
  have h2 : i < 2 := hi
  obtain ⟨_, h3⟩ := hd
  have := demo_code [b, op] (by simp) i hi
  refine ⟨this.1, this.2.1, ?_⟩
  show (if _ then _ else _) = _
  rw [if_neg (by omega)]
  exact this.2.2

theorem demoScan_holds (code : List (BitVec 8)) (k : Nat) (seg ofs : BitVec 16) :
    Holds (demoScan code) seg ofs ((demoScan code).host (linear seg ofs) : BitVec 8) := by
  refine ⟨linear seg ofs, demo_mapped code 8 seg ofs (by decide), fun i hi => ?_⟩
  have : i = 0 := by omega
  subst this
  simp [byteOf]

example : ∃ (s : State) (p : Pfx) (v : BitVec 8) (x : Nat → BitVec 8), At s 0x10100 p [0xAE] 2 ∧ p.addr = false ∧ p.rep = .repnz ∧
    (Opnd.reg 0).Has s 8 v ∧ 2 < (cxOf s).toNat ∧ (∀ k ≤ 2, Holds s (dstSeg s) (dstOfs s 8 k) (x k)) ∧ (∀ k < 2, x k ≠ v) ∧ x 2 = v :=
  ⟨demoScan [0xF2, 0xAE], { rep := .repnz }, 0x55, _, demoScan_at 0xF2 0xAE rfl, rfl, rfl, rfl, by decide,
    fun k _ => demoScan_holds _ k _ _, by decide +kernel, by decide +kernel⟩
example : ∃ (s : State) (p : Pfx) (v : BitVec 8) (x : Nat → BitVec 8), At s 0x10100 p [0xAE] 2 ∧ p.addr = false ∧ p.rep = .repnz ∧
    (Opnd.reg 0).Has s 8 v ∧ 0 < (cxOf s).toNat ∧ (∀ k < (cxOf s).toNat, Holds s (dstSeg s) (dstOfs s 8 k) (x k)) ∧
    (∀ k < (cxOf s).toNat, x k ≠ v) :=
  ⟨demo [0xF2, 0xAE], { rep := .repnz }, 0x55, _, demo_rep 0xF2 0xAE rfl, rfl, rfl, rfl, by decide,
    fun k _ => holds_memVal _ (Or.inl rfl) _ _, by decide +kernel⟩
example : ∃ (s : State) (p : Pfx) (x y : Nat → BitVec 8), At s 0x10100 p [0xA6] 2 ∧ p.addr = false ∧ p.rep = .rep ∧
    2 < (cxOf s).toNat ∧ (∀ k ≤ 2, Holds s (srcSeg s p) (srcOfs s 8 k) (x k)) ∧ (∀ k ≤ 2, Holds s (dstSeg s) (dstOfs s 8 k) (y k)) ∧
    (∀ k < 2, x k = y k) ∧ x 2 ≠ y 2 :=
  ⟨demoScan [0xF3, 0xA6], { rep := .rep }, _, _, demoScan_at 0xF3 0xA6 rfl, rfl, rfl, by decide,
    fun k _ => demoScan_holds _ k _ _, fun k _ => demoScan_holds _ k _ _, by decide +kernel, by decide +kernel⟩
example : ∃ (s : State) (p : Pfx) (x : Nat → BitVec 8), At s 0x10100 p [0xA6] 2 ∧ p.addr = false ∧ p.rep = .rep ∧
    0 < (cxOf s).toNat ∧ (∀ k < (cxOf s).toNat, Holds s (srcSeg s p) (srcOfs s 8 k) (x k)) ∧
    (∀ k < (cxOf s).toNat, Holds s (dstSeg s) (dstOfs s 8 k) (x k)) := by
  refine ⟨demo [0xF3, 0xA6], { rep := .rep }, fun _ => 0, demo_rep 0xF3 0xA6 rfl, rfl, rfl, by decide, fun k hk => ?_, fun k hk => ?_⟩
  · have e : (cxOf (demo [0xF3, 0xA6])).toNat = 3 := rfl
    rw [e] at hk
    refine ⟨_, demo_mapped _ 8 _ _ (by decide), ?_⟩
    revert k; decide +kernel
  · have e : (cxOf (demo [0xF3, 0xA6])).toNat = 3 := rfl
    rw [e] at hk
    refine ⟨_, demo_mapped _ 8 _ _ (by decide), ?_⟩
    revert k; decide +kernel

-- C35, C62
example : ∃ (s : State) (p : Pfx), At s 0x10100 p [0xA4] 2 ∧ stringOpcode 0xA4 ∧ p.rep ≠ .none ∧ cxOf s = 0 :=
  ⟨(demo [0xF3, 0xA4]).setGpr 1 0, { rep := .rep }, ⟨⟨by decide, by decide, by decide⟩, [0xF3], rfl, demo_code [0xF3, 0xA4] (by decide), rfl⟩,
    by simp [stringOpcode], by decide, rfl⟩
example : ∃ (s : State) (p : Pfx) (x : Nat → BitVec 16), At s 0x10100 p [strOpc 0x6E true] 2 ∧ p.addr = false ∧ reps s p = 3 ∧
    (∀ k < reps s p, Holds s (srcSeg s p) (srcOfs s 16 k) (x k)) :=
  ⟨demo [0xF3, 0x6F], { rep := .rep }, _, demo_rep 0xF3 0x6F rfl, rfl, rfl, fun k _ => holds_memVal _ (by decide) _ _⟩
example : ∃ (s : State) (p : Pfx) (env : Env), At s 0x10100 p [strOpc 0x6C true] 2 ∧ p.addr = false ∧ reps s p = 3 ∧
    DstMapped s (elemW p true) (reps s p) ∧ NotZeroed (inputs env s (elemW p true) (reps s p)) 0x10100 2 :=
  ⟨demo [0xF3, 0x6D], { rep := .rep }, ⟨false, fun _ _ _ => 7, fun _ => none⟩, demo_rep 0xF3 0x6D rfl, rfl, rfl, (demo_flat _).dstMapped _ _ _,
    fun _ h => absurd h.1 (by decide +kernel)⟩
example : ∃ (s : State) (p : Pfx) (x : Nat → BitVec 8), At s 0x10100 p [strOpc 0xAC false] 2 ∧ p.addr = false ∧ reps s p = 3 ∧
    (∀ k < reps s p, Holds s (srcSeg s p) (srcOfs s 8 k) (x k)) :=
  ⟨demo [0xF3, 0xAC], { rep := .rep }, _, demo_rep 0xF3 0xAC rfl, rfl, rfl, fun k _ => holds_memVal _ (by decide) _ _⟩

-- C46
example : ∃ s port v, At s 0x10100 {} [0xE7, 0x60] 2 ∧ PortEnc s {} 0xE6 0xEE (opW {}) [0xE7, 0x60] port ∧ (Opnd.reg 0).Has s (opW {}) v :=
  ⟨demo [0xE7, 0x60], _, _, demo_at _ (by decide), .imm 0x60, rfl⟩
example : ∃ s port, At s 0x10100 {} [0xEC] 1 ∧ PortEnc s {} 0xE4 0xEC 8 [0xEC] port := ⟨demo [0xEC], _, demo_at _ (by decide), .dx8⟩

end RME
