import Verif.Spec.Machine
set_option autoImplicit false
/-
Symbolic execution of the model: simp lemmas for the monad and the primitives.
-/
namespace RME

@[simp] theorem bind_apply {α β : Type} (m : M α) (f : α → M β) (env : Env) (s : State) :
    (m >>= f) env s = (m env s).bind (fun a s' => f a env s') := rfl
@[simp] theorem pure_apply {α : Type} (a : α) (env : Env) (s : State) :
    (pure a : M α) env s = .ok a s := rfl
@[simp] theorem resbind_ok {α β : Type} (a : α) (s : State) (f : α → State → Res β) :
    (Res.ok a s).bind f = f a s := rfl
@[simp] theorem resbind_err {α β : Type} (e : Err) (s : State) (f : α → State → Res β) :
    (Res.err e s).bind f = .err e s := rfl
@[simp] theorem resbind_ub {α β : Type} (u : UB) (f : α → State → Res β) :
    (Res.ub u : Res α).bind f = .ub u := rfl
@[simp] theorem throwE_apply {α : Type} (e : Err) (env : Env) (s : State) :
    (throwE e : M α) env s = .err e s := rfl
@[simp] theorem ubE_apply {α : Type} (u : UB) (env : Env) (s : State) :
    (ubE u : M α) env s = .ub u := rfl
@[simp] theorem gets_apply {α : Type} (f : State → α) (env : Env) (s : State) :
    gets f env s = .ok (f s) s := rfl
@[simp] theorem modify_apply (f : State → State) (env : Env) (s : State) :
    modify f env s = .ok () (f s) := rfl
@[simp] theorem getReg_apply (n r env s) : getReg n r env s = .ok (s.reg n r) s := rfl
@[simp] theorem setReg_apply (n r v env s) : setReg n r v env s = .ok () (s.setReg n r v) := rfl
@[simp] theorem getSreg_apply (r env s) : getSreg r env s = .ok (s.sreg r) s := rfl
@[simp] theorem setSreg_apply (r v env s) : setSreg r v env s = .ok () (s.setSreg r v) := rfl
@[simp] theorem getIP_apply (env s) : getIP env s = .ok s.ip s := rfl
@[simp] theorem setIP_apply (v env s) : setIP v env s = .ok () { s with ip := v } := rfl
@[simp] theorem getFlags_apply (env s) : getFlags env s = .ok s.flags s := rfl
@[simp] theorem setFlags_apply (v env s) : setFlags v env s = .ok () { s with flags := v } := rfl
@[simp] theorem getDec_apply (env s) : getDec env s = .ok s.dec s := rfl
@[simp] theorem modDec_apply (f env s) : modDec f env s = .ok () { s with dec := f s.dec } := rfl
@[simp] theorem setDontChangeIP_apply (env s) :
    setDontChangeIP env s = .ok () { s with dec := { s.dec with dontChangeIP := true } } := rfl
@[simp] theorem nextIP_apply (env s) :
    nextIP env s = .ok (s.ip + BitVec.ofNat 16 s.dec.ipOffset) s := rfl
@[simp] theorem guardE_false (e env s) : guardE false e env s = .ok () s := rfl
@[simp] theorem guardE_true (e env s) : guardE true e env s = .err e s := rfl
theorem guardE_apply (c e env s) : guardE c e env s = if c then .err e s else .ok () s := by
  cases c <;> rfl
@[simp] theorem liftUB_ok {α : Type} (a : α) : liftUB (.ok a) = (pure a : M α) := rfl
@[simp] theorem liftUB_error {α : Type} (u : UB) : liftUB (.error u) = (ubE u : M α) := rfl
@[simp] theorem getSegment_apply (d env s) :
    getSegment d env s = .ok (s.sreg (s.dec.ovrSeg.getD d)) s := rfl
theorem ite_apply {α : Type} (c : Prop) [Decidable c] (a b : M α) (env s) :
    (if c then a else b) env s = if c then a env s else b env s := by split <;> rfl
theorem withW_apply {α : Type} (f : Nat → M α) (env s) :
    withW f env s = if s.dec.ovrOper then f 32 env s else f 16 env s := by
  simp only [withW, bind_apply, getDec_apply, resbind_ok, ite_apply]

/-! ### State projections -/

section proj
variable (s : State) (r : BitVec 3) (n : Nat) (v : BitVec n) (v32 : BitVec 32) (sr : SReg)
  (v16 : BitVec 16)

@[simp] theorem setGpr_sreg : (s.setGpr r v32).sreg = s.sreg := rfl
@[simp] theorem setGpr_ip : (s.setGpr r v32).ip = s.ip := rfl
@[simp] theorem setGpr_flags : (s.setGpr r v32).flags = s.flags := rfl
@[simp] theorem setGpr_cpuType : (s.setGpr r v32).cpuType = s.cpuType := rfl
@[simp] theorem setGpr_debugLevel : (s.setGpr r v32).debugLevel = s.debugLevel := rfl
@[simp] theorem setGpr_map : (s.setGpr r v32).map = s.map := rfl
@[simp] theorem setGpr_host : (s.setGpr r v32).host = s.host := rfl
@[simp] theorem setGpr_valid : (s.setGpr r v32).valid = s.valid := rfl
@[simp] theorem setGpr_instrNum : (s.setGpr r v32).instrNum = s.instrNum := rfl
@[simp] theorem setGpr_lastNull : (s.setGpr r v32).lastNull = s.lastNull := rfl
@[simp] theorem setGpr_dec : (s.setGpr r v32).dec = s.dec := rfl
@[simp] theorem setGpr_io : (s.setGpr r v32).io = s.io := rfl
theorem setGpr_gpr : (s.setGpr r v32).gpr = fun x => if x = r then v32 else s.gpr x := rfl

@[simp] theorem setReg_sreg : (s.setReg n r v).sreg = s.sreg := rfl
@[simp] theorem setReg_ip : (s.setReg n r v).ip = s.ip := rfl
@[simp] theorem setReg_flags : (s.setReg n r v).flags = s.flags := rfl
@[simp] theorem setReg_cpuType : (s.setReg n r v).cpuType = s.cpuType := rfl
@[simp] theorem setReg_debugLevel : (s.setReg n r v).debugLevel = s.debugLevel := rfl
@[simp] theorem setReg_map : (s.setReg n r v).map = s.map := rfl
@[simp] theorem setReg_host : (s.setReg n r v).host = s.host := rfl
@[simp] theorem setReg_valid : (s.setReg n r v).valid = s.valid := rfl
@[simp] theorem setReg_instrNum : (s.setReg n r v).instrNum = s.instrNum := rfl
@[simp] theorem setReg_lastNull : (s.setReg n r v).lastNull = s.lastNull := rfl
@[simp] theorem setReg_dec : (s.setReg n r v).dec = s.dec := rfl
@[simp] theorem setReg_io : (s.setReg n r v).io = s.io := rfl

@[simp] theorem setRegH_sreg : (s.setRegH n r v).sreg = s.sreg := rfl
@[simp] theorem setRegH_ip : (s.setRegH n r v).ip = s.ip := rfl
@[simp] theorem setRegH_flags : (s.setRegH n r v).flags = s.flags := rfl
@[simp] theorem setRegH_cpuType : (s.setRegH n r v).cpuType = s.cpuType := rfl
@[simp] theorem setRegH_debugLevel : (s.setRegH n r v).debugLevel = s.debugLevel := rfl
@[simp] theorem setRegH_map : (s.setRegH n r v).map = s.map := rfl
@[simp] theorem setRegH_host : (s.setRegH n r v).host = s.host := rfl
@[simp] theorem setRegH_valid : (s.setRegH n r v).valid = s.valid := rfl
@[simp] theorem setRegH_instrNum : (s.setRegH n r v).instrNum = s.instrNum := rfl
@[simp] theorem setRegH_lastNull : (s.setRegH n r v).lastNull = s.lastNull := rfl
@[simp] theorem setRegH_dec : (s.setRegH n r v).dec = s.dec := rfl
@[simp] theorem setRegH_io : (s.setRegH n r v).io = s.io := rfl

@[simp] theorem setSreg_gpr : (s.setSreg sr v16).gpr = s.gpr := rfl
@[simp] theorem setSreg_ip : (s.setSreg sr v16).ip = s.ip := rfl
@[simp] theorem setSreg_flags : (s.setSreg sr v16).flags = s.flags := rfl
@[simp] theorem setSreg_cpuType : (s.setSreg sr v16).cpuType = s.cpuType := rfl
@[simp] theorem setSreg_debugLevel : (s.setSreg sr v16).debugLevel = s.debugLevel := rfl
@[simp] theorem setSreg_map : (s.setSreg sr v16).map = s.map := rfl
@[simp] theorem setSreg_host : (s.setSreg sr v16).host = s.host := rfl
@[simp] theorem setSreg_valid : (s.setSreg sr v16).valid = s.valid := rfl
@[simp] theorem setSreg_instrNum : (s.setSreg sr v16).instrNum = s.instrNum := rfl
@[simp] theorem setSreg_lastNull : (s.setSreg sr v16).lastNull = s.lastNull := rfl
@[simp] theorem setSreg_dec : (s.setSreg sr v16).dec = s.dec := rfl
@[simp] theorem setSreg_io : (s.setSreg sr v16).io = s.io := rfl
theorem setSreg_sreg : (s.setSreg sr v16).sreg = fun x => if x = sr then v16 else s.sreg x := rfl
@[simp] theorem setSreg_sreg_same : (s.setSreg sr v16).sreg sr = v16 := by simp [setSreg_sreg]
theorem setSreg_sreg_ne {x : SReg} (h : x ≠ sr) : (s.setSreg sr v16).sreg x = s.sreg x := by
  simp [setSreg_sreg, h]

end proj

theorem State.ext' {s t : State} (h1 : s.gpr = t.gpr) (h2 : s.sreg = t.sreg) (h3 : s.ip = t.ip)
    (h4 : s.flags = t.flags) (h5 : s.cpuType = t.cpuType) (h6 : s.debugLevel = t.debugLevel)
    (h7 : s.map = t.map) (h8 : s.host = t.host) (h9 : s.valid = t.valid)
    (h10 : s.instrNum = t.instrNum) (h11 : s.lastNull = t.lastNull) (h12 : s.dec = t.dec)
    (h13 : s.io = t.io) : s = t := by
  cases s; cases t; simp_all

end RME
