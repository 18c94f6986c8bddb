import Verif.Props.Stack2
import Verif.Spec.Call
set_option autoImplicit false
/-
C28 CALL / RET and unconditional jumps.
-/
namespace RME

/-- The scratch area after an instruction that sets CS:IP itself. -/
def decJ (p : Pfx) (len : Nat) : Decoder := { decOf p len with dontChangeIP := true }

theorem pushed_with (s : State) (v ip : BitVec 16) (i : Int) (d : Decoder) :
    pushed { s with ip := ip, dec := d, instrNum := i } v = { pushed s v with ip := ip, dec := d, instrNum := i } :=
  (pushed_scr s ip i d s.lastNull v).trans (by
    simp only [scr]
    rw [pushed_lastNull])

/-- `RME_Int_ParseModRMX_FarPtr`. -/
theorem parseFarPtr_rm {s : State} {h0 : Nat} {bytes : List (BitVec 8)} (h : CodeAt s h0 bytes) (env : Env)
    {p : Pfx} {j : Nat} {rm : List (BitVec 8)} {r : BitVec 3} {seg ofs cs ip : BitVec 16} (hrm : RM s p 16 rm r (.mem seg ofs))
    (hpl : Plain s p 8 rm) (h1 : Holds s seg ofs ip) (h2 : Holds s seg (ofs + 2) cs) (hs : Sub bytes j rm) :
    parseFarPtr env (opState s p j) = .ok (cs, ip) (opState s p (j + rm.length)) := by
  obtain ⟨m, hb, rfl, hne, hg, _⟩ := getMMM_rm h env hrm hpl hs
  simp only [parseFarPtr, getModRM, bind_apply, fetch8 h env p j hb, resbind_ok, pure_apply]
  rw [beq_eq_false_iff_ne.2 hne, guardE_false, resbind_ok, hg, resbind_ok]
  simp only []
  have e1 : (ofs.setWidth 32).setWidth 16 = ofs := by
    apply BitVec.eq_of_toNat_eq; simp
  have e2 : (ofs.setWidth 32 + 2).setWidth 16 = ofs + 2 := by
    apply BitVec.eq_of_toNat_eq; simp [BitVec.toNat_add]
  rw [e1, e2, readMem_like h1 (t := opState s p _) (by decide) rfl rfl rfl, resbind_ok, readMem_like h2 (t := opState s p _) (by decide) rfl rfl rfl, resbind_ok]

theorem opUnaryMX_at {s : State} {p : Pfx} {j : Nat} {env : Env} (ho : p.oper = false) {r : Res Unit} :
    (opUnaryMX 2 env (opState s p j) = r ↔ (do
      let (_, m) ← parseModRMX
      pushM nextIP
      let t ← readLoc 16 m
      setIP t
      setDontChangeIP : M Unit) env (opState s p j) = r) ∧
    (opUnaryMX 3 env (opState s p j) = r ↔ (do
      let (cs, ip) ← parseFarPtr
      pushM (getSreg .cs)
      pushM nextIP
      setIP ip
      setSreg .cs cs
      setDontChangeIP : M Unit) env (opState s p j) = r) ∧
    (opUnaryMX 4 env (opState s p j) = r ↔ (do
      let (_, m) ← parseModRMX
      let t ← readLoc 16 m
      setIP t
      setDontChangeIP : M Unit) env (opState s p j) = r) ∧
    (opUnaryMX 5 env (opState s p j) = r ↔ (do
      let (cs, ip) ← parseFarPtr
      setIP ip
      setSreg .cs cs
      setDontChangeIP : M Unit) env (opState s p j) = r) := by
  have hd : ¬ ((opState s p j).dec.ovrOper = true) := by
    show ¬ (p.oper = true)
    simp [ho]
  refine ⟨?_, ?_, ?_, ?_⟩ <;>
  · simp only [opUnaryMX]
    rw [bind_apply, getDec_apply, resbind_ok, if_neg hd]
    rfl

theorem resbind_assoc {α β γ : Type} (r : Res α) (f : α → State → Res β) (g : β → State → Res γ) :
    (r.bind f).bind g = r.bind (fun a s => (f a s).bind g) := by
  cases r <;> rfl

/-- An instruction that adds to IP itself before IP is advanced. -/
theorem Runs.shifts {env : Env} {s : State} {h0 : Nat} {p : Pfx} {code : List (BitVec 8)} {len : Nat} {t : State} {d : Decoder}
    (hat : At s h0 p code len) (hr : Runs env s h0 p code len { t with dec := d, instrNum := s.instrNum + 1 })
    (hm : t.map = s.map) (hv : t.valid = s.valid)
    (hl : d.ipOffset = len) (hd : d.dontChangeIP = false) (hn : NotZeroed t h0 len) : Jumps env s (t.ip + BitVec.ofNat 16 len) t := by
  have hnull := isNull_false (s1 := { t with dec := d, instrNum := s.instrNum + 1 }) hl hn
  have := hr.out hat hm hv hl
  rw [hnull] at this
  refine ⟨d, ?_⟩
  rw [this]
  simp only [Bool.false_and, Bool.false_eq_true, if_false, tailState, hd, hl]

theorem far_pushes {s : State} {env : Env} {p : Pfx} {j : Nat} (hr : Room s 2) :
    (pushM (getSreg .cs) env (opState s p j)).bind (fun _ s' => pushM nextIP env s') =
      .ok () { pushedAll s [s.sreg .cs, s.ip + BitVec.ofNat 16 j] with dec := decOf p j, instrNum := s.instrNum + 1 } := by
  obtain ⟨a, hm⟩ := hr.first
  obtain ⟨b, hm2⟩ := (hr.pushed (s.sreg .cs)).first
  rw [pushM_op (x := s.sreg .cs) hm rfl, resbind_ok, pushM_ok (x := s.ip + BitVec.ofNat 16 j) (h := b)]
  · exact congrArg _ (pushed_op ..)
  · exact hm2.congr rfl rfl
  · simp only [nextIP_apply, withSP_ip, withSP_dec, pushed_ip]
    rfl

/-- C28: a near CALL (E8, FF /2) pushes the address of the following instruction and jumps. -/
theorem C28_call_near_partial {s : State} {h0 : Nat} {p : Pfx} {code : List (BitVec 8)} {len : Nat} {ip : BitVec 16} (hat : At s h0 p code len)
    (ho : p.oper = false) (henc : CallEnc s p len code ip) (hr : Room s 1) (env : Env)
    (hnz : NotZeroed (pushed s (s.ip + BitVec.ofNat 16 len)) h0 len) :
    StepsTo env s { calledNear s (s.ip + BitVec.ofNat 16 len) ip with instrNum := s.instrNum + 1 } := by
  obtain ⟨a, hm⟩ := hr.first
  cases henc with
  | rel lo hi =>
    have : Runs env s h0 p [0xE8, lo, hi] len
        { calledNear s (s.ip + BitVec.ofNat 16 len) (s.ip + le16 lo hi) with dec := decOf p len, instrNum := s.instrNum + 1 } := by
      refine .mk ⟨.base .callN, 0, false⟩ 0 (by decide) (by decide +kernel) rfl ?_
      intro bytes j hc hj hsub
      obtain rfl : j + 2 = len := hj
      simp only [callFn, opFn, opCallN, bind_apply, fetch16 hc env p j hsub.head hsub.tail.head, resbind_ok]
      rw [pushM_op (x := s.ip + BitVec.ofNat 16 (j + 2)) hm rfl, resbind_ok]
      simp only [getIP_apply, resbind_ok, setIP_apply, pushed_ip]
      rfl
    have := this.shifts (t := calledNear s (s.ip + BitVec.ofNat 16 len) (s.ip + le16 lo hi)) hat (pushed_map ..) (pushed_valid ..) rfl rfl hnz
    rw [show (calledNear s (s.ip + BitVec.ofNat 16 len) (s.ip + le16 lo hi)).ip + BitVec.ofNat 16 len = s.ip + BitVec.ofNat 16 len + le16 lo hi by
      show s.ip + le16 lo hi + _ = _
      rw [BitVec.add_assoc, BitVec.add_comm (le16 lo hi), ← BitVec.add_assoc]] at this
    exact this
  | @rm rmb o ip h hp hv hv' =>
    have : Runs env s h0 p (0xFF :: rmb) len
        { calledNear s (s.ip + BitVec.ofNat 16 len) ip with dec := decJ p len, instrNum := s.instrNum + 1 } := by
      refine .mk ⟨.base .unaryMX, 0, true⟩ 2 (by decide) (by decide +kernel) (h.param' _ rfl) ?_
      intro bytes j hc hj hsub
      subst hj
      have hok := hv.ok h.no_imm
      simp only [callFn, opFn]
      rw [(opUnaryMX_at ho).1]
      simp only [bind_apply, parseModRMX_rm hc env (by decide) h hp hok hsub, resbind_ok]
      rw [pushM_op (x := s.ip + BitVec.ofNat 16 (j + rmb.length)) hm rfl, resbind_ok]
      have hl : locOf s o = locOf (pushed s (s.ip + BitVec.ofNat 16 (j + rmb.length))) o := by
        cases o with
        | mem a b => simp only [locOf, hostAddr, pushed_map]
        | _ => rfl
      have hok' := hv'.ok h.no_imm
      rw [hl]
      have hag : Agree (pushed s (s.ip + BitVec.ofNat 16 (j + rmb.length)))
          { pushed s (s.ip + BitVec.ofNat 16 (j + rmb.length)) with dec := decOf p (j + rmb.length), instrNum := s.instrNum + 1 } := ⟨rfl, rfl, rfl, rfl⟩
      rw [readLoc_has hag env (by decide) hok' hv', resbind_ok]
      rfl
    exact this.jumps (t := calledNear s (s.ip + BitVec.ofNat 16 len) ip) hat (pushed_map ..) (pushed_valid ..) rfl rfl hnz

/-- C28: a far CALL (9A, FF /3) pushes CS and the address of the following instruction and jumps. -/
theorem C28_call_far {s : State} {h0 : Nat} {p : Pfx} {code : List (BitVec 8)} {len : Nat} {cs ip : BitVec 16} (hat : At s h0 p code len)
    (ho : p.oper = false) (henc : CallFarEnc s p code cs ip) (hr : Room s 2) (env : Env)
    (hnz : NotZeroed (pushedAll s [s.sreg .cs, s.ip + BitVec.ofNat 16 len]) h0 len) :
    StepsTo env s { calledFar s (s.ip + BitVec.ofNat 16 len) cs ip with instrNum := s.instrNum + 1 } := by
  have main : Runs env s h0 p code len { calledFar s (s.ip + BitVec.ofNat 16 len) cs ip with dec := decJ p len, instrNum := s.instrNum + 1 } := by
    cases henc with
    | imm a b c d =>
      refine .mk ⟨.base .callF, 0, false⟩ 0 (by decide) (by decide +kernel) rfl ?_
      intro bytes j hc hj hsub
      obtain rfl : j + 4 = len := hj
      simp only [callFn, opFn, opCallF, bind_apply, fetch16 hc env p j hsub.head hsub.tail.head, resbind_ok,
        fetch16 hc env p (j + 2) hsub.tail.tail.head hsub.tail.tail.tail.head, ← resbind_assoc]
      rw [far_pushes hr]
      rfl
    | @rm rmb seg ofs cs ip h hp h1 h2 =>
      refine .mk ⟨.base .unaryMX, 0, true⟩ 3 (by decide) (by decide +kernel) (h.param' _ rfl) ?_
      intro bytes j hc hj hsub
      subst hj
      simp only [callFn, opFn]
      rw [(opUnaryMX_at ho).2.1]
      simp only [bind_apply, parseFarPtr_rm hc env h hp h1 h2 hsub, resbind_ok, ← resbind_assoc]
      rw [far_pushes hr]
      rfl
  obtain ⟨e1, e2, _⟩ := pushed_map2 (s := s) [s.sreg .cs, s.ip + BitVec.ofNat 16 len]
  exact main.jumps (t := calledFar s (s.ip + BitVec.ofNat 16 len) cs ip) hat e1 e2 rfl rfl hnz

/-- C28: unconditional near jumps (EB, E9, FF /4). -/
theorem C28_jmp_near {s : State} {h0 : Nat} {p : Pfx} {code : List (BitVec 8)} {len : Nat} {ip : BitVec 16} (hat : At s h0 p code len)
    (ho : p.oper = false) (henc : JmpEnc s p len code ip) (env : Env) : Jumps env s ip s := by
  have hsh : ∀ (op : BitVec 8) (rest : List (BitVec 8)) (d : BitVec 16), op ≠ 0 → code = op :: rest → ip = s.ip + BitVec.ofNat 16 len + d →
      Runs env s h0 p code len { ({ s with ip := s.ip + d } : State) with dec := decOf p len, instrNum := s.instrNum + 1 } → Jumps env s ip s := by
    intro op rest d hop hc hip hr
    subst hc
    have := hr.shifts (t := { s with ip := s.ip + d }) hat rfl rfl rfl rfl (notZeroed_same hat hop rfl)
    rw [hip, BitVec.add_assoc, BitVec.add_comm _ d, ← BitVec.add_assoc]
    exact this
  cases henc with
  | short d =>
    refine hsh _ _ (d.signExtend 16) (by decide) rfl rfl (.mk ⟨.base .jmpS, 0, false⟩ 0 (by decide) (by decide +kernel) rfl ?_)
    intro bytes j hc hj hsub
    obtain rfl : j + 1 = len := hj
    simp only [callFn, opFn, opJmpS, addIP, bind_apply, fetch8S hc env p 16 j hsub.head, resbind_ok, getIP_apply, setIP_apply]
    rfl
  | near lo hi =>
    refine hsh _ _ (le16 lo hi) (by decide) rfl rfl (.mk ⟨.base .jmpN, 0, false⟩ 0 (by decide) (by decide +kernel) rfl ?_)
    intro bytes j hc hj hsub
    obtain rfl : j + 2 = len := hj
    simp only [callFn, opFn, opJmpN, addIP, bind_apply, fetch16 hc env p j hsub.head hsub.tail.head, resbind_ok, getIP_apply, setIP_apply]
    rfl
  | @rm rmb o ip h hp hv =>
    have : Runs env s h0 p (0xFF :: rmb) len { ({ s with ip := ip } : State) with dec := decJ p len, instrNum := s.instrNum + 1 } := by
      refine .mk ⟨.base .unaryMX, 0, true⟩ 4 (by decide) (by decide +kernel) (h.param' _ rfl) ?_
      intro bytes j hc hj hsub
      subst hj
      have hok := hv.ok h.no_imm
      simp only [callFn, opFn]
      rw [(opUnaryMX_at ho).2.2.1]
      simp only [bind_apply, parseModRMX_rm hc env (by decide) h hp hok hsub, resbind_ok, readLoc_has (Agree.op s p _) env (by decide) hok hv]
      rfl
    exact this.jumps (t := { s with ip := ip }) hat rfl rfl rfl rfl (notZeroed_same hat (by decide) rfl)

/-- C28: unconditional far jumps (EA, FF /5). -/
theorem C28_jmp_far {s : State} {h0 : Nat} {p : Pfx} {code : List (BitVec 8)} {len : Nat} {cs ip : BitVec 16} (hat : At s h0 p code len)
    (ho : p.oper = false) (henc : JmpFarEnc s p code cs ip) (env : Env) : Jumps env s ip (s.setSreg .cs cs) := by
  have hsh : ∀ (op : BitVec 8) (rest : List (BitVec 8)), op ≠ 0 → code = op :: rest →
      Runs env s h0 p code len { ({ s.setSreg .cs cs with ip := ip } : State) with dec := decJ p len, instrNum := s.instrNum + 1 } →
      Jumps env s ip (s.setSreg .cs cs) := by
    intro op rest hop hc hr
    subst hc
    exact hr.jumps (t := { s.setSreg .cs cs with ip := ip }) hat rfl rfl rfl rfl (notZeroed_same hat hop rfl)
  cases henc with
  | imm a b c d =>
    refine hsh _ _ (by decide) rfl (.mk ⟨.base .jmpF, 0, false⟩ 0 (by decide) (by decide +kernel) rfl ?_)
    intro bytes j hc hj hsub
    obtain rfl : j + 4 = len := hj
    simp only [callFn, opFn, opJmpF, bind_apply, fetch16 hc env p j hsub.head hsub.tail.head, resbind_ok,
      fetch16 hc env p (j + 2) hsub.tail.tail.head hsub.tail.tail.tail.head]
    rfl
  | @rm rmb seg ofs cs ip h hp h1 h2 =>
    refine hsh _ _ (by decide) rfl (.mk ⟨.base .unaryMX, 0, true⟩ 5 (by decide) (by decide +kernel) (h.param' _ rfl) ?_)
    intro bytes j hc hj hsub
    subst hj
    simp only [callFn, opFn]
    rw [(opUnaryMX_at ho).2.2.2]
    simp only [bind_apply, parseFarPtr_rm hc env h hp h1 h2 hsub, resbind_ok]
    rfl

/-- C28: RET and RET n go to the address at SS:SP, drop it and `k` more bytes; nothing else changes. -/
theorem C28_ret_near {s : State} {h0 : Nat} {p : Pfx} {code : List (BitVec 8)} {len : Nat} {k ip : BitVec 16} (hat : At s h0 p code len)
    (henc : RetEnc code k) (h1 : StackTop s 0 ip) (env : Env) : Jumps env s ip (withSP s (spOf s + 2 + k)) := by
  have hsh : ∀ (op : BitVec 8) (rest : List (BitVec 8)), op ≠ 0 → code = op :: rest →
      Runs env s h0 p code len { ({ withSP s (spOf s + 2 + k) with ip := ip } : State) with dec := decJ p len, instrNum := s.instrNum + 1 } →
      Jumps env s ip (withSP s (spOf s + 2 + k)) := by
    intro op rest hop hc hr
    subst hc
    exact hr.jumps (t := { withSP s (spOf s + 2 + k) with ip := ip }) hat rfl rfl rfl rfl (notZeroed_same hat hop rfl)
  cases henc with
  | ret =>
    refine hsh _ _ (by decide) rfl (.mk ⟨.base .retN, 0, false⟩ 0 (by decide) (by decide +kernel) rfl ?_)
    intro bytes j hc hj hsub
    obtain rfl : j = len := hj
    simp only [callFn, opFn, opRetN, bind_apply, pop_op h1, resbind_ok, setIP_apply, setDontChangeIP_apply, BitVec.ofNat_eq_ofNat, BitVec.add_zero]
    rfl
  | imm lo hi =>
    refine hsh _ _ (by decide) rfl (.mk ⟨.base .retiN, 0, false⟩ 0 (by decide) (by decide +kernel) rfl ?_)
    intro bytes j hc hj hsub
    obtain rfl : j + 2 = len := hj
    simp only [callFn, opFn, opRetiN, addSP, bind_apply, fetch16 hc env p j hsub.head hsub.tail.head, resbind_ok, pop_op h1, setIP_apply, getReg_apply,
      setReg_apply, setDontChangeIP_apply]
    refine congrArg (Res.ok ()) ?_
    have e := withSP_withSP s (spOf s + BitVec.ofNat 16 (2 * 1)) (spOf s + 2 + le16 lo hi)
    have e2 : spOf (dropped s 1) = spOf s + 2 := spOf_dropped s 1
    rw [← e]
    show ({ withSP (dropped s 1) (spOf (dropped s 1) + le16 lo hi) with
      ip := ip
      dec := decJ p (j + 2)
      instrNum := s.instrNum + 1 } : State) = _
    rw [e2]
    rfl

theorem pop2_op {s : State} {env : Env} {v w : BitVec 16} (h : StackTop s 0 v) (h2 : StackTop s 1 w) (p : Pfx) (j : Nat) (ip : BitVec 16) :
    pop env { dropped s 1 with ip := ip, dec := decOf p j, instrNum := s.instrNum + 1 } =
      .ok w { dropped s 2 with ip := ip, dec := decOf p j, instrNum := s.instrNum + 1 } := by
  have e2 : spOf (dropped s 1) = spOf s + BitVec.ofNat 16 (2 * 1) := spOf_dropped s 1
  have : StackTop { dropped s 1 with ip := ip, dec := decOf p j, instrNum := s.instrNum + 1 } 0 w := by
    show Holds _ (s.sreg .ss) (spOf (dropped s 1) + BitVec.ofNat 16 (2 * 0)) w
    rw [e2, BitVec.add_assoc, ← BitVec.ofNat_add]
    exact readMem_at (by decide) h2 rfl rfl rfl
  rw [pop_ok this]
  refine congrArg (Res.ok w) ?_
  have e := withSP_withSP s (spOf s + BitVec.ofNat 16 (2 * 1)) (spOf s + BitVec.ofNat 16 (2 * 2))
  show ({ withSP (dropped s 1) (spOf (dropped s 1) + BitVec.ofNat 16 (2 * 1)) with
      ip := ip
      dec := decOf p j
      instrNum := s.instrNum + 1 } : State) = { withSP s (spOf s + BitVec.ofNat 16 (2 * 2)) with
      ip := ip
      dec := decOf p j
      instrNum := s.instrNum + 1 }
  rw [e2, ← e, BitVec.add_assoc, ← BitVec.ofNat_add]
  rfl

/-- C28: RETF and RETF n go to the far address at SS:SP, drop it and `k` more bytes; nothing else changes. -/
theorem C28_ret_far {s : State} {h0 : Nat} {p : Pfx} {code : List (BitVec 8)} {len : Nat} {k cs ip : BitVec 16} (hat : At s h0 p code len)
    (henc : RetFarEnc code k) (h1 : StackTop s 0 ip) (h2 : StackTop s 1 cs) (env : Env) :
    Jumps env s ip ((withSP s (spOf s + 4 + k)).setSreg .cs cs) := by
  have hsh : ∀ (op : BitVec 8) (rest : List (BitVec 8)), op ≠ 0 → code = op :: rest →
      Runs env s h0 p code len { ({ (withSP s (spOf s + 4 + k)).setSreg .cs cs with ip := ip } : State) with dec := decJ p len, instrNum := s.instrNum + 1 } →
      Jumps env s ip ((withSP s (spOf s + 4 + k)).setSreg .cs cs) := by
    intro op rest hop hc hr
    subst hc
    exact hr.jumps (t := { (withSP s (spOf s + 4 + k)).setSreg .cs cs with ip := ip }) hat rfl rfl rfl rfl (notZeroed_same hat hop rfl)
  cases henc with
  | ret =>
    refine hsh _ _ (by decide) rfl (.mk ⟨.base .retF, 0, false⟩ 0 (by decide) (by decide +kernel) rfl ?_)
    intro bytes j hc hj hsub
    obtain rfl : j = len := hj
    simp only [callFn, opFn, opRetF, bind_apply, pop_op h1, resbind_ok, pop2_op h1 h2 p j s.ip, setIP_apply, setDontChangeIP_apply, BitVec.ofNat_eq_ofNat, BitVec.add_zero]
    have := pop2_op (env := env) h1 h2 p j (dropped s 1).ip
    rw [show (pop env { dropped s 1 with dec := decOf p j, instrNum := s.instrNum + 1 }) = _ from this]
    rfl
  | imm lo hi =>
    refine hsh _ _ (by decide) rfl (.mk ⟨.base .retiF, 0, false⟩ 0 (by decide) (by decide +kernel) rfl ?_)
    intro bytes j hc hj hsub
    obtain rfl : j + 2 = len := hj
    simp only [callFn, opFn, opRetiF, addSP, bind_apply, fetch16 hc env p j hsub.head hsub.tail.head, resbind_ok, pop_op h1]
    have := pop2_op (env := env) h1 h2 p (j + 2) (dropped s 1).ip
    rw [show (pop env { dropped s 1 with dec := decOf p (j + 2), instrNum := s.instrNum + 1 }) = _ from this]
    simp only [resbind_ok, setIP_apply, getReg_apply, setReg_apply, setSreg_apply, setDontChangeIP_apply]
    refine congrArg (Res.ok ()) ?_
    have e := withSP_withSP s (spOf s + BitVec.ofNat 16 (2 * 2)) (spOf s + 4 + le16 lo hi)
    have e2 : spOf (dropped s 2) = spOf s + 4 := spOf_dropped s 2
    rw [← e]
    show ({ (withSP (dropped s 2) (spOf (dropped s 2) + le16 lo hi)).setSreg .cs cs with
      ip := ip
      dec := decJ p (j + 2)
      instrNum := s.instrNum + 1 } : State) = _
    rw [e2]
    rfl

end RME
