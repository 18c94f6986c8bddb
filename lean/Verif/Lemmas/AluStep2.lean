import Verif.Lemmas.AluStep
set_option autoImplicit false
/-
Full steps: TEST, INC/DEC, NOT/NEG, MUL/IMUL, DIV/IDIV, shifts and rotates.
-/
namespace RME

theorem aluTest_comm {n : Nat} (a b : BitVec n) (f : BitVec 16) : aluTest a b f = aluTest b a f := by
  simp only [aluTest, BitVec.and_comm]

theorem testApply_ok {s t : State} (hag : Agree s t) (env : Env) {n : Nat} (hn : n = 8 ∨ n = 16 ∨ n = 32)
    {o : Opnd} {a : BitVec n} (ho : o.Ok s n) (ha : o.Has s n a) (b : BitVec n) :
    testApply n (locOf s o) b env t = .ok () { t with flags := aluTest a b t.flags } := by
  simp only [testApply, bind_apply, readLoc_has hag env hn ho ha, resbind_ok, getFlags_apply, setFlags_apply]

theorem test_step {s : State} {h0 : Nat} {p : Pfx} {code : List (BitVec 8)} {len n : Nat} {dst src : Opnd}
    (hat : At s h0 p code len) (henc : TestEnc s p n code dst src) (env : Env) {a b : BitVec n}
    (ha : dst.Has s n a) (hb : src.Has s n b) :
    Falls env s len { s with flags := aluTest a b s.flags } := by
  cases henc with
  | mr8 h hp =>
    refine step_falls hat env (by decide) (e := ⟨.base .testMR, 0, false⟩) (by decide) rfl _ (decOf p len) ?_
      rfl rfl rfl rfl rfl (notZeroed_same hat (by decide) rfl)
    intro bytes j hc hj hsub
    subst hj
    simp only [callFn, opFn, opTestMR, bind_apply, parseModRM_rm hc env h hp (ha.ok h.no_imm) hsub, resbind_ok,
      readLoc_has (Agree.op s p _) env (Or.inl rfl) (regOp_ok s _) hb,
      testApply_ok (Agree.op s p _) env (Or.inl rfl) (ha.ok h.no_imm) ha]
    rfl
  | mr h hp =>
    refine step_falls hat env (by decide) (e := ⟨.base .testMRX, 0, false⟩) (by decide) rfl _ (decOf p len) ?_
      rfl rfl rfl rfl rfl (notZeroed_same hat (by decide) rfl)
    intro bytes j hc hj hsub
    subst hj
    simp only [callFn, opFn, opTestMRX, bind_apply, parseModRMX_rm hc env (opW_ne8 p) h hp (ha.ok h.no_imm) hsub,
      resbind_ok, withW_op (p := p) _ _ (opState _ _ _) rfl, ← regOp_wide_loc s p,
      readLoc_has (Agree.op s p _) env (opW_ok p) (regOp_ok s _) hb,
      testApply_ok (Agree.op s p _) env (opW_ok p) (ha.ok h.no_imm) ha]
    rfl
  | ai8 i =>
    refine step_falls hat env (by decide) (e := ⟨.base .testAI, 0, false⟩) (by decide) rfl _ (decOf p len) ?_
      rfl rfl rfl rfl rfl (notZeroed_same hat (by decide) rfl)
    intro bytes j hc hj hsub
    subst hj
    have hb' : b = i := hb.trans (imm_has8 i)
    subst hb'
    simp only [callFn, opFn, opTestAI, bind_apply, fetch8 hc env p j hsub.head, resbind_ok]
    exact testApply_ok (Agree.op s p _) env (Or.inl rfl) (o := .reg 0) trivial ha b
  | ai l hl =>
    refine step_falls hat env (by decide) (e := ⟨.base .testAIX, 0, false⟩) (by decide) rfl _ (decOf p len) ?_
      rfl rfl rfl rfl rfl (notZeroed_same hat (by decide) rfl)
    intro bytes j hc hj hsub
    subst hj
    have hb' : b = _ := hb.trans (imm_hasN (opW_ok p) _)
    subst hb'
    simp only [callFn, opFn, opTestAIX, withW_op (p := p) _ _ (opState _ _ _) rfl, bind_apply,
      fetchN hc env p (opW p) j (opW_div p) hl hsub, resbind_ok]
    rw [← hl]
    exact testApply_ok (Agree.op s p _) env (opW_ok p) (o := .reg 0) trivial ha _
  | mi8 h hp i =>
    refine step_falls hat env (by decide) (e := ⟨.base .miscMI, 0, true⟩) (by decide) (h.param [i] _ rfl) _
      (decOf p len) ?_ rfl rfl rfl rfl rfl (notZeroed_same hat (by decide) rfl)
    intro bytes j hc hj hsub
    subst hj
    have hb' : b = i := hb.trans (imm_has8 i)
    subst hb'
    simp only [callFn, opFn, opMiscMI, bind_apply, parseModRM_rm hc env h hp (ha.ok h.no_imm) hsub.left, resbind_ok]
    simp only [miscOp, if_true, bind_apply, fetch8 hc env p _ hsub.right.head, resbind_ok,
      readLoc_has (Agree.op s p _) env (Or.inl rfl) (ha.ok h.no_imm) ha, getFlags_apply, setFlags_apply,
      List.length_append, List.length_cons, List.length_nil, ← Nat.add_assoc, aluTest_comm b a]
    rfl
  | mi h hp l hl =>
    refine step_falls hat env (by decide) (e := ⟨.base .miscMIX, 0, true⟩) (by decide) (h.param l _ rfl) _
      (decOf p len) ?_ rfl rfl rfl rfl rfl (notZeroed_same hat (by decide) rfl)
    intro bytes j hc hj hsub
    subst hj
    have hb' : b = _ := hb.trans (imm_hasN (opW_ok p) _)
    subst hb'
    simp only [callFn, opFn, opMiscMIX, bind_apply,
      parseModRMX_rm hc env (opW_ne8 p) h hp (ha.ok h.no_imm) hsub.left, resbind_ok,
      withW_op (p := p) _ _ (opState _ _ _) rfl]
    simp only [miscOp, if_true, bind_apply, fetchN hc env p (opW p) _ (opW_div p) hl hsub.right, resbind_ok,
      readLoc_has (Agree.op s p _) env (opW_ok p) (ha.ok h.no_imm) ha, getFlags_apply, setFlags_apply,
      List.length_append, ← hl, ← Nat.add_assoc, aluTest_comm _ a]
    rfl

/-! ### One-operand instructions: a common shape -/

/-- An instruction with a ModR/M operand and nothing behind it, whose opcode function (for both widths)
is `body n p loc` after parsing. -/
theorem unary8_step {s : State} {h0 : Nat} {p : Pfx} {op : BitVec 8} {rm : List (BitVec 8)} {r : BitVec 3}
    {o : Opnd} {len : Nat} (hat : At s h0 p (op :: rm) len) (h : RM s p 8 rm r o) (hp : Plain s p 8 rm)
    (env : Env) (hok : o.Ok s 8) (hop : op ≠ 0xF1) {oo : Op} (he : opEntry op = some ⟨.base oo, 0, true⟩)
    (body : Loc → M Unit)
    (hfn : opFn oo r = (do let x ← parseModRM; body x.2)) (t : State)
    (hbody : ∀ j, body (locOf s o) env (opState s p j) =
      .ok () { t with dec := decOf p j, instrNum := s.instrNum + 1 })
    (hip : t.ip = s.ip) (hm : t.map = s.map) (hv : t.valid = s.valid) (hn : NotZeroed t h0 len) :
    Falls env s len t := by
  refine step_falls hat env hop he (h.param' _ rfl) t (decOf p len) ?_ hip hm hv rfl rfl hn
  intro bytes j hc hj hsub
  subst hj
  simp only [callFn, hfn, bind_apply, parseModRM_rm hc env h hp hok hsub, resbind_ok, hbody]

theorem unaryX_step {s : State} {h0 : Nat} {p : Pfx} {op : BitVec 8} {rm : List (BitVec 8)} {r : BitVec 3}
    {o : Opnd} {len : Nat} (hat : At s h0 p (op :: rm) len) (h : RM s p (opW p) rm r o)
    (hp : Plain s p (opW p) rm) (env : Env) (hok : o.Ok s (opW p)) (hop : op ≠ 0xF1) {oo : Op}
    (he : opEntry op = some ⟨.base oo, 0, true⟩) (body : Nat → Loc → M Unit)
    (hfn : ∀ j, opFn oo r env (opState s p j) = (do let x ← parseModRMX; withW fun n => body n x.2) env (opState s p j))
    (t : State)
    (hbody : ∀ j, body (opW p) (locOf s o) env (opState s p j) =
      .ok () { t with dec := decOf p j, instrNum := s.instrNum + 1 })
    (hip : t.ip = s.ip) (hm : t.map = s.map) (hv : t.valid = s.valid) (hn : NotZeroed t h0 len) :
    Falls env s len t := by
  refine step_falls hat env hop he (h.param' _ rfl) t (decOf p len) ?_ hip hm hv rfl rfl hn
  intro bytes j hc hj hsub
  subst hj
  simp only [callFn, hfn, bind_apply, parseModRMX_rm hc env (opW_ne8 p) h hp hok hsub, resbind_ok,
    withW_op (p := p) _ _ (opState _ _ _) rfl, hbody]

/-! ### INC, DEC -/

theorem locOf_map {s t : State} (h : t.map = s.map) (o : Opnd) : locOf t o = locOf s o := by
  cases o <;> simp only [locOf, hostAddr, h]

theorem Ok_congr {s t : State} (hm : t.map = s.map) (hv : t.valid = s.valid) {n : Nat} {o : Opnd}
    (h : o.Ok s n) : o.Ok t n := by
  cases o with
  | mem seg ofs =>
    obtain ⟨a, h1, h2⟩ := h
    exact ⟨a, by simpa only [hostAddr, hm] using h1, by simpa only [hv] using h2⟩
  | _ => exact h

/-- The operand has the value just stored. -/
theorem put_has {s : State} {n : Nat} (hn : n = 8 ∨ n = 16 ∨ n = 32) {o : Opnd} (h : o.Ok s n) (x : BitVec n) :
    o.Has (o.put s n x) n x := by
  cases o with
  | reg r =>
    rw [put_reg]
    have := reg_setReg_same s (show n ≤ 32 by omega) r x
    exact this.symm
  | high r =>
    have h8 : n = 8 := h
    subst h8
    refine ⟨rfl, ?_⟩
    simp only [Opnd.put, setGpr_gpr, if_true]
    apply BitVec.eq_of_getLsbD_eq
    intro i hi
    have : (0xFFFF00FF#32).getLsbD (8 + i) = false := by
      have : i = 0 ∨ i = 1 ∨ i = 2 ∨ i = 3 ∨ i = 4 ∨ i = 5 ∨ i = 6 ∨ i = 7 := by omega
      rcases this with h | h | h | h | h | h | h | h <;> subst h <;> decide
    have h8 : ¬ (8 + i < 8) := by omega
    simp only [BitVec.getLsbD_setWidth, BitVec.getLsbD_ushiftRight, BitVec.getLsbD_or, BitVec.getLsbD_and, this,
      BitVec.getLsbD_shiftLeft, h8, show 8 + i < 32 by omega, hi]
    simp
    omega
  | mem seg ofs =>
    obtain ⟨a, h1, h2⟩ := h
    simp only [Opnd.put, h1, Opnd.Has]
    exact ⟨a, ⟨h1, h2⟩, putHost_holds s a x⟩
  | imm v => exact absurd h id

theorem clr_clr (f m : BitVec 16) : clr (clr f m) m = clr f m := by
  simp only [clr, BitVec.and_assoc, BitVec.and_self]

theorem orIf_zero (f : BitVec 16) (c : Bool) : orIf f c 0 = f := by
  simp [orIf]

theorem setCommFlags_idem {n : Nat} (f : BitVec 16) (v : BitVec n) :
    setCommFlags (setCommFlags f v) v = setCommFlags f v := by
  apply setCommFlags_congr
  rw [setCommFlags]
  simp only [clr_orIf, clr_clr]
  rw [show clr FLAG_ZF (FLAG_ZF ||| FLAG_SF ||| FLAG_PF) = 0 by decide,
    show clr FLAG_SF (FLAG_ZF ||| FLAG_SF ||| FLAG_PF) = 0 by decide,
    show clr FLAG_PF (FLAG_ZF ||| FLAG_SF ||| FLAG_PF) = 0 by decide, orIf_zero, orIf_zero, orIf_zero]

/-- INC (`false`) or DEC (`true`). -/
def incDec {n : Nat} (dec : Bool) (a : BitVec n) (f : BitVec 16) : BitVec n × BitVec 16 :=
  if dec then aluDec a f else aluInc a f

theorem incDec_flags {n : Nat} (dec : Bool) (a : BitVec n) (f : BitVec 16) :
    setCommFlags (incDec dec a f).2 (incDec dec a f).1 = (incDec dec a f).2 := by
  cases dec
  · exact setCommFlags_idem _ _
  · exact setCommFlags_idem _ _

theorem incDecApply_ok {s t : State} (hag : Agree s t) (env : Env) (dec : Bool) {n : Nat}
    (hn : n = 8 ∨ n = 16 ∨ n = 32) {o : Opnd} {a : BitVec n} (ho : o.Ok s n) (ha : o.Has s n a) :
    (if dec then decApply n (locOf s o) else incApply n (locOf s o)) env t =
      .ok () { o.put t n (incDec dec a t.flags).1 with flags := (incDec dec a t.flags).2 } := by
  cases dec
  · simp only [Bool.false_eq_true, if_false, incApply, bind_apply, readLoc_has hag env hn ho ha, resbind_ok, getFlags_apply,
      writeLoc_put hag.map hag.valid env ho, setFlags_apply]
    rfl
  · simp only [if_true, decApply, bind_apply, readLoc_has hag env hn ho ha, resbind_ok, getFlags_apply,
      writeLoc_put hag.map hag.valid env ho, setFlags_apply]
    rfl

theorem unaryIncDec_ok {s t : State} (hag : Agree s t) (env : Env) (dec : Bool) {n : Nat}
    (hn : n = 8 ∨ n = 16 ∨ n = 32) {o : Opnd} {a : BitVec n} (ho : o.Ok s n) (ha : o.Has s n a) :
    unaryIncDec dec n (locOf s o) env t =
      .ok () { o.put t n (incDec dec a t.flags).1 with flags := (incDec dec a t.flags).2 } := by
  simp only [unaryIncDec, bind_apply, incDecApply_ok hag env dec hn ho ha, resbind_ok]
  have hm : (o.put t n (incDec dec a t.flags).1).map = s.map := (put_map ..).trans hag.map
  have hv : (o.put t n (incDec dec a t.flags).1).valid = s.valid := (put_valid ..).trans hag.valid
  have ho' : o.Ok t n := Ok_congr hag.map hag.valid ho
  have hb := put_has hn ho' (incDec dec a t.flags).1
  have := readLoc_has (s := o.put t n (incDec dec a t.flags).1)
    (t := { o.put t n (incDec dec a t.flags).1 with flags := (incDec dec a t.flags).2 })
    ⟨rfl, rfl, rfl, rfl⟩ env hn (Ok_congr hm hv ho) hb
  rw [locOf_map hm] at this
  rw [this]
  simp only [resbind_ok, getFlags_apply, setFlags_apply, incDec_flags]

/-- Resulting state of INC/DEC. -/
def incResult (s : State) (dec : Bool) (n : Nat) (o : Opnd) (a : BitVec n) : State :=
  { o.put s n (incDec dec a s.flags).1 with flags := (incDec dec a s.flags).2 }

theorem incReg_entry : ∀ r : BitVec 3,
    opEntry (0x40 + 8 * (0 : BitVec 3).setWidth 8 + r.setWidth 8) = some ⟨.base .incReg, r, false⟩ ∧
    opEntry (0x40 + 8 * (1 : BitVec 3).setWidth 8 + r.setWidth 8) = some ⟨.base .decReg, r, false⟩ ∧
    (0x40 + 8 * (0 : BitVec 3).setWidth 8 + r.setWidth 8 : BitVec 8) ≠ 0xF1 ∧
    (0x40 + 8 * (1 : BitVec 3).setWidth 8 + r.setWidth 8 : BitVec 8) ≠ 0xF1 := by decide +kernel

theorem inc_step {s : State} {h0 : Nat} {p : Pfx} {code : List (BitVec 8)} {len n : Nat} {o : Opnd}
    {k : BitVec 3} (dec : Bool) (hk : k = if dec then 1 else 0) (hat : At s h0 p code len)
    (henc : IncEnc s p k n code o) (env : Env) {a : BitVec n}
    (ha : o.Has s n a) (hnz : NotZeroed (incResult s dec n o a) h0 len) :
    Falls env s len (incResult s dec n o a) := by
  have hip : (incResult s dec n o a).ip = s.ip := put_ip ..
  have hmm : (incResult s dec n o a).map = s.map := put_map ..
  have hvv : (incResult s dec n o a).valid = s.valid := put_valid ..
  have hres : ∀ j, { o.put (opState s p j) n (incDec dec a (opState s p j).flags).1 with
      flags := (incDec dec a (opState s p j).flags).2 } =
      { incResult s dec n o a with dec := decOf p j, instrNum := s.instrNum + 1 } := by
    intro j; rw [put_op]; rfl
  cases henc with
  | m8 h hp =>
    refine unary8_step hat h hp env (ha.ok h.no_imm) (by decide) (oo := .unaryM) (by decide)
      (fun l => if dec then decApply 8 l else incApply 8 l) ?_ _ ?_ hip hmm hvv hnz
    · subst hk; cases dec <;> rfl
    · intro j
      rw [incDecApply_ok (Agree.op s p j) env dec (Or.inl rfl) (ha.ok h.no_imm) ha, hres]
  | @m rm _ h hp =>
    refine step_falls hat env (by decide) (e := ⟨.base .unaryMX, 0, true⟩) (by decide) (h.param' _ rfl) _
      (decOf p len) ?_ hip hmm hvv rfl rfl hnz
    intro bytes j hc hj hsub
    subst hj
    have hpar := parseModRMX_rm hc env (opW_ne8 p) h hp (ha.ok h.no_imm) hsub
    have hrun := unaryIncDec_ok (Agree.op s p (j + rm.length)) env dec (opW_ok p) (ha.ok h.no_imm) ha
    rw [hres] at hrun
    subst hk
    have hd : (opState s p j).dec.ovrOper = p.oper := rfl
    simp only [callFn, opFn, opUnaryMX, bind_apply, getDec_apply, resbind_ok, hd]
    cases hpo : p.oper with
    | true =>
      have hw : opW p = 32 := by simp [opW, hpo]
      cases dec
      · simp only [Bool.false_eq_true, if_false, if_true, bind_apply, hpar, resbind_ok]
        rw [← hw]; exact hrun
      · simp only [if_true, ite_apply]
        rw [if_neg (by decide)]
        simp only [bind_apply, hpar, resbind_ok]
        rw [← hw]; exact hrun
    | false =>
      have hw : opW p = 16 := by simp [opW, hpo]
      cases dec
      · simp only [Bool.false_eq_true, if_false, if_true, bind_apply, hpar, resbind_ok]
        rw [← hw]; exact hrun
      · simp only [Bool.false_eq_true, if_false, if_true, ite_apply]
        rw [if_neg (by decide)]
        simp only [bind_apply, hpar, resbind_ok]
        rw [← hw]; exact hrun
  | short r =>
    have he := incReg_entry r
    cases dec with
    | false =>
      simp only [Bool.false_eq_true, if_false] at hk
      subst hk
      refine step_falls hat env he.2.2.1 he.1 rfl _ (decOf p len) ?_ hip hmm hvv rfl rfl hnz
      intro bytes j hc hj hsub
      subst hj
      simp only [callFn, opFn, opIncReg, withW_op (p := p) _ _ (opState _ _ _) rfl]
      have := incDecApply_ok (Agree.op s p j) env false (opW_ok p) (o := .reg r) trivial ha
      rw [hres] at this
      exact this
    | true =>
      simp only [if_true] at hk
      subst hk
      refine step_falls hat env he.2.2.2 he.2.1 rfl _ (decOf p len) ?_ hip hmm hvv rfl rfl hnz
      intro bytes j hc hj hsub
      subst hj
      simp only [callFn, opFn, opDecReg, withW_op (p := p) _ _ (opState _ _ _) rfl]
      have := incDecApply_ok (Agree.op s p j) env true (opW_ok p) (o := .reg r) trivial ha
      rw [hres] at this
      exact this

/-! ### Groups F6 and F7 -/

theorem UnaryEnc.width {s : State} {p : Pfx} {k : BitVec 3} {n : Nat} {code : List (BitVec 8)} {o : Opnd}
    (h : UnaryEnc s p k n code o) : n = 8 ∨ n = 16 ∨ n = 32 := by
  cases h with
  | m8 => exact Or.inl rfl
  | m => exact opW_ok p

theorem UnaryEnc.ok {s : State} {p : Pfx} {k : BitVec 3} {n : Nat} {code : List (BitVec 8)} {o : Opnd}
    (h : UnaryEnc s p k n code o) {a : BitVec n} (ha : o.Has s n a) : o.Ok s n := by
  cases h with
  | m8 h => exact ha.ok h.no_imm
  | m h => exact ha.ok h.no_imm

/-- The opcode function of the group, up to the operation itself. -/
theorem misc_run {s : State} {h0 : Nat} {p : Pfx} {code : List (BitVec 8)} {len n : Nat} {o : Opnd}
    {k : BitVec 3} (hat : At s h0 p code len) (henc : UnaryEnc s p k n code o) (env : Env) (hok : o.Ok s n) :
    ∃ op rest e a, code = op :: rest ∧ op ≠ 0xF1 ∧ op ≠ 0 ∧ opEntry op = some e ∧ paramOf e rest[0]? = some a ∧
      ∀ bytes j, CodeAt s h0 bytes → j + rest.length = len → Sub bytes j rest →
        callFn e.fn a env (opState s p j) = miscOp n k (locOf s o) env (opState s p len) := by
  cases henc with
  | m8 h hp =>
    refine ⟨_, _, ⟨.base .miscMI, 0, true⟩, k, rfl, by decide, by decide, by decide, h.param' _ rfl, ?_⟩
    intro bytes j hc hj hsub
    subst hj
    simp only [callFn, opFn, opMiscMI, bind_apply, parseModRM_rm hc env h hp hok hsub, resbind_ok]
  | m h hp =>
    refine ⟨_, _, ⟨.base .miscMIX, 0, true⟩, k, rfl, by decide, by decide, by decide, h.param' _ rfl, ?_⟩
    intro bytes j hc hj hsub
    subst hj
    simp only [callFn, opFn, opMiscMIX, bind_apply, parseModRMX_rm hc env (opW_ne8 p) h hp hok hsub, resbind_ok,
      withW_op (p := p) _ _ (opState _ _ _) rfl]

theorem misc_step {s : State} {h0 : Nat} {p : Pfx} {code : List (BitVec 8)} {len n : Nat} {o : Opnd}
    {k : BitVec 3} (hat : At s h0 p code len) (henc : UnaryEnc s p k n code o) (env : Env) (hok : o.Ok s n)
    (t : State)
    (hbody : miscOp n k (locOf s o) env (opState s p len) =
      .ok () { t with dec := decOf p len, instrNum := s.instrNum + 1 })
    (hip : t.ip = s.ip) (hm : t.map = s.map) (hv : t.valid = s.valid)
    (hn : t.host = s.host ∨ NotZeroed t h0 len) :
    Falls env s len t := by
  obtain ⟨op, rest, e, a, rfl, h1, h2, he, ha, hrun⟩ := misc_run hat henc env hok
  refine step_falls hat env h1 he ha t (decOf p len) ?_ hip hm hv rfl rfl ?_
  · intro bytes j hc hj hsub
    rw [hrun bytes j hc hj hsub, hbody]
  · rcases hn with h | h
    · exact notZeroed_same hat h2 h
    · exact h

theorem misc_div {s : State} {h0 : Nat} {p : Pfx} {code : List (BitVec 8)} {len n : Nat} {o : Opnd}
    {k : BitVec 3} (hat : At s h0 p code len) (henc : UnaryEnc s p k n code o) (env : Env) (hok : o.Ok s n)
    (hbody : miscOp n k (locOf s o) env (opState s p len) = .err .divErr (opState s p len)) :
    runOne env s = callIntInternal 0 env (opState s p len) := by
  obtain ⟨op, rest, e, a, rfl, h1, h2, he, ha, hrun⟩ := misc_run hat henc env hok
  obtain ⟨hready, pfx, hp, hc, hlen⟩ := hat
  refine runOne_code_div hready hc env hp h1 he ha _ ?_
  rw [hrun _ (pfx.length + 1) hc (by simp at hlen; omega) (Sub.of_append pfx (op :: rest)).tail, hbody]

theorem notSpec_ok {s : State} (env : Env) (p : Pfx) (j : Nat) {n : Nat} (hn : n = 8 ∨ n = 16 ∨ n = 32) {o : Opnd}
    {a : BitVec n} (ho : o.Ok s n) (ha : o.Has s n a) :
    miscOp n 2 (locOf s o) env (opState s p j) =
      .ok () { o.put s n (~~~a) with dec := decOf p j, instrNum := s.instrNum + 1 } := by
  unfold miscOp
  rw [if_neg (by decide), if_neg (by decide), if_pos rfl]
  simp only [bind_apply, readLoc_has (Agree.op s p j) env hn ho ha, resbind_ok,
    writeLoc_put (s := s) (t := opState s p j) rfl rfl env ho, put_op]

theorem negSpec_ok {s : State} (env : Env) (p : Pfx) (j : Nat) {n : Nat} (hn : n = 8 ∨ n = 16 ∨ n = 32) {o : Opnd}
    {a : BitVec n} (ho : o.Ok s n) (ha : o.Has s n a) :
    miscOp n 3 (locOf s o) env (opState s p j) =
      .ok () { o.put s n (aluNeg a s.flags).1 with
        flags := (aluNeg a s.flags).2, dec := decOf p j, instrNum := s.instrNum + 1 } := by
  unfold miscOp
  rw [if_neg (by decide), if_neg (by decide), if_neg (by decide), if_pos rfl]
  simp only [bind_apply, readLoc_has (Agree.op s p j) env hn ho ha, resbind_ok, getFlags_apply, setFlags_apply,
    writeLoc_put (s := s) (t := opState s p j) rfl rfl env ho, put_op]
  rfl

theorem hiOp_8 : hiOp 8 = .high 0 := rfl
theorem hiOp_ne {n : Nat} (h : n ≠ 8) : hiOp n = .reg 2 := by simp [hiOp, h]

theorem storeProduct_ok {n : Nat} (hn : n = 8 ∨ n = 16 ∨ n = 32) (lo hi : BitVec n) (env : Env) (t : State) :
    storeProduct n lo hi env t = .ok () (putPair t n hi lo) := by
  by_cases h8 : n = 8
  · subst h8
    simp only [storeProduct, if_true, setReg_apply, putPair, hiOp_8]
    refine congrArg (Res.ok ()) ?_
    refine State.ext' ?_ rfl rfl rfl rfl rfl rfl rfl rfl rfl rfl rfl rfl
    funext x
    rw [put_reg]
    simp only [gpr_setReg, Opnd.put, setGpr_gpr]
    by_cases hx : x = 0
    · subst hx
      simp only [if_true]
      apply BitVec.eq_of_getLsbD_eq
      intro i hi'
      rw [putLow_bit _ _ _ hi', putLow_bit _ _ _ hi']
      have hc : i < 16 → (0xFFFF00FF#32).getLsbD i = decide (i < 8) := by
        revert i; intro i _ h
        have : ∀ i : Fin 16, (0xFFFF00FF#32).getLsbD i.val = decide (i.val < 8) := by decide
        exact this ⟨i, h⟩
      have hc2 : ¬ i < 16 → (0xFFFF00FF#32).getLsbD i = true := by
        intro h
        have : ∀ i : Fin 32, ¬ i.val < 16 → (0xFFFF00FF#32).getLsbD i.val = true := by decide
        exact this ⟨i, hi'⟩ h
      simp only [BitVec.getLsbD_or, BitVec.getLsbD_and, BitVec.getLsbD_shiftLeft, BitVec.getLsbD_setWidth, hi']
      by_cases h1 : i < 8
      · simp [h1, show i < 16 by omega]
      · by_cases h2 : i < 16
        · simp [h1, h2, hc h2]
          rw [BitVec.getLsbD_of_ge lo i (by omega)]
          simp [show i - 8 < 16 by omega, show i - 8 < 32 by omega]
        · simp [h1, h2, hc2 h2]
          intro _ h
          rw [BitVec.getLsbD_of_ge hi (i - 8) (by omega)] at h
          cases h
    · rw [if_neg hx, if_neg hx, if_neg hx]
  · simp only [storeProduct, h8, if_false, bind_apply, setReg_apply, resbind_ok, putPair, hiOp_ne h8, put_reg]

theorem putPair_op (s : State) (p : Pfx) (j n : Nat) (hi lo : BitVec n) :
    putPair (opState s p j) n hi lo =
      { putPair s n hi lo with dec := decOf p j, instrNum := s.instrNum + 1 } := by
  simp only [putPair, hiOp]; split <;> rfl

theorem putPair_flags (s : State) (f : BitVec 16) (n : Nat) (hi lo : BitVec n) :
    putPair { s with flags := f } n hi lo = { putPair s n hi lo with flags := f } := by
  simp only [putPair, hiOp]; split <;> rfl

theorem mul_ok {s : State} (env : Env) (p : Pfx) (j : Nat) {n : Nat} (hn : n = 8 ∨ n = 16 ∨ n = 32) {o : Opnd}
    {b : BitVec n} (ho : o.Ok s n) (hb : o.Has s n b) :
    miscOp n 4 (locOf s o) env (opState s p j) =
      .ok () { putPair s n (mulCode (s.reg n rAX) b s.flags).2.1 (mulCode (s.reg n rAX) b s.flags).1 with
        flags := (mulCode (s.reg n rAX) b s.flags).2.2, dec := decOf p j, instrNum := s.instrNum + 1 } := by
  unfold miscOp
  rw [if_neg (by decide), if_neg (by decide), if_neg (by decide), if_neg (by decide), if_pos rfl]
  simp only [bind_apply, readLoc_has (Agree.op s p j) env hn ho hb, resbind_ok, getFlags_apply, setFlags_apply,
    getReg_apply, storeProduct_ok hn, putPair_op]
  rfl

theorem imul_ok {s : State} (env : Env) (p : Pfx) (j : Nat) {n : Nat} (hn : n = 8 ∨ n = 16 ∨ n = 32) {o : Opnd}
    {b : BitVec n} (ho : o.Ok s n) (hb : o.Has s n b) :
    miscOp n 5 (locOf s o) env (opState s p j) =
      .ok () { putPair s n (imulCode (s.reg n rAX) b s.flags).2.1 (imulCode (s.reg n rAX) b s.flags).1 with
        flags := (imulCode (s.reg n rAX) b s.flags).2.2, dec := decOf p j, instrNum := s.instrNum + 1 } := by
  unfold miscOp
  rw [if_neg (by decide), if_neg (by decide), if_neg (by decide), if_neg (by decide), if_neg (by decide), if_pos rfl]
  simp only [bind_apply, readLoc_has (Agree.op s p j) env hn ho hb, resbind_ok, getFlags_apply, setFlags_apply,
    getReg_apply, storeProduct_ok hn, putPair_op]
  rfl

theorem storeQuot_ok {n : Nat} (hn : n = 8 ∨ n = 16 ∨ n = 32) (q r : BitVec n) (env : Env) (t : State) :
    storeQuot n q r env t = .ok () (putPair t n r q) := by
  by_cases h8 : n = 8
  · subst h8
    have e1 : r.setWidth 8 = r := by simp
    have e2 : q.setWidth 8 = q := by simp
    simp only [storeQuot, if_true, bind_apply, modify_apply, setReg_apply, resbind_ok, putPair, hiOp_8, e1, e2]
    refine congrArg (Res.ok ()) ?_
    have := writeLoc_put (s := t) (t := t) rfl rfl env (o := .high 0) (n := 8) rfl r
    simp only [locOf, writeLoc, modify_apply] at this
    rw [put_reg]
    injection this with _ h
    rw [h]
  · simp only [storeQuot, h8, if_false, bind_apply, setReg_apply, resbind_ok, putPair, hiOp_ne h8, put_reg]

/-- Value of the dividend. -/
theorem dividend_nat {s : State} {n : Nat} (hn : n = 8 ∨ n = 16 ∨ n = 32) {hi lo : BitVec n}
    (hhi : (hiOp n).Has s n hi) (hlo : (Opnd.reg 0).Has s n lo) :
    (dividend s n).toNat = hi.toNat * 2 ^ n + lo.toNat := by
  have hlo' : lo = s.reg n rAX := hlo
  by_cases h8 : n = 8
  · subst h8
    rw [hiOp_8] at hhi
    obtain ⟨_, hhi⟩ := hhi
    have hlo' : lo = (s.gpr 0).setWidth 8 := hlo
    subst hhi; subst hlo'
    simp only [dividend, if_true, State.reg]
    simp [BitVec.toNat_setWidth, BitVec.toNat_ushiftRight, Nat.shiftRight_eq_div_pow]
    omega
  · rw [hiOp_ne h8] at hhi
    have hhi' : hi = s.reg n rDX := hhi
    subst hhi'; subst hlo'
    simp only [dividend, h8, if_false]
    refine (BitVec.toNat_append ..).trans ?_
    rw [← Nat.shiftLeft_add_eq_or_of_lt (s.reg n rAX).isLt, Nat.shiftLeft_eq]

theorem dividend_int {s : State} {n : Nat} (hn : n = 8 ∨ n = 16 ∨ n = 32) {hi lo : BitVec n}
    (hhi : (hiOp n).Has s n hi) (hlo : (Opnd.reg 0).Has s n lo) :
    (dividend s n).toInt = hi.toInt * 2 ^ n + lo.toNat := by
  have h := dividend_nat hn hhi hlo
  have h1 := hi.isLt; have h2 := lo.isLt
  rw [BitVec.toInt_eq_toNat_cond, BitVec.toInt_eq_toNat_cond, h]
  rcases hn with e | e | e <;> subst e <;> split <;> split <;> omega

theorem div_fault {s : State} (env : Env) (p : Pfx) (j : Nat) {n : Nat} (hn : n = 8 ∨ n = 16 ∨ n = 32) {o : Opnd}
    {b : BitVec n} (ho : o.Ok s n) (hb : o.Has s n b) (hf : b = 0 ∨ 2 ^ n ≤ (dividend s n).toNat / b.toNat) :
    miscOp n 6 (locOf s o) env (opState s p j) = .err .divErr (opState s p j) := by
  unfold miscOp
  rw [if_neg (by decide), if_neg (by decide), if_neg (by decide), if_neg (by decide), if_neg (by decide),
    if_neg (by decide), if_pos rfl]
  simp only [bind_apply, readLoc_has (Agree.op s p j) env hn ho hb, resbind_ok]
  by_cases h0 : b = 0
  · subst h0; simp only [beq_self_eq_true, guardE_true, resbind_err]
  · have hf' : 2 ^ n ≤ (dividend s n).toNat / b.toNat := hf.resolve_left h0
    have hpp := Nat.two_pow_pos n
    have hd : dividend (opState s p j) n = dividend s n := rfl
    have hc : divCode (dividend s n) b = none := by
      unfold divCode; rw [if_pos (by omega)]
    rw [show (b == 0) = false by simpa using h0]
    simp only [guardE_false, resbind_ok, gets_apply, hd, hc, throwE_apply]

theorem div_ok {s : State} (env : Env) (p : Pfx) (j : Nat) {n : Nat} (hn : n = 8 ∨ n = 16 ∨ n = 32) {o : Opnd}
    {b : BitVec n} (ho : o.Ok s n) (hb : o.Has s n b) (h0 : b ≠ 0) (hq : (dividend s n).toNat / b.toNat < 2 ^ n) :
    ∃ q r, DivSpec (dividend s n).toNat b q r ∧
    miscOp n 6 (locOf s o) env (opState s p j) =
      .ok () { putPair s n r q with dec := decOf p j, instrNum := s.instrNum + 1 } := by
  have hpos : 0 < b.toNat := by
    have : b.toNat ≠ 0 := fun h => h0 (BitVec.eq_of_toNat_eq (by simpa using h))
    omega
  have hr := Nat.mod_lt (dividend s n).toNat hpos
  have hblt := b.isLt
  refine ⟨BitVec.ofNat n ((dividend s n).toNat / b.toNat), BitVec.ofNat n ((dividend s n).toNat % b.toNat), ⟨?_, ?_⟩, ?_⟩
  · rw [BitVec.toNat_ofNat, BitVec.toNat_ofNat, Nat.mod_eq_of_lt hq, Nat.mod_eq_of_lt (by omega), Nat.mul_comm,
      Nat.div_add_mod]
  · rw [BitVec.toNat_ofNat, Nat.mod_eq_of_lt (by omega)]; exact hr
  · unfold miscOp
    rw [if_neg (by decide), if_neg (by decide), if_neg (by decide), if_neg (by decide), if_neg (by decide),
      if_neg (by decide), if_pos rfl]
    have hd : dividend (opState s p j) n = dividend s n := rfl
    have hc : divCode (dividend s n) b = some (BitVec.ofNat n ((dividend s n).toNat / b.toNat),
        BitVec.ofNat n ((dividend s n).toNat % b.toNat)) := by
      unfold divCode; rw [if_neg (by omega)]
    have h0' : (b == 0) = false := by simpa using h0
    simp only [bind_apply, readLoc_has (Agree.op s p j) env hn ho hb, resbind_ok, h0', guardE_false, gets_apply, hd, hc,
      storeQuot_ok hn, putPair_op]

theorem misc7 (n : Nat) (arg : Loc) (env : Env) (t : State) : miscOp n 7 arg env t =
    (do let s ← readLoc n arg
        guardE (s == 0) .divErr
        let num ← gets (dividend · n)
        let r ← liftUB (idivCode n num.toInt s.toInt)
        match r with
        | none => throwE .divErr
        | some (q, r) => storeQuot n q r) env t := by
  unfold miscOp
  rw [if_neg (by decide), if_neg (by decide), if_neg (by decide), if_neg (by decide), if_neg (by decide),
    if_neg (by decide), if_neg (by decide)]
  rfl

theorem fits_range (n : Nat) (x : Int) : fitsSigned n x = true ↔ -(2 ^ (n - 1) : Int) ≤ x ∧ x < (2 ^ (n - 1) : Int) := by
  simp [fitsSigned]

theorem toInt_ofInt_fits {n : Nat} (hn : n = 8 ∨ n = 16 ∨ n = 32) {x : Int} (h : fitsSigned n x = true) :
    (BitVec.ofInt n x).toInt = x := by
  rw [fits_range] at h
  rw [BitVec.toInt_ofInt]
  apply Int.bmod_eq_of_le_mul_two
  · rcases hn with e | e | e <;> subst e <;> omega
  · rcases hn with e | e | e <;> subst e <;> omega

/-- Truncating division of the 16-bit dividend stays within 16 bits unless it is -32768 / -1. -/
theorem tdiv_bound {x y : Int} (hy : y ≠ 0) : (x.tdiv y).natAbs ≤ x.natAbs := by
  rw [Int.natAbs_tdiv]; exact Nat.div_le_self _ _

theorem idivSpec_of {n : Nat} (hn : n = 8 ∨ n = 16 ∨ n = 32) {num : Int} {d : BitVec n} (h0 : d ≠ 0)
    (hf : fitsSigned n (num.tdiv d.toInt) = true) :
    IdivSpec num d (BitVec.ofInt n (num.tdiv d.toInt)) (BitVec.ofInt n (num.tmod d.toInt)) := by
  have hd : d.toInt ≠ 0 := by
    intro h; apply h0; apply BitVec.eq_of_toInt_eq; simpa using h
  have hlt : (num.tmod d.toInt).natAbs < d.toInt.natAbs := by
    rw [Int.natAbs_tmod]; exact Nat.mod_lt _ (by omega)
  have hdle := BitVec.le_toInt d
  have hdlt := BitVec.toInt_lt (x := d)
  have hfr : fitsSigned n (num.tmod d.toInt) = true := by
    rw [fits_range]
    rcases hn with e | e | e <;> subst e <;> omega
  constructor
  · rw [toInt_ofInt_fits hn hf, toInt_ofInt_fits hn hfr, Int.mul_comm]
    exact (Int.mul_tdiv_add_tmod num d.toInt).symm
  · rw [toInt_ofInt_fits hn hfr]; exact hlt
  · rw [toInt_ofInt_fits hn hfr]
    intro hne
    constructor
    · intro h
      rcases Int.lt_or_le num 0 with h1 | h1
      · exact h1
      · have := Int.tmod_nonneg d.toInt h1; omega
    · intro h
      have := Int.tmod_nonneg d.toInt (show 0 ≤ -num by omega)
      rw [Int.neg_tmod] at this
      omega

/-- IDIV on 8 and 16 bits (without the undefined case of 16 bits). -/
theorem idivCode_ok {n : Nat} (hn : n = 8 ∨ n = 16) (num : BitVec (n + n)) (d : BitVec n) (h0 : d ≠ 0)
    (hub : ¬ (n = 16 ∧ num.toInt = -(2 ^ 31) ∧ d.toInt = -1)) :
    idivCode n num.toInt d.toInt = .ok (if fitsSigned n (num.toInt.tdiv d.toInt) then
      some (BitVec.ofInt n (num.toInt.tdiv d.toInt), BitVec.ofInt n (num.toInt.tmod d.toInt)) else none) := by
  have hd : d.toInt ≠ 0 := by
    intro h; apply h0; apply BitVec.eq_of_toInt_eq; simpa using h
  have hb := tdiv_bound (x := num.toInt) hd
  have e1 := BitVec.le_toInt num
  have e2 := BitVec.toInt_lt (x := num)
  rcases hn with e | e
  · subst e
    unfold idivCode
    rw [if_pos rfl]
    by_cases hf : fitsSigned 8 (num.toInt.tdiv d.toInt) = true
    · have hq : (BitVec.ofInt 16 (num.toInt.tdiv d.toInt)).toInt = num.toInt.tdiv d.toInt := by
        apply toInt_ofInt_fits (Or.inr (Or.inl rfl))
        rw [fits_range] at *; omega
      simp only [hq, hf, if_true]
      rw [fits_range] at hf
      rw [if_neg (by omega)]
      have := Int.mul_tdiv_add_tmod num.toInt d.toInt
      have e : num.toInt - num.toInt.tdiv d.toInt * d.toInt = num.toInt.tmod d.toInt := by
        rw [Int.mul_comm]; omega
      rw [e]
    · have hq : (BitVec.ofInt 16 (num.toInt.tdiv d.toInt)).toInt < -128 ∨
          (BitVec.ofInt 16 (num.toInt.tdiv d.toInt)).toInt > 127 := by
        rw [fits_range] at hf
        rw [BitVec.toInt_ofInt, Int.bmod_def]
        split <;> omega
      simp only [hf]
      rw [if_pos (by omega)]
      rfl
  · subst e
    unfold idivCode
    rw [if_neg (by decide), if_pos rfl, if_neg (by simpa using hub)]
    by_cases hf : fitsSigned 16 (num.toInt.tdiv d.toInt) = true
    · simp only [hf, if_true]
      rw [fits_range] at hf
      rw [if_neg (by omega)]
    · simp only [hf]
      rw [fits_range] at hf
      rw [if_pos (by omega)]
      rfl

theorem idiv_run {s : State} (env : Env) (p : Pfx) (j : Nat) {n : Nat} (hn : n = 8 ∨ n = 16 ∨ n = 32) {o : Opnd}
    {b : BitVec n} (ho : o.Ok s n) (hb : o.Has s n b) :
    miscOp n 7 (locOf s o) env (opState s p j) =
      if b = 0 then .err .divErr (opState s p j)
      else match idivCode n (dividend s n).toInt b.toInt with
        | .error u => .ub u
        | .ok none => .err .divErr (opState s p j)
        | .ok (some (q, r)) => .ok () { putPair s n r q with dec := decOf p j, instrNum := s.instrNum + 1 } := by
  rw [misc7]
  have hd : dividend (opState s p j) n = dividend s n := rfl
  simp only [bind_apply, readLoc_has (Agree.op s p j) env hn ho hb, resbind_ok]
  by_cases h0 : b = 0
  · rw [if_pos h0]
    subst h0
    simp only [beq_self_eq_true, guardE_true, resbind_err]
  · rw [if_neg h0, show (b == 0) = false by simpa using h0]
    simp only [guardE_false, resbind_ok, gets_apply, hd]
    cases idivCode n (dividend s n).toInt b.toInt with
    | error u => rfl
    | ok x =>
      cases x with
      | none => rfl
      | some x => simp only [liftUB_ok, pure_apply, resbind_ok, storeQuot_ok hn, putPair_op]

/-- 32-bit IDIV never succeeds. -/
theorem idivCode_32 (num : Int) (d : Int) :
    idivCode 32 num d = .error .signedOverflow ∨ idivCode 32 num d = .ok none := by
  unfold idivCode
  rw [if_neg (by decide), if_neg (by decide)]
  split
  · exact Or.inl rfl
  · right
    simp only
    rw [if_pos (by omega)]

/-! ### Shifts and rotates -/

theorem ShiftEnc.width {s : State} {p : Pfx} {k : BitVec 3} {n : Nat} {code : List (BitVec 8)} {o : Opnd} {c : BitVec 8}
    (h : ShiftEnc s p k n code o c) : n = 8 ∨ n = 16 ∨ n = 32 := by
  cases h <;> first | exact Or.inl rfl | exact opW_ok p

theorem ShiftEnc.ok {s : State} {p : Pfx} {k : BitVec 3} {n : Nat} {code : List (BitVec 8)} {o : Opnd} {c : BitVec 8}
    (h : ShiftEnc s p k n code o c) {a : BitVec n} (ha : o.Has s n a) : o.Ok s n := by
  cases h with
  | m1b h | m1 h | mclb h | mcl h | mib h | mi h => exact ha.ok h.no_imm

/-- The opcode function of the shift group, up to the operation itself. -/
theorem shift_run {s : State} {h0 : Nat} {p : Pfx} {code : List (BitVec 8)} {len n : Nat} {o : Opnd}
    {k : BitVec 3} {c : BitVec 8} (hat : At s h0 p code len) (henc : ShiftEnc s p k n code o c) (env : Env)
    (hok : o.Ok s n) :
    ∃ op rest e a, code = op :: rest ∧ op ≠ 0xF1 ∧ op ≠ 0 ∧ opEntry op = some e ∧ paramOf e rest[0]? = some a ∧
      ∀ bytes j, CodeAt s h0 bytes → j + rest.length = len → Sub bytes j rest →
        callFn e.fn a env (opState s p j) = shiftApply (shiftOfNum k) n (locOf s o) c env (opState s p len) := by
  cases henc with
  | m1b h hp =>
    refine ⟨_, _, ⟨.base .shiftM1, 0, true⟩, k, rfl, by decide, by decide, by decide, h.param' _ rfl, ?_⟩
    intro bytes j hc hj hsub
    subst hj
    simp only [callFn, opFn, opShiftM1, bind_apply, parseModRM_rm hc env h hp hok hsub, resbind_ok]
  | m1 h hp =>
    refine ⟨_, _, ⟨.base .shiftM1X, 0, true⟩, k, rfl, by decide, by decide, by decide, h.param' _ rfl, ?_⟩
    intro bytes j hc hj hsub
    subst hj
    simp only [callFn, opFn, opShiftM1X, bind_apply, parseModRMX_rm hc env (opW_ne8 p) h hp hok hsub, resbind_ok,
      withW_op (p := p) _ _ (opState _ _ _) rfl]
  | mclb h hp =>
    refine ⟨_, _, ⟨.base .shiftMCl, 0, true⟩, k, rfl, by decide, by decide, by decide, h.param' _ rfl, ?_⟩
    intro bytes j hc hj hsub
    subst hj
    simp only [callFn, opFn, opShiftMCl, bind_apply, getReg_apply, parseModRM_rm hc env h hp hok hsub, resbind_ok]
    rfl
  | mcl h hp =>
    refine ⟨_, _, ⟨.base .shiftMClX, 0, true⟩, k, rfl, by decide, by decide, by decide, h.param' _ rfl, ?_⟩
    intro bytes j hc hj hsub
    subst hj
    simp only [callFn, opFn, opShiftMClX, bind_apply, getReg_apply,
      parseModRMX_rm hc env (opW_ne8 p) h hp hok hsub, resbind_ok, withW_op (p := p) _ _ (opState _ _ _) rfl]
    rfl
  | mib h hp i =>
    refine ⟨_, _, ⟨.base .shiftMI, 0, true⟩, k, rfl, by decide, by decide, by decide, h.param _ _ rfl, ?_⟩
    intro bytes j hc hj hsub
    subst hj
    simp only [callFn, opFn, opShiftMI, bind_apply, parseModRM_rm hc env h hp hok hsub.left, resbind_ok,
      fetch8 hc env p _ hsub.right.head, List.length_append, List.length_cons, List.length_nil, ← Nat.add_assoc]
  | mi h hp i =>
    refine ⟨_, _, ⟨.base .shiftMI8X, 0, true⟩, k, rfl, by decide, by decide, by decide, h.param _ _ rfl, ?_⟩
    intro bytes j hc hj hsub
    subst hj
    simp only [callFn, opFn, opShiftMI8X, bind_apply, parseModRMX_rm hc env (opW_ne8 p) h hp hok hsub.left, resbind_ok,
      fetch8 hc env p _ hsub.right.head, withW_op (p := p) _ _ (opState _ _ _) rfl,
      List.length_append, List.length_cons, List.length_nil, ← Nat.add_assoc]

/-- A shift that is performed. -/
theorem shift_step {s : State} {h0 : Nat} {p : Pfx} {code : List (BitVec 8)} {len n : Nat} {o : Opnd}
    {k : BitVec 3} {c : BitVec 8} (hat : At s h0 p code len) (henc : ShiftEnc s p k n code o c) (env : Env)
    {a : BitVec n} (ha : o.Has s n a) (hamt : shiftAmt (shiftOfNum k) n c ≠ 0) {v : BitVec n} {f' : BitVec 16}
    (hr : shiftCode (shiftOfNum k) a (shiftAmt (shiftOfNum k) n c) s.flags = .ok (v, f'))
    (hnz : NotZeroed { o.put s n v with flags := f' } h0 len) :
    Falls env s len { o.put s n v with flags := f' } := by
  have hok := henc.ok ha
  obtain ⟨op, rest, e, b, rfl, h1, h2, he, hb, hrun⟩ := shift_run hat henc env hok
  refine step_falls hat env h1 he hb _ (decOf p len) ?_ (put_ip ..) (put_map ..) (put_valid ..) rfl rfl hnz
  intro bytes j hc hj hsub
  rw [hrun bytes j hc hj hsub]
  unfold shiftApply
  have hf : (opState s p len).flags = s.flags := rfl
  simp only [ite_apply]
  rw [if_neg hamt]
  simp only [bind_apply, readLoc_has (Agree.op s p _) env henc.width hok ha, resbind_ok, getFlags_apply, hf, hr,
    liftUB_ok, pure_apply, writeLoc_put (s := s) (t := opState s p _) rfl rfl env hok, put_op, setFlags_apply]

/-- A shift by 0 places. -/
theorem shift_step0 {s : State} {h0 : Nat} {p : Pfx} {code : List (BitVec 8)} {len n : Nat} {o : Opnd}
    {k : BitVec 3} {c : BitVec 8} (hat : At s h0 p code len) (henc : ShiftEnc s p k n code o c) (env : Env)
    (hok : o.Ok s n) (hamt : shiftAmt (shiftOfNum k) n c = 0) :
    Falls env s len s := by
  obtain ⟨op, rest, e, b, rfl, h1, h2, he, hb, hrun⟩ := shift_run hat henc env hok
  refine step_falls hat env h1 he hb _ (decOf p len) ?_ rfl rfl rfl rfl rfl (notZeroed_same hat h2 rfl)
  intro bytes j hc hj hsub
  rw [hrun bytes j hc hj hsub]
  unfold shiftApply
  simp only [ite_apply]
  rw [if_pos hamt]
  rfl

/-- A shift that is undefined behaviour. -/
theorem shift_ub {s : State} {h0 : Nat} {p : Pfx} {code : List (BitVec 8)} {len n : Nat} {o : Opnd}
    {k : BitVec 3} {c : BitVec 8} (hat : At s h0 p code len) (henc : ShiftEnc s p k n code o c) (env : Env)
    {a : BitVec n} (ha : o.Has s n a) (hamt : shiftAmt (shiftOfNum k) n c ≠ 0) {u : UB}
    (hr : shiftCode (shiftOfNum k) a (shiftAmt (shiftOfNum k) n c) s.flags = .error u) :
    runOne env s = .ub u := by
  have hok := henc.ok ha
  obtain ⟨op, rest, e, b, rfl, h1, h2, he, hb, hrun⟩ := shift_run hat henc env hok
  obtain ⟨hready, pfx, hp, hc, hlen⟩ := hat
  rw [runOne_ready hready, decode_code hc env hready.counter hp h1 he hb (.ub u) ?_ (by intro s' h; cases h)]
  · rfl
  · rw [hrun _ (pfx.length + 1) hc (by simp at hlen; omega) (Sub.of_append pfx (op :: rest)).tail]
    unfold shiftApply
    have hf : (opState s p len).flags = s.flags := rfl
    simp only [ite_apply]
    rw [if_neg hamt]
    simp only [bind_apply, readLoc_has (Agree.op s p _) env henc.width hok ha, resbind_ok, getFlags_apply, hf, hr,
      liftUB_error, ubE_apply, resbind_ub]

end RME
