import Verif.Spec.Encode
import Verif.Lemmas.Operand
import Verif.Lemmas.Sbb
import Verif.Lemmas.Shift
set_option autoImplicit false
/-
Full steps of the arithmetic instructions.
-/
namespace RME

theorem opW_cases (p : Pfx) : opW p = 16 ∨ opW p = 32 := by
  unfold opW; split <;> simp
theorem opW_ne8 (p : Pfx) : opW p ≠ 8 := by
  rcases opW_cases p with h | h <;> omega
theorem opW_ok (p : Pfx) : opW p = 8 ∨ opW p = 16 ∨ opW p = 32 := Or.inr (opW_cases p)

theorem withW_op {α : Type} (f : Nat → M α) (env : Env) (t : State) (p : Pfx) (hp : t.dec.ovrOper = p.oper) :
    withW f env t = f (opW p) env t := by
  rw [withW_apply, hp]; unfold opW; split <;> rfl

theorem RM.no_imm {s : State} {p : Pfx} {n : Nat} {rm : List (BitVec 8)} {r : BitVec 3} {o : Opnd}
    (h : RM s p n rm r o) : ∀ v, o ≠ .imm v := by
  intro v
  cases h with
  | reg m hm =>
    simp only [regOp, byteReg]
    repeat' split
    all_goals simp
  | mem => simp
  | mem32 => simp

theorem regOp_has (s : State) {n : Nat} (r : BitVec 3) (x : BitVec n) (hx : (regOp n r).Has s n x) :
    (regOp n r).Ok s n := regOp_ok s r

theorem RM.head {s : State} {p : Pfx} {n : Nat} {rm : List (BitVec 8)} {r : BitVec 3} {o : Opnd}
    (h : RM s p n rm r o) : ∃ m tl, rm = m :: tl ∧ r = regOf m := by
  cases h with
  | reg m hm => exact ⟨m, [], rfl, rfl⟩
  | mem m disp _ _ _ => exact ⟨m, disp, rfl, rfl⟩
  | mem32 m tl _ _ _ _ => exact ⟨m, tl, rfl, rfl⟩

theorem regOf_eq (m : BitVec 8) : ((m >>> 3).setWidth 3 : BitVec 3) = regOf m := by
  have := ofByte_rrr m; simpa [ModRM.ofByte] using this

/-- Parameter of a group opcode. -/
theorem RM.param {s : State} {p : Pfx} {n : Nat} {rm : List (BitVec 8)} {r : BitVec 3} {o : Opnd}
    (h : RM s p n rm r o) (tl : List (BitVec 8)) (e : Entry) (he : e.modrm = true) :
    paramOf e (rm ++ tl)[0]? = some r := by
  obtain ⟨m, t, h1, h2⟩ := h.head
  subst h1; subst h2
  simp [paramOf, he, regOf_eq]

theorem RM.param' {s : State} {p : Pfx} {n : Nat} {rm : List (BitVec 8)} {r : BitVec 3} {o : Opnd}
    (h : RM s p n rm r o) (e : Entry) (he : e.modrm = true) :
    paramOf e rm[0]? = some r := by
  have := h.param [] e he; simpa using this

theorem clr_clr_sub (f m1 m2 : BitVec 16) (h : m1 &&& ~~~m2 = 0) : clr (clr f m1) m2 = clr f m2 := by
  have h2 : ~~~m1 &&& ~~~m2 = ~~~m2 := by
    apply BitVec.eq_of_getLsbD_eq
    intro i hi
    have := congrArg (fun v => v.getLsbD i) h
    simp [hi] at this ⊢
    cases h1 : m1.getLsbD i <;> simp_all
  simp only [clr, BitVec.and_assoc, h2]

abbrev OZSP : BitVec 16 := FLAG_OF ||| FLAG_ZF ||| FLAG_SF ||| FLAG_PF

theorem tst_clr (f m b : BitVec 16) (h : b &&& m = 0) : tst (clr f m) b = tst f b := by
  have h2 : ~~~m &&& b = b := by
    apply BitVec.eq_of_getLsbD_eq
    intro i hi
    have := congrArg (fun v => v.getLsbD i) h
    simp [hi] at this ⊢
    cases h1 : m.getLsbD i <;> simp_all
  simp only [tst, clr, BitVec.and_assoc, h2]

theorem clr_orIf (f : BitVec 16) (c : Bool) (b m : BitVec 16) : clr (orIf f c b) m = orIf (clr f m) c (clr b m) := by
  simp only [clr, orIf]
  apply BitVec.eq_of_getLsbD_eq
  intro i hi
  cases c <;> simp [hi, Bool.and_or_distrib_right]

theorem clr_comm (f a b : BitVec 16) : clr (clr f a) b = clr (clr f b) a := by
  simp only [clr, BitVec.and_assoc, BitVec.and_comm (~~~a)]

theorem setCommFlags_congr {n : Nat} (f g : BitVec 16) (v : BitVec n)
    (h : clr f (FLAG_ZF ||| FLAG_SF ||| FLAG_PF) = clr g (FLAG_ZF ||| FLAG_SF ||| FLAG_PF)) :
    setCommFlags f v = setCommFlags g v := by
  simp only [setCommFlags, h]

/-- Clearing OF, ZF, SF, PF first makes no difference. -/
theorem aluExec_clr {n : Nat} (k : AluOp) (a b : BitVec n) (f : BitVec 16) :
    aluExec k a b (clr f OZSP) = aluExec k a b f := by
  have h1 : clr (clr f OZSP) ARITH_MASK = clr f ARITH_MASK := clr_clr_sub _ _ _ (by decide)
  have h2 : clr (clr f OZSP) (FLAG_PF ||| FLAG_ZF ||| FLAG_SF ||| FLAG_OF ||| FLAG_CF) =
    clr f (FLAG_PF ||| FLAG_ZF ||| FLAG_SF ||| FLAG_OF ||| FLAG_CF) := clr_clr_sub _ _ _ (by decide)
  have h3 : tst (clr f OZSP) FLAG_CF = tst f FLAG_CF := tst_clr _ _ _ (by decide)
  cases k with
  | sbb =>
    simp only [aluExec, aluCode, aluSbb, h3]
    have h4 : clr (clr (clr f OZSP) (FLAG_OF ||| FLAG_CF ||| FLAG_AF)) (FLAG_ZF ||| FLAG_SF ||| FLAG_PF) =
        clr (clr f (FLAG_OF ||| FLAG_CF ||| FLAG_AF)) (FLAG_ZF ||| FLAG_SF ||| FLAG_PF) := by
      simp only [clr, BitVec.and_assoc]
      congr 1
    congr 1
    apply setCommFlags_congr
    simp only [clr_orIf, h4]
  | _ => simp only [aluExec, aluCode, aluAdd, aluLogic, aluAdc, aluSub, h1, h2, h3]

/-! ### From opcode functions to steps -/

theorem put_op (o : Opnd) (s : State) (p : Pfx) (k n : Nat) (x : BitVec n) :
    o.put (opState s p k) n x =
      { o.put s n x with dec := decOf p k, instrNum := s.instrNum + 1 } := by
  cases o with
  | mem seg ofs =>
    simp only [Opnd.put]
    have : hostAddr (opState s p k) seg ofs = hostAddr s seg ofs := rfl
    rw [this]
    split <;> rfl
  | _ => rfl

theorem put_setFlags (o : Opnd) (s : State) (f : BitVec 16) (n : Nat) (x : BitVec n) :
    o.put { s with flags := f } n x = { o.put s n x with flags := f } := by
  cases o with
  | mem seg ofs =>
    simp only [Opnd.put]
    have : hostAddr { s with flags := f } seg ofs = hostAddr s seg ofs := rfl
    rw [this]
    split <;> rfl
  | _ => rfl

/-- Executing an instruction that falls through, with result `t`. -/
theorem step_falls {s : State} {h0 : Nat} {p : Pfx} {op : BitVec 8} {rest : List (BitVec 8)} {len : Nat}
    (hat : At s h0 p (op :: rest) len) (env : Env) (hop : op ≠ 0xF1) {e : Entry} (he : opEntry op = some e)
    {a : BitVec 3} (ha : paramOf e rest[0]? = some a) (t : State) (d : Decoder)
    (hrun : ∀ bytes j, CodeAt s h0 bytes → j + rest.length = len → Sub bytes j rest →
      callFn e.fn a env (opState s p j) = .ok () { t with dec := d, instrNum := s.instrNum + 1 })
    (hip : t.ip = s.ip) (hm : t.map = s.map) (hv : t.valid = s.valid) (hl : d.ipOffset = len)
    (hd : d.dontChangeIP = false) (hn : NotZeroed t h0 len) :
    Falls env s len t := by
  have := step_fall hat env hop he ha { t with dec := d, instrNum := s.instrNum + 1 } hrun hm hv hl hd hn
  unfold Falls
  rw [← hip]
  exact this

theorem aluApply_ok {s t : State} (hag : Agree s t) (env : Env) {n : Nat} (hn : n = 8 ∨ n = 16 ∨ n = 32)
    (k : AluOp) {o : Opnd} {a : BitVec n} (ho : o.Ok s n) (ha : o.Has s n a) (b : BitVec n) :
    aluApply k n (locOf s o) b env t =
      .ok () { (if k.writes then o.put t n (aluExec k a b t.flags).1 else t) with
        flags := (aluExec k a b t.flags).2 } := by
  simp only [aluApply, bind_apply, readLoc_has hag env hn ho ha, resbind_ok, getFlags_apply, setFlags_apply,
    ite_apply, pure_apply]
  split
  · have hm : t.map = s.map := hag.map
    have hv : t.valid = s.valid := hag.valid
    rw [writeLoc_put (s := s) (by exact hm) (by exact hv) env ho, put_setFlags]
  · rfl

/-- Resulting state of ALU operation number `k`. -/
def aluResult (s : State) (k n : Nat) (dst : Opnd) (a b : BitVec n) : State :=
  { (if k = 7 then s else dst.put s n (aluExec (aluOfNum (BitVec.ofNat 3 k)) a b s.flags).1) with
    flags := (aluExec (aluOfNum (BitVec.ofNat 3 k)) a b s.flags).2 }

theorem writes_iff : ∀ k, k < 8 → (aluOfNum (BitVec.ofNat 3 k)).writes = decide (k ≠ 7) := by decide

theorem alu_core {s : State} (p : Pfx) (j k : Nat) (hk : k < 8) (env : Env) {n : Nat}
    (hn : n = 8 ∨ n = 16 ∨ n = 32) {o : Opnd} {a : BitVec n} (ho : o.Ok s n) (ha : o.Has s n a) (b : BitVec n) :
    aluApply (aluOfNum (BitVec.ofNat 3 k)) n (locOf s o) b env (opState s p j) =
      .ok () { aluResult s k n o a b with dec := decOf p j, instrNum := s.instrNum + 1 } := by
  rw [aluApply_ok (Agree.op s p j) env hn _ ho ha, writes_iff k hk]
  unfold aluResult
  by_cases h7 : k = 7
  · rw [if_neg (by simp [h7]), if_pos h7]; rfl
  · rw [if_pos (by simp [h7]), if_neg h7, put_op]; rfl

theorem alu_core_clr {s : State} (p : Pfx) (j k : Nat) (hk : k < 8) (env : Env) {n : Nat}
    (hn : n = 8 ∨ n = 16 ∨ n = 32) {o : Opnd} {a : BitVec n} (ho : o.Ok s n) (ha : o.Has s n a) (b : BitVec n) :
    aluApply (aluOfNum (BitVec.ofNat 3 k)) n (locOf s o) b env { opState s p j with flags := clr s.flags OZSP } =
      .ok () { aluResult s k n o a b with dec := decOf p j, instrNum := s.instrNum + 1 } := by
  rw [aluApply_ok (s := s) (t := { opState s p j with flags := clr s.flags OZSP }) ⟨rfl, rfl, rfl, rfl⟩ env hn _ ho ha,
    writes_iff k hk]
  simp only [aluExec_clr]
  unfold aluResult
  by_cases h7 : k = 7
  · rw [if_neg (by simp [h7]), if_pos h7]; rfl
  · rw [if_pos (by simp [h7]), if_neg h7, put_setFlags, put_op]

theorem alu_entry : ∀ k, k < 8 →
    opEntry (BitVec.ofNat 8 (8 * k)) = some ⟨.base (.alu (aluOfNum (BitVec.ofNat 3 k)) .MR), 0, false⟩ ∧
    opEntry (BitVec.ofNat 8 (8 * k + 1)) = some ⟨.base (.alu (aluOfNum (BitVec.ofNat 3 k)) .MRX), 0, false⟩ ∧
    opEntry (BitVec.ofNat 8 (8 * k + 2)) = some ⟨.base (.alu (aluOfNum (BitVec.ofNat 3 k)) .RM), 0, false⟩ ∧
    opEntry (BitVec.ofNat 8 (8 * k + 3)) = some ⟨.base (.alu (aluOfNum (BitVec.ofNat 3 k)) .RMX), 0, false⟩ ∧
    opEntry (BitVec.ofNat 8 (8 * k + 4)) = some ⟨.base (.alu (aluOfNum (BitVec.ofNat 3 k)) .AI), 0, false⟩ ∧
    opEntry (BitVec.ofNat 8 (8 * k + 5)) = some ⟨.base (.alu (aluOfNum (BitVec.ofNat 3 k)) .AIX), 0, false⟩ := by
  decide +kernel

theorem alu_ne (k j : Nat) (hk : k < 8) (hj : j < 8) : BitVec.ofNat 8 (8 * k + j) ≠ 0xF1 := by
  intro h
  have := congrArg BitVec.toNat h
  simp at this
  omega

theorem imm_has8 (i : BitVec 8) : (i.setWidth 32).setWidth 8 = i := by
  apply BitVec.eq_of_toNat_eq; simp

theorem imm_hasN {n : Nat} (hn : n = 8 ∨ n = 16 ∨ n = 32) (v : Nat) :
    (BitVec.ofNat 32 v).setWidth n = BitVec.ofNat n v := by
  apply BitVec.eq_of_toNat_eq
  rcases hn with h | h | h <;> subst h <;> simp <;> omega

theorem imm_hasS {n : Nat} (hn : n = 8 ∨ n = 16 ∨ n = 32) (i : BitVec 8) :
    (i.signExtend 32).setWidth n = i.signExtend n := by
  rcases hn with h | h | h <;> subst h <;> revert i <;> decide +kernel

theorem regOp_wide_loc (s : State) (p : Pfx) (r : BitVec 3) : locOf s (regOp (opW p) r) = .reg r := by
  simp only [regOp, opW_ne8, if_false]; rfl

theorem opW_div (p : Pfx) : 0 < opW p / 8 := by
  rcases opW_cases p with h | h <;> rw [h] <;> decide

/-- Every encoding of an ALU operation performs it. -/
theorem alu_step {s : State} {h0 : Nat} {p : Pfx} {code : List (BitVec 8)} {len k n : Nat} {dst src : Opnd}
    (hk : k < 8) (hat : At s h0 p code len) (henc : AluEnc s p k n code dst src) (env : Env) {a b : BitVec n}
    (ha : dst.Has s n a) (hb : src.Has s n b) (hnz : NotZeroed (aluResult s k n dst a b) h0 len) :
    Falls env s len (aluResult s k n dst a b) := by
  have e0 := alu_entry k hk
  have hip : (aluResult s k n dst a b).ip = s.ip := by
    unfold aluResult; split <;> simp [put_ip]
  have hmm : (aluResult s k n dst a b).map = s.map := by
    unfold aluResult; split <;> simp [put_map]
  have hvv : (aluResult s k n dst a b).valid = s.valid := by
    unfold aluResult; split <;> simp [put_valid]
  cases henc with
  | mr8 h hp =>
    refine step_falls hat env (alu_ne k 0 hk (by omega)) e0.1 rfl _ (decOf p len) ?_ hip hmm hvv rfl rfl hnz
    intro bytes j hc hj hsub
    subst hj
    simp only [callFn, opFn, opAlu, bind_apply, parseModRM_rm hc env h hp (ha.ok h.no_imm) hsub, resbind_ok,
      readLoc_has (Agree.op s p _) env (Or.inl rfl) (regOp_ok s _) hb,
      alu_core p _ k hk env (Or.inl rfl) (ha.ok h.no_imm) ha]
  | mr h hp =>
    refine step_falls hat env (alu_ne k 1 hk (by omega)) e0.2.1 rfl _ (decOf p len) ?_ hip hmm hvv rfl rfl hnz
    intro bytes j hc hj hsub
    subst hj
    simp only [callFn, opFn, opAlu, bind_apply, parseModRMX_rm hc env (opW_ne8 p) h hp (ha.ok h.no_imm) hsub,
      resbind_ok, withW_op (p := p) _ _ (opState _ _ _) rfl, ← regOp_wide_loc s p,
      readLoc_has (Agree.op s p _) env (opW_ok p) (regOp_ok s _) hb,
      alu_core p _ k hk env (opW_ok p) (ha.ok h.no_imm) ha]
  | rm8 h hp =>
    refine step_falls hat env (alu_ne k 2 hk (by omega)) e0.2.2.1 rfl _ (decOf p len) ?_ hip hmm hvv rfl rfl hnz
    intro bytes j hc hj hsub
    subst hj
    simp only [callFn, opFn, opAlu, bind_apply, parseModRM_rm hc env h hp (hb.ok h.no_imm) hsub, resbind_ok,
      readLoc_has (Agree.op s p _) env (Or.inl rfl) (hb.ok h.no_imm) hb,
      alu_core p _ k hk env (Or.inl rfl) (regOp_ok s _) ha]
  | rm h hp =>
    refine step_falls hat env (alu_ne k 3 hk (by omega)) e0.2.2.2.1 rfl _ (decOf p len) ?_ hip hmm hvv rfl rfl hnz
    intro bytes j hc hj hsub
    subst hj
    simp only [callFn, opFn, opAlu, bind_apply, parseModRMX_rm hc env (opW_ne8 p) h hp (hb.ok h.no_imm) hsub,
      resbind_ok, withW_op (p := p) _ _ (opState _ _ _) rfl, ← regOp_wide_loc s p,
      readLoc_has (Agree.op s p _) env (opW_ok p) (hb.ok h.no_imm) hb,
      alu_core p _ k hk env (opW_ok p) (regOp_ok s _) ha]
  | ai8 i =>
    refine step_falls hat env (alu_ne k 4 hk (by omega)) e0.2.2.2.2.1 rfl _ (decOf p len) ?_ hip hmm hvv rfl rfl hnz
    intro bytes j hc hj hsub
    subst hj
    have hb' : b = i := hb.trans (imm_has8 i)
    subst hb'
    simp only [callFn, opFn, opAlu, bind_apply, fetch8 hc env p j hsub.head, resbind_ok]
    exact alu_core p _ k hk env (Or.inl rfl) (o := .reg 0) trivial ha b
  | ai l hl =>
    refine step_falls hat env (alu_ne k 5 hk (by omega)) e0.2.2.2.2.2 rfl _ (decOf p len) ?_ hip hmm hvv rfl rfl hnz
    intro bytes j hc hj hsub
    subst hj
    have hb' : b = _ := hb.trans (imm_hasN (opW_ok p) _)
    subst hb'
    simp only [callFn, opFn, opAlu, withW_op (p := p) _ _ (opState _ _ _) rfl, bind_apply,
      fetchN hc env p (opW p) j (opW_div p) hl hsub, resbind_ok]
    rw [← hl]
    exact alu_core p _ k hk env (opW_ok p) (o := .reg 0) trivial ha _
  | mi8 h hp i =>
    refine step_falls hat env (by decide) (e := ⟨.base .arithMI, 0, true⟩) (by decide) (h.param [i] _ rfl) _
      (decOf p len) ?_ hip hmm hvv rfl rfl hnz
    intro bytes j hc hj hsub
    subst hj
    have hb' : b = i := hb.trans (imm_has8 i)
    subst hb'
    simp only [callFn, opFn, opArithMI, bind_apply,
      parseModRM_rm hc env h hp (ha.ok h.no_imm) hsub.left, resbind_ok, fetch8 hc env p _ hsub.right.head,
      alu_core p _ k hk env (Or.inl rfl) (ha.ok h.no_imm) ha, List.length_append, List.length_cons,
      List.length_nil, Nat.add_assoc]
  | mi h hp l hl =>
    refine step_falls hat env (by decide) (e := ⟨.base .arithMIX, 0, true⟩) (by decide) (h.param l _ rfl) _
      (decOf p len) ?_ hip hmm hvv rfl rfl hnz
    intro bytes j hc hj hsub
    subst hj
    have hb' : b = _ := hb.trans (imm_hasN (opW_ok p) _)
    subst hb'
    simp only [callFn, opFn, opArithMIX, clearOZSP, bind_apply, getFlags_apply, setFlags_apply,
      parseModRMX_rm hc env (opW_ne8 p) h hp (ha.ok h.no_imm) hsub.left, resbind_ok,
      withW_op (p := p) _ _ { opState _ _ _ with flags := _ } rfl]
    have := fetchN (s := { s with flags := clr s.flags OZSP }) hc env p (opW p) _ (opW_div p) hl hsub.right
    erw [this]
    simp only [resbind_ok, List.length_append, ← hl, ← Nat.add_assoc]
    exact alu_core_clr p _ k hk env (opW_ok p) (ha.ok h.no_imm) ha _
  | mis h hp i =>
    refine step_falls hat env (by decide) (e := ⟨.base .arithMI8X, 0, true⟩) (by decide) (h.param [i] _ rfl) _
      (decOf p len) ?_ hip hmm hvv rfl rfl hnz
    intro bytes j hc hj hsub
    subst hj
    have hb' : b = _ := hb.trans (imm_hasS (opW_ok p) _)
    subst hb'
    simp only [callFn, opFn, opArithMI8X, clearOZSP, bind_apply, getFlags_apply, setFlags_apply,
      parseModRMX_rm hc env (opW_ne8 p) h hp (ha.ok h.no_imm) hsub.left, resbind_ok,
      withW_op (p := p) _ _ { opState _ _ _ with flags := _ } rfl]
    have := fetch8S (s := { s with flags := clr s.flags OZSP }) hc env p (opW p) _ hsub.right.head
    erw [this]
    simp only [resbind_ok, List.length_append, List.length_cons, List.length_nil, ← Nat.add_assoc]
    exact alu_core_clr p _ k hk env (opW_ok p) (ha.ok h.no_imm) ha _

end RME
