import Verif.Props.Flags
import Verif.Lemmas.Code
import Verif.Lemmas.Conc
import Verif.Spec.PushPop
set_option autoImplicit false
/-
C26 LIFO, C27 PUSHA/POPA.
-/
namespace RME

theorem push_entry : ∀ r : BitVec 3, opEntry (0x50 + r.setWidth 8) = some ⟨.base .pushReg, r, false⟩ ∧
    opEntry (0x58 + r.setWidth 8) = some ⟨.base .popReg, r, false⟩ ∧ 0x50 + r.setWidth 8 ≠ (0xF1 : BitVec 8) ∧
    0x58 + r.setWidth 8 ≠ (0xF1 : BitVec 8) := by decide +kernel

theorem op_first {s : State} {p : Pfx} {j h : Nat} (hm : Mapped s 16 (s.sreg .ss) (spOf s - 2) h) :
    Mapped (opState s p j) 16 ((opState s p j).sreg .ss) (spOf (opState s p j) - 2) h := hm

/-- PUSH at the level of the opcode function. -/
theorem pushM_op {s : State} {env : Env} {p : Pfx} {j : Nat} {m : M (BitVec 16)} {x : BitVec 16} {h : Nat}
    (hm : Mapped s 16 (s.sreg .ss) (spOf s - 2) h)
    (hx : m env (withSP (opState s p j) (spOf s - 2)) = .ok x (withSP (opState s p j) (spOf s - 2))) :
    pushM m env (opState s p j) = .ok () { pushed s x with dec := decOf p j, instrNum := s.instrNum + 1 } := by
  rw [pushM_ok (op_first hm) hx]
  exact congrArg _ (pushed_op ..)

theorem readLoc_withSP {s : State} {env : Env} {p : Pfx} {j : Nat} {o : Opnd} {v w : BitVec 16} (ho : o.Ok s 16) (hv : o.Has s 16 v)
    (hsp : o ≠ .reg 4) : readLoc 16 (locOf s o) env (withSP (opState s p j) w) = .ok v (withSP (opState s p j) w) := by
  cases o with
  | reg r =>
    have hr : r ≠ rSP := fun h => hsp (by rw [h])
    have hv' : v = (s.gpr r).setWidth 16 := hv
    have e : (withSP (opState s p j) w).reg 16 r = v := by
      have := withSP_gpr_ne (opState s p j) w hr
      simp only [State.reg, this]
      exact hv'.symm
    show Res.ok ((withSP (opState s p j) w).reg 16 r) _ = _
    rw [e]
  | high r => have : (16 : Nat) = 8 := ho; omega
  | mem seg ofs =>
    have h1 : Holds s seg ofs v := hv
    have hr : ∀ t : State, t.map = s.map → t.valid = s.valid → t.host = s.host → readLoc 16 (locOf s (.mem seg ofs)) env t = .ok v t := by
      intro t h2 h3 h4
      obtain ⟨a, ha, hb⟩ := h1
      have hl : locOf s (.mem seg ofs) = .mem a := by simp only [locOf, ha.1, Option.getD_some]
      rw [hl]
      have hm : Mapped t 16 seg ofs a := ha.congr h2 h3
      have := readMem_mapped env hm
      rw [readMem] at this
      simp only [bind_apply, getPtr_some env hm.1, resbind_ok] at this
      refine Eq.trans this ?_
      have h5 := readMem_holds (by decide) env (⟨a, hm, fun i hi => by rw [h4]; exact hb i hi⟩ : Holds t seg ofs v)
      have h6 := readMem_mapped env hm
      rw [h5] at h6
      exact h6.symm
    exact hr _ rfl rfl rfl
  | imm v => exact absurd ho (by simp [Opnd.Ok])

theorem RM.plain_reg {s : State} {p : Pfx} {n : Nat} {rm : List (BitVec 8)} {r : BitVec 3} {o : Opnd} (h : RM s p n rm r o)
    (hr : ∀ seg ofs, o ≠ .mem seg ofs) : Plain s p n rm := by
  cases h with
  | reg m hm => intro h; exact absurd hm h
  | mem => exact absurd rfl (hr _ _)
  | mem32 => exact absurd rfl (hr _ _)

theorem push_runs {s : State} {h0 : Nat} {p : Pfx} {code : List (BitVec 8)} {len : Nat} {v : BitVec 16} (ho : p.oper = false)
    (henc : PushEnc s p code v) (hr : Room s 1) (env : Env) :
    Runs env s h0 p code len { pushed s v with dec := decOf p len, instrNum := s.instrNum + 1 } := by
  obtain ⟨a, hm⟩ := hr.first
  have hseg : ∀ (op : BitVec 8) (k : BitVec 3) (sr : SReg), op ≠ 0xF1 → opEntry op = some ⟨.base .pushSeg, k, false⟩ → segNum k = some sr →
      Runs env s h0 p [op] len { pushed s (s.sreg sr) with dec := decOf p len, instrNum := s.instrNum + 1 } := by
    intro op k sr h1 h2 h3
    refine .mk _ _ h1 h2 rfl ?_
    intro bytes j _ hj _
    obtain rfl : j = len := hj
    simp only [callFn, opFn, opPushSeg, bind_apply, segOf_num h3, resbind_ok]
    exact pushM_op hm rfl
  have hseg0F : ∀ (op : BitVec 8) (k : BitVec 3) (b : Bool) (sr : SReg), opEntry0F op = some ⟨.base .pushSeg, k, b⟩ → segNum k = some sr →
      Runs env s h0 p [0x0F, op] len { pushed s (s.sreg sr) with dec := decOf p len, instrNum := s.instrNum + 1 } := by
    intro op k b sr h2 h3
    refine .mk ⟨.ext0F, 0, false⟩ 0 (by decide) (by decide +kernel) rfl ?_
    intro bytes j hc hj hsub
    obtain rfl : j + 1 = len := hj
    simp only [callFn, ext0F_run hc env p hsub.head h2, opFn, opPushSeg, bind_apply, segOf_num h3, resbind_ok]
    exact pushM_op hm rfl
  cases henc with
  | reg r h =>
    refine .mk _ _ (push_entry r).2.2.1 (push_entry r).1 rfl ?_
    intro bytes j _ hj _
    obtain rfl : j = len := hj
    simp only [callFn, opFn, opPushReg, bind_apply, getDec_apply, resbind_ok, ite_apply]
    rw [if_neg (by show ¬ (p.oper = true); simp [ho])]
    refine pushM_op hm ?_
    show Res.ok _ _ = _
    congr 1
    simp only [State.reg, withSP_gpr_ne _ _ h]
    rfl
  | sp =>
    refine .mk _ _ (by decide) (push_entry 4).1 rfl ?_
    intro bytes j _ hj _
    obtain rfl : j = len := hj
    simp only [callFn, opFn, opPushReg, bind_apply, getDec_apply, resbind_ok, ite_apply]
    rw [if_neg (by show ¬ (p.oper = true); simp [ho])]
    refine pushM_op hm ?_
    show Res.ok (spOf (withSP (opState s p j) (spOf s - 2))) _ = _
    rw [spOf_withSP]
  | es => exact hseg _ 0 .es (by decide) (by decide +kernel) rfl
  | cs => exact hseg _ 1 .cs (by decide) (by decide +kernel) rfl
  | ss => exact hseg _ 2 .ss (by decide) (by decide +kernel) rfl
  | ds => exact hseg _ 3 .ds (by decide) (by decide +kernel) rfl
  | fs => exact hseg0F _ 4 false .fs (by decide +kernel) rfl
  | gs => exact hseg0F _ 5 false .gs (by decide +kernel) rfl
  | imm lo hi =>
    refine .mk ⟨.base .pushI, 0, false⟩ 0 (by decide) (by decide +kernel) rfl ?_
    intro bytes j hc hj hsub
    obtain rfl : j + 2 = len := hj
    simp only [callFn, opFn, opPushI, pushVal, bind_apply, fetch16 hc env p j hsub.head hsub.tail.head, resbind_ok, getDec_apply, ite_apply]
    rw [if_neg (by show ¬ (p.oper = true); simp [ho]), imm16_has]
    exact pushM_op hm rfl
  | imm8 b =>
    refine .mk ⟨.base .pushI8, 0, false⟩ 0 (by decide) (by decide +kernel) rfl ?_
    intro bytes j hc hj hsub
    obtain rfl : j + 1 = len := hj
    simp only [callFn, opFn, opPushI8, pushVal, bind_apply, fetch8S hc env p 32 j hsub.head, resbind_ok, getDec_apply, ite_apply]
    rw [if_neg (by show ¬ (p.oper = true); simp [ho]), imm_hasS (by decide)]
    exact pushM_op hm rfl
  | rm h hp hv hsp =>
    refine .mk ⟨.base .unaryMX, 0, true⟩ 6 (by decide) (by decide +kernel) (h.param' _ rfl) ?_
    intro bytes j hc hj hsub
    subst hj
    have hok := hv.ok h.no_imm
    simp only [callFn, opFn, opUnaryMX, bind_apply, getDec_apply, resbind_ok, ite_apply]
    rw [if_neg (by show ¬ (p.oper = true); simp [ho]), if_neg (by decide), if_neg (by decide), if_neg (by decide), if_neg (by decide),
      if_neg (by decide), if_neg (by decide), if_pos trivial]
    simp only [bind_apply, parseModRMX_rm hc env (by decide) h hp hok hsub, resbind_ok]
    exact pushM_op hm (readLoc_withSP hok hv hsp)
  | rmSP h =>
    refine .mk ⟨.base .unaryMX, 0, true⟩ 6 (by decide) (by decide +kernel) (h.param' _ rfl) ?_
    intro bytes j hc hj hsub
    subst hj
    have hp := h.plain_reg (by intros; simp)
    simp only [callFn, opFn, opUnaryMX, bind_apply, getDec_apply, resbind_ok, ite_apply]
    rw [if_neg (by show ¬ (p.oper = true); simp [ho]), if_neg (by decide), if_neg (by decide), if_neg (by decide), if_neg (by decide),
      if_neg (by decide), if_neg (by decide), if_pos trivial]
    simp only [bind_apply, parseModRMX_rm hc env (by decide) h hp trivial hsub, resbind_ok]
    refine pushM_op hm ?_
    show Res.ok (spOf (withSP (opState s p _) (spOf s - 2))) _ = _
    rw [spOf_withSP]
  | flags =>
    refine .mk ⟨.base .pushF, 0, false⟩ 0 (by decide) (by decide +kernel) rfl ?_
    intro bytes j _ hj _
    obtain rfl : j = len := hj
    simp only [callFn, opFn, opPushF, bind_apply, getDec_apply, resbind_ok]
    rw [show (opState s p j).dec.ovrOper = false from ho, guardE_false, resbind_ok]
    exact pushM_op hm rfl

/-- C26: PUSH decrements SP by 2 (modulo 2^16), stores the word at SS:SP and changes nothing else. -/
theorem C26_push {s : State} {h0 : Nat} {p : Pfx} {code : List (BitVec 8)} {len : Nat} {v : BitVec 16} (hat : At s h0 p code len)
    (ho : p.oper = false) (henc : PushEnc s p code v) (hr : Room s 1) (env : Env) (hnz : NotZeroed (pushed s v) h0 len) :
    Falls env s len (pushed s v) :=
  (push_runs ho henc hr env).falls hat (pushed_ip ..) (pushed_map ..) (pushed_valid ..) rfl rfl hnz

theorem pop_op {s : State} {env : Env} {v : BitVec 16} (h : StackTop s 0 v) (p : Pfx) (j : Nat) :
    pop env (opState s p j) = .ok v { dropped s 1 with dec := decOf p j, instrNum := s.instrNum + 1 } := by
  have : StackTop (opState s p j) 0 v := h
  rw [pop_ok this]
  rfl

theorem pop_runs {s : State} {h0 : Nat} {p : Pfx} {code : List (BitVec 8)} {len : Nat} {v : BitVec 16} {dst : PopDst} (ho : p.oper = false)
    (henc : PopEnc s p code dst) (hv : StackTop s 0 v) (env : Env) :
    Runs env s h0 p code len { dst.put (dropped s 1) v with dec := decOf p len, instrNum := s.instrNum + 1 } := by
  have hseg : ∀ (op : BitVec 8) (k : BitVec 3) (sr : SReg), op ≠ 0xF1 → opEntry op = some ⟨.base .popSeg, k, false⟩ → segNum k = some sr →
      Runs env s h0 p [op] len { (dropped s 1).setSreg sr v with dec := decOf p len, instrNum := s.instrNum + 1 } := by
    intro op k sr h1 h2 h3
    refine .mk _ _ h1 h2 rfl ?_
    intro bytes j _ hj _
    obtain rfl : j = len := hj
    simp only [callFn, opFn, opPopSeg, bind_apply, segOf_num h3, resbind_ok, pop_op hv]
    rfl
  have hseg0F : ∀ (op : BitVec 8) (k : BitVec 3) (b : Bool) (sr : SReg), opEntry0F op = some ⟨.base .popSeg, k, b⟩ → segNum k = some sr →
      Runs env s h0 p [0x0F, op] len { (dropped s 1).setSreg sr v with dec := decOf p len, instrNum := s.instrNum + 1 } := by
    intro op k b sr h2 h3
    refine .mk ⟨.ext0F, 0, false⟩ 0 (by decide) (by decide +kernel) rfl ?_
    intro bytes j hc hj hsub
    obtain rfl : j + 1 = len := hj
    simp only [callFn, ext0F_run hc env p hsub.head h2, opFn, opPopSeg, bind_apply, segOf_num h3, resbind_ok, pop_op hv]
    rfl
  cases henc with
  | reg r =>
    refine .mk _ _ (push_entry r).2.2.2 (push_entry r).2.1 rfl ?_
    intro bytes j _ hj _
    obtain rfl : j = len := hj
    simp only [callFn, opFn, opPopReg, bind_apply, pop_op hv, resbind_ok, setReg_apply, getDec_apply, ite_apply]
    rw [if_neg (by show ¬ (p.oper = true); simp [ho])]
    rfl
  | es => exact hseg _ 0 .es (by decide) (by decide +kernel) rfl
  | ss => exact hseg _ 2 .ss (by decide) (by decide +kernel) rfl
  | ds => exact hseg _ 3 .ds (by decide) (by decide +kernel) rfl
  | fs => exact hseg0F _ 4 false .fs (by decide +kernel) rfl
  | gs => exact hseg0F _ 5 false .gs (by decide +kernel) rfl
  | @rm rm o h hp hok =>
    refine .mk ⟨.base .popMX, 0, false⟩ 0 (by decide) (by decide +kernel) rfl ?_
    intro bytes j hc hj hsub
    subst hj
    simp only [callFn, opFn, opPopMX, bind_apply, getDec_apply, resbind_ok]
    rw [show (opState s p j).dec.ovrOper = false from ho, guardE_false, resbind_ok]
    simp only [parseModRMX_rm hc env (by decide) h hp hok hsub, resbind_ok, pop_op hv]
    rw [writeLoc_put (s := s) (t := { dropped s 1 with dec := decOf p _, instrNum := s.instrNum + 1 }) rfl rfl env hok v]
    exact congrArg _ (put_op o (dropped s 1) p _ 16 v)

/-- C26: POP moves the word at SS:SP into its destination and increments SP by 2 (modulo 2^16) beforehand; nothing else changes. -/
theorem C26_pop {s : State} {h0 : Nat} {p : Pfx} {code : List (BitVec 8)} {len : Nat} {v : BitVec 16} {dst : PopDst} (hat : At s h0 p code len)
    (ho : p.oper = false) (henc : PopEnc s p code dst) (hv : StackTop s 0 v) (env : Env) (hnz : NotZeroed (dst.put (dropped s 1) v) h0 len) :
    Falls env s len (dst.put (dropped s 1) v) := by
  refine (pop_runs ho henc hv env).falls hat ?_ ?_ ?_ rfl rfl hnz
  · cases dst with
    | op o => exact put_ip ..
    | seg r => rfl
  · cases dst with
    | op o => exact put_map ..
    | seg r => rfl
  · cases dst with
    | op o => exact put_valid ..
    | seg r => rfl

/-! ### LIFO -/

/-- The same state with other IP and scratch data. -/
def scr (s : State) (ip : BitVec 16) (n : Int) (d : Decoder) (l : Bool) : State :=
  { s with ip := ip, instrNum := n, dec := d, lastNull := l }

theorem pushed_scr (s : State) (ip n d l) (v : BitVec 16) : pushed (scr s ip n d l) v = scr (pushed s v) ip n d l := by
  show (match hostAddr s (s.sreg .ss) (spOf s - 2) with
      | some h => { withSP (scr s ip n d l) (spOf s - 2) with host := putHost s.host h v }
      | none => withSP (scr s ip n d l) (spOf s - 2)) =
    scr (match hostAddr s (s.sreg .ss) (spOf s - 2) with
      | some h => { withSP s (spOf s - 2) with host := putHost s.host h v }
      | none => withSP s (spOf s - 2) : State) ip n d l
  split <;> rfl

theorem pushedAll_scr (s : State) (ip n d l) (vs : List (BitVec 16)) : pushedAll (scr s ip n d l) vs = scr (pushedAll s vs) ip n d l := by
  induction vs generalizing s with
  | nil => rfl
  | cons v vs ih => simp only [pushedAll, pushed_scr]; exact ih _

theorem pushRun_state {env : Env} {s t : State} {vs : List (BitVec 16)} (h : PushRun env s vs t) (hr : Room s vs.length) :
    ∃ ip n d l, t = scr (pushedAll s vs) ip n d l := by
  induction h with
  | nil s => exact ⟨_, _, _, _, rfl⟩
  | @cons s t u h0 p code len v vs hat ho he h r ih =>
    simp only [List.length_cons] at hr
    obtain ⟨l, hl⟩ := (push_runs ho he (hr.mono (by omega)) env).any hat (pushed_map ..) (pushed_valid ..) rfl h
    have ht : t = scr (pushed s v) t.ip t.instrNum t.dec t.lastNull := by rw [hl]; rfl
    have hr' : Room t vs.length := by
      rw [ht]
      exact (hr.pushed v).congr rfl rfl rfl rfl
    obtain ⟨ip, n, d, l, hu⟩ := ih hr'
    refine ⟨ip, n, d, l, ?_⟩
    rw [hu, ht, pushedAll_scr]
    rfl

theorem popRun_state {env : Env} {t u : State} {ws : List (BitVec 16)} (h : PopRun env t ws u) : ∀ (vals : List (BitVec 16)),
    ws.length ≤ vals.length → (∀ i (hi : i < vals.length), StackTop t i vals[i]) →
    ws = vals.take ws.length ∧ spOf u = spOf t + BitVec.ofNat 16 (2 * ws.length) ∧ u.sreg .ss = t.sreg .ss ∧ u.host = t.host := by
  induction h with
  | nil s => intro vals _ _; simp
  | @cons s t u h0 p code len dst v vs hat ho he hd h hv r ih =>
    intro vals hlen hst
    cases vals with
    | nil => simp at hlen
    | cons x xs =>
      have hx : StackTop s 0 x := hst 0 (by simp)
      have hput : (dst.put (dropped s 1) x).map = s.map ∧ (dst.put (dropped s 1) x).valid = s.valid ∧
          (dst.put (dropped s 1) x).sreg .ss = s.sreg .ss ∧ (dst.put (dropped s 1) x).host = s.host ∧
          spOf (dst.put (dropped s 1) x) = spOf s + 2 ∧ dst.Has (dst.put (dropped s 1) x) x := by
        have hsp : spOf (dropped s 1) = spOf s + 2 := by rw [dropped, spOf_withSP]; rfl
        cases dst with
        | op o =>
          cases o with
          | reg r =>
            have hr : r ≠ 4 := hd
            refine ⟨rfl, rfl, rfl, rfl, ?_, put_has (o := .reg r) (n := 16) (by decide) trivial x⟩
            rw [← hsp]
            show (((Opnd.reg r).put (dropped s 1) 16 x).gpr 4).setWidth 16 = _
            simp only [Opnd.put, setGpr_gpr]
            rw [if_neg (by simpa using Ne.symm hr)]
            rfl
          | high r => exact absurd hd (by simp [PopDst.offStack])
          | mem a b => exact absurd hd (by simp [PopDst.offStack])
          | imm w => exact absurd hd (by simp [PopDst.offStack])
        | seg r =>
          have hr : r ≠ .ss := hd
          refine ⟨rfl, rfl, ?_, rfl, hsp, ?_⟩
          · show (if _ = r then x else _) = _
            rw [if_neg (Ne.symm hr)]; rfl
          · show (if r = r then x else _) = _
            rw [if_pos rfl]
      obtain ⟨p1, p2, p3, p4, p5, p6⟩ := hput
      obtain ⟨l, hl⟩ := (pop_runs ho he hx env).any hat p1 p2 rfl h
      have e1 : t.map = s.map := by rw [hl]; exact p1
      have e2 : t.valid = s.valid := by rw [hl]; exact p2
      have e3 : t.sreg .ss = s.sreg .ss := by rw [hl]; exact p3
      have e4 : t.host = s.host := by rw [hl]; exact p4
      have e5 : spOf t = spOf s + 2 := by rw [hl]; exact p5
      have e6 : dst.Has t x := by
        rw [hl]
        cases dst with
        | op o =>
          cases o with
          | reg r => exact p6
          | high r => exact absurd hd (by simp [PopDst.offStack])
          | mem a b => exact absurd hd (by simp [PopDst.offStack])
          | imm w => exact absurd hd (by simp [PopDst.offStack])
        | seg r => exact p6
      have hvx : v = x := by
        cases dst with
        | op o => exact has_unique (by decide) hv e6
        | seg r => exact hv.symm.trans e6
      have hpos : ∀ i : Nat, spOf s + 2 + BitVec.ofNat 16 (2 * i) = spOf s + BitVec.ofNat 16 (2 * (i + 1)) := by
        intro i
        rw [show 2 * (i + 1) = 2 + 2 * i by omega, BitVec.ofNat_add, BitVec.add_assoc]; rfl
      obtain ⟨i1, i2, i3, i4⟩ := ih xs (by simpa using hlen) (by
        intro i hi
        have := hst (i + 1) (by simp; omega)
        simp only [List.getElem_cons_succ] at this
        simp only [StackTop, e5, e3, hpos]
        exact readMem_at (by decide) this e1 e2 e4)
      refine ⟨?_, ?_, i3.trans e3, i4.trans e4⟩
      · rw [List.length_cons, List.take_succ_cons, ← i1, hvx]
      · rw [i2, e5, List.length_cons, hpos]

/-- C26: any sequence of PUSH instructions followed by the same number of POP instructions returns the values in reverse order and
restores SP — at every SP, including wrap-around — as long as the stack words are mapped and do not overlap.  Memory is then as the
pushes left it. -/
theorem C26_lifo {env : Env} {s t u : State} {vs ws : List (BitVec 16)} (h1 : PushRun env s vs t) (h2 : PopRun env t ws u)
    (hlen : ws.length = vs.length) (hr : Room s vs.length) :
    ws = vs.reverse ∧ spOf u = spOf s ∧ u.sreg .ss = s.sreg .ss ∧ u.host = (pushedAll s vs).host := by
  obtain ⟨ip, n, d, l, rfl⟩ := pushRun_state h1 hr
  obtain ⟨i1, i2, i3, i4⟩ := popRun_state h2 vs.reverse (by simp [hlen]) (by
    intro i hi
    have hi' : i < vs.length := by simpa using hi
    have := pushedAll_top vs hr (Nat.le_refl _) i hi'
    rw [List.getElem_reverse]
    exact this)
  have hf := (pushedAll_frame s vs).1
  refine ⟨?_, ?_, ?_, i4⟩
  · rw [i1, hlen, List.take_of_length_le (by simp)]
  · rw [i2]
    show spOf (pushedAll s vs) + _ = _
    rw [spOf_pushedAll, hlen, BitVec.sub_add_cancel]
  · rw [i3]
    show (pushedAll s vs).sreg .ss = _
    rw [hf]

/-- C26: on a machine with all 272 blocks mapped contiguously up to 32768 words can be pushed at every SS:SP. -/
theorem C26_lifo_flat {env : Env} {s t u : State} {vs ws : List (BitVec 16)} {base : Nat} (hflat : Flat s base) (h1 : PushRun env s vs t)
    (h2 : PopRun env t ws u) (hlen : ws.length = vs.length) (hl : vs.length ≤ 32768) :
    ws = vs.reverse ∧ spOf u = spOf s ∧ u.sreg .ss = s.sreg .ss ∧ u.host = (pushedAll s vs).host :=
  C26_lifo h1 h2 hlen (hflat.room.mono hl)

/-- PUSH AX; PUSH BX; POP CX; POP DX. -/
def lifoDemo : State := demo [0x50, 0x53, 0x59, 0x5A]
example : ∃ s t u vs ws, PushRun demoEnv s vs t ∧ PopRun demoEnv t ws u ∧ ws.length = vs.length ∧ Room s vs.length ∧ vs.length = 2 ∧
    ws = [0x10, 0x55] :=
  have hat : ∀ (s : State) (h0 : Nat) (op : BitVec 8), Ready s → CodeAt s h0 [op] → At s h0 {} [op] 1 :=
    fun s h0 op h1 h2 => ⟨h1, [], rfl, h2, rfl⟩
  ⟨lifoDemo, _, _, _, _,
    .cons (hat _ 0x10100 0x50 (by decide +kernel) (by decide +kernel)) rfl (.reg 0 (by decide)) (conc_ok (by decide +kernel))
      (.cons (hat _ 0x10101 0x53 (by decide +kernel) (by decide +kernel)) rfl (.reg 3 (by decide)) (conc_ok (by decide +kernel)) (.nil _)),
    .cons (v := 0x10) (hat _ 0x10102 0x59 (by decide +kernel) (by decide +kernel)) rfl (.reg 1) (by simp [PopDst.offStack])
        (conc_ok (by decide +kernel)) (show _ = _ by decide +kernel)
      (.cons (v := 0x55) (hat _ 0x10103 0x5A (by decide +kernel) (by decide +kernel)) rfl (.reg 2) (by simp [PopDst.offStack])
        (conc_ok (by decide +kernel)) (show _ = _ by decide +kernel) (.nil _)),
    rfl, (demo_flat _).room.mono (by decide), rfl, rfl⟩

end RME
