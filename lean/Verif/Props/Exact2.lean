import Verif.Props.Call2
import Verif.Props.Enter
import Verif.Props.Jump
import Verif.Props.Shxd
set_option autoImplicit false
/-
What the code does exactly in further places where it departs from the processor: JCXZ with an operand-size prefix, transfers with an
operand-size prefix, CALL r/m through SP or through the word it pushes, ENTER level 1 and LEAVE with an operand-size prefix,
SHLD/SHRD with registers numbered 4–7.
-/
namespace RME

/-! ### C25 -/

/-- C25: JCXZ in every case: the counter tested is CX, with an operand-size prefix ECX (the processor: CX, with an *address*-size prefix ECX). -/
theorem C25_jcxz_exact {s : State} {h0 : Nat} {p : Pfx} {d : BitVec 8} {len : Nat} (hat : At s h0 p [0xE3, d] len) (env : Env) :
    Jumps env s (if (if p.oper then (s.gpr 1).toNat else (s.gpr 1).toNat % 65536) = 0 then s.ip + BitVec.ofNat 16 len + d.signExtend 16
      else s.ip + BitVec.ofNat 16 len) s := by
  have hcx : (cxOf s).toNat = (s.gpr 1).toNat % 65536 := by
    show ((s.gpr 1).setWidth 16).toNat = _
    simp
  cases ho : p.oper
  · have := C25_jcxz_partial hat ho env
    simp only [Bool.false_eq_true, if_false]
    by_cases c : cxOf s = 0
    · rw [if_pos c] at this
      rw [if_pos (by rw [← hcx, c]; rfl)]; exact this
    · rw [if_neg c] at this
      rw [if_neg (by rw [← hcx]; intro h; exact c (BitVec.eq_of_toNat_eq (by simpa using h)))]; exact this
  · simp only [if_true]
    have := step_fall hat env (by decide) loop_entry.2.2.2 rfl { opState s p len with
        ip := if (s.gpr 1).toNat = 0 then s.ip + d.signExtend 16 else s.ip } ?_ rfl rfl rfl rfl
        (notZeroed_same hat (by decide) rfl)
    · have e : (if (s.gpr 1).toNat = 0 then s.ip + d.signExtend 16 else s.ip) + BitVec.ofNat 16 len =
          if (s.gpr 1).toNat = 0 then s.ip + BitVec.ofNat 16 len + d.signExtend 16 else s.ip + BitVec.ofNat 16 len := by
        split
        · rw [BitVec.add_assoc, BitVec.add_comm (d.signExtend 16), ← BitVec.add_assoc]
        · rfl
      obtain ⟨dec, hdec⟩ := this
      refine ⟨dec, hdec.trans ?_⟩
      rw [← e]; rfl
    · intro bytes j hc hj hsub
      subst hj
      have ho' : (decOf p (j + 1)).ovrOper = true := ho
      have hd : getDec env (opState s p (j + 1)) = .ok (decOf p (j + 1)) (opState s p (j + 1)) := rfl
      simp only [callFn, opFn, opJcxz, bind_apply, fetch8S hc env p 16 _ hsub.head, resbind_ok, getReg_apply, hd, ho', Bool.true_and, Bool.not_true,
        Bool.false_and, Bool.false_eq_true, if_false]
      have e2 : (opState s p (j + 1)).reg 32 rCX = s.gpr 1 := by simp [State.reg, opState]
      rw [e2]
      by_cases c : s.gpr 1 = 0
      · rw [if_neg (by simpa using c), if_pos (by rw [c]; rfl)]; rfl
      · rw [if_pos (by simpa using c), if_neg (fun h => c (BitVec.eq_of_toNat_eq (by simpa using h)))]; rfl

/-- 66 JCXZ with ECX = 10000h. -/
example : ∃ (s : State) (p : Pfx), At s 0x10100 p [0xE3, 0x05] 3 ∧ p.oper = true ∧ (s.gpr 1).toNat = 0x10000 :=
  ⟨(demo [0x66, 0xE3, 0x05]).setGpr 1 0x10000, { oper := true }, ⟨⟨by decide, by decide, by decide⟩, [0x66], rfl, demo_code [0x66, 0xE3, 0x05] (by decide), rfl⟩,
    rfl, by decide⟩

/-- C25 violated: with an address-size prefix the processor counts in ECX; 67 LOOP with ECX = 10001h ends the loop (and leaves 10000h) instead of jumping. -/
theorem C25_violated_loop32 : ∃ s t, At s 0x10100 { addr := true } [0xE2, 0x05] 3 ∧ s.gpr 1 = 0x10001 ∧ runOne demoEnv s = .ok () t ∧ t.ip = s.ip + 3 ∧
    t.gpr 1 = 0x10000 :=
  ⟨(demo [0x67, 0xE2, 0x05]).setGpr 1 0x10001, _, ⟨⟨by decide, by decide, by decide⟩, [0x67], rfl, demo_code [0x67, 0xE2, 0x05] (by decide), rfl⟩,
    rfl, rfl, by decide +kernel, by decide +kernel⟩

/-! ### C28 -/

/-- C28 violated: with an operand-size prefix a direct near CALL still has a 16-bit displacement, pushes a 16-bit return address and
goes to a 16-bit offset: it is the instruction without the prefix (one byte longer). -/
theorem C28_violated_call32_exact {s : State} {h0 : Nat} {p : Pfx} {lo hi : BitVec 8} {len : Nat} (hat : At s h0 p [0xE8, lo, hi] len)
    (hr : Room s 1) (env : Env) (hnz : NotZeroed (pushed s (s.ip + BitVec.ofNat 16 len)) h0 len) :
    StepsTo env s { calledNear s (s.ip + BitVec.ofNat 16 len) (s.ip + BitVec.ofNat 16 len + le16 lo hi) with instrNum := s.instrNum + 1 } := by
  obtain ⟨a, hm⟩ := hr.first
  have : Runs env s h0 p [0xE8, lo, hi] len
      { calledNear s (s.ip + BitVec.ofNat 16 len) (s.ip + le16 lo hi) with dec := decOf p len, instrNum := s.instrNum + 1 } := by
    refine .mk ⟨.base .callN, 0, false⟩ 0 (by decide) (by decide +kernel) rfl ?_
    intro bytes j hc hj hsub
    obtain rfl : j + 2 = len := hj
    simp only [callFn, opFn, opCallN, bind_apply, fetch16 hc env p j hsub.head hsub.tail.head, resbind_ok]
    rw [pushM_op (x := s.ip + BitVec.ofNat 16 (j + 2)) hm rfl, resbind_ok]
    simp only [getIP_apply, resbind_ok, setIP_apply, pushed_ip]
    rfl
  have := this.shifts (t := calledNear s (s.ip + BitVec.ofNat 16 len) (s.ip + le16 lo hi)) hat (pushed_map ..) (pushed_valid ..) rfl rfl hnz
  rw [show (calledNear s (s.ip + BitVec.ofNat 16 len) (s.ip + le16 lo hi)).ip + BitVec.ofNat 16 len = s.ip + BitVec.ofNat 16 len + le16 lo hi by
    show s.ip + le16 lo hi + _ = _
    rw [BitVec.add_assoc, BitVec.add_comm (le16 lo hi), ← BitVec.add_assoc]] at this
  exact this

/-- C28 violated: so does a direct near JMP. -/
theorem C28_violated_jmp32_exact {s : State} {h0 : Nat} {p : Pfx} {lo hi : BitVec 8} {len : Nat} (hat : At s h0 p [0xE9, lo, hi] len) (env : Env) :
    Jumps env s (s.ip + BitVec.ofNat 16 len + le16 lo hi) s := by
  have : Runs env s h0 p [0xE9, lo, hi] len { ({ s with ip := s.ip + le16 lo hi } : State) with dec := decOf p len, instrNum := s.instrNum + 1 } := by
    refine .mk ⟨.base .jmpN, 0, false⟩ 0 (by decide) (by decide +kernel) rfl ?_
    intro bytes j hc hj hsub
    obtain rfl : j + 2 = len := hj
    simp only [callFn, opFn, opJmpN, addIP, bind_apply, fetch16 hc env p j hsub.head hsub.tail.head, resbind_ok, getIP_apply, setIP_apply]
    rfl
  have := this.shifts (t := { s with ip := s.ip + le16 lo hi }) hat rfl rfl rfl rfl (notZeroed_same hat (by decide) rfl)
  rw [BitVec.add_assoc, BitVec.add_comm _ (le16 lo hi), ← BitVec.add_assoc]
  exact this

/-- C28 violated: a direct far CALL has a 16-bit offset even with an operand-size prefix. -/
theorem C28_violated_callf32_exact {s : State} {h0 : Nat} {p : Pfx} {a b c d : BitVec 8} {len : Nat} (hat : At s h0 p [0x9A, a, b, c, d] len)
    (hr : Room s 2) (env : Env) (hnz : NotZeroed (pushedAll s [s.sreg .cs, s.ip + BitVec.ofNat 16 len]) h0 len) :
    StepsTo env s { calledFar s (s.ip + BitVec.ofNat 16 len) (le16 c d) (le16 a b) with instrNum := s.instrNum + 1 } := by
  have main : Runs env s h0 p [0x9A, a, b, c, d] len
      { calledFar s (s.ip + BitVec.ofNat 16 len) (le16 c d) (le16 a b) with dec := decJ p len, instrNum := s.instrNum + 1 } := by
    refine .mk ⟨.base .callF, 0, false⟩ 0 (by decide) (by decide +kernel) rfl ?_
    intro bytes j hc hj hsub
    obtain rfl : j + 4 = len := hj
    simp only [callFn, opFn, opCallF, bind_apply, fetch16 hc env p j hsub.head hsub.tail.head, resbind_ok,
      fetch16 hc env p (j + 2) hsub.tail.tail.head hsub.tail.tail.tail.head, ← resbind_assoc]
    rw [far_pushes hr]
    rfl
  obtain ⟨e1, e2, _⟩ := pushed_map2 (s := s) [s.sreg .cs, s.ip + BitVec.ofNat 16 len]
  exact main.jumps (t := calledFar s (s.ip + BitVec.ofNat 16 len) (le16 c d) (le16 a b)) hat e1 e2 rfl rfl hnz

/-- C28 violated: and a direct far JMP. -/
theorem C28_violated_jmpf32_exact {s : State} {h0 : Nat} {p : Pfx} {a b c d : BitVec 8} {len : Nat} (hat : At s h0 p [0xEA, a, b, c, d] len)
    (env : Env) : Jumps env s (le16 a b) (s.setSreg .cs (le16 c d)) := by
  have : Runs env s h0 p [0xEA, a, b, c, d] len
      { ({ s.setSreg .cs (le16 c d) with ip := le16 a b } : State) with dec := decJ p len, instrNum := s.instrNum + 1 } := by
    refine .mk ⟨.base .jmpF, 0, false⟩ 0 (by decide) (by decide +kernel) rfl ?_
    intro bytes j hc hj hsub
    obtain rfl : j + 4 = len := hj
    simp only [callFn, opFn, opJmpF, bind_apply, fetch16 hc env p j hsub.head hsub.tail.head, resbind_ok,
      fetch16 hc env p (j + 2) hsub.tail.tail.head hsub.tail.tail.tail.head]
    rfl
  exact this.jumps (t := { s.setSreg .cs (le16 c d) with ip := le16 a b }) hat rfl rfl rfl rfl (notZeroed_same hat (by decide) rfl)

/-- 66 E8, 66 E9, 66 9A, 66 EA. -/
example : ∃ (s : State) (p : Pfx), At s 0x10100 p [0xE8, 0, 1] 4 ∧ p.oper = true ∧ Room s 1 ∧ NotZeroed (pushed s (s.ip + 4)) 0x10100 4 :=
  ⟨demo [0x66, 0xE8, 0, 1], { oper := true }, ⟨demo_ready _, [0x66], rfl, by decide +kernel, rfl⟩, rfl, (demo_flat _).room.mono (by decide), notZeroed_of_len (by decide)⟩
example : ∃ (s : State) (p : Pfx), At s 0x10100 p [0xE9, 0, 1] 4 ∧ p.oper = true :=
  ⟨demo [0x66, 0xE9, 0, 1], { oper := true }, ⟨demo_ready _, [0x66], rfl, by decide +kernel, rfl⟩, rfl⟩
example : ∃ (s : State) (p : Pfx), At s 0x10100 p [0x9A, 0, 1, 0, 2] 6 ∧ p.oper = true ∧ Room s 2 ∧
    NotZeroed (pushedAll s [s.sreg .cs, s.ip + 6]) 0x10100 6 :=
  ⟨demo [0x66, 0x9A, 0, 1, 0, 2], { oper := true }, ⟨demo_ready _, [0x66], rfl, by decide +kernel, rfl⟩, rfl, (demo_flat _).room.mono (by decide), notZeroed_of_len (by decide)⟩
example : ∃ (s : State) (p : Pfx), At s 0x10100 p [0xEA, 0, 1, 0, 2] 6 ∧ p.oper = true :=
  ⟨demo [0x66, 0xEA, 0, 1, 0, 2], { oper := true }, ⟨demo_ready _, [0x66], rfl, by decide +kernel, rfl⟩, rfl⟩

/-- C28: CALL r/m16 (FF /2) in every case: the operand is read from the state in which the return address has already been pushed. -/
theorem C28_call_rm_exact {s : State} {h0 : Nat} {p : Pfx} {rmb : List (BitVec 8)} {o : Opnd} {len : Nat} {ip : BitVec 16}
    (hat : At s h0 p (0xFF :: rmb) len) (ho : p.oper = false) (h : RM s p 16 rmb 2 o) (hp : Plain s p 16 rmb) (hok : o.Ok s 16) (hr : Room s 1)
    (hv' : o.Has (pushed s (s.ip + BitVec.ofNat 16 len)) 16 ip) (env : Env)
    (hnz : NotZeroed (pushed s (s.ip + BitVec.ofNat 16 len)) h0 len) :
    StepsTo env s { calledNear s (s.ip + BitVec.ofNat 16 len) ip with instrNum := s.instrNum + 1 } := by
  obtain ⟨a, hm⟩ := hr.first
  have : Runs env s h0 p (0xFF :: rmb) len
      { calledNear s (s.ip + BitVec.ofNat 16 len) ip with dec := decJ p len, instrNum := s.instrNum + 1 } := by
    refine .mk ⟨.base .unaryMX, 0, true⟩ 2 (by decide) (by decide +kernel) (h.param' _ rfl) ?_
    intro bytes j hc hj hsub
    subst hj
    simp only [callFn, opFn]
    rw [(opUnaryMX_at ho).1]
    simp only [bind_apply, parseModRMX_rm hc env (by decide) h hp hok hsub, resbind_ok]
    rw [pushM_op (x := s.ip + BitVec.ofNat 16 (j + rmb.length)) hm rfl, resbind_ok]
    have hl : locOf s o = locOf (pushed s (s.ip + BitVec.ofNat 16 (j + rmb.length))) o := by
      cases o with
      | mem a b => simp only [locOf, hostAddr, pushed_map]
      | _ => rfl
    have hok' := hv'.ok h.no_imm
    rw [hl]
    have hag : Agree (pushed s (s.ip + BitVec.ofNat 16 (j + rmb.length)))
        { pushed s (s.ip + BitVec.ofNat 16 (j + rmb.length)) with dec := decOf p (j + rmb.length), instrNum := s.instrNum + 1 } := ⟨rfl, rfl, rfl, rfl⟩
    rw [readLoc_has hag env (by decide) hok' hv', resbind_ok]
    rfl
  exact this.jumps (t := calledNear s (s.ip + BitVec.ofNat 16 len) ip) hat (pushed_map ..) (pushed_valid ..) rfl rfl hnz

/-- C28 violated, for every state: CALL SP goes to SP-2. -/
theorem C28_violated_call_sp_exact {s : State} {h0 : Nat} {p : Pfx} {len : Nat} (hat : At s h0 p [0xFF, 0xD4] len) (ho : p.oper = false)
    (hr : Room s 1) (env : Env) (hnz : NotZeroed (pushed s (s.ip + BitVec.ofNat 16 len)) h0 len) :
    StepsTo env s { calledNear s (s.ip + BitVec.ofNat 16 len) (spOf s - 2) with instrNum := s.instrNum + 1 } := by
  have h := RM.reg (s := s) (p := p) (n := 16) 0xD4 (by decide)
  refine C28_call_rm_exact (o := .reg 4) hat ho h (fun h => absurd (by decide) h) trivial hr ?_ env hnz
  exact (spOf_pushed s _).symm

/-- CALL SP. -/
example : ∃ s : State, At s 0x10100 {} [0xFF, 0xD4] 2 ∧ Room s 1 ∧ NotZeroed (pushed s (s.ip + 2)) 0x10100 2 :=
  ⟨demo [0xFF, 0xD4], ⟨demo_ready _, [], rfl, by decide +kernel, rfl⟩, (demo_flat _).room.mono (by decide), fun _ => by decide +kernel⟩

/-- C28 violated, for every state: CALL, CALL far, JMP, JMP far through r/m with an operand-size prefix are refused as undefined and change nothing. -/
theorem C28_violated_indirect32 {s : State} {h0 : Nat} {p : Pfx} {m : BitVec 8} {rest : List (BitVec 8)} {len : Nat} (hat : At s h0 p (0xFF :: m :: rest) len)
    (ho : p.oper = true) (hm : regOf m = 2 ∨ regOf m = 3 ∨ regOf m = 4 ∨ regOf m = 5) (env : Env) :
    ∃ d, runOne env s = .err .undefOpcode { s with instrNum := s.instrNum + 1, dec := d } := by
  obtain ⟨hr, pfx, hp, hc, hlen⟩ := hat
  refine ⟨decOf p (pfx.length + 1), ?_⟩
  have ha : paramOf ⟨.base .unaryMX, 0, true⟩ (m :: rest)[0]? = some (regOf m) := by
    simp [paramOf]
    exact ofByte_rrr m
  refine runOne_code_err hr hc env hp (by decide) (e := ⟨.base .unaryMX, 0, true⟩) (by decide +kernel) ha _ _ ?_ (by decide) (by decide)
  have hd : (opState s p (pfx.length + 1)).dec.ovrOper = true := ho
  simp only [callFn, opFn, opUnaryMX]
  rw [bind_apply, getDec_apply, resbind_ok, if_pos hd]
  rcases hm with h | h | h | h <;> rw [h] <;> rfl

/-- 66 FF 17: CALL DWORD [BX]. -/
example : ∃ (s : State) (p : Pfx), At s 0x10100 p [0xFF, 0x17] 3 ∧ p.oper = true ∧ regOf 0x17 = 2 :=
  ⟨demo [0x66, 0xFF, 0x17], { oper := true }, ⟨demo_ready _, [0x66], rfl, by decide +kernel, rfl⟩, rfl, by decide⟩

/-! ### C29 -/

/-- C29 violated, for every state: ENTER size,1 builds the frame of ENTER size,0 (SP is 2 higher than it should be). -/
theorem C29_violated_enter1_exact {s t : State} {h0 : Nat} {p : Pfx} {len : Nat} {lo hi lv : BitVec 8} (hat : At s h0 p [0xC8, lo, hi, lv] len)
    (ho : p.oper = false) (hl : lv.toNat % 32 = 1) (h : Entered s (le16 lo hi) 0 t) (hr : Room s 1) (env : Env) :
    Falls env s len t := by
  have hlen : len ≠ 2 := by
    obtain ⟨_, _, _, _, h⟩ := hat
    simp at h; omega
  obtain ⟨vs, _, hf⟩ := entered_frame h
  obtain ⟨e1, e2, e3⟩ := pushed_map2 (s := s) (bpOf s :: vs)
  refine (enter_runs ho env (by omega) h hr).falls hat ?_ ?_ ?_ rfl rfl (notZeroed_of_len hlen)
  · rw [hf]; exact e3
  · rw [hf]; exact e1
  · rw [hf]; exact e2

/-- ENTER 10h,1 -/
example : ∃ s t, At s 0x10100 {} [0xC8, 0x10, 0, 1] 4 ∧ Entered s (le16 0x10 0) 0 t ∧ Room s 1 :=
  ⟨demo [0xC8, 0x10, 0, 1], _, ⟨demo_ready _, [], rfl, by decide +kernel, rfl⟩, .flat, (demo_flat _).room.mono (by decide)⟩

/-- C29 violated, for every state: LEAVE with an operand-size prefix only sets SP to BP. -/
theorem C29_violated_leave32_exact {s : State} {h0 : Nat} {p : Pfx} {len : Nat} (hat : At s h0 p [0xC9] len) (ho : p.oper = true) (env : Env) :
    Falls env s len (withSP s (bpOf s)) := by
  refine one_falls hat env (by decide) (by decide) (o := .leave) (a := 0) (by decide +kernel) _ ?_ rfl rfl rfl rfl
  have hd : (withSP (opState s p len) (bpOf s)).dec.ovrOper = true := ho
  simp only [opFn, opLeave, bind_apply, getReg_apply, resbind_ok, setReg_apply, getDec_apply, ite_apply]
  show (if (withSP (opState s p len) (bpOf s)).dec.ovrOper = true then _ else popReg rBP env (withSP (opState s p len) (bpOf s))) = _
  rw [if_pos hd]
  rfl

/-- 66 LEAVE -/
example : ∃ (s : State) (p : Pfx), At s 0x10100 p [0xC9] 2 ∧ p.oper = true ∧ bpOf s ≠ spOf s :=
  ⟨demo [0x66, 0xC9], { oper := true }, ⟨demo_ready _, [0x66], rfl, by decide +kernel, rfl⟩, rfl, by decide +kernel⟩

/-! ### C52 -/

/-- What SHLD/SHRD take for the register numbered `i`: for 4–7 the `n` bits that begin at the second byte of register `i - 4` (and run on
into the next register). -/
def oddReg (s : State) (n : Nat) (i : BitVec 3) : BitVec n :=
  if i.toNat < 4 then (s.gpr i).setWidth n else ((s.gpr (i - 3) ++ s.gpr (i - 4)) >>> 8).setWidth n

/-- Storing there. -/
def putOddReg (s : State) (n : Nat) (i : BitVec 3) (v : BitVec n) : State :=
  if i.toNat < 4 then (Opnd.reg i).put s n v else
    let both : BitVec 64 := s.gpr (i - 3) ++ s.gpr (i - 4)
    let new : BitVec 64 := (both.extractLsb' (8 + n) (56 - n) ++ v ++ both.extractLsb' 0 8).setWidth 64
    { s with gpr := fun r => if r = i - 4 then new.setWidth 32 else if r = i - 3 then (new >>> 32).setWidth 32 else s.gpr r }

theorem readLoc_odd (s : State) (p : Pfx) (k n : Nat) (i : BitVec 3) (env : Env) :
    readLoc n (regB i) env (opState s p k) = .ok (oddReg s n i) (opState s p k) := by
  unfold regB oddReg
  by_cases h : i.toNat < 4
  · rw [if_neg (by omega), if_pos h]; rfl
  · rw [if_pos (by omega), if_neg h]
    have : i - 4 + 1 = i - 3 := by revert i; decide
    simp only [readLoc, gets_apply, State.regH, State.pair, this]
    rfl

theorem putByte1_app {n : Nat} (hn : n ≤ 32) (g : BitVec 64) (v : BitVec n) :
    putByte1 n g v = (g.extractLsb' (8 + n) (56 - n) ++ v ++ g.extractLsb' 0 8).setWidth 64 := by
  apply BitVec.eq_of_getLsbD_eq
  intro i hi
  simp only [putByte1, BitVec.getLsbD_or, BitVec.getLsbD_and, BitVec.getLsbD_not, BitVec.getLsbD_shiftLeft, BitVec.getLsbD_setWidth,
    BitVec.getLsbD_append, BitVec.getLsbD_extractLsb', BitVec.getLsbD_allOnes]
  by_cases h1 : i < 8
  · simp [h1, hi]
  · by_cases h2 : i - 8 < n
    · simp [h1, h2, hi, show i - 8 < 64 by omega]
    · have h3 : 8 + n + (i - 8 - n) = i := by omega
      have h4 : i - 8 - n < 56 - n := by omega
      have h5 : v.getLsbD (i - 8) = false := BitVec.getLsbD_of_ge _ _ (by omega)
      simp [h1, h2, hi, h3, h4, h5]

theorem writeLoc_odd (s : State) (n : Nat) (hn : n ≤ 32) (i : BitVec 3) (v : BitVec n) (env : Env) :
    writeLoc n (regB i) v env s = .ok () (putOddReg s n i v) := by
  unfold regB putOddReg
  by_cases h : i.toNat < 4
  · rw [if_neg (by omega), if_pos h]; rfl
  · rw [if_pos (by omega), if_neg h]
    have e : i - 4 + 1 = i - 3 := by revert i; decide
    have e2 : i - 3 ≠ i - 4 := by revert i; decide
    simp only [writeLoc, modify_apply, State.setRegH, State.pair, e, putByte1_app hn]
    refine congrArg (Res.ok ()) ?_
    refine State.ext' ?_ rfl rfl rfl rfl rfl rfl rfl rfl rfl rfl rfl rfl
    funext r
    simp only [State.setGpr]
    by_cases h1 : r = i - 4
    · rw [if_neg (by rw [h1]; exact e2.symm), if_pos h1, if_pos h1]
    · by_cases h2 : r = i - 3
      · simp only [h1, h2, e2, if_true, if_false]
      · simp only [h1, h2, if_false]

/-- Destination of SHLD/SHRD as the code takes it: a register number or a memory operand. -/
def oddVal (s : State) (n : Nat) (o : Opnd) (x : BitVec n) : Prop :=
  match o with
  | .reg i => x = oddReg s n i
  | o => o.Has s n x
def putOdd (s : State) (n : Nat) (o : Opnd) (x : BitVec n) : State :=
  match o with
  | .reg i => putOddReg s n i x
  | o => o.put s n x

/-- The code shifts by the count byte itself, and where it shifts too far in the host's arithmetic the behaviour is undefined. -/
def ShxdBad (right : Bool) (n c d : Nat) : Prop := 32 ≤ c ∨ n < c ∨ (right = false ∧ n < 32 ∧ 2 ^ 31 ≤ d * 2 ^ c)

/-- The location the instruction writes. -/
def oddLoc (s : State) : Opnd → Loc
  | .reg i => regB i
  | o => locOf s o

theorem shxd_odd_run {s : State} {h0 : Nat} {p : Pfx} {code rm : List (BitVec 8)} {len : Nat} {right : Bool} {r : BitVec 3} {o : Opnd} {c : BitVec 8}
    (hat : At s h0 p code len) (henc : ShxdEnc s p right code rm r o c) (hpl : Plain s p 8 rm) (env : Env) (hok : o.Ok s (opW p)) :
    ∃ op rest, code = 0x0F :: op :: rest ∧ ∀ bytes j, CodeAt s h0 bytes → len = j + (op :: rest).length → Sub bytes j (op :: rest) →
      ext0F env (opState s p j) = shxdApply right (regB r) (oddLoc s o) c env (opState s p len) := by
  have key : ∀ {rm : List (BitVec 8)}, RM s p (opW p) rm r o → Plain s p 8 rm → ∀ {bytes : List (BitVec 8)} {j : Nat}, CodeAt s h0 bytes → Sub bytes j rm →
      parseModRM env (opState s p j) = .ok (regB r, oddLoc s o) (opState s p (j + rm.length)) := by
    intro rm h hpl bytes j hc hs
    rcases h.elim with ⟨m, hm, rfl, rfl, rfl⟩ | ⟨seg, ofs, rfl⟩
    · have := parseModRM_rm hc env (RM.reg (s := s) (p := p) (n := 8) m hm) hpl (by
        rw [regOp_8, byteReg]; split
        · trivial
        · rfl) hs
      rw [this, regOp_8, regOp_8, ← regB_eq, ← regB_eq, regOp_wide (opW_ne8 p)]
      rfl
    · have := parseModRM_rm hc env (h.to8 (fun i h => by cases h)) hpl hok.to8 hs
      rw [this, regOp_8, ← regB_eq]
      rfl
  cases henc with
  | imm c h =>
    refine ⟨_, _, rfl, fun bytes j hc hj hsub => ?_⟩
    have hpm := key h hpl hc hsub.tail.left
    have hi : bytes[j + 1 + rm.length]? = some c := hsub.tail.right.head
    have e : j + 1 + rm.length + 1 = len := by rw [hj]; simp; omega
    cases right
    · rw [ext0F_run hc env p hsub.head (o := .shxdI8 false) (a := 0) (b := false) (by decide)]
      simp only [opFn, opShxdI8, bind_apply, hpm, resbind_ok, fetch8 hc env p _ hi, e]
    · rw [ext0F_run hc env p hsub.head (o := .shxdI8 true) (a := 0) (b := false) (by decide)]
      simp only [opFn, opShxdI8, bind_apply, hpm, resbind_ok, fetch8 hc env p _ hi, e]
  | cl h =>
    refine ⟨_, _, rfl, fun bytes j hc hj hsub => ?_⟩
    have hpm := key h hpl hc hsub.tail
    have e : j + 1 + rm.length = len := by rw [hj]; simp; omega
    cases right
    · rw [ext0F_run hc env p hsub.head (o := .shxdCl false) (a := 0) (b := false) (by decide)]
      simp only [opFn, opShxdCl, bind_apply, hpm, resbind_ok, getReg_apply, e]
      rfl
    · rw [ext0F_run hc env p hsub.head (o := .shxdCl true) (a := 0) (b := false) (by decide)]
      simp only [opFn, opShxdCl, bind_apply, hpm, resbind_ok, getReg_apply, e]
      rfl

/-- C52, every case: SHLD/SHRD with count byte `c` on the operand `o` (register of any number or memory) and source register `r` (any): nothing
happens for `c = 0`; the host program has no defined behaviour for a count that is too large; otherwise the double shift is computed as specified, but on what the code takes
for registers 4–7 (`oddReg`). -/
theorem C52_exact {s : State} {h0 : Nat} {p : Pfx} {code rm : List (BitVec 8)} {len : Nat} {right : Bool} {r : BitVec 3} {o : Opnd}
    {c : BitVec 8} {a : BitVec (opW p)} (hat : At s h0 p code len) (henc : ShxdEnc s p right code rm r o c) (hpl : Plain s p 8 rm) (env : Env)
    (hok : o.Ok s (opW p)) (ha : oddVal s (opW p) o a) :
    (c.toNat = 0 → Falls env s len s) ∧
    (c.toNat ≠ 0 → ShxdBad right (opW p) c.toNat a.toNat → runOne env s = .ub .shiftRange) ∧
    (c.toNat ≠ 0 → ¬ ShxdBad right (opW p) c.toNat a.toNat → ∃ v f', ShxdSpec right a (oddReg s (opW p) r) c.toNat s.flags v f' ∧
      Falls env s len { putOdd s (opW p) o v with flags := f' }) := by
  obtain ⟨op, rest, hcode, hrun⟩ := shxd_odd_run hat henc hpl env hok
  have hw := opW_ok p
  have hno : ∀ v, o ≠ .imm v := by
    cases henc with
    | imm c h => exact h.no_imm
    | cl h => exact h.no_imm
  have hnh : ∀ i, o ≠ .high i := by
    rintro i rfl
    have := opW_ne8 p
    exact this hok
  have hlen : len ≠ 2 := by
    obtain ⟨_, pfx, _, _, hl⟩ := hat
    rw [hl]
    cases henc with
    | imm c h =>
      obtain ⟨m, tl, rfl, _⟩ := h.head
      simp; omega
    | cl h =>
      obtain ⟨m, tl, rfl, _⟩ := h.head
      simp; omega
  have hf : (opState s p len).flags = s.flags := rfl
  have hrd : readLoc (opW p) (oddLoc s o) env (opState s p len) = .ok a (opState s p len) := by
    cases o with
    | reg i => rw [show a = oddReg s _ i from ha]; exact readLoc_odd ..
    | high i => exact absurd rfl (hnh i)
    | imm v => exact absurd rfl (hno v)
    | mem x y => exact readLoc_has (Agree.op s p _) env hw hok ha
  have hwr : ∀ v, writeLoc (opW p) (oddLoc s o) v env (opState s p len) =
      .ok () { putOdd s (opW p) o v with dec := decOf p len, instrNum := s.instrNum + 1 } := by
    intro v
    cases o with
    | reg i =>
      refine (writeLoc_odd (opState s p len) _ (by omega) i v env).trans ?_
      refine congrArg (Res.ok ()) ?_
      simp only [putOdd, putOddReg]
      split <;> rfl
    | high i => exact absurd rfl (hnh i)
    | imm v => exact absurd rfl (hno v)
    | mem x y => 
      refine (writeLoc_put (s := s) (t := opState s p _) rfl rfl env hok v).trans ?_
      rw [put_op]; rfl
  have happly : ∀ env', env' = env → shxdApply right (regB r) (oddLoc s o) c env' (opState s p len) =
      if c = 0 then .ok () (opState s p len) else
      match (if right then shShrd a (oddReg s (opW p) r) c.toNat s.flags else shShld a (oddReg s (opW p) r) c.toNat s.flags) with
      | .ok x => .ok () { ({ putOdd s (opW p) o x.1 with flags := x.2 } : State) with dec := decOf p len, instrNum := s.instrNum + 1 }
      | .error u => .ub u := by
    rintro env' rfl
    simp only [shxdApply, withW_op (p := p) _ _ (opState _ _ _) rfl, ite_apply]
    split
    · rfl
    simp only [bind_apply, hrd, readLoc_odd, resbind_ok, getFlags_apply, hf]
    cases h : (if right then shShrd a (oddReg s (opW p) r) c.toNat s.flags else shShld a (oddReg s (opW p) r) c.toNat s.flags) with
    | ok x => simp only [liftUB_ok, pure_apply, resbind_ok, hwr, setFlags_apply]
    | error u => simp only [liftUB_error, ubE_apply, resbind_ub]
  subst hcode
  refine ⟨fun h0' => ?_, fun h0' hbad => ?_, fun h0' hgood => ?_⟩
  · have hc0 : c = 0 := BitVec.eq_of_toNat_eq (by simpa using h0')
    refine step_falls hat env (by decide) (e := ⟨.ext0F, 0, false⟩) (a := 0) (by decide) rfl _ (decOf p len) ?_ rfl rfl rfl rfl rfl
      (notZeroed_same hat (by decide) rfl)
    intro bytes j hc hj hsub
    simp only [callFn]
    rw [hrun bytes j hc hj.symm hsub, happly env rfl, if_pos hc0]
    rfl
  · have hc0 : c ≠ 0 := by rintro rfl; exact h0' rfl
    refine runOne_code_ub hat env (by decide) (e := ⟨.ext0F, 0, false⟩) (a := 0) (by decide) rfl _ ?_
    intro bytes j hc hj hsub
    simp only [callFn]
    rw [hrun bytes j hc hj.symm hsub, happly env rfl, if_neg hc0]
    have : (if right then shShrd a (oddReg s (opW p) r) c.toNat s.flags else shShld a (oddReg s (opW p) r) c.toNat s.flags) = .error .shiftRange := by
      cases right
      · simp only [shShld, Bool.false_eq_true, if_false]
        rw [if_pos]
        rcases hbad with h | h | ⟨_, h1, h2⟩
        · exact Or.inl h
        · exact Or.inr (Or.inl h)
        · exact Or.inr (Or.inr ⟨h1, h2⟩)
      · simp only [shShrd, if_true]
        rw [if_pos]
        rcases hbad with h | h | ⟨h, _⟩
        · exact Or.inl h
        · exact Or.inr h
        · cases h
    rw [this]
  · have hc0 : c ≠ 0 := by rintro rfl; exact h0' rfl
    have hval : ∃ v f', (if right then shShrd a (oddReg s (opW p) r) c.toNat s.flags
        else shShld a (oddReg s (opW p) r) c.toNat s.flags) = .ok (v, f') ∧
        ShxdSpec right a (oddReg s (opW p) r) c.toNat s.flags v f' := by
      have h1 : c.toNat ≤ opW p := Nat.le_of_not_lt fun h => hgood (Or.inr (Or.inl h))
      have h2 : c.toNat < 32 := Nat.lt_of_not_le fun h => hgood (Or.inl h)
      cases right with
      | true => exact shrd_spec (by omega) _ _ _ (by omega) h1 h2 _
      | false => exact shld_spec (by omega) _ _ _ (by omega) h1 h2 (fun h => hgood (Or.inr (Or.inr ⟨rfl, h.1, h.2⟩))) _
    obtain ⟨v, f', h1, h2⟩ := hval
    refine ⟨v, f', h2, ?_⟩
    have hkeep : (putOdd s (opW p) o v).ip = s.ip ∧ (putOdd s (opW p) o v).map = s.map ∧ (putOdd s (opW p) o v).valid = s.valid := by
      cases o with
      | reg i => simp only [putOdd, putOddReg]; split <;> exact ⟨rfl, rfl, rfl⟩
      | _ => exact ⟨put_ip .., put_map .., put_valid ..⟩
    refine step_falls hat env (by decide) (e := ⟨.ext0F, 0, false⟩) (a := 0) (by decide) rfl _ (decOf p len) ?_ hkeep.1 hkeep.2.1 hkeep.2.2 rfl rfl
      (fun h => absurd h hlen)
    intro bytes j hc hj hsub
    simp only [callFn]
    rw [hrun bytes j hc hj.symm hsub, happly env rfl, if_neg hc0, h1]

/-- SHLD SP,AX,4; SHRD [BX+4],DI,5; SHLD AX,DX,20 (undefined). -/
example : ∃ (s : State) (code rm : List (BitVec 8)) (r : BitVec 3) (c : BitVec 8), At s 0x10100 {} code 4 ∧ ShxdEnc s {} false code rm r (.reg 4) c ∧
    Plain s {} 8 rm ∧ oddVal s 16 (.reg 4) (0x2200 : BitVec 16) ∧ c.toNat ≠ 0 ∧ ¬ ShxdBad false 16 c.toNat 0x2200 :=
  ⟨demo [0x0F, 0xA4, 0xC4, 0x04], _, [0xC4], 0, 4, demo_at _ (by decide), ShxdEnc.imm 4 (RM.reg (p := {}) (n := 16) 0xC4 (by decide)),
    fun h => absurd (by decide) h, by show _ = oddReg _ _ _; decide +kernel, by decide, by unfold ShxdBad; decide⟩
example : ∃ (s : State) (code rm : List (BitVec 8)) (o : Opnd) (c : BitVec 8) (a : BitVec 16), At s 0x10100 {} code 5 ∧ ShxdEnc s {} true code rm 7 o c ∧
    Plain s {} 8 rm ∧ oddVal s 16 o a ∧ c.toNat ≠ 0 ∧ ¬ ShxdBad true 16 c.toNat a.toNat := by
  obtain ⟨a, ha⟩ := demo_mem_has [0x0F, 0xAC, 0x7F, 0x04, 0x05] 16 (by decide) 0x3000 0x14
  exact ⟨demo [0x0F, 0xAC, 0x7F, 0x04, 0x05], _, _, _, 5, a, demo_at _ (by decide), ShxdEnc.imm 5 (RM.mem 0x7F [0x04] (by decide) rfl (by decide)),
    fun _ => ⟨by decide +kernel, by decide, by decide +kernel⟩, ha, by decide, by unfold ShxdBad; simp⟩
example : ∃ (s : State) (code rm : List (BitVec 8)) (r : BitVec 3) (c : BitVec 8) (a : BitVec 16), At s 0x10100 {} code 4 ∧
    ShxdEnc s {} false code rm r (.reg 0) c ∧ Plain s {} 8 rm ∧ oddVal s 16 (.reg 0) a ∧ ShxdBad false 16 c.toNat a.toNat :=
  ⟨demo [0x0F, 0xA4, 0xD0, 0x14], _, [0xD0], 2, 0x14, _, demo_at _ (by decide), ShxdEnc.imm 0x14 (RM.reg (p := {}) (n := 16) 0xD0 (by decide)),
    fun h => absurd (by decide) h, rfl, Or.inr (Or.inl (by decide))⟩

end RME
