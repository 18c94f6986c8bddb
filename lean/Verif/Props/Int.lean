import Verif.Props.Enter
set_option autoImplicit false
/-
C09 RME_CallInt, C10 INT/IRET, C11/C12 high level emulation.
-/
namespace RME

/-- The vector of interrupt `n` is the HLE trampoline B800:n. -/
def HleVector (s : State) (n : BitVec 8) : Prop := Vector s n 0xB800 (n.setWidth 16)

theorem vec_apart (n : BitVec 8) {cs ip : BitVec 16} (h : ¬ (cs = 0xB800 ∧ ip = n.setWidth 16)) :
    ¬ (cs = HLE_CS ∧ ip = n.setWidth 16) := h

/-- The three pushes and the jump of `_CallInterrupt`. -/
theorem callInterrupt_ok {s : State} {env : Env} {p : Pfx} {j : Nat} {n : BitVec 8} {cs ip : BitVec 16} (hv : Vector s n cs ip)
    (hz : ¬ (cs = 0 ∧ ip = 0)) (hh : ¬ (cs = 0xB800 ∧ ip = n.setWidth 16)) (hr : Room s 3) :
    callInterrupt n env (opState s p j) = .ok () { interrupted s (s.ip + BitVec.ofNat 16 j) cs ip with dec := decJ p j, instrNum := s.instrNum + 1 } := by
  have hg : (ip == 0 && cs == 0) = false := by
    rw [Bool.and_eq_false_iff]
    by_cases h : ip = 0
    · right; rw [beq_eq_false_iff_ne]; exact fun h' => hz ⟨h', h⟩
    · left; rw [beq_eq_false_iff_ne]; exact h
  simp only [callInterrupt, bind_apply]
  rw [readMem_like hv.1 (t := opState s p j) (by decide) rfl rfl rfl, resbind_ok, readMem_like hv.2 (t := opState s p j) (by decide) rfl rfl rfl, resbind_ok]
  rw [hg, guardE_false, resbind_ok]
  simp only [ite_apply]
  rw [if_neg hh]
  simp only [bind_apply]
  have hx : Room (opState s p j) 3 := hr.congr rfl rfl rfl rfl
  refine Eq.trans ?_ (congrArg (Res.ok ()) (show ({ interrupted (opState s p j) (s.ip + BitVec.ofNat 16 j) cs ip with
      dec := decJ p j } : State) = { interrupted s (s.ip + BitVec.ofNat 16 j) cs ip with
      dec := decJ p j
      instrNum := s.instrNum + 1 } by
    rw [show interrupted (opState s p j) (s.ip + BitVec.ofNat 16 j) cs ip = _ from interrupted_op s (decOf p j) (s.instrNum + 1) _ cs ip]))
  have hdec : (opState s p j).dec = decOf p j := rfl
  have hip : (opState s p j).ip = s.ip := rfl
  generalize opState s p j = x at *
  obtain ⟨a1, h1⟩ := hx.first
  have hr2 := hx.pushed x.flags
  obtain ⟨a2, h2⟩ := hr2.first
  have hr3 := hr2.pushed (x.sreg .cs)
  obtain ⟨a3, h3⟩ := hr3.first
  rw [pushM_ok (x := x.flags) h1 rfl, resbind_ok]
  rw [pushM_ok (x := x.sreg .cs) h2 (by simp only [getSreg_apply]; rw [withSP_sreg, pushed_sreg]), resbind_ok]
  rw [pushM_ok (x := s.ip + BitVec.ofNat 16 j) h3 (by
    simp only [nextIP_apply, withSP_ip, withSP_dec, pushed_ip, pushed_dec, hdec, hip]; rfl), resbind_ok]
  simp only [setIP_apply, setSreg_apply, resbind_ok, getFlags_apply, setFlags_apply, setDontChangeIP_apply]
  refine congrArg (Res.ok ()) ?_
  have e1 : (pushed (pushed (pushed x x.flags) (x.sreg .cs)) (s.ip + BitVec.ofNat 16 j)).dec = decOf p j := by
    rw [pushed_dec, pushed_dec, pushed_dec, hdec]
  have e2 : (pushed (pushed (pushed x x.flags) (x.sreg .cs)) (s.ip + BitVec.ofNat 16 j)).flags = x.flags := by
    rw [pushed_flags, pushed_flags, pushed_flags]
  simp only [interrupted, pushedAll, State.setSreg, e1, e2]
  rfl

theorem int_runs {s : State} {h0 : Nat} {p : Pfx} {code : List (BitVec 8)} {len : Nat} {n : BitVec 8} (henc : IntEnc s code n) (env : Env) {s1 : State}
    (h : callInterrupt n env (opState s p len) = .ok () s1) : Runs env s h0 p code len s1 := by
  cases henc with
  | int3 =>
    refine .mk ⟨.base .int3, 0, false⟩ 0 (by decide) (by decide +kernel) rfl ?_
    intro bytes j hc hj hsub
    obtain rfl : j = len := hj
    exact h
  | int n =>
    refine .mk ⟨.base .intI, 0, false⟩ 0 (by decide) (by decide +kernel) rfl ?_
    intro bytes j hc hj hsub
    obtain rfl : j + 1 = len := hj
    simp only [callFn, opFn, opIntI, bind_apply, fetch8 hc env p j hsub.head, resbind_ok]
    exact h
  | into hof =>
    refine .mk ⟨.base .into, 0, false⟩ 0 (by decide) (by decide +kernel) rfl ?_
    intro bytes j hc hj hsub
    obtain rfl : j = len := hj
    simp only [callFn, opFn, opInto, bind_apply, getFlags_apply, resbind_ok, ite_apply]
    rw [if_pos (by rw [tst_OF]; exact hof)]
    exact h

theorem interrupted_frame (s : State) (ret cs ip : BitVec 16) : (interrupted s ret cs ip).map = s.map ∧ (interrupted s ret cs ip).valid = s.valid ∧
    (interrupted s ret cs ip).host = (pushedAll s [s.flags, s.sreg .cs, ret]).host := by
  obtain ⟨e1, e2, _⟩ := pushed_map2 (s := s) [s.flags, s.sreg .cs, ret]
  exact ⟨e1, e2, rfl⟩

/-- C10: INT n, INT 3 and INTO (with OF set) push FLAGS, CS and the address of the next instruction, clear IF and TF only, and continue at
the vector. -/
theorem C10_int {s : State} {h0 : Nat} {p : Pfx} {code : List (BitVec 8)} {len : Nat} {n : BitVec 8} {cs ip : BitVec 16} (hat : At s h0 p code len)
    (henc : IntEnc s code n) (hv : Vector s n cs ip) (hz : ¬ (cs = 0 ∧ ip = 0)) (hh : ¬ (cs = 0xB800 ∧ ip = n.setWidth 16)) (hr : Room s 3) (env : Env)
    (hnz : NotZeroed (pushedAll s [s.flags, s.sreg .cs, s.ip + BitVec.ofNat 16 len]) h0 len) :
    Jumps env s ip (interrupted s (s.ip + BitVec.ofNat 16 len) cs ip) := by
  obtain ⟨e1, e2, _⟩ := interrupted_frame s (s.ip + BitVec.ofNat 16 len) cs ip
  exact (int_runs (h0 := h0) henc env (callInterrupt_ok (p := p) hv hz hh hr)).jumps (t := interrupted s (s.ip + BitVec.ofNat 16 len) cs ip) hat e1 e2 rfl rfl hnz

/-- C10: INTO with OF clear does nothing. -/
theorem C10_into_clear {s : State} {h0 : Nat} {p : Pfx} {len : Nat} (hat : At s h0 p [0xCE] len) (hof : s.flags.getLsbD bOF = false) (env : Env) :
    Falls env s len s := by
  refine one_falls hat env (by decide) (by decide) (o := .into) (a := 0) (by decide +kernel) _ ?_ rfl rfl rfl rfl
  simp only [opFn, opInto, bind_apply, getFlags_apply, resbind_ok, ite_apply]
  rw [if_neg (by rw [tst_OF]; show ¬ (s.flags.getLsbD bOF = true); simp [hof])]
  rfl

/-- A null vector (0000:0000) is reported as BADMEM and nothing observable happens. -/
theorem C10_null_vector {s : State} {h0 : Nat} {p : Pfx} {len : Nat} {n : BitVec 8} (hat : At s h0 p [0xCD, n] len)
    (hv : Vector s n 0 0) (env : Env) : ∃ d, runOne env s = .err .badmem { s with dec := d, instrNum := s.instrNum + 1 } := by
  obtain ⟨hready, pfx, hp, hc, hlen⟩ := hat
  have hsub : Sub (pfx ++ [0xCD, n]) (pfx.length + 1) [n] := (Sub.of_append pfx _).tail
  refine ⟨decOf p (pfx.length + 2), ?_⟩
  refine runOne_code_err (e := ⟨.base .intI, 0, false⟩) (a := 0) hready hc env hp (by decide) (by decide +kernel) rfl .badmem _ ?_ (by decide) (by decide)
  simp only [callFn, opFn, opIntI, bind_apply, fetch8 hc env p _ hsub.head, resbind_ok, callInterrupt]
  rw [readMem_like hv.1 (t := opState s p _) (by decide) rfl rfl rfl, resbind_ok, readMem_like hv.2 (t := opState s p _) (by decide) rfl rfl rfl, resbind_ok]
  rfl

/-- IRET at the level of the opcode function. -/
theorem iret_run {s : State} {env : Env} {cs ip f : BitVec 16} (h1 : StackTop s 0 ip) (h2 : StackTop s 1 cs) (h3 : StackTop s 2 f) :
    opIret env s = .ok () { (dropped s 3).setSreg .cs cs with ip := ip, flags := f, dec := { s.dec with dontChangeIP := true } } := by
  have step : ∀ (t : State) (k : Nat) (v : BitVec 16), t.map = s.map → t.valid = s.valid → t.host = s.host → t.sreg .ss = s.sreg .ss →
      spOf t = spOf s + BitVec.ofNat 16 (2 * k) → StackTop s k v → StackTop t 0 v := by
    intro t k v a b c d e h
    simp only [StackTop, d, e]
    simp only [Nat.mul_zero, BitVec.ofNat_eq_ofNat, BitVec.add_zero]
    exact readMem_at (by decide) h a b c
  have e1 : spOf (dropped s 1) = spOf s + BitVec.ofNat 16 (2 * 1) := spOf_dropped s 1
  simp only [opIret, bind_apply, pop_ok h1, resbind_ok, setIP_apply]
  have t2 : StackTop { dropped s 1 with ip := ip } 0 cs := step _ 1 _ rfl rfl rfl rfl e1 h2
  rw [pop_ok t2, resbind_ok]
  simp only [setSreg_apply, resbind_ok]
  have e2 : ∀ x : State, spOf x = spOf s + BitVec.ofNat 16 (2 * 1) → spOf (dropped x 1) = spOf s + BitVec.ofNat 16 (2 * 2) := by
    intro x hx
    rw [spOf_dropped, hx, BitVec.add_assoc, ← BitVec.ofNat_add]
  have t3 : StackTop ((dropped { dropped s 1 with ip := ip } 1).setSreg .cs cs) 0 f := step _ 2 _ rfl rfl rfl rfl (e2 { dropped s 1 with ip := ip } e1) h3
  rw [pop_ok t3, resbind_ok]
  simp only [setFlags_apply, resbind_ok, setDontChangeIP_apply]
  refine congrArg (Res.ok ()) ?_
  have ee : dropped (dropped (dropped s 1) 1) 1 = dropped s 3 := by
    simp only [dropped, spOf_withSP, withSP_withSP, BitVec.add_assoc, ← BitVec.ofNat_add]
  have hg : (dropped ((dropped { dropped s 1 with ip := ip } 1).setSreg .cs cs) 1).gpr = (dropped s 3).gpr := by
    rw [← ee]; rfl
  exact State.ext' hg rfl rfl rfl rfl rfl rfl rfl rfl rfl rfl rfl rfl

/-- C10: IRET pops IP, CS and FLAGS. -/
theorem C10_iret {s : State} {h0 : Nat} {p : Pfx} {len : Nat} {cs ip f : BitVec 16} (hat : At s h0 p [0xCF] len)
    (h1 : StackTop s 0 ip) (h2 : StackTop s 1 cs) (h3 : StackTop s 2 f) (env : Env) :
    Jumps env s ip { (dropped s 3).setSreg .cs cs with flags := f } := by
  have : Runs env s h0 p [0xCF] len { ({ (dropped s 3).setSreg .cs cs with ip := ip, flags := f } : State) with dec := decJ p len, instrNum := s.instrNum + 1 } := by
    refine .mk ⟨.base .iret, 0, false⟩ 0 (by decide) (by decide +kernel) rfl ?_
    intro bytes j hc hj hsub
    obtain rfl : j = len := hj
    simp only [callFn, opFn]
    exact iret_run (s := opState s p j) (top_scr h1 rfl rfl rfl rfl rfl) (top_scr h2 rfl rfl rfl rfl rfl) (top_scr h3 rfl rfl rfl rfl rfl)
  exact this.jumps (t := { (dropped s 3).setSreg .cs cs with ip := ip, flags := f }) hat rfl rfl rfl rfl (notZeroed_same hat (by decide) rfl)

theorem interrupted_top {s : State} (hr : Room s 3) (ret cs ip : BitVec 16) : StackTop (interrupted s ret cs ip) 0 ret ∧
    StackTop (interrupted s ret cs ip) 1 (s.sreg .cs) ∧ StackTop (interrupted s ret cs ip) 2 s.flags := by
  have htop := pushedAll_top [s.flags, s.sreg .cs, ret] hr (by simp)
  exact ⟨top_scr (htop 0 (by simp)) rfl rfl rfl rfl rfl, top_scr (htop 1 (by simp)) rfl rfl rfl rfl rfl, top_scr (htop 2 (by simp)) rfl rfl rfl rfl rfl⟩

theorem spOf_interrupted (s : State) (ret cs ip : BitVec 16) : spOf (interrupted s ret cs ip) = spOf s - 6 := spOf_pushedAll s [s.flags, s.sreg .cs, ret]

/-- C10: an IRET executed with the stack as the INT left it restores FLAGS, CS and SP and continues behind the INT. -/
theorem C10_int_iret {s t u : State} {h0 h1 : Nat} {p p2 : Pfx} {code : List (BitVec 8)} {len len2 : Nat} {n : BitVec 8} {cs ip : BitVec 16} {env : Env}
    (hat : At s h0 p code len)
    (henc : IntEnc s code n) (hv : Vector s n cs ip) (hz : ¬ (cs = 0 ∧ ip = 0)) (hh : ¬ (cs = 0xB800 ∧ ip = n.setWidth 16)) (hr : Room s 3)
    (hnz : NotZeroed (pushedAll s [s.flags, s.sreg .cs, s.ip + BitVec.ofNat 16 len]) h0 len) (ht : runOne env s = .ok () t)
    (hu : SameStack t u 3) (hat2 : At u h1 p2 [0xCF] len2) :
    t.ip = ip ∧ t.sreg .cs = cs ∧ t.flags = clearIT s.flags ∧
    ∃ w, runOne env u = .ok () w ∧ w.ip = s.ip + BitVec.ofNat 16 len ∧ w.sreg .cs = s.sreg .cs ∧ w.flags = s.flags ∧ spOf w = spOf s ∧ w.host = u.host := by
  obtain ⟨d, hd⟩ := C10_int hat henc hv hz hh hr env hnz
  rw [hd] at ht
  cases ht
  refine ⟨rfl, rfl, rfl, ?_⟩
  obtain ⟨i1, i2, i3⟩ := interrupted_top hr (s.ip + BitVec.ofNat 16 len) cs ip
  have k1 := hu.words 0 (by decide) _ (top_scr i1 rfl rfl rfl rfl rfl)
  have k2 := hu.words 1 (by decide) _ (top_scr i2 rfl rfl rfl rfl rfl)
  have k3 := hu.words 2 (by decide) _ (top_scr i3 rfl rfl rfl rfl rfl)
  obtain ⟨d2, hd2⟩ := C10_iret hat2 k1 k2 k3 env
  refine ⟨_, hd2, rfl, rfl, rfl, ?_, rfl⟩
  have e1 : spOf u = spOf (interrupted s (s.ip + BitVec.ofNat 16 len) cs ip) := hu.sp
  show spOf (dropped u 3) = _
  rw [spOf_dropped, e1, spOf_interrupted]
  exact BitVec.sub_add_cancel ..

end RME
