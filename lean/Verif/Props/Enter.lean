import Verif.Props.Call2
set_option autoImplicit false
/-
C29 ENTER / LEAVE.
-/
namespace RME

theorem withBP_eq (s : State) (v : BitVec 16) : withBP s v = s.setReg 16 rBP v := rfl

theorem spOf_withBP (s : State) (v : BitVec 16) : spOf (withBP s v) = spOf s := spOf_put_reg s (by decide) v
theorem bpOf_withBP (s : State) (v : BitVec 16) : bpOf (withBP s v) = v := reg16_setReg_same s rBP v
theorem withBP_withBP (s : State) (v w : BitVec 16) : withBP (withBP s v) w = withBP s w := by
  refine State.ext' ?_ rfl rfl rfl rfl rfl rfl rfl rfl rfl rfl rfl rfl
  funext x
  simp only [withBP_eq, gpr_setReg]
  split <;> simp [putLow_putLow]
theorem withBP_self (s : State) : withBP s (bpOf s) = s := setReg_self s 16 rBP
theorem withSP_withBP (s : State) (v w : BitVec 16) : withSP (withBP s v) w = withBP (withSP s w) v := by
  refine State.ext' ?_ rfl rfl rfl rfl rfl rfl rfl rfl rfl rfl rfl rfl
  funext x
  simp only [withBP_eq, withSP_eq, gpr_setReg]
  by_cases h : x = rSP
  · subst h; rfl
  · simp only [if_neg h, if_neg (show ¬ (rBP = rSP) by decide)]

/-- Pushing does not look at BP. -/
theorem pushed_withBP (s : State) (v w : BitVec 16) : pushed (withBP s w) v = withBP (pushed s v) w := by
  have e : spOf (withBP s w) = spOf s := spOf_withBP s w
  have hh : ∀ a b, hostAddr (withSP (withBP s w) (spOf s - 2)) a b = hostAddr s a b := fun _ _ => rfl
  have hh2 : ∀ a b, hostAddr (withSP s (spOf s - 2)) a b = hostAddr s a b := fun _ _ => rfl
  simp only [pushed, Opnd.put, e, hh, hh2]
  show (match hostAddr s (s.sreg .ss) (spOf s - 2) with | some h => _ | none => _) = withBP (match hostAddr s (s.sreg .ss) (spOf s - 2) with | some h => _ | none => _) w
  cases hostAddr s (s.sreg .ss) (spOf s - 2) with
  | none => exact withSP_withBP s w _
  | some h =>
    simp only []
    rw [withSP_withBP]
    rfl

theorem bv2 : (2 : BitVec 16).toNat = 2 := rfl

theorem sub2 (sp : BitVec 16) (k : Nat) : sp - 2 - BitVec.ofNat 16 (2 * k) = sp - BitVec.ofNat 16 (2 * (k + 1)) := by
  apply BitVec.eq_of_toNat_eq
  simp only [BitVec.toNat_sub, BitVec.toNat_ofNat, bv2]
  omega

theorem enterLoop_ok {env : Env} : ∀ (k : Nat) (bp : BitVec 16) (s t : State), CopyDisplay k bp s t → Room s k → s.dec.ovrOper = false →
    enterLoop k env (withBP s bp) = .ok () (withBP t (bp - BitVec.ofNat 16 (2 * k))) ∧ t.dec = s.dec ∧ spOf t = spOf s - BitVec.ofNat 16 (2 * k) := by
  intro k
  induction k with
  | zero =>
    intro bp s t h _ _
    cases h
    simp only [enterLoop, pure_apply]
    exact ⟨by simp, by simp⟩
  | succ k ih =>
    intro bp s t h hr hd
    cases h with
    | @succ _ _ _ v _ h r =>
      have hd' : (withBP s bp).dec.ovrOper = false := hd
      simp only [enterLoop, bind_apply, getDec_apply, resbind_ok, hd', guardE_false, getReg_apply, setReg_apply, getSreg_apply]
      have e1 : (withBP s bp).reg 16 rBP = bp := bpOf_withBP s bp
      rw [e1]
      have e2 : (withBP s bp).setReg 16 rBP (bp - 2) = withBP s (bp - 2) := withBP_withBP s bp (bp - 2)
      rw [e2]
      have e3 : (withBP s (bp - 2)).reg 16 rBP = bp - 2 := bpOf_withBP s _
      rw [e3]
      have hv : Holds (withBP s (bp - 2)) (s.sreg .ss) (bp - 2) v := readMem_at (by decide) h rfl rfl rfl
      rw [show (withBP s (bp - 2)).sreg .ss = s.sreg .ss from rfl, readMem_holds (by decide) env hv, resbind_ok]
      obtain ⟨a, ha⟩ := hr.first
      have ha' : Mapped (withBP s (bp - 2)) 16 ((withBP s (bp - 2)).sreg .ss) (spOf (withBP s (bp - 2)) - 2) a := by
        rw [spOf_withBP]; exact ha
      rw [push_ok ha', resbind_ok, pushed_withBP]
      obtain ⟨i1, i2, i3⟩ := ih (bp - 2) (pushed s v) t r (hr.pushed v) (by rw [pushed_dec]; exact hd)
      refine ⟨?_, by rw [i2, pushed_dec], ?_⟩
      · rw [i1, sub2]
      · rw [i3, spOf_pushed, sub2]

theorem copyDisplay_frame {k : Nat} {bp : BitVec 16} {s t : State} (h : CopyDisplay k bp s t) :
    ∃ vs : List (BitVec 16), vs.length = k ∧ t = pushedAll s vs := by
  induction h with
  | zero bp s => exact ⟨[], rfl, rfl⟩
  | @succ k bp s v t h r ih =>
    obtain ⟨vs, h1, h2⟩ := ih
    exact ⟨v :: vs, by simp [h1], h2⟩

theorem CopyDisplay.op {k : Nat} {bp : BitVec 16} {s t : State} (h : CopyDisplay k bp s t) (d : Decoder) (i : Int) :
    CopyDisplay k bp { s with dec := d, instrNum := i } { t with dec := d, instrNum := i } := by
  induction h with
  | zero bp s => exact .zero _ _
  | @succ k bp s v t h r ih =>
    refine .succ (v := v) (readMem_at (by decide) h rfl rfl rfl) ?_
    rw [pushed_op]; exact ih

/-- ENTER at the level of the opcode function, for the levels at which it follows the manual. -/
theorem enter_run {s t : State} {size : BitVec 16} {level l : Nat} (env : Env) (hd : s.dec.ovrOper = false)
    (hl : l = 0 ∧ level ≤ 1 ∨ l = level ∧ 1 < level)
    (h : Entered s size l t) (hr : Room s (l + 1)) :
    ((pushM (getReg 16 rBP) env s).bind fun _ s1 => (getReg 16 rSP env s1).bind fun frameTemp s2 =>
      ((if level > 1 then do
          enterLoop (level - 1)
          let d ← getDec
          if d.ovrOper then pure () else push frameTemp
         else pure () : M Unit) env s2).bind fun _ s3 =>
      (setReg 16 rBP frameTemp env s3).bind fun _ s4 => (getReg 16 rSP env s4).bind fun sp s5 => setReg 16 rSP (sp - size) env s5) =
    .ok () t := by
  obtain ⟨a, ha⟩ := hr.first
  have hbp : (withSP s (spOf s - 2)).reg 16 rBP = bpOf s := by
    simp only [State.reg, bpOf]
    rw [withSP_gpr_ne s _ (by decide)]
  rw [pushM_ok (x := bpOf s) ha (by rw [getReg_apply, hbp]), resbind_ok, getReg_apply, resbind_ok]
  have hsp : (pushed s (bpOf s)).reg 16 rSP = spOf s - 2 := spOf_pushed ..
  rw [hsp]
  cases h with
  | flat =>
    rw [if_neg (by omega), pure_apply, resbind_ok, setReg_apply, resbind_ok, getReg_apply, resbind_ok, setReg_apply]
    have : ((pushed s (bpOf s)).setReg 16 rBP (spOf s - 2)).reg 16 rSP = spOf s - 2 := by
      have := spOf_withBP (pushed s (bpOf s)) (spOf s - 2)
      rw [spOf_pushed] at this
      exact this
    rw [this]
    rfl
  | @nested k t h =>
    obtain rfl : level = k + 1 := by omega
    rw [if_pos (by omega)]
    simp only [bind_apply, Nat.add_sub_cancel]
    have hb : pushed s (bpOf s) = withBP (pushed s (bpOf s)) (bpOf s) := by
      conv => lhs; rw [← withBP_self (pushed s (bpOf s))]
      congr 1
      simp only [bpOf]
      rw [pushed_gpr_ne s _ (by decide)]
    have hr1 := hr.pushed (bpOf s)
    obtain ⟨i1, i2, i3⟩ := enterLoop_ok (env := env) k (bpOf s) (pushed s (bpOf s)) t h (hr1.mono (by omega)) (by rw [pushed_dec]; exact hd)
    rw [← hb] at i1
    rw [i1, resbind_ok, getDec_apply, resbind_ok]
    rw [if_neg (by
      show ¬ (t.dec.ovrOper = true)
      rw [i2, pushed_dec, hd]; decide)]
    obtain ⟨vs, hvl, hvs⟩ := copyDisplay_frame h
    have hmap : ∃ b, Mapped t 16 (t.sreg .ss) (spOf t - 2) b := by
      obtain ⟨b, hb⟩ := hr.mapped (k + 1) (by omega)
      refine ⟨b, ?_⟩
      have e1 : t.sreg .ss = s.sreg .ss := by
        rw [hvs, (pushedAll_frame (pushed s (bpOf s)) vs).1, pushed_sreg]
      rw [e1, i3, spOf_pushed]
      have e2 : spOf s - 2 - BitVec.ofNat 16 (2 * k) - 2 = spOf s - BitVec.ofNat 16 (2 * (k + 1 + 1)) := by
        apply BitVec.eq_of_toNat_eq
        simp only [BitVec.toNat_sub, BitVec.toNat_ofNat, bv2]
        omega
      rw [e2]
      refine hb.congr ?_ ?_
      · rw [hvs, (pushed_map2 (s := pushed s (bpOf s)) vs).1, pushed_map]
      · rw [hvs, (pushed_map2 (s := pushed s (bpOf s)) vs).2.1, pushed_valid]
    obtain ⟨b, hb2⟩ := hmap
    have hb3 : Mapped (withBP t (bpOf s - BitVec.ofNat 16 (2 * k))) 16 ((withBP t (bpOf s - BitVec.ofNat 16 (2 * k))).sreg .ss)
        (spOf (withBP t (bpOf s - BitVec.ofNat 16 (2 * k))) - 2) b := by
      rw [spOf_withBP]; exact hb2
    rw [push_ok hb3, resbind_ok, pushed_withBP, setReg_apply, resbind_ok, getReg_apply, resbind_ok, setReg_apply]
    have e5 : (withBP (pushed t (spOf s - 2)) (bpOf s - BitVec.ofNat 16 (2 * k))).setReg 16 rBP (spOf s - 2) = withBP (pushed t (spOf s - 2)) (spOf s - 2) :=
      withBP_withBP ..
    rw [e5]
    have e6 : (withBP (pushed t (spOf s - 2)) (spOf s - 2)).reg 16 rSP = spOf t - 2 := by
      have := spOf_withBP (pushed t (spOf s - 2)) (spOf s - 2)
      rw [spOf_pushed] at this
      exact this
    rw [e6]
    rfl

theorem Entered.op {s t : State} {size : BitVec 16} {l : Nat} (h : Entered s size l t) (d : Decoder) (i : Int) :
    Entered { s with dec := d, instrNum := i } size l { t with dec := d, instrNum := i } := by
  cases h with
  | flat =>
    have := Entered.flat (s := { s with dec := d, instrNum := i }) (size := size)
    rw [show bpOf { s with dec := d, instrNum := i } = bpOf s from rfl, pushed_op] at this
    exact this
  | @nested k t h =>
    have hc := h.op d i
    rw [← pushed_op] at hc
    have := Entered.nested (s := { s with dec := d, instrNum := i }) (size := size) hc
    rw [pushed_op] at this
    exact this

theorem entered_frame {s t : State} {size : BitVec 16} {l : Nat} (h : Entered s size l t) :
    ∃ vs : List (BitVec 16), vs.length = l ∧ t = withSP (withBP (pushedAll s (bpOf s :: vs)) (spOf s - 2)) (spOf s - 2 - BitVec.ofNat 16 (2 * l) - size) := by
  cases h with
  | flat => exact ⟨[], rfl, by simp [pushedAll]⟩
  | @nested k t h =>
    obtain ⟨vs, h1, h2⟩ := copyDisplay_frame h
    refine ⟨vs ++ [spOf s - 2], by simp [h1], ?_⟩
    have e : ∀ (ws : List (BitVec 16)) (x : State) (w : BitVec 16), pushedAll x (ws ++ [w]) = pushed (pushedAll x ws) w := by
      intro ws
      induction ws with
      | nil => intro x w; rfl
      | cons a ws ih => intro x w; exact ih _ _
    have e2 : spOf t - 2 = spOf s - 2 - BitVec.ofNat 16 (2 * (k + 1)) := by
      rw [h2, spOf_pushedAll, h1, spOf_pushed]
      apply BitVec.eq_of_toNat_eq
      simp only [BitVec.toNat_sub, BitVec.toNat_ofNat, bv2]
      omega
    rw [e2]
    show _ = withSP (withBP (pushedAll (pushed s (bpOf s)) (vs ++ [spOf s - 2])) _) _
    rw [e, ← h2]

theorem enter_runs {s t : State} {h0 : Nat} {p : Pfx} {len l : Nat} {lo hi lv : BitVec 8} (ho : p.oper = false) (env : Env)
    (hl : l = 0 ∧ lv.toNat % 32 ≤ 1 ∨ l = lv.toNat % 32 ∧ 1 < lv.toNat % 32)
    (h : Entered s (le16 lo hi) l t) (hr : Room s (l + 1)) :
    Runs env s h0 p [0xC8, lo, hi, lv] len { t with dec := decOf p len, instrNum := s.instrNum + 1 } := by
  refine .mk ⟨.base .enter, 0, false⟩ 0 (by decide) (by decide +kernel) rfl ?_
  intro bytes j hc hj hsub
  obtain rfl : j + 3 = len := hj
  have hlv : (lv &&& 31).toNat = lv.toNat % 32 := by
    have : ∀ b : BitVec 8, (b &&& 31).toNat = b.toNat % 32 := by decide +kernel
    exact this lv
  simp only [callFn, opFn, opEnter, bind_apply, fetch16 hc env p j hsub.head hsub.tail.head, resbind_ok,
    fetch8 hc env p (j + 2) hsub.tail.tail.head, hlv]
  exact enter_run env ho hl (h.op _ _) (hr.congr rfl rfl rfl rfl)

/-- C29: ENTER size,level builds the documented frame.  Missing: level 1, where the new frame pointer is not pushed
(`C29_violated_enter1`). -/
theorem C29_enter_partial {s t : State} {h0 : Nat} {p : Pfx} {len : Nat} {lo hi lv : BitVec 8} (hat : At s h0 p [0xC8, lo, hi, lv] len)
    (ho : p.oper = false) (hl : lv.toNat % 32 ≠ 1) (h : Entered s (le16 lo hi) (lv.toNat % 32) t) (hr : Room s (lv.toNat % 32 + 1)) (env : Env) :
    Falls env s len t := by
  have hlen : len ≠ 2 := by
    obtain ⟨_, _, _, _, h⟩ := hat
    simp at h; omega
  obtain ⟨vs, _, hf⟩ := entered_frame h
  obtain ⟨e1, e2, e3⟩ := pushed_map2 (s := s) (bpOf s :: vs)
  refine (enter_runs ho env (by omega) h hr).falls hat ?_ ?_ ?_ rfl rfl (notZeroed_of_len hlen)
  · rw [hf]; exact e3
  · rw [hf]; exact e1
  · rw [hf]; exact e2

/-- C29: LEAVE sets SP to BP and pops BP. -/
theorem C29_leave {s : State} {h0 : Nat} {p : Pfx} {len : Nat} {v : BitVec 16} (hat : At s h0 p [0xC9] len) (ho : p.oper = false)
    (hv : Holds s (s.sreg .ss) (bpOf s) v) (env : Env) : Falls env s len (withBP (withSP s (bpOf s + 2)) v) := by
  refine one_falls hat env (by decide) (by decide) (o := .leave) (a := 0) (by decide +kernel) _ ?_ rfl rfl rfl rfl
  have hd : ¬ ((withSP (opState s p len) (bpOf s)).dec.ovrOper = true) := by
    show ¬ (p.oper = true); simp [ho]
  have htop : StackTop (withSP (opState s p len) (bpOf s)) 0 v := by
    show Holds _ (s.sreg .ss) (spOf (withSP (opState s p len) (bpOf s)) + BitVec.ofNat 16 (2 * 0)) v
    rw [spOf_withSP]
    simp only [Nat.mul_zero, BitVec.ofNat_eq_ofNat, BitVec.add_zero]
    exact readMem_at (by decide) hv rfl rfl rfl
  simp only [opFn, opLeave, bind_apply, getReg_apply, resbind_ok, setReg_apply, getDec_apply, ite_apply]
  show (if (withSP (opState s p len) (bpOf s)).dec.ovrOper = true then _ else popReg rBP env (withSP (opState s p len) (bpOf s))) = _
  rw [if_neg hd, popReg_step htop]
  refine congrArg (Res.ok ()) ?_
  have e := withSP_withSP (opState s p len) (bpOf s) (bpOf s + 2)
  have e2 : dropped (withSP (opState s p len) (bpOf s)) 1 = withSP (opState s p len) (bpOf s + 2) := by
    rw [← e]
    simp only [dropped, spOf_withSP]
    rfl
  rw [e2]
  rfl

/-- C29: a LEAVE executed with SS, BP and the saved BP word as an ENTER (any size, any level) left them restores SP and BP. -/
theorem C29_enter_leave {s t u : State} {h0 h1 : Nat} {p p2 : Pfx} {len len2 : Nat} {lo hi lv : BitVec 8} {env : Env}
    (hat : At s h0 p [0xC8, lo, hi, lv] len) (ho : p.oper = false) {l : Nat} {f : State}
    (hl : l = if lv.toNat % 32 = 1 then 0 else lv.toNat % 32) (h : Entered s (le16 lo hi) l f) (hr : Room s (l + 1))
    (ht : runOne env s = .ok () t)
    (hss : u.sreg .ss = t.sreg .ss) (hbp : bpOf u = bpOf t) (hw : ∀ v : BitVec 16, Holds t (t.sreg .ss) (bpOf t) v → Holds u (t.sreg .ss) (bpOf t) v)
    (hat2 : At u h1 p2 [0xC9] len2) (ho2 : p2.oper = false) :
    ∃ w, runOne env u = .ok () w ∧ spOf w = spOf s ∧ bpOf w = bpOf s ∧ w.sreg = u.sreg ∧ w.ip = u.ip + BitVec.ofNat 16 len2 := by
  obtain ⟨vs, hvl, hf⟩ := entered_frame h
  obtain ⟨e1, e2, e3⟩ := pushed_map2 (s := s) (bpOf s :: vs)
  have m1 : f.map = s.map := by rw [hf]; exact e1
  have m2 : f.valid = s.valid := by rw [hf]; exact e2
  obtain ⟨b, hb⟩ := (enter_runs (len := len) (h0 := h0) ho env (by split at hl <;> omega) h hr).any hat m1 m2 rfl ht
  have hbt : bpOf t = spOf s - 2 := by
    have : bpOf t = bpOf f := by rw [hb]; rfl
    rw [this, hf, withSP_withBP, bpOf_withBP]
  have hsst : t.sreg .ss = s.sreg .ss := by
    rw [hb]
    show f.sreg .ss = _
    rw [hf]
    exact congrFun (pushedAll_frame s (bpOf s :: vs)).1 _
  have hold : Holds t (t.sreg .ss) (bpOf t) (bpOf s) := by
    have := pushedAll_top (bpOf s :: vs) hr (by simp [hvl]) l (by simp [hvl])
    simp only [StackTop, spOf_pushedAll] at this
    rw [hsst, hbt]
    have e4 : spOf s - BitVec.ofNat 16 (2 * (bpOf s :: vs).length) + BitVec.ofNat 16 (2 * l) = spOf s - 2 := by
      apply BitVec.eq_of_toNat_eq
      simp only [BitVec.toNat_sub, BitVec.toNat_add, BitVec.toNat_ofNat, bv2, List.length_cons, hvl]
      omega
    rw [e4] at this
    have e5 : (bpOf s :: vs)[(bpOf s :: vs).length - 1 - l]'(by simp; omega) = bpOf s := by
      simp [hvl]
    rw [e5] at this
    rw [show (pushedAll s (bpOf s :: vs)).sreg .ss = s.sreg .ss from congrFun (pushedAll_frame s (bpOf s :: vs)).1 _] at this
    refine readMem_at (by decide) this ?_ ?_ ?_
    · rw [hb]; exact m1.trans e1.symm
    · rw [hb]; exact m2.trans e2.symm
    · rw [hb]
      show f.host = _
      rw [hf]
      rfl
  have := hw _ hold
  rw [← hss, ← hbp] at this
  obtain ⟨d, hd⟩ := C29_leave hat2 ho2 this env
  refine ⟨_, hd, ?_, ?_, rfl, rfl⟩
  · show spOf (withBP (withSP u (bpOf u + 2)) (bpOf s)) = _
    rw [spOf_withBP, spOf_withSP, hbp, hbt, BitVec.sub_add_cancel]
  · show bpOf (withBP (withSP u (bpOf u + 2)) (bpOf s)) = _
    rw [bpOf_withBP]

/-! ### Examples and witnesses -/

/-- ENTER 16,2 -/
example : ∃ s t, At s 0x10100 {} [0xC8, 16, 0, 2] 4 ∧ Entered s (le16 16 0) ((2 : BitVec 8).toNat % 32) t ∧ Room s ((2 : BitVec 8).toNat % 32 + 1) :=
  ⟨demo [0xC8, 16, 0, 2], _, ⟨demo_ready _, [], rfl, demo_code _ (by decide), rfl⟩,
    .nested (k := 1) (.succ (v := 0) ⟨0x207FE, by decide +kernel, by decide +kernel⟩ (.zero _ _)), (demo_flat _).room.mono (by decide)⟩

/-- ENTER 16,1; LEAVE -/
example : ∃ s t f, At s 0x10100 {} [0xC8, 16, 0, 1] 4 ∧ Entered s (le16 16 0) 0 f ∧ Room s 1 ∧ runOne demoEnv s = .ok () t ∧ At t 0x10104 {} [0xC9] 1 :=
  ⟨demo [0xC8, 16, 0, 1, 0xC9], _, _, ⟨demo_ready _, [], rfl, by decide +kernel, rfl⟩, .flat, (demo_flat _).room.mono (by decide),
    conc_ok (by decide +kernel), ⟨by decide +kernel, [], rfl, by decide +kernel, rfl⟩⟩

example : ∃ s, At s 0x10100 {} [0xC9] 1 ∧ Holds s (s.sreg .ss) (bpOf s) (0 : BitVec 16) :=
  ⟨demo [0xC9], ⟨demo_ready _, [], rfl, demo_code _ (by decide), rfl⟩, ⟨_, demo_mapped _ _ _ _ (by decide), by decide +kernel⟩⟩

/-- Witness (finding): ENTER 0,1 pushes only BP (SP is decremented by 2); the manual's frame has BP and the new frame pointer
(SP decremented by 4). -/
theorem C29_violated_enter1 : ∃ s t f, At s 0x10100 {} [0xC8, 0, 0, 1] 4 ∧ Entered s (le16 0 0) 1 f ∧ runOne demoEnv s = .ok () t ∧
    spOf f = spOf s - 4 ∧ spOf t = spOf s - 2 :=
  ⟨demo [0xC8, 0, 0, 1], _, _, ⟨demo_ready _, [], rfl, by decide +kernel, rfl⟩, .nested (k := 0) (.zero _ _),
    conc_ok (by decide +kernel), by decide +kernel, by decide +kernel⟩

/-- Witness (finding): with an operand-size prefix LEAVE does not pop BP. -/
theorem C29_violated_leave32 : ∃ s t, At s 0x10100 { oper := true } [0xC9] 2 ∧ runOne demoEnv s = .ok () t ∧ spOf t = bpOf s ∧ bpOf t = bpOf s ∧
    Holds s (s.sreg .ss) (bpOf s) (0 : BitVec 16) ∧ bpOf s ≠ 0 :=
  ⟨demo [0x66, 0xC9], _, ⟨demo_ready _, [0x66], rfl, by decide +kernel, rfl⟩, conc_ok (by decide +kernel), by decide +kernel, by decide +kernel,
    ⟨_, demo_mapped _ _ _ _ (by decide), by decide +kernel⟩, by decide +kernel⟩

end RME
