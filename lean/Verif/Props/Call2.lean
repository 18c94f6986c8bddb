import Verif.Props.Call
set_option autoImplicit false
/-
C28: CALL followed by RET; examples and witnesses.
-/
namespace RME

/-- `u` is a later state (say, at the end of a subroutine) with the same stack as `t`: same SS:SP, same memory map, and the top `k` words
of the stack are unchanged. -/
structure SameStack (t u : State) (k : Nat) : Prop where
  ss : u.sreg .ss = t.sreg .ss
  sp : spOf u = spOf t
  words : ∀ i < k, ∀ v, StackTop t i v → StackTop u i v

theorem SameStack.refl (t : State) (k : Nat) : SameStack t t k := ⟨rfl, rfl, fun _ _ _ h => h⟩

theorem top_scr {s : State} {i : Nat} {v : BitVec 16} (h : StackTop s i v) {t : State} (hg : t.gpr = s.gpr) (hss : t.sreg .ss = s.sreg .ss)
    (hm : t.map = s.map) (hv : t.valid = s.valid) (hh : t.host = s.host) : StackTop t i v := by
  simp only [StackTop, spOf, hg, hss]
  exact readMem_at (by decide) h hm hv hh

/-- C28: a RET (or RET n) executed with the stack as the CALL left it returns behind the CALL and restores SP (plus n). -/
theorem C28_call_ret {s t u : State} {h0 h1 : Nat} {p p2 : Pfx} {code code2 : List (BitVec 8)} {len len2 : Nat} {ip k : BitVec 16} {env : Env}
    (hat : At s h0 p code len) (ho : p.oper = false) (henc : CallEnc s p len code ip) (hr : Room s 1)
    (hnz : NotZeroed (pushed s (s.ip + BitVec.ofNat 16 len)) h0 len) (ht : runOne env s = .ok () t)
    (hu : SameStack t u 1) (hat2 : At u h1 p2 code2 len2) (hret : RetEnc code2 k) :
    t.ip = ip ∧ t.sreg = s.sreg ∧ ∃ w, runOne env u = .ok () w ∧ w.ip = s.ip + BitVec.ofNat 16 len ∧ spOf w = spOf s + k ∧ w.sreg = u.sreg := by
  obtain ⟨d, hd⟩ := C28_call_near_partial hat ho henc hr env hnz
  rw [hd] at ht
  cases ht
  refine ⟨rfl, pushed_sreg .., ?_⟩
  have htop : StackTop (pushed s (s.ip + BitVec.ofNat 16 len)) 0 (s.ip + BitVec.ofNat 16 len) :=
    pushedAll_top [s.ip + BitVec.ofNat 16 len] hr (by simp) 0 (by simp)
  have h2 := hu.words 0 (by decide) _ (top_scr htop rfl rfl rfl rfl rfl)
  obtain ⟨d2, hd2⟩ := C28_ret_near hat2 hret h2 env
  refine ⟨_, hd2, rfl, ?_, rfl⟩
  have e1 : spOf u = spOf (pushed s (s.ip + BitVec.ofNat 16 len)) := hu.sp
  show spOf (withSP u (spOf u + 2 + k)) = _
  rw [spOf_withSP, e1, spOf_pushed, BitVec.sub_add_cancel]

/-- C28: a RETF (or RETF n) executed with the stack as the far CALL left it returns behind the CALL and restores CS and SP (plus n). -/
theorem C28_callf_retf {s t u : State} {h0 h1 : Nat} {p p2 : Pfx} {code code2 : List (BitVec 8)} {len len2 : Nat} {cs ip k : BitVec 16} {env : Env}
    (hat : At s h0 p code len) (ho : p.oper = false) (henc : CallFarEnc s p code cs ip) (hr : Room s 2)
    (hnz : NotZeroed (pushedAll s [s.sreg .cs, s.ip + BitVec.ofNat 16 len]) h0 len) (ht : runOne env s = .ok () t)
    (hu : SameStack t u 2) (hat2 : At u h1 p2 code2 len2) (hret : RetFarEnc code2 k) :
    t.ip = ip ∧ t.sreg .cs = cs ∧ ∃ w, runOne env u = .ok () w ∧ w.ip = s.ip + BitVec.ofNat 16 len ∧ w.sreg .cs = s.sreg .cs ∧ spOf w = spOf s + k := by
  obtain ⟨d, hd⟩ := C28_call_far hat ho henc hr env hnz
  rw [hd] at ht
  cases ht
  refine ⟨rfl, rfl, ?_⟩
  have htop := pushedAll_top [s.sreg .cs, s.ip + BitVec.ofNat 16 len] hr (by simp)
  have h2 := hu.words 0 (by decide) _ (top_scr (htop 0 (by simp)) rfl rfl rfl rfl rfl)
  have h3 := hu.words 1 (by decide) _ (top_scr (htop 1 (by simp)) rfl rfl rfl rfl rfl)
  obtain ⟨d2, hd2⟩ := C28_ret_far hat2 hret h2 h3 env
  refine ⟨_, hd2, rfl, rfl, ?_⟩
  have e1 : spOf u = spOf (pushedAll s [s.sreg .cs, s.ip + BitVec.ofNat 16 len]) := hu.sp
  show spOf (withSP u (spOf u + 4 + k)) = _
  rw [spOf_withSP, e1, spOf_pushedAll]
  exact congrArg (· + k) (BitVec.sub_add_cancel ..)

/-! ### Examples -/

example : ∃ s, At s 0x10100 {} [0xE8, 0xFD, 0xFF] 3 ∧ CallEnc s {} 3 [0xE8, 0xFD, 0xFF] 0x100 ∧ Room s 1 ∧
    NotZeroed (pushed s (s.ip + BitVec.ofNat 16 3)) 0x10100 3 :=
  ⟨demo [0xE8, 0xFD, 0xFF], ⟨demo_ready _, [], rfl, demo_code _ (by decide), rfl⟩, .rel 0xFD 0xFF, (demo_flat _).room.mono (by decide),
    notZeroed_of_len (by decide)⟩

/-- CALL 0103h, where there is a RET 4. -/
example : ∃ s t, At s 0x10100 {} [0xE8, 0x00, 0x00] 3 ∧ runOne demoEnv s = .ok () t ∧ At t 0x10103 {} [0xC2, 4, 0] 3 ∧ SameStack t t 1 :=
  ⟨demo [0xE8, 0x00, 0x00, 0xC2, 4, 0], _, ⟨demo_ready _, [], rfl, by decide +kernel, rfl⟩, conc_ok (by decide +kernel),
    ⟨by decide +kernel, [], rfl, by decide +kernel, rfl⟩, .refl _ _⟩

/-- CALL [BX] (memory at DS:0010 holds 0). -/
example : ∃ s, At s 0x10100 {} [0xFF, 0x17] 2 ∧ CallEnc s {} 2 [0xFF, 0x17] 0 ∧ NotZeroed (pushed s (s.ip + BitVec.ofNat 16 2)) 0x10100 2 :=
  ⟨demo [0xFF, 0x17], ⟨demo_ready _, [], rfl, demo_code _ (by decide), rfl⟩,
    .rm (.mem 0x17 [] (by decide) rfl rfl) (by intro _; exact ⟨by decide +kernel, by decide +kernel, by decide +kernel⟩)
      ⟨0x30010, by decide +kernel, by decide +kernel⟩ ⟨0x30010, by decide +kernel, by decide +kernel⟩, (by unfold NotZeroed; decide +kernel)⟩

/-- CALL FAR [BX+4], CALL 1000:0105 and RETF 2. -/
example : ∃ s, At s 0x10100 {} [0xFF, 0x5F, 4] 3 ∧ CallFarEnc s {} [0xFF, 0x5F, 4] 0 0 ∧ Room s 2 :=
  ⟨demo [0xFF, 0x5F, 4], ⟨demo_ready _, [], rfl, demo_code _ (by decide), rfl⟩,
    .rm (.mem 0x5F [4] (by decide) rfl rfl) (by intro _; exact ⟨by decide +kernel, by decide +kernel, by decide +kernel⟩)
      ⟨0x30014, by decide +kernel, by decide +kernel⟩ ⟨0x30016, by decide +kernel, by decide +kernel⟩, (demo_flat _).room.mono (by decide)⟩
example : ∃ s t, At s 0x10100 {} [0x9A, 5, 1, 0, 0x10] 5 ∧ CallFarEnc s {} [0x9A, 5, 1, 0, 0x10] 0x1000 0x105 ∧ runOne demoEnv s = .ok () t ∧
    At t 0x10105 {} [0xCA, 2, 0] 3 ∧ RetFarEnc [0xCA, 2, 0] 2 :=
  ⟨demo [0x9A, 5, 1, 0, 0x10, 0xCA, 2, 0], _, ⟨demo_ready _, [], rfl, by decide +kernel, rfl⟩, .imm 5 1 0 0x10, conc_ok (by decide +kernel),
    ⟨by decide +kernel, [], rfl, by decide +kernel, rfl⟩, .imm 2 0⟩
example : ∃ s, At s 0x10100 {} [0xEB, 0xFE] 2 ∧ JmpEnc s {} 2 [0xEB, 0xFE] 0x100 :=
  ⟨demo [0xEB, 0xFE], ⟨demo_ready _, [], rfl, demo_code _ (by decide), rfl⟩, .short 0xFE⟩
example : ∃ s, At s 0x10100 {} [0xEA, 0, 0, 0, 0xF0] 5 ∧ JmpFarEnc s {} [0xEA, 0, 0, 0, 0xF0] 0xF000 0 :=
  ⟨demo [0xEA, 0, 0, 0, 0xF0], ⟨demo_ready _, [], rfl, demo_code _ (by decide), rfl⟩, .imm 0 0 0 0xF0⟩
example : ∃ s, At s 0x10100 {} [0xC3] 1 ∧ RetEnc [0xC3] 0 ∧ StackTop s 0 0 :=
  ⟨demo [0xC3], ⟨demo_ready _, [], rfl, demo_code _ (by decide), rfl⟩, .ret, ⟨_, demo_mapped _ _ _ _ (by decide), by decide +kernel⟩⟩

/-- Witness (finding): CALL word [BP+SI-2] style operands that are the stack slot about to be written: the target is read after the
return address was pushed, so CALL SS:[BX] with BX = SP-2 = 0FFEh holding 0 goes to the return address 0103h instead of 0. -/
theorem C28_violated_call_mem : ∃ s t, At s 0x10100 { seg := some .ss } [0xFF, 0x17] 3 ∧
    (Opnd.mem (s.sreg .ss) 0xFFE).Has s 16 (0 : BitVec 16) ∧ eaOffset s 0x17 [] = 0xFFE ∧
    runOne demoEnv s = .ok () t ∧ t.ip = 0x103 :=
  ⟨{ demo [0x36, 0xFF, 0x17] with gpr := fun r => if r = 3 then 0xFFE else if r = 4 then 0x1000 else 0 }, _,
    ⟨by decide +kernel, [0x36], rfl, by decide +kernel, rfl⟩, ⟨0x20FFE, by decide +kernel, by decide +kernel⟩, by decide +kernel,
    conc_ok (by decide +kernel), by decide +kernel⟩

/-- Witness (finding): CALL SP (FF D4) goes to SP-2 instead of SP. -/
theorem C28_violated_call_sp : ∃ s t, At s 0x10100 {} [0xFF, 0xD4] 2 ∧ spOf s = 0x1000 ∧ runOne demoEnv s = .ok () t ∧ t.ip = 0xFFE :=
  ⟨demo [0xFF, 0xD4], _, ⟨demo_ready _, [], rfl, by decide +kernel, rfl⟩, by decide +kernel, conc_ok (by decide +kernel), by decide +kernel⟩

/-- Witness (finding): CALL rel32 (66 E8) reads only 16 bits of displacement: the instruction is taken to be 4 bytes long. -/
theorem C28_violated_call32 : ∃ s t, At s 0x10100 { oper := true } [0xE8, 0, 1, 0, 0] 6 ∧ runOne demoEnv s = .ok () t ∧
    t.ip = s.ip + 4 + 0x100 ∧ StackTop t 0 (s.ip + 4) ∧ spOf t = spOf s - 2 :=
  ⟨demo [0x66, 0xE8, 0, 1, 0, 0], _, ⟨demo_ready _, [0x66], rfl, by decide +kernel, rfl⟩, conc_ok (by decide +kernel), by decide +kernel,
    ⟨0x20FFE, by decide +kernel, by decide +kernel⟩, by decide +kernel⟩

end RME
