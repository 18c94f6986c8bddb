import Verif.Props.Int
set_option autoImplicit false
/-
C09 RME_CallInt, C11/C12 high level emulation, examples.
-/
namespace RME

/-! ### C11 -/

theorem callInterrupt_hle {s : State} {env : Env} {p : Pfx} {j : Nat} {n : BitVec 8} (hv : HleVector s n) :
    callInterrupt n env (opState s p j) = runHle n env (opState s p j) := by
  simp only [callInterrupt, bind_apply]
  rw [readMem_like hv.1 (t := opState s p j) (by decide) rfl rfl rfl, resbind_ok, readMem_like hv.2 (t := opState s p j) (by decide) rfl rfl rfl, resbind_ok]
  have hg : (n.setWidth 16 == (0 : BitVec 16) && (0xB800 : BitVec 16) == 0) = false := by
    rw [Bool.and_eq_false_iff]; right; decide
  rw [hg, guardE_false, resbind_ok]
  simp only [ite_apply]
  rw [if_pos (by simp)]

/-- C11: INT n whose vector is B800:n runs the registered callback `f` exactly once, on the state of the machine (the instruction counter
already advanced, IP still at the INT), and continues at the next instruction with the state `f` returned; nothing is pushed and no
flag is changed.  The callback is supposed not to change the memory map or the decoder's scratch data. -/
theorem C11_int_hle {s : State} {h0 : Nat} {p : Pfx} {code : List (BitVec 8)} {len : Nat} {n : BitVec 8} {env : Env} {f : State → State}
    (hat : At s h0 p code len) (henc : IntEnc s code n) (hv : HleVector s n) (hf : env.hle n = some f)
    (hkeep : ∀ x : State, (f x).map = x.map ∧ (f x).valid = x.valid ∧ (f x).dec = x.dec)
    (hnz : ∀ d, NotZeroed (f { s with dec := d, instrNum := s.instrNum + 1 }) h0 len) :
    ∃ d, let t := f { s with dec := d, instrNum := s.instrNum + 1 }
      runOne env s = .ok () { t with ip := t.ip + BitVec.ofNat 16 len, lastNull := false } := by
  refine ⟨decOf p len, ?_⟩
  have hrun : callInterrupt n env (opState s p len) = .ok () (f (opState s p len)) := by
    rw [callInterrupt_hle hv]
    simp only [runHle, hf]
  have hr := int_runs (h0 := h0) henc env hrun
  obtain ⟨k1, k2, k3⟩ := hkeep (opState s p len)
  have hl : (f (opState s p len)).dec.ipOffset = len := by rw [k3]; rfl
  have := hr.out hat k1 k2 hl
  rw [isNull_false hl (hnz _)] at this
  simp only [Bool.false_and, Bool.false_eq_true, if_false] at this
  rw [this]
  have hd : (f (opState s p len)).dec.dontChangeIP = false := by rw [k3]; rfl
  simp only [tailState, hd, hl]
  rfl

/-- C11: without a registered callback, such an INT n does nothing. -/
theorem C11_int_hle_none {s : State} {h0 : Nat} {p : Pfx} {code : List (BitVec 8)} {len : Nat} {n : BitVec 8} {env : Env}
    (hat : At s h0 p code len) (henc : IntEnc s code n) (hv : HleVector s n) (hf : env.hle n = none) : Falls env s len s := by
  have hrun : callInterrupt n env (opState s p len) = .ok () (opState s p len) := by
    rw [callInterrupt_hle hv]
    simp only [runHle, hf]
  have hnz : NotZeroed s h0 len := by
    have h2 := hat
    cases henc with
    | int3 => exact notZeroed_same hat (by decide) rfl
    | int n => exact notZeroed_same hat (by decide) rfl
    | into => exact notZeroed_same hat (by decide) rfl
  exact (int_runs (h0 := h0) henc env hrun).falls (t := s) (d := decOf p len) hat rfl rfl rfl rfl rfl hnz

/-! ### C12 -/

/-- The callback of interrupt `n` (nothing happens if none is registered). -/
def callback (env : Env) (n : BitVec 8) : State → State := (env.hle n).getD id

theorem runHle_callback (env : Env) (n : BitVec 8) (s : State) : runHle n env s = .ok () (callback env n s) := by
  simp only [runHle, callback]
  cases env.hle n <;> rfl

theorem runOne_trampoline {s : State} {env : Env} {n : BitVec 8} (hcs : s.sreg .cs = 0xB800) (hip : s.ip = n.setWidth 16) :
    runOne env s = ignoreErr opIret env (callback env n s) := by
  have hn := n.isLt
  have e1 : s.ip.toNat < 0x100 := by
    rw [hip]; simp; omega
  have e2 : s.ip.setWidth 8 = n := by
    rw [hip]; apply BitVec.eq_of_toNat_eq; simp
  simp only [runOne]
  rw [if_neg (by rw [hcs]; intro h; exact absurd h.2 (by decide)), if_pos ⟨hcs, e1⟩, e2, runHle_callback, resbind_ok]

/-- C12: at CS:IP = B800:n, RME_RunOne runs callback n once (if there is one) and performs an IRET from the stack the callback left. -/
theorem C12_trampoline {s : State} {env : Env} {n : BitVec 8} {cs ip f : BitVec 16} (hcs : s.sreg .cs = 0xB800) (hip : s.ip = n.setWidth 16)
    (h1 : StackTop (callback env n s) 0 ip) (h2 : StackTop (callback env n s) 1 cs) (h3 : StackTop (callback env n s) 2 f) :
    ∃ d, runOne env s = .ok () { (dropped (callback env n s) 3).setSreg .cs cs with ip := ip, flags := f, dec := d } := by
  refine ⟨{ (callback env n s).dec with dontChangeIP := true }, ?_⟩
  rw [runOne_trampoline hcs hip, ignoreErr, iret_run h1 h2 h3]

/-- C12: at CS:IP = B800:n, RME_RunOne never returns an error, whatever the callback did and even if the stack is not mapped. -/
theorem C12_never_fails {s : State} {env : Env} {n : BitVec 8} (hcs : s.sreg .cs = 0xB800) (hip : s.ip = n.setWidth 16) (e : Err) (t : State) :
    runOne env s ≠ .err e t := by
  rw [runOne_trampoline hcs hip, ignoreErr]
  split <;> simp_all

/-! ### C09 -/

/-- Host address `a` is not one of the six bytes below SS:SP. -/
def OffStack (s : State) (a : Nat) : Prop :=
  ∀ i < 3, ∀ h, hostAddr s (s.sreg .ss) (spOf s - BitVec.ofNat 16 (2 * (i + 1))) = some h → ¬ (h ≤ a ∧ a < h + 2)

/-- The machine as `RME_CallInt` starts it: CS:IP = FFFF:FFFF. -/
def atMagic (s : State) : State := { s.setSreg .cs 0xFFFF with ip := 0xFFFF }

theorem pushes_host {s : State} (hr : Room s 3) (a b c : BitVec 16) {x : Nat} (hx : OffStack s x) : (pushedAll s [a, b, c]).host x = s.host x := by
  refine pushedAll_host [a, b, c] hr (by simp) x ?_
  intro i hi h hh
  have := hx i hi h hh
  omega

/-- Memory `n`-bit little endian at a host address off the stack survives the pushes. -/
theorem holds_pushes {s : State} (hr : Room s 3) (a b c : BitVec 16) {n : Nat} {seg ofs : BitVec 16} {v : BitVec n} {h : Nat} (hm : Mapped s n seg ofs h)
    (hh : HostHolds s h v) (hoff : ∀ i < n / 8, OffStack s (h + i)) : Holds (pushedAll s [a, b, c]) seg ofs v := by
  obtain ⟨e1, e2, _⟩ := pushed_map2 (s := s) [a, b, c]
  exact ⟨h, hm.congr e1 e2, fun i hi => by rw [pushes_host hr a b c (hoff i hi)]; exact hh i hi⟩

theorem runOne_magic {env : Env} {s : State} (h1 : s.sreg .cs = 0xFFFF) (h2 : s.ip = 0xFFFF) : runOne env s = .err .fcnRet s := by
  simp only [runOne]
  rw [if_pos ⟨h2, h1⟩]

/-- Start of `RME_CallInt`: FLAGS and FFFF:FFFF are pushed and execution starts at the vector. -/
theorem callInt_start {env : Env} {s : State} {n : BitVec 8} {cs ip : BitVec 16} (hr : Room s 3)
    (hv : Vector (pushedAll (atMagic s) [s.flags, 0xFFFF, 0xFFFF]) n cs ip) (fuel : Nat) :
    rmeCallInt env fuel n.toNat s = rmeCall env fuel (interrupted (atMagic s) 0xFFFF cs ip) := by
  have hr' : Room (atMagic s) 3 := hr.congr rfl rfl rfl rfl
  have := callIntInternal_ok (s := atMagic s) env n hr' (cs := cs) (ip := ip) hv
  simp only [rmeCallInt]
  rw [show ({ s.setSreg .cs MAGIC_CS with ip := MAGIC_IP } : State) = atMagic s from rfl, this]
  rfl

theorem callInt_end {env : Env} {t w : State} (h : runOne env t = .ok () w) (h1 : w.sreg .cs = 0xFFFF) (h2 : w.ip = 0xFFFF) :
    rmeCall env 2 t = some (.ok () w) := by
  simp only [rmeCall, h, runOne_magic h1 h2]

/-- C09: if the vector of `n` (at host address `hv`, off the stack) points at an IRET instruction (at host address `h0`, off the stack),
`RME_CallInt(n)` returns 0; every general register, every segment register other than CS, and FLAGS have their original values, CS:IP
is FFFF:FFFF, and only the six bytes below SS:SP have changed. -/
theorem C09_callint {env : Env} {s : State} {n : BitVec 8} {cs ip : BitVec 16} {h1 h2 h0 : Nat} (hr : Room s 3)
    (hm1 : Mapped s 16 0 (n.setWidth 16 * 4) h1) (hv1 : HostHolds s h1 ip) (ho1 : OffStack s h1 ∧ OffStack s (h1 + 1))
    (hm2 : Mapped s 16 0 (n.setWidth 16 * 4 + 2) h2) (hv2 : HostHolds s h2 cs) (ho2 : OffStack s h2 ∧ OffStack s (h2 + 1))
    (hm : Mapped s 8 cs ip h0) (hv : s.host h0 = 0xCF) (ho : OffStack s h0)
    (hmagic : ¬ (cs = 0xFFFF ∧ ip = 0xFFFF)) (hhle : ¬ (cs = 0xB800 ∧ ip.toNat < 0x100)) (hc : s.instrNum ≠ 2147483647) :
    ∃ w, CallIntReturns env n.toNat s (.ok () w) ∧ w.gpr = s.gpr ∧ (∀ r, r ≠ .cs → w.sreg r = s.sreg r) ∧ w.flags = s.flags ∧
      w.sreg .cs = 0xFFFF ∧ w.ip = 0xFFFF ∧ (∀ a, OffStack s a → w.host a = s.host a) ∧ w.map = s.map ∧ w.valid = s.valid ∧ w.io = s.io := by
  have hr' : Room (atMagic s) 3 := hr.congr rfl rfl rfl rfl
  have hoff : ∀ a, OffStack s a → OffStack (atMagic s) a := fun a h => h
  have hvec : Vector (pushedAll (atMagic s) [s.flags, 0xFFFF, 0xFFFF]) n cs ip := by
    refine ⟨holds_pushes hr' _ _ _ (h := h1) hm1 hv1 ?_, holds_pushes hr' _ _ _ (h := h2) hm2 hv2 ?_⟩
    · intro i hi
      have : i = 0 ∨ i = 1 := by omega
      rcases this with rfl | rfl
      · exact hoff _ ho1.1
      · exact hoff _ ho1.2
    · intro i hi
      have : i = 0 ∨ i = 1 := by omega
      rcases this with rfl | rfl
      · exact hoff _ ho2.1
      · exact hoff _ ho2.2
  obtain ⟨f1, f2, f3⟩ := interrupted_frame (atMagic s) 0xFFFF cs ip
  obtain ⟨i1, i2, i3⟩ := interrupted_top hr' 0xFFFF cs ip
  have hnum : (interrupted (atMagic s) 0xFFFF cs ip).instrNum = s.instrNum := (pushedAll_frame (atMagic s) [s.flags, 0xFFFF, 0xFFFF]).2.2.2.2.2.2.1
  have hat : At (interrupted (atMagic s) 0xFFFF cs ip) h0 {} [0xCF] 1 := by
    refine ⟨⟨fun h => hmagic ⟨h.2, h.1⟩, hhle, by rw [hnum]; exact hc⟩, [], rfl, ?_, rfl⟩
    intro i hi
    have : i = 0 := by simpa using hi
    subst this
    refine ⟨?_, ?_, ?_⟩
    · show hostAddr _ cs (ip + BitVec.ofNat 16 0) = _
      rw [hostAddr_map f1]
      simp only [BitVec.ofNat_eq_ofNat, BitVec.add_zero]
      exact hm.1
    · rw [f2]; exact hm.2 0 (by decide)
    · rw [f3]
      exact (pushes_host hr' _ _ _ (hoff _ ho)).trans hv
  obtain ⟨d, hd⟩ := C10_iret hat i1 i2 i3 env
  refine ⟨_, ⟨2, (callInt_start hr hvec 2).trans (callInt_end hd rfl rfl)⟩, ?_, ?_, rfl, rfl, rfl, ?_, f1, f2, ?_⟩
  · show (dropped (interrupted (atMagic s) 0xFFFF cs ip) 3).gpr = s.gpr
    have e1 : (interrupted (atMagic s) 0xFFFF cs ip).gpr = (withSP s (spOf s - BitVec.ofNat 16 (2 * 3))).gpr := pushedAll_gpr (atMagic s) [s.flags, 0xFFFF, 0xFFFF]
    funext x
    rw [gpr_dropped, spOf_interrupted, e1]
    show (if x = 4 then lowW ((withSP s _).gpr x) (spOf s - 6 + _) else (withSP s _).gpr x) = _
    have : spOf s - 6 + BitVec.ofNat 16 (2 * 3) = spOf s := BitVec.sub_add_cancel ..
    rw [this]
    have e2 : ∀ y, (withSP s (spOf s)).gpr y = s.gpr y := by intro y; rw [withSP_self]
    split
    · rename_i hx
      have := congrFun (congrArg State.gpr (withSP_withSP s (spOf s - BitVec.ofNat 16 (2 * 3)) (spOf s))) x
      rw [e2] at this
      rw [← this]
      show _ = ((Opnd.reg 4).put (withSP s _) 16 (spOf s)).gpr x
      rw [gpr_put, if_pos hx]
    · rename_i hx
      exact withSP_gpr_ne s _ hx
  · intro r hr
    show (if r = .cs then _ else (interrupted (atMagic s) 0xFFFF cs ip).sreg r) = _
    rw [if_neg hr]
    show (if r = .cs then _ else (pushedAll (atMagic s) [s.flags, 0xFFFF, 0xFFFF]).sreg r) = _
    rw [if_neg hr, (pushedAll_frame (atMagic s) _).1]
    show (if r = .cs then _ else s.sreg r) = _
    rw [if_neg hr]
  · intro a ha
    show (interrupted (atMagic s) 0xFFFF cs ip).host a = _
    rw [f3]
    exact pushes_host hr' _ _ _ (hoff _ ha)
  · show (pushedAll (atMagic s) [s.flags, 0xFFFF, 0xFFFF]).io = _
    simp only [pushedAll, pushed_io]
    rfl

/-- C09: `RME_CallInt(n)` with the vector B800:n (off the stack) runs callback n exactly once, on a machine with FLAGS and FFFF:FFFF pushed and
IF and TF cleared; if the callback leaves SS:SP and the three stack words alone, RME_CallInt returns 0 with SP and FLAGS as before the call
and everything else as the callback left it. -/
theorem C09_callint_hle {env : Env} {s : State} {n : BitVec 8} {h1 h2 : Nat} (hr : Room s 3)
    (hm1 : Mapped s 16 0 (n.setWidth 16 * 4) h1) (hv1 : HostHolds s h1 (n.setWidth 16)) (ho1 : OffStack s h1 ∧ OffStack s (h1 + 1))
    (hm2 : Mapped s 16 0 (n.setWidth 16 * 4 + 2) h2) (hv2 : HostHolds s h2 (0xB800 : BitVec 16)) (ho2 : OffStack s h2 ∧ OffStack s (h2 + 1))
    (hkeep : SameStack (interrupted (atMagic s) 0xFFFF 0xB800 (n.setWidth 16)) (callback env n (interrupted (atMagic s) 0xFFFF 0xB800 (n.setWidth 16))) 3) :
    let u := callback env n (interrupted (atMagic s) 0xFFFF 0xB800 (n.setWidth 16))
    ∃ w, CallIntReturns env n.toNat s (.ok () w) ∧ spOf w = spOf s ∧ w.flags = s.flags ∧ w.sreg .cs = 0xFFFF ∧ w.ip = 0xFFFF ∧
      (∀ r, r ≠ 4 → w.gpr r = u.gpr r) ∧ (∀ r, r ≠ .cs → w.sreg r = u.sreg r) ∧ w.host = u.host ∧ w.io = u.io ∧ w.instrNum = u.instrNum := by
  have hr' : Room (atMagic s) 3 := hr.congr rfl rfl rfl rfl
  have hvec : Vector (pushedAll (atMagic s) [s.flags, 0xFFFF, 0xFFFF]) n 0xB800 (n.setWidth 16) := by
    refine ⟨holds_pushes hr' _ _ _ (h := h1) hm1 hv1 ?_, holds_pushes hr' _ _ _ (h := h2) hm2 hv2 ?_⟩
    · intro i hi
      have : i = 0 ∨ i = 1 := by omega
      rcases this with rfl | rfl
      · exact ho1.1
      · exact ho1.2
    · intro i hi
      have : i = 0 ∨ i = 1 := by omega
      rcases this with rfl | rfl
      · exact ho2.1
      · exact ho2.2
  obtain ⟨i1, i2, i3⟩ := interrupted_top hr' 0xFFFF 0xB800 (n.setWidth 16)
  obtain ⟨d, hd⟩ := C12_trampoline (env := env) (n := n) (s := interrupted (atMagic s) 0xFFFF 0xB800 (n.setWidth 16)) rfl rfl
    (hkeep.words 0 (by decide) _ i1) (hkeep.words 1 (by decide) _ i2) (hkeep.words 2 (by decide) _ i3)
  refine ⟨_, ⟨2, (callInt_start hr hvec 2).trans (callInt_end hd rfl rfl)⟩, ?_, rfl, rfl, rfl, ?_, ?_, rfl, rfl, rfl⟩
  · show spOf (dropped (callback env n _) 3) = _
    rw [spOf_dropped, hkeep.sp, spOf_interrupted]
    exact BitVec.sub_add_cancel ..
  · intro r hr
    exact withSP_gpr_ne _ _ hr
  · intro r hr
    show (if r = .cs then _ else _) = _
    rw [if_neg hr]
    rfl

/-- C09: `RME_CallInt` rejects interrupt numbers outside 0..255 without touching anything but CS:IP. -/
theorem C09_callint_range {env : Env} {s : State} {num : Int} (h : num < 0 ∨ 255 < num) (fuel : Nat) :
    rmeCallInt env fuel num s = some (.err .inval (atMagic s)) := by
  have hg : (decide (num < 0) || decide (num > 0xFF)) = true := by
    rcases h with h | h <;> simp <;> omega
  simp only [rmeCallInt, callIntInternal, hg, bind_apply]
  rfl

/-! ### Examples -/

/-- INT 21h; the vector is 1000:0110, where there is an IRET. -/
def demoInt : State :=
  { demo ([0xCD, 0x21] ++ List.replicate 14 0x90 ++ [0xCF]) with
    host := fun a => if a = 0x84 then 0x10 else if a = 0x85 then 0x01 else if a = 0x87 then 0x10 else
      (demo ([0xCD, 0x21] ++ List.replicate 14 0x90 ++ [0xCF])).host a }

theorem demoInt_flat : Flat demoInt 0 := ⟨(demo_flat []).map, (demo_flat []).valid⟩

instance (s : State) (a : Nat) : Decidable (OffStack s a) :=
  decidable_of_iff (∀ i < 3, ∀ h ∈ (hostAddr s (s.sreg .ss) (spOf s - BitVec.ofNat 16 (2 * (i + 1)))), ¬ (h ≤ a ∧ a < h + 2)) (by
    constructor
    · intro h i hi x hx; exact h i hi x (by rw [hx]; rfl)
    · intro h i hi x hx; exact h i hi x (by simpa using hx))

example : At demoInt 0x10100 {} [0xCD, 0x21] 2 ∧ IntEnc demoInt [0xCD, 0x21] 0x21 ∧ Vector demoInt 0x21 0x1000 0x110 ∧ Room demoInt 3 ∧
    NotZeroed (pushedAll demoInt [demoInt.flags, demoInt.sreg .cs, demoInt.ip + BitVec.ofNat 16 2]) 0x10100 2 :=
  ⟨⟨by decide +kernel, [], rfl, by decide +kernel, rfl⟩, .int 0x21, ⟨⟨0x84, by decide +kernel, by decide +kernel⟩, ⟨0x86, by decide +kernel, by decide +kernel⟩⟩,
    demoInt_flat.room.mono (by decide), (by unfold NotZeroed; decide +kernel)⟩
example : ∃ t, runOne demoEnv demoInt = .ok () t ∧ At t 0x10110 {} [0xCF] 1 ∧ SameStack t t 3 :=
  ⟨_, conc_ok (by decide +kernel), ⟨by decide +kernel, [], rfl, by decide +kernel, rfl⟩, .refl _ _⟩

/-- The hypotheses of `C09_callint`. -/
example : Room demoInt 3 ∧ Mapped demoInt 16 0 ((0x21 : BitVec 8).setWidth 16 * 4) 0x84 ∧ HostHolds demoInt 0x84 (0x110 : BitVec 16) ∧ OffStack demoInt 0x84 ∧
    OffStack demoInt 0x85 ∧ Mapped demoInt 16 0 ((0x21 : BitVec 8).setWidth 16 * 4 + 2) 0x86 ∧ HostHolds demoInt 0x86 (0x1000 : BitVec 16) ∧
    Mapped demoInt 8 0x1000 0x110 0x10110 ∧ demoInt.host 0x10110 = 0xCF ∧ OffStack demoInt 0x10110 :=
  ⟨demoInt_flat.room.mono (by decide), by decide +kernel, by decide +kernel, by decide +kernel, by decide +kernel, by decide +kernel, by decide +kernel,
    by decide +kernel, by decide +kernel, by decide +kernel⟩

/-- INT 10h with the vector B800:0010 and a callback that sets AX to 4F00h. -/
def demoHle : State :=
  { demo [0xCD, 0x10] with
    host := fun a => if a = 0x40 then 0x10 else if a = 0x43 then 0xB8 else (demo [0xCD, 0x10]).host a }
def demoHleEnv : Env := { demoEnv with hle := fun n => if n = 0x10 then some (fun s => s.setGpr 0 0x4F00) else none }

example : At demoHle 0x10100 {} [0xCD, 0x10] 2 ∧ IntEnc demoHle [0xCD, 0x10] 0x10 ∧ HleVector demoHle 0x10 ∧
    demoHleEnv.hle 0x10 = some (fun s => s.setGpr 0 0x4F00) ∧
    (∀ x : State, (x.setGpr 0 0x4F00).map = x.map ∧ (x.setGpr 0 0x4F00).valid = x.valid ∧ (x.setGpr 0 0x4F00).dec = x.dec) ∧
    (∀ d, NotZeroed (({ demoHle with dec := d, instrNum := demoHle.instrNum + 1 } : State).setGpr 0 0x4F00) 0x10100 2) :=
  ⟨⟨by decide +kernel, [], rfl, by decide +kernel, rfl⟩, .int 0x10, ⟨⟨0x40, by decide +kernel, by decide +kernel⟩, ⟨0x42, by decide +kernel, by decide +kernel⟩⟩,
    rfl, fun _ => ⟨rfl, rfl, rfl⟩, fun d => by
      have : ¬ (demoHle.host 0x10100 = 0 ∧ demoHle.host (0x10100 + 1) = 0) := by decide +kernel
      exact fun _ => this⟩

/-- The trampoline with a mapped stack, and the hypotheses of `C09_callint_hle`. -/
example : ∃ s : State, s.sreg .cs = 0xB800 ∧ s.ip = (0x10 : BitVec 8).setWidth 16 ∧ StackTop (callback demoHleEnv 0x10 s) 0 0 ∧
    StackTop (callback demoHleEnv 0x10 s) 1 0 ∧ StackTop (callback demoHleEnv 0x10 s) 2 0 :=
  ⟨{ (demo []).setSreg .cs 0xB800 with ip := 0x10 }, rfl, rfl, ⟨0x21000, by decide +kernel, by decide +kernel⟩, ⟨0x21002, by decide +kernel, by decide +kernel⟩,
    ⟨0x21004, by decide +kernel, by decide +kernel⟩⟩
theorem sameStack_ax (x : State) (v : BitVec 32) (k : Nat) : SameStack x (x.setGpr 0 v) k :=
  ⟨rfl, rfl, fun _ _ _ h => h⟩
theorem callback_demo (x : State) : callback demoHleEnv 0x10 x = x.setGpr 0 0x4F00 := rfl
example : OffStack demoHle 0x40 ∧ OffStack demoHle 0x43 ∧
    SameStack (interrupted (atMagic demoHle) 0xFFFF 0xB800 0x10) (callback demoHleEnv 0x10 (interrupted (atMagic demoHle) 0xFFFF 0xB800 0x10)) 3 :=
  ⟨by decide +kernel, by decide +kernel, by rw [callback_demo]; exact sameStack_ax _ _ _⟩

end RME
