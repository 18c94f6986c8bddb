import Verif.Model.KernMain
import Verif.Props.KernMem
import Verif.Props.Int2
import Verif.Props.Confine
import Verif.Props.Global
import Verif.Props.Support
set_option autoImplicit false
/-
C83: the test kernel's machine: what the guest sees of physical memory, where INT 10h starts, and what it can and cannot change.
-/
namespace RME
open RME

/-! ### Only allocated host bytes are written -/

/-- From `s` to `t` block table and allocation are the same and so is every host byte that is not allocated. -/
def Frozen (s t : State) : Prop := t.map = s.map ∧ t.valid = s.valid ∧ ∀ a, s.valid a = false → t.host a = s.host a

theorem Frozen.trans {s t u : State} (h1 : Frozen s t) (h2 : Frozen t u) : Frozen s u :=
  ⟨h2.1.trans h1.1, h2.2.1.trans h1.2.1, fun a ha => (h2.2.2 a (by rw [h1.2.1]; exact ha)).trans (h1.2.2 a ha)⟩

theorem validN_at {valid : Nat → Bool} (k h : Nat) (hv : validN valid k h = true) (a : Nat) (h1 : h ≤ a) (h2 : a < h + k) : valid a = true := by
  induction k generalizing h with
  | zero => omega
  | succ k ih =>
    simp only [validN, Bool.and_eq_true] at hv
    by_cases e : a = h
    · rw [e]; exact hv.1
    · exact ih (h + 1) hv.2 (by omega) (by omega)

def capFrozen (env : Env) (s : State) : Cap :=
  { env := env, I := Frozen s, J := fun _ => Frozen s, W := fun n => n = 8 ∨ n = 16 ∨ n = 32, VF := fun _ => True,
    VL := fun _ _ => True, VD := fun _ => True, VS := fun _ => True, U := fun _ => True }

theorem capFrozen_all (env : Env) (s : State) (hcb : CallbacksKeep env Frozen) : (capFrozen env s).All := {
    dec := (by intros; trivial), setDec := fun _ _ h _ => h, ofs := (by intros; trivial), rep := (by intros; trivial),
    fl := (by intros; trivial), ptr := (by intros; trivial), ptrM := (by intros; trivial),
    lreg := (by intros; trivial), lregH := (by intros; trivial),
    bad := fun _ _ h _ => h, w8 := Or.inl rfl, w16 := Or.inr (Or.inl rfl), w32 := fun _ _ _ => Or.inr (Or.inr rfl), wle := fun _ h => h,
    ubNull := (by intros; trivial), ubHost := (by intros; trivial), ubUninit := (by intros; trivial),
    setReg := fun _ _ _ _ h _ => h, setRegH := fun _ _ _ _ h _ _ => h, setGpr := fun _ _ _ h _ => h,
    store := fun t n h v hI hW _ hv => ⟨hI.1, hI.2.1, fun a ha => by
      rw [← hI.2.2 a ha]
      refine storeLE_outside _ _ _ _ _ fun h3 => ?_
      have := validN_at _ _ hv a h3.1 h3.2
      rw [hI.2.1, ha] at this
      cases this⟩,
    arith := (by intros; trivial), setF := fun _ _ h _ => h, any := (by intros; trivial),
    ip := fun _ _ h => h, dci := (by intros; trivial), setS := fun _ _ _ h _ => h, io := fun _ _ h => h,
    hle := fun n f t hf hI => hI.trans (hcb n f t hf), oob := trivial,
    oper := (by intros; trivial), addr := (by intros; trivial), seg := (by intros; trivial), repx := (by intros; trivial),
    cont := fun _ h => h, ov := trivial, sh := trivial, ns := trivial, hi := (by intros; trivial), memX := fun _ _ h _ => h,
    ln := fun _ _ h => h, brk := fun _ h => h, fu := trivial, dv := fun _ h => h,
    vs := (by intros; trivial), halt := fun _ h => h, fcn := fun _ h => h, inv := fun _ h => h, start := fun _ h => h, jI := fun _ _ h => h }

/-- C03: one instruction, whatever it is and however it ends, writes allocated host bytes only. -/
theorem C03_allocated (env : Env) (hcb : CallbacksKeep env Frozen) (s t : State) (h : Ends env s t) : Frozen s t := by
  have := capFrozen_all env s hcb
  have h1 := Kp.runOne (c := capFrozen env s) s ⟨rfl, rfl, fun _ _ => rfl⟩
  rcases h with h | ⟨e, h⟩
  · rw [show (capFrozen env s).env = env from rfl, h] at h1; exact h1.1
  · rw [show (capFrozen env s).env = env from rfl, h] at h1; exact h1

theorem frozen_call (env : Env) (hcb : CallbacksKeep env Frozen) (t : State) (fuel : Nat) (s : State) {r : Res Unit} (h : rmeCall env fuel s = some r)
    (hr : r = .ok () t ∨ ∃ e, r = .err e t) : Frozen s t := by
  induction fuel generalizing s with
  | zero => cases h
  | succ n ih =>
    rw [rmeCall] at h
    cases hro : runOne env s with
    | ok u s' =>
      rw [hro] at h
      exact (C03_allocated env hcb s s' (.inl hro)).trans (ih s' h)
    | err e s' =>
      rw [hro] at h
      have hs : s' = t := by
        cases e <;> (simp only [Option.some.injEq] at h; subst h; rcases hr with h | ⟨e', h⟩ <;> cases h; rfl)
      exact hs ▸ C03_allocated env hcb s s' (.inr ⟨e, hro⟩)
    | ub u =>
      rw [hro] at h
      simp only [Option.some.injEq] at h
      subst h
      rcases hr with h | ⟨e', h⟩ <;> cases h

/-- C03: a whole `RME_CallInt`, however it ends, writes allocated host bytes only. -/
theorem C03_allocated_callint (env : Env) (hcb : CallbacksKeep env Frozen) (num : Int) (s t : State)
    (h : CallIntReturns env num s (.ok () t) ∨ ∃ e, CallIntReturns env num s (.err e t)) : Frozen s t := by
  obtain ⟨r, fuel, hr, hres⟩ : ∃ r fuel, rmeCallInt env fuel num s = some r ∧ (r = .ok () t ∨ ∃ e, r = .err e t) := by
    rcases h with ⟨f, h⟩ | ⟨e, f, h⟩
    · exact ⟨_, f, h, .inl rfl⟩
    · exact ⟨_, f, h, .inr ⟨e, rfl⟩⟩
  have := capFrozen_all env s hcb
  let c := capFrozen env s
  have hk : Kpt c (RME.callIntInternal num) := by
    unfold RME.callIntInternal
    refine Kp.bind (V := fun _ => True) ?_ fun _ _ => Kp.bind (Kp.pushM Kp.getFlagsV) fun _ _ => Kp.bind (Kp.pushM (Kp.getSregT _)) fun _ _ =>
      Kp.bind (Kp.pushM Kp.getIPT) fun _ _ => Kp.bind Kp.getFlagsV fun _ _ => Kp.bind Kp.setFlagsAny fun _ _ => ?_
    · intro s hs
      cases hb : decide (num < 0) || decide (num > 0xFF)
      · exact ⟨hs, trivial⟩
      · exact hs
    · exact Kp.bind (Kp.readMem _ _ (by decide)) fun _ _ => Kp.bind Kp.setIP fun _ _ => Kp.bind (Kp.readMem _ _ (by decide)) fun _ _ => Kp.setSreg trivial
  have h0 := hk { s.setSreg .cs MAGIC_CS with ip := MAGIC_IP } ⟨rfl, rfl, fun _ _ => rfl⟩
  rw [rmeCallInt] at hr
  simp only [] at hr
  cases hc : RME.callIntInternal num env { s.setSreg .cs MAGIC_CS with ip := MAGIC_IP } with
  | ok u s' =>
    rw [hc] at hr
    rw [show c.env = env from rfl, hc] at h0
    exact Frozen.trans h0.1 (frozen_call env hcb t fuel s' hr hres)
  | err e s' =>
    rw [hc] at hr
    rw [show c.env = env from rfl, hc] at h0
    simp only [Option.some.injEq] at hr
    subst hr
    rcases hres with h | ⟨e', h⟩ <;> cases h
    exact h0
  | ub u =>
    rw [hc] at hr
    simp only [Option.some.injEq] at hr
    subst hr
    rcases hres with h | ⟨e', h⟩ <;> cases h

end RME

namespace RME.Testkern
open RME

/-- The kernel and its heap lie above 1 MiB and the two allocations fit in the address space. -/
structure Layout (kend sz : BitVec 32) : Prop where
  above : 0x100000 ≤ kend.toNat
  fits : kend.toNat + sz.toNat + 7 + 0x1000 < 2 ^ 32

/-- Address of the copy of page 0. -/
def lowCopy (kend sz : BitVec 32) : Nat := (kend + ((sz * 1 + 7) &&& ~~~7)).toNat

theorem lowCopy_bounds {kend sz : BitVec 32} (h : Layout kend sz) :
    kend.toNat + sz.toNat ≤ lowCopy kend sz ∧ lowCopy kend sz + 0x1000 < 2 ^ 32 := by
  have h1 := h.fits
  have m1 : sz * 1 = sz := BitVec.mul_one sz
  have e := round_eq (sz * 1) (by rw [m1]; omega)
  rw [lowCopy, BitVec.toNat_add, e, rounded, m1, Nat.mod_eq_of_lt (by omega)]
  omega

/-- The machine of the kernel, field by field. -/
structure KernMachine (low : Nat) (s : State) : Prop where
  map : s.map = kernMap low
  valid : ∀ a, s.valid a = true ↔ (0x1000 ≤ a ∧ a < 0x100000) ∨ (low ≤ a ∧ a < low + 0x1000)

theorem kernSetup_machine (mem : BitVec 32 → BitVec 8) (kend sz : BitVec 32) : KernMachine (lowCopy kend sz) (kernSetup mem kend sz) := by
  refine ⟨rfl, fun a => ?_⟩
  exact decide_eq_true_iff

theorem copy_host {c : BitVec 32 → BitVec 8} {low : BitVec 32} (hl : 0x100000 ≤ low.toNat) (hf : low.toNat + 0x1000 < 2 ^ 32) :
    (∀ a < 0x100000, (memcpy c low 0 0x1000).2 (BitVec.ofNat 32 a) = c (BitVec.ofNat 32 a)) ∧
    (∀ i < 0x1000, (memcpy c low 0 0x1000).2 (BitVec.ofNat 32 (low.toNat + i)) = c (BitVec.ofNat 32 i)) := by
  have hn : (0x1000 : BitVec 32).toNat = 0x1000 := rfl
  have hz : low - 0 = low := BitVec.sub_zero low
  obtain ⟨-, m2, m3⟩ := C78_memcpy c low 0 0x1000 (by right; rw [hz, hn]; omega)
  rw [hn] at m2 m3
  refine ⟨fun a ha => m3 _ fun i hi he => ?_, fun i hi => ?_⟩
  · have := congrArg BitVec.toNat he
    simp only [BitVec.toNat_add, BitVec.toNat_ofNat] at this
    omega
  · have := m2 i hi
    rw [show (0 : BitVec 32) + BitVec.ofNat 32 i = BitVec.ofNat 32 i from BitVec.zero_add _] at this
    rw [← this]
    have e : BitVec.ofNat 32 (low.toNat + i) = low + BitVec.ofNat 32 i := by
      apply BitVec.eq_of_toNat_eq
      simp only [BitVec.toNat_add, BitVec.toNat_ofNat]
      omega
    rw [e]

theorem setup_host {mem : BitVec 32 → BitVec 8} {kend sz : BitVec 32} (h : Layout kend sz) :
    (∀ a < 0x100000, (kernSetup mem kend sz).host a = mem (BitVec.ofNat 32 a)) ∧
    (∀ i < 0x1000, (kernSetup mem kend sz).host (lowCopy kend sz + i) = mem (BitVec.ofNat 32 i)) := by
  obtain ⟨b1, b2⟩ := lowCopy_bounds h
  have h0 := h.above
  have h1 := h.fits
  obtain ⟨-, -, c3⟩ := C56_calloc kend mem sz 1 (by simp; omega)
  have hcal : ∀ a, a < 0x100000 → (calloc kend mem sz 1).2.2 (BitVec.ofNat 32 a) = mem (BitVec.ofNat 32 a) := by
    intro a ha
    refine c3 _ fun i hi he => ?_
    have := congrArg BitVec.toNat he
    simp only [BitVec.toNat_add, BitVec.toNat_ofNat] at this
    simp only [show (1 : BitVec 32).toNat = 1 from rfl, Nat.mul_one] at hi
    omega
  have hh : (kernSetup mem kend sz).host = fun a => (memcpy (calloc kend mem sz 1).2.2 (malloc (calloc kend mem sz 1).2.1 0x1000).1 0 0x1000).2 (BitVec.ofNat 32 a) := by
    unfold kernSetup
    simp only [State.setReg, State.setGpr, createState]
  have e1 : (malloc (calloc kend mem sz 1).2.1 0x1000).1 = kend + ((sz * 1 + 7) &&& ~~~7) := rfl
  rw [hh, e1]
  rw [lowCopy] at b1 b2 ⊢
  generalize kend + ((sz * 1 + 7) &&& ~~~7) = low at b1 b2 ⊢
  obtain ⟨k1, k2⟩ := copy_host (c := (calloc kend mem sz 1).2.2) (low := low) (by omega) b2
  exact ⟨fun a ha => (k1 a ha).trans (hcal a ha), fun i hi => (k2 i hi).trans (hcal i (by omega))⟩

theorem kern_hostAddr {low : Nat} {s : State} (k : KernMachine low s) (seg ofs : BitVec 16) :
    hostAddr s seg ofs = if linear seg ofs < 0x1000 then some (low + linear seg ofs) else if linear seg ofs < 0x100000 then some (linear seg ofs) else none := by
  rw [hostAddr, k.map, kernMap]
  by_cases h1 : linear seg ofs < 0x1000
  · rw [if_pos h1, if_pos (by omega)]
    simp; omega
  · rw [if_neg h1, if_neg (by omega)]
    by_cases h2 : linear seg ofs < 0x100000
    · rw [if_pos h2, if_pos (by omega)]
      simp; omega
    · rw [if_neg h2, if_neg (by omega)]
      rfl

/-- C83: every guest address below 1 MiB shows the byte of physical memory at that address (as it was when the kernel started); from 1000h on it IS
that byte, below it is a copy elsewhere; and the set-up leaves the first MiB of physical memory as it was. -/
theorem C83_view {mem : BitVec 32 → BitVec 8} {kend sz : BitVec 32} (h : Layout kend sz) (seg ofs : BitVec 16) (ha : linear seg ofs < 0x100000) :
    ∃ a, Mapped (kernSetup mem kend sz) 8 seg ofs a ∧ (kernSetup mem kend sz).host a = mem (BitVec.ofNat 32 (linear seg ofs)) ∧
      (0x1000 ≤ linear seg ofs → a = linear seg ofs) ∧ (linear seg ofs < 0x1000 → 0x100000 ≤ a) ∧
      (∀ p < 0x100000, (kernSetup mem kend sz).host p = mem (BitVec.ofNat 32 p)) := by
  obtain ⟨b1, b2⟩ := lowCopy_bounds h
  have h0 := h.above
  obtain ⟨g1, g2⟩ := setup_host (mem := mem) h
  have k := kernSetup_machine mem kend sz
  by_cases hl : linear seg ofs < 0x1000
  · refine ⟨lowCopy kend sz + linear seg ofs, ⟨by rw [kern_hostAddr k, if_pos hl], fun i hi => ?_⟩, g2 _ hl, fun h' => by omega, fun _ => by omega, g1⟩
    have : i = 0 := by omega
    rw [k.valid]; omega
  · refine ⟨linear seg ofs, ⟨by rw [kern_hostAddr k, if_neg hl, if_pos ha], fun i hi => ?_⟩, g1 _ ha, fun _ => rfl, fun h' => by omega, g1⟩
    have : i = 0 := by omega
    rw [k.valid]; omega

/-- C83: the first word of guest memory at `a` and `a + 1`, both in the same page. -/
theorem kern_word {mem : BitVec 32 → BitVec 8} {kend sz : BitVec 32} (h : Layout kend sz) (ofs : BitVec 16) (h1 : ofs.toNat + 1 < 0x1000) :
    Mapped (kernSetup mem kend sz) 16 0 ofs (lowCopy kend sz + ofs.toNat) ∧
    HostHolds (kernSetup mem kend sz) (lowCopy kend sz + ofs.toNat) (mem (BitVec.ofNat 32 (ofs.toNat + 1)) ++ mem (BitVec.ofNat 32 ofs.toNat) : BitVec 16) := by
  have k := kernSetup_machine mem kend sz
  obtain ⟨g1, g2⟩ := setup_host (mem := mem) h
  have e : linear 0 ofs = ofs.toNat := by simp [linear]
  refine ⟨⟨by rw [kern_hostAddr k, e, if_pos (by omega)], fun i hi => ?_⟩, fun i hi => ?_⟩
  · rw [k.valid]; omega
  · have : i = 0 ∨ i = 1 := by omega
    rcases this with rfl | rfl
    · rw [Nat.add_zero, g2 _ (by omega)]
      exact lo_byte _ _
    · rw [Nat.add_assoc, g2 _ (by omega)]
      exact hi_byte _ _
where
  lo_byte (a b : BitVec 8) : b = byteOf (a ++ b : BitVec 16) 0 := by
    simp only [byteOf, Nat.mul_zero, BitVec.ushiftRight_zero]
    exact BitVec.setWidth_append_eq_right.symm
  hi_byte (a b : BitVec 8) : a = byteOf (a ++ b : BitVec 16) 1 := by
    apply BitVec.eq_of_getLsbD_eq
    intro i hi
    rw [byteOf, BitVec.getLsbD_setWidth, BitVec.getLsbD_ushiftRight, BitVec.getLsbD_append]
    simp [hi]

/-! ### The call -/

theorem kern_regs (mem : BitVec 32 → BitVec 8) (kend sz : BitVec 32) : let s := kernSetup mem kend sz
    s.gpr 0 = 0x11 ∧ (∀ r, r ≠ 0 → s.gpr r = 0) ∧ (∀ r, r ≠ .cs → s.sreg r = 0) ∧ s.flags = 2 ∧ s.instrNum = 0 ∧ s.io = [] := by
  obtain ⟨h, v, m, e⟩ : ∃ h v m, kernSetup mem kend sz = State.setReg { createState h v with map := m } 16 rAX 0x0011 := ⟨_, _, _, rfl⟩
  rw [e]
  intro s
  refine ⟨by show putLow 16 0 0x11 = _; decide, fun r hr => ?_, fun r hr => ?_, rfl, rfl, rfl⟩
  · show (if r = 0 then _ else (0 : BitVec 32)) = 0
    rw [if_neg hr]
  · show (if r = .cs then (0xF000 : BitVec 16) else 0) = 0
    rw [if_neg hr]

attribute [local irreducible] kernSetup

theorem kern_room (mem : BitVec 32 → BitVec 8) (kend sz : BitVec 32) : Room (kernSetup mem kend sz) 3 := by
  have k := kernSetup_machine mem kend sz
  obtain ⟨-, r1, r2, -⟩ := kern_regs mem kend sz
  have hsp : spOf (kernSetup mem kend sz) = 0 := by rw [spOf, r1 4 (by decide)]; rfl
  have hl : ∀ i < 3, linear ((kernSetup mem kend sz).sreg .ss) (spOf (kernSetup mem kend sz) - BitVec.ofNat 16 (2 * (i + 1))) = 0x10000 - 2 * (i + 1) := by
    intro i hi
    rw [hsp, r2 .ss (by decide), linear, BitVec.toNat_sub, BitVec.toNat_ofNat]
    simp
    omega
  refine ⟨fun i hi => ⟨0x10000 - 2 * (i + 1), ?_, fun j hj => ?_⟩, fun i hi j hj hij h h' e1 e2 => ?_⟩
  · rw [kern_hostAddr k, hl i hi, if_neg (by omega), if_pos (by omega)]
  · rw [k.valid]; omega
  · rw [kern_hostAddr k, hl i hi, if_neg (by omega), if_pos (by omega), Option.some.injEq] at e1
    rw [kern_hostAddr k, hl j hj, if_neg (by omega), if_pos (by omega), Option.some.injEq] at e2
    omega

theorem kern_offstack {mem : BitVec 32 → BitVec 8} {kend sz : BitVec 32} {a : Nat} (h : a < 0xFFFA ∨ 0x10000 ≤ a) : OffStack (kernSetup mem kend sz) a := by
  have k := kernSetup_machine mem kend sz
  obtain ⟨-, r1, r2, -⟩ := kern_regs mem kend sz
  have hsp : spOf (kernSetup mem kend sz) = 0 := by rw [spOf, r1 4 (by decide)]; rfl
  intro i hi x hx
  have hl : linear ((kernSetup mem kend sz).sreg .ss) (spOf (kernSetup mem kend sz) - BitVec.ofNat 16 (2 * (i + 1))) = 0x10000 - 2 * (i + 1) := by
    rw [hsp, r2 .ss (by decide), linear, BitVec.toNat_sub, BitVec.toNat_ofNat]
    simp
    omega
  rw [kern_hostAddr k, hl, if_neg (by omega), if_pos (by omega), Option.some.injEq] at hx
  omega

/-- The vector of INT 10h in physical memory: segment and offset. -/
def vec10 (mem : BitVec 32 → BitVec 8) : BitVec 16 × BitVec 16 := (mem 0x43 ++ mem 0x42, mem 0x41 ++ mem 0x40)

/-- The machine when the first instruction of the service is executed. -/
structure Entered (mem : BitVec 32 → BitVec 8) (s t : State) : Prop where
  cs : t.sreg .cs = (vec10 mem).1
  ip : t.ip = (vec10 mem).2
  ax : t.gpr 0 = 0x11
  sp : t.gpr 4 = 0xFFFA
  gpr : ∀ r, r ≠ 0 → r ≠ 4 → t.gpr r = 0
  seg : ∀ r, r ≠ .cs → t.sreg r = 0
  flags : t.flags = 2
  num : t.instrNum = 0
  map : t.map = s.map
  valid : t.valid = s.valid
  ret : StackTop t 0 0xFFFF ∧ StackTop t 1 0xFFFF ∧ StackTop t 2 2
  host : ∀ a, a < 0xFFFA ∨ 0x10000 ≤ a → t.host a = s.host a

theorem magic_num (s : State) (n a b : BitVec 16) : (interrupted (atMagic s) n a b).instrNum = s.instrNum := by
  obtain ⟨-, -, -, -, -, -, p7, -⟩ := pushedAll_frame (atMagic s) [(atMagic s).flags, (atMagic s).sreg .cs, n]
  exact p7

/-- C83: the call of INT 10h starts the service whose address is in the physical interrupt table, with AX = 0011h (set video mode 11h), the other
registers 0, interrupts off, and a stack at 0000:FFFA that holds the return address FFFF:FFFF and FLAGS = 2 (written to physical memory FFFA–FFFF; nothing
else has changed). -/
theorem C83_start {mem : BitVec 32 → BitVec 8} {kend sz : BitVec 32} (h : Layout kend sz) (pin : List IOEv → Nat → BitVec 16 → BitVec 32) :
    ∃ t, Entered mem (kernSetup mem kend sz) t ∧ ∀ fuel, kernMain mem kend sz pin fuel = rmeCall (kernEnv pin) fuel t := by
  obtain ⟨r0, r1, r2, r3, r4, -⟩ := kern_regs mem kend sz
  obtain ⟨b1, b2⟩ := lowCopy_bounds h
  have h0 := h.above
  have hr := kern_room mem kend sz
  obtain ⟨m1, v1⟩ := kern_word (mem := mem) h ((0x10 : BitVec 8).setWidth 16 * 4) (by decide)
  obtain ⟨m2, v2⟩ := kern_word (mem := mem) h ((0x10 : BitVec 8).setWidth 16 * 4 + 2) (by decide)
  have hr' : Room (atMagic (kernSetup mem kend sz)) 3 := hr.congr rfl rfl rfl rfl
  have hvec : Vector (pushedAll (atMagic (kernSetup mem kend sz)) [(kernSetup mem kend sz).flags, 0xFFFF, 0xFFFF]) 0x10 (vec10 mem).1 (vec10 mem).2 := by
    refine ⟨holds_pushes hr' _ _ _ (h := _) m1 v1 ?_, holds_pushes hr' _ _ _ (h := _) m2 v2 ?_⟩
    · intro i hi; exact kern_offstack (mem := mem) (kend := kend) (sz := sz) (by omega)
    · intro i hi; exact kern_offstack (mem := mem) (kend := kend) (sz := sz) (by omega)
  obtain ⟨f1, f2, f3⟩ := interrupted_frame (atMagic (kernSetup mem kend sz)) 0xFFFF (vec10 mem).1 (vec10 mem).2
  obtain ⟨i1, i2, i3⟩ := interrupted_top hr' 0xFFFF (vec10 mem).1 (vec10 mem).2
  obtain ⟨p1, -, -, -, -, -, p7, -⟩ := pushedAll_frame (atMagic (kernSetup mem kend sz)) [(kernSetup mem kend sz).flags, 0xFFFF, 0xFFFF]
  have pg := pushedAll_gpr (atMagic (kernSetup mem kend sz)) [(kernSetup mem kend sz).flags, 0xFFFF, 0xFFFF]
  have hsp : spOf (atMagic (kernSetup mem kend sz)) = 0 := by rw [spOf]; show ((kernSetup mem kend sz).gpr 4).setWidth 16 = 0; rw [r1 4 (by decide)]; rfl
  have hg : ∀ r, (interrupted (atMagic (kernSetup mem kend sz)) 0xFFFF (vec10 mem).1 (vec10 mem).2).gpr r =
      if r = 4 then putLow 16 ((kernSetup mem kend sz).gpr 4) (0 - BitVec.ofNat 16 6) else (kernSetup mem kend sz).gpr r := by
    intro r
    have := congrFun pg r
    rw [hsp] at this
    exact this
  refine ⟨interrupted (atMagic (kernSetup mem kend sz)) 0xFFFF (vec10 mem).1 (vec10 mem).2, ⟨rfl, rfl, ?_, ?_, ?_, ?_, ?_, ?_, f1, f2, ⟨i1, i2, ?_⟩, ?_⟩, ?_⟩
  · rw [hg, if_neg (by decide), r0]
  · rw [hg, if_pos rfl, r1 4 (by decide)]; decide
  · intro r h1 h2; rw [hg, if_neg h2, r1 r h1]
  · intro r hne
    show (if r = .cs then _ else (pushedAll (atMagic (kernSetup mem kend sz)) [(kernSetup mem kend sz).flags, 0xFFFF, 0xFFFF]).sreg r) = 0
    rw [if_neg hne, p1]
    show (if r = .cs then (0xFFFF : BitVec 16) else (kernSetup mem kend sz).sreg r) = 0
    rw [if_neg hne, r2 r hne]
  · show clearIT (kernSetup mem kend sz).flags = 2
    rw [r3]; decide
  · rw [magic_num, r4]
  · have : (atMagic (kernSetup mem kend sz)).flags = 2 := r3
    rw [← this]; exact i3
  · intro a ha
    rw [f3]
    exact pushes_host hr' _ _ _ (kern_offstack (mem := mem) (kend := kend) (sz := sz) ha)
  · intro fuel
    exact callInt_start (env := kernEnv pin) (n := 0x10) hr hvec fuel

/-- C83: whatever the service does and however the call ends, the kernel's page 0 of physical memory (the real interrupt table) and everything above
1 MiB except the copy (the kernel's code, data and heap) are as the kernel left them. -/
theorem C83_isolation {mem : BitVec 32 → BitVec 8} {kend sz : BitVec 32} (h : Layout kend sz) {pin : List IOEv → Nat → BitVec 16 → BitVec 32} {fuel : Nat}
    {r : Res Unit} {t : State} (hr : kernMain mem kend sz pin fuel = some r) (ht : r = .ok () t ∨ ∃ e, r = .err e t) :
    (∀ a < 0x1000, t.host a = mem (BitVec.ofNat 32 a)) ∧
    (∀ a, 0x100000 ≤ a → (a < lowCopy kend sz ∨ lowCopy kend sz + 0x1000 ≤ a) → t.host a = (kernSetup mem kend sz).host a) ∧
    t.map = (kernSetup mem kend sz).map := by
  have hf : Frozen (kernSetup mem kend sz) t := by
    refine C03_allocated_callint (kernEnv pin) (fun n f s hc => by cases hc) 0x10 _ t ?_
    rcases ht with rfl | ⟨e, rfl⟩
    · exact .inl ⟨fuel, hr⟩
    · exact .inr ⟨e, fuel, hr⟩
  have k := kernSetup_machine mem kend sz
  obtain ⟨b1, b2⟩ := lowCopy_bounds h
  have h0 := h.above
  refine ⟨fun a h1 => ?_, fun a h1 h2 => hf.2.2 a ?_, hf.1⟩
  · rw [← (setup_host (mem := mem) h).1 a (by omega)]
    refine hf.2.2 a ?_
    cases hv : (kernSetup mem kend sz).valid a with
    | false => rfl
    | true => have := (k.valid a).mp hv; omega
  · cases hv : (kernSetup mem kend sz).valid a with
    | false => rfl
    | true => have := (k.valid a).mp hv; omega

/-- Without a NULL check: fetching from an address that is not mapped. -/
theorem fetch_null {env : Env} (hn : env.nullCheck = false) {s : State} (hr : Ready s) (h : hostAddr s (s.sreg .cs) s.ip = none) : runOne env s = .ub .nullBlock := by
  have hf : readInstr 8 env (opState s {} 0) = .ub .nullBlock := by
    have hh : hostAddr (opState s {} 0) (s.sreg .cs) (s.ip + BitVec.ofNat 16 0) = none := by
      rw [show s.ip + BitVec.ofNat 16 0 = s.ip from BitVec.add_zero s.ip]; exact h
    have hr : readInstr 8 env (opState s {} 0) = (readMem 8 (s.sreg .cs) (s.ip + BitVec.ofNat 16 0) env (opState s {} 0)).bind
      (fun v t => .ok v { t with dec := { t.dec with ipOffset := t.dec.ipOffset + 1 } }) := rfl
    rw [hr]
    simp only [readMem, bind_apply, getPtr_spec, hh, hn]
    rfl
  have hs : startInstr env s = .ok () (opState s {} 0) := by
    rw [startInstr]
    have : ¬ s.instrNum = INT_MAX := hr.counter
    rw [if_neg this]
    rfl
  have hd : decodeOne env (opState s {} 0) = .ub .nullBlock := by
    simp only [decodeOne, bind_apply, hf, resbind_ub]
  rw [runOne_ready hr]
  have : doOpcode env s = .ub .nullBlock := by
    have hl : decodeLoop 6 env (opState s {} 0) = .ub .nullBlock := by
      show (match decodeOne env (opState s {} 0) with | .err .cont s' => decodeLoop 5 env s' | r => r) = _
      rw [hd]
    simp only [doOpcode, bind_apply, getIP_apply, getSreg_apply, resbind_ok, hs, hl, resbind_ub]
  rw [this]

/-- C83 violated: the guest addresses from 100000h on (segment FFFFh and a few below) have no block: code there makes the kernel itself read through
a NULL pointer.  So does a service whose vector points there. -/
theorem C83_violated_hma (pin : List IOEv → Nat → BitVec 16 → BitVec 32) :
    (∀ {low : Nat} {s : State}, KernMachine low s → Ready s → 0x100000 ≤ linear (s.sreg .cs) s.ip → runOne (kernEnv pin) s = .ub .nullBlock) ∧
    (∀ {mem : BitVec 32 → BitVec 8} {kend sz : BitVec 32}, Layout kend sz → 0x100000 ≤ linear (vec10 mem).1 (vec10 mem).2 → vec10 mem ≠ (0xFFFF, 0xFFFF) →
      ∀ fuel, kernMain mem kend sz pin (fuel + 1) = some (.ub .nullBlock)) := by
  have key : ∀ {low : Nat} {s : State}, KernMachine low s → Ready s → 0x100000 ≤ linear (s.sreg .cs) s.ip → runOne (kernEnv pin) s = .ub .nullBlock := by
    intro low s k hr h
    exact fetch_null rfl hr (by rw [kern_hostAddr k, if_neg (by omega), if_neg (by omega)])
  refine ⟨key, fun {mem kend sz} hl h hne fuel => ?_⟩
  obtain ⟨t, ht, hk⟩ := C83_start (mem := mem) hl pin
  have k := kernSetup_machine mem kend sz
  have kt : KernMachine (lowCopy kend sz) t := ⟨ht.map.trans k.map, fun a => by rw [ht.valid]; exact k.valid a⟩
  rw [hk, rmeCall, key kt ⟨?_, ?_, ?_⟩ (by rw [ht.cs, ht.ip]; exact h)]
  · rw [ht.cs, ht.ip]
    rintro ⟨h1, h2⟩
    exact hne (Prod.ext h2 h1)
  · rw [ht.cs, ht.ip]
    rintro ⟨h1, h2⟩
    rw [linear, h1] at h
    have : (0xB800 : BitVec 16).toNat = 0xB800 := rfl
    omega
  · rw [ht.num]; decide

/-- C83 violated: a word that begins in the last byte of page 0 is not read as the two bytes the guest sees at those addresses: the second is taken
from behind the copy of the page, outside what was allocated.  Here the immediate of `MOV AX, imm16` at 0000:0FFE. -/
theorem C83_violated_cross (pin : List IOEv → Nat → BitVec 16 → BitVec 32) {mem : BitVec 32 → BitVec 8} {kend sz : BitVec 32} (hl : Layout kend sz)
    (hv : vec10 mem = (0, 0x0FFE)) (hm : mem 0xFFE = 0xB8) :
    (∀ i < 3, ∃ a, Mapped (kernSetup mem kend sz) 8 0 (0x0FFE + BitVec.ofNat 16 i) a) ∧
    ∀ fuel, kernMain mem kend sz pin (fuel + 1) = some (.ub .hostInvalid) := by
  constructor
  · intro i hi
    obtain ⟨a, h, -⟩ := C83_view (mem := mem) hl 0 (0x0FFE + BitVec.ofNat 16 i) (by
      rw [linear]; have := (0x0FFE + BitVec.ofNat 16 i : BitVec 16).isLt
      show 0 * 16 + _ < _
      omega)
    exact ⟨a, h⟩
  · intro fuel
    obtain ⟨t, ht, hk⟩ := C83_start (mem := mem) hl pin
    obtain ⟨b1, b2⟩ := lowCopy_bounds hl
    have h0 := hl.above
    have k := kernSetup_machine mem kend sz
    have kt : KernMachine (lowCopy kend sz) t := ⟨ht.map.trans k.map, fun a => by rw [ht.valid]; exact k.valid a⟩
    have hcs : t.sreg .cs = 0 := by rw [ht.cs, hv]
    have hip : t.ip = 0x0FFE := by rw [ht.ip, hv]
    have hr : Ready t := ⟨by rw [hcs]; rintro ⟨-, h⟩; exact absurd h (by decide), by rw [hcs]; rintro ⟨h, -⟩; exact absurd h (by decide), by rw [ht.num]; decide⟩
    have hcode : CodeAt t (lowCopy kend sz + 0xFFE) ([] ++ [0xB8]) := by
      intro i hi
      have : i = 0 := by simp at hi; exact hi
      subst this
      have e : linear 0 (0x0FFE + BitVec.ofNat 16 0) = 0xFFE := rfl
      refine ⟨?_, (kt.valid _).mpr (by omega), ?_⟩
      · rw [hcs, hip, kern_hostAddr kt, e, if_pos (by omega)]
      · rw [ht.host _ (by omega), Nat.add_zero, (setup_host (mem := mem) hl).2 _ (by omega)]
        exact hm
    have hcall : callFn (.base .movReg) 0 (kernEnv pin) (opState t {} (([] : List (BitVec 8)).length + 1)) = .ub .hostInvalid := by
      have e : linear 0 (0x0FFE + BitVec.ofNat 16 1) = 0xFFF := rfl
      have hh : hostAddr (opState t {} 1) ((opState t {} 1).sreg .cs) (t.ip + BitVec.ofNat 16 1) = some (lowCopy kend sz + 0xFFF) := by
        show hostAddr t (t.sreg .cs) _ = _
        rw [hcs, hip, kern_hostAddr kt, e, if_pos (by omega)]
      have hv : validN (opState t {} 1).valid 2 (lowCopy kend sz + 0xFFF) = false := by
        have : t.valid (lowCopy kend sz + 0xFFF + 1) = false := by
          cases hv : t.valid (lowCopy kend sz + 0xFFF + 1) with
          | false => rfl
          | true => have := (kt.valid _).mp hv; omega
        show (t.valid _ && (t.valid _ && true)) = false
        rw [this, Bool.false_and, Bool.and_false]
      have hrd : readInstr 16 (kernEnv pin) (opState t {} 1) = .ub .hostInvalid := by
        have hr : readInstr 16 (kernEnv pin) (opState t {} 1) = (readMem 16 ((opState t {} 1).sreg .cs) (t.ip + BitVec.ofNat 16 1) (kernEnv pin) (opState t {} 1)).bind
          (fun v t => .ok v { t with dec := { t.dec with ipOffset := t.dec.ipOffset + 2 } }) := rfl
        rw [hr]
        simp only [readMem, bind_apply, getPtr_some (kernEnv pin) hh, resbind_ok, loadM]
        rw [show (16 : Nat) / 8 = 2 from rfl, hv]
        rfl
      show opMovReg 0 (kernEnv pin) (opState t {} 1) = _
      rw [opMovReg]
      have hw : withW (fun n => do let v ← readInstr n; writeLoc n (regW 0) v) (kernEnv pin) (opState t {} 1) =
        (readInstr 16 >>= fun v => writeLoc 16 (regW 0) v : M Unit) (kernEnv pin) (opState t {} 1) := rfl
      rw [hw, bind_apply, hrd, resbind_ub]
    rw [hk, rmeCall, runOne_ready hr, decode_code hcode (kernEnv pin) hr.counter rfl (by decide) (e := ⟨.base .movReg, 0, false⟩) rfl (a := 0) rfl _ hcall (by simp)]
    rfl

/-- C83: the message says "success" and shows AX exactly when the call returned without an error; the four errors with a text of their own are
reported as such; the code of a HLT (8), a breakpoint (7) or any other result is printed as a number. -/
theorem C83_message (r : Res Unit) :
    (∀ ax, kernMsg r = some (.success ax) ↔ ∃ t, r = .ok () t ∧ ax = (t.gpr 0).setWidth 16) ∧
    (kernMsg r = some .inval ↔ ∃ t, r = .err .inval t) ∧ (kernMsg r = some .badmem ↔ ∃ t, r = .err .badmem t) ∧
    (kernMsg r = some .undefOpcode ↔ ∃ t, r = .err .undefOpcode t) ∧ (kernMsg r = some .divErr ↔ ∃ t, r = .err .divErr t) ∧
    (kernMsg r = some (.unknown 8) ↔ ∃ t, r = .err .halt t) ∧ (kernMsg r = some (.unknown 7) ↔ ∃ t, r = .err .breakpoint t) := by
  refine ⟨fun ax => ?_, ?_⟩
  · cases r with
    | ok u t => simp only [kernMsg, Option.some.injEq, KernMsg.success.injEq, Res.ok.injEq, true_and]; exact ⟨fun h => ⟨t, rfl, h.symm⟩, fun ⟨_, h1, h2⟩ => by rw [h2, h1]; rfl⟩
    | err e t => cases e <;> simp [kernMsg]
    | ub u => simp [kernMsg]
  · cases r with
    | ok u t => simp [kernMsg]
    | err e t => cases e <;> simp [kernMsg, Err.code]
    | ub u => simp [kernMsg]

/-! ### The hypotheses can be met -/

/-- A kernel of 64 KiB loaded at 1 MiB, with a state block of 4 KiB. -/
theorem layoutDemo : Layout 0x110000 0x1000 := ⟨by decide, by decide⟩

/-- Physical memory with vector 10h = C000:0003 and HLT there. -/
def memHlt : BitVec 32 → BitVec 8 := fun a => if a = 0x40 then 0x03 else if a = 0x43 then 0xC0 else if a = 0xC0003 then 0xF4 else 0

/-- The call can end: here by HLT, in the state in which the service was entered. -/
example (pin : List IOEv → Nat → BitVec 16 → BitVec 32) :
    ∃ t, kernMain memHlt 0x110000 0x1000 pin 1 = some (.err .halt t) ∧ kernMsg (.err .halt t) = some (.unknown 8) := by
  obtain ⟨t, ht, hk⟩ := C83_start (mem := memHlt) layoutDemo pin
  have k := kernSetup_machine memHlt 0x110000 0x1000
  have kt : KernMachine (lowCopy 0x110000 0x1000) t := ⟨ht.map.trans k.map, fun a => by rw [ht.valid]; exact k.valid a⟩
  have hcs : t.sreg .cs = 0xC000 := ht.cs
  have hip : t.ip = 3 := ht.ip
  have hr : Ready t := ⟨by rw [hcs]; rintro ⟨-, h⟩; exact absurd h (by decide), by rw [hcs]; rintro ⟨h, -⟩; exact absurd h (by decide), by rw [ht.num]; decide⟩
  have hcode : CodeAt t 0xC0003 ([] ++ [0xF4]) := by
    intro i hi
    have : i = 0 := by simp at hi; exact hi
    subst this
    have e : linear 0xC000 (3 + BitVec.ofNat 16 0) = 0xC0003 := rfl
    refine ⟨?_, (kt.valid _).mpr (by omega), ?_⟩
    · rw [hcs, hip, kern_hostAddr kt, e, if_neg (by omega), if_pos (by omega)]
    · rw [ht.host _ (by omega), Nat.add_zero, (setup_host (mem := memHlt) layoutDemo).1 _ (by omega)]
      rfl
  refine ⟨opState t {} 1, ?_, rfl⟩
  rw [hk, rmeCall, runOne_code_err hr hcode (kernEnv pin) rfl (by decide) (e := ⟨.base .hlt, 0, false⟩) rfl (a := 0) rfl .halt _ rfl (by decide) (by decide)]
  rfl

/-- Vectors as in C83_violated_hma and C83_violated_cross. -/
example : vec10 (fun a => if a = 0x40 then 0x10 else if a = 0x42 ∨ a = 0x43 then 0xFF else 0) = (0xFFFF, 0x0010) := by decide
example : vec10 (fun a => if a = 0x40 then 0xFE else if a = 0x41 then 0x0F else if a = 0xFFE then 0xB8 else 0) = (0, 0x0FFE) := by decide

/-- Callbacks that leave everything alone, as the kernel's (it has none), meet the hypothesis of C03_allocated. -/
example (pin : List IOEv → Nat → BitVec 16 → BitVec 32) : CallbacksKeep (kernEnv pin) Frozen := fun _ _ _ h => by cases h

end RME.Testkern
