import Verif.Lemmas.RlOps
import Verif.Props.NoUB
set_option autoImplicit false
/-
C48: the debug level does not influence the emulation.
C64: neither does the place of the guest memory in host memory, nor any host byte outside of it.
-/
set_option linter.unusedSectionVars false
namespace RME

/-! ### C48: specification -/

/-- The machines differ in the debug level at most. -/
def DebugOnly (s t : State) : Prop := ∃ d, t = { s with debugLevel := d }

/-- … and both of them print the instruction dump (level 1 and above), or neither does. -/
def DebugClass (s t : State) : Prop := ∃ d, t = { s with debugLevel := d } ∧ (1 ≤ d ↔ 1 ≤ s.debugLevel)

/-- Every byte of the guest's address space is mapped and allocated (blocks may lie anywhere). -/
def AllMapped (s : State) : Prop := ∀ b < 272, ∃ h, s.map b = some h ∧ ∀ k < 4096, s.valid (h + k) = true

/-- Callbacks take no notice of the debug level. -/
def CallbacksRespect (env : Env) (R : State → State → Prop) : Prop := ∀ n f s t, env.hle n = some f → R s t → R (f s) (f t)

/-- The two calls of `RME_Call` do the same: both return, with the same code (or undefined behaviour), in
states related by `R`, after the same number of instructions; or both run forever. -/
def SameCalls (R : State → State → Prop) (e₁ e₂ : Env) (s t : State) : Prop :=
  ∀ fuel, match rmeCall e₁ fuel s, rmeCall e₂ fuel t with
    | some r, some r' => SameOutcome R r r'
    | none, none => True
    | _, _ => False

/-- The same for `RME_CallInt`. -/
def SameCallInts (R : State → State → Prop) (e₁ e₂ : Env) (num : Int) (s t : State) : Prop :=
  ∀ fuel, match rmeCallInt e₁ fuel num s, rmeCallInt e₂ fuel num t with
    | some r, some r' => SameOutcome R r r'
    | none, none => True
    | _, _ => False

/-- The full property. -/
def C48_Full : Prop := ∀ (env : Env) (s t : State), CallbacksRespect env DebugOnly → DebugOnly s t →
  SameOutcome DebugOnly (runOne env s) (runOne env t)

/-! ### C48: proofs -/

theorem SameOutcome.mono {R R' : State → State → Prop} (h : ∀ s t, R s t → R' s t) {r r'} (hr : SameOutcome R r r') : SameOutcome R' r r' := by
  cases r <;> cases r' <;> first | exact hr.elim | exact h _ _ hr | exact ⟨hr.1, h _ _ hr.2⟩ | exact hr

/-- Same host memory, settings related by `E`, memory satisfying `F`. -/
def rcSame (env : Env) (E : Settings → Settings → Prop) (F : (Nat → Option Nat) → (Nat → Bool) → Prop) : Rc :=
  { e₁ := env, e₂ := env, P := fun _ => True, ρ := id, E := E, F := fun m v m' v' => m' = m ∧ v' = v ∧ F m v }

/-- Memory and registers equal, settings related. -/
def SameBut (E : Settings → Settings → Prop) (F : (Nat → Option Nat) → (Nat → Bool) → Prop) (s t : State) : Prop :=
  ∃ c d l n, t = { s with cpuType := c, debugLevel := d, lastNull := l, instrNum := n } ∧ E s.settings t.settings ∧ F s.map s.valid

theorem rcSame_R {env : Env} {E : Settings → Settings → Prop} {F : (Nat → Option Nat) → (Nat → Bool) → Prop} {s t : State} :
    (rcSame env E F).R s t ↔ SameBut E F s t := by
  constructor
  · rintro ⟨h, hE, h1, h2, h3⟩
    refine ⟨t.cpuType, t.debugLevel, t.lastNull, t.instrNum, ?_, hE, h3⟩
    exact State.ext' h.gpr h.sreg h.ip h.flags rfl rfl h1 (funext fun a => h.host a trivial) h2 rfl rfl h.dec h.io
  · rintro ⟨c, d, l, n, rfl, hE, hF⟩
    exact ⟨⟨rfl, rfl, rfl, rfl, rfl, rfl, fun _ _ h => h, fun b _ h hm => ⟨hm, fun k _ => ⟨trivial, rfl⟩⟩, fun _ _ => rfl, fun _ _ => rfl⟩,
      hE, rfl, rfl, hF⟩

theorem rcSame_ok {env : Env} {E : Settings → Settings → Prop} {F : (Nat → Option Nat) → (Nat → Bool) → Prop}
    (h : CallbacksRespect env (SameBut E F)) : (rcSame env E F).Ok where
  inj := fun _ _ _ _ h => h
  host := ⟨rfl, rfl, fun _ h => h, fun n f hf => ⟨f, hf, fun s t hr => rcSame_R.2 (h n f s t hf (rcSame_R.1 hr))⟩⟩

/-- Everything but the debug level agrees. -/
def eDebug (a b : Settings) : Prop := b.cpuType = a.cpuType ∧ b.lastNull = a.lastNull ∧ b.instrNum = a.instrNum
def eClass (a b : Settings) : Prop := eDebug a b ∧ (1 ≤ b.debugLevel ↔ 1 ≤ a.debugLevel)
def fAll (m : Nat → Option Nat) (v : Nat → Bool) : Prop := ∀ b < 272, ∃ h, m b = some h ∧ ∀ k < 4096, v (h + k) = true

theorem sameBut_debug {F : (Nat → Option Nat) → (Nat → Bool) → Prop} {s t : State} :
    SameBut eDebug F s t ↔ DebugOnly s t ∧ F s.map s.valid := by
  constructor
  · rintro ⟨c, d, l, n, rfl, ⟨h1, h2, h3⟩, hF⟩
    simp only [State.settings] at h1 h2 h3
    subst h1 h2 h3
    exact ⟨⟨d, rfl⟩, hF⟩
  · rintro ⟨⟨d, rfl⟩, hF⟩
    exact ⟨s.cpuType, d, s.lastNull, s.instrNum, rfl, ⟨rfl, rfl, rfl⟩, hF⟩
theorem sameBut_class {s t : State} : SameBut eClass (fun _ _ => True) s t ↔ DebugClass s t := by
  constructor
  · rintro ⟨c, d, l, n, rfl, ⟨⟨h1, h2, h3⟩, h4⟩, hF⟩
    simp only [State.settings] at h1 h2 h3
    subst h1 h2 h3
    exact ⟨d, rfl, h4⟩
  · rintro ⟨d, rfl, h⟩
    exact ⟨s.cpuType, d, s.lastNull, s.instrNum, rfl, ⟨⟨rfl, rfl, rfl⟩, h⟩, trivial⟩

theorem rcClass_step {env : Env} (h : CallbacksRespect env DebugClass) : (rcSame env eClass (fun _ _ => True)).Step :=
  have hk : (rcSame env eClass (fun _ _ => True)).Ok := rcSame_ok fun n f s t hf hr => sameBut_class.2 (h n f s t hf (sameBut_class.1 hr))
  { toOk := hk
    cpu := fun _ _ h => h.1.1
    num := fun _ _ h => h.1.2.2
    null := fun _ _ h => h.1.2.1
    setNum := fun _ _ _ h => ⟨⟨h.1.1, h.1.2.1, rfl⟩, h.2⟩
    setNull := fun _ _ _ h => ⟨⟨h.1.1, rfl, h.1.2.2⟩, h.2⟩
    dbg := Rl.debugTail_level fun _ _ h => h.2 }

/-- On a fully mapped machine the instruction dump succeeds. -/
theorem readMem8_all {env : Env} {s : State} (h : fAll s.map s.valid) (seg ofs : BitVec 16) : ∃ v, readMem 8 seg ofs env s = .ok v s := by
  have hl := linear_lt seg ofs
  obtain ⟨a, h1, h2⟩ := h (linear seg ofs / 4096) (by omega)
  refine ⟨_, readMem_mapped (h := a + linear seg ofs % 4096) env ⟨by simp [hostAddr, h1], fun i hi => ?_⟩⟩
  have : i = 0 := by omega
  subst this
  exact h2 _ (Nat.mod_lt _ (by decide))
theorem dumpLoop_all {env : Env} {s : State} (h : fAll s.map s.valid) (cs) (j : Nat) : ∀ i, dumpLoop cs j i env s = .ok () s := by
  induction j with
  | zero => intro i; rfl
  | succ j ih =>
    intro i
    obtain ⟨v, hv⟩ := readMem8_all (env := env) h cs i
    simp only [dumpLoop, bind_apply, hv, resbind_ok, ih]
theorem debugTail_all {env : Env} {s : State} (h : fAll s.map s.valid) (cs ip) : debugTail cs ip env s = .ok () s := by
  simp only [debugTail, bind_apply, gets_apply, resbind_ok, ite_apply, getDec_apply, dumpLoop_all h]
  split <;> rfl

theorem rcAll_step {env : Env} (h : CallbacksRespect env fun s t => DebugOnly s t ∧ AllMapped s) : (rcSame env eDebug fAll).Step :=
  have hk : (rcSame env eDebug fAll).Ok := rcSame_ok fun n f s t hf hr => sameBut_debug.2 (h n f s t hf (sameBut_debug.1 hr))
  { toOk := hk
    cpu := fun _ _ h => h.1
    num := fun _ _ h => h.2.2
    null := fun _ _ h => h.2.1
    setNum := fun _ _ _ h => ⟨h.1, h.2.1, rfl⟩
    setNull := fun _ _ _ h => ⟨h.1, rfl, h.2.2⟩
    dbg := fun cs ip s t h => by
      have hs : fAll s.map s.valid := h.2.2.2.2
      have ht : fAll t.map t.valid := by rw [h.2.2.1, h.2.2.2.1]; exact hs
      rw [debugTail_all hs, debugTail_all ht]
      exact ⟨h, rfl⟩ }

/-- **C48** (levels that agree on printing the dump; all memory layouts): one call of `RME_RunOne` has the
same outcome. -/
theorem C48_same_class_partial (env : Env) (hcb : CallbacksRespect env DebugClass) (s t : State) (h : DebugClass s t) :
    SameOutcome DebugClass (runOne env s) (runOne env t) :=
  haveI := rcClass_step hcb
  (Rl.runOne_same (c := rcSame env eClass (fun _ _ => True)) (rcSame_R.2 (sameBut_class.2 h))).mono
    fun _ _ h => sameBut_class.1 (rcSame_R.1 h)

/-- **C48** (any two levels; fully mapped machine): one call of `RME_RunOne` has the same outcome. -/
theorem C48_all_mapped_partial (env : Env) (hcb : CallbacksRespect env fun s t => DebugOnly s t ∧ AllMapped s) (s t : State)
    (h : DebugOnly s t) (hm : AllMapped s) : SameOutcome (fun s t => DebugOnly s t ∧ AllMapped s) (runOne env s) (runOne env t) :=
  haveI := rcAll_step hcb
  (Rl.runOne_same (c := rcSame env eDebug fAll) (rcSame_R.2 (sameBut_debug.2 ⟨h, hm⟩))).mono fun _ _ h => sameBut_debug.1 (rcSame_R.1 h)

/-- **C48** for whole runs: `RME_Call` and `RME_CallInt` at any two debug levels. -/
theorem C48_calls_partial (env : Env) (hcb : CallbacksRespect env fun s t => DebugOnly s t ∧ AllMapped s) (s t : State)
    (h : DebugOnly s t) (hm : AllMapped s) (num : Int) :
    SameCalls (fun s t => DebugOnly s t ∧ AllMapped s) env env s t ∧
    SameCallInts (fun s t => DebugOnly s t ∧ AllMapped s) env env num s t := by
  haveI := rcAll_step hcb
  have hR : (rcSame env eDebug fAll).R s t := rcSame_R.2 (sameBut_debug.2 ⟨h, hm⟩)
  constructor
  · intro fuel
    have := Rl.rmeCall_same (c := rcSame env eDebug fAll) fuel hR
    simp only [show (rcSame env eDebug fAll).e₁ = env from rfl, show (rcSame env eDebug fAll).e₂ = env from rfl] at this
    cases h1 : rmeCall env fuel s <;> cases h2 : rmeCall env fuel t <;> rw [h1, h2] at this <;> first | exact this.elim | trivial | skip
    exact this.mono fun _ _ h => sameBut_debug.1 (rcSame_R.1 h)
  · intro fuel
    have := Rl.rmeCallInt_same (c := rcSame env eDebug fAll) fuel num hR
    simp only [show (rcSame env eDebug fAll).e₁ = env from rfl, show (rcSame env eDebug fAll).e₂ = env from rfl] at this
    cases h1 : rmeCallInt env fuel num s <;> cases h2 : rmeCallInt env fuel num t <;> rw [h1, h2] at this <;> first | exact this.elim | trivial | skip
    exact this.mono fun _ _ h => sameBut_debug.1 (rcSame_R.1 h)

/-! ### C48: violation and non-vacuity -/

/-- `MOV AX,3412h` whose immediate straddles the end of the only mapped code block (1000:0FFE … 1000:1000), seen at
a given debug level. -/
def c48W (lvl : Int) : State := { demo [] with
  ip := 0xFFE
  host := fun a => if a = 0x10FFE then 0xB8 else if a = 0x10FFF then 0x12 else if a = 0x11000 then 0x34 else 0
  map := fun b => if b < 17 then some (b * 4096) else none
  debugLevel := lvl }

/-- C48 violated: at level 0 the instruction succeeds, at level 1 `RME_RunOne` reports BADMEM (checked build), or
dereferences a null pointer (shipped build), because the dump reads the instruction again byte by byte. -/
theorem C48_violated_dump :
    runOne { demoEnv with nullCheck := true } (c48W 0) = .ok () (nx { demoEnv with nullCheck := true } (c48W 0)) ∧
    runOne { demoEnv with nullCheck := true } (c48W 1) = .err .badmem (nx { demoEnv with nullCheck := true } (c48W 1)) ∧
    runOne demoEnv (c48W 1) = .ub .nullBlock ∧ (nx demoEnv (c48W 0)).reg 16 0 = 0x3412 :=
  ⟨conc_ok (by decide +kernel), conc_err (by decide +kernel), conc_ub (by decide +kernel), by decide +kernel⟩

theorem C48_violated : ¬ C48_Full := fun h => by
  have := h { demoEnv with nullCheck := true } (c48W 0) (c48W 1) (fun _ _ _ _ h => by cases h) ⟨1, rfl⟩
  rw [C48_violated_dump.1, C48_violated_dump.2.1] at this
  exact this

theorem demo_all (code : List (BitVec 8)) : AllMapped (demo code) := fun b hb =>
  ⟨b * 4096, if_pos hb, fun k hk => decide_eq_true (by omega)⟩

/-- The hypotheses are met and the conclusion says something: `INC AX` at levels 0 and 7 succeeds on both sides with the
same registers. -/
example : ∃ t t', runOne demoEnv (demo [0x40]) = .ok () t ∧ runOne demoEnv { demo [0x40] with debugLevel := 7 } = .ok () t' ∧
    DebugOnly t t' ∧ t'.reg 16 0 = 0x56 := by
  have h1 := conc_ok (env := demoEnv) (s := demo [0x40]) (by decide +kernel)
  have h2 := conc_ok (env := demoEnv) (s := { demo [0x40] with debugLevel := 7 }) (by decide +kernel)
  have := C48_all_mapped_partial demoEnv (fun _ _ _ _ h => by cases h) (demo [0x40]) { demo [0x40] with debugLevel := 7 } ⟨7, rfl⟩ (demo_all _)
  rw [h1, h2] at this
  exact ⟨_, _, h1, h2, this.1, by decide +kernel⟩
/-- Levels 1 and 9 on the partly mapped machine: both fail the same way. -/
example : ∃ t t', runOne { demoEnv with nullCheck := true } (c48W 1) = .err .badmem t ∧
    runOne { demoEnv with nullCheck := true } (c48W 9) = .err .badmem t' ∧ DebugClass t t' := by
  have h1 := C48_violated_dump.2.1
  have h2 := conc_err (env := { demoEnv with nullCheck := true }) (s := c48W 9) (e := .badmem) (by decide +kernel)
  have := C48_same_class_partial { demoEnv with nullCheck := true } (fun _ _ _ _ h => by cases h) (c48W 1) (c48W 9) ⟨9, rfl, by decide⟩
  rw [h1, h2] at this
  exact ⟨_, _, h1, h2, this.2⟩

/-! ### C64: place of the guest memory -/

/-- Related machines: guest memory moved, settings equal. -/
def MovedTo (P : Nat → Prop) (ρ : Nat → Nat) (s t : State) : Prop := Moved P ρ s t ∧ t.settings = s.settings

def rcMove (e₁ e₂ : Env) (P : Nat → Prop) (ρ : Nat → Nat) : Rc :=
  { e₁ := e₁, e₂ := e₂, P := P, ρ := ρ, E := fun a b => b = a, F := fun _ _ _ _ => True }
theorem rcMove_R {e₁ e₂ : Env} {P : Nat → Prop} {ρ : Nat → Nat} {s t : State} : (rcMove e₁ e₂ P ρ).R s t ↔ MovedTo P ρ s t :=
  ⟨fun h => ⟨h.1, h.2.1⟩, fun h => ⟨h.1, h.2, trivial⟩⟩
theorem rcMove_step {e₁ e₂ : Env} {P : Nat → Prop} {ρ : Nat → Nat} (hi : InjOn P ρ) (hh : SameHost (MovedTo P ρ) e₁ e₂) : (rcMove e₁ e₂ P ρ).Step :=
  have hk : (rcMove e₁ e₂ P ρ).Ok := {
    inj := hi
    host := ⟨hh.nullCheck, hh.portIn, hh.hleNone, fun n f hf =>
      let ⟨g, h1, h2⟩ := hh.hle n f hf
      ⟨g, h1, fun s t h => rcMove_R.2 (h2 s t (rcMove_R.1 h))⟩⟩ }
  { toOk := hk
    cpu := fun a b h => by rw [show b = a from h]
    num := fun a b h => by rw [show b = a from h]
    null := fun a b h => by rw [show b = a from h]
    setNum := fun a b n h => by rw [show b = a from h]; rfl
    setNull := fun a b n h => by rw [show b = a from h]; rfl
    dbg := Rl.debugTail_level fun a b h => by rw [show b = a from h] }

/-- **C64**: moving the guest memory to another place in host memory (each block together with the three bytes behind it,
nothing merged) does not change what `RME_RunOne` does: same return code, and the resulting machines correspond again. -/
theorem C64_relocation (e₁ e₂ : Env) (P : Nat → Prop) (ρ : Nat → Nat) (hi : InjOn P ρ) (hh : SameHost (MovedTo P ρ) e₁ e₂) (s t : State)
    (h : MovedTo P ρ s t) : SameOutcome (MovedTo P ρ) (runOne e₁ s) (runOne e₂ t) :=
  haveI := rcMove_step hi hh
  (Rl.runOne_same (c := rcMove e₁ e₂ P ρ) (rcMove_R.2 h)).mono fun _ _ h => rcMove_R.1 h

/-- **C64** for whole runs. -/
theorem C64_relocation_calls (e₁ e₂ : Env) (P : Nat → Prop) (ρ : Nat → Nat) (hi : InjOn P ρ) (hh : SameHost (MovedTo P ρ) e₁ e₂) (s t : State)
    (h : MovedTo P ρ s t) (num : Int) : SameCalls (MovedTo P ρ) e₁ e₂ s t ∧ SameCallInts (MovedTo P ρ) e₁ e₂ num s t := by
  haveI := rcMove_step hi hh
  have hR : (rcMove e₁ e₂ P ρ).R s t := rcMove_R.2 h
  constructor
  · intro fuel
    have := Rl.rmeCall_same (c := rcMove e₁ e₂ P ρ) fuel hR
    simp only [show (rcMove e₁ e₂ P ρ).e₁ = e₁ from rfl, show (rcMove e₁ e₂ P ρ).e₂ = e₂ from rfl] at this
    cases h1 : rmeCall e₁ fuel s <;> cases h2 : rmeCall e₂ fuel t <;> rw [h1, h2] at this <;> first | exact this.elim | trivial | skip
    exact this.mono fun _ _ h => rcMove_R.1 h
  · intro fuel
    have := Rl.rmeCallInt_same (c := rcMove e₁ e₂ P ρ) fuel num hR
    simp only [show (rcMove e₁ e₂ P ρ).e₁ = e₁ from rfl, show (rcMove e₁ e₂ P ρ).e₂ = e₂ from rfl] at this
    cases h1 : rmeCallInt e₁ fuel num s <;> cases h2 : rmeCallInt e₂ fuel num t <;> rw [h1, h2] at this <;> first | exact this.elim | trivial | skip
    exact this.mono fun _ _ h => rcMove_R.1 h

/-! ### C65: host memory outside the registered blocks is never read -/

/-- A host byte of a registered block, or one of the three bytes behind a block. -/
def InBlocks (s : State) (a : Nat) : Prop := ∃ b < 272, ∃ h, s.map b = some h ∧ h ≤ a ∧ a < h + 4099

/-- Two machines that differ only in host bytes outside the region `P` (contents and accessibility). -/
def DifferOutside (P : Nat → Prop) (s t : State) : Prop :=
  ∃ host valid, t = { s with host := host, valid := valid } ∧ (∀ a, P a → host a = s.host a ∧ valid a = s.valid a) ∧
    ∀ a, InBlocks s a → P a

def rcOutside (env : Env) (P : Nat → Prop) : Rc :=
  { e₁ := env, e₂ := env, P := P, ρ := id, E := fun a b => b = a, F := fun m _ m' _ => m' = m }
theorem rcOutside_R {env : Env} {P : Nat → Prop} {s t : State} : (rcOutside env P).R s t ↔ DifferOutside P s t := by
  constructor
  · rintro ⟨h, hE, hF⟩
    have hE : t.settings = s.settings := hE
    simp only [State.settings, Settings.mk.injEq] at hE
    refine ⟨t.host, t.valid, State.ext' h.gpr h.sreg h.ip h.flags hE.1 hE.2.1 hF rfl rfl hE.2.2.2 hE.2.2.1 h.dec h.io,
      fun a ha => ⟨h.host a ha, h.valid a ha⟩, ?_⟩
    rintro a ⟨b, hb, x, hx, h1, h2⟩
    have := ((h.mapped b hb x hx).2 (a - x) (by omega)).1
    rwa [show x + (a - x) = a by omega] at this
  · rintro ⟨host, valid, rfl, h1, h2⟩
    exact ⟨⟨rfl, rfl, rfl, rfl, rfl, rfl, fun _ _ h => h, fun b hb x hx => ⟨hx, fun k hk => ⟨h2 _ ⟨b, hb, x, hx, by omega, by omega⟩, rfl⟩⟩,
      fun a ha => (h1 a ha).1, fun a ha => (h1 a ha).2⟩, rfl, rfl⟩
theorem rcOutside_step {env : Env} {P : Nat → Prop} (hcb : CallbacksRespect env (DifferOutside P)) : (rcOutside env P).Step :=
  have hk : (rcOutside env P).Ok := {
    inj := fun _ _ _ _ h => h
    host := ⟨rfl, rfl, fun _ h => h, fun n f hf => ⟨f, hf, fun s t h => rcOutside_R.2 (hcb n f s t hf (rcOutside_R.1 h))⟩⟩ }
  { toOk := hk
    cpu := fun a b h => by rw [show b = a from h]
    num := fun a b h => by rw [show b = a from h]
    null := fun a b h => by rw [show b = a from h]
    setNum := fun a b n h => by rw [show b = a from h]; rfl
    setNull := fun a b n h => by rw [show b = a from h]; rfl
    dbg := Rl.debugTail_level fun a b h => by rw [show b = a from h] }

/-- **C65**: host bytes outside the registered blocks (and the three bytes behind each) have no influence on the emulation,
for every guest program: the return code is the same, and so is everything in the resulting machines except those bytes. -/
theorem C65_secrets (env : Env) (P : Nat → Prop) (hcb : CallbacksRespect env (DifferOutside P)) (s t : State) (h : DifferOutside P s t) :
    SameOutcome (DifferOutside P) (runOne env s) (runOne env t) :=
  haveI := rcOutside_step hcb
  (Rl.runOne_same (c := rcOutside env P) (rcOutside_R.2 h)).mono fun _ _ h => rcOutside_R.1 h

/-- **C65** for whole runs of `RME_Call` and `RME_CallInt`. -/
theorem C65_secrets_calls (env : Env) (P : Nat → Prop) (hcb : CallbacksRespect env (DifferOutside P)) (s t : State) (h : DifferOutside P s t)
    (num : Int) : SameCalls (DifferOutside P) env env s t ∧ SameCallInts (DifferOutside P) env env num s t := by
  haveI := rcOutside_step hcb
  have hR : (rcOutside env P).R s t := rcOutside_R.2 h
  constructor
  · intro fuel
    have := Rl.rmeCall_same (c := rcOutside env P) fuel hR
    simp only [show (rcOutside env P).e₁ = env from rfl, show (rcOutside env P).e₂ = env from rfl] at this
    cases h1 : rmeCall env fuel s <;> cases h2 : rmeCall env fuel t <;> rw [h1, h2] at this <;> first | exact this.elim | trivial | skip
    exact this.mono fun _ _ h => rcOutside_R.1 h
  · intro fuel
    have := Rl.rmeCallInt_same (c := rcOutside env P) fuel num hR
    simp only [show (rcOutside env P).e₁ = env from rfl, show (rcOutside env P).e₂ = env from rfl] at this
    cases h1 : rmeCallInt env fuel num s <;> cases h2 : rmeCallInt env fuel num t <;> rw [h1, h2] at this <;> first | exact this.elim | trivial | skip
    exact this.mono fun _ _ h => rcOutside_R.1 h

/-- `MOV AX,[0FFFh]` with DS = 3000h, block 31h mapped elsewhere and `v` in the first host byte behind block 30h. -/
def straddleRead (v : BitVec 8) : State := { straddleState with
  host := fun a => if a = 0x10100 then 0xA1 else if a = 0x31000 then v else straddleState.host a }
/-- The three bytes behind a block really can be read: `v` ends up in AH. -/
theorem C65_straddle : (∃ t, runOne demoEnv (straddleRead 0x11) = .ok () t ∧ t.regH 8 0 = 0x11) ∧
    ∃ t, runOne demoEnv (straddleRead 0x22) = .ok () t ∧ t.regH 8 0 = 0x22 :=
  ⟨⟨_, conc_ok (by decide +kernel), by decide +kernel⟩, _, conc_ok (by decide +kernel), by decide +kernel⟩

/-- Non-vacuity of C64: the demo machine with its memory 5 MiB higher (`ADD [BX+SI],AL` reads and writes memory). -/
def shifted (code : List (BitVec 8)) : State := { demo code with
  map := fun b => if b < 272 then some (b * 4096 + 0x500000) else none
  host := fun a => (demo code).host (a - 0x500000)
  valid := fun a => decide (0x500000 ≤ a) && (demo code).valid (a - 0x500000) }
example (code : List (BitVec 8)) : InjOn (fun _ => True) (· + 0x500000) ∧ SameHost (MovedTo (fun _ => True) (· + 0x500000)) demoEnv demoEnv ∧
    MovedTo (fun _ => True) (· + 0x500000) (demo code) (shifted code) := by
  refine ⟨fun a b _ _ h => by simpa using h, ⟨rfl, rfl, fun _ h => h, fun _ _ h => by cases h⟩,
    ⟨by simp only [shifted], by simp only [shifted], by simp only [shifted], by simp only [shifted], by simp only [shifted],
      by simp only [shifted], ?_, ?_, fun a _ => ?_, fun a _ => ?_⟩, by simp only [State.settings, shifted]⟩
  · intro b hb h; simp only [demo, if_pos hb] at h; cases h
  · intro b hb h hm
    simp only [demo, if_pos hb] at hm
    cases hm
    exact ⟨if_pos hb, fun k _ => ⟨trivial, by omega⟩⟩
  · simp [shifted]
  · simp [shifted]
example : ∃ t t', runOne demoEnv (demo [0x00, 0x00]) = .ok () t ∧ runOne demoEnv (shifted [0x00, 0x00]) = .ok () t' ∧
    t.host 0x30210 = 0x55 ∧ t'.host 0x530210 = 0x55 ∧ t'.ip = 0x102 :=
  ⟨_, _, conc_ok (by decide +kernel), conc_ok (by decide +kernel), by decide +kernel, by decide +kernel, by decide +kernel⟩
/-- Non-vacuity of C65: a secret byte at host address 2000000h. -/
example (code : List (BitVec 8)) (v : BitVec 8) : DifferOutside (InBlocks (demo code)) (demo code)
    { demo code with host := fun a => if a = 0x2000000 then v else (demo code).host a } := by
  refine ⟨_, _, rfl, ?_, fun a h => h⟩
  rintro a ⟨b, hb, h, hm, h1, h2⟩
  simp only [demo, if_pos hb] at hm
  cases hm
  exact ⟨if_neg (by omega), rfl⟩

end RME
