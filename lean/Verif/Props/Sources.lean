import Verif.Lemmas.DepStep
import Verif.Props.TwoRuns
set_option autoImplicit false
/-
C87: 16-bit code never sees the upper register halves.
C88: an instruction depends only on its sources.
-/
namespace RME

/-! ### C88 -/

/-- `d`, with prefixes `p` and ModR/M byte `m`, reads none of the hidden registers and flags. -/
def Avoids (regs : BitVec 3 → Bool) (segs : SReg → Bool) (fl : BitVec 16) (d : Src) (m : BitVec 8) (p : Pfx) : Prop :=
  (∀ r, regs r = true → d.readsReg p m r = false) ∧ (∀ r, segs r = true → d.readsSeg p m r = false) ∧ d.readsFlags &&& fl = 0

/-- The full property: two machines that differ only in registers and flags which are not sources of the instruction at CS:IP do the same,
and afterwards they differ at most in the same registers and flags. -/
def C88_Full : Prop := ∀ (env : Env) (s t : State) (regs : BitVec 3 → Bool) (segs : SReg → Bool) (fl : BitVec 16), Ready s →
  DiffersIn regs segs fl s t → segs .cs = false → (∀ d m p, HasSrc s d m p → Avoids regs segs fl d m p) →
  SameOutcome (DiffersIn regs segs fl) (runOne env s) (runOne env t)

def hidOf (regs : BitVec 3 → Bool) (segs : SReg → Bool) (fl : BitVec 16) : Hid := ⟨fun r => if regs r then 0 else 32, fl, segs, {}⟩

theorem feq_iff {q f g : BitVec 16} : FEq q f g ↔ f &&& ~~~q = g &&& ~~~q := by
  constructor
  · intro h
    apply BitVec.eq_of_getLsbD_eq
    intro i hi
    simp only [BitVec.getLsbD_and, BitVec.getLsbD_not, hi, decide_true, Bool.true_and]
    cases hq : q.getLsbD i
    · rw [h i hq]
    · simp
  · intro h i hq
    by_cases hi : i < 16
    · have := congrArg (fun x => BitVec.getLsbD x i) h
      simp only [BitVec.getLsbD_and, BitVec.getLsbD_not, hi, hq, decide_true, Bool.not_false, Bool.and_true] at this
      exact this
    · rw [BitVec.getLsbD_of_ge _ _ (by omega), BitVec.getLsbD_of_ge _ _ (by omega)]

theorem hidOf_sim {regs segs fl} {s t : State} : (hidOf regs segs fl).Sim s t ↔ DiffersIn regs segs fl s t := by
  constructor
  · intro h
    refine ⟨fun r hr => (h.gpr r).eq ?_, h.sreg, feq_iff.1 h.flags, h.ip, h.cpuType, h.debugLevel, h.map, h.host, h.valid, h.instrNum, h.lastNull, h.dec, h.io⟩
    simp [hidOf, hr]
  · intro h
    refine ⟨fun r => ?_, feq_iff.2 h.flags, h.sreg, h.ip, h.cpuType, h.debugLevel, h.map, h.host, h.valid, h.instrNum, h.lastNull, h.dec, h.io⟩
    cases hr : regs r
    · rw [h.gpr r hr]; exact LowEq.refl _
    · intro i hi; simp [hidOf, hr] at hi

theorem hidOf_regX {regs segs fl} {p : Pfx} {r : BitVec 3} : Hid.RegX { hidOf regs segs fl with p := p } r ↔ regs r = false := by
  unfold Hid.RegX
  cases hr : regs r <;> simp [hidOf, hr]

theorem hidOf_cov {regs segs fl} {d m p} (h : Avoids regs segs fl d m p) : Hid.Cov { hidOf regs segs fl with p := p } m d := by
  obtain ⟨h1, h2, h3⟩ := h
  have h1 : ∀ r, d.readsReg p m r = true → regs r = false := fun r hr => by
    cases hc : regs r
    · rfl
    · rw [h1 r hc] at hr; cases hr
  have h2 : ∀ r, d.readsSeg p m r = true → segs r = false := fun r hr => by
    cases hc : segs r
    · rfl
    · rw [h2 r hc] at hr; cases hr
  have hea : modOf m ≠ 3 → (∀ r, eaReads p.addr m r = true → d.readsReg p m r = true) → Hid.EaOfs { hidOf regs segs fl with p := p } m :=
    fun _ h r hr => hidOf_regX.2 (h1 r (h r hr))
  cases d with
  | rm8 => exact ⟨fun h => hidOf_regX.2 (h1 _ (by simp [Src.readsReg, h])), fun h => ⟨hea h (by simp [Src.readsReg, h]), h2 _ (by simp [Src.readsSeg, h])⟩⟩
  | rm => exact ⟨fun h => hidOf_regX.2 (h1 _ (by simp [Src.readsReg, h])), fun h => ⟨hea h (by simp [Src.readsReg, h]), h2 _ (by simp [Src.readsSeg, h])⟩⟩
  | addr => exact fun h => ⟨hea h (by simp [Src.readsReg, h]), h2 _ (by simp [Src.readsSeg, h])⟩
  | ofs => exact fun h => hea h (by simp [Src.readsReg, h])
  | reg8 => exact hidOf_regX.2 (h1 _ (by simp [Src.readsReg]))
  | reg => exact hidOf_regX.2 (h1 _ (by simp [Src.readsReg]))
  | gpr r => exact hidOf_regX.2 (h1 _ (by simp [Src.readsReg]))
  | sreg r => exact h2 _ (by simp [Src.readsSeg])
  | dseg r => exact h2 _ (by simp [Src.readsSeg])
  | flags q => exact (BitVec.and_comm _ _).trans h3
  | count => exact fun h => hidOf_regX.2 (h1 _ (by simp [Src.readsReg, h]))
  | fault => exact ⟨hidOf_regX.2 (h1 _ (by simp [Src.readsReg])), h2 _ (by simp [Src.readsSeg]), allFlags ((BitVec.and_comm _ _).trans h3)⟩
  | any => exact ⟨fun r => hidOf_regX.2 (h1 _ (by simp [Src.readsReg])), fun r => h2 _ (by simp [Src.readsSeg]), allFlags ((BitVec.and_comm _ _).trans h3)⟩

/-- C88: take any instruction (at CS:IP of a machine that is ready to run one) and any set of general registers, segment registers (not CS) and flag bits
that are no sources of the instruction by the manual (`srcs`, `srcs0F`). Two machines which differ only there do the same: same return code or undefined
behaviour, same port accesses, same memory, and all other registers and flags are the same afterwards. What is missing: SHLD/SHRD with a register operand
numbered 4–7, which read a wrong register (`C88_violated_shxd`). -/
theorem C88_sources_partial (env : Env) (s t : State) (regs : BitVec 3 → Bool) (segs : SReg → Bool) (fl : BitVec 16) (hr : Ready s) (hno : ¬ ShxdUpper s)
    (h : DiffersIn regs segs fl s t) (hcs : segs .cs = false) (hd : ∀ d m p, HasSrc s d m p → Avoids regs segs fl d m p) :
    SameOutcome (DiffersIn regs segs fl) (runOne env s) (runOne env t) := by
  refine (dep_main (H := hidOf regs segs fl) hcs hr (hidOf_sim.2 h) (Or.inl hno) (fun d m p hs => hidOf_cov (hd d m p hs)) ?_).mono fun _ _ h => hidOf_sim.1 h
  rintro ⟨m, p, ha⟩ n f _ a b hab
  have hc := hidOf_cov (hd _ m p ha)
  have hab := hidOf_sim.1 hab
  have hg : a.gpr = b.gpr := funext fun r => hab.gpr r (hidOf_regX.1 (hc.1 r))
  have hs : a.sreg = b.sreg := funext fun r => hab.sreg r (hc.2.1 r)
  have hf : a.flags = b.flags := by
    have h0 : fl = 0 := hc.2.2
    exact (hidOf_sim.2 hab).flags.eq h0
  have : b = a := State.ext' hg.symm hs.symm hab.ip.symm hf.symm hab.cpuType.symm hab.debugLevel.symm hab.map.symm hab.host.symm hab.valid.symm
    hab.instrNum.symm hab.lastNull.symm hab.dec.symm hab.io.symm
  subst this
  exact hidOf_sim.2 ⟨fun _ _ => rfl, fun _ _ => rfl, rfl, rfl, rfl, rfl, rfl, rfl, rfl, rfl, rfl, rfl, rfl⟩

/-! ### C88: violation and non-vacuity -/

/-- The code at CS:IP of the demo machine. -/
theorem demo_byte {code : List (BitVec 8)} {k : Nat} (hk : k < code.length) (hl : code.length ≤ 0x100) {s : State} (hcs : s.sreg .cs = 0x1000) (hip : s.ip = 0x100)
    (hmap : s.map = (demo code).map) (hh : s.host = (demo code).host) {b : BitVec 8} (h : ByteAt s k b) : b = code[k] := by
  obtain ⟨x, h1, _, h3⟩ := h
  have hx : x = 0x10100 + k := by
    simp only [hostAddr, hcs, hip, hmap] at h1
    have hlin : linear 0x1000 (0x100 + BitVec.ofNat 16 k) = 0x10100 + k := by
      simp [linear]; omega
    rw [hlin] at h1
    have hm : (demo code).map ((0x10100 + k) / 4096) = some ((0x10100 + k) / 4096 * 4096) := if_pos (by omega)
    rw [hm] at h1
    simp at h1
    omega
  subst hx
  rw [← h3, hh]
  show (if 0x10100 ≤ 0x10100 + k then code.getD (0x10100 + k - 0x10100) 0 else 0) = _
  rw [if_pos (by omega), Nat.add_sub_cancel_left]
  simp [hk]

/-- The sources of an instruction of the demo machine which has no prefixes. -/
theorem demo_src {c0 c1 c2 : BitVec 8} {rest : List (BitVec 8)} (hl : rest.length ≤ 200) (h0 : pfxKind c0 = none) {s : State} (hcs : s.sreg .cs = 0x1000)
    (hip : s.ip = 0x100) (hmap : s.map = (demo (c0 :: c1 :: c2 :: rest)).map) (hh : s.host = (demo (c0 :: c1 :: c2 :: rest)).host) {d m p} (h : HasSrc s d m p) :
    p = {} ∧ (((opForm c0 0).1 = false ∧ d ∈ srcs c0 0 ∧ m = 0) ∨ ((opForm c0 (regOf c1)).1 = true ∧ d ∈ srcs c0 (regOf c1) ∧ m = c1) ∨
      (c0 = 0x0F ∧ (opForm0F c1).1 = false ∧ d ∈ srcs0F c1 ∧ m = 0) ∨ (c0 = 0x0F ∧ (opForm0F c1).1 = true ∧ d ∈ srcs0F c1 ∧ m = c2)) := by
  have hb0 : ∀ {b}, ByteAt s 0 b → b = c0 := fun h => demo_byte (k := 0) (by simp) (by simp; omega) hcs hip hmap hh h
  have hb1 : ∀ {b}, ByteAt s 1 b → b = c1 := fun h => demo_byte (k := 1) (by simp) (by simp; omega) hcs hip hmap hh h
  have hb2 : ∀ {b}, ByteAt s 2 b → b = c2 := fun h => demo_byte (k := 2) (by simp) (by simp; omega) hcs hip hmap hh h
  have hpfx : ∀ {pfx p bs}, Pfx.parse {} pfx = some p → BytesAt s (pfx ++ bs) → pfx = [] ∧ p = {} := by
    intro pfx p bs hp hb
    cases pfx with
    | nil => simp [Pfx.parse] at hp; exact ⟨rfl, hp.symm⟩
    | cons b bs =>
      have := hb0 (hb 0 (by simp))
      simp at this
      subst this
      exact absurd h0 (((C36_prefixes _).1.1 ⟨_, hp⟩).1 _ (by simp))
  cases h with
  | @plain pfx p op d hp hb hf hd =>
    obtain ⟨rfl, rfl⟩ := hpfx hp hb
    have := hb0 (hb 0 (by simp)); simp at this; subst this
    exact ⟨rfl, Or.inl ⟨hf, hd, rfl⟩⟩
  | @modrm pfx p op m d hp hb hf hd =>
    obtain ⟨rfl, rfl⟩ := hpfx hp hb
    have := hb0 (hb 0 (by simp)); simp at this; subst this
    have := hb1 (hb 1 (by simp)); simp at this; subst this
    exact ⟨rfl, Or.inr (Or.inl ⟨hf, hd, rfl⟩)⟩
  | @plain0F pfx p op d hp hb hf hd =>
    obtain ⟨rfl, rfl⟩ := hpfx hp hb
    have h1 := hb0 (hb 0 (by simp)); simp at h1
    have := hb1 (hb 1 (by simp)); simp at this; subst this
    exact ⟨rfl, Or.inr (Or.inr (Or.inl ⟨h1.symm, hf, hd, rfl⟩))⟩
  | @modrm0F pfx p op m d hp hb hf hd =>
    obtain ⟨rfl, rfl⟩ := hpfx hp hb
    have h1 := hb0 (hb 0 (by simp)); simp at h1
    have := hb1 (hb 1 (by simp)); simp at this; subst this
    have := hb2 (hb 2 (by simp)); simp at this; subst this
    exact ⟨rfl, Or.inr (Or.inr (Or.inr ⟨h1.symm, hf, hd, rfl⟩))⟩

theorem demo_shxd {c0 c1 c2 : BitVec 8} {rest : List (BitVec 8)} (hl : rest.length ≤ 200) (h0 : pfxKind c0 = none) (h1 : c0 ≠ 0x0F) {s : State}
    (hcs : s.sreg .cs = 0x1000) (hip : s.ip = 0x100) (hmap : s.map = (demo (c0 :: c1 :: c2 :: rest)).map)
    (hh : s.host = (demo (c0 :: c1 :: c2 :: rest)).host) : ¬ ShxdUpper s := by
  rintro ⟨pfx, op, m, hg, _, hb, _⟩
  have hb0 : ∀ {b}, ByteAt s 0 b → b = c0 := fun h => demo_byte (k := 0) (by simp) (by simp; omega) hcs hip hmap hh h
  cases pfx with
  | nil =>
    have := hb0 (hb 0 (by simp))
    simp at this
    exact h1 this.symm
  | cons b bs =>
    have := hb0 (hb 0 (by simp))
    simp at this
    subst this
    exact absurd h0 (hg.1 _ (by simp))

/-- SHLD CX, SP, 4 (`0F A4 E1 04`), with EAX = `v`. -/
def c88W (v : BitVec 32) : State := (demo [0x0F, 0xA4, 0xE1, 0x04]).setGpr 0 v

/-- C88 violated: SHLD CX, SP, 4 shifts bits of EAX into CX (instead of SP), although EAX is not one of its sources. -/
theorem C88_violated_shxd : ∃ t t', runOne demoEnv (c88W 0) = .ok () t ∧ runOne demoEnv (c88W 0xF00000) = .ok () t' ∧
    DiffersIn (fun r => r = 0) (fun _ => false) 0 (c88W 0) (c88W 0xF00000) ∧ t.reg 16 1 = 0x0030 ∧ t'.reg 16 1 = 0x003F ∧
    ∀ d m p, HasSrc (c88W 0) d m p → Avoids (fun r => r = 0) (fun _ => false) 0 d m p := by
  refine ⟨_, _, conc_ok (by decide +kernel), conc_ok (by decide +kernel), ?_, by decide +kernel, by decide +kernel, ?_⟩
  · refine ⟨fun r hr => ?_, fun _ _ => rfl, rfl, rfl, rfl, rfl, rfl, rfl, rfl, rfl, rfl, rfl, rfl⟩
    have : r ≠ 0 := by simpa using hr
    show (if r = 0 then _ else _) = (if r = 0 then _ else _)
    rw [if_neg this, if_neg this]
  · intro d m p h
    obtain ⟨rfl, h | h | h | h⟩ := demo_src (c0 := 0x0F) (c1 := 0xA4) (c2 := 0xE1) (rest := [0x04]) (by decide) (by decide) (s := c88W 0) rfl rfl rfl rfl h
    · exact absurd h.2.1 (by simp [srcs])
    · exact absurd h.2.1 (by simp [srcs])
    · exact absurd h.2.1 (by decide)
    · obtain ⟨_, _, hd, rfl⟩ := h
      have : d = .rm ∨ d = .reg := by simpa [srcs0F] using hd
      refine ⟨fun r hr => ?_, fun r hr => (by cases hr), BitVec.and_zero⟩
      have hr : r = 0 := by simpa using hr
      subst hr
      rcases this with rfl | rfl <;> decide

theorem C88_violated : ¬ C88_Full := fun hf => by
  obtain ⟨t, t', h1, h2, h3, h4, h5, h6⟩ := C88_violated_shxd
  have := hf demoEnv (c88W 0) (c88W 0xF00000) (fun r => r = 0) (fun _ => false) 0 ⟨by decide, by decide, by decide⟩ h3 rfl h6
  rw [h1, h2] at this
  have := this.gpr 1 (by decide)
  have h7 : t.reg 16 1 = t'.reg 16 1 := by simp only [State.reg, this]
  rw [h4, h5] at h7
  exact absurd h7 (by decide)

/-- The hypotheses are met: ADD AX, [BX+SI] (`03 00`) reads AX, BX, SI, DS; the machines differ in ECX, EDX, ESP, EBP, EDI, SS, ES, FS, GS and all flags. -/
def c88Regs (r : BitVec 3) : Bool := r = 1 ∨ r = 2 ∨ r = 4 ∨ r = 5 ∨ r = 7
def c88Segs (r : SReg) : Bool := r ≠ .cs ∧ r ≠ .ds
def c88Other : State := { demo [0x03, 0x00, 0x00] with
  gpr := fun r => if c88Regs r then 0xDEADBEEF else (demo []).gpr r
  sreg := fun r => if c88Segs r then 0xDEAD else (demo []).sreg r
  flags := 0xFFFF }
example : Ready (demo [0x03, 0x00, 0x00]) ∧ ¬ ShxdUpper (demo [0x03, 0x00, 0x00]) ∧ DiffersIn c88Regs c88Segs 0xFFFF (demo [0x03, 0x00, 0x00]) c88Other ∧
    (∀ d m p, HasSrc (demo [0x03, 0x00, 0x00]) d m p → Avoids c88Regs c88Segs 0xFFFF d m p) ∧
    ∃ t t', runOne demoEnv (demo [0x03, 0x00, 0x00]) = .ok () t ∧ runOne demoEnv c88Other = .ok () t' ∧ t.gpr 0 = t'.gpr 0 ∧ t.ip = 0x102 := by
  have h5 : ∀ d m p, HasSrc (demo [0x03, 0x00, 0x00]) d m p → Avoids c88Regs c88Segs 0xFFFF d m p := by
    intro d m p h
    obtain ⟨rfl, h | h | h | h⟩ := demo_src (c0 := 0x03) (c1 := 0) (c2 := 0) (rest := []) (by decide) (by decide) (s := demo [0x03, 0x00, 0x00]) rfl rfl rfl rfl h
    · exact absurd h.1 (by decide)
    · obtain ⟨_, hd, rfl⟩ := h
      have : d = .rm ∨ d = .reg := by revert hd; simp [srcs]
      rcases this with rfl | rfl <;> refine ⟨by decide, fun r hr => ?_, by decide⟩
      · cases r <;> revert hr <;> decide
      · rfl
    · exact absurd h.1 (by decide)
    · exact absurd h.1 (by decide)
  have hd : DiffersIn c88Regs c88Segs 0xFFFF (demo [0x03, 0x00, 0x00]) c88Other := by
    refine ⟨fun r hr => ?_, fun r hr => ?_, ?_, rfl, rfl, rfl, rfl, rfl, rfl, rfl, rfl, rfl, rfl⟩
    · show _ = if c88Regs r then _ else _
      rw [hr]; rfl
    · show _ = if c88Segs r then _ else _
      rw [hr]; rfl
    · decide
  have hr : Ready (demo [0x03, 0x00, 0x00]) := ⟨by decide, by decide, by decide⟩
  have hx : ¬ ShxdUpper (demo [0x03, 0x00, 0x00]) := demo_shxd (by decide) (by decide) (by decide) rfl rfl rfl rfl
  have h1 := conc_ok (env := demoEnv) (s := demo [0x03, 0x00, 0x00]) (by decide +kernel)
  have h2 := conc_ok (env := demoEnv) (s := c88Other) (by decide +kernel)
  have := C88_sources_partial demoEnv _ _ _ _ _ hr hx hd rfl h5
  rw [h1, h2] at this
  exact ⟨hr, hx, hd, h5, _, _, h1, h2, this.gpr 0 rfl, by decide +kernel⟩

/-! ### C87 -/

/-- The full property: without a size prefix an instruction neither reads nor changes, visibly, the upper halves of the registers. -/
def C87_Full : Prop := ∀ (env : Env) (s t : State), CallbacksRespect env DiffersHigh → DiffersHigh s t → ¬ WidePrefix s →
  SameOutcome DiffersHigh (runOne env s) (runOne env t)

def hidHigh : Hid := ⟨fun _ => 16, 0, fun _ => false, {}⟩
theorem hidHigh_sim {s t : State} : hidHigh.Sim s t ↔ DiffersHigh s t := by
  constructor
  · intro h
    exact ⟨fun r => (h.gpr r).setWidth (Nat.le_refl _), funext fun r => h.sreg r rfl, h.flags.eq rfl, h.ip, h.cpuType, h.debugLevel, h.map, h.host, h.valid, h.instrNum,
      h.lastNull, h.dec, h.io⟩
  · intro h
    refine ⟨fun r i hi => ?_, ?_, fun r _ => congrFun h.sreg r, h.ip, h.cpuType, h.debugLevel, h.map, h.host, h.valid, h.instrNum, h.lastNull, h.dec, h.io⟩
    · have := congrArg (fun x => BitVec.getLsbD x i) (h.gpr r)
      have hi : i < 16 := hi
      simpa [BitVec.getLsbD_setWidth, hi] using this
    · rw [h.flags]; exact FEq.refl _

theorem hidHigh_cov {d m} {p : Pfx} (h1 : p.oper = false) (h2 : p.addr = false) : Hid.Cov { hidHigh with p := p } m d := by
  have hx : ∀ r, Hid.RegX { hidHigh with p := p } r := fun r => Or.inr ⟨Nat.le_refl _, h1, h2⟩
  have hs : ∀ r, Hid.SegOk { hidHigh with p := p } r := fun r => rfl
  have he : Hid.EaOfs { hidHigh with p := p } m := fun r _ => hx r
  cases d with
  | rm8 => exact ⟨fun _ => hx _, fun _ => ⟨he, hs _⟩⟩
  | rm => exact ⟨fun _ => hx _, fun _ => ⟨he, hs _⟩⟩
  | addr => exact fun _ => ⟨he, hs _⟩
  | ofs => exact fun _ => he
  | reg8 => exact hx _
  | reg => exact hx _
  | gpr r => exact hx _
  | sreg r => exact hs _
  | dseg r => exact hs _
  | flags q => exact BitVec.zero_and
  | count => exact fun _ => hx _
  | fault => exact ⟨hx _, hs _, rfl⟩
  | any => exact ⟨fun r => hx r, fun r => hs r, rfl⟩

theorem src_narrow {s : State} (hw : ¬ WidePrefix s) {d m p} (h : HasSrc s d m p) : p.oper = false ∧ p.addr = false := by
  have key : ∀ {pfx p bs}, Pfx.parse {} pfx = some p → BytesAt s (pfx ++ bs) → p.oper = false ∧ p.addr = false := by
    intro pfx p bs hp hb
    have hb' : BytesAt s pfx := fun i hi => by
      have := hb i (by simp; omega)
      rwa [List.getElem_append_left hi] at this
    have hg := (C36_prefixes pfx).1.1 ⟨p, hp⟩
    have hp2 := parse_wide hp
    constructor
    · cases ho : p.oper
      · rfl
      · rcases hp2.1 ho with h | h
        · cases h
        · exact absurd ⟨pfx, hg, hb', Or.inl h⟩ hw
    · cases ho : p.addr
      · rfl
      · rcases hp2.2 ho with h | h
        · cases h
        · exact absurd ⟨pfx, hg, hb', Or.inr h⟩ hw
  cases h with
  | plain hp hb => exact key hp hb
  | modrm hp hb => exact key hp hb
  | plain0F hp hb => exact key hp hb
  | modrm0F hp hb => exact key hp hb

/-- C87: two machines that differ only in bits 16–31 of the general registers do the same when `RME_RunOne` executes any instruction without a size prefix
(66, 67), calls a host service or finds the magic return address: same return code, and afterwards all 16-bit registers, segment registers, FLAGS, IP, memory
and port accesses are the same. (Callbacks are assumed to respect this.) What is missing: SHLD/SHRD with a register operand numbered 4–7
(`C87_violated_shxd`). -/
theorem C87_step_partial (env : Env) (hcb : CallbacksRespect env DiffersHigh) (s t : State) (h : DiffersHigh s t) (hw : ¬ WidePrefix s) (hx : ¬ ShxdUpper s) :
    SameOutcome DiffersHigh (runOne env s) (runOne env t) := by
  have hle : hidHigh.HleOk env := fun n f hf a b hab => hidHigh_sim.2 (hcb n f a b hf (hidHigh_sim.1 hab))
  by_cases h1 : s.ip = 0xFFFF ∧ s.sreg .cs = 0xFFFF
  · have h1' : t.ip = 0xFFFF ∧ t.sreg .cs = 0xFFFF := by rw [← h.ip, ← h.sreg]; exact h1
    have e1 : runOne env s = .err .fcnRet s := if_pos h1
    have e2 : runOne env t = .err .fcnRet t := if_pos h1'
    rw [e1, e2]
    exact ⟨rfl, h⟩
  have h1' : ¬ (t.ip = 0xFFFF ∧ t.sreg .cs = 0xFFFF) := by rw [← h.ip, ← h.sreg]; exact h1
  by_cases h2 : s.sreg .cs = 0xB800 ∧ s.ip.toNat < 0x100
  · have h2' : t.sreg .cs = 0xB800 ∧ t.ip.toNat < 0x100 := by rw [← h.ip, ← h.sreg]; exact h2
    have e1 : runOne env s = (runHle (s.ip.setWidth 8) env s).bind (fun _ s' => ignoreErr opIret env s') := by
      unfold runOne; rw [if_neg h1, if_pos h2]
    have e2 : runOne env t = (runHle (s.ip.setWidth 8) env t).bind (fun _ s' => ignoreErr opIret env s') := by
      unfold runOne; rw [if_neg h1', if_pos h2', h.ip]
    rw [e1, e2]
    have hi : ∀ a b, DiffersHigh a b → SameOutcome DiffersHigh (ignoreErr opIret env a) (ignoreErr opIret env b) := by
      intro a b hab
      have := Tw.ofSim (H := hidHigh) (env := env) (fun p => Tw.opIret16 (H := { hidHigh with p := p }) (Nat.le_refl _) rfl) a b (hidHigh_sim.2 hab)
      unfold ignoreErr
      cases e3 : opIret env a <;> cases e4 : opIret env b <;> rw [e3, e4] at this <;> try exact this.elim
      · exact hidHigh_sim.1 this.1
      · exact hidHigh_sim.1 this.2
      · exact this
    unfold runHle
    cases hn : env.hle (s.ip.setWidth 8) with
    | none => exact hi s t h
    | some f => exact hi _ _ (hcb _ f s t hn h)
  have h2' : ¬ (t.sreg .cs = 0xB800 ∧ t.ip.toNat < 0x100) := by rw [← h.ip, ← h.sreg]; exact h2
  by_cases h3 : s.instrNum = 2147483647
  · have h3' : t.instrNum = 2147483647 := by rw [← h.instrNum]; exact h3
    have e1 : ∀ u : State, ¬ (u.ip = 0xFFFF ∧ u.sreg .cs = 0xFFFF) → ¬ (u.sreg .cs = 0xB800 ∧ u.ip.toNat < 0x100) → u.instrNum = 2147483647 →
        ∃ x, runOne env u = .ub x ∧ x = .signedOverflow := by
      intro u a b c
      refine ⟨_, ?_, rfl⟩
      unfold runOne; rw [if_neg a, if_neg b]
      simp only [doOpcode, bind_apply, getIP_apply, getSreg_apply, resbind_ok, startInstr, INT_MAX]
      rw [if_pos c]
      rfl
    obtain ⟨x, e1', rfl⟩ := e1 s h1 h2 h3
    obtain ⟨y, e2', rfl⟩ := e1 t h1' h2' h3'
    rw [e1', e2']
    rfl
  · refine (dep_main (H := hidHigh) rfl ⟨h1, h2, h3⟩ (hidHigh_sim.2 h) (Or.inl hx) (fun d m p hs => ?_) fun _ => hle).mono fun _ _ h => hidHigh_sim.1 h
    exact hidHigh_cov (src_narrow hw hs).1 (src_narrow hw hs).2

/-- C87 for whole runs of `RME_Call`: as long as the program contains, at the places it reaches, no size prefix (and no SHLD/SHRD with a register operand
numbered 4–7), the upper halves of the registers have no influence on it. -/
theorem C87_call_partial (env : Env) (hcb : CallbacksRespect env DiffersHigh) (s t : State) (h : DiffersHigh s t)
    (hrun : ∀ n u, Iter env n s u → ¬ WidePrefix u ∧ ¬ ShxdUpper u) : SameCalls DiffersHigh env env s t := by
  intro fuel
  induction fuel generalizing s t with
  | zero => trivial
  | succ fuel ih =>
    have h0 := hrun 0 s (.zero s)
    have hs := C87_step_partial env hcb s t h h0.1 h0.2
    simp only [rmeCall]
    cases h1 : runOne env s <;> cases h2 : runOne env t <;> rw [h1, h2] at hs <;> try exact hs.elim
    · exact ih _ _ hs fun n u hu => hrun (n + 1) u (.succ h1 hu)
    · rename_i e a e' b
      obtain ⟨rfl, hs⟩ := hs
      cases e <;> first | exact hs | exact ⟨rfl, hs⟩
    · exact hs

/-- SHRD SP, AX, 4 (`0F AC C4 04`), with EAX = `v`. -/
def c87W (v : BitVec 32) : State := (demo [0x0F, 0xAC, 0xC4, 0x04]).setGpr 0 v

theorem c87W_narrow : ¬ WidePrefix (c87W 0) := by
  rintro ⟨pfx, hg, hb, hw⟩
  cases pfx with
  | nil => simp at hw
  | cons b bs =>
    have := demo_byte (code := [0x0F, 0xAC, 0xC4, 0x04]) (k := 0) (by simp) (by simp) (s := c87W 0) rfl rfl rfl rfl (hb 0 (by simp))
    simp at this
    subst this
    exact absurd rfl (hg.1 0x0F (by simp))

/-- C87 violated: SHRD SP, AX, 4 shifts bits 16–19 of EAX into AH. -/
theorem C87_violated_shxd : DiffersHigh (c87W 0) (c87W 0x10000) ∧ ¬ WidePrefix (c87W 0) ∧
    ∃ t t', runOne demoEnv (c87W 0) = .ok () t ∧ runOne demoEnv (c87W 0x10000) = .ok () t' ∧ t.reg 16 0 = 0 ∧ t'.reg 16 0 = 0x1000 := by
  refine ⟨⟨fun r => ?_, rfl, rfl, rfl, rfl, rfl, rfl, rfl, rfl, rfl, rfl, rfl, rfl⟩, c87W_narrow, _, _, conc_ok (by decide +kernel), conc_ok (by decide +kernel),
    by decide +kernel, by decide +kernel⟩
  show BitVec.setWidth 16 (if r = 0 then 0 else (demo _).gpr r) = BitVec.setWidth 16 (if r = 0 then 0x10000 else (demo _).gpr r)
  split <;> rfl

theorem C87_violated : ¬ C87_Full := fun hf => by
  obtain ⟨h1, h2, t, t', h3, h4, h5, h6⟩ := C87_violated_shxd
  have := hf demoEnv _ _ (fun _ _ _ _ h => by cases h) h1 h2
  rw [h3, h4] at this
  have h7 : t.reg 16 0 = t'.reg 16 0 := this.gpr 0
  rw [h5, h6] at h7
  exact absurd h7 (by decide)

/-- The hypotheses are met: ADD AX, [BX+SI], with other upper halves of all registers. -/
def c87Other : State := { demo [0x03, 0x00, 0x00] with gpr := fun r => 0xABCD0000 ||| ((demo []).gpr r &&& 0xFFFF) }
example : DiffersHigh (demo [0x03, 0x00, 0x00]) c87Other ∧ ¬ WidePrefix (demo [0x03, 0x00, 0x00]) ∧ ¬ ShxdUpper (demo [0x03, 0x00, 0x00]) ∧
    ∃ t t', runOne demoEnv (demo [0x03, 0x00, 0x00]) = .ok () t ∧ runOne demoEnv c87Other = .ok () t' ∧ DiffersHigh t t' ∧ t'.gpr 3 = 0xABCD0010 := by
  have hd : DiffersHigh (demo [0x03, 0x00, 0x00]) c87Other := by
    refine ⟨?_, rfl, rfl, rfl, rfl, rfl, rfl, rfl, rfl, rfl, rfl, rfl, rfl⟩
    decide
  have hw : ¬ WidePrefix (demo [0x03, 0x00, 0x00]) := by
    rintro ⟨pfx, hg, hb, hw⟩
    cases pfx with
    | nil => simp at hw
    | cons b bs =>
      have := demo_byte (code := [0x03, 0x00, 0x00]) (k := 0) (by simp) (by simp) (s := demo [0x03, 0x00, 0x00]) rfl rfl rfl rfl (hb 0 (by simp))
      simp at this
      subst this
      exact absurd rfl (hg.1 0x03 (by simp))
  have hx : ¬ ShxdUpper (demo [0x03, 0x00, 0x00]) := demo_shxd (by decide) (by decide) (by decide) rfl rfl rfl rfl
  have h1 := conc_ok (env := demoEnv) (s := demo [0x03, 0x00, 0x00]) (by decide +kernel)
  have h2 := conc_ok (env := demoEnv) (s := c87Other) (by decide +kernel)
  have := C87_step_partial demoEnv (fun _ _ _ _ h => by cases h) _ _ hd hw hx
  rw [h1, h2] at this
  exact ⟨hd, hw, hx, _, _, h1, h2, this, by decide +kernel⟩

end RME
