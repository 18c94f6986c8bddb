import Verif.Lemmas.Ready
import Verif.Lemmas.Bytes
import Verif.Lemmas.Demo
set_option autoImplicit false
/-
Confinement properties: what an instruction cannot change, whatever it is.
-/
set_option linter.unusedSectionVars false
namespace RME

theorem Cap.Res.ends {c : Cap} {s t : State} (h : c.Res (runOne c.env s)) (he : Ends c.env s t) (hj : ∀ e t, c.J e t → c.I t) :
    c.I t := by
  rcases he with he | ⟨e, he⟩
  · rw [he] at h; exact h
  · rw [he] at h; exact hj _ _ h

/-! ### C03 -/

/-- `a` is a host byte of a registered block, or one of the three bytes behind the end of one. -/
def InBlock (s : State) (a : Nat) : Prop := ∃ b < 272, ∃ h, s.map b = some h ∧ h ≤ a ∧ a < h + 4096 + 3

/-- From `s` to `t` the block table is the same and so is every host byte outside the registered blocks. -/
def Isolated (s t : State) : Prop := t.map = s.map ∧ ∀ a, ¬ InBlock s a → t.host a = s.host a

theorem Isolated.trans {s t u} (h1 : Isolated s t) (h2 : Isolated t u) : Isolated s u :=
  ⟨h2.1.trans h1.1, fun a ha => (h2.2 a (fun ⟨b, hb, h, h3, h4⟩ => ha ⟨b, hb, h, h1.1 ▸ h3, h4⟩)).trans (h1.2 a ha)⟩

def capIso (env : Env) (s : State) : Cap :=
  { env := env, I := Isolated s, J := fun _ => Isolated s, W := fun n => n = 8 ∨ n = 16 ∨ n = 32, VF := fun _ => True,
    VL := fun _ l => match l with
      | .mem a => ∃ b < 272, ∃ h, s.map b = some h ∧ h ≤ a ∧ a < h + 4096
      | _ => True,
    VD := fun _ => True, VS := fun _ => True, U := fun _ => True }

theorem storeLE_outside (host : Nat → BitVec 8) (h n : Nat) (v : BitVec n) (a : Nat) (ha : ¬ (h ≤ a ∧ a < h + n / 8)) :
    storeLE host h n v a = host a := by
  unfold storeLE
  rw [if_neg ha]

theorem capIso_all (env : Env) (s : State) (hcb : CallbacksKeep env Isolated) : (capIso env s).All := {
    dec := (by intros; trivial), setDec := fun _ _ h _ => h, ofs := (by intros; trivial), rep := (by intros; trivial),
    fl := (by intros; trivial),
    ptr := fun t b h k n hI hb hm hk _ _ => ⟨b, hb, h, (by rw [← hI.1]; exact hm), Nat.le_add_right _ _, Nat.add_lt_add_left hk _⟩,
    ptrM := fun t b h k n hI hb hm hk _ => ⟨b, hb, h, (by rw [← hI.1]; exact hm), Nat.le_add_right _ _, Nat.add_lt_add_left hk _⟩,
    lreg := (by intros; trivial), lregH := (by intros; trivial),
    bad := fun _ _ h _ => h, w8 := Or.inl rfl, w16 := Or.inr (Or.inl rfl), w32 := fun _ _ _ => Or.inr (Or.inr rfl), wle := fun _ h => h,
    ubNull := (by intros; trivial), ubHost := (by intros; trivial), ubUninit := (by intros; trivial),
    setReg := fun _ _ _ _ h _ => h, setRegH := fun _ _ _ _ h _ _ => h, setGpr := fun _ _ _ h _ => h,
    store := fun t n h v hI hW hL _ => ⟨hI.1, fun a ha => by
      obtain ⟨b, hb, h0, hm, h1, h2⟩ := hL
      rw [← hI.2 a ha]
      refine storeLE_outside _ _ _ _ _ fun h3 => ha ⟨b, hb, h0, hm, by omega, ?_⟩
      rcases hW with rfl | rfl | rfl <;> omega⟩,
    arith := (by intros; trivial), setF := fun _ _ h _ => h, any := (by intros; trivial),
    ip := fun _ _ h => h, dci := (by intros; trivial), setS := fun _ _ _ h _ => h, io := fun _ _ h => h,
    hle := fun n f t hf hI => hI.trans (hcb n f t hf), oob := trivial,
    oper := (by intros; trivial), addr := (by intros; trivial), seg := (by intros; trivial), repx := (by intros; trivial),
    cont := fun _ h => h, ov := trivial, sh := trivial, ns := trivial, hi := (by intros; trivial), memX := fun _ _ h _ => h,
    ln := fun _ _ h => h, brk := fun _ h => h, fu := trivial, dv := fun _ h => h,
    vs := (by intros; trivial), halt := fun _ h => h, fcn := fun _ h => h, inv := fun _ h => h, start := fun _ h => h, jI := fun _ _ h => h }

/-- One instruction, whatever it is and however it ends: the block table is unchanged, and so is every
host byte that is neither in a registered block nor within three bytes behind one. -/
theorem C03_isolation (env : Env) (hcb : CallbacksKeep env Isolated) (s t : State) (h : Ends env s t) :
    Isolated s t := by
  have := capIso_all env s hcb
  have h1 := Kp.runOne (c := capIso env s) s ⟨rfl, fun _ _ => rfl⟩
  rcases h with h | ⟨e, h⟩
  · rw [show (capIso env s).env = env from rfl, h] at h1; exact h1.1
  · rw [show (capIso env s).env = env from rfl, h] at h1; exact h1

/-- Any number of instructions. -/
theorem C03_isolation_run (env : Env) (hcb : CallbacksKeep env Isolated) (n : Nat) (s t : State) (h : Iter env n s t) :
    Isolated s t := by
  induction h with
  | zero => exact ⟨rfl, fun _ _ => rfl⟩
  | succ h _ ih => exact (C03_isolation env hcb _ _ (Or.inl h)).trans ih

/-- A whole `RME_Call`. -/
theorem C03_isolation_call (env : Env) (hcb : CallbacksKeep env Isolated) (s t : State)
    (h : CallReturns env s (.ok () t) ∨ ∃ e, CallReturns env s (.err e t)) : Isolated s t := by
  have key : ∀ fuel s, (rmeCall env fuel s = some (.ok () t) ∨ ∃ e, rmeCall env fuel s = some (.err e t)) → Isolated s t := by
    intro fuel
    induction fuel with
    | zero => intro s h; rcases h with h | ⟨e, h⟩ <;> cases h
    | succ n ih =>
      intro s h
      simp only [rmeCall] at h
      split at h
      · rename_i s' hr
        have : s' = t := by rcases h with h | ⟨e, h⟩ <;> cases h; rfl
        exact this ▸ C03_isolation env hcb s s' (Or.inr ⟨_, hr⟩)
      · rename_i e s' hn hr
        have : s' = t := by rcases h with h | ⟨e, h⟩ <;> cases h; rfl
        exact this ▸ C03_isolation env hcb s s' (Or.inr ⟨_, hr⟩)
      · rcases h with h | ⟨e, h⟩ <;> cases h
      · rename_i s' hr
        exact (C03_isolation env hcb s s' (Or.inl hr)).trans (ih s' h)
  rcases h with ⟨f, h⟩ | ⟨e, f, h⟩
  · exact key f s (Or.inl h)
  · exact key f s (Or.inr ⟨e, h⟩)

/-- MOV [0FFFh], AX with AX = 5566h, DS = 3000h; guest block 31h is mapped elsewhere. -/
def straddleState : State := { demo [0xA3, 0xFF, 0x0F] with
  gpr := fun r => if r = 0 then 0x5566 else 0
  map := fun b => if b = 0x31 then some 0x90000 else if b < 272 then some (b * 4096) else none }

/-- The three bytes behind a block are really reachable: a word store at the last byte of a block whose
neighbour in guest memory is somewhere else writes the first host byte behind the block. -/
theorem C03_straddle : ∃ s t : State, runOne demoEnv s = .ok () t ∧ s.map 0x30 = some 0x30000 ∧
    s.map 0x31 = some 0x90000 ∧ (s.host 0x31000).toNat = 0 ∧ (t.host 0x31000).toNat = 0x55 ∧
    (∀ b, s.map b ≠ some 0x31000) :=
  ⟨straddleState, (match runOne demoEnv straddleState with | .ok _ t => t | _ => straddleState), by
    refine ⟨rfl, rfl, rfl, by decide +kernel, by decide +kernel, fun b h => ?_⟩
    simp only [straddleState, demo] at h
    split at h
    · cases h
    · split at h
      · simp at h; omega
      · cases h⟩

example : CallbacksKeep demoEnv Isolated := fun _ _ _ h => by cases h

/-! ### Keeping a part of the state -/

/-- Logic for "`I` is kept", with `V` the possible FLAGS and `S` the segment registers that may change. -/
def capKeep (env : Env) (I : State → Prop) (V : BitVec 16 → Prop) (S : SReg → Prop) : Cap :=
  { env := env, I := I, J := fun _ => I, W := fun n => n = 8 ∨ n = 16 ∨ n = 32, VF := V, VL := fun _ _ => True,
    VD := fun _ => True, VS := S, U := fun _ => True }

section keep
variable {env : Env} {I : State → Prop} {V : BitVec 16 → Prop} {S : SReg → Prop}
theorem keepBase (hd : ∀ s d, I s → I { s with dec := d }) (hf : ∀ s, I s → V s.flags) : (capKeep env I V S).Base := {
    dec := (by intros; trivial), setDec := fun s d h _ => hd s d h, ofs := (by intros; trivial), rep := (by intros; trivial),
    fl := hf, ptr := (by intros; trivial), lreg := (by intros; trivial), lregH := (by intros; trivial),
    bad := fun _ _ h _ => h, w8 := Or.inl rfl, w16 := Or.inr (Or.inl rfl), w32 := fun _ _ _ => Or.inr (Or.inr rfl), wle := fun _ h => h,
    ubNull := (by intros; trivial), ubHost := (by intros; trivial), ubUninit := (by intros; trivial) }
theorem keepRg (h : ∀ s g, I s → I { s with gpr := g }) : (capKeep env I V S).Rg :=
  { setReg := fun _ _ _ _ hI _ => h _ _ hI, setRegH := fun s n r v hI _ _ => h s _ hI, setGpr := fun _ _ _ hI _ => h _ _ hI }
theorem keepMm (h : ∀ s m, I s → I { s with host := m }) : (capKeep env I V S).Mm := { store := fun _ _ _ _ hI _ _ _ => h _ _ hI }
theorem keepAFl (ha : ∀ f g, V f → (g &&& 0xF72A = f &&& 0xF72A) → V g) (h : ∀ s f, I s → V f → I { s with flags := f }) :
    (capKeep env I V S).AFl := { arith := ha, setF := h }
theorem keepIp (h : ∀ s v, I s → I { s with ip := v }) : (capKeep env I V S).Ip := { ip := h, dci := (by intros; trivial) }
theorem keepSg (h : ∀ s r v, I s → S r → I (s.setSreg r v)) : (capKeep env I V S).Sg := { setS := h }
theorem keepIo (h : ∀ s e, I s → I { s with io := s.io ++ [e] }) : (capKeep env I V S).Io := { io := h }
theorem keepHle (h : ∀ n f s, env.hle n = some f → I s → I (f s)) : (capKeep env I V S).Hle := { hle := h }
instance keepMr : (capKeep env I V S).Mr := { oob := trivial, ptrM := (by intros; trivial) }
instance keepOv : (capKeep env I V S).Ov := ⟨trivial⟩
instance keepSh : (capKeep env I V S).Sh := ⟨trivial⟩
instance keepNs : (capKeep env I V S).Ns := ⟨trivial⟩
instance keepFu : (capKeep env I V S).Fu := ⟨trivial⟩
instance keepDv : (capKeep env I V S).Dv := ⟨fun _ h => h⟩
instance keepHi : (capKeep env I V S).Hi := { hi := (by intros; trivial), memX := (by intros; trivial) }
theorem keepTl (h : ∀ s b, I s → I { s with lastNull := b }) : (capKeep env I V S).Tl := { ln := h, brk := fun _ h => h }
theorem keepU : ∀ (s : State) u k, (u = UB.nullBlock ∨ u = .hostInvalid ∨ u = .uninit) → (∀ b, ¬ ByteAt s k b) → (capKeep env I V S).U u := by
  intros; trivial
end keep

/-- CS:IP is neither FFFF:FFFF nor a trampoline, or the counter is at its limit. -/
theorem kept_notReady {I : State → Prop} {s t : State} (hr : ¬ Ready s) (env : Env)
    (hd : ∀ s d, I s → I { s with dec := d }) (hg : ∀ s g, I s → I { s with gpr := g })
    (hsg : ∀ s r v, I s → I (s.setSreg r v)) (hfl : ∀ s f, I s → I { s with flags := f }) (hip : ∀ s v, I s → I { s with ip := v })
    (hm : ∀ s m, I s → I { s with host := m })
    (hcb : ∀ n f, env.hle n = some f → I (f s)) (hs : I s) (h : Ends env s t) : I t := by
  let c := capKeep env I (fun _ => True) (fun _ => True)
  have i1 : c.Base := keepBase hd (fun _ _ => trivial)
  have i2 : c.Rg := keepRg hg
  have i3 : c.Mm := keepMm hm
  have i4 : c.AFl := keepAFl (fun _ _ _ _ => trivial) (fun s f h _ => hfl s f h)
  have i5 : c.SFl := ⟨fun _ => trivial⟩
  have i6 : c.Ip := keepIp hip
  have i7 : c.Sg := keepSg (fun s r v h _ => hsg s r v h)
  rcases runOne_cases env s with ⟨_, _, h1⟩ | ⟨_, _, h1⟩ | ⟨_, h1⟩ | ⟨hr', _⟩
  · rcases h with h | ⟨e, h⟩ <;> rw [h1] at h <;> cases h; exact hs
  · have h2 : c.I (((env.hle (s.ip.setWidth 8)).getD id) s) := by
      cases hf : env.hle (s.ip.setWidth 8) with
      | none => exact hs
      | some f => exact hcb _ f hf
    have h3 := Kp.iret (c := c) trivial _ h2
    rw [show c.env = env from rfl] at h3
    unfold ignoreErr at h1
    rcases h with h | ⟨e, h⟩ <;> rw [h1] at h <;> split at h
    all_goals rename_i h4
    · cases h; rw [h4] at h3; exact h3
    · rw [h] at h3; exact h3.1
    · cases h
    · rw [h] at h3; exact h3
  · rcases h with h | ⟨e, h⟩ <;> rw [h1] at h <;> cases h
  · exact absurd hr' hr

/-! ### C46: port I/O -/

/-- The host callbacks themselves perform no port access through the emulator. -/
def KeepsIo (s t : State) : Prop := t.io = s.io

/-- Opcodes of INS, OUTS, IN and OUT. -/
def ioOpcode (b : BitVec 8) : Prop :=
  b = 0x6C ∨ b = 0x6D ∨ b = 0x6E ∨ b = 0x6F ∨ b = 0xE4 ∨ b = 0xE5 ∨ b = 0xE6 ∨ b = 0xE7 ∨
  b = 0xEC ∨ b = 0xED ∨ b = 0xEE ∨ b = 0xEF

theorem dec_io {s p k o a} (hd : Dec s p k o a) (h : o.usesIo = true) : ∃ b, ioOpcode b ∧ OpcodeAt s b := by
  rcases hd.elim (fun o _ => o.usesIo) h (P1 := fun b => decide (b = 0x6C ∨ b = 0x6D ∨ b = 0x6E ∨ b = 0x6F ∨ b = 0xE4 ∨ b = 0xE5 ∨ b = 0xE6 ∨ b = 0xE7 ∨
    b = 0xEC ∨ b = 0xED ∨ b = 0xEE ∨ b = 0xEF)) (PF := fun _ => false) (PG := fun _ _ => false) (by decide +kernel)
    (by decide +kernel) (by decide +kernel) with ⟨b, h1, h2⟩ | ⟨b, r, h1, _⟩ | ⟨b, h1, _⟩
  · exact ⟨b, (by simpa [ioOpcode] using h1), h2⟩
  · cases h1
  · cases h1

/-- If one call of `RME_RunOne` performed any port access, the instruction at CS:IP is INS, OUTS, IN or
OUT. -/
theorem C46_only_io_instructions (env : Env) (hcb : CallbacksKeep env KeepsIo) (s t : State) (h : Ends env s t)
    (hne : t.io ≠ s.io) : ∃ b, ioOpcode b ∧ OpcodeAt s b := by
  refine Classical.byContradiction fun hno => hne ?_
  let c := capKeep env (fun t => t.io = s.io) (fun _ => True) (fun _ => True)
  have i1 : c.Base := keepBase (fun _ _ h => h) (fun _ _ => trivial)
  have i2 : c.Rg := keepRg (fun _ _ h => h)
  have i3 : c.Mm := keepMm (fun _ _ h => h)
  have i4 : c.AFl := keepAFl (fun _ _ _ _ => trivial) (fun _ _ h _ => h)
  have i5 : c.SFl := ⟨fun _ => trivial⟩
  have i6 : c.Ip := keepIp (fun _ _ h => h)
  have i7 : c.Sg := keepSg (fun _ _ _ h _ => h)
  have i8 : c.Hle := keepHle (fun n f t hf h => (hcb n f t hf).trans h)
  have i9 : c.Tl := keepTl (fun _ _ h => h)
  by_cases hr : Ready s
  · refine Cap.Res.ends (c := c) (ready_inv (c := c) hr (fun _ _ => rfl) (keepU s) ?_ ?_) h (fun _ _ h => h)
    · intro p k o a hd hn
      have hio : o.usesIo = true → c.Io := fun hu => absurd (dec_io hd hu) hno
      exact Kp.opFn_gen o a { sg := fun _ _ => trivial, io := hio, halt := fun _ _ h => h } hn
    · exact fun _ _ _ _ _ _ => ⟨Kp.callInt0 trivial, fun _ h => h⟩
  · exact kept_notReady (I := fun t => t.io = s.io) hr env (fun _ _ h => h) (fun _ _ h => h) (fun _ _ _ h => h) (fun _ _ h => h) (fun _ _ h => h) (fun _ _ h => h)
      (fun n f hf => hcb n f s hf) rfl h

/-- Nothing that was sent before is removed or changed: the log of port accesses only grows. -/
theorem C46_log_grows (env : Env) (hcb : CallbacksKeep env KeepsIo) (s t : State) (h : Ends env s t) :
    s.io <+: t.io := by
  by_cases hr : Ready s
  · let c := capKeep env (fun t => s.io <+: t.io) (fun _ => True) (fun _ => True)
    have i1 : c.Base := keepBase (fun _ _ h => h) (fun _ _ => trivial)
    have i2 : c.Rg := keepRg (fun _ _ h => h)
    have i3 : c.Mm := keepMm (fun _ _ h => h)
    have i4 : c.AFl := keepAFl (fun _ _ _ _ => trivial) (fun _ _ h _ => h)
    have i5 : c.SFl := ⟨fun _ => trivial⟩
    have i6 : c.Ip := keepIp (fun _ _ h => h)
    have i7 : c.Sg := keepSg (fun _ _ _ h _ => h)
    have i8 : c.Hle := keepHle (fun n f t hf h => (show s.io <+: (f t).io from by rw [show (f t).io = t.io from hcb n f t hf]; exact h))
    have i9 : c.Tl := keepTl (fun _ _ h => h)
    have i10 : c.Io := keepIo (fun _ _ h => h.trans (List.prefix_append _ _))
    refine Cap.Res.ends (c := c) (ready_inv (c := c) hr (fun _ _ => List.prefix_rfl) (keepU s) ?_ ?_) h (fun _ _ h => h)
    · intro p k o a hd hn
      exact Kp.opFn_gen o a { sg := fun _ _ => trivial, halt := fun _ _ h => h } hn
    · exact fun _ _ _ _ _ _ => ⟨Kp.callInt0 trivial, fun _ h => h⟩
  · have : t.io = s.io := kept_notReady (I := fun t => t.io = s.io) hr env (fun _ _ h => h) (fun _ _ h => h) (fun _ _ _ h => h) (fun _ _ h => h) (fun _ _ h => h) (fun _ _ h => h)
      (fun n f hf => hcb n f s hf) rfl h
    rw [this]; exact List.prefix_rfl

example : CallbacksKeep demoEnv KeepsIo := fun _ _ _ h => by cases h
/-- OUT 70h, AL is logged. -/
example : ∃ t, Ends demoEnv (demo [0xE6, 0x70]) t ∧ t.io ≠ (demo [0xE6, 0x70]).io ∧ ioOpcode 0xE6 ∧ OpcodeAt (demo [0xE6, 0x70]) 0xE6 :=
  ⟨_, Or.inl rfl, by decide +kernel, by unfold ioOpcode; decide, [], {}, rfl, BytesAt.left (b := [0x70]) (CodeAt.bytes (demo_code [0xE6, 0x70] (by decide)))⟩

/-! ### C49: the instruction counter -/

/-- Host callbacks do not write InstrNum. -/
def KeepsNum (s t : State) : Prop := t.instrNum = s.instrNum

/-- An instruction that is fetched counts exactly one, however it ends. -/
theorem C49_counts_one (env : Env) (hcb : CallbacksKeep env KeepsNum) (s t : State) (hr : Ready s) (h : Ends env s t) :
    t.instrNum = s.instrNum + 1 := by
  let c := capKeep env (fun t => t.instrNum = s.instrNum + 1) (fun _ => True) (fun _ => True)
  have i1 : c.Base := keepBase (fun _ _ h => h) (fun _ _ => trivial)
  have i2 : c.Rg := keepRg (fun _ _ h => h)
  have i3 : c.Mm := keepMm (fun _ _ h => h)
  have i4 : c.AFl := keepAFl (fun _ _ _ _ => trivial) (fun _ _ h _ => h)
  have i5 : c.SFl := ⟨fun _ => trivial⟩
  have i6 : c.Ip := keepIp (fun _ _ h => h)
  have i7 : c.Sg := keepSg (fun _ _ _ h _ => h)
  have i8 : c.Hle := keepHle (fun n f t hf h => (show (f t).instrNum = t.instrNum from hcb n f t hf).trans h)
  have i9 : c.Tl := keepTl (fun _ _ h => h)
  have i10 : c.Io := keepIo (fun _ _ h => h)
  refine Cap.Res.ends (c := c) (ready_inv (c := c) hr (fun _ _ => rfl) (keepU s) ?_ ?_) h (fun _ _ h => h)
  · intro p k o a hd hn
    exact Kp.opFn_gen o a { sg := fun _ _ => trivial, halt := fun _ _ h => h } hn
  · exact fun _ _ _ _ _ _ => ⟨Kp.callInt0 trivial, fun _ h => h⟩

/-- At FFFF:FFFF and on an HLE trampoline nothing is fetched and nothing is counted. -/
theorem C49_counts_none (env : Env) (hcb : CallbacksKeep env KeepsNum) (s t : State)
    (hr : AtMagic s ∨ (s.sreg .cs = 0xB800 ∧ s.ip.toNat < 0x100)) (h : Ends env s t) : t.instrNum = s.instrNum := by
  refine kept_notReady (I := fun t => t.instrNum = s.instrNum) ?_ env (fun _ _ h => h) (fun _ _ h => h) (fun _ _ _ h => h) (fun _ _ h => h) (fun _ _ h => h) (fun _ _ h => h)
    (fun n f hf => hcb n f s hf) rfl h
  intro hn
  rcases hr with hr | hr
  · exact hn.notMagic ⟨hr.2, hr.1⟩
  · exact hn.notHle hr

/-- Over a whole run: InstrNum grows by at most the number of calls and never decreases. -/
theorem C49_run (env : Env) (hcb : CallbacksKeep env KeepsNum) (n : Nat) (s t : State) (h : Iter env n s t) :
    s.instrNum ≤ t.instrNum ∧ t.instrNum ≤ s.instrNum + n := by
  induction h with
  | zero => simp
  | @succ n s t u h _ ih =>
    have : t.instrNum = s.instrNum + 1 ∨ t.instrNum = s.instrNum := by
      by_cases hr : Ready s
      · exact Or.inl (C49_counts_one env hcb s t hr (Or.inl h))
      · exact Or.inr (kept_notReady (I := fun t => t.instrNum = s.instrNum) hr env (fun _ _ h => h) (fun _ _ h => h) (fun _ _ _ h => h) (fun _ _ h => h) (fun _ _ h => h) (fun _ _ h => h)
          (fun n f hf => hcb n f s hf) rfl (Or.inl h))
    omega

example : Ready (demo [0x90]) ∧ CallbacksKeep demoEnv KeepsNum := ⟨demo_ready _, fun _ _ _ h => by cases h⟩

/-! ### C53: system flags -/

/-- All flags but CF PF AF ZF SF OF: IF, TF, DF, IOPL, NT and the reserved bits. -/
def sysFlags (s : State) : BitVec 16 := s.flags &&& 0xF72A

/-- Instructions that may change system flags: POPF, IRET, INT3, INT, INTO, CLI, STI, CLD, STD, and those
that may fault (AAM, DIV, IDIV). -/
def SysFlagInstr (s : State) : Prop :=
  (∃ b, (b = 0x9D ∨ b = 0xCF ∨ b = 0xCC ∨ b = 0xCD ∨ b = 0xCE ∨ b = 0xFA ∨ b = 0xFB ∨ b = 0xFC ∨ b = 0xFD ∨ b = 0xD4) ∧ OpcodeAt s b) ∨
  (∃ b r, (b = 0xF6 ∨ b = 0xF7) ∧ (r = 6 ∨ r = 7) ∧ OpcodeGrpAt s b r)

theorem dec_sys {s p k o a} (hd : Dec s p k o a) (h : (o.sysFl || o.isDiv a) = true) : SysFlagInstr s := by
  rcases hd.elim (fun o a => o.sysFl || o.isDiv a) h (P1 := fun b => decide (b = 0x9D ∨ b = 0xCF ∨ b = 0xCC ∨ b = 0xCD ∨ b = 0xCE ∨ b = 0xFA ∨ b = 0xFB ∨
      b = 0xFC ∨ b = 0xFD ∨ b = 0xD4)) (PF := fun _ => false)
    (PG := fun b r => decide ((b = 0xF6 ∨ b = 0xF7) ∧ (r = 6 ∨ r = 7))) (by decide +kernel)
    (by decide +kernel) (by decide +kernel) with ⟨b, h1, h2⟩ | ⟨b, r, h1, h2⟩ | ⟨b, h1, _⟩
  · exact Or.inl ⟨b, of_decide_eq_true h1, h2⟩
  · have := of_decide_eq_true h1
    exact Or.inr ⟨b, r, this.1, this.2, h2⟩
  · cases h1

/-- If the system flags changed, the instruction at CS:IP is one of those. -/
theorem C53_system_flags (env : Env) (s t : State) (hr : Ready s) (h : Ends env s t) (hne : sysFlags t ≠ sysFlags s) :
    SysFlagInstr s := by
  refine Classical.byContradiction fun hno => hne ?_
  let c := capKeep env (fun t => sysFlags t = sysFlags s) (fun f => f &&& 0xF72A = sysFlags s) (fun _ => True)
  have i1 : c.Base := keepBase (fun _ _ h => h) (fun _ h => h)
  have i2 : c.Rg := keepRg (fun _ _ h => h)
  have i3 : c.Mm := keepMm (fun _ _ h => h)
  have i4 : c.AFl := keepAFl (fun _ _ h h2 => h2.trans h) (fun _ _ _ h => h)
  have i6 : c.Ip := keepIp (fun _ _ h => h)
  have i7 : c.Sg := keepSg (fun _ _ _ h _ => h)
  have i9 : c.Tl := keepTl (fun _ _ h => h)
  have i10 : c.Io := keepIo (fun _ _ h => h)
  refine Cap.Res.ends (c := c) (ready_inv (c := c) hr (fun _ _ => rfl) (keepU s) ?_ ?_) h (fun _ _ h => h)
  · intro p k o a hd hn
    have h1 : o.sysFl = true → c.SFl := fun hu => absurd (dec_sys hd (by simp [hu])) hno
    have h2 : o.isInt = true → c.Hle := fun hu => absurd (dec_sys hd (by
      have : o.sysFl = true := by revert hu; cases o <;> simp [Op.isInt, Op.sysFl]
      simp [this])) hno
    exact Kp.opFn_gen o a { sg := fun _ _ => trivial, sf := h1, hle := h2, halt := fun _ _ h => h } hn
  · exact fun _ _ _ _ hd hv => absurd (dec_sys hd (by simp [hv])) hno

/-- STI changes IF and is in the list. -/
example : ∃ t, Ends demoEnv (demo [0xFB]) t ∧ sysFlags t ≠ sysFlags (demo [0xFB]) ∧ Ready (demo [0xFB]) :=
  ⟨_, Or.inl rfl, by decide +kernel, demo_ready _⟩

/-! ### C54: segment registers -/

theorem segOf_eq (i : BitVec 3) : segOf i = match segNum i with
    | some r => pure r
    | none => ubE .nullSegPtr := by
  have : i = 0 ∨ i = 1 ∨ i = 2 ∨ i = 3 ∨ i = 4 ∨ i = 5 ∨ i = 6 ∨ i = 7 := by revert i; decide +kernel
  rcases this with rfl | rfl | rfl | rfl | rfl | rfl | rfl | rfl <;> rfl

/-- `MOV Sreg, r/m` writes the segment register named by bits 3–5 of the ModR/M byte. -/
theorem movSR_kp {c : Cap} [b : c.Base] [c.Rg] [c.Mm] [c.AFl] [c.Sg] [c.Mr] {s : State} {p : Pfx} {k : Nat} (hI : c.I (opState s p k))
    (hU : ∀ u, (u = .nullBlock ∨ u = .hostInvalid ∨ u = .uninit) → (∀ b, ¬ ByteAt s k b) → c.U u)
    (hs : ∀ b r, ByteAt s k b → segNum ((b >>> 3).setWidth 3) = some r → c.VS r)
    (hns : ∀ b, ByteAt s k b → segNum ((b >>> 3).setWidth 3) = none → c.U .nullSegPtr) :
    match opMovSR c.env (opState s p k) with
    | .ok _ t => c.I t
    | .err e t => c.J e t
    | .ub u => c.U u := by
  simp only [opMovSR, bind_apply, getDec_apply, resbind_ok, guardE_apply]
  cases ho : (opState s p k).dec.ovrOper
  · simp only [Bool.false_eq_true, if_false, resbind_ok]
    rcases fetch8_cases c.env s p k with ⟨b', hb, hr⟩ | ⟨hn, _, hr⟩ | ⟨hn, u, hu, hr⟩
    · have : peekInstr8 c.env (opState s p k) = .ok b' (opState s p k) := by
        simp only [peekInstr8, bind_apply, hr, resbind_ok]
        rfl
      simp only [this, resbind_ok, segOf_eq]
      cases hsn : segNum ((b' >>> 3).setWidth 3) with
      | none => exact hns b' hb hsn
      | some r =>
        simp only [pure_apply, resbind_ok]
        have hk : Kpt c (RME.parseModRMX >>= fun x => RME.readLoc 16 x.2 >>= fun v => RME.setSreg r v) :=
          Kp.bind Kp.parseModRMX fun x hx => Kp.bind (Kp.readLoc (hx.2 16 (by decide))) fun _ _ => Kp.setSreg (hs b' r hb hsn)
        have := hk (opState s p k) hI
        simp only [bind_apply] at this
        revert this
        cases (RME.parseModRMX c.env (opState s p k)).bind fun x s' => (RME.readLoc 16 x.2 c.env s').bind fun v s'' => RME.setSreg r v c.env s'' with
        | ok _ _ => exact fun h => h.1
        | err _ _ => exact fun h => h
        | ub _ => exact fun h => h
    · have : peekInstr8 c.env (opState s p k) = .err .badmem (opState s p k) := by
        simp only [peekInstr8, bind_apply, hr, resbind_err]
      simp only [this, resbind_err]
      exact b.bad _ _ hI rfl
    · have : peekInstr8 c.env (opState s p k) = .ub u := by
        simp only [peekInstr8, bind_apply, hr, resbind_ub]
      simp only [this, resbind_ub]
      exact hU u (by rcases hu with h | h <;> simp [h]) hn
  · simp only [if_true, resbind_err]
    exact b.bad _ _ hI rfl

/-- Opcodes that name the segment register `r`: POP Sreg, LxS; MOV Sreg. -/
def NamesSeg (s : State) (r : SReg) : Prop :=
  (r = .es ∧ (OpcodeAt s 0x07 ∨ OpcodeAt s 0xC4)) ∨ (r = .ss ∧ (OpcodeAt s 0x17 ∨ Opcode0FAt s 0xB2)) ∨
  (r = .ds ∧ (OpcodeAt s 0x1F ∨ OpcodeAt s 0xC5)) ∨ (r = .fs ∧ (Opcode0FAt s 0xA1 ∨ Opcode0FAt s 0xB4)) ∨
  (r = .gs ∧ (Opcode0FAt s 0xA9 ∨ Opcode0FAt s 0xB5)) ∨ (∃ i, segNum i = some r ∧ OpcodeGrpAt s 0x8E i)

/-- Far control transfers and interrupts: far CALL, RET, JMP, IRET, INT3, INT, INTO, and instructions
that may fault (AAM, DIV, IDIV). -/
def FarTransfer (s : State) : Prop :=
  (∃ b, (b = 0x9A ∨ b = 0xCA ∨ b = 0xCB ∨ b = 0xEA ∨ b = 0xCF ∨ b = 0xCC ∨ b = 0xCD ∨ b = 0xCE ∨ b = 0xD4) ∧ OpcodeAt s b) ∨
  (∃ b r, ((b = 0xFF ∧ (r = 3 ∨ r = 5)) ∨ ((b = 0xF6 ∨ b = 0xF7) ∧ (r = 6 ∨ r = 7))) ∧ OpcodeGrpAt s b r)

theorem dec_far {s p k o a} (hd : Dec s p k o a) (h : (o.isDiv a || (o.segs a .cs && o != .movSR)) = true) : FarTransfer s := by
  rcases hd.elim (fun o a => o.isDiv a || (o.segs a .cs && o != .movSR)) h (P1 := fun b => decide (b = 0x9A ∨ b = 0xCA ∨ b = 0xCB ∨ b = 0xEA ∨ b = 0xCF ∨ b = 0xCC ∨ b = 0xCD ∨ b = 0xCE ∨ b = 0xD4))
    (PF := fun _ => false)
    (PG := fun b r => decide ((b = 0xFF ∧ (r = 3 ∨ r = 5)) ∨ ((b = 0xF6 ∨ b = 0xF7) ∧ (r = 6 ∨ r = 7)))) (by decide +kernel)
    (by decide +kernel) (by decide +kernel) with ⟨b, h1, h2⟩ | ⟨b, r, h1, h2⟩ | ⟨b, h1, _⟩
  · exact Or.inl ⟨b, of_decide_eq_true h1, h2⟩
  · exact Or.inr ⟨b, r, of_decide_eq_true h1, h2⟩
  · cases h1

theorem dec_int {s p k o a} (hd : Dec s p k o a) (h : o.isInt = true) : FarTransfer s :=
  dec_far hd (by revert h; cases o <;> simp [Op.isInt, Op.segs, Op.isDiv] <;> decide)

/-- The opcodes that may write `r` in the tables. -/
def segOp1 : SReg → BitVec 8 → Bool
  | .es, b => b == 0x07 || b == 0xC4
  | .ss, b => b == 0x17
  | .ds, b => b == 0x1F || b == 0xC5
  | _, _ => false
def segOpF : SReg → BitVec 8 → Bool
  | .ss, b => b == 0xB2
  | .fs, b => b == 0xA1 || b == 0xB4
  | .gs, b => b == 0xA9 || b == 0xB5
  | _, _ => false

theorem dec_seg {s p k o a} (r : SReg) (hr : r ≠ .cs) (hd : Dec s p k o a) (h : (o.segs a r && o != .movSR) = true) : NamesSeg s r := by
  have key : (∃ b, segOp1 r b = true ∧ OpcodeAt s b) ∨ (∃ b r, false = true ∧ OpcodeGrpAt s b r) ∨ (∃ b, segOpF r b = true ∧ Opcode0FAt s b) := by
    cases r
    all_goals first
      | exact absurd rfl hr
      | exact hd.elim (fun o a => o.segs a .es && o != .movSR) h (P1 := segOp1 .es) (PF := segOpF .es) (PG := fun _ _ => false) (by decide +kernel) (by decide +kernel) (by decide +kernel)
      | exact hd.elim (fun o a => o.segs a .ss && o != .movSR) h (P1 := segOp1 .ss) (PF := segOpF .ss) (PG := fun _ _ => false) (by decide +kernel) (by decide +kernel) (by decide +kernel)
      | exact hd.elim (fun o a => o.segs a .ds && o != .movSR) h (P1 := segOp1 .ds) (PF := segOpF .ds) (PG := fun _ _ => false) (by decide +kernel) (by decide +kernel) (by decide +kernel)
      | exact hd.elim (fun o a => o.segs a .fs && o != .movSR) h (P1 := segOp1 .fs) (PF := segOpF .fs) (PG := fun _ _ => false) (by decide +kernel) (by decide +kernel) (by decide +kernel)
      | exact hd.elim (fun o a => o.segs a .gs && o != .movSR) h (P1 := segOp1 .gs) (PF := segOpF .gs) (PG := fun _ _ => false) (by decide +kernel) (by decide +kernel) (by decide +kernel)
  rcases key with ⟨b, h1, h2⟩ | ⟨_, _, h1, _⟩ | ⟨b, h1, h2⟩
  · cases r <;> simp [segOp1] at h1 <;> (try rcases h1 with rfl | rfl) <;> (try subst h1) <;> simp [NamesSeg, h2]
  · cases h1
  · cases r <;> simp [segOpF] at h1 <;> (try rcases h1 with rfl | rfl) <;> (try subst h1) <;> simp [NamesSeg, h2]

theorem dec_movSR {s p k a} (hd : Dec s p k .movSR a) {b} (hb : ByteAt s k b) : OpcodeGrpAt s 0x8E ((b >>> 3).setWidth 3) := by
  have key : ∀ f : Op → BitVec 3 → Bool, f = (fun o _ => o == .movSR) → f .movSR a = true := by intro f hf; subst hf; rfl
  cases hd with
  | @one pfx p op _ a hp hc hn he =>
    have h := chk_some (f := fun b e => match e.fn with | .base o => (o != .movSR || b == 0x8E) | _ => true) (b := op)
      ((by decide +kernel : ∀ b, chk (fun b e => match e.fn with | .base o => (o != .movSR || b == 0x8E) | _ => true) b = true) op) he
    simp at h; subst h
    refine ⟨pfx, p, b, hp, ?_, rfl⟩
    have := BytesAt.snoc hc (b := b) (by simpa using hb)
    simpa using this
  | @grp pfx p op m _ a hp hc hn he =>
    have h := chk_some (f := fun b e => !e.modrm || match e.fn with | .base o => o != .movSR | _ => true) (b := op)
      ((by decide +kernel : ∀ b, chk (fun b e => !e.modrm || match e.fn with | .base o => o != .movSR | _ => true) b = true) op) he
    simp at h
  | @ext pfx p op _ a b2 hp hc he =>
    have h := chkF_some (f := fun b e => match e.fn with | .base o => o != .movSR | _ => true) (b := op)
      ((by decide +kernel : ∀ b, chkF (fun b e => match e.fn with | .base o => o != .movSR | _ => true) b = true) op) he
    simp at h

theorem capSeg_inst (env : Env) (s : State) (r : SReg) :
    let c := capKeep env (fun t => t.sreg r = s.sreg r) (fun _ => True) (fun x => x ≠ r)
    c.Base ∧ c.Rg ∧ c.Mm ∧ c.AFl ∧ c.SFl ∧ c.Ip ∧ c.Sg ∧ c.Tl ∧ c.Io := by
  refine ⟨keepBase (fun _ _ h => h) (fun _ _ => trivial), keepRg (fun _ _ h => h), keepMm (fun _ _ h => h),
    keepAFl (fun _ _ _ _ => trivial) (fun _ _ h _ => h), ⟨fun _ => trivial⟩, keepIp (fun _ _ h => h), keepSg ?_, keepTl (fun _ _ h => h),
    keepIo (fun _ _ h => h)⟩
  intro t x v h hx
  show (if r = x then v else t.sreg r) = s.sreg r
  rw [if_neg (Ne.symm hx)]
  exact h

/-- If a segment register changed, the instruction at CS:IP names it, or (CS) it is a far control
transfer or interrupt. For the other segment registers, far transfers count only through a host
callback. -/
theorem C54_segment_registers (env : Env) (s t : State) (hr : Ready s) (h : Ends env s t) (r : SReg) (hne : t.sreg r ≠ s.sreg r)
    (hcb : r ≠ .cs → CallbacksKeep env (fun s t => t.sreg r = s.sreg r)) :
    NamesSeg s r ∨ (r = .cs ∧ FarTransfer s) := by
  refine Classical.byContradiction fun hno => hne ?_
  have hno1 : ¬ NamesSeg s r := fun h => hno (Or.inl h)
  have hno2 : r = .cs → ¬ FarTransfer s := fun h h2 => hno (Or.inr ⟨h, h2⟩)
  let c := capKeep env (fun t => t.sreg r = s.sreg r) (fun _ => True) (fun x => x ≠ r)
  obtain ⟨i1, i2, i3, i4, i5, i6, i7, i8, i9⟩ := capSeg_inst env s r
  have hsegs : ∀ p k o a, Dec s p k o a → o ≠ .movSR → ∀ x, o.segs a x = true → c.VS x := by
    intro p k o a hd hm x hx hxr
    rw [hxr] at hx
    by_cases hcs : r = .cs
    · subst hcs
      exact hno2 rfl (dec_far hd (by simp [hx, hm]))
    · exact hno1 (dec_seg r hcs hd (by simp [hx, hm]))
  have hhle : ∀ p k o a, Dec s p k o a → o.isInt = true → c.Hle := by
    intro p k o a hd hi
    by_cases hcs : r = .cs
    · exact absurd (dec_int hd hi) (hno2 hcs)
    · exact keepHle (fun n f t hf h => (hcb hcs n f t hf).trans h)
  refine Cap.Res.ends (c := c) (ready_kp (c := c) hr ?_ (keepU s) ?_) h (fun _ _ h => h)
  · intros; rfl
  · intro p k o a hd hn
    have hI : c.I (opState s p k) := rfl
    have hdiv : ∀ t, o.isDiv a = true → c.I t → c.Res (callIntInternal 0 c.env t) := by
      intro t hv ht
      have hcs : (.cs : SReg) ≠ r := fun hcs => hno2 hcs.symm (dec_far hd (by simp [hv]))
      have := Kp.callInt0 (c := c) hcs t ht
      cases h3 : callIntInternal 0 c.env t with
      | ok x u => rw [h3] at this; exact this.1
      | err e u => rw [h3] at this; exact this
      | ub u => rw [h3] at this; exact this
    have hfin : ∀ t, c.I t → c.Res (finishInstr (s.sreg .cs) s.ip c.env t) := by
      intro t ht
      have := Kp.finishInstr (c := c) (s.sreg .cs) s.ip t ht
      cases h3 : finishInstr (s.sreg .cs) s.ip c.env t with
      | ok x u => rw [h3] at this; exact this.1
      | err e u => rw [h3] at this; exact this
      | ub u => rw [h3] at this; exact this
    have hres : match opFn o a c.env (opState s p k) with
        | .ok _ t => c.I t
        | .err e t => c.J e t
        | .ub u => c.U u := by
      by_cases hm : o = .movSR
      · subst hm
        refine movSR_kp (c := c) hI (by intros; trivial) ?_ (by intros; trivial)
        intro b x hb hx hxr
        rw [hxr] at hx
        exact hno1 (Or.inr (Or.inr (Or.inr (Or.inr (Or.inr ⟨_, hx, dec_movSR hd hb⟩)))))
      · have := Kp.opFn_gen (c := c) o a { sg := hsegs p k o a hd hm, hle := hhle p k o a hd, halt := fun _ _ h => h } hn (opState s p k) hI
        cases h3 : opFn o a c.env (opState s p k) with
        | ok x u => rw [h3] at this; exact this.1
        | err e u => rw [h3] at this; exact this
        | ub u => rw [h3] at this; exact this
    cases h3 : opFn o a c.env (opState s p k) with
    | ok x u => rw [h3] at hres; exact hfin u hres
    | err e u =>
      rw [h3] at hres
      dsimp only
      split
      · exact fun hv => hdiv u hv hres
      · exact hres
    | ub u => trivial

/-- MOV DS, AX changes DS and is in the list. -/
example : ∃ t, Ends demoEnv (demo [0x8E, 0xD8]) t ∧ t.sreg .ds ≠ (demo [0x8E, 0xD8]).sreg .ds ∧ NamesSeg (demo [0x8E, 0xD8]) .ds :=
  ⟨_, Or.inl rfl, by decide +kernel, Or.inr (Or.inr (Or.inr (Or.inr (Or.inr ⟨3, rfl, [], {}, 0xD8, rfl, CodeAt.bytes (demo_code [0x8E, 0xD8] (by decide)), by decide⟩))))⟩

end RME
