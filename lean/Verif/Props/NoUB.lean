import Verif.Props.Confine2
import Verif.Lemmas.Conc
set_option autoImplicit false
/-
C51: which guest instructions can make the emulator leave the C language (undefined behaviour), on a
machine whose 272 blocks are all mapped to one buffer.
-/
set_option linter.unusedSectionVars false
namespace RME

/-! ### Specification -/

/-- All 272 blocks of 4 KiB are mapped, one after the other, to a buffer that is exactly as long. -/
def FlatMem (s : State) : Prop :=
  ∃ base, (∀ b < 272, s.map b = some (base + 4096 * b)) ∧ ∀ a < 272 * 4096, s.valid (base + a) = true

/-- Host callbacks do not remap memory. -/
def SameMap (s t : State) : Prop := t.map = s.map ∧ t.valid = s.valid

/-- One-byte opcodes with a ModR/M operand that is accessed through a pointer: the eight ALU operations, IMUL,
groups 80 81 83, TEST, XCHG, MOV, POP r/m, shifts, groups F6 F7 FE FF. -/
def memOpcode (b : BitVec 8) : Prop :=
  (b.toNat < 0x40 ∧ b.toNat % 8 < 4) ∨ b = 0x69 ∨ b = 0x6B ∨ b = 0x80 ∨ b = 0x81 ∨ (0x83 ≤ b.toNat ∧ b.toNat ≤ 0x8C) ∨ b = 0x8E ∨
  b = 0x8F ∨ b = 0xC0 ∨ b = 0xC1 ∨ b = 0xC6 ∨ b = 0xC7 ∨ (0xD0 ≤ b.toNat ∧ b.toNat ≤ 0xD3) ∨ b = 0xF6 ∨ b = 0xF7 ∨ b = 0xFE ∨ b = 0xFF
/-- Two-byte opcodes with such an operand: SHLD, SHRD, IMUL, MOVZX, the bit-test group, BSF. -/
def memOpcode0F (b : BitVec 8) : Prop :=
  b = 0xA4 ∨ b = 0xA5 ∨ b = 0xAC ∨ b = 0xAD ∨ b = 0xAF ∨ b = 0xB6 ∨ b = 0xB7 ∨ b = 0xBA ∨ b = 0xBC

instance (b : BitVec 8) : Decidable (memOpcode b) := by unfold memOpcode; infer_instance
instance (b : BitVec 8) : Decidable (memOpcode0F b) := by unfold memOpcode0F; infer_instance

/-- The instruction at CS:IP has a ModR/M operand. -/
def MemOpcodeAt (s : State) : Prop := (∃ b, memOpcode b ∧ OpcodeAt s b) ∨ ∃ b, memOpcode0F b ∧ Opcode0FAt s b

/-- The instructions that may be undefined behaviour of the host, by kind. -/
def UBCause (s : State) : UB → Prop
  /- the instruction counter overflows; IDIV (F6 /7, F7 /7); two- and three-operand IMUL -/
  | .signedOverflow => s.instrNum = 2147483647 ∨ OpcodeGrpAt s 0xF6 7 ∨ OpcodeGrpAt s 0xF7 7 ∨ OpcodeAt s 0x69 ∨ OpcodeAt s 0x6B ∨
      Opcode0FAt s 0xAF
  /- SHL/SAL by an immediate or CL; SHLD, SHRD -/
  | .shiftRange => (∃ op r, (op = 0xC0 ∨ op = 0xC1 ∨ op = 0xD2 ∨ op = 0xD3) ∧ (r = 4 ∨ r = 6) ∧ OpcodeGrpAt s op r) ∨
      ∃ op, (op = 0xA4 ∨ op = 0xA5 ∨ op = 0xAC ∨ op = 0xAD) ∧ Opcode0FAt s op
  /- MOV to or from segment register number 6 or 7 -/
  | .nullSegPtr => ∃ op r, (op = 0x8C ∨ op = 0x8E) ∧ (r = 6 ∨ r = 7) ∧ OpcodeGrpAt s op r
  /- a ModR/M operand beyond the block table, or crossing the end of the buffer -/
  | .blockIndexOOB | .hostInvalid => MemOpcodeAt s
  | .nullBlock | .uninit | .modelFuel => False

/-- The full property. -/
def C51_Full : Prop := ∀ (env : Env) (s : State) (u : UB), CallbacksKeep env SameMap → FlatMem s → runOne env s ≠ .ub u

/-! ### The logic -/

/-- An address reached without ModR/M: at most 10FFEF from the start of the buffer. -/
def LowAddr (s : State) (a : Nat) : Prop := ∃ b h k, s.map b = some h ∧ a = h + k ∧ b < 272 ∧ b * 4096 + k ≤ 0x10FFEF

def capFlat (env : Env) (s : State) (U : UB → Prop) : Cap :=
  { env := env, I := SameMap s, J := fun _ => SameMap s, W := fun n => n = 8 ∨ n = 16 ∨ n = 32, VF := fun _ => True,
    VL := fun n l => match l with
      | .mem a => n / 8 ≤ 4 ∧ (LowAddr s a ∨ U .hostInvalid)
      | _ => True,
    VD := fun _ => True, VS := fun _ => True, U := U }

theorem LowAddr.valid {s t : State} (hf : FlatMem s) (ht : SameMap s t) {n a : Nat} (hn : n / 8 ≤ 4) (h : LowAddr s a) :
    validN t.valid (n / 8) a = true := by
  obtain ⟨base, hm, hv⟩ := hf
  obtain ⟨b, h, k, h1, rfl, h2, h3⟩ := h
  rw [hm b h2] at h1
  cases h1
  rw [validN_iff]
  intro i hi
  rw [ht.2, show base + 4096 * b + k + i = base + (b * 4096 + k + i) by omega]
  exact hv _ (by omega)

section
variable {env : Env} {s : State} {U : UB → Prop}

theorem wid4 {n : Nat} (h : n = 8 ∨ n = 16 ∨ n = 32) : n / 8 ≤ 4 := by omega

theorem flatBase (hf : FlatMem s) : (capFlat env s U).Base := {
    dec := (by intros; trivial), setDec := fun _ _ h _ => h, ofs := (by intros; trivial), rep := (by intros; trivial),
    fl := (by intros; trivial),
    ptr := fun t b h k n hI hb hm hk hn hle => ⟨wid4 hn, Or.inl ⟨b, h, k, (by rw [← hI.1]; exact hm), rfl, hb, hle⟩⟩,
    lreg := (by intros; trivial), lregH := (by intros; trivial),
    bad := fun _ _ h _ => h, w8 := Or.inl rfl, w16 := Or.inr (Or.inl rfl), w32 := fun _ _ _ => Or.inr (Or.inr rfl), wle := fun _ h => h,
    ubNull := fun t b hI _ hb hm => (by
      obtain ⟨base, h1, _⟩ := hf
      rw [hI.1, h1 b hb] at hm; cases hm),
    ubHost := fun t n h hI hv hn => (by
      obtain ⟨h4, hv | hv⟩ := hv
      · rw [hv.valid hf hI h4] at hn; cases hn
      · exact hv),
    ubUninit := fun t b hI hb hm => (by
      obtain ⟨base, h1, _⟩ := hf
      rw [hI.1, h1 b hb] at hm; cases hm) }

instance fl1 : (capFlat env s U).Rg := { setReg := fun _ _ _ _ h _ => h, setRegH := fun _ _ _ _ h _ _ => h, setGpr := fun _ _ _ h _ => h }
instance fl2 : (capFlat env s U).Mm := { store := fun _ _ _ _ h _ _ _ => h }
instance fl3 : (capFlat env s U).AFl := { arith := (by intros; trivial), setF := fun _ _ h _ => h }
instance fl4 : (capFlat env s U).SFl := { any := (by intros; trivial) }
instance fl5 : (capFlat env s U).Ip := { ip := fun _ _ h => h, dci := (by intros; trivial) }
instance fl6 : (capFlat env s U).Sg := { setS := fun _ _ _ h _ => h }
instance fl7 : (capFlat env s U).Io := { io := fun _ _ h => h }
instance fl8 : (capFlat env s U).Dv := ⟨fun _ h => h⟩
instance fl9 : (capFlat env s U).Tl := { ln := fun _ _ h => h, brk := fun _ h => h }
instance fl10 : (capFlat env s U).Hi := { hi := (by intros; trivial), memX := fun _ _ h hn => ⟨wid4 hn, h.2⟩ }
theorem flatHle (hcb : CallbacksKeep env SameMap) : (capFlat env s U).Hle :=
  { hle := fun n f t hf hI => ⟨(hcb n f t hf).1.trans hI.1, (hcb n f t hf).2.trans hI.2⟩ }
theorem flatMr (h1 : U .blockIndexOOB) (h2 : U .hostInvalid) : (capFlat env s U).Mr :=
  { oob := h1, ptrM := fun _ _ _ _ _ _ _ _ _ hn => ⟨wid4 hn, Or.inr h2⟩ }

/-- MOV r/m,Sreg and MOV Sreg,r/m with the byte after the opcode known. -/
theorem peek_op {k : Nat} {p : Pfx} {b : BitVec 8} (h : readInstr 8 env (opState s p k) = .ok b (opState s p (k + 1))) :
    peekInstr8 env (opState s p k) = .ok b (opState s p k) := by
  simp only [peekInstr8, bind_apply, h, resbind_ok, modDec_apply, pure_apply]
  rfl
end

/-- `ready_inv` with the state at which the opcode function starts. -/
theorem ready_inv_at {c : Cap} [c.Base] [c.Ip] [c.Tl] {s : State} (hr : Ready s)
    (hI : ∀ p k, c.I (opState s p k))
    (hU : ∀ u k, (u = .nullBlock ∨ u = .hostInvalid ∨ u = .uninit) → (∀ b, ¬ ByteAt s k b) → c.U u)
    (hop : ∀ p k o a, Dec s p k o a → o.isPrefix = false → c.Res (opFn o a c.env (opState s p k)))
    (hdiv : Kpt c (callIntInternal 0)) (hJ : ∀ t, c.J .divErr t → c.I t) :
    c.Res (runOne c.env s) := by
  refine ready_kp hr ?_ hU fun p k o a hd hn => ?_
  · rintro p k e (rfl | rfl | rfl)
    · exact Cap.Base.bad _ _ (hI p k) rfl
    · exact Cap.Base.bad _ _ (hI p k) rfl
    · exact Cap.Tl.brk _ (hI p k)
  · have h := hop p k o a hd hn
    cases h2 : opFn o a c.env (opState s p k) with
    | ok x t =>
      rw [h2] at h
      have := Kp.finishInstr (c := c) (s.sreg .cs) s.ip t h
      dsimp only
      cases h3 : finishInstr (s.sreg .cs) s.ip c.env t with
      | ok x u => rw [h3] at this; exact this.1
      | err e u => rw [h3] at this; exact this
      | ub u => rw [h3] at this; exact this
    | ub u => rw [h2] at h; exact h
    | err e t =>
      rw [h2] at h
      dsimp only
      split
      · rename_i he
        intro _
        have := hdiv t (hJ t (he ▸ h))
        cases h3 : callIntInternal 0 c.env t with
        | ok x u => rw [h3] at this; exact this.1
        | err e u => rw [h3] at this; exact this
        | ub u => rw [h3] at this; exact this
      · exact h

theorem Kp.res {c : Cap} {V : Unit → Prop} {m : M Unit} (h : Kp c V m) {s : State} (hs : c.I s) : c.Res (m c.env s) := by
  have := h s hs
  cases h2 : m c.env s with
  | ok x t => rw [h2] at this; exact this.1
  | err e t => rw [h2] at this; exact this
  | ub u => rw [h2] at this; exact this

/-! ### From the opcode function to the bytes -/

theorem OpcodeGrpAt.opcode {s : State} {b : BitVec 8} {r : BitVec 3} (h : OpcodeGrpAt s b r) : OpcodeAt s b := by
  obtain ⟨pfx, p, m, hp, hb, _⟩ := h
  refine ⟨pfx, p, hp, ?_⟩
  rw [show pfx ++ [b, m] = (pfx ++ [b]) ++ [m] by simp] at hb
  exact hb.left

theorem dec_ov {s p k o a} (hd : Dec s p k o a) (h : o.isOv a = true) : UBCause s .signedOverflow := by
  rcases hd.elim (fun o p => o.isOv p) h (P1 := fun b => b == 0x69 || b == 0x6B) (PF := fun b => b == 0xAF)
    (PG := fun b r => (b == 0xF6 || b == 0xF7) && r == 7) (by decide +kernel) (by decide +kernel) (by decide +kernel) with
    ⟨b, hb, hx⟩ | ⟨b, r, hb, hx⟩ | ⟨b, hb, hx⟩
  · simp at hb; rcases hb with rfl | rfl
    · exact Or.inr (Or.inr (Or.inr (Or.inl hx)))
    · exact Or.inr (Or.inr (Or.inr (Or.inr (Or.inl hx))))
  · simp at hb; obtain ⟨rfl | rfl, rfl⟩ := hb
    · exact Or.inr (Or.inl hx)
    · exact Or.inr (Or.inr (Or.inl hx))
  · simp at hb; subst hb
    exact Or.inr (Or.inr (Or.inr (Or.inr (Or.inr hx))))

theorem dec_sh {s p k o a} (hd : Dec s p k o a) (h : o.isShift a = true) : UBCause s .shiftRange := by
  rcases hd.elim (fun o p => o.isShift p) h (P1 := fun _ => false) (PF := fun b => decide (b = 0xA4 ∨ b = 0xA5 ∨ b = 0xAC ∨ b = 0xAD))
    (PG := fun b r => decide (b = 0xC0 ∨ b = 0xC1 ∨ b = 0xD2 ∨ b = 0xD3) && decide (r = 4 ∨ r = 6))
    (by decide +kernel) (by decide +kernel) (by decide +kernel) with
    ⟨b, hb, hx⟩ | ⟨b, r, hb, hx⟩ | ⟨b, hb, hx⟩
  · cases hb
  · rw [Bool.and_eq_true, decide_eq_true_eq, decide_eq_true_eq] at hb
    exact Or.inl ⟨b, r, hb.1, hb.2, hx⟩
  · rw [decide_eq_true_eq] at hb
    exact Or.inr ⟨b, hb, hx⟩

theorem dec_mem {s p k o a} (hd : Dec s p k o a) (h : o.modM = true) : MemOpcodeAt s := by
  rcases hd.elim (fun o _ => o.modM) h (P1 := fun b => decide (memOpcode b)) (PF := fun b => decide (memOpcode0F b))
    (PG := fun b r => decide (memOpcode b)) (by decide +kernel) (by decide +kernel) (by decide +kernel) with
    ⟨b, hb, hx⟩ | ⟨b, r, hb, hx⟩ | ⟨b, hb, hx⟩
  · rw [decide_eq_true_eq] at hb
    exact Or.inl ⟨b, hb, hx⟩
  · rw [decide_eq_true_eq] at hb
    exact Or.inl ⟨b, hb, hx.opcode⟩
  · rw [decide_eq_true_eq] at hb
    exact Or.inr ⟨b, hb, hx⟩

/-- MOV Sreg. -/
def Op.isMovSeg : Op → Bool
  | .movRS | .movSR => true
  | _ => false

theorem dec_movSeg {s p k o a} (hd : Dec s p k o a) (h : o.isMovSeg = true) {m : BitVec 8} (hm : ByteAt s k m)
    (h6 : (m >>> 3).setWidth 3 = (6 : BitVec 3) ∨ (m >>> 3).setWidth 3 = (7 : BitVec 3)) : UBCause s .nullSegPtr := by
  cases hd with
  | @one pfx p op o a hp hb hn he =>
    have := chk_some (f := fun b e => match e.fn with | .base o => (!o.isMovSeg || decide (b = 0x8C ∨ b = 0x8E)) | _ => true)
      ((by decide +kernel : ∀ b, chk (fun b e => match e.fn with | .base o => (!o.isMovSeg || decide (b = 0x8C ∨ b = 0x8E)) | _ => true) b = true) op) he
    simp only [h, Bool.not_true, Bool.false_or, decide_eq_true_eq] at this
    refine ⟨op, _, this, h6, pfx, p, m, hp, ?_, rfl⟩
    have e : pfx ++ [op, m] = (pfx ++ [op]) ++ [m] := by simp
    rw [e]
    exact BytesAt.snoc hb (by simpa using hm)
  | @grp pfx p op m o a hp hb hn he =>
    have := chk_some (f := fun _ e => match e.fn with | .base o => (!e.modrm || !o.isMovSeg) | _ => true)
      ((by decide +kernel : ∀ b, chk (fun _ e => match e.fn with | .base o => (!e.modrm || !o.isMovSeg) | _ => true) b = true) op) he
    simp [h] at this
  | @ext pfx p op o a b hp hb he =>
    have := chkF_some (f := fun _ e => match e.fn with | .base o => !o.isMovSeg | _ => true)
      ((by decide +kernel : ∀ b, chkF (fun _ e => match e.fn with | .base o => !o.isMovSeg | _ => true) b = true) op) he
    simp [h] at this

theorem dec_bySeg {s p k o a} (hd : Dec s p k o a) (h : o.bySeg a = true) : o.isMovSeg = true := by
  refine Classical.byContradiction fun hx => ?_
  rcases hd.elim (fun o p => o.bySeg p && !o.isMovSeg) (by simp [h, hx]) (P1 := fun _ => false) (PF := fun _ => false)
    (PG := fun b r => false)
    (by decide +kernel) (by decide +kernel) (by decide +kernel) with
    ⟨b, hb, hx⟩ | ⟨b, r, hb, hx⟩ | ⟨b, hb, hx⟩ <;> cases hb

/-! ### The theorem -/

/-- Loops of the model run out of fuel, or a cause of undefined behaviour. -/
def ubc (s : State) (u : UB) : Prop := UBCause s u ∨ u = .modelFuel

section
variable {env : Env} {s : State}

theorem movSeg_res (hf : FlatMem s) (hr : Ready s) {p k o a} (hd : Dec s p k o a) (h : o.isMovSeg = true) (hm : o.modM = true) :
    (capFlat env s (ubc s)).Res (opFn o a env (opState s p k)) := by
  haveI := flatBase (env := env) (U := ubc s) hf
  haveI := flatMr (env := env) (s := s) (U := ubc s) (Or.inl (dec_mem hd hm)) (Or.inl (dec_mem hd hm))
  have hI : (capFlat env s (ubc s)).I (opState s p k) := ⟨rfl, rfl⟩
  rcases fetch8_cases env s p k with ⟨b, hb, hrd⟩ | ⟨hn, _, hrd⟩ | ⟨hn, u, hu, hrd⟩
  · have hp := peek_op hrd
    have hns : ((b >>> 3).setWidth 3 = (6 : BitVec 3) ∨ (b >>> 3).setWidth 3 = (7 : BitVec 3)) → (capFlat env s (ubc s)).U .nullSegPtr :=
      fun h6 => Or.inl (dec_movSeg hd h hb h6)
    cases o <;> first | (cases h; done) | skip
    · have hk : Kpt (capFlat env s (ubc s)) (do
          let (_, m) ← parseModRMX
          let sr ← segOf ((b >>> 3).setWidth 3)
          let v ← getSreg sr
          writeLoc 16 m v) :=
        Kp.bindRMX fun _ _ _ h => Kp.bind (Kp.segOf _ hns) fun _ _ => Kp.bind (Kp.getSregT _) fun _ _ =>
          Kp.writeLoc (Or.inr (Or.inl rfl)) (h 16 (by decide))
      simp only [opFn, opMovRS, bind_apply, getDec_apply, resbind_ok]
      cases ho : (opState s p k).dec.ovrOper
      · simp only [guardE_false, resbind_ok, hp]
        exact hk.res hI
      · exact hI
    · have hk : Kpt (capFlat env s (ubc s)) (do
          let sr ← segOf ((b >>> 3).setWidth 3)
          let (_, m) ← parseModRMX
          let v ← readLoc 16 m
          setSreg sr v) :=
        Kp.bind (Kp.segOf _ hns) fun _ _ => Kp.bindRMX fun _ _ _ h => Kp.bind (Kp.readLoc (h 16 (by decide))) fun _ _ => Kp.setSreg trivial
      simp only [opFn, opMovSR, bind_apply, getDec_apply, resbind_ok]
      cases ho : (opState s p k).dec.ovrOper
      · simp only [guardE_false, resbind_ok, hp]
        exact hk.res hI
      · exact hI
  · obtain ⟨base, h1, _⟩ := hf
    have := linear_lt (s.sreg .cs) (s.ip + BitVec.ofNat 16 k)
    simp only [hostAddr, blockSize] at hn
    rw [h1 _ (by omega)] at hn
    cases hn
  · have := Kp.readInstr (c := capFlat env s (fun _ => False)) (n := 8) (b := flatBase hf) (Or.inl rfl) (opState s p k) hI
    rw [show (capFlat env s (fun _ => False)).env = env from rfl, hrd] at this
    exact this.elim

/-- C51 (partial): on a machine with a flat memory map, `RME_RunOne` is undefined behaviour only for an instruction
that `UBCause` lists for that kind of undefined behaviour.  Missing: those instructions (`C51_violated_kinds` shows
that every kind really occurs). -/
theorem C51_ub_partial (hcb : CallbacksKeep env SameMap) (hf : FlatMem s) {u : UB} (h : runOne env s = .ub u) : UBCause s u := by
  rcases runOne_cases env s with ⟨_, _, h1⟩ | ⟨_, _, h1⟩ | ⟨h0, h1⟩ | ⟨hr, _⟩
  · rw [h1] at h; cases h
  · rw [h1] at h
    have hI : SameMap s ((env.hle (s.ip.setWidth 8)).getD id s) := by
      cases hx : env.hle (s.ip.setWidth 8) with
      | none => exact ⟨rfl, rfl⟩
      | some f => exact hcb _ f s hx
    haveI := flatBase (env := env) (U := fun _ => False) hf
    have := Kp.iret (c := capFlat env s (fun _ => False)) trivial _ hI
    unfold ignoreErr at h
    rw [show (capFlat env s (fun _ => False)).env = env from rfl] at this
    cases h2 : opIret env ((env.hle (s.ip.setWidth 8)).getD id s) with
    | ok a t => rw [h2] at h; cases h
    | err e t => rw [h2] at h; cases h
    | ub u => rw [h2] at this; exact this.elim
  · rw [h1] at h; cases h; exact Or.inl h0
  · haveI := flatBase (env := env) (U := ubc s) hf
    have hI : ∀ p k, (capFlat env s (ubc s)).I (opState s p k) := fun _ _ => ⟨rfl, rfl⟩
    have hby : ∀ k, ∃ b, ByteAt s k b := by
      intro k
      obtain ⟨base, h1, h2⟩ := hf
      have := linear_lt (s.sreg .cs) (s.ip + BitVec.ofNat 16 k)
      refine ⟨_, base + linear (s.sreg .cs) (s.ip + BitVec.ofNat 16 k), ?_, ?_, rfl⟩
      · simp only [hostAddr]
        rw [h1 _ (by omega), Option.map_some, Nat.add_assoc, Nat.div_add_mod]
      · exact h2 _ (by omega)
    have key : (capFlat env s (ubc s)).Res (runOne (capFlat env s (ubc s)).env s) := by
      refine ready_inv_at hr hI ?_ ?_ (Kp.callInt0 trivial) (fun _ h => h)
      · intro u k _ hn
        obtain ⟨b, hb⟩ := hby k
        exact absurd hb (hn b)
      · intro p k o a hd hn
        by_cases hms : o.isMovSeg = true
        · refine movSeg_res hf hr hd hms ?_
          cases o <;> first | (cases hms; done) | rfl
        · refine Kp.res (c := capFlat env s (ubc s)) (Kp.opFn_gen o a ?_ hn) (hI p k)
          exact {
            sg := fun _ _ => trivial
            io := fun _ => inferInstance
            sf := fun _ => inferInstance
            ip := fun _ => inferInstance
            hle := fun _ => flatHle hcb
            fu := fun _ => ⟨Or.inr rfl⟩
            dv := fun _ => inferInstance
            ov := fun hx => ⟨Or.inl (dec_ov hd hx)⟩
            sh := fun hx => ⟨Or.inl (dec_sh hd hx)⟩
            ns := fun hx => absurd (dec_bySeg hd hx) hms
            hi := fun _ => inferInstance
            mr := fun hx => flatMr (Or.inl (dec_mem hd hx)) (Or.inl (dec_mem hd hx))
            halt := fun _ _ h => h }
    rw [show (capFlat env s (ubc s)).env = env from rfl, h] at key
    rcases key with key | rfl
    · exact key
    · exact absurd h (runOne_fuel env s)
end

/-- A flat machine with a buffer of exactly 272 * 4096 bytes: registers as in `demo`. -/
def flatDemo (code : List (BitVec 8)) : State := demo code
theorem flatDemo_flat (code : List (BitVec 8)) : FlatMem (flatDemo code) :=
  ⟨0, fun b hb => by
      have : (demo code).map b = some (b * 4096) := if_pos hb
      rw [show flatDemo code = demo code from rfl, this]; congr 1; omega, fun a ha => by
      show decide (0 + a < 272 * 4096) = true
      rw [decide_eq_true_eq]; omega⟩
theorem demoEnv_keep (R : State → State → Prop) : CallbacksKeep demoEnv R := fun _ _ _ h => by cases h

/-- C51 violated: each kind of undefined behaviour really occurs on a flat machine.
* SHL AL,8: shift count;
* IMUL AX,DX,imm with large operands: overflow of `int`;
* MOV AX,Sreg 6: null pointer;
* 67 MOV AL,[EAX] with EAX = 11220055h: beyond the block table;
* ES = FFFFh: 66 MOV EAX,ES:[BX+0Fh] at 10FFFEh: beyond the buffer. -/
theorem C51_violated_kinds :
    runOne demoEnv (flatDemo [0xC0, 0xE0, 0x08]) = .ub .shiftRange ∧
    runOne demoEnv ((flatDemo [0x69, 0xC2, 0xFF, 0xFF]).setGpr 2 0xFFFF) = .ub .signedOverflow ∧
    runOne demoEnv (flatDemo [0x8C, 0xF0]) = .ub .nullSegPtr ∧
    runOne demoEnv (flatDemo [0x67, 0x8A, 0x00]) = .ub .blockIndexOOB ∧
    runOne demoEnv ((flatDemo [0x26, 0x66, 0x8B, 0x47, 0x0F]).setGpr 3 0xFFFF |>.setSreg .es 0xFFFF) = .ub .hostInvalid :=
  ⟨conc_ub (by decide +kernel), conc_ub (by decide +kernel), conc_ub (by decide +kernel), conc_ub (by decide +kernel), conc_ub (by decide +kernel)⟩

theorem C51_violated : ¬ C51_Full := fun h =>
  h demoEnv (flatDemo [0xC0, 0xE0, 0x08]) .shiftRange (demoEnv_keep _) (flatDemo_flat _) C51_violated_kinds.1

end RME
