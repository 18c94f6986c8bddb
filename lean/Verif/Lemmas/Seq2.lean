import Verif.Lemmas.Seq
import Verif.Lemmas.Stack
set_option autoImplicit false
/-
CS:IP during an instruction, successful or not.
-/
set_option linter.unusedSectionVars false
namespace RME

/-- CS:IP stays, and IP is to be advanced at the end. -/
def capSeq (env : Env) (cs ip : BitVec 16) : Cap :=
  { env := env, I := fun t => t.ip = ip ∧ t.sreg .cs = cs ∧ t.dec.dontChangeIP = false, J := fun _ t => t.ip = ip ∧ t.sreg .cs = cs,
    W := fun n => n = 8 ∨ n = 16 ∨ n = 32, VF := fun _ => True, VL := fun _ _ => True,
    VD := fun d => d.dontChangeIP = false, VS := fun r => r ≠ .cs, U := fun _ => True }

section
variable (env : Env) (cs ip : BitVec 16)
instance seqBase : (capSeq env cs ip).Base := {
    dec := fun _ h => h.2.2, setDec := fun _ _ h h2 => ⟨h.1, h.2.1, h2⟩, ofs := fun _ _ h => h, rep := fun _ h => h,
    fl := (by intros; trivial), ptr := (by intros; trivial), lreg := (by intros; trivial), lregH := (by intros; trivial),
    bad := fun _ _ h _ => ⟨h.1, h.2.1⟩, w8 := Or.inl rfl, w16 := Or.inr (Or.inl rfl), w32 := fun _ _ _ => Or.inr (Or.inr rfl), wle := fun _ h => h,
    ubNull := (by intros; trivial), ubHost := (by intros; trivial), ubUninit := (by intros; trivial) }
instance seqRg : (capSeq env cs ip).Rg := { setReg := fun _ _ _ _ h _ => h, setRegH := fun _ _ _ _ h _ _ => h, setGpr := fun _ _ _ h _ => h }
instance seqMm : (capSeq env cs ip).Mm := { store := fun _ _ _ _ h _ _ _ => h }
instance seqAFl : (capSeq env cs ip).AFl := { arith := (by intros; trivial), setF := fun _ _ h _ => h }
instance seqSFl : (capSeq env cs ip).SFl := { any := (by intros; trivial) }
instance seqSg : (capSeq env cs ip).Sg := { setS := fun s r v h hr => ⟨h.1, by
  have : (s.setSreg r v).sreg .cs = s.sreg .cs := by
    have : SReg.cs ≠ r := fun h => hr h.symm
    simp [State.setSreg, this]
  exact this.trans h.2.1, h.2.2⟩ }
instance seqIo : (capSeq env cs ip).Io := { io := fun _ _ h => h }
instance seqMr : (capSeq env cs ip).Mr := { oob := trivial, ptrM := (by intros; trivial) }
instance seqOv : (capSeq env cs ip).Ov := ⟨trivial⟩
instance seqSh : (capSeq env cs ip).Sh := ⟨trivial⟩
instance seqNs : (capSeq env cs ip).Ns := ⟨trivial⟩
instance seqFu : (capSeq env cs ip).Fu := ⟨trivial⟩
instance seqDv : (capSeq env cs ip).Dv := ⟨fun _ h => ⟨h.1, h.2.1⟩⟩
instance seqHi : (capSeq env cs ip).Hi := { hi := (by intros; trivial), memX := (by intros; trivial) }
end

/-- From every state with the invariant, if `m` fails the error condition holds. -/
def Ek {α : Type} (c : Cap) (m : M α) : Prop := ∀ s, c.I s → ∀ e t, m c.env s = .err e t → c.J e t
/-- never fails -/
def Nv {α : Type} (m : M α) : Prop := ∀ env s e t, m env s ≠ .err e t

section
variable {c : Cap} {α β : Type}
theorem Kp.ek {V : α → Prop} {m : M α} (h : Kp c V m) : Ek c m := by
  intro s hs e t h1
  have := h s hs
  rw [h1] at this
  exact this
theorem Nv.ek {m : M α} (h : Nv m) : Ek c m := fun s _ e t h1 => absurd h1 (h _ _ _ _)
theorem Ek.bind {V : α → Prop} {m : M α} {f : α → M β} (hm : Kp c V m) (hf : ∀ a, V a → Ek c (f a)) : Ek c (m >>= f) := by
  intro s hs e t h
  have h0 := hm s hs
  simp only [bind_apply] at h
  cases h1 : m c.env s with
  | ok a u => rw [h1] at h0 h; exact hf a h0.2 u h0.1 e t h
  | err e' u => rw [h1] at h0 h; cases h; exact h0
  | ub u => rw [h1] at h; cases h
theorem Ek.ite {p : Prop} [Decidable p] {a b : M α} (ha : p → Ek c a) (hb : ¬p → Ek c b) : Ek c (if p then a else b) := by
  split
  · exact ha ‹_›
  · exact hb ‹_›
theorem Nv.bind {m : M α} {f : α → M β} (hm : Nv m) (hf : ∀ a, Nv (f a)) : Nv (m >>= f) := by
  intro env s e t h
  simp only [bind_apply] at h
  cases h1 : m env s with
  | ok a u => rw [h1] at h; exact hf a env u e t h
  | err e' u => exact hm _ _ _ _ h1
  | ub u => rw [h1] at h; cases h
theorem Nv.ok {m : M α} (h : ∀ env s, ∃ a t, m env s = .ok a t) : Nv m := by
  intro env s e t h1
  obtain ⟨a, u, h2⟩ := h env s
  rw [h1] at h2; cases h2
theorem Nv.setIP (v) : Nv (RME.setIP v) := Nv.ok fun _ _ => ⟨_, _, rfl⟩
theorem Nv.getIP : Nv RME.getIP := Nv.ok fun _ _ => ⟨_, _, rfl⟩
theorem Nv.setSreg (r v) : Nv (RME.setSreg r v) := Nv.ok fun _ _ => ⟨_, _, rfl⟩
theorem Nv.dci : Nv RME.setDontChangeIP := Nv.ok fun _ _ => ⟨_, _, rfl⟩
theorem Nv.addSP (k) : Nv (RME.addSP k) := Nv.ok fun _ _ => ⟨_, _, rfl⟩
theorem Nv.addIP (k) : Nv (RME.addIP k) := Nv.ok fun _ _ => ⟨_, _, rfl⟩
theorem Nv.pure (a : α) : Nv (Pure.pure a) := Nv.ok fun _ _ => ⟨_, _, rfl⟩
theorem Nv.getFlags : Nv RME.getFlags := Nv.ok fun _ _ => ⟨_, _, rfl⟩
theorem Nv.setFlags (f) : Nv (RME.setFlags f) := Nv.ok fun _ _ => ⟨_, _, rfl⟩
theorem Nv.runHle (n) : Nv (RME.runHle n) := by
  intro env s e t h
  unfold RME.runHle at h
  split at h <;> cases h
end

/-- prove that a computation never fails -/
macro "nv" : tactic => `(tactic| repeat' (with_reducible first
  | exact Nv.setIP _ | exact Nv.getIP | exact Nv.setSreg _ _ | exact Nv.dci | exact Nv.addSP _ | exact Nv.addIP _ | exact Nv.pure _
  | exact Nv.getFlags | exact Nv.setFlags _ | exact Nv.runHle _
  | refine Nv.bind ?_ (fun _ => ?_)))

namespace Ek
variable {env : Env} {cs ip : BitVec 16}
local notation "C" => capSeq env cs ip

theorem callInterrupt (n) : Ek C (RME.callInterrupt n) := by
  unfold RME.callInterrupt
  refine Ek.bind (Kp.readMem _ _ (by decide)) fun _ _ => Ek.bind (Kp.readMem _ _ (by decide)) fun _ _ => Ek.bind (Kp.guardE (by decide)) fun _ _ => ?_
  refine Ek.ite (fun _ => (Nv.runHle _).ek) (fun _ => ?_)
  refine Ek.bind (Kp.pushM Kp.getFlagsV) fun _ _ => Ek.bind (Kp.pushM (Kp.getSregT _)) fun _ _ => Ek.bind (Kp.pushM Kp.nextIPT) fun _ _ => ?_
  exact Nv.ek (by nv)

/-- No opcode function but IRET fails after changing CS:IP. -/
theorem opFn {o : Op} {a} (hp : o.isPrefix = false) (hi : o ≠ .iret) (hs : ¬ (o = .popSeg ∧ a = 1)) (hl : o ≠ .lxs .cs) : Ek C (RME.opFn o a) := by
  by_cases hgen : o.ctl a = false ∧ o.segs a .cs = false
  · refine Kp.ek (Kp.opFn_gen (c := C) o a { ip := fun h => by (rw [hgen.1] at h; cases h), sg := fun r h hr => ?_, hle := fun h => ?_, halt := fun _ _ h => ⟨h.1, h.2.1⟩ } hp)
    · subst hr; rw [hgen.2] at h; cases h
    · cases o <;> simp [Op.isInt] at h <;> cases hgen.1
  cases o
  all_goals try (exact absurd ⟨rfl, rfl⟩ hgen)
  case iret => exact absurd rfl hi
  case popSeg =>
    exfalso; apply hgen
    refine ⟨rfl, ?_⟩
    have : a ≠ 1 := fun h => hs ⟨rfl, h⟩
    have h1 : (a == 1) = false := beq_eq_false_iff_ne.2 this
    simp only [Op.segs, h1]
    simp
  case lxs r =>
    exfalso; apply hgen
    refine ⟨rfl, ?_⟩
    cases r <;> first | rfl | exact absurd rfl hl
  case movSR =>
    show Ek _ RME.opMovSR
    unfold RME.opMovSR
    refine Ek.bind Kp.getDecV fun _ _ => Ek.bind (Kp.guardE (by decide)) fun _ _ => Ek.bind Kp.peekInstr8 fun _ _ => Ek.bind (Kp.segOfT _) fun r _ => ?_
    refine Ek.bind (V := fun _ => True) ?_ fun x _ => Ek.bind (Kp.readLoc trivial) fun _ _ => Nv.ek (by nv)
    exact Kp.mono Kp.parseModRMX fun _ _ => trivial
  case callN =>
    show Ek _ RME.opCallN
    exact Ek.bind (Kp.readInstr (by decide)) fun _ _ => Ek.bind (Kp.pushM Kp.nextIPT) fun _ _ => Nv.ek (by nv)
  case callF =>
    show Ek _ RME.opCallF
    exact Ek.bind (Kp.readInstr (by decide)) fun _ _ => Ek.bind (Kp.readInstr (by decide)) fun _ _ =>
      Ek.bind (Kp.pushM (Kp.getSregT _)) fun _ _ => Ek.bind (Kp.pushM Kp.nextIPT) fun _ _ => Nv.ek (by nv)
  case retN =>
    show Ek _ RME.opRetN
    exact Ek.bind Kp.pop fun _ _ => Nv.ek (by nv)
  case retF =>
    show Ek _ RME.opRetF
    exact Ek.bind Kp.pop fun _ _ => Ek.bind Kp.pop fun _ _ => Nv.ek (by nv)
  case retiN =>
    show Ek _ RME.opRetiN
    exact Ek.bind (Kp.readInstr (by decide)) fun _ _ => Ek.bind Kp.pop fun _ _ => Nv.ek (by nv)
  case retiF =>
    show Ek _ RME.opRetiF
    exact Ek.bind (Kp.readInstr (by decide)) fun _ _ => Ek.bind Kp.pop fun _ _ => Ek.bind Kp.pop fun _ _ => Nv.ek (by nv)
  case int3 => exact callInterrupt _
  case intI =>
    show Ek _ RME.opIntI
    exact Ek.bind (Kp.readInstr (by decide)) fun _ _ => callInterrupt _
  case into =>
    show Ek _ RME.opInto
    exact Ek.bind Kp.getFlagsV fun _ _ => Ek.ite (fun _ => callInterrupt _) (fun _ => Nv.ek (by nv))
  case jmpN =>
    show Ek _ RME.opJmpN
    exact Ek.bind (Kp.readInstr (by decide)) fun _ _ => Nv.ek (by nv)
  case jmpF =>
    show Ek _ RME.opJmpF
    exact Ek.bind (Kp.readInstr (by decide)) fun _ _ => Ek.bind (Kp.readInstr (by decide)) fun _ _ => Nv.ek (by nv)
  case jmpS =>
    show Ek _ RME.opJmpS
    exact Ek.bind (Kp.readInstr8S _) fun _ _ => Nv.ek (by nv)
  case jccS =>
    exact Ek.bind (Kp.readInstr8S _) fun _ _ => Ek.bind Kp.getFlagsV fun _ _ => Ek.ite (fun _ => Nv.ek (by nv)) (fun _ => Nv.ek (by nv))
  case jccN =>
    exact Ek.bind (Kp.readInstr (by decide)) fun _ _ => Ek.bind Kp.getFlagsV fun _ _ => Ek.ite (fun _ => Nv.ek (by nv)) (fun _ => Nv.ek (by nv))
  case loop =>
    exact Ek.bind (Kp.readInstr8S _) fun _ _ => Ek.bind (Kp.getRegT _ _) fun _ _ => Ek.bind (Kp.setReg (Or.inr (Or.inl rfl))) fun _ _ =>
      Ek.bind (Kp.getRegT _ _) fun _ _ => Ek.bind Kp.getFlagsV fun _ _ => Ek.ite (fun _ => Nv.ek (by nv)) (fun _ => Nv.ek (by nv))
  case jcxz =>
    exact Ek.bind (Kp.readInstr8S _) fun _ _ => Ek.bind Kp.getDecV fun _ _ => Ek.bind (Kp.getRegT _ _) fun _ _ =>
      Ek.bind (Kp.getRegT _ _) fun _ _ => Ek.ite (fun _ => Nv.ek (by nv)) (fun _ => Ek.ite (fun _ => Nv.ek (by nv)) (fun _ => Nv.ek (by nv)))
  case unaryMX =>
    show Ek _ (RME.opUnaryMX a)
    unfold RME.opUnaryMX
    have hx : Kpt C RME.parseModRMX := Kp.mono Kp.parseModRMX fun _ _ => trivial
    have hid : ∀ d n l, (n = 8 ∨ n = 16 ∨ n = 32) → Kpt C (RME.unaryIncDec d n l) := fun d n l h => Kp.unaryIncDec _ _ _ h trivial
    refine Ek.bind Kp.getDecV fun _ _ => Ek.ite (fun _ => ?_) (fun _ => ?_)
    · refine Ek.ite (fun _ => Ek.bind hx fun _ _ => (hid _ _ _ (by decide)).ek) fun _ => Ek.ite (fun _ => Ek.bind hx fun _ _ => (hid _ _ _ (by decide)).ek) fun _ =>
        Ek.ite (fun _ => Ek.bind hx fun _ _ => Kp.ek (Kp.pushM (V := fun _ => True) (Kp.bind (Kp.readLoc trivial) fun _ _ => Kp.pureT))) fun _ => Kp.ek (Kp.throwE (V := fun _ => True) (by decide))
    · refine Ek.ite (fun _ => Ek.bind hx fun _ _ => (hid _ _ _ (by decide)).ek) fun _ => Ek.ite (fun _ => Ek.bind hx fun _ _ => (hid _ _ _ (by decide)).ek) fun _ =>
        Ek.ite (fun _ => Ek.bind hx fun _ _ => Ek.bind (Kp.pushM Kp.nextIPT) fun _ _ => Ek.bind (Kp.readLoc trivial) fun _ _ => Nv.ek (by nv)) fun _ =>
        Ek.ite (fun _ => Ek.bind Kp.parseFarPtr fun _ _ => Ek.bind (Kp.pushM (Kp.getSregT _)) fun _ _ => Ek.bind (Kp.pushM Kp.nextIPT) fun _ _ => Nv.ek (by nv)) fun _ =>
        Ek.ite (fun _ => Ek.bind hx fun _ _ => Ek.bind (Kp.readLoc trivial) fun _ _ => Nv.ek (by nv)) fun _ =>
        Ek.ite (fun _ => Ek.bind Kp.parseFarPtr fun _ _ => Nv.ek (by nv)) fun _ =>
        Ek.ite (fun _ => Ek.bind hx fun _ _ => Kp.ek (Kp.pushM (V := fun _ => True) (Kp.readLoc trivial))) fun _ => Kp.ek (Kp.throwE (V := fun _ => True) (by decide))
end Ek

/-! ### Reads and writes that succeed -/

theorem readMem_inv {n : Nat} (hn8 : n % 8 = 0) {seg ofs : BitVec 16} {env s v t} (h : readMem n seg ofs env s = .ok v t) : t = s ∧ Holds s seg ofs v := by
  cases ha : hostAddr s seg ofs with
  | none =>
    simp only [readMem, bind_apply, getPtr_spec, ha] at h
    cases hn : env.nullCheck <;> simp [hn] at h
  | some x =>
    by_cases hv : ∀ i < n / 8, s.valid (x + i) = true
    · have hm : Mapped s n seg ofs x := ⟨ha, hv⟩
      rw [readMem_mapped env hm] at h
      cases h
      exact ⟨rfl, x, hm, holds_valAt hn8 _ _⟩
    · simp only [readMem, bind_apply, getPtr_some env ha, resbind_ok, loadM] at h
      rw [if_neg (fun h => hv ((validN_iff _ _ _).1 h))] at h
      cases h

theorem writeMem_inv {n : Nat} {seg ofs : BitVec 16} {v : BitVec n} {env s u t} (h : writeMem n seg ofs v env s = .ok u t) :
    ∃ x, Mapped s n seg ofs x ∧ t = { s with host := putHost s.host x v } := by
  cases ha : hostAddr s seg ofs with
  | none =>
    simp only [writeMem, bind_apply, getPtr_spec, ha] at h
    cases hn : env.nullCheck <;> simp [hn] at h
  | some x =>
    by_cases hv : ∀ i < n / 8, s.valid (x + i) = true
    · have hm : Mapped s n seg ofs x := ⟨ha, hv⟩
      rw [writeMem_mapped env hm] at h
      cases h
      exact ⟨x, hm, rfl⟩
    · simp only [writeMem, bind_apply, getPtr_some env ha, resbind_ok, storeM] at h
      rw [if_neg (fun h => hv ((validN_iff _ _ _).1 h))] at h
      cases h

theorem pushM_inv {m : M (BitVec 16)} {f : State → BitVec 16} (hm : ∀ env s, m env s = .ok (f s) s) {env s u t} (h : pushM m env s = .ok u t) :
    StackTop t 0 (f (withSP s (spOf s - 2))) ∧ t.ip = s.ip ∧ t.sreg = s.sreg := by
  have e : (s.setReg 16 rSP (s.reg 16 rSP - 2)) = withSP s (spOf s - 2) := rfl
  have e2 : (withSP s (spOf s - 2)).reg 16 rSP = spOf s - 2 := spOf_withSP ..
  simp only [pushM, bind_apply, getReg_apply, resbind_ok, setReg_apply, getSreg_apply, e, hm, e2] at h
  obtain ⟨x, h1, rfl⟩ := writeMem_inv h
  refine ⟨?_, rfl, rfl⟩
  have e3 : spOf { withSP s (spOf s - 2) with host := putHost (withSP s (spOf s - 2)).host x (f (withSP s (spOf s - 2))) } = spOf s - 2 := spOf_withSP ..
  unfold StackTop
  rw [e3]
  refine ⟨x, ?_, putHost_holds _ _ _⟩
  have h2 : Mapped (withSP s (spOf s - 2)) 16 ((withSP s (spOf s - 2)).sreg .ss) (spOf s - 2 + BitVec.ofNat 16 (2 * 0)) x := by simpa using h1
  exact Mapped.congr rfl rfl h2

/-- A divide error that was delivered. -/
theorem callInt0_inv {env s u t} (h : callIntInternal 0 env s = .ok u t) :
    Holds t 0 0 t.ip ∧ Holds t 0 2 (t.sreg .cs) ∧ StackTop t 0 s.ip := by
  have hg : ∀ x, guardE ((decide ((0 : Int) < 0)) || decide ((0 : Int) > 0xFF)) Err.inval env x = .ok () x := fun _ => rfl
  simp only [callIntInternal, bind_apply, hg, resbind_ok] at h
  cases h1 : pushM getFlags env s with
  | err e x => rw [h1] at h; cases h
  | ub x => rw [h1] at h; cases h
  | ok _ s1 =>
  rw [h1, resbind_ok] at h
  cases h2 : pushM (getSreg .cs) env s1 with
  | err e x => rw [h2] at h; cases h
  | ub x => rw [h2] at h; cases h
  | ok _ s2 =>
  rw [h2, resbind_ok] at h
  cases h3 : pushM getIP env s2 with
  | err e x => rw [h3] at h; cases h
  | ub x => rw [h3] at h; cases h
  | ok _ s3 =>
  rw [h3, resbind_ok] at h
  have p1 := (pushM_inv (f := fun s => s.flags) (fun _ _ => rfl) h1).2
  have p2 := (pushM_inv (f := fun s => s.sreg .cs) (fun _ _ => rfl) h2).2
  have p3 := pushM_inv (f := fun s => s.ip) (fun _ _ => rfl) h3
  simp only [getFlags_apply, setFlags_apply, resbind_ok] at h
  generalize hs4 : ({ s3 with flags := clr s3.flags (FLAG_IF ||| FLAG_TF) } : State) = s4 at h
  cases h5 : readMem 16 0 (BitVec.ofInt 16 (0 * 4)) env s4 with
  | err e x => rw [h5] at h; cases h
  | ub x => rw [h5] at h; cases h
  | ok ip s5 =>
  rw [h5, resbind_ok] at h
  obtain ⟨rfl, q1⟩ := readMem_inv (by decide) h5
  simp only [setIP_apply, resbind_ok] at h
  cases h6 : readMem 16 0 (BitVec.ofInt 16 (0 * 4) + 2) env { s5 with ip := ip } with
  | err e x => rw [h6] at h; cases h
  | ub x => rw [h6] at h; cases h
  | ok cs s6 =>
  rw [h6, resbind_ok] at h
  obtain ⟨rfl, q2⟩ := readMem_inv (by decide) h6
  simp only [setSreg_apply] at h
  cases h
  have e1 : (({ s5 with ip := ip } : State).setSreg .cs cs).sreg .cs = cs := by simp [State.setSreg]
  refine ⟨?_, ?_, ?_⟩
  · exact q1
  · rw [e1]; exact q2
  · subst hs4
    have := p3.1
    have e2 : (withSP s2 (spOf s2 - 2)).ip = s.ip := p2.1.trans p1.1
    rw [e2] at this
    have e3 : ∀ x, (({ ({ s3 with flags := clr s3.flags (FLAG_IF ||| FLAG_TF) } : State) with ip := ip } : State).setSreg .cs x).sreg .ss = s3.sreg .ss := by
      intro x; simp [State.setSreg]
    unfold StackTop at *
    rw [e3]
    exact this
end RME
