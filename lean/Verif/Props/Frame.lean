import Verif.Lemmas.FrameOps
import Verif.Props.Confine2
set_option autoImplicit false
/-
C85: an instruction changes nothing but its destinations.
-/
namespace RME

theorem add_rep {q q' : Pfx} {b} (h1 : q.add b = some q') : (q'.rep ≠ .none ↔ q.rep ≠ .none ∨ (b = 0xF2 ∨ b = 0xF3)) := by
  unfold Pfx.add at h1
  dsimp only at h1
  iterate 6
    rcases ite_eq_cases h1 with ⟨hb, h1⟩ | ⟨_, h1⟩
    · subst hb; rw [ite_some h1]; simp
  iterate 2
    rcases ite_eq_cases h1 with ⟨hb, h1⟩ | ⟨_, h1⟩
    · subst hb; rw [ite_some h1]; simp
  iterate 2
    rcases ite_eq_cases h1 with ⟨hb, h1⟩ | ⟨_, h1⟩
    · subst hb; rw [ite_some h1]; simp
  cases h1

theorem parse_rep {pfx : List (BitVec 8)} : ∀ {q p : Pfx}, Pfx.parse q pfx = some p → (p.rep ≠ .none ↔ q.rep ≠ .none ∨ repIn pfx = true) := by
  induction pfx with
  | nil => intro q p h; simp [Pfx.parse] at h; subst h; simp [repIn]
  | cons b bs ih =>
    intro q p h
    simp only [Pfx.parse, Option.bind_eq_some_iff] at h
    obtain ⟨q', h1, h2⟩ := h
    rw [ih h2, add_rep h1]
    simp only [repIn, List.any_cons, Bool.or_eq_true, decide_eq_true_eq, or_assoc]

theorem modByte_opState {env : Env} {s : State} {p k b} (h : modByte env (opState s p k) = some b) : ByteAt s k b := by
  unfold modByte at h
  rcases fetch8_cases env s p k with ⟨b', hb, hr⟩ | ⟨hn, _, hr⟩ | ⟨hn, u, hu, hr⟩
  · rw [hr] at h; cases h; exact hb
  · rw [hr] at h; cases h
  · rw [hr] at h; cases h

/-- The opcode functions' destinations are those of the specification. -/
def destOk (op : BitVec 8) (e : Entry) (r : BitVec 3) : Bool :=
  match e.fn with
  | .base o => o.isPrefix ||
    (if e.modrm then o.usesM && (opForm op r).1 && (o.dests r).all (· ∈ dests op r)
     else if o.usesM then (opForm op r).1 && (o.dests e.arg).all (· ∈ dests op r)
     else !(opForm op 0).1 && (o.dests e.arg).all (· ∈ dests op 0))
  | _ => true
def destOk0F (op : BitVec 8) (e : Entry) : Bool :=
  match e.fn with
  | .base o => o.isPrefix || (((opForm0F op).1 == o.usesM) && (o.dests e.arg).all (· ∈ dests0F op))
  | _ => true

theorem destOk_all : ∀ r b, chk (fun b e => destOk b e r) b = true := by decide +kernel
theorem destOk0F_all : ∀ b, chkF (fun b e => destOk0F b e) b = true := by decide +kernel

theorem dec_dest {s p k o a} (hd : Dec s p k o a) (hn : o.isPrefix = false) {b : BitVec 8} (hb0 : o.usesM = false → b = 0)
    (hb1 : o.usesM = true → ByteAt s k b) {d : Dest} (h : d ∈ o.dests a) : HasDest s d b (decide (p.rep ≠ .none)) := by
  have hrep : ∀ {pfx}, Pfx.parse {} pfx = some p → decide (p.rep ≠ .none) = repIn pfx := by
    intro pfx hp
    have := parse_rep hp
    simp at this
    cases hr : repIn pfx
    · simp [this, hr]
    · simp [this, hr]
  cases hd with
  | @one pfx p op o a hp hb hne he =>
    have hc := fun r => chk_some (destOk_all r op) he
    rw [hrep hp]
    have hg := (C36_prefixes pfx).1.1 ⟨p, hp⟩
    cases hu : o.usesM
    · have := hc 0
      simp [destOk, hn, hu] at this
      rw [hb0 hu]
      exact .plain hg hb this.1 (this.2 d h)
    · have := hc (regOf b)
      simp [destOk, hn, hu] at this
      refine .modrm hg ?_ this.1 (this.2 d h)
      have h2 : pfx ++ [op, b] = (pfx ++ [op]) ++ [b] := by simp
      rw [h2]
      exact BytesAt.snoc hb (by simpa using hb1 hu)
  | @grp pfx p op m o a hp hb hne he =>
    rw [hrep hp]
    have hg := (C36_prefixes pfx).1.1 ⟨p, hp⟩
    have hm : (m >>> 3).setWidth 3 = regOf m := by
      have := ofByteF_reg m; exact this
    rw [hm] at h
    have := chk_some (destOk_all (regOf m) op) he
    simp [destOk, hn] at this
    have hbm : ByteAt s (pfx.length + 1) m := by
      have := hb (pfx.length + 1) (by simp)
      simpa using this
    have hbe : b = m := (hb1 this.1.1).inj hbm
    subst hbe
    exact .modrm hg hb this.1.2 (this.2 d h)
  | @ext pfx p op o a e hp hb he =>
    rw [hrep hp]
    have hg := (C36_prefixes pfx).1.1 ⟨p, hp⟩
    have := chkF_some (destOk0F_all op) he
    simp [destOk0F, hn] at this
    cases hu : o.usesM
    · rw [hb0 hu]
      exact .plain0F hg hb (by simpa [hu] using this.1) (this.2 d h)
    · refine .modrm0F hg ?_ (by simpa [hu] using this.1) (this.2 d h)
      have h2 : pfx ++ [0x0F, op, b] = (pfx ++ [0x0F, op]) ++ [b] := by simp
      rw [h2]
      exact BytesAt.snoc hb (by simpa using hb1 hu)

theorem fr_finish {E : Eff} (cs ip) : Fr E (finishInstr cs ip) := by
  refine Fr.bind ?_ fun _ => Fr.bind ?_ fun _ => ?_
  · refine Fr.bind Fr.getDec fun _ => ?_
    split
    · exact Fr.pure _
    · exact Fr.bind Fr.nextIP fun _ => Fr.setIP _
  · unfold nullCheckTail
    refine Fr.bind Fr.getDec fun _ => ?_
    split
    · refine Fr.bind (Fr.readMem _ _ _) fun _ => Fr.bind (Fr.readMem _ _ _) fun _ => ?_
      split
      · exact Fr.bind (Fr.gets _) fun _ => Fr.bind (Fr.guardE _ _) fun _ => Fr.setLN _
      · exact Fr.setLN _
    · exact Fr.setLN _
  · unfold debugTail
    refine Fr.bind (Fr.gets _) fun _ => ?_
    split
    · refine Fr.bind Fr.getDec fun d => ?_
      have : ∀ j i, Fr E (dumpLoop cs j i) := by
        intro j
        induction j with
        | zero => intro i; exact Fr.pure _
        | succ j ih => intro i; exact Fr.bind (Fr.readMem _ _ _) fun _ => ih _
      exact this _ _
    · exact Fr.pure _

theorem fr_callInt0 {E : Eff} (h4 : E.regs 4 = true) (hm : E.mem = true) (hf : E.flags = true) : Fr E (callIntInternal 0) := by
  unfold callIntInternal
  exact Fr.bind (Fr.guardE _ _) fun _ => Fr.bind (Fr.pushM Fr.getFlags h4 hm) fun _ => Fr.bind (Fr.pushM (Fr.getSreg _) h4 hm) fun _ =>
    Fr.bind (Fr.pushM Fr.getIP h4 hm) fun _ => Fr.bind Fr.getFlags fun _ => Fr.bind (Fr.setFlags _ hf) fun _ =>
    Fr.bind (Fr.readMem _ _ _) fun _ => Fr.bind (Fr.setIP _) fun _ => Fr.bind (Fr.readMem _ _ _) fun _ => Fr.setSreg _ _

theorem div_faultDest {o : Op} {a : BitVec 3} (h : o.isDiv a = true) : Dest.fault ∈ o.dests a := by
  cases o <;> first | (cases h; done) | skip
  · simp [Op.dests]
  all_goals
    simp [Op.isDiv] at h
    rcases h with rfl | rfl <;> simp [Op.dests]

/-- Registers, memory and FLAGS outside `regs`, `mem`, `flags` are unchanged. -/
def KeptBut (regs : BitVec 3 → Bool) (mem flags : Bool) (s t : State) : Prop :=
  (∀ r, regs r = false → t.gpr r = s.gpr r) ∧ (mem = false → t.host = s.host) ∧ (flags = false → t.flags = s.flags)

theorem frame_main {env : Env} {s t : State} (hr : Ready s) (he : Ends env s t) (regs : BitVec 3 → Bool) (mem flags : Bool) (hx : ¬ ShxdHigh s ∨ ∀ r, regs r = true)
    (H : ∀ d b rep, HasDest s d b rep → (Eff.mk regs mem flags (!rep)).Cov b d) : KeptBut regs mem flags s t := by
  let c : Cap :=
    { env := env, I := fun t => KeptBut regs mem flags s t, J := fun _ t => KeptBut regs mem flags s t, W := fun n => n = 8 ∨ n = 16 ∨ n = 32,
      VF := fun _ => True, VL := fun _ _ => True, VD := fun _ => True, VS := fun _ => True, U := fun _ => True }
  have key : c.Res (runOne c.env s) := by
    refine ready_kp hr (fun p k e _ => ⟨fun _ _ => rfl, fun _ => rfl, fun _ => rfl⟩) (fun _ _ _ _ => trivial) fun p k o a hd hn => ?_
    let E : Eff := ⟨regs, mem, flags, !(decide (p.rep ≠ .none))⟩
    have hpre : E.pre (opState s p k) := by
      intro h
      have : p.rep = .none := by simpa [E] using h
      exact this
    have hkept : ∀ t, Within E (opState s p k) t → KeptBut regs mem flags s t := fun t h => ⟨h.regs, h.mem, h.flags⟩
    have h0 : o.usesM = false → ∀ d ∈ o.dests a, E.Cov 0 d := fun hu d h =>
      H d 0 _ (dec_dest hd hn (fun _ => rfl) (fun h => absurd (hu.symm.trans h) (by decide)) h)
    have h1 : o.usesM = true → ∀ b, modByte env (opState s p k) = some b → ∀ d ∈ o.dests a, E.Cov b d := fun hu b hb d h =>
      H d b _ (dec_dest hd hn (fun h => absurd (hu.symm.trans h) (by decide)) (fun _ => modByte_opState hb) h)
    have hsx : (o.isShxd = true → ∀ b, modByte env (opState s p k) = some b → ¬ (modOf b = 3 ∧ 4 ≤ (rmOf b).toNat)) ∨ ∀ r, E.regs r = true := by
      refine hx.imp (fun hx => ?_) id
      intro ho b hb h3
      obtain ⟨pfx, op, hg, hop, hk, hby⟩ := dec_shxd hd ho
      refine hx ⟨pfx, op, b, hg, hop, ?_, h3.1, h3.2⟩
      have : pfx ++ [0x0F, op, b] = (pfx ++ [0x0F, op]) ++ [b] := by simp
      rw [this]
      exact BytesAt.snoc hby (by simpa [hk] using modByte_opState hb)
    have hop : WithinRes E (opState s p k) (opFn o a env (opState s p k)) := op_frame hn hpre h0 h1 hsx
    have hnext : ∀ (m : M Unit) t, Fr E m → Within E (opState s p k) t → c.Res (m env t) := by
      intro m t hm ht
      have ht' : E.pre t := fun h => ht.norep h (hpre h)
      have := hm env t ht'
      cases hmt : m env t with
      | ok x u => rw [hmt] at this; exact hkept u (ht.trans this)
      | err e u => rw [hmt] at this; exact hkept u (ht.trans this)
      | ub u => trivial
    have hfault : o.isDiv a = true → ∃ b, E.Cov b .fault ∨ (modByte env (opState s p k) = none ∧ o.usesM = true) := by
      intro hv
      cases hu : o.usesM
      · exact ⟨0, Or.inl (h0 hu _ (div_faultDest hv))⟩
      · cases hb : modByte env (opState s p k) with
        | none => exact ⟨0, Or.inr ⟨rfl, rfl⟩⟩
        | some b => exact ⟨b, Or.inl (h1 hu b hb _ (div_faultDest hv))⟩
    show match opFn o a env (opState s p k) with
      | .ok _ t => c.Res (finishInstr (s.sreg .cs) s.ip c.env t)
      | .err e t => if e = .divErr then (o.isDiv a = true → c.Res (callIntInternal 0 c.env t)) else c.J e t
      | .ub u => c.U u
    cases h2 : opFn o a env (opState s p k) with
    | ok x t => rw [h2] at hop; exact hnext _ t (fr_finish _ _) hop
    | ub u => trivial
    | err e t =>
      rw [h2] at hop
      dsimp only
      split
      · rename_i hedv
        subst hedv
        intro hv
        obtain ⟨b, hf | ⟨hf, hu⟩⟩ := hfault hv
        · exact hnext _ t (fr_callInt0 hf.1 hf.2.1 hf.2.2) hop
        · exfalso
          have hrd : ∀ (f : ModRM → M Unit) t, (RME.getModRM >>= f) env (opState s p k) ≠ .err .divErr t := by
            intro f t
            unfold modByte at hf
            simp only [getModRM, bind_apply]
            rcases fetch8_cases env s p k with ⟨b', hb, hr⟩ | ⟨hn, _, hr⟩ | ⟨hn, u, hu, hr⟩
            · rw [hr] at hf; cases hf
            · rw [hr]; simp
            · rw [hr]; simp
          cases o <;> first | (cases hv; done) | skip
          · cases hu
          · refine hrd (fun m => do let l ← decodeModM m; miscOp 8 a l) t ?_
            rw [← h2]
            simp only [opFn, opMiscMI, parseModRM, bind_apply]
            cases getModRM env (opState s p k) with
            | ok m u => simp only [resbind_ok]; cases decodeModM m env u <;> rfl
            | err e u => rfl
            | ub u => rfl
          · refine hrd (fun m => do let l ← decodeModMX m; withW fun n => miscOp n a l) t ?_
            rw [← h2]
            simp only [opFn, opMiscMIX, parseModRMX, bind_apply]
            cases getModRM env (opState s p k) with
            | ok m u => simp only [resbind_ok]; cases decodeModMX m env u <;> rfl
            | err e u => rfl
            | ub u => rfl
      · exact hkept t hop
  rw [show c.env = env from rfl] at key
  rcases he with h | ⟨e, h⟩
  · rw [h] at key; exact key
  · rw [h] at key; exact key

/-- C85 (registers): if an instruction at CS:IP ran — with or without an error — and the general register `r` (any of its 32 bits) is different
afterwards, then `r` is one of the destinations the manual lists for the instruction (its ModR/M byte `m`, `rep`: there is a repeat prefix). What is
missing: SHLD/SHRD on a register numbered 4–7, which write a wrong register (`C85_violated_shxd`). -/
theorem C85_registers_partial (env : Env) (s t : State) (hr : Ready s) (h : Ends env s t) (hno : ¬ ShxdHigh s) (r : BitVec 3) (hne : t.gpr r ≠ s.gpr r) :
    ∃ d m rep, HasDest s d m rep ∧ d.hitsReg m rep r = true := by
  refine Classical.byContradiction fun hc => hne ?_
  have hc : ∀ d m rep, HasDest s d m rep → d.hitsReg m rep r = false := fun d m rep hd => by
    cases hh : d.hitsReg m rep r
    · rfl
    · exact absurd ⟨d, m, rep, hd, hh⟩ hc
  refine (frame_main hr h (fun x => decide (x ≠ r)) true true (Or.inl hno) fun d b rep hd => ?_).1 r (by simp)
  have := hc d b rep hd
  cases d <;> simp only [Dest.hitsReg, Eff.Cov] at this ⊢ <;> simp_all
  · intro h1 h2; exact this h1 h2.symm
  · intro h1 h2; exact this h1 h2.symm
  · exact fun h => this h.symm
  · exact fun h => this h.symm
  · exact fun h => this h.symm
  · cases rep <;> simp_all
    exact fun h => this h.symm
  · exact fun h => this h.symm

/-- C85 (memory): if a byte of memory is different afterwards, the instruction has a memory destination. -/
theorem C85_memory (env : Env) (s t : State) (hr : Ready s) (h : Ends env s t) (a : Nat) (hne : t.host a ≠ s.host a) :
    ∃ d m rep, HasDest s d m rep ∧ d.hitsMem m = true := by
  refine Classical.byContradiction fun hc => hne ?_
  have hc : ∀ d m rep, HasDest s d m rep → d.hitsMem m = false := fun d m rep hd => by
    cases hh : d.hitsMem m
    · rfl
    · exact absurd ⟨d, m, rep, hd, hh⟩ hc
  refine congrFun ((frame_main hr h (fun _ => true) false true (Or.inr fun _ => rfl) fun d b rep hd => ?_).2.1 rfl) a
  have := hc d b rep hd
  cases d <;> simp only [Dest.hitsMem, Eff.Cov] at this ⊢ <;> simp_all

/-- C85 (FLAGS): if FLAGS are different afterwards, the instruction is one that changes FLAGS. -/
theorem C85_flags (env : Env) (s t : State) (hr : Ready s) (h : Ends env s t) (hne : t.flags ≠ s.flags) :
    ∃ d m rep, HasDest s d m rep ∧ d.hitsFlags = true := by
  refine Classical.byContradiction fun hc => hne ?_
  have hc : ∀ d m rep, HasDest s d m rep → d.hitsFlags = false := fun d m rep hd => by
    cases hh : d.hitsFlags
    · rfl
    · exact absurd ⟨d, m, rep, hd, hh⟩ hc
  refine (frame_main hr h (fun _ => true) true false (Or.inr fun _ => rfl) fun d b rep hd => ?_).2.2 rfl
  have := hc d b rep hd
  cases d <;> simp only [Dest.hitsFlags, Eff.Cov] at this ⊢ <;> simp_all

theorem c45_bytes {k : Nat} {b : BitVec 8} (h : ByteAt c45W k b) :
    (k = 0 → b = 0x0F) ∧ (k = 1 → b = 0xA4) ∧ (k = 2 → b = 0xC4) := by
  refine ⟨?_, ?_, ?_⟩
  · rintro rfl; exact h.inj ⟨0x10100, by decide +kernel, by decide +kernel, by decide +kernel⟩
  · rintro rfl; exact h.inj ⟨0x10101, by decide +kernel, by decide +kernel, by decide +kernel⟩
  · rintro rfl; exact h.inj ⟨0x10102, by decide +kernel, by decide +kernel, by decide +kernel⟩

theorem c45_pfx {pfx rest : List (BitVec 8)} (hg : GoodPrefixes pfx) (hb : BytesAt c45W (pfx ++ rest)) : pfx = [] := by
  cases pfx with
  | nil => rfl
  | cons b bs =>
    have h0 : ByteAt c45W 0 b := hb 0 (by simp)
    have := (c45_bytes h0).1 rfl
    subst this
    exact absurd rfl (hg.1 0x0F (by simp))

/-- C85 violated: SHLD SP, AX, 4 (`0F A4 C4 04`) changes EAX, although its destination is SP. -/
theorem C85_violated_shxd : ∃ t, Ready c45W ∧ Ends demoEnv c45W t ∧ t.gpr 0 ≠ c45W.gpr 0 ∧
    ¬ ∃ d m rep, HasDest c45W d m rep ∧ d.hitsReg m rep 0 = true := by
  refine ⟨_, ⟨by decide, by decide, by decide⟩, Or.inl rfl, by decide +kernel, ?_⟩
  rintro ⟨d, m, rep, hd, hh⟩
  cases hd with
  | @plain pfx op d hp hb hf hd =>
    have := c45_pfx hp hb; subst this
    have h0 : ByteAt c45W 0 op := hb 0 (by simp)
    rw [(c45_bytes h0).1 rfl] at hd
    simp [dests] at hd
  | @modrm pfx op m d hp hb hf hd =>
    have := c45_pfx hp hb; subst this
    have h0 : ByteAt c45W 0 op := hb 0 (by simp)
    rw [(c45_bytes h0).1 rfl] at hd
    simp [dests] at hd
  | @plain0F pfx op d hp hb hf hd =>
    have := c45_pfx hp hb; subst this
    have h1 : ByteAt c45W 1 op := hb 1 (by simp)
    rw [(c45_bytes h1).2.1 rfl] at hf
    exact absurd hf (by decide)
  | @modrm0F pfx op m d hp hb hf hd =>
    have := c45_pfx hp hb; subst this
    have h1 : ByteAt c45W 1 op := hb 1 (by simp)
    have h2 : ByteAt c45W 2 m := hb 2 (by simp)
    rw [(c45_bytes h1).2.1 rfl] at hd
    have hm := (c45_bytes h2).2.2 rfl
    subst hm
    have : d = .rm ∨ d = .flags := by simpa [dests0F] using hd
    rcases this with rfl | rfl <;> revert hh <;> decide

/-- MOV CX, 0x0201: ready, runs, ECX changes; DIV BL with BL = 0 changes SP (divide error). -/
example : Ready (demo [0xB9, 1, 2]) ∧ ∃ t, Ends demoEnv (demo [0xB9, 1, 2]) t ∧ t.gpr 1 ≠ (demo [0xB9, 1, 2]).gpr 1 ∧
    t.gpr 0 = (demo [0xB9, 1, 2]).gpr 0 :=
  ⟨⟨by decide, by decide, by decide⟩, _, Or.inl rfl, by decide +kernel, by decide +kernel⟩
/-- PUSH AX changes memory. -/
example : ∃ t a, Ends demoEnv ((demo [0x50]).setGpr 0 0x1234) t ∧ t.host a ≠ ((demo [0x50]).setGpr 0 0x1234).host a :=
  ⟨_, 0x20FFE, Or.inl rfl, by decide +kernel⟩
/-- STC changes FLAGS; its only destination is FLAGS. -/
example : ∃ t, Ends demoEnv (demo [0xF9]) t ∧ t.flags ≠ (demo [0xF9]).flags := ⟨_, Or.inl rfl, by decide +kernel⟩
example : dests 0xF9 0 = [.flags] ∧ dests 0x89 3 = [.rm] ∧ dests 0xF7 6 = [.gpr 0, .gpr 2, .fault] := by decide
/-- ADD CX, BX (`01 D9`) can only change ECX and FLAGS. -/
example : ¬ ShxdHigh (demo [0x01, 0xD9]) := by
  rintro ⟨pfx, op, m, hg, _, hb, _⟩
  have h0 : ∀ b, ByteAt (demo [0x01, 0xD9]) 0 b → b = 0x01 := fun b h => h.inj ⟨0x10100, by decide +kernel, by decide +kernel, by decide +kernel⟩
  cases pfx with
  | nil =>
    have := h0 _ (hb 0 (by simp))
    exact absurd this (by simp)
  | cons b bs =>
    have := h0 b (hb 0 (by simp))
    subst this
    exact absurd rfl (hg.1 0x01 (by simp))

end RME
