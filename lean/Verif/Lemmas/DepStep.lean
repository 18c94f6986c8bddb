import Verif.Lemmas.DepAll
import Verif.Lemmas.Pair
import Verif.Props.Frame
import Verif.Spec.Relocate
set_option autoImplicit false
/-
One step of two machines that agree in everything visible.
-/
set_option linter.unusedSectionVars false
set_option linter.unusedVariables false
namespace RME

theorem Hid.Sim.rebase {H : Hid} {s t : State} (h : H.Sim s t) (p : Pfx) : Hid.Sim { H with p := p } s t :=
  ⟨h.gpr, h.flags, h.sreg, h.ip, h.cpuType, h.debugLevel, h.map, h.host, h.valid, h.instrNum, h.lastNull, h.dec, h.io⟩
theorem Hid.Sim.unbase {H : Hid} {s t : State} {p : Pfx} (h : Hid.Sim { H with p := p } s t) : H.Sim s t :=
  ⟨h.gpr, h.flags, h.sreg, h.ip, h.cpuType, h.debugLevel, h.map, h.host, h.valid, h.instrNum, h.lastNull, h.dec, h.io⟩

/-- A program that needs no knowledge of the prefixes. -/
theorem Tw.ofSim {H : Hid} {env : Env} {m m' : M Unit} (h : ∀ p, Te { H with p := p } env m m') : Tw H env H.Sim H.Sim Eq m m' := by
  intro s t hs
  have := h ⟨s.dec.ovrSeg, s.dec.rep, s.dec.ovrOper, s.dec.ovrAddr⟩ s t ⟨hs.rebase _, rfl, rfl, rfl, rfl⟩
  cases h1 : m env s <;> cases h2 : m' env t <;> rw [h1, h2] at this <;> try exact this.elim
  · exact ⟨this.1.1.unbase, rfl⟩
  · exact ⟨this.1, this.2.unbase⟩
  · exact this

namespace Tw
variable {H : Hid} {env : Env}
theorem setLN {b} : Te H env (RME.modify (fun s => { s with lastNull := b })) (RME.modify (fun s => { s with lastNull := b })) :=
  modify (fun s t h => { h with lastNull := rfl }) fun _ => rfl
theorem finishInstr {cs ip} : Te H env (RME.finishInstr cs ip) (RME.finishInstr cs ip) := by
  refine bindE (R1 := H.R) ?_ fun _ => bindE (R1 := H.R) ?_ fun _ => ?_
  · exact bindDec fun d _ _ _ _ => ite (fun _ => pureE) fun _ => bindE nextIP fun _ => setIP
  · refine bindDec fun d _ _ _ _ => ite (fun _ => ?_) fun _ => setLN
    refine bindE readMem fun _ => bindE readMem fun _ => ite (fun _ => ?_) fun _ => setLN
    exact bindE (getsR fun s t h => h.1.lastNull) fun _ => bindE guardE fun _ => setLN
  · refine bindE (getsR fun s t h => h.1.debugLevel) fun _ => ite (fun _ => ?_) fun _ => pureE
    refine bindDec fun d _ _ _ _ => ?_
    have : ∀ j i, Te H env (RME.dumpLoop cs j i) (RME.dumpLoop cs j i) := by
      intro j
      induction j with
      | zero => intro i; exact pureE
      | succ j ih => intro i; exact bindE readMem fun _ => ih _
    exact this _ _
theorem pushM16 {m m' : M (BitVec 16)} (h4 : H.RegOk 16 4) (hs : H.SegOk .ss) (h : Te H env m m') : Te H env (RME.pushM m) (RME.pushM m') :=
  bindE (getReg h4) fun _ => bindE setReg fun _ => bindE (getSreg hs) fun _ => bindE (getReg h4) fun _ => bindE h fun _ => writeMem
theorem pop16 (h4 : H.RegOk 16 4) (hs : H.SegOk .ss) : Te H env RME.pop RME.pop :=
  bindE (getSreg hs) fun _ => bindE (getReg h4) fun _ => bindE readMem fun _ => bindE (getReg h4) fun _ => bindE setReg fun _ => pureE
theorem opIret16 (h4 : H.RegOk 16 4) (hs : H.SegOk .ss) : Te H env RME.opIret RME.opIret :=
  bindE (pop16 h4 hs) fun _ => bindE setIP fun _ => bindE (pop16 h4 hs) fun _ => bindE setSreg fun _ => bindE (pop16 h4 hs) fun _ =>
    bindE (setFlags (FEq.refl _)) fun _ => setDontChangeIP
theorem callInt {n : Int} (hc : H.SegOk .cs) (h4 : H.RegOk 16 4) (hs : H.SegOk .ss) (hf : H.fl = 0) : Te H env (RME.callIntInternal n) (RME.callIntInternal n) :=
  bindE guardE fun _ => bindE (pushM16 h4 hs (getFlagsE hf)) fun _ => bindE (pushM16 h4 hs (getSreg hc)) fun _ => bindE (pushM16 h4 hs getIP) fun _ =>
    bindE (getFlagsE hf) fun _ => bindE (setFlags (FEq.refl _)) fun _ => bindE readMem fun _ => bindE setIP fun _ => bindE readMem fun _ => setSreg
end Tw

/-- The opcode functions' sources are those of the specification. -/
def srcOk (op : BitVec 8) (e : Entry) (r : BitVec 3) : Bool :=
  match e.fn with
  | .base o => o.isPrefix ||
    (if e.modrm then o.usesM && (opForm op r).1 && (o.srcs r r).all (· ∈ srcs op r)
     else if o.usesM then (opForm op r).1 && (o.srcs e.arg r).all (· ∈ srcs op r)
     else !(opForm op 0).1 && (o.srcs e.arg 0).all (· ∈ srcs op 0))
  | _ => true
def srcOk0F (op : BitVec 8) (e : Entry) (r : BitVec 3) : Bool :=
  match e.fn with
  | .base o => o.isPrefix || (((opForm0F op).1 == o.usesM) && (o.srcs e.arg (if o.usesM then r else 0)).all (· ∈ srcs0F op))
  | _ => true

theorem srcOk_all : ∀ r b, chk (fun b e => srcOk b e r) b = true := by decide +kernel
theorem srcOk0F_all : ∀ r b, chkF (fun b e => srcOk0F b e r) b = true := by decide +kernel

theorem dec_src {s p k o a} (hd : Dec s p k o a) (hn : o.isPrefix = false) {b : BitVec 8} (hb0 : o.usesM = false → b = 0)
    (hb1 : o.usesM = true → ByteAt s k b) {d : Src} (h : d ∈ o.srcs a (regOf b)) : HasSrc s d b p := by
  have hr0 : regOf 0 = 0 := by decide
  cases hd with
  | @one pfx p op o a hp hb hne he =>
    have hc := fun r => chk_some (srcOk_all r op) he
    cases hu : o.usesM
    · have := hc 0
      simp [srcOk, hn, hu] at this
      rw [hb0 hu] at h ⊢
      rw [hr0] at h
      exact .plain hp hb this.1 (this.2 d h)
    · have := hc (regOf b)
      simp [srcOk, hn, hu] at this
      refine .modrm hp ?_ this.1 (this.2 d h)
      have h2 : pfx ++ [op, b] = (pfx ++ [op]) ++ [b] := by simp
      rw [h2]
      exact BytesAt.snoc hb (by simpa using hb1 hu)
  | @grp pfx p op m o a hp hb hne he =>
    have hm : (m >>> 3).setWidth 3 = regOf m := ofByteF_reg m
    rw [hm] at h
    have := chk_some (srcOk_all (regOf m) op) he
    simp [srcOk, hn] at this
    have hbm : ByteAt s (pfx.length + 1) m := by
      have := hb (pfx.length + 1) (by simp)
      simpa using this
    have hbe : b = m := (hb1 this.1.1).inj hbm
    subst hbe
    exact .modrm hp hb this.1.2 (this.2 d h)
  | @ext pfx p op o a e hp hb he =>
    have := chkF_some (srcOk0F_all (regOf b) op) he
    simp [srcOk0F, hn] at this
    cases hu : o.usesM
    · rw [hb0 hu] at h ⊢
      rw [hr0] at h
      simp [hu] at this
      exact .plain0F hp hb this.1 (this.2 d h)
    · simp [hu] at this
      refine .modrm0F hp ?_ this.1 (this.2 d h)
      have h2 : pfx ++ [0x0F, op, b] = (pfx ++ [0x0F, op]) ++ [b] := by simp
      rw [h2]
      exact BytesAt.snoc hb (by simpa using hb1 hu)

theorem any_plain {o : Op} {a : BitVec 3} (h : Src.any ∈ o.srcs a 0) : o.usesM = false := by
  cases o <;> first | rfl | skip
  case alu k form =>
    cases form <;> first | rfl | skip
    all_goals
      simp only [Op.srcs] at h
      split at h <;> simp at h
  case movRS => exfalso; revert h; simp [Op.srcs, segSrc, segSel]
  all_goals
    exfalso
    simp only [Op.srcs, carryIf] at h
    first
      | (simp at h; done)
      | (revert h; revert a; decide)

theorem div_faultSrc {o : Op} {a r : BitVec 3} (h : o.isDiv a = true) : Src.fault ∈ o.srcs a r := by
  cases o <;> first | (cases h; done) | skip
  · simp [Op.srcs]
  all_goals
    simp [Op.isDiv] at h
    rcases h with rfl | rfl <;> simp [Op.srcs]

theorem div_modByte {env : Env} {s t : State} {p k} {o : Op} {a : BitVec 3} (hv : o.isDiv a = true) (hu : o.usesM = true)
    (h2 : opFn o a env (opState s p k) = .err .divErr t) : ∃ b, modByte env (opState s p k) = some b := by
  cases hf : modByte env (opState s p k) with
  | some b => exact ⟨b, rfl⟩
  | none =>
    exfalso
    have hrd : ∀ (f : ModRM → M Unit) t, (RME.getModRM >>= f) env (opState s p k) ≠ .err .divErr t := by
      intro f t
      unfold modByte at hf
      simp only [getModRM, bind_apply]
      rcases fetch8_cases env s p k with ⟨b', hb, hr⟩ | ⟨hn, _, hr⟩ | ⟨hn, u, hu, hr⟩
      · rw [hr] at hf; cases hf
      · rw [hr]; simp
      · rw [hr]; simp
    cases o <;> first | (cases hv; done) | skip
    · cases hu
    · refine hrd (fun m => do let l ← decodeModM m; miscOp 8 a l) t ?_
      rw [← h2]
      simp only [opFn, opMiscMI, parseModRM, bind_apply]
      cases getModRM env (opState s p k) with
      | ok m u => simp only [resbind_ok]; cases decodeModM m env u <;> rfl
      | err e u => rfl
      | ub u => rfl
    · refine hrd (fun m => do let l ← decodeModMX m; withW fun n => miscOp n a l) t ?_
      rw [← h2]
      simp only [opFn, opMiscMIX, parseModRMX, bind_apply]
      cases getModRM env (opState s p k) with
      | ok m u => simp only [resbind_ok]; cases decodeModMX m env u <;> rfl
      | err e u => rfl
      | ub u => rfl

/-- At CS:IP there is SHLD or SHRD with a register operand numbered 4–7. -/
def ShxdUpper (s : State) : Prop := ∃ pfx op m, GoodPrefixes pfx ∧ (op = 0xA4 ∨ op = 0xA5 ∨ op = 0xAC ∨ op = 0xAD) ∧
  BytesAt s (pfx ++ [0x0F, op, m]) ∧ (4 ≤ (regOf m).toNat ∨ (modOf m = 3 ∧ 4 ≤ (rmOf m).toNat))

theorem rr_same {H : Hid} {r r' : Res Unit} (h : RrD H H.Sim Eq r r') : SameOutcome H.Sim r r' := by
  cases r <;> cases r' <;> first | exact h.elim | skip
  · exact h.1
  · exact h
  · exact h

theorem opState_sim {H : Hid} {s t : State} (h : H.Sim s t) (p : Pfx) (k : Nat) : Hid.R { H with p := p } (opState s p k) (opState t p k) := by
  refine ⟨⟨h.gpr, h.flags, h.sreg, h.ip, h.cpuType, h.debugLevel, h.map, h.host, h.valid, ?_, h.lastNull, ?_, h.io⟩, rfl, rfl, rfl, rfl⟩
  · show s.instrNum + 1 = t.instrNum + 1; rw [h.instrNum]
  · rfl

/-- One ordinary instruction, run by two machines that agree in all sources of the instruction. -/
theorem dep_main {H : Hid} (hcs : H.seg .cs = false) {env : Env} {s t : State} (hr : Ready s) (hsim : H.Sim s t)
    (hsx : ¬ ShxdUpper s ∨ ∀ r, 32 ≤ H.vis r) (hcov : ∀ d m p, HasSrc s d m p → Hid.Cov { H with p := p } m d)
    (hle : (∃ m p, HasSrc s .any m p) → H.HleOk env) : SameOutcome H.Sim (runOne env s) (runOne env t) := by
  obtain ⟨q, hq, hrec⟩ := runOne_recipe env s hr
  have hsc : SameCode s t := ⟨(hsim.sreg .cs hcs).symm, hsim.ip.symm, hsim.map.symm, hsim.host.symm, hsim.valid.symm⟩
  rw [hrec s (SameCode.refl s) rfl, hrec t hsc hsim.instrNum.symm]
  cases q with
  | ub u => rfl
  | err e p k =>
    have hst := (opState_sim hsim p k).1.unbase
    obtain ⟨h1, h2⟩ := hq
    cases e <;> first | exact absurd rfl h2 | exact ⟨rfl, hst⟩
  | op o a p k =>
    obtain ⟨hd, hn⟩ := hq
    haveI : Hid.CS { H with p := p } := ⟨hcs⟩
    have hR := opState_sim hsim p k
    have h0 : o.usesM = false → ∀ d ∈ o.srcs a 0, Hid.Cov { H with p := p } 0 d := fun hu d h =>
      hcov d 0 p (dec_src hd hn (fun _ => rfl) (fun h => absurd (hu.symm.trans h) (by decide)) (by rw [show regOf 0 = 0 by decide]; exact h))
    have h1 : o.usesM = true → ∀ b, modByte env (opState s p k) = some b → ∀ d ∈ o.srcs a (regOf b), Hid.Cov { H with p := p } b d := fun hu b hb d h =>
      hcov d b p (dec_src hd hn (fun h => absurd (hu.symm.trans h) (by decide)) (fun _ => modByte_opState hb) h)
    have hany : Src.any ∈ o.srcs a 0 → Hid.HleOk { H with p := p } env := by
      intro h
      have hu : o.usesM = false := any_plain h
      have := hle ⟨0, p, dec_src hd hn (fun _ => rfl) (fun h => absurd (hu.symm.trans h) (by decide)) (by rw [show regOf 0 = 0 by decide]; exact h)⟩
      exact fun n f hf s t hst => (this n f hf s t hst.unbase).rebase p
    have hx : (o.isShxd = true → ∀ b, modByte env (opState s p k) = some b → ¬ 4 ≤ (regOf b).toNat ∧ ¬ (modOf b = 3 ∧ 4 ≤ (rmOf b).toNat)) ∨
        ∀ r, Hid.RegOk { H with p := p } 32 r := by
      refine hsx.imp (fun hsx => ?_) id
      intro ho b hb
      obtain ⟨pfx, op, hg, hop, hk, hby⟩ := dec_shxd hd ho
      have hbb : BytesAt s (pfx ++ [0x0F, op, b]) := by
        have : pfx ++ [0x0F, op, b] = (pfx ++ [0x0F, op]) ++ [b] := by simp
        rw [this]
        exact BytesAt.snoc hby (by simpa [hk] using modByte_opState hb)
      exact ⟨fun h => hsx ⟨pfx, op, b, hg, hop, hbb, Or.inl h⟩, fun h => hsx ⟨pfx, op, b, hg, hop, hbb, Or.inr h⟩⟩
    have hop := op_dep (C := fun b => modByte env (opState s p k) = some b) hn h0 h1 hany hx _ _ ⟨hR, fun b hb => hb⟩
    show SameOutcome H.Sim (tailOf env s (opFn o a env (opState s p k))) (tailOf env t (opFn o a env (opState t p k)))
    cases e1 : opFn o a env (opState s p k) <;> cases e2 : opFn o a env (opState t p k) <;> rw [e1, e2] at hop <;> try exact hop.elim
    · rename_i u v
      have := Tw.ofSim (H := H) (env := env) (fun p => Tw.finishInstr (cs := s.sreg .cs) (ip := s.ip)) _ _ hop.1.unbase
      simp only [tailOf]
      rw [hsc.cs, hsc.ip]
      exact rr_same this
    · rename_i e u e' v
      obtain ⟨rfl, hs⟩ := hop
      by_cases he : e = .divErr
      · subst he
        have hv := opFn_div env hn e1
        have hf : ∃ b, Hid.Cov { H with p := p } b .fault := by
          cases hu : o.usesM
          · exact ⟨0, h0 hu _ (div_faultSrc hv)⟩
          · obtain ⟨b, hb⟩ := div_modByte hv hu e1
            exact ⟨b, h1 hu b hb _ (div_faultSrc hv)⟩
        obtain ⟨b, hf4, hfs, hff⟩ := hf
        exact rr_same (Tw.ofSim (H := H) (env := env) (fun p' => Tw.callInt (H := { H with p := p' }) (n := 0) hcs hf4.ok16 hfs hff) _ _ hs.unbase)
      · have : ∀ x y : State, tailOf env x (.err e y) = .err e y := by intro x y; cases e <;> first | rfl | exact absurd rfl he
        rw [this, this]
        exact ⟨rfl, hs.unbase⟩
    · exact hop

end RME
