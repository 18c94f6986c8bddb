import Verif.Lemmas.Mem
import Verif.Model.Rme
import Verif.Spec.Relocate
set_option autoImplicit false
/-
A relational program logic: two runs of the same program from related states end in related states.
-/
set_option linter.unusedSectionVars false
set_option linter.unusedVariables false
namespace RME

/-- Parameters of the logic. -/
structure Rc where
  e₁ : Env
  e₂ : Env
  P : Nat → Prop
  ρ : Nat → Nat
  E : Settings → Settings → Prop
  /-- assumption about block tables and allocated bytes of the two machines -/
  F : (Nat → Option Nat) → (Nat → Bool) → (Nat → Option Nat) → (Nat → Bool) → Prop

/-- Related states. -/
def Rc.R (c : Rc) (s t : State) : Prop := Moved c.P c.ρ s t ∧ c.E s.settings t.settings ∧ c.F s.map s.valid t.map t.valid

class Rc.Ok (c : Rc) : Prop where
  inj : InjOn c.P c.ρ
  host : SameHost c.R c.e₁ c.e₂

class Rc.Cpu (c : Rc) : Prop where
  cpu : ∀ a b, c.E a b → b.cpuType = a.cpuType

/-- Related outcomes. -/
def Rr {α β : Type} (c : Rc) (V : α → β → Prop) : Res α → Res β → Prop
  | .ok a s, .ok b t => c.R s t ∧ V a b
  | .err e s, .err e' t => e = e' ∧ c.R s t
  | .ub u, .ub u' => u = u'
  | _, _ => False

/-- Related programs. -/
def Rl {α β : Type} (c : Rc) (V : α → β → Prop) (m : M α) (m' : M β) : Prop :=
  ∀ s t, c.R s t → Rr c V (m c.e₁ s) (m' c.e₂ t)

/-- Related operand pointers for accesses with `n` bits. -/
def Rc.VL (c : Rc) (n : Nat) : Loc → Loc → Prop
  | .reg r, .reg r' => r = r'
  | .regH r, .regH r' => r = r'
  | .mem p, .mem q => q = c.ρ p ∧ ∀ i < n / 8, c.P (p + i) ∧ c.ρ (p + i) = c.ρ p + i
  | _, _ => False

/-- Related operand pointers for all widths. -/
def Rc.VX (c : Rc) (l l' : Loc) : Prop := ∀ n, (n = 8 ∨ n = 16 ∨ n = 32) → c.VL n l l'

abbrev Rle (c : Rc) {α : Type} (m m' : M α) : Prop := Rl c Eq m m'

namespace Rl
variable {c : Rc} {α β α' β' : Type}

theorem bind {V : α → α' → Prop} {V' : β → β' → Prop} {m m'} {f : α → M β} {f' : α' → M β'} (hm : Rl c V m m')
    (hf : ∀ a a', V a a' → Rl c V' (f a) (f' a')) : Rl c V' (m >>= f) (m' >>= f') := by
  intro s t hs
  have := hm s t hs
  simp only [bind_apply]
  cases h : m c.e₁ s <;> cases h' : m' c.e₂ t <;> rw [h, h'] at this <;> try exact this.elim
  · exact hf _ _ this.2 _ _ this.1
  · exact this
  · exact this
theorem bindE {V' : β → β' → Prop} {m m' : M α} {f : α → M β} {f' : α → M β'} (hm : Rle c m m')
    (hf : ∀ a, Rl c V' (f a) (f' a)) : Rl c V' (m >>= f) (m' >>= f') :=
  bind hm fun a a' h => h ▸ hf a
theorem pure {V : α → α' → Prop} {a a'} (h : V a a') : Rl c V (Pure.pure a) (Pure.pure a') := fun _ _ hs => ⟨hs, h⟩
theorem pureE {a : α} : Rle c (Pure.pure a) (Pure.pure a) := pure rfl
theorem ubE {V : α → α' → Prop} {u} : Rl c V (RME.ubE u) (RME.ubE u) := fun _ _ _ => rfl
theorem throwE {V : α → α' → Prop} {e} : Rl c V (RME.throwE e) (RME.throwE e) := fun _ _ hs => ⟨rfl, hs⟩
theorem guardE {x e} : Rle c (RME.guardE x e) (RME.guardE x e) := by
  intro s t hs
  cases x
  · exact ⟨hs, rfl⟩
  · exact ⟨rfl, hs⟩
theorem liftUB {x : Except UB α} : Rle c (RME.liftUB x) (RME.liftUB x) := by
  cases x with
  | ok a => exact pureE
  | error u => exact ubE
theorem ite {V : α → α' → Prop} {p : Prop} [Decidable p] {a b : M α} {a' b' : M α'} (ha : p → Rl c V a a') (hb : ¬p → Rl c V b b') :
    Rl c V (if p then a else b) (if p then a' else b') := by split <;> simp_all

/-! ### State access -/
theorem gets {f : State → α} (h : ∀ s t, c.R s t → f t = f s) : Rle c (RME.gets f) (RME.gets f) :=
  fun s t hs => ⟨hs, (h s t hs).symm⟩
theorem modify {f : State → State} (h : ∀ s t, c.R s t → c.R (f s) (f t)) : Rle c (RME.modify f) (RME.modify f) :=
  fun s t hs => ⟨h s t hs, rfl⟩
theorem getReg {n r} : Rle c (RME.getReg n r) (RME.getReg n r) := gets fun s t h => by simp only [State.reg, h.1.gpr]
theorem getRegHE {n r} : Rle c (RME.gets (·.regH n r)) (RME.gets (·.regH n r)) :=
  gets fun s t h => by simp only [State.regH, State.pair, h.1.gpr]
theorem getSreg {r} : Rle c (RME.getSreg r) (RME.getSreg r) := gets fun s t h => by simp only [h.1.sreg]
theorem getIP : Rle c RME.getIP RME.getIP := gets fun s t h => h.1.ip
theorem getFlags : Rle c RME.getFlags RME.getFlags := gets fun s t h => h.1.flags
theorem getDec : Rle c RME.getDec RME.getDec := gets fun s t h => h.1.dec
theorem nextIP : Rle c RME.nextIP RME.nextIP := gets fun s t h => by simp only [h.1.ip, h.1.dec]
theorem getSegment {r} : Rle c (RME.getSegment r) (RME.getSegment r) := bindE getDec fun _ => getSreg
theorem dividend {n} : Rle c (RME.gets (RME.dividend · n)) (RME.gets (RME.dividend · n)) :=
  gets fun s t h => by simp only [RME.dividend, State.reg, h.1.gpr]
theorem getRegHi {r} : Rle c (RME.getRegHi r) (RME.getRegHi r) := gets fun s t h => by simp only [h.1.gpr]
theorem setGprR {s t : State} {r v} (h : c.R s t) : c.R (s.setGpr r v) (t.setGpr r v) :=
  ⟨{ h.1 with gpr := by simp only [State.setGpr, h.1.gpr] }, h.2⟩
theorem setReg {n r v} : Rle c (RME.setReg n r v) (RME.setReg n r v) := modify fun s t h => by
  simp only [State.setReg, h.1.gpr]; exact setGprR h
theorem setRegH {n r v} : Rle c (RME.modify (·.setRegH n r v)) (RME.modify (·.setRegH n r v)) := modify fun s t h => by
  simp only [State.setRegH, State.pair, h.1.gpr]; exact setGprR (setGprR h)
theorem setRegHi {r v} : Rle c (RME.setRegHi r v) (RME.setRegHi r v) := modify fun s t h => by
  simp only [h.1.gpr]; exact setGprR h
theorem setSreg {r v} : Rle c (RME.setSreg r v) (RME.setSreg r v) := modify fun s t h =>
  ⟨{ h.1 with sreg := by simp only [State.setSreg, h.1.sreg] }, h.2⟩
theorem setIP {v} : Rle c (RME.setIP v) (RME.setIP v) := modify fun s t h => ⟨{ h.1 with ip := rfl }, h.2⟩
theorem setFlags {v} : Rle c (RME.setFlags v) (RME.setFlags v) := modify fun s t h => ⟨{ h.1 with flags := rfl }, h.2⟩
theorem modDec {f} : Rle c (RME.modDec f) (RME.modDec f) := modify fun s t h =>
  ⟨{ h.1 with dec := by simp only [h.1.dec] }, h.2⟩
theorem setDontChangeIP : Rle c RME.setDontChangeIP RME.setDontChangeIP := modDec
theorem clearRep : Rle c RME.clearRep RME.clearRep := modDec
theorem addIP {v} : Rle c (RME.addIP v) (RME.addIP v) := bindE getIP fun _ => setIP
theorem segOf {p} : Rle c (RME.segOf p) (RME.segOf p) := by
  unfold RME.segOf
  repeat' (first | exact pureE | exact ubE | (refine ite (fun _ => ?_) (fun _ => ?_)))
theorem withW {V : α → α' → Prop} {f : Nat → M α} {f' : Nat → M α'} (h : ∀ n, (n = 8 ∨ n = 16 ∨ n = 32) → Rl c V (f n) (f' n)) :
    Rl c V (RME.withW f) (RME.withW f') :=
  bindE getDec fun d => ite (fun _ => h 32 (by decide)) (fun _ => h 16 (by decide))
theorem portOut {n p v} : Rle c (RME.portOut n p v) (RME.portOut n p v) := modify fun s t h =>
  ⟨{ h.1 with io := by simp only [h.1.io] }, h.2⟩

section
variable [k : c.Ok]
theorem portIn {n p} : Rle c (RME.portIn n p) (RME.portIn n p) := by
  intro s t h
  simp only [RME.portIn, h.1.io, k.host.portIn]
  exact ⟨⟨{ h.1 with io := rfl }, h.2⟩, rfl⟩
theorem runHle {n} : Rle c (RME.runHle n) (RME.runHle n) := by
  intro s t h
  simp only [RME.runHle]
  cases h1 : c.e₁.hle n with
  | none => rw [k.host.hleNone n h1]; exact ⟨h, rfl⟩
  | some f =>
    obtain ⟨g, h2, h3⟩ := k.host.hle n f h1
    rw [h2]; exact ⟨h3 s t h, rfl⟩

/-! ### Memory -/
theorem getPtr {seg ofs} : Rl c (fun p q => c.VX (.mem p) (.mem q)) (RME.getPtr seg ofs) (RME.getPtr seg ofs) := by
  intro s t h
  simp only [RME.getPtr]
  split
  · rename_i hb
    cases h1 : s.map ((seg.setWidth 32 * 16 + ofs : BitVec 32).toNat / blockSize) with
    | none =>
      rw [h.1.unmapped _ hb h1, k.host.nullCheck]
      dsimp only
      split
      · exact ⟨rfl, h⟩
      · rfl
    | some b =>
      obtain ⟨h2, h3⟩ := h.1.mapped _ hb b h1
      rw [h2]
      have hm : (seg.setWidth 32 * 16 + ofs : BitVec 32).toNat % blockSize < 4096 := Nat.mod_lt _ (by decide)
      refine ⟨h, fun n hn => ⟨((h3 _ (by omega)).2).symm, fun i hi => ?_⟩⟩
      have := h3 ((seg.setWidth 32 * 16 + ofs : BitVec 32).toNat % blockSize + i) (by omega)
      rw [Nat.add_assoc, this.2, (h3 _ (by omega)).2]
      exact ⟨this.1, by omega⟩
  · rfl

theorem validR {s t : State} (h : c.R s t) {n p q} (hv : c.VL n (.mem p) (.mem q)) :
    validN t.valid (n / 8) q = validN s.valid (n / 8) p := by
  rw [Bool.eq_iff_iff, validN_iff, validN_iff]
  obtain ⟨rfl, h2⟩ := hv
  have : ∀ i < n / 8, t.valid (c.ρ p + i) = s.valid (p + i) := fun i hi => by
    rw [← (h2 i hi).2]; exact h.1.valid _ (h2 i hi).1
  constructor
  · intro g i hi; rw [← this i hi]; exact g i hi
  · intro g i hi; rw [this i hi]; exact g i hi

theorem loadLER {f g : Nat → BitVec 8} (k : Nat) : ∀ p q, (∀ i < k, f (p + i) = g (q + i)) → loadLE f k p = loadLE g k q := by
  induction k with
  | zero => intros; rfl
  | succ k ih =>
    intro p q h
    simp only [loadLE]
    have h0 := h 0 (by omega)
    simp only [Nat.add_zero] at h0
    rw [h0, ih (p + 1) (q + 1) (fun i hi => by
      have := h (i + 1) (by omega)
      rwa [show p + (i + 1) = p + 1 + i by omega, show q + (i + 1) = q + 1 + i by omega] at this)]

theorem loadM {n p q} (hv : c.VL n (.mem p) (.mem q)) : Rle c (RME.loadM n p) (RME.loadM n q) := by
  intro s t h
  simp only [RME.loadM, validR h hv]
  split
  · refine ⟨h, congrArg _ (loadLER _ _ _ fun i hi => ?_)⟩
    obtain ⟨rfl, h2⟩ := hv
    rw [← (h2 i hi).2]; exact (h.1.host _ (h2 i hi).1).symm
  · rfl
theorem storeM {n p q v} (hv : c.VL n (.mem p) (.mem q)) : Rle c (RME.storeM n p v) (RME.storeM n q v) := by
  intro s t h
  simp only [RME.storeM, validR h hv]
  split
  · refine ⟨⟨{ h.1 with host := fun a ha => ?_ }, h.2⟩, rfl⟩
    obtain ⟨rfl, h2⟩ := hv
    simp only [storeLE]
    by_cases hc : p ≤ a ∧ a < p + n / 8
    · have := (h2 (a - p) (by omega)).2
      rw [show p + (a - p) = a by omega] at this
      rw [if_pos hc, if_pos (by omega), this]
      congr 3
      omega
    · rw [if_neg hc, if_neg, h.1.host a ha]
      intro hd
      have h4 := h2 (c.ρ a - c.ρ p) (by omega)
      have := k.inj _ _ ha h4.1 (by omega)
      omega
  · rfl
theorem readLoc {n l l'} (hv : c.VL n l l') : Rle c (RME.readLoc n l) (RME.readLoc n l') := by
  cases l <;> cases l' <;> try exact hv.elim
  · cases hv; exact getReg
  · cases hv; exact getRegHE
  · exact loadM hv
theorem writeLoc {n l l' v} (hv : c.VL n l l') : Rle c (RME.writeLoc n l v) (RME.writeLoc n l' v) := by
  cases l <;> cases l' <;> try exact hv.elim
  · cases hv; exact setReg
  · cases hv; exact setRegH
  · exact storeM hv
theorem readMem {n seg ofs} (hn : n = 8 ∨ n = 16 ∨ n = 32) : Rle c (RME.readMem n seg ofs) (RME.readMem n seg ofs) :=
  bind getPtr fun _ _ h => loadM (h n hn)
theorem writeMem {n seg ofs v} (hn : n = 8 ∨ n = 16 ∨ n = 32) : Rle c (RME.writeMem n seg ofs v) (RME.writeMem n seg ofs v) :=
  bind getPtr fun _ _ h => storeM (h n hn)
theorem readInstr {n} (hn : n = 8 ∨ n = 16 ∨ n = 32) : Rle c (RME.readInstr n) (RME.readInstr n) :=
  bindE getSreg fun _ => bindE nextIP fun _ => bindE (readMem hn) fun _ => bindE modDec fun _ => pureE
theorem readInstr8S {n} : Rle c (RME.readInstr8S n) (RME.readInstr8S n) := bindE (readInstr (by decide)) fun _ => pureE
theorem pushM {m m' : M (BitVec 16)} (h : Rle c m m') : Rle c (RME.pushM m) (RME.pushM m') :=
  bindE getReg fun _ => bindE setReg fun _ => bindE getSreg fun _ => bindE getReg fun _ => bindE h fun _ => writeMem (by decide)
theorem push {v} : Rle c (RME.push v) (RME.push v) := pushM pureE
theorem pop : Rle c RME.pop RME.pop :=
  bindE getSreg fun _ => bindE getReg fun _ => bindE (readMem (by decide)) fun _ => bindE getReg fun _ => bindE setReg fun _ => pureE
theorem popReg {r} : Rle c (RME.popReg r) (RME.popReg r) := bindE pop fun _ => setReg

/-! ### ModR/M -/
theorem VXreg {r} : c.VX (.reg r) (.reg r) := fun _ _ => rfl
theorem VXregB {r} : c.VX (regB r) (regB r) := fun n _ => by unfold regB; split <;> exact rfl
theorem VXregW {r} : c.VX (regW r) (regW r) := fun _ _ => rfl
theorem getModRM : Rle c RME.getModRM RME.getModRM := bindE (readInstr (by decide)) fun _ => pureE
theorem getModRM_unchecked : Rle c RME.getModRM_unchecked RME.getModRM_unchecked := by
  intro s t h
  have := getModRM s t h
  simp only [RME.getModRM_unchecked]
  cases h1 : RME.getModRM c.e₁ s <;> cases h2 : RME.getModRM c.e₂ t <;> rw [h1, h2] at this <;> try exact this.elim
  · exact this
  · rfl
  · exact this
theorem getsId {V : β → β' → Prop} {f : State → M β} {f' : State → M β'} (hf : ∀ s t : State, s.gpr = t.gpr → Rl c V (f s) (f' t)) :
    Rl c V (RME.gets id >>= f) (RME.gets id >>= f') := by
  intro s t h
  exact hf s t h.1.gpr.symm s t h
theorem doFunc {mmm mod0 disp} : Rle c (RME.doFunc mmm mod0 disp) (RME.doFunc mmm mod0 disp) := by
  unfold RME.doFunc
  refine bindE getSegment fun _ => getsId fun s t h => ?_
  simp only [State.reg, h]
  exact ite (fun _ => bindE (readInstr (by decide)) fun _ => pureE) fun _ => pureE
theorem doFunc32 {mmm mod0 disp} : Rle c (RME.doFunc32 mmm mod0 disp) (RME.doFunc32 mmm mod0 disp) := by
  unfold RME.doFunc32
  refine bindE getSegment fun _ => getsId fun s t h => ?_
  simp only [sibIndex, h]
  exact ite (fun _ => bindE (readInstr (by decide)) fun _ => ite (fun _ => bindE (readInstr (by decide)) fun _ => pureE) fun _ => pureE)
    fun _ => ite (fun _ => bindE (readInstr (by decide)) fun _ => pureE) fun _ => pureE
theorem getMMM {m} : Rle c (RME.getMMM m) (RME.getMMM m) := by
  unfold RME.getMMM
  refine bindE getDec fun _ => ?_
  repeat' (first | exact doFunc | exact doFunc32 | exact throwE | exact readInstr8S | exact readInstr (by decide) | (refine ite (fun _ => ?_) (fun _ => ?_)) | refine bindE ?_ fun _ => ?_)
theorem decodeModM {m} : Rl c (fun l l' => c.VX l l') (RME.decodeModM m) (RME.decodeModM m) := by
  unfold RME.decodeModM
  exact ite (fun _ => pure VXregB) fun _ => bindE getMMM fun _ => bind getPtr fun _ _ h => pure h
theorem decodeModMX {m} : Rl c (fun l l' => c.VX l l') (RME.decodeModMX m) (RME.decodeModMX m) := by
  unfold RME.decodeModMX
  exact ite (fun _ => pure VXregW) fun _ => bindE getMMM fun _ => bindE guardE fun _ => bind getPtr fun _ _ h => pure h
theorem bindRM {V : β → β' → Prop} {f : Loc × Loc → M β} {f' : Loc × Loc → M β'}
    (h : ∀ r m r' m', c.VX r r' → c.VX m m' → Rl c V (f (r, m)) (f' (r', m'))) : Rl c V (RME.parseModRM >>= f) (RME.parseModRM >>= f') :=
  bind (V := fun x x' => c.VX x.1 x'.1 ∧ c.VX x.2 x'.2) (bindE getModRM fun _ => bind decodeModM fun _ _ h => pure ⟨VXregB, h⟩)
    fun a a' ha => h a.1 a.2 a'.1 a'.2 ha.1 ha.2
theorem bindRMX {V : β → β' → Prop} {f : Loc × Loc → M β} {f' : Loc × Loc → M β'}
    (h : ∀ r m r' m', c.VX r r' → c.VX m m' → Rl c V (f (r, m)) (f' (r', m'))) : Rl c V (RME.parseModRMX >>= f) (RME.parseModRMX >>= f') :=
  bind (V := fun x x' => c.VX x.1 x'.1 ∧ c.VX x.2 x'.2) (bindE getModRM fun _ => bind decodeModMX fun _ _ h => pure ⟨VXregW, h⟩)
    fun a a' ha => h a.1 a.2 a'.1 a'.2 ha.1 ha.2
theorem parseFarPtr : Rle c RME.parseFarPtr RME.parseFarPtr :=
  bindE getModRM fun _ => bindE guardE fun _ => bindE getMMM fun _ => bindE (readMem (by decide)) fun _ =>
    bindE (readMem (by decide)) fun _ => pureE
theorem peekInstr8 : Rle c RME.peekInstr8 RME.peekInstr8 := bindE (readInstr (by decide)) fun _ => bindE modDec fun _ => pureE
theorem moffs : Rle c RME.moffs RME.moffs :=
  bindE getDec fun _ => ite (fun _ => bindE (readInstr (by decide)) fun _ => pureE) fun _ => readInstr (by decide)
end
end Rl
end RME
