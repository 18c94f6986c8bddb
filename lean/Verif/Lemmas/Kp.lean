import Verif.Lemmas.Mem
set_option autoImplicit false
/-
A small program logic for properties that hold for *every* opcode function: an invariant `I` on
states, sets of values that may flow through the program, a condition `J` on error exits and a set
`U` of undefined behaviours.
-/
set_option linter.unusedSectionVars false
namespace RME

/-- Parameters of the logic. -/
structure Cap where
  env : Env
  /-- invariant of all states reached without an error -/
  I : State → Prop
  /-- condition on error exits -/
  J : Err → State → Prop
  /-- widths with which registers may be written -/
  W : Nat → Prop
  /-- possible FLAGS values -/
  VF : BitVec 16 → Prop
  /-- locations that may be accessed with a width -/
  VL : Nat → Loc → Prop
  /-- possible decoder contents -/
  VD : Decoder → Prop
  /-- segment registers that may be written -/
  VS : SReg → Prop
  /-- undefined behaviours that may occur -/
  U : UB → Prop

/-- From every state with the invariant, `m` ends in one with the invariant and a value in `V`, or in
an error with `J`, or in an undefined behaviour in `U`. -/
def Kp {α : Type} (c : Cap) (V : α → Prop) (m : M α) : Prop :=
  ∀ s, c.I s → match m c.env s with
    | .ok a t => c.I t ∧ V a
    | .err e t => c.J e t
    | .ub u => c.U u

abbrev Kpt (c : Cap) {α : Type} (m : M α) : Prop := Kp c (fun _ => True) m

/-- The error codes an opcode function returns itself (DIVERR apart). -/
def opErr (e : Err) : Bool :=
  e == .badmem || e == .undefOpcode || e == .bug

class Cap.Base (c : Cap) : Prop where
  dec : ∀ s, c.I s → c.VD s.dec
  setDec : ∀ s d, c.I s → c.VD d → c.I { s with dec := d }
  ofs : ∀ d k, c.VD d → c.VD { d with ipOffset := k }
  rep : ∀ d, c.VD d → c.VD { d with rep := .none }
  fl : ∀ s, c.I s → c.VF s.flags
  ptr : ∀ s b h k n, c.I s → b < numBlocks → s.map b = some h → k < blockSize → (n = 8 ∨ n = 16 ∨ n = 32) →
    b * blockSize + k ≤ 0x10FFEF → c.VL n (.mem (h + k))
  lreg : ∀ n r, c.VL n (.reg r)
  lregH : ∀ r, c.VL 8 (.regH r)
  bad : ∀ s e, c.I s → opErr e → c.J e s
  w8 : c.W 8
  w16 : c.W 16
  w32 : ∀ d, c.VD d → (d.ovrOper = true ∨ d.ovrAddr = true) → c.W 32
  wle : ∀ n, c.W n → (n = 8 ∨ n = 16 ∨ n = 32)
  ubNull : ∀ s b, c.I s → c.env.nullCheck = false → b < numBlocks → s.map b = none → c.U .nullBlock
  ubHost : ∀ s n h, c.I s → c.VL n (.mem h) → validN s.valid (n / 8) h = false → c.U .hostInvalid
  /-- uninitialised ModR/M after a failed fetch that was not checked -/
  ubUninit : ∀ s b, c.I s → b < numBlocks → s.map b = none → c.U .uninit
class Cap.Rg (c : Cap) : Prop where
  setReg : ∀ s n r v, c.I s → c.W n → c.I (s.setReg n r v)
  setRegH : ∀ s n r v, c.I s → c.W n → c.VL n (.regH r) → c.I (s.setRegH n r v)
  setGpr : ∀ s r v, c.I s → c.W 32 → c.I (s.setGpr r v)
class Cap.Mm (c : Cap) : Prop where
  store : ∀ s n h v, c.I s → c.W n → c.VL n (.mem h) → validN s.valid (n / 8) h = true →
    c.I { s with host := storeLE s.host h n v }
/-- FLAGS may change in the six arithmetic flags. -/
class Cap.AFl (c : Cap) : Prop where
  arith : ∀ f g, c.VF f → (g &&& 0xF72A = f &&& 0xF72A) → c.VF g
  setF : ∀ s f, c.I s → c.VF f → c.I { s with flags := f }
/-- FLAGS may change arbitrarily. -/
class Cap.SFl (c : Cap) : Prop where
  any : ∀ f, c.VF f
class Cap.Ip (c : Cap) : Prop where
  ip : ∀ s v, c.I s → c.I { s with ip := v }
  dci : ∀ d, c.VD d → c.VD { d with dontChangeIP := true }
class Cap.Sg (c : Cap) : Prop where
  setS : ∀ s r v, c.I s → c.VS r → c.I (s.setSreg r v)
class Cap.Io (c : Cap) : Prop where
  io : ∀ s e, c.I s → c.I { s with io := s.io ++ [e] }
class Cap.Hle (c : Cap) : Prop where
  hle : ∀ n f s, c.env.hle n = some f → c.I s → c.I (f s)
/-- ModR/M operands: offsets are not reduced modulo 2^16, so `Memory[]` may be indexed out of range. -/
class Cap.Mr (c : Cap) : Prop where
  oob : c.U .blockIndexOOB
  ptrM : ∀ s b h k n, c.I s → b < numBlocks → s.map b = some h → k < blockSize → (n = 8 ∨ n = 16 ∨ n = 32) →
    c.VL n (.mem (h + k))
/-- Fuel of the model's loops may run out. -/
class Cap.Fu (c : Cap) : Prop where
  fu : c.U .modelFuel
/-- Divide errors. -/
class Cap.Dv (c : Cap) : Prop where
  dv : ∀ s, c.I s → c.J .divErr s
/-- Prefixes. -/
class Cap.Px (c : Cap) : Prop where
  oper : ∀ d, c.VD d → c.VD { d with ovrOper := true }
  addr : ∀ d, c.VD d → c.VD { d with ovrAddr := true }
  seg : ∀ d r, c.VD d → c.VD { d with ovrSeg := some r }
  repx : ∀ d r, c.VD d → c.VD { d with rep := r }
  cont : ∀ s, c.I s → c.J .cont s

namespace Kp
variable {c : Cap} {α β : Type}

theorem bind {V : α → Prop} {V' : β → Prop} {m : M α} {f : α → M β} (hm : Kp c V m)
    (hf : ∀ a, V a → Kp c V' (f a)) : Kp c V' (m >>= f) := by
  intro s hs
  have := hm s hs
  simp only [bind_apply]
  cases h : m c.env s with
  | ok a t => rw [h] at this; exact hf a this.2 t this.1
  | err e t => rw [h] at this; exact this
  | ub u => rw [h] at this; exact this

theorem mono {V V' : α → Prop} {m : M α} (hm : Kp c V m) (h : ∀ a, V a → V' a) : Kp c V' m := by
  intro s hs
  have := hm s hs
  cases h2 : m c.env s with
  | ok a t => rw [h2] at this; exact ⟨this.1, h a this.2⟩
  | err e t => rw [h2] at this; exact this
  | ub u => rw [h2] at this; exact this

theorem top {V : α → Prop} {m : M α} (hm : Kp c V m) : Kpt c m := hm.mono (fun _ _ => trivial)

theorem pure {V : α → Prop} {a : α} (h : V a) : Kp c V (Pure.pure a) := fun _ hs => ⟨hs, h⟩
theorem pureT {a : α} : Kpt c (Pure.pure a) := fun _ hs => ⟨hs, trivial⟩
theorem getsT (f : State → α) : Kpt c (gets f) := fun _ hs => ⟨hs, trivial⟩
theorem getRegT (n r) : Kpt c (getReg n r) := fun _ hs => ⟨hs, trivial⟩
theorem getSregT (r) : Kpt c (getSreg r) := fun _ hs => ⟨hs, trivial⟩
theorem getIPT : Kpt c getIP := fun _ hs => ⟨hs, trivial⟩
theorem nextIPT : Kpt c nextIP := fun _ hs => ⟨hs, trivial⟩
theorem getSegmentT (r) : Kpt c (getSegment r) := fun _ hs => ⟨hs, trivial⟩
theorem ubE {V : α → Prop} {u : UB} (h : c.U u) : Kp c V (RME.ubE u) := fun _ _ => h

theorem ite {V : α → Prop} {p : Prop} [Decidable p] {a b : M α} (ha : p → Kp c V a) (hb : ¬p → Kp c V b) :
    Kp c V (if p then a else b) := by split <;> simp_all

section
variable [b : c.Base]

theorem getDecV : Kp c c.VD getDec := fun s hs => ⟨hs, b.dec s hs⟩
theorem getFlagsV : Kp c c.VF getFlags := fun s hs => ⟨hs, b.fl s hs⟩
theorem throwE {V : α → Prop} {e : Err} (h : opErr e = true) : Kp c V (RME.throwE e) :=
  fun s hs => b.bad s e hs h
theorem guardE {e : Err} {x : Bool} (h : opErr e = true) : Kp c (fun _ => x = false) (RME.guardE x e) := by
  intro s hs
  cases x
  · exact ⟨hs, rfl⟩
  · exact b.bad s e hs h
theorem throwDv {V : α → Prop} [d : c.Dv] : Kp c V (RME.throwE .divErr) := fun s hs => d.dv s hs
theorem guardDv {x : Bool} [d : c.Dv] : Kp c (fun _ => x = false) (RME.guardE x .divErr) := by
  intro s hs
  cases x
  · exact ⟨hs, rfl⟩
  · exact d.dv s hs
theorem modDec {f : Decoder → Decoder} (h : ∀ d, c.VD d → c.VD (f d)) : Kpt c (RME.modDec f) :=
  fun s hs => ⟨b.setDec s _ hs (h _ (b.dec s hs)), trivial⟩

theorem withW {V : α → Prop} {f : Nat → M α} (h : ∀ n, c.W n → n ≠ 8 → Kp c V (f n)) : Kp c V (RME.withW f) := by
  unfold RME.withW
  refine bind getDecV (fun d hd => ?_)
  split
  · exact h 32 (b.w32 d hd (Or.inl ‹_›)) (by decide)
  · exact h 16 b.w16 (by decide)

theorem getPtr (seg ofs : BitVec 16) :
    Kp c (fun p => ∀ n, (n = 8 ∨ n = 16 ∨ n = 32) → c.VL n (.mem p)) (RME.getPtr seg (ofs.setWidth 32)) := by
  intro s hs
  unfold RME.getPtr
  have hb : (seg.setWidth 32 * 16 + ofs.setWidth 32 : BitVec 32).toNat / blockSize < numBlocks := by
    have := addr32_toNat seg ofs
    have := linear_lt seg ofs
    simp only [blockSize, numBlocks]
    simp only [addr32_toNat]
    omega
  simp only [hb, if_true]
  split <;> rename_i heq
  · split at heq
    · cases heq
      refine ⟨hs, fun n hn => b.ptr s _ _ _ n hs hb ‹_› (Nat.mod_lt _ (by decide)) hn ?_⟩
      rw [Nat.div_add_mod']
      have := addr32_toNat seg ofs
      have := linear_lt seg ofs
      omega
    · split at heq <;> cases heq
  · split at heq
    · cases heq
    · split at heq <;> cases heq
      exact b.bad s _ hs rfl
  · split at heq
    · cases heq
    · split at heq <;> cases heq
      exact (b.ubNull s _ hs (by simp_all) hb ‹_›)

theorem getPtr32 [m : c.Mr] (seg : BitVec 16) (ofs : BitVec 32) :
    Kp c (fun p => ∀ n, (n = 8 ∨ n = 16 ∨ n = 32) → c.VL n (.mem p)) (RME.getPtr seg ofs) := by
  intro s hs
  unfold RME.getPtr
  simp only []
  split <;> rename_i heq
  · split at heq
    · rename_i hb
      split at heq
      · cases heq
        refine ⟨hs, fun n hn => m.ptrM s _ _ _ n hs hb ‹_› (Nat.mod_lt _ (by decide)) hn⟩
      · split at heq <;> cases heq
    · cases heq
  · split at heq
    · split at heq
      · cases heq
      · split at heq <;> cases heq
        exact b.bad s _ hs rfl
    · cases heq
  · split at heq
    · rename_i hb
      split at heq
      · cases heq
      · split at heq <;> cases heq
        exact (b.ubNull s _ hs (by simp_all) hb ‹_›)
    · cases heq; exact m.oob

theorem loadM {n h : Nat} (hv : c.VL n (.mem h)) : Kpt c (RME.loadM n h) := by
  intro s hs
  unfold RME.loadM
  by_cases hh : validN s.valid (n / 8) h = true
  · simp only [hh, if_true]; exact ⟨hs, trivial⟩
  · simp only [hh]; exact (b.ubHost s n h hs hv (by simpa using hh))

theorem readMem {n : Nat} (seg ofs : BitVec 16) (hn : n = 8 ∨ n = 16 ∨ n = 32) : Kpt c (RME.readMem n seg ofs) :=
  bind (getPtr seg ofs) (fun _ h => loadM (h n hn))

theorem readInstr {n : Nat} (hn : n = 8 ∨ n = 16 ∨ n = 32) : Kpt c (RME.readInstr n) :=
  bind (getSregT _) fun _ _ => bind nextIPT fun _ _ => bind (readMem _ _ hn) fun _ _ =>
    bind (modDec (fun d hd => b.ofs d _ hd)) fun _ _ => pureT
theorem readInstr8S (n : Nat) : Kpt c (RME.readInstr8S n) :=
  bind (readInstr (Or.inl rfl)) fun _ _ => pureT

theorem readLoc {n : Nat} {l : Loc} (hl : c.VL n l) : Kpt c (RME.readLoc n l) := by
  cases l
  · exact getRegT _ _
  · exact getsT _
  · exact loadM hl

theorem getModRM : Kpt c getModRM := bind (readInstr (Or.inl rfl)) fun _ _ => pureT
theorem regBV (r : BitVec 3) : c.VL 8 (regB r) := by
  unfold regB; split
  · exact b.lregH _
  · exact b.lreg _ _
theorem regWV (n : Nat) (r : BitVec 3) : c.VL n (regW r) := b.lreg n r

theorem doFunc (mmm mod0 disp) : Kpt c (RME.doFunc mmm mod0 disp) := by
  unfold RME.doFunc
  refine bind (getSegmentT _) fun _ _ => bind (getsT _) fun _ _ => ?_
  simp only []
  split
  · exact bind (readInstr (by decide)) fun _ _ => pureT
  · exact pureT
theorem doFunc32 (mmm mod0 disp) : Kpt c (RME.doFunc32 mmm mod0 disp) := by
  unfold RME.doFunc32
  refine bind (getSegmentT _) fun _ _ => bind (getsT _) fun _ _ => ?_
  simp only []
  split
  · refine bind (readInstr (by decide)) fun _ _ => ?_
    split
    · exact bind (readInstr (by decide)) fun _ _ => pureT
    · exact pureT
  · split
    · exact bind (readInstr (by decide)) fun _ _ => pureT
    · exact pureT
theorem getMMM (m : ModRM) : Kpt c (RME.getMMM m) := by
  unfold RME.getMMM
  refine bind getDecV fun _ _ => ?_
  split
  · split
    · exact doFunc32 _ _ _
    · split
      · exact bind (readInstr8S _) fun _ _ => doFunc32 _ _ _
      · split
        · exact bind (readInstr (by decide)) fun _ _ => doFunc32 _ _ _
        · exact throwE rfl
  · split
    · exact doFunc _ _ _
    · split
      · exact bind (readInstr8S _) fun _ _ => doFunc _ _ _
      · split
        · exact bind (readInstr (by decide)) fun _ _ => doFunc _ _ _
        · exact throwE rfl

theorem decodeModM [c.Mr] (m : ModRM) : Kp c (c.VL 8) (RME.decodeModM m) := by
  unfold RME.decodeModM
  split
  · exact pure (regBV _)
  · exact bind (getMMM m) fun _ _ => bind (getPtr32 _ _) fun _ h => pure (h 8 (by decide))
theorem decodeModMX [c.Mr] (m : ModRM) : Kp c (fun l => ∀ n, (n = 8 ∨ n = 16 ∨ n = 32) → c.VL n l) (RME.decodeModMX m) := by
  unfold RME.decodeModMX
  split
  · exact pure (fun n _ => regWV n _)
  · exact bind (getMMM m) fun _ _ => bind (guardE rfl) fun _ _ => bind (getPtr32 _ _) fun _ h => pure h
theorem parseModRM [c.Mr] : Kp c (fun x => c.VL 8 x.1 ∧ c.VL 8 x.2) RME.parseModRM :=
  bind getModRM fun _ _ => bind (decodeModM _) fun _ h => pure ⟨regBV _, h⟩
theorem parseModRMX [c.Mr] : Kp c (fun x => (∀ n, (n = 8 ∨ n = 16 ∨ n = 32) → c.VL n x.1) ∧
    ∀ n, (n = 8 ∨ n = 16 ∨ n = 32) → c.VL n x.2) RME.parseModRMX :=
  bind getModRM fun _ _ => bind (decodeModMX _) fun _ h => pure ⟨fun n _ => regWV n _, h⟩
theorem parseFarPtr : Kpt c RME.parseFarPtr :=
  bind getModRM fun _ _ => bind (guardE rfl) fun _ _ => bind (getMMM _) fun _ _ =>
    bind (readMem _ _ (by decide)) fun _ _ => bind (readMem _ _ (by decide)) fun _ _ => pureT

theorem uninit {n} (seg ofs : BitVec 16) (s : State) (hs : c.I s) {e t} (h : RME.readMem n seg ofs c.env s = .err e t) : c.U .uninit := by
  simp only [RME.readMem, bind_apply] at h
  have hb : (seg.setWidth 32 * 16 + ofs.setWidth 32 : BitVec 32).toNat / blockSize < numBlocks := by
    have := addr32_toNat seg ofs
    have := linear_lt seg ofs
    simp only [blockSize, numBlocks]
    simp only [addr32_toNat]
    omega
  simp only [RME.getPtr, hb, if_true] at h
  split at h
  · rename_i h1
    simp only [resbind_ok, RME.loadM] at h
    split at h <;> cases h
  · exact b.ubUninit s _ hs hb ‹_›

theorem getModRM_unchecked : Kpt c RME.getModRM_unchecked := by
  intro s hs
  have := getModRM (c := c) s hs
  simp only [RME.getModRM_unchecked]
  split <;> rename_i heq
  · split at heq
    · cases heq
    · rename_i h; simp only [heq] at this; exact this
  · split at heq
    · cases heq
    · rename_i h; exact absurd heq (h _ _)
  · split at heq
    · cases heq
      rename_i e t h
      have h2 : RME.readInstr 8 c.env s = .err e t := by
        simp only [RME.getModRM, bind_apply] at h
        cases h3 : RME.readInstr 8 c.env s with
        | ok a t' => rw [h3] at h; simp at h
        | err e' t' => rw [h3] at h; simpa using h
        | ub u => rw [h3] at h; simp at h
      simp only [RME.readInstr, bind_apply, getSreg_apply, nextIP_apply, resbind_ok] at h2
      cases h3 : RME.readMem 8 (s.sreg .cs) (s.ip + BitVec.ofNat 16 s.dec.ipOffset) c.env s with
      | ok a t' => rw [h3] at h2; simp at h2
      | err e' t' => exact uninit _ _ s hs h3
      | ub u => rw [h3] at h2; simp at h2
    · rename_i h; simp only [heq] at this; exact this

theorem clearRep : Kpt c RME.clearRep := modDec (fun d hd => b.rep d hd)

end

section
variable [b : c.Base] [g : c.Rg]
theorem setReg {n r v} (hn : c.W n) : Kpt c (RME.setReg n r v) := fun s hs => ⟨g.setReg s n r v hs hn, trivial⟩
theorem setRegH8 {r v} : Kpt c (RME.modify (·.setRegH 8 r v)) :=
  fun s hs => ⟨g.setRegH s 8 r v hs b.w8 (b.lregH r), trivial⟩
theorem pop : Kpt c RME.pop := bind (getSregT _) fun _ _ => bind (getRegT _ _) fun _ _ =>
  bind (readMem _ _ (by decide)) fun _ _ => bind (getRegT _ _) fun _ _ => bind (setReg b.w16) fun _ _ => pureT
theorem popReg (r) : Kpt c (RME.popReg r) := bind pop fun _ _ => setReg b.w16
theorem strCount : Kpt c RME.strCount := by
  unfold RME.strCount
  refine bind getDecV fun _ _ => ?_
  split
  · exact pureT
  · refine bind (getRegT _ _) fun _ _ => ?_
    split
    · exact pureT
    · exact bind (setReg b.w16) fun _ _ => pureT
theorem strAgain (z) : Kpt c (RME.strAgain z) := bind getDecV fun _ _ => bind getFlagsV fun _ _ => pureT
theorem strLoop [u : c.Fu] (z step mask) {body} (hb : ∀ x y, Kpt c (body x y)) (fuel) : ∀ so dd, Kpt c (RME.strLoop z step mask body fuel so dd) := by
  induction fuel with
  | zero => intro so dd s hs; exact u.fu
  | succ k ih =>
    intro so dd
    unfold RME.strLoop
    refine bind strCount fun _ _ => ?_
    split
    · exact pureT
    · refine bind (hb _ _) fun _ _ => bind getFlagsV fun _ _ => ?_
      simp only []
      refine bind (strAgain _) fun _ _ => ?_
      split
      · exact ih _ _
      · exact pureT
theorem strOfs (r) : Kpt c (RME.strOfs r) := by
  unfold RME.strOfs
  refine bind getDecV fun _ _ => ?_
  split
  · exact getRegT _ _
  · exact bind (getRegT _ _) fun _ _ => pureT
theorem strPut (u r v) : Kpt c (RME.strPut u r v) := by
  unfold RME.strPut
  split
  · refine bind getDecV fun d hd => ?_
    split
    · exact setReg (b.w32 d hd (Or.inr ‹_›))
    · exact setReg b.w16
  · exact pureT
theorem stringOp [c.Fu] (z u v step) {body} (hb : ∀ p x q y, Kpt c (body p x q y)) : Kpt c (RME.stringOp z u v step body) := by
  unfold RME.stringOp
  refine bind (getSregT _) fun _ _ => bind (getSegmentT _) fun _ _ => bind getDecV fun _ _ => bind (strOfs _) fun _ _ =>
    bind (strOfs _) fun _ _ => ?_
  simp only []
  refine bind (getRegT _ _) fun _ _ => ?_
  split
  · exact clearRep
  · exact bind (strLoop _ _ _ (fun _ _ => hb _ _ _ _) _ _ _) fun _ _ => bind (strPut _ _ _) fun _ _ => bind (strPut _ _ _) fun _ _ => clearRep
theorem strW (w) {f : Nat → M Unit} (h : ∀ n, c.W n → Kpt c (f n)) : Kpt c (RME.strW w f) := by
  unfold RME.strW; split
  · exact withW fun n hn _ => h n hn
  · exact h 8 b.w8
end

section
variable [b : c.Base] [g : c.Mm]
theorem storeM {n h v} (hn : c.W n) (hv : c.VL n (.mem h)) : Kpt c (RME.storeM n h v) := by
  intro s hs
  unfold RME.storeM
  by_cases hh : validN s.valid (n / 8) h = true
  · simp only [hh, if_true]; exact ⟨g.store s n h v hs hn hv hh, trivial⟩
  · simp only [hh]; exact (b.ubHost s n h hs hv (by simpa using hh))
theorem writeMem {n : Nat} (seg ofs : BitVec 16) (v) (hn : c.W n) : Kpt c (RME.writeMem n seg ofs v) :=
  bind (getPtr seg ofs) (fun _ h => storeM hn (h n (b.wle n hn)))
variable [r : c.Rg]
theorem writeLoc {n : Nat} {l : Loc} {v} (hn : c.W n) (hl : c.VL n l) : Kpt c (RME.writeLoc n l v) := by
  cases l
  · exact setReg hn
  · exact fun s hs => ⟨r.setRegH s n _ v hs hn hl, trivial⟩
  · exact storeM hn hl
theorem pushM {m : M (BitVec 16)} {V} (hm : Kp c V m) : Kpt c (RME.pushM m) :=
  bind (getRegT _ _) fun _ _ => bind (setReg b.w16) fun _ _ => bind (getSregT _) fun _ _ => bind (getRegT _ _) fun _ _ =>
    bind hm fun _ _ => writeMem _ _ _ b.w16
theorem push (v) : Kpt c (RME.push v) := pushM pureT
end

section
variable [b : c.Base]
theorem setFlags [g : c.AFl] {f} (h : c.VF f) : Kpt c (RME.setFlags f) := fun s hs => ⟨g.setF s f hs h, trivial⟩
theorem setIP [g : c.Ip] {v} : Kpt c (RME.setIP v) := fun s hs => ⟨g.ip s v hs, trivial⟩
theorem setDontChangeIP [g : c.Ip] : Kpt c RME.setDontChangeIP := modDec (fun d hd => g.dci d hd)
theorem addIP [g : c.Ip] {v} : Kpt c (RME.addIP v) := bind getIPT fun _ _ => setIP
theorem setSreg [g : c.Sg] {r v} (h : c.VS r) : Kpt c (RME.setSreg r v) := fun s hs => ⟨g.setS s r v hs h, trivial⟩
theorem portOut [g : c.Io] {n p v} : Kpt c (RME.portOut n p v) := fun s hs => ⟨g.io s _ hs, trivial⟩
theorem portIn [g : c.Io] {n p} : Kpt c (RME.portIn n p) := fun s hs => ⟨g.io s _ hs, trivial⟩
theorem runHle [g : c.Hle] {n} : Kpt c (RME.runHle n) := by
  intro s hs
  unfold RME.runHle
  cases h : c.env.hle n with
  | none => exact ⟨hs, trivial⟩
  | some f => exact ⟨g.hle n f s h hs, trivial⟩
end
end Kp

end RME
