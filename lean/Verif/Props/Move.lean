import Verif.Props.Jump
import Verif.Props.Shift
import Verif.Spec.Move
set_option autoImplicit false
/-
C40 MOV and XCHG.
-/
namespace RME

theorem mov_entry : opEntry 0x88 = some ⟨.base .movMR, 0, false⟩ ∧ opEntry 0x89 = some ⟨.base .movMRX, 0, false⟩ ∧
    opEntry 0x8A = some ⟨.base .movRM, 0, false⟩ ∧ opEntry 0x8B = some ⟨.base .movRMX, 0, false⟩ ∧
    opEntry 0xC6 = some ⟨.base .movMI, 0, false⟩ ∧ opEntry 0xC7 = some ⟨.base .movMIX, 0, false⟩ ∧
    opEntry 0xA0 = some ⟨.base .movAMo, 0, false⟩ ∧ opEntry 0xA1 = some ⟨.base .movAMoX, 0, false⟩ ∧
    opEntry 0xA2 = some ⟨.base .movMoA, 0, false⟩ ∧ opEntry 0xA3 = some ⟨.base .movMoAX, 0, false⟩ := by decide +kernel

theorem movReg_entry : ∀ r : BitVec 3, (opEntry (0xB0 + r.setWidth 8) = some ⟨.base .movRegB, r, false⟩ ∧
    opEntry (0xB8 + r.setWidth 8) = some ⟨.base .movReg, r, false⟩ ∧ opEntry (0x90 + r.setWidth 8) = some ⟨.base .xchgReg, r, false⟩) ∧
    0xB0 + r.setWidth 8 ≠ (0xF1 : BitVec 8) ∧ 0xB8 + r.setWidth 8 ≠ (0xF1 : BitVec 8) ∧ 0x90 + r.setWidth 8 ≠ (0xF1 : BitVec 8) ∧
    0xB0 + r.setWidth 8 ≠ (0 : BitVec 8) ∧ 0xB8 + r.setWidth 8 ≠ (0 : BitVec 8) ∧ 0x90 + r.setWidth 8 ≠ (0 : BitVec 8) := by decide +kernel

theorem movLoc_ok {s : State} (p : Pfx) (j : Nat) (env : Env) {n : Nat} (hn : n = 8 ∨ n = 16 ∨ n = 32) {dst src : Opnd}
    (hd : dst.Ok s n) (hs : src.Ok s n) {b : BitVec n} (hb : src.Has s n b) :
    movLoc n (locOf s dst) (locOf s src) env (opState s p j) =
      .ok () { dst.put s n b with dec := decOf p j, instrNum := s.instrNum + 1 } := by
  simp only [movLoc, bind_apply, readLoc_has (Agree.op s p j) env hn hs hb, resbind_ok]
  rw [writeLoc_put (s := s) (t := opState s p j) rfl rfl env hd b, put_op]

theorem writeLoc_op {s : State} (p : Pfx) (j : Nat) (env : Env) {n : Nat} {dst : Opnd}
    (hd : dst.Ok s n) (b : BitVec n) :
    writeLoc n (locOf s dst) b env (opState s p j) =
      .ok () { dst.put s n b with dec := decOf p j, instrNum := s.instrNum + 1 } := by
  rw [writeLoc_put (s := s) (t := opState s p j) rfl rfl env hd b, put_op]

theorem moffs_ok {s : State} {h0 : Nat} {bytes : List (BitVec 8)} (h : CodeAt s h0 bytes) (env : Env)
    (p : Pfx) (j : Nat) {l : List (BitVec 8)} {ofs : BitVec 16} (hm : Moffs p l ofs) (hb : Sub bytes j l) :
    moffs env (opState s p j) = .ok ofs (opState s p (j + l.length)) := by
  cases hm with
  | w16 lo hi ha =>
    have : (opState s p j).dec.ovrAddr = false := ha
    simp only [moffs, bind_apply, getDec_apply, resbind_ok, ite_apply, this]
    rw [if_neg (by simp)]
    exact fetch16 h env p j hb.head hb.tail.head
  | w32 l ha hl hv =>
    have : (opState s p j).dec.ovrAddr = true := ha
    simp only [moffs, bind_apply, getDec_apply, resbind_ok, ite_apply, this]
    rw [if_pos trivial]
    simp only [bind_apply, fetchN h env p 32 j (by decide) hl hb, resbind_ok, pure_apply, hl]
    congr 1
    apply BitVec.eq_of_toNat_eq
    rw [BitVec.toNat_setWidth, BitVec.toNat_ofNat, BitVec.toNat_ofNat, Nat.mod_eq_of_lt (a := leVal l) (b := 2 ^ 32) (by omega)]

theorem getSegment_op (d : SReg) (env : Env) (s : State) (p : Pfx) (j : Nat) :
    getSegment d env (opState s p j) = .ok (s.sreg (p.seg.getD d)) (opState s p j) := rfl

theorem readMem_op {s : State} {n : Nat} (hn : n = 8 ∨ n = 16 ∨ n = 32) {seg ofs : BitVec 16} {v : BitVec n} (h : Holds s seg ofs v)
    (env : Env) (p : Pfx) (j : Nat) : readMem n seg ofs env (opState s p j) = .ok v (opState s p j) :=
  readMem_holds (by omega) env (readMem_at hn h rfl rfl rfl)

theorem Opnd.Ok.writeMem {s : State} (p : Pfx) (j : Nat) (env : Env) {n : Nat} {seg ofs : BitVec 16}
    (hd : (Opnd.mem seg ofs).Ok s n) (b : BitVec n) : RME.writeMem n seg ofs b env (opState s p j) =
      .ok () { (Opnd.mem seg ofs).put s n b with dec := decOf p j, instrNum := s.instrNum + 1 } := by
  obtain ⟨a, ha, hv⟩ := hd
  rw [writeMem_mapped (s := opState s p j) env ⟨ha, hv⟩ b, ← put_op]
  simp only [Opnd.put]
  have : hostAddr (opState s p j) seg ofs = some a := ha
  rw [this]

/-- Every encoding of MOV copies the source operand into the destination operand; nothing else changes, no flag in particular. -/
theorem C40_mov {s : State} {h0 : Nat} {p : Pfx} {code : List (BitVec 8)} {len n : Nat} {dst src : Opnd}
    (hat : At s h0 p code len) (henc : MovEnc s p n code dst src) (env : Env) {b : BitVec n}
    (hd : dst.Ok s n) (hb : src.Has s n b) (hnz : NotZeroed (dst.put s n b) h0 len) :
    Falls env s len (dst.put s n b) := by
  obtain ⟨e88, e89, e8A, e8B, eC6, eC7, eA0, eA1, eA2, eA3⟩ := mov_entry
  have hip := put_ip s n dst b
  have hm := put_map s n dst b
  have hv := put_valid s n dst b
  cases henc with
  | mr8 h hp =>
    refine step_falls hat env (by decide) e88 rfl _ (decOf p len) ?_ hip hm hv rfl rfl hnz
    intro bytes j hc hj hsub
    subst hj
    simp only [callFn, opFn, opMovMR, bind_apply, parseModRM_rm hc env h hp hd hsub, resbind_ok]
    exact movLoc_ok p _ env (Or.inl rfl) hd (regOp_ok s _) hb
  | mr h hp =>
    refine step_falls hat env (by decide) e89 rfl _ (decOf p len) ?_ hip hm hv rfl rfl hnz
    intro bytes j hc hj hsub
    subst hj
    simp only [callFn, opFn, opMovMRX, bind_apply, parseModRMX_rm hc env (opW_ne8 p) h hp hd hsub,
      resbind_ok, withW_op (p := p) _ _ (opState _ _ _) rfl, ← regOp_wide_loc s p]
    exact movLoc_ok p _ env (opW_ok p) hd (regOp_ok s _) hb
  | rm8 h hp =>
    refine step_falls hat env (by decide) e8A rfl _ (decOf p len) ?_ hip hm hv rfl rfl hnz
    intro bytes j hc hj hsub
    subst hj
    simp only [callFn, opFn, opMovRM, bind_apply, parseModRM_rm hc env h hp (hb.ok h.no_imm) hsub, resbind_ok]
    exact movLoc_ok p _ env (Or.inl rfl) (regOp_ok s _) (hb.ok h.no_imm) hb
  | rm h hp =>
    refine step_falls hat env (by decide) e8B rfl _ (decOf p len) ?_ hip hm hv rfl rfl hnz
    intro bytes j hc hj hsub
    subst hj
    simp only [callFn, opFn, opMovRMX, bind_apply, parseModRMX_rm hc env (opW_ne8 p) h hp (hb.ok h.no_imm) hsub,
      resbind_ok, withW_op (p := p) _ _ (opState _ _ _) rfl, ← regOp_wide_loc s p]
    exact movLoc_ok p _ env (opW_ok p) (regOp_ok s _) (hb.ok h.no_imm) hb
  | mi8 h hp i =>
    refine step_falls hat env (by decide) eC6 rfl _ (decOf p len) ?_ hip hm hv rfl rfl hnz
    intro bytes j hc hj hsub
    subst hj
    have hb' : b = i := hb.trans (imm_has8 i)
    subst hb'
    simp only [callFn, opFn, opMovMI, bind_apply, parseModRM_rm hc env h hp hd hsub.left, resbind_ok,
      fetch8 hc env p _ hsub.right.head, List.length_append, List.length_cons, List.length_nil, ← Nat.add_assoc]
    exact writeLoc_op p _ env hd b
  | mi h hp l hl =>
    refine step_falls hat env (by decide) eC7 rfl _ (decOf p len) ?_ hip hm hv rfl rfl hnz
    intro bytes j hc hj hsub
    subst hj
    have hb' : b = _ := hb.trans (imm_hasN (opW_ok p) _)
    subst hb'
    simp only [callFn, opFn, opMovMIX, bind_apply, parseModRMX_rm hc env (opW_ne8 p) h hp hd hsub.left, resbind_ok,
      withW_op (p := p) _ _ (opState _ _ _) rfl, fetchN hc env p (opW p) _ (opW_div p) hl hsub.right,
      List.length_append, ← hl, ← Nat.add_assoc]
    exact writeLoc_op p _ env hd _
  | ri8 r i =>
    refine step_falls hat env (movReg_entry r).2.1 (movReg_entry r).1.1 rfl _ (decOf p len) ?_ hip hm hv rfl rfl hnz
    intro bytes j hc hj hsub
    subst hj
    have hb' : b = i := hb.trans (imm_has8 i)
    subst hb'
    simp only [callFn, opFn, opMovRegB, bind_apply, fetch8 hc env p _ hsub.head, resbind_ok, regB_eq s]
    exact writeLoc_op p _ env hd b
  | ri r l hl =>
    refine step_falls hat env (movReg_entry r).2.2.1 (movReg_entry r).1.2.1 rfl _ (decOf p len) ?_ hip hm hv rfl rfl hnz
    intro bytes j hc hj hsub
    subst hj
    have hb' : b = _ := hb.trans (imm_hasN (opW_ok p) _)
    subst hb'
    simp only [callFn, opFn, opMovReg, bind_apply, withW_op (p := p) _ _ (opState _ _ _) rfl,
      fetchN hc env p (opW p) _ (opW_div p) hl hsub, resbind_ok]
    rw [← hl]
    exact writeLoc_op (dst := .reg r) p _ env hd _
  | am8 hm2 =>
    refine step_falls hat env (by decide) eA0 rfl _ (decOf p len) ?_ hip hm hv rfl rfl hnz
    intro bytes j hc hj hsub
    subst hj
    simp only [callFn, opFn, opMovAMo, bind_apply, getSegment_op, resbind_ok, moffs_ok hc env p _ hm2 hsub]
    rw [readMem_op (Or.inl rfl) hb, resbind_ok, ← put_op]
    rfl
  | am hm2 =>
    refine step_falls hat env (by decide) eA1 rfl _ (decOf p len) ?_ hip hm hv rfl rfl hnz
    intro bytes j hc hj hsub
    subst hj
    simp only [callFn, opFn, opMovAMoX, bind_apply, getSegment_op, resbind_ok, moffs_ok hc env p _ hm2 hsub,
      withW_op (p := p) _ _ (opState _ _ _) rfl]
    rw [readMem_op (opW_ok p) hb, resbind_ok, ← put_op]
    rfl
  | ma8 hm2 =>
    refine step_falls hat env (by decide) eA2 rfl _ (decOf p len) ?_ hip hm hv rfl rfl hnz
    intro bytes j hc hj hsub
    subst hj
    simp only [callFn, opFn, opMovMoA, bind_apply, getSegment_op, resbind_ok, moffs_ok hc env p _ hm2 hsub,
      getReg_apply]
    have : ∀ k, (opState s p k).reg 8 rAX = b := fun _ => hb.symm
    rw [this]
    exact hd.writeMem p _ env b
  | ma hm2 =>
    refine step_falls hat env (by decide) eA3 rfl _ (decOf p len) ?_ hip hm hv rfl rfl hnz
    intro bytes j hc hj hsub
    subst hj
    simp only [callFn, opFn, opMovMoAX, bind_apply, getSegment_op, resbind_ok, moffs_ok hc env p _ hm2 hsub,
      withW_op (p := p) _ _ (opState _ _ _) rfl, getReg_apply]
    have : ∀ k, (opState s p k).reg (opW p) rAX = b := fun _ => hb.symm
    rw [this]
    exact hd.writeMem p _ env b

/-! ### XCHG -/

theorem mem_put {s : State} {seg ofs : BitVec 16} {h n : Nat} (he : hostAddr s seg ofs = some h) (x : BitVec n) :
    (Opnd.mem seg ofs).put s n x = { s with host := putHost s.host h x } := by
  simp only [Opnd.put, he]

/-- Bit `i` of register `y` belongs to the operand: its bit number. -/
def Opnd.cover (o : Opnd) (n : Nat) (y : BitVec 3) (i : Nat) : Option Nat :=
  match o with
  | .reg r => if y = r ∧ i < n then some i else none
  | .high r => if y = r ∧ 8 ≤ i ∧ i < 16 then some (i - 8) else none
  | _ => none

theorem mask_bit (i : Nat) (hi : i < 32) : (0xFFFF00FF#32).getLsbD i = !(decide (8 ≤ i ∧ i < 16)) := by
  have : ∀ j : Fin 32, (0xFFFF00FF#32).getLsbD j = !(decide (8 ≤ j.val ∧ j.val < 16)) := by decide +kernel
  exact this ⟨i, hi⟩

theorem put_gpr_bit {s : State} {n : Nat} {o : Opnd} (ho : o.Ok s n) (x : BitVec n) (y : BitVec 3) (i : Nat) (hi : i < 32) :
    ((o.put s n x).gpr y).getLsbD i = match o.cover n y i with
      | some k => x.getLsbD k
      | none => (s.gpr y).getLsbD i := by
  cases o with
  | reg r =>
    simp only [Opnd.put, setGpr_gpr, Opnd.cover]
    by_cases hy : y = r
    · subst hy
      rw [if_pos rfl]
      have := putLow_bit (s.gpr y) x i hi
      simp only [putLow] at this
      rw [this]
      by_cases h : i < n <;> simp [h]
    · simp [hy]
  | high r =>
    have h8 : n = 8 := ho
    subst h8
    simp only [Opnd.put, setGpr_gpr, Opnd.cover]
    by_cases hy : y = r
    · subst hy
      rw [if_pos rfl]
      simp only [BitVec.getLsbD_or, BitVec.getLsbD_and, mask_bit i hi, BitVec.getLsbD_shiftLeft, BitVec.getLsbD_setWidth, hi]
      by_cases h : 8 ≤ i ∧ i < 16
      · have h2 : ¬ i < 8 := by omega
        have h3 : i - 8 < 32 := by omega
        simp [h, h2, h3]
      · simp only [h, and_false, if_false, decide_false, Bool.not_false, Bool.and_true]
        have : (x.getLsbD (i - 8)) = false ∨ i < 8 := by
          by_cases h8 : i < 8
          · exact Or.inr h8
          · exact Or.inl (BitVec.getLsbD_of_ge _ _ (by omega))
        rcases this with h | h <;> simp [h]
    · simp [hy]
  | mem seg ofs =>
    simp only [Opnd.put, Opnd.cover]
    split <;> rfl
  | imm v => rfl

theorem has_bit {s : State} {n : Nat} {o : Opnd} {x : BitVec n} (h : o.Has s n x) {y : BitVec 3} {i k : Nat} (hi : i < 32)
    (hc : o.cover n y i = some k) : (s.gpr y).getLsbD i = x.getLsbD k := by
  cases o with
  | reg r =>
    simp only [Opnd.cover] at hc
    split at hc
    · rename_i h2
      cases hc
      rw [h2.1, show x = (s.gpr r).setWidth n from h]
      simp [h2.2]
    · cases hc
  | high r =>
    obtain ⟨h8, hx⟩ := h
    subst h8
    simp only [Opnd.cover] at hc
    split at hc
    · rename_i h2
      cases hc
      rw [h2.1, hx]
      simp
      rw [show 8 + (i - 8) = i by omega]
      simp [show i - 8 < 8 by omega]
    · cases hc
  | mem seg ofs => cases hc
  | imm v => cases hc

/-- A register operand. -/
def Opnd.isReg (o : Opnd) : Prop := (∃ r, o = .reg r) ∨ ∃ r, o = .high r

theorem regOp_isReg (n : Nat) (r : BitVec 3) : (regOp n r).isReg := by
  simp only [regOp, byteReg, Opnd.isReg]
  repeat' split
  all_goals simp

theorem put_host_isReg {s : State} {n : Nat} {o : Opnd} (h : o.isReg) (x : BitVec n) : (o.put s n x).host = s.host := by
  rcases h with ⟨r, rfl⟩ | ⟨r, rfl⟩ <;> rfl

theorem isReg_has {s : State} {n : Nat} (hn : n = 8 ∨ n = 16 ∨ n = 32) {o : Opnd} (h : o.isReg) (ho : o.Ok s n) {x : BitVec n}
    (hb : ∀ y i k, i < 32 → o.cover n y i = some k → (s.gpr y).getLsbD i = x.getLsbD k) : o.Has s n x := by
  rcases h with ⟨r, rfl⟩ | ⟨r, rfl⟩
  · show x = (s.gpr r).setWidth n
    apply BitVec.eq_of_getLsbD_eq
    intro i hi
    have := hb r i i (by omega) (by simp [Opnd.cover, hi])
    simp [this, hi]
  · have h8 : n = 8 := ho
    subst h8
    refine ⟨rfl, ?_⟩
    apply BitVec.eq_of_getLsbD_eq
    intro i hi
    have := hb r (8 + i) i (by omega) (by simp [Opnd.cover]; omega)
    simp [this, hi]

theorem XchgEnc.width {s : State} {p : Pfx} {n : Nat} {code : List (BitVec 8)} {dst src : Opnd} (h : XchgEnc s p n code dst src) :
    n = 8 ∨ n = 16 ∨ n = 32 := by
  cases h with
  | rm8 h hp => exact Or.inl rfl
  | rm h hp => exact opW_ok p
  | ax r => exact opW_ok p

theorem XchgEnc.dst_reg {s : State} {p : Pfx} {n : Nat} {code : List (BitVec 8)} {dst src : Opnd} (h : XchgEnc s p n code dst src) :
    dst.isReg ∧ dst.Ok s n := by
  cases h with
  | rm8 h hp => exact ⟨regOp_isReg _ _, regOp_ok s _⟩
  | rm h hp => exact ⟨regOp_isReg _ _, regOp_ok s _⟩
  | ax r => exact ⟨Or.inl ⟨_, rfl⟩, trivial⟩

theorem XchgEnc.src_no_imm {s : State} {p : Pfx} {n : Nat} {code : List (BitVec 8)} {dst src : Opnd} (h : XchgEnc s p n code dst src) :
    ∀ v, src ≠ .imm v := by
  cases h with
  | rm8 h hp => exact h.no_imm
  | rm h hp => exact h.no_imm
  | ax r => intro v h; cases h

theorem xchgLoc_ok {s : State} (p : Pfx) (j : Nat) (env : Env) {n : Nat} (hn : n = 8 ∨ n = 16 ∨ n = 32) {dst src : Opnd}
    (hd : dst.Ok s n) (hs : src.Ok s n) {a b : BitVec n} (ha : dst.Has s n a) (hb : src.Has s n b) :
    xchgLoc n (locOf s dst) (locOf s src) env (opState s p j) =
      .ok () { src.put (dst.put s n b) n a with dec := decOf p j, instrNum := s.instrNum + 1 } := by
  simp only [xchgLoc, bind_apply, readLoc_has (Agree.op s p j) env hn hd ha, readLoc_has (Agree.op s p j) env hn hs hb, resbind_ok]
  rw [writeLoc_put (s := s) (t := opState s p j) rfl rfl env hd b, resbind_ok,
    writeLoc_put (s := s) (t := dst.put (opState s p j) n b) (put_map ..) (put_valid ..) env hs a, put_op]
  have := put_with (dst.put s n b) n src a (dst.put s n b).flags (dst.put s n b).ip (s.instrNum + 1) (decOf p j) (dst.put s n b).lastNull
  rw [this]
  rw [← put_flags (dst.put s n b) n src a, ← put_ip (dst.put s n b) n src a, ← put_lastNull (dst.put s n b) n src a]

/-- C40: every encoding of XCHG stores the old value of each operand into the other one; nothing else changes, no flag in
particular. -/
theorem C40_xchg {s : State} {h0 : Nat} {p : Pfx} {code : List (BitVec 8)} {len n : Nat} {dst src : Opnd}
    (hat : At s h0 p code len) (henc : XchgEnc s p n code dst src) (env : Env) {a b : BitVec n}
    (ha : dst.Has s n a) (hb : src.Has s n b) (hnz : NotZeroed (src.put (dst.put s n b) n a) h0 len) :
    Falls env s len (src.put (dst.put s n b) n a) := by
  have hip : (src.put (dst.put s n b) n a).ip = s.ip := by rw [put_ip, put_ip]
  have hm : (src.put (dst.put s n b) n a).map = s.map := by rw [put_map, put_map]
  have hv : (src.put (dst.put s n b) n a).valid = s.valid := by rw [put_valid, put_valid]
  have hdok := henc.dst_reg.2
  have hsok := hb.ok henc.src_no_imm
  cases henc with
  | rm8 h hp =>
    refine step_falls hat env (by decide) (e := ⟨.base .xchgRM, 0, false⟩) (by decide +kernel) rfl _ (decOf p len) ?_ hip hm hv rfl rfl hnz
    intro bytes j hc hj hsub
    subst hj
    simp only [callFn, opFn, opXchgRM, bind_apply, parseModRM_rm hc env h hp hsok hsub, resbind_ok]
    exact xchgLoc_ok p _ env (Or.inl rfl) hdok hsok ha hb
  | rm h hp =>
    refine step_falls hat env (by decide) (e := ⟨.base .xchgRMX, 0, false⟩) (by decide +kernel) rfl _ (decOf p len) ?_ hip hm hv rfl rfl hnz
    intro bytes j hc hj hsub
    subst hj
    simp only [callFn, opFn, opXchgRMX, bind_apply, parseModRMX_rm hc env (opW_ne8 p) h hp hsok hsub,
      resbind_ok, withW_op (p := p) _ _ (opState _ _ _) rfl, ← regOp_wide_loc s p]
    exact xchgLoc_ok p _ env (opW_ok p) hdok hsok ha hb
  | ax r =>
    refine step_falls hat env (movReg_entry r).2.2.2.1 (movReg_entry r).1.2.2 rfl _ (decOf p len) ?_ hip hm hv rfl rfl hnz
    intro bytes j hc hj hsub
    subst hj
    simp only [callFn, opFn, opXchgReg, ite_apply]
    by_cases hr : r = 0
    · subst hr
      rw [if_pos rfl]
      have hab : a = b := ha.trans hb.symm
      subst hab
      rw [put_self (opW_ok p) ha, put_self (opW_ok p) ha]
      rfl
    · rw [if_neg hr, withW_op (p := p) _ _ (opState _ _ _) rfl]
      exact xchgLoc_ok (dst := .reg 0) (src := .reg r) p _ env (opW_ok p) trivial trivial ha hb

theorem cover_inj {o o' : Opnd} {n : Nat} {s : State} (ho : o.Ok s n) (ho' : o'.Ok s n) {y : BitVec 3} {i k k' : Nat} (h : o.cover n y i = some k)
    (h' : o'.cover n y i = some k') : o = o' := by
  cases o with
  | mem => cases h
  | imm => cases h
  | reg r =>
    simp only [Opnd.cover] at h
    split at h <;> cases h
    rename_i c
    cases o' with
    | mem => cases h'
    | imm => cases h'
    | reg r' =>
      simp only [Opnd.cover] at h'
      split at h' <;> cases h'
      rename_i c'
      rw [← c.1, ← c'.1]
    | high r' =>
      simp only [Opnd.cover] at h'
      split at h' <;> cases h'
      rename_i c'
      have h8 : n = 8 := ho'
      omega
  | high r =>
    simp only [Opnd.cover] at h
    split at h <;> cases h
    rename_i c
    have h8 : n = 8 := ho
    cases o' with
    | mem => cases h'
    | imm => cases h'
    | reg r' =>
      simp only [Opnd.cover] at h'
      split at h' <;> cases h'
      rename_i c'
      omega
    | high r' =>
      simp only [Opnd.cover] at h'
      split at h' <;> cases h'
      rename_i c'
      rw [← c.1, ← c'.1]

theorem has_unique {s : State} {n : Nat} (hn : n = 8 ∨ n = 16 ∨ n = 32) {o : Opnd} {a b : BitVec n} (ha : o.Has s n a) (hb : o.Has s n b) : a = b := by
  cases o with
  | reg r => exact ha.trans hb.symm
  | high r => exact ha.2.trans hb.2.symm
  | mem seg ofs =>
    obtain ⟨h, h1, h2⟩ := ha
    obtain ⟨h', h1', h2'⟩ := hb
    have : h = h' := by have := h1.1.symm.trans h1'.1; simpa using this
    subst this
    rw [← valAt_holds (by omega) h2, ← valAt_holds (by omega) h2']
  | imm v => exact ha.trans hb.symm

/-- C40: the values are swapped: in the state of `C40_xchg` the destination has the old value of the source and vice versa. -/
theorem C40_swapped {s : State} {p : Pfx} {code : List (BitVec 8)} {n : Nat} {dst src : Opnd}
    (henc : XchgEnc s p n code dst src) {a b : BitVec n} (ha : dst.Has s n a) (hb : src.Has s n b) :
    dst.Has (src.put (dst.put s n b) n a) n b ∧ src.Has (src.put (dst.put s n b) n a) n a := by
  have hn := henc.width
  have hsok := hb.ok henc.src_no_imm
  have hsok' : src.Ok (dst.put s n b) n := Ok_congr (put_map ..) (put_valid ..) hsok
  refine ⟨isReg_has hn henc.dst_reg.1 ?_ ?_, put_has hn hsok' a⟩
  · exact Ok_congr (by rw [put_map, put_map]) (by rw [put_valid, put_valid]) henc.dst_reg.2
  · intro y i k hi hc
    rw [put_gpr_bit hsok' a y i hi]
    cases hs : src.cover n y i with
    | none => simp only []; rw [put_gpr_bit henc.dst_reg.2 b y i hi, hc]
    | some k' =>
      have := cover_inj henc.dst_reg.2 hsok hc hs
      subst this
      have := has_unique hn ha hb
      subst this
      rw [hc] at hs; cases hs; rfl

/-- C40: XCHG applied twice to the same operands (by any encodings) is the identity on registers, memory, segments and flags. -/
theorem C40_xchg_twice {s : State} {h0 h1 : Nat} {p p2 : Pfx} {code code2 : List (BitVec 8)} {len len2 n : Nat} {dst src : Opnd}
    (hat : At s h0 p code len) (henc : XchgEnc s p n code dst src) (env : Env) {a b : BitVec n}
    (ha : dst.Has s n a) (hb : src.Has s n b) (hnz : NotZeroed (src.put (dst.put s n b) n a) h0 len)
    (hat2 : ∀ d, At (movedTo (src.put (dst.put s n b) n a) (s.ip + BitVec.ofNat 16 len) d) h1 p2 code2 len2 ∧
      XchgEnc (movedTo (src.put (dst.put s n b) n a) (s.ip + BitVec.ofNat 16 len) d) p2 n code2 dst src)
    (hnz2 : NotZeroed s h1 len2) :
    ∃ u, Iter env 2 s u ∧ u.gpr = s.gpr ∧ u.host = s.host ∧ u.sreg = s.sreg ∧ u.flags = s.flags ∧
      u.ip = s.ip + BitVec.ofNat 16 len + BitVec.ofNat 16 len2 := by
  have hn := henc.width
  have hsok := hb.ok henc.src_no_imm
  obtain ⟨d, hd⟩ := C40_xchg hat henc env ha hb hnz
  have hsw := C40_swapped henc ha hb
  generalize ht : src.put (dst.put s n b) n a = t at *
  have htm : t.map = s.map := by rw [← ht, put_map, put_map]
  have htv : t.valid = s.valid := by rw [← ht, put_valid, put_valid]
  have hat2 : At { t with ip := s.ip + BitVec.ofNat 16 len, instrNum := s.instrNum + 1, dec := d, lastNull := false } h1 p2 code2 len2 ∧
      XchgEnc { t with ip := s.ip + BitVec.ofNat 16 len, instrNum := s.instrNum + 1, dec := d, lastNull := false } p2 n code2 dst src := by
    have := hat2 d
    simp only [movedTo, show t.instrNum = s.instrNum by rw [← ht, put_instrNum, put_instrNum]] at this
    exact this
  have hcongr : ∀ (o : Opnd) (x : BitVec n), o.Has t n x →
      o.Has { t with ip := s.ip + BitVec.ofNat 16 len, instrNum := s.instrNum + 1, dec := d, lastNull := false } n x := by
    intro o x h; cases o <;> exact h
  have hdt : dst.Ok t n := Ok_congr htm htv henc.dst_reg.2
  have hst : src.Ok (dst.put t n a) n := Ok_congr (by rw [put_map, htm]) (by rw [put_valid, htv]) hsok
  -- the registers and memory after the second exchange
  have hg : (src.put (dst.put t n a) n b).gpr = s.gpr := by
    funext y
    apply BitVec.eq_of_getLsbD_eq
    intro i hi
    rw [put_gpr_bit hst b y i hi]
    cases hs : src.cover n y i with
    | some k => exact (has_bit hb hi hs).symm
    | none =>
      simp only []
      rw [put_gpr_bit hdt a y i hi]
      cases hs2 : dst.cover n y i with
      | some k => exact (has_bit ha hi hs2).symm
      | none =>
        simp only []
        rw [← ht, put_gpr_bit (Ok_congr (put_map ..) (put_valid ..) hsok) a y i hi, hs]
        simp only []
        rw [put_gpr_bit henc.dst_reg.2 b y i hi, hs2]
  have hh : (src.put (dst.put t n a) n b).host = s.host := by
    cases src with
    | reg r =>
      show (dst.put t n a).host = _
      rw [put_host_isReg henc.dst_reg.1, ← ht]
      show (dst.put s n b).host = _
      rw [put_host_isReg henc.dst_reg.1]
    | high r =>
      show (dst.put t n a).host = _
      rw [put_host_isReg henc.dst_reg.1, ← ht]
      show (dst.put s n b).host = _
      rw [put_host_isReg henc.dst_reg.1]
    | imm v => exact absurd rfl (henc.src_no_imm v)
    | mem seg ofs =>
      obtain ⟨h, hmap, hho⟩ := hb
      have e1 : hostAddr (dst.put t n a) seg ofs = some h := by
        rw [hostAddr_map (s := s) (by rw [put_map, htm])]; exact hmap.1
      have e2 : hostAddr (dst.put s n b) seg ofs = some h := by
        rw [hostAddr_map (s := s) (put_map ..)]; exact hmap.1
      rw [mem_put e2] at ht
      rw [mem_put e1]
      show putHost (dst.put t n a).host h b = s.host
      rw [put_host_isReg henc.dst_reg.1, ← ht]
      show putHost (putHost (dst.put s n b).host h a) h b = _
      rw [putHost_putHost, put_host_isReg henc.dst_reg.1]
      funext x
      simp only [putHost]
      split
      · rename_i hx
        have := hho (x - h) (by omega)
        rw [show h + (x - h) = x by omega] at this
        exact this.symm
      · rfl
  have hfin := put_with t n dst a t.flags (s.ip + BitVec.ofNat 16 len) (s.instrNum + 1) d false
  have hfin2 := put_with (dst.put t n a) n src b t.flags (s.ip + BitVec.ofNat 16 len) (s.instrNum + 1) d false
  have hE : src.put (dst.put { t with ip := s.ip + BitVec.ofNat 16 len, instrNum := s.instrNum + 1, dec := d, lastNull := false } n a) n b =
      { src.put (dst.put t n a) n b with flags := t.flags, ip := s.ip + BitVec.ofNat 16 len, instrNum := s.instrNum + 1, dec := d, lastNull := false } := by
    rw [← hfin2, ← hfin]
  obtain ⟨d2, hd2⟩ := C40_xchg hat2.1 hat2.2 env (hcongr _ _ hsw.1) (hcongr _ _ hsw.2) (by
    rw [hE]; intro h2; have := hnz2 h2; rw [← hh] at this; exact this)
  refine ⟨_, .succ hd (.succ hd2 (.zero _)), ?_, ?_, ?_, ?_, rfl⟩
  · rw [hE]; exact hg
  · rw [hE]; exact hh
  · rw [hE]
    show (src.put (dst.put t n a) n b).sreg = _
    rw [put_sreg, put_sreg, ← ht, put_sreg, put_sreg]
  · rw [hE]
    show t.flags = _
    rw [← ht, put_flags, put_flags]

instance (s : State) (h0 : Nat) (bytes : List (BitVec 8)) : Decidable (CodeAt s h0 bytes) :=
  inferInstanceAs (Decidable (∀ i, (hi : i < bytes.length) → _))

theorem at_moved {t : State} {ip : BitVec 16} {d : Decoder} {h0 : Nat} {code : List (BitVec 8)} (hc : CodeAt { t with ip := ip } h0 code)
    (h1 : ¬ (ip = 0xFFFF ∧ t.sreg .cs = 0xFFFF)) (h2 : ¬ (t.sreg .cs = 0xB800 ∧ ip.toNat < 0x100)) (h3 : t.instrNum + 1 ≠ 2147483647) :
    At (movedTo t ip d) h0 {} code code.length :=
  ⟨⟨h1, h2, h3⟩, [], rfl, hc, by simp⟩

theorem plain_moved {t : State} {ip : BitVec 16} {d : Decoder} {p : Pfx} {n : Nat} {rm : List (BitVec 8)} (h : Plain t p n rm) :
    Plain (movedTo t ip d) p n rm := by
  cases rm <;> exact h

/-- XCHG BX,[SI] twice (87 1C 87 1C). -/
example : ∃ (s : State) (p : Pfx) (code : List (BitVec 8)) (dst src : Opnd) (a b : BitVec 16) (env : Env),
    At s 0x10100 p code 2 ∧ XchgEnc s p 16 code dst src ∧ dst.Has s 16 a ∧ src.Has s 16 b ∧ a ≠ b ∧
    NotZeroed (src.put (dst.put s 16 b) 16 a) 0x10100 2 ∧ NotZeroed s 0x10102 2 ∧
    (∀ d, At (movedTo (src.put (dst.put s 16 b) 16 a) (s.ip + 2) d) 0x10102 p code 2 ∧
      XchgEnc (movedTo (src.put (dst.put s 16 b) 16 a) (s.ip + 2) d) p 16 code dst src) ∧ env.nullCheck = false := by
  let s := demo [0x87, 0x1C, 0x87, 0x1C]
  have hat : At s 0x10100 {} [0x87, 0x1C] 2 := ⟨demo_ready _, [], rfl, by decide +kernel, rfl⟩
  have h : RM s {} 16 [0x1C] 3 (.mem 0x3000 0x200) := RM.mem 0x1C [] (by decide) rfl (by decide)
  have hm : (Opnd.mem 0x3000 0x200).Has s 16 (0 : BitVec 16) := ⟨0x30200, by decide +kernel, by decide +kernel⟩
  refine ⟨s, {}, _, .reg 3, .mem 0x3000 0x200, 0x10, 0, demoEnv, hat,
    XchgEnc.rm (p := {}) h (fun _ => ⟨by decide, by decide, by decide⟩), rfl, hm, by decide, ?_, ?_, fun d => ⟨?_, ?_⟩, rfl⟩
  · intro _; decide +kernel
  · intro _; decide +kernel
  · exact at_moved (by decide +kernel) (by decide +kernel) (by decide +kernel) (by decide +kernel)
  · exact XchgEnc.rm (p := {}) (RM.mem (p := {}) 0x1C [] (by decide) rfl (by decide)) (plain_moved (fun _ => ⟨by decide +kernel, by decide, by decide +kernel⟩))

/-! ### Store, then load; segment registers -/

theorem MovEnc.width {s : State} {p : Pfx} {n : Nat} {code : List (BitVec 8)} {dst src : Opnd} (h : MovEnc s p n code dst src) :
    n = 8 ∨ n = 16 ∨ n = 32 := by
  cases h <;> first | exact Or.inl rfl | exact opW_ok p

/-- C40: a value stored by MOV into a memory (or register) operand `o` and then loaded from `o` by MOV arrives unchanged. -/
theorem C40_store_load {s : State} {h0 h1 : Nat} {p p2 : Pfx} {code code2 : List (BitVec 8)} {len len2 n : Nat} {o src dst : Opnd}
    (hat : At s h0 p code len) (henc : MovEnc s p n code o src) (env : Env) {b : BitVec n}
    (ho : o.Ok s n) (hd : dst.Ok s n) (hb : src.Has s n b) (hnz : NotZeroed (o.put s n b) h0 len)
    (hat2 : ∀ d, At (movedTo (o.put s n b) (s.ip + BitVec.ofNat 16 len) d) h1 p2 code2 len2 ∧
      MovEnc (movedTo (o.put s n b) (s.ip + BitVec.ofNat 16 len) d) p2 n code2 dst o)
    (hnz2 : NotZeroed (dst.put (o.put s n b) n b) h1 len2) :
    ∃ u, Iter env 2 s u ∧ dst.Has u n b ∧ u.flags = s.flags ∧ u.ip = s.ip + BitVec.ofNat 16 len + BitVec.ofNat 16 len2 := by
  have hn := henc.width
  obtain ⟨d, h1⟩ := C40_mov hat henc env ho hb hnz
  obtain ⟨hat2, henc2⟩ := hat2 d
  have hi : (o.put s n b).instrNum = s.instrNum := put_instrNum ..
  have hst : movedTo (o.put s n b) (s.ip + BitVec.ofNat 16 len) d =
    { (o.put s n b) with ip := s.ip + BitVec.ofNat 16 len, instrNum := s.instrNum + 1, dec := d, lastNull := false } := by
    simp only [movedTo, hi]
  have hbo : o.Has (movedTo (o.put s n b) (s.ip + BitVec.ofNat 16 len) d) n b := by
    have := put_has hn ho b
    generalize o.put s n b = t at *
    cases o <;> exact this
  have hdo : dst.Ok (movedTo (o.put s n b) (s.ip + BitVec.ofNat 16 len) d) n :=
    Ok_congr (t := movedTo (o.put s n b) (s.ip + BitVec.ofNat 16 len) d) (s := s) (put_map ..) (put_valid ..) hd
  have hpw := put_with (o.put s n b) n dst b (o.put s n b).flags (s.ip + BitVec.ofNat 16 len) ((o.put s n b).instrNum + 1) d false
  have hpw' : dst.put (movedTo (o.put s n b) (s.ip + BitVec.ofNat 16 len) d) n b =
      { (dst.put (o.put s n b) n b) with
        flags := (o.put s n b).flags, ip := s.ip + BitVec.ofNat 16 len,
        instrNum := (o.put s n b).instrNum + 1, dec := d, lastNull := false } := hpw
  obtain ⟨d2, h2⟩ := C40_mov hat2 henc2 env hdo hbo (by rw [hpw']; exact hnz2)
  rw [← hst] at h1
  refine ⟨_, .succ h1 (.succ h2 (.zero _)), ?_, ?_, rfl⟩
  · have := put_has hn hdo b
    generalize dst.put (movedTo (o.put s n b) (s.ip + BitVec.ofNat 16 len) d) n b = t at *
    cases dst <;> exact this
  · show (dst.put (movedTo (o.put s n b) (s.ip + BitVec.ofNat 16 len) d) n b).flags = _
    rw [put_flags]
    exact put_flags ..

theorem peek_ok {s : State} {h0 : Nat} {bytes : List (BitVec 8)} (h : CodeAt s h0 bytes) (env : Env)
    (p : Pfx) (j : Nat) {b : BitVec 8} (hb : bytes[j]? = some b) :
    peekInstr8 env (opState s p j) = .ok b (opState s p j) := by
  simp only [peekInstr8, bind_apply, fetch8 h env p j hb, resbind_ok]
  rfl

theorem segOf_num {k : BitVec 3} {sr : SReg} (h : segNum k = some sr) (env : Env) (s : State) : segOf k env s = .ok sr s := by
  revert h
  revert k
  have : ∀ k : BitVec 3, segNum k = some sr → segOf k = pure sr := by
    intro k h
    unfold segNum at h
    unfold segOf
    repeat' split at h
    all_goals first | (cases h; done) | (cases h; simp_all; done) | skip
  intro k h
  rw [this k h]; rfl

/-- C40: MOV Sreg, r/m16 loads the named segment register and changes nothing else. -/
theorem C40_mov_to_sreg {s : State} {h0 : Nat} {p : Pfx} {rm : List (BitVec 8)} {len : Nat} {o : Opnd} {k : BitVec 3} {sr : SReg}
    (hat : At s h0 p (0x8E :: rm) len) (hop : p.oper = false) (h : RM s p 16 rm k o) (hp : Plain s p 16 rm) (hk : segNum k = some sr)
    (env : Env) {v : BitVec 16} (hv : o.Has s 16 v) : Falls env s len (s.setSreg sr v) := by
  refine step_falls hat env (by decide) (e := ⟨.base .movSR, 0, false⟩) (by decide +kernel) rfl _ (decOf p len) ?_ rfl rfl rfl rfl rfl
    (notZeroed_same hat (by decide) rfl)
  intro bytes j hc hj hsub
  subst hj
  obtain ⟨m, tl, h1, h2⟩ := h.head
  have hm : bytes[j]? = some m := by subst h1; exact hsub.head
  have hd : (opState s p j).dec.ovrOper = false := hop
  have hk' : segNum ((m >>> 3).setWidth 3) = some sr := by rw [regOf_eq, ← h2]; exact hk
  simp only [callFn, opFn, opMovSR, bind_apply, getDec_apply, resbind_ok, hd, guardE_false, peek_ok hc env p j hm, segOf_num hk',
    parseModRMX_rm hc env (by decide) h hp (hv.ok h.no_imm) hsub, readLoc_has (Agree.op s p _) env (Or.inr (Or.inl rfl)) (hv.ok h.no_imm) hv]
  rfl

/-- C40: MOV r/m16, Sreg stores the named segment register and changes nothing else. -/
theorem C40_mov_from_sreg {s : State} {h0 : Nat} {p : Pfx} {rm : List (BitVec 8)} {len : Nat} {o : Opnd} {k : BitVec 3} {sr : SReg}
    (hat : At s h0 p (0x8C :: rm) len) (hop : p.oper = false) (h : RM s p 16 rm k o) (hp : Plain s p 16 rm) (hk : segNum k = some sr)
    (env : Env) (ho : o.Ok s 16) (hnz : NotZeroed (o.put s 16 (s.sreg sr)) h0 len) :
    Falls env s len (o.put s 16 (s.sreg sr)) := by
  refine step_falls hat env (by decide) (e := ⟨.base .movRS, 0, false⟩) (by decide +kernel) rfl _ (decOf p len) ?_ (put_ip ..) (put_map ..)
    (put_valid ..) rfl rfl hnz
  intro bytes j hc hj hsub
  subst hj
  obtain ⟨m, tl, h1, h2⟩ := h.head
  have hm : bytes[j]? = some m := by subst h1; exact hsub.head
  have hd : (opState s p j).dec.ovrOper = false := hop
  have hk' : segNum ((m >>> 3).setWidth 3) = some sr := by rw [regOf_eq, ← h2]; exact hk
  simp only [callFn, opFn, opMovRS, bind_apply, getDec_apply, resbind_ok, hd, guardE_false, peek_ok hc env p j hm, segOf_num hk',
    parseModRMX_rm hc env (by decide) h hp ho hsub, getSreg_apply]
  exact writeLoc_op p _ env ho _

/-- MOV [BX+2],DX ; MOV AX,[BX+2]: the hypotheses of the store/load theorem are met. -/
example : ∃ (s : State) (o src dst : Opnd) (b : BitVec 16), At s 0x10100 {} [0x89, 0x57, 0x02] 3 ∧ MovEnc s {} 16 [0x89, 0x57, 0x02] o src ∧
    o.Ok s 16 ∧ dst.Ok s 16 ∧ src.Has s 16 b ∧ b ≠ 0 ∧
    (∀ d, At (movedTo (o.put s 16 b) (s.ip + 3) d) 0x10103 {} [0x8B, 0x47, 0x02] 3 ∧
      MovEnc (movedTo (o.put s 16 b) (s.ip + 3) d) {} 16 [0x8B, 0x47, 0x02] dst o) := by
  let s := demo [0x89, 0x57, 0x02, 0x8B, 0x47, 0x02]
  have h : RM s {} 16 [0x57, 0x02] 2 (.mem 0x3000 0x12) := RM.mem 0x57 [0x02] (by decide) rfl (by decide)
  refine ⟨s, .mem 0x3000 0x12, .reg 2, .reg 0, 0x33, ⟨demo_ready _, [], rfl, by decide +kernel, rfl⟩,
    MovEnc.mr (p := {}) h (fun _ => ⟨by decide, by decide, by decide⟩), ⟨0x30012, by decide +kernel⟩, trivial, rfl, by decide, fun d => ⟨?_, ?_⟩⟩
  · exact at_moved (by decide +kernel) (by decide +kernel) (by decide +kernel) (by decide +kernel)
  · exact MovEnc.rm (p := {}) (RM.mem (p := {}) 0x47 [0x02] (by decide) rfl (by decide)) (plain_moved (fun _ => ⟨by decide +kernel, by decide, by decide +kernel⟩))
/-- 67 A1: MOV AX,[00003456h] with a 32-bit offset. -/
example : ∃ (s : State), At s 0x10100 { addr := true } [0xA1, 0x56, 0x34, 0, 0] 6 ∧
    MovEnc s { addr := true } 16 [0xA1, 0x56, 0x34, 0, 0] (.reg 0) (.mem 0x3000 0x3456) :=
  ⟨demo [0x67, 0xA1, 0x56, 0x34, 0, 0], ⟨demo_ready _, [0x67], rfl, by decide +kernel, rfl⟩,
    MovEnc.am (p := { addr := true }) (.w32 [0x56, 0x34, 0, 0] rfl rfl (by decide))⟩
/-- MOV DS, DX and MOV AX, ES. -/
example : ∃ (s : State) (o : Opnd) (v : BitVec 16), At s 0x10100 {} [0x8E, 0xDA] 2 ∧ RM s {} 16 [0xDA] 3 o ∧ segNum 3 = some .ds ∧ o.Has s 16 v ∧ v = 0x33 :=
  ⟨demo [0x8E, 0xDA], .reg 2, 0x33, demo_at _ (by decide), RM.reg 0xDA (by decide), rfl, rfl, rfl⟩
example : ∃ (s : State) (o : Opnd), At s 0x10100 {} [0x8C, 0xC0] 2 ∧ RM s {} 16 [0xC0] 0 o ∧ segNum 0 = some .es ∧ o.Ok s 16 :=
  ⟨demo [0x8C, 0xC0], .reg 0, demo_at _ (by decide), RM.reg 0xC0 (by decide), rfl, trivial⟩

end RME
