import Verif.Props.StringText
import Verif.Spec.RmText
import Verif.Props.Move
set_option autoImplicit false
/-
C95: the operands of instructions with a ModR/M byte as shown in the trace.
-/
namespace RME.Trace

/-! ### The ModR/M operand -/

theorem nameB_shown (s : State) (r : BitVec 3) : OpndShown s 8 (regOp 8 r) (" ".toList ++ nameB r) := by
  have h := nameB_reg r
  unfold IsReg8 at h
  rw [regOp_8, byteReg]
  by_cases hr : r.toNat < 4
  · rw [if_pos hr] at h ⊢
    exact .reg _ _ h
  · rw [if_neg hr] at h ⊢
    exact .high _ _ rfl h

theorem bytes8 (p : Pfx) : p.bytes * 8 ≠ 8 := by simp only [Pfx.bytes]; split <;> decide

theorem nameX_shown (s : State) (p : Pfx) (r : BitVec 3) : OpndShown s (p.bytes * 8) (regOp (p.bytes * 8) r) (" ".toList ++ nameX p.oper r) := by
  rw [regOp_wide (bytes8 p)]
  exact .reg _ _ (nameX_reg p r)

theorem getPtr_same {seg : BitVec 16} {ofs : BitVec 32} {env : Env} {s t : State} {p : Nat} (h : getPtr seg ofs env s = .ok p t) : t = s :=
  (getPtr_state (s := s) s.dec.ipOffset h).1

/-- The memory operand as printed. -/
theorem getMMMT_rm {s : State} {h0 : Nat} {bytes : List (BitVec 8)} (h : CodeAt s h0 bytes) (env : Env)
    {p : Pfx} {n k j : Nat} {rm : List (BitVec 8)} {r : BitVec 3} {seg ofs : BitVec 16} (hrm : RM s p n rm r (.mem seg ofs))
    (hpl : Plain s p k rm) (hs : Sub bytes j rm) :
    ∃ m text, bytes[j]? = some m ∧ r = regOf m ∧ (ModRM.ofByte m).mod ≠ 3 ∧
      getMMMT (ModRM.ofByte m) env (opState s p (j + 1)) = .ok ((seg, ofs.setWidth 32), text) (opState s p (j + rm.length)) ∧
      readMemText s text = some (seg, ofs.setWidth 32) := by
  obtain ⟨m, h1, h2, h3, h4, _⟩ := getMMM_rm h env hrm hpl hs
  have hsay := getMMM_says (ModRM.ofByte m) env (opState s p (j + 1))
  rw [h4] at hsay
  cases h5 : getMMMT (ModRM.ofByte m) env (opState s p (j + 1)) with
  | err e t => rw [h5] at hsay; cases hsay.1
  | ub u => rw [h5] at hsay; cases hsay.1
  | ok x t =>
    obtain ⟨x, text⟩ := x
    rw [h5] at hsay
    obtain ⟨e, hq⟩ := hsay
    cases e
    exact ⟨m, text, h1, h2, h3, h5, MemText.regsOnly s (opState s p (j + 1)) _ _ rfl rfl (hq _ _ _ rfl).1⟩

/-- The r/m operand as printed, byte and word instructions. -/
theorem decodeModMT_rm {s : State} {h0 : Nat} {bytes : List (BitVec 8)} (h : CodeAt s h0 bytes) (env : Env)
    {p : Pfx} {j : Nat} {rm : List (BitVec 8)} {r : BitVec 3} {o : Opnd} (hrm : RM s p 8 rm r o) (hpl : Plain s p 8 rm) (hs : Sub bytes j rm) :
    ∃ m, bytes[j]? = some m ∧ r = regOf m ∧ ∀ l x t, decodeModMT (ModRM.ofByte m) env (opState s p (j + 1)) = .ok (l, x) t →
      OpndShown s 8 o x ∧ t = opState s p (j + rm.length) := by
  rcases hrm.elim with ⟨m, hm, rfl, rfl, rfl⟩ | ⟨seg, ofs, rfl⟩
  · refine ⟨m, hs.head, rfl, fun l x t hx => ?_⟩
    rw [decodeModMT, if_pos (by rw [ofByte_mod, hm]; rfl)] at hx
    cases hx
    rw [ofByte_mmm]
    exact ⟨nameB_shown s _, rfl⟩
  · obtain ⟨m, text, h1, h2, h3, h4, h5⟩ := getMMMT_rm h env hrm hpl hs
    refine ⟨m, h1, h2, fun l x t hx => ?_⟩
    rw [decodeModMT, if_neg h3] at hx
    simp only [bind_apply, h4, resbind_ok] at hx
    cases hp : getPtr seg (ofs.setWidth 32) env (opState s p (j + rm.length)) with
    | err e t => rw [hp] at hx; cases hx
    | ub u => rw [hp] at hx; cases hx
    | ok q v =>
      have := getPtr_same hp
      rw [hp] at hx
      cases hx
      exact ⟨.mem _ _ _ h5, this⟩

theorem decodeModMXT_rm {s : State} {h0 : Nat} {bytes : List (BitVec 8)} (h : CodeAt s h0 bytes) (env : Env)
    {p : Pfx} {j : Nat} {rm : List (BitVec 8)} {r : BitVec 3} {o : Opnd} (hrm : RM s p (p.bytes * 8) rm r o) (hpl : Plain s p (p.bytes * 8) rm) (hs : Sub bytes j rm) :
    ∃ m, bytes[j]? = some m ∧ r = regOf m ∧ ∀ l x t, decodeModMXT (ModRM.ofByte m) env (opState s p (j + 1)) = .ok (l, x) t →
      OpndShown s (p.bytes * 8) o x ∧ t = opState s p (j + rm.length) := by
  rcases hrm.elim with ⟨m, hm, rfl, rfl, rfl⟩ | ⟨seg, ofs, rfl⟩
  · refine ⟨m, hs.head, rfl, fun l x t hx => ?_⟩
    rw [decodeModMXT, if_pos (by rw [ofByte_mod, hm]; rfl)] at hx
    cases hx
    rw [ofByte_mmm]
    exact ⟨nameX_shown s p _, rfl⟩
  · obtain ⟨m, text, h1, h2, h3, h4, h5⟩ := getMMMT_rm h env hrm hpl hs
    refine ⟨m, h1, h2, fun l x t hx => ?_⟩
    rw [decodeModMXT, if_neg h3] at hx
    simp only [bind_apply, h4, resbind_ok, guardE_apply] at hx
    split at hx
    · cases hx
    simp only [resbind_ok] at hx
    cases hp : getPtr seg (ofs.setWidth 32) env (opState s p (j + rm.length)) with
    | err e t => rw [hp] at hx; cases hx
    | ub u => rw [hp] at hx; cases hx
    | ok q v =>
      have := getPtr_same hp
      rw [hp] at hx
      cases hx
      exact ⟨.mem _ _ _ h5, this⟩

/-! ### The text of the opcode functions -/

theorem mB_text {s : State} {h0 : Nat} {bytes : List (BitVec 8)} (h : CodeAt s h0 bytes) (env : Env)
    {p : Pfx} {j : Nat} {rm : List (BitVec 8)} {r : BitVec 3} {o : Opnd} (hrm : RM s p 8 rm r o) (hpl : Plain s p 8 rm) (hs : Sub bytes j rm)
    {k : Loc → M (List Char)} {c : List Char} (hk : ∀ l, Tx (k l) env (opState s p (j + rm.length)) c) {x : List Char} {t : State} (hx : mB k env (opState s p j) = .ok x t) :
    ∃ a, OpndShown s 8 o a ∧ x = a ++ c := by
  obtain ⟨m, h1, h2, h3⟩ := decodeModMT_rm h env hrm hpl hs
  simp only [mB, getModRM, bind_apply, fetch8 h env p j h1, resbind_ok, pure_apply] at hx
  cases h4 : decodeModMT (ModRM.ofByte m) env (opState s p (j + 1)) with
  | err e t => rw [h4] at hx; cases hx
  | ub u => rw [h4] at hx; cases hx
  | ok y v =>
    obtain ⟨ha, rfl⟩ := h3 _ _ _ h4
    rw [h4] at hx
    exact ⟨_, ha, Tx.say (hk y.1) x t hx⟩

theorem mX_text {s : State} {h0 : Nat} {bytes : List (BitVec 8)} (h : CodeAt s h0 bytes) (env : Env)
    {p : Pfx} {j : Nat} {rm : List (BitVec 8)} {r : BitVec 3} {o : Opnd} (hrm : RM s p (p.bytes * 8) rm r o) (hpl : Plain s p (p.bytes * 8) rm) (hs : Sub bytes j rm)
    {k : Loc → M (List Char)} {c : List Char} (hk : ∀ l, Tx (k l) env (opState s p (j + rm.length)) c) {x : List Char} {t : State} (hx : mX k env (opState s p j) = .ok x t) :
    ∃ a, OpndShown s (p.bytes * 8) o a ∧ x = a ++ c := by
  obtain ⟨m, h1, h2, h3⟩ := decodeModMXT_rm h env hrm hpl hs
  simp only [mX, getModRM, bind_apply, fetch8 h env p j h1, resbind_ok, pure_apply] at hx
  cases h4 : decodeModMXT (ModRM.ofByte m) env (opState s p (j + 1)) with
  | err e t => rw [h4] at hx; cases hx
  | ub u => rw [h4] at hx; cases hx
  | ok y v =>
    obtain ⟨ha, rfl⟩ := h3 _ _ _ h4
    rw [h4] at hx
    exact ⟨_, ha, Tx.say (hk y.1) x t hx⟩

theorem rmB_text {s : State} {h0 : Nat} {bytes : List (BitVec 8)} (h : CodeAt s h0 bytes) (env : Env)
    {p : Pfx} {j : Nat} {rm : List (BitVec 8)} {r : BitVec 3} {o : Opnd} (hrm : RM s p 8 rm r o) (hpl : Plain s p 8 rm) (hs : Sub bytes j rm) {rev : Bool}
    {k : Loc → Loc → M (List Char)} {c : List Char} (hk : ∀ l m, Tx (k l m) env (opState s p (j + rm.length)) c) {x : List Char} {t : State} (hx : rmB rev k env (opState s p j) = .ok x t) :
    ∃ a b, OpndShown s 8 o a ∧ OpndShown s 8 (regOp 8 r) b ∧ x = (if rev then a ++ b else b ++ a) ++ c := by
  obtain ⟨m, h1, h2, h3⟩ := decodeModMT_rm h env hrm hpl hs
  simp only [rmB, parseModRMT, getModRM, bind_apply, fetch8 h env p j h1, resbind_ok, pure_apply] at hx
  cases h4 : decodeModMT (ModRM.ofByte m) env (opState s p (j + 1)) with
  | err e t => rw [h4] at hx; cases hx
  | ub u => rw [h4] at hx; cases hx
  | ok y v =>
    obtain ⟨l, tx⟩ := y
    obtain ⟨ha, rfl⟩ := h3 _ _ _ h4
    rw [h4] at hx
    refine ⟨_, _, ha, nameB_shown s r, ?_⟩
    rw [h2, ← ofByte_rrr]
    exact Tx.say (hk _ _) x t hx

theorem rmX_text {s : State} {h0 : Nat} {bytes : List (BitVec 8)} (h : CodeAt s h0 bytes) (env : Env)
    {p : Pfx} {j : Nat} {rm : List (BitVec 8)} {r : BitVec 3} {o : Opnd} (hrm : RM s p (p.bytes * 8) rm r o) (hpl : Plain s p (p.bytes * 8) rm) (hs : Sub bytes j rm) {rev : Bool}
    {k : Loc → Loc → M (List Char)} {c : List Char} (hk : ∀ l m, Tx (k l m) env (opState s p (j + rm.length)) c) {x : List Char} {t : State} (hx : rmX rev k env (opState s p j) = .ok x t) :
    ∃ a b, OpndShown s (p.bytes * 8) o a ∧ OpndShown s (p.bytes * 8) (regOp (p.bytes * 8) r) b ∧ x = (if rev then a ++ b else b ++ a) ++ c := by
  obtain ⟨m, h1, h2, h3⟩ := decodeModMXT_rm h env hrm hpl hs
  simp only [rmX, parseModRMXT, getModRM, bind_apply, fetch8 h env p j h1, resbind_ok, pure_apply] at hx
  cases h4 : decodeModMXT (ModRM.ofByte m) env (opState s p (j + 1)) with
  | err e t => rw [h4] at hx; cases hx
  | ub u => rw [h4] at hx; cases hx
  | ok y v =>
    obtain ⟨l, tx⟩ := y
    obtain ⟨ha, rfl⟩ := h3 _ _ _ h4
    rw [h4] at hx
    refine ⟨_, _, ha, nameX_shown s p r, ?_⟩
    rw [h2, ← ofByte_rrr]
    exact Tx.say (hk _ _) x t hx

/-- Width and operands of an opcode function (`p`: its parameter). -/
def textKind : Op → BitVec 3 → Option (Bool × RmForm)
  | .alu _ .MR, _ | .testMR, _ | .movMR, _ => some (false, .mr)
  | .alu _ .MRX, _ | .testMRX, _ | .movMRX, _ => some (true, .mr)
  | .alu _ .RM, _ | .xchgRM, _ | .movRM, _ => some (false, .rm)
  | .alu _ .RMX, _ | .xchgRMX, _ | .movRMX, _ => some (true, .rm)
  | .arithMI, _ | .movMI, _ => some (false, .imm .full)
  | .arithMIX, _ | .movMIX, _ => some (true, .imm .full)
  | .arithMI8X, _ => some (true, .imm .sext)
  | .shiftMI, _ => some (false, .imm .byte)
  | .shiftMI8X, _ => some (true, .imm .byte)
  | .shiftM1, _ => some (false, .one)
  | .shiftM1X, _ => some (true, .one)
  | .shiftMCl, _ => some (false, .cl)
  | .shiftMClX, _ => some (true, .cl)
  | .miscMI, p => if p = 0 then some (false, .imm .full) else some (false, .alone)
  | .miscMIX, p => if p = 0 then some (true, .imm .full) else some (true, .alone)
  | .unaryM, p => if p.toNat < 2 then some (false, .alone) else none
  | .imulMIX, _ => some (true, .rmImm .full)
  | .imulMI8X, _ => some (true, .rmImm .sext)
  | .imulRMX, _ | .bsf, _ | .lea, _ => some (true, .rm)
  | .unaryMX, p => if p = 7 then none else some (true, .alone)
  | .popMX, _ => some (true, .alone)
  | .lxs _, _ => some (true, .mr)
  | .movRS, _ => some (true, .mseg)
  | .movSR, _ => some (true, .segm)
  | _, _ => none

/-- The table entry of an instruction of `rmForm`. -/
theorem rm_entry : ∀ (op : BitVec 8) (r : BitVec 3) (f : RmForm), rmForm op r = some f →
    op ≠ 0xF1 ∧ manual false op r ≠ [] ∧ isStringInstr false op = false ∧
    ∃ o m, opEntry op = some ⟨.base o, 0, m⟩ ∧ o.isPrefix = false ∧ textKind o (if m then r else 0) = some (wideOp op, f) := by
  have key : ∀ (op : BitVec 8) (r : BitVec 3), (match rmForm op r with
      | none => true
      | some f => decide (op ≠ 0xF1) && decide (manual false op r ≠ []) && decide (isStringInstr false op = false) &&
        (match opEntry op with
        | some ⟨.base o, a, m⟩ => decide (a = 0) && decide (o.isPrefix = false) && decide (textKind o (if m then r else 0) = some (wideOp op, f))
        | _ => false)) = true := by decide +kernel
  intro op r f hf
  have := key op r
  rw [hf] at this
  simp only [Bool.and_eq_true, decide_eq_true_eq] at this
  obtain ⟨⟨⟨h1, h2⟩, h3⟩, h4⟩ := this
  refine ⟨h1, h2, h3, ?_⟩
  split at h4
  · rename_i o a m e
    simp only [Bool.and_eq_true, decide_eq_true_eq] at h4
    obtain ⟨⟨rfl, h5⟩, h6⟩ := h4
    exact ⟨o, m, e, h5, h6⟩
  · cases h4

theorem fetch8S' {s : State} {h0 : Nat} {bytes : List (BitVec 8)} (h : CodeAt s h0 bytes) (env : Env) (p : Pfx) (n j : Nat) {imm : List (BitVec 8)} (hl : imm.length = 1)
    (hs : Sub bytes j imm) : readInstr8S n env (opState s p j) = .ok ((imm.headD 0).signExtend n) (opState s p (j + 1)) := by
  match imm, hl with
  | [d], _ => exact fetch8S h env p n j hs.head

theorem fetch8' {s : State} {h0 : Nat} {bytes : List (BitVec 8)} (h : CodeAt s h0 bytes) (env : Env) (p : Pfx) (j : Nat) {imm : List (BitVec 8)} (hl : imm.length = 1)
    (hs : Sub bytes j imm) : readInstr 8 env (opState s p j) = .ok (imm.headD 0) (opState s p (j + 1)) := by
  match imm, hl with
  | [d], _ => exact fetch8 h env p j hs.head

theorem full8 {imm : List (BitVec 8)} (hl : imm.length = 8 / 8) : NumShown 8 .full imm (num " 0x" 2 (imm.headD 0).toNat) := by
  match imm, hl with
  | [d], _ =>
    have := num8 " 0x" d
    simp only [NumShown, leVal, Nat.mul_zero, Nat.add_zero]
    exact this

theorem fullW {imm : List (BitVec 8)} (p : Pfx) (hl : imm.length = p.bytes * 8 / 8) :
    NumShown (p.bytes * 8) .full imm (num " 0x" (p.bytes * 8 / 4) (BitVec.ofNat (p.bytes * 8) (leVal imm)).toNat) := by
  have := width_num " 0x" p (imm := imm) (by omega)
  simp only [NumShown]
  rwa [show p.bytes * 8 / 4 = 2 * p.bytes by omega] at this ⊢

theorem sextW (p : Pfx) (imm : List (BitVec 8)) :
    NumShown (p.bytes * 8) .sext imm (num " 0x" (p.bytes * 8 / 4) ((imm.headD 0).signExtend (p.bytes * 8)).toNat) := by
  have hb : p.bytes = 4 ∨ p.bytes = 2 := by simp only [Pfx.bytes]; split <;> simp
  refine num_text _ ?_ (by omega) (by omega)
  have := ((imm.headD 0).signExtend (p.bytes * 8)).isLt
  rcases hb with h | h <;> rw [h] at this ⊢ <;> exact this

theorem codeAt_flags {s : State} {h0 : Nat} {bytes : List (BitVec 8)} (h : CodeAt s h0 bytes) (f : BitVec 16) : CodeAt { s with flags := f } h0 bytes := h

theorem clearOZSP_run (env : Env) (s : State) (p : Pfx) (j : Nat) :
    clearOZSP env (opState s p j) = .ok () (opState { s with flags := clr s.flags (FLAG_OF ||| FLAG_ZF ||| FLAG_SF ||| FLAG_PF) } p j) := rfl

theorem regOf_bits : ∀ m : BitVec 8, ((m >>> 3).setWidth 3 : BitVec 3) = regOf m := by decide +kernel

/-- The memory operand of instructions which take nothing else, as printed. -/
theorem Tx.mM {m : ModRM} {k : BitVec 16 × BitVec 32 → M (List Char)} {env : Env} {u v : State} {a : BitVec 16 × BitVec 32} {text c : List Char}
    (h : getMMMT m env u = .ok (a, text) v) (hk : Tx (k a) env v c) : Tx (Trace.mM m k) env u (text ++ c) := .fetch h (.say hk)

theorem segOf_name {k : BitVec 3} {env : Env} {s t : State} {sr : SReg} (h : segOf k env s = .ok sr t) : t = s ∧ segRegName k = some (segName sr) := by
  have key : ∀ k : BitVec 3, (k = 0 ∧ segOf k = pure .es) ∨ (k = 1 ∧ segOf k = pure .cs) ∨ (k = 2 ∧ segOf k = pure .ss) ∨ (k = 3 ∧ segOf k = pure .ds) ∨
      (k = 4 ∧ segOf k = pure .fs) ∨ (k = 5 ∧ segOf k = pure .gs) ∨ segOf k = ubE .nullSegPtr := by
    intro k
    unfold segOf
    by_cases h0 : k = 0
    · subst h0; exact .inl ⟨rfl, rfl⟩
    by_cases h1 : k = 1
    · subst h1; exact .inr (.inl ⟨rfl, rfl⟩)
    by_cases h2 : k = 2
    · subst h2; exact .inr (.inr (.inl ⟨rfl, rfl⟩))
    by_cases h3 : k = 3
    · subst h3; exact .inr (.inr (.inr (.inl ⟨rfl, rfl⟩)))
    by_cases h4 : k = 4
    · subst h4; exact .inr (.inr (.inr (.inr (.inl ⟨rfl, rfl⟩))))
    by_cases h5 : k = 5
    · subst h5; exact .inr (.inr (.inr (.inr (.inr (.inl ⟨rfl, rfl⟩)))))
    · rw [if_neg h0, if_neg h1, if_neg h2, if_neg h3, if_neg h4, if_neg h5]
      exact .inr (.inr (.inr (.inr (.inr (.inr rfl)))))
  rcases key k with ⟨rfl, e⟩ | ⟨rfl, e⟩ | ⟨rfl, e⟩ | ⟨rfl, e⟩ | ⟨rfl, e⟩ | ⟨rfl, e⟩ | e <;> rw [e] at h <;> cases h <;> exact ⟨rfl, rfl⟩

/-- The operand width of byte (`false`) and word instructions. -/
def widthOf (p : Pfx) (w : Bool) : Nat := if w then p.bytes * 8 else 8

theorem unaryMXT_text {a : BitVec 3} {env : Env} {u t : State} {x : List Char} {R : Prop}
    (al : ∀ k : Loc → M Unit, mX (fun m => quiet (k m)) env u = .ok x t → R) (far : ∀ k : BitVec 16 × BitVec 16 → M Unit, farT k env u = .ok x t → R)
    (hx : unaryMXT a env u = .ok x t) : R := by
  rw [unaryMXT, bind_apply, getDec_apply, resbind_ok] at hx
  by_cases ho : u.dec.ovrOper = true
  · rw [if_pos ho] at hx
    by_cases h0 : a = 0
    · rw [if_pos h0] at hx; exact al _ hx
    rw [if_neg h0] at hx
    by_cases h1 : a = 1
    · rw [if_pos h1] at hx; exact al _ hx
    rw [if_neg h1] at hx
    by_cases h6 : a = 6
    · rw [if_pos h6] at hx; exact al _ hx
    rw [if_neg h6] at hx
    cases hx
  · rw [if_neg ho] at hx
    by_cases h0 : a = 0
    · rw [if_pos h0] at hx; exact al _ hx
    rw [if_neg h0] at hx
    by_cases h1 : a = 1
    · rw [if_pos h1] at hx; exact al _ hx
    rw [if_neg h1] at hx
    by_cases h2 : a = 2
    · rw [if_pos h2] at hx; exact al _ hx
    rw [if_neg h2] at hx
    by_cases h3 : a = 3
    · rw [if_pos h3] at hx; exact far _ hx
    rw [if_neg h3] at hx
    by_cases h4 : a = 4
    · rw [if_pos h4] at hx; exact al _ hx
    rw [if_neg h4] at hx
    by_cases h5 : a = 5
    · rw [if_pos h5] at hx; exact far _ hx
    rw [if_neg h5] at hx
    by_cases h6 : a = 6
    · rw [if_pos h6] at hx; exact al _ hx
    rw [if_neg h6] at hx
    cases hx

/-- Text of the opcode function of an instruction with a ModR/M byte. -/
theorem opRMT_text {s : State} {h0 : Nat} {bytes : List (BitVec 8)} (h : CodeAt s h0 bytes) (env : Env) (other : Op → BitVec 3 → List Char)
    {p : Pfx} {j : Nat} {rm imm : List (BitVec 8)} {r : BitVec 3} {o : Opnd} {q : Op} {a : BitVec 3} {w : Bool} {f : RmForm} (hk : textKind q a = some (w, f))
    (hrm : RM s p (widthOf p w) rm r o) (hpl : Plain s p (widthOf p w) rm) (hs : Sub bytes j (rm ++ imm)) (hl : imm.length = f.immLen (widthOf p w))
    {x : List Char} {t : State} (hx : opRMT other q a env (opState s p j) = .ok x t) : RmText s (widthOf p w) f r o imm x := by
  have hi := hs.right
  have w8 : widthOf p false / 8 = 1 := by simp [widthOf]
  have hs := hs.left
  have byte : ∀ {k : Loc → M (List Char)} {c : List Char} (_ : RM s p 8 rm r o) (_ : Plain s p 8 rm) (_ : ∀ l, Tx (k l) env (opState s p (j + rm.length)) c)
      (_ : mB k env (opState s p j) = .ok x t), ∃ a, OpndShown s 8 o a ∧ x = a ++ c := fun hrm hpl hk hx => mB_text h env hrm hpl hs hk hx
  have word : ∀ {k : Loc → M (List Char)} {c : List Char} (_ : RM s p (p.bytes * 8) rm r o) (_ : Plain s p (p.bytes * 8) rm)
      (_ : ∀ l, Tx (k l) env (opState s p (j + rm.length)) c)
      (_ : mX k env (opState s p j) = .ok x t), ∃ a, OpndShown s (p.bytes * 8) o a ∧ x = a ++ c := fun hrm hpl hk hx => mX_text h env hrm hpl hs hk hx
  have q8 : ∀ (rev : Bool) {k : Loc → Loc → M Unit} (_ : RM s p 8 rm r o) (_ : Plain s p 8 rm)
      (_ : rmB rev (fun l m => quiet (k l m)) env (opState s p j) = .ok x t), RmText s 8 (if rev then .mr else .rm) r o imm x := by
    intro rev k hrm hpl hx
    obtain ⟨a, b, ha, hb, e⟩ := rmB_text h env hrm hpl hs (fun l m => Tx.quiet _ env _) hx
    rw [List.append_nil] at e
    cases rev
    · exact ⟨a, ha, b, hb, e⟩
    · exact ⟨a, ha, b, hb, e⟩
  have qX : ∀ (rev : Bool) {k : Loc → Loc → M Unit} (_ : RM s p (p.bytes * 8) rm r o) (_ : Plain s p (p.bytes * 8) rm)
      (_ : rmX rev (fun l m => quiet (k l m)) env (opState s p j) = .ok x t), RmText s (p.bytes * 8) (if rev then .mr else .rm) r o imm x := by
    intro rev k hrm hpl hx
    obtain ⟨a, b, ha, hb, e⟩ := rmX_text h env hrm hpl hs (fun l m => Tx.quiet _ env _) hx
    rw [List.append_nil] at e
    cases rev
    · exact ⟨a, ha, b, hb, e⟩
    · exact ⟨a, ha, b, hb, e⟩
  have al : ∀ {k : Loc → M Unit} (_ : RM s p (p.bytes * 8) rm r o) (_ : Plain s p (p.bytes * 8) rm)
      (_ : mX (fun m => quiet (k m)) env (opState s p j) = .ok x t), RmText s (p.bytes * 8) .alone r o imm x := by
    intro k hrm hpl hx
    obtain ⟨b, hb, e⟩ := word hrm hpl (fun l => Tx.quiet _ env _) hx
    exact ⟨b, hb, by rw [e, List.append_nil]⟩
  have far : ∀ {k : BitVec 16 × BitVec 16 → M Unit} (_ : RM s p (p.bytes * 8) rm r o) (_ : Plain s p (p.bytes * 8) rm)
      (_ : farT k env (opState s p j) = .ok x t), RmText s (p.bytes * 8) .alone r o imm x := by
    intro k hrm hpl hx
    rcases hrm.elim with ⟨m, hm, rfl, rfl, rfl⟩ | ⟨seg, ofs, rfl⟩
    · have h3 : (ModRM.ofByte m).mod = 3 := by rw [ofByte_mod, hm]; rfl
      simp only [farT, getModRM, bind_apply, fetch8 h env p j hs.head, resbind_ok, pure_apply, h3, guardE_apply] at hx
      cases hx
    · obtain ⟨m, text, h1, h2, h3, h4, h5⟩ := getMMMT_rm h env hrm hpl hs
      simp only [farT, getModRM, bind_apply, fetch8 h env p j h1, resbind_ok, pure_apply, beq_eq_false_iff_ne.2 h3, guardE_false] at hx
      have e := Tx.mM h4 (Tx.quiet _ env _) x t hx
      rw [List.append_nil] at e
      exact ⟨text, .mem _ _ _ h5, e⟩
  have cx : ∀ {k : M (List Char)}, ((do let _ ← getReg 8 rCX; k) env (opState s p j) = .ok x t) → k env (opState s p j) = .ok x t := fun h => h
  cases q with
  | alu k form => cases form <;> simp only [textKind, Option.some.injEq, Prod.mk.injEq, reduceCtorEq] at hk <;> obtain ⟨rfl, rfl⟩ := hk
                  · unfold opRMT at hx; exact q8 true hrm hpl hx
                  · unfold opRMT at hx; exact qX true hrm hpl hx
                  · unfold opRMT at hx; exact q8 false hrm hpl hx
                  · unfold opRMT at hx; exact qX false hrm hpl hx
  | testMR => cases hk; unfold opRMT at hx; exact q8 true hrm hpl hx
  | testMRX => cases hk; unfold opRMT at hx; exact qX true hrm hpl hx
  | movMR => cases hk; unfold opRMT at hx; exact q8 true hrm hpl hx
  | movMRX => cases hk; unfold opRMT at hx; exact qX true hrm hpl hx
  | movRM => cases hk; unfold opRMT at hx; exact q8 false hrm hpl hx
  | movRMX => cases hk; unfold opRMT at hx; exact qX false hrm hpl hx
  | xchgRM => cases hk; unfold opRMT at hx; exact q8 false hrm hpl hx
  | xchgRMX => cases hk; unfold opRMT at hx; exact qX false hrm hpl hx
  | arithMI =>
    simp only [opRMT] at hx
    cases hk
    obtain ⟨b, hb, e⟩ := byte hrm hpl (fun l => .fetch (fetch8' h env p _ (hl.trans w8) hi) (Tx.sayq _ _ env _)) hx
    exact ⟨b, hb, _, full8 (hl.trans w8), e⟩
  | arithMIX =>
    simp only [opRMT] at hx
    cases hk
    obtain ⟨b, hb, e⟩ := word hrm hpl (fun l => .fetch (clearOZSP_run env s p _)
      (.withW (.fetch (fetchW (codeAt_flags h _) env p _ (imm := imm) (by simp only [RmForm.immLen, ImmSize.len, widthOf, if_true] at hl; omega) hi) (Tx.sayq _ _ env _)))) hx
    exact ⟨b, hb, _, fullW p hl, e⟩
  | arithMI8X =>
    simp only [opRMT] at hx
    cases hk
    obtain ⟨b, hb, e⟩ := word hrm hpl (fun l => .fetch (clearOZSP_run env s p _)
      (.withW (.fetch (fetch8S' (codeAt_flags h _) env p _ _ hl hi) (Tx.sayq _ _ env _)))) hx
    exact ⟨b, hb, _, sextW p imm, e⟩
  | movMI =>
    simp only [opRMT] at hx
    cases hk
    obtain ⟨b, hb, e⟩ := byte hrm hpl (fun l => .fetch (fetch8' h env p _ (hl.trans w8) hi) (Tx.sayq _ _ env _)) hx
    exact ⟨b, hb, _, full8 (hl.trans w8), e⟩
  | movMIX =>
    simp only [opRMT] at hx
    cases hk
    obtain ⟨b, hb, e⟩ := word hrm hpl (fun l =>
      (.withW (.fetch (fetchW h env p _ (imm := imm) (by simp only [RmForm.immLen, ImmSize.len, widthOf, if_true] at hl; omega) hi) (Tx.sayq _ _ env _)))) hx
    exact ⟨b, hb, _, fullW p hl, e⟩
  | shiftMI =>
    simp only [opRMT] at hx
    cases hk
    obtain ⟨b, hb, e⟩ := byte hrm hpl (fun l => .fetch (fetch8' h env p _ hl hi) (Tx.sayq _ _ env _)) hx
    exact ⟨b, hb, _, num8 _ _, e⟩
  | shiftMI8X =>
    simp only [opRMT] at hx
    cases hk
    obtain ⟨b, hb, e⟩ := word hrm hpl (fun l => .fetch (fetch8' h env p _ hl hi) (Tx.sayq _ _ env _)) hx
    exact ⟨b, hb, _, num8 _ _, e⟩
  | shiftM1 =>
    simp only [opRMT] at hx
    cases hk
    obtain ⟨b, hb, e⟩ := byte hrm hpl (fun l => Tx.sayq _ _ env _) hx
    exact ⟨b, hb, e⟩
  | shiftM1X =>
    simp only [opRMT] at hx
    cases hk
    obtain ⟨b, hb, e⟩ := word hrm hpl (fun l => Tx.sayq _ _ env _) hx
    exact ⟨b, hb, e⟩
  | shiftMCl =>
    simp only [opRMT] at hx
    cases hk
    obtain ⟨b, hb, e⟩ := byte hrm hpl (fun l => Tx.sayq _ _ env _) (cx hx)
    exact ⟨b, hb, e⟩
  | shiftMClX =>
    simp only [opRMT] at hx
    cases hk
    obtain ⟨b, hb, e⟩ := word hrm hpl (fun l => Tx.sayq _ _ env _) (cx hx)
    exact ⟨b, hb, e⟩
  | miscMI =>
    simp only [opRMT] at hx
    simp only [textKind] at hk
    by_cases ha : a = 0
    · rw [if_pos ha] at hk
      cases hk
      obtain ⟨b, hb, e⟩ := byte hrm hpl (c := num " 0x" 2 (imm.headD 0).toNat) (fun l => by
        rw [miscOpT, if_pos ha]
        exact .fetch (fetch8' h env p _ (hl.trans w8) hi) (Tx.sayq _ _ env _)) hx
      exact ⟨b, hb, _, full8 (hl.trans w8), e⟩
    · rw [if_neg ha] at hk
      cases hk
      obtain ⟨b, hb, e⟩ := byte hrm hpl (c := []) (fun l => by
        rw [miscOpT, if_neg ha]
        exact Tx.quiet _ env _) hx
      exact ⟨b, hb, by rw [e, List.append_nil]⟩
  | miscMIX =>
    simp only [opRMT] at hx
    simp only [textKind] at hk
    by_cases ha : a = 0
    · rw [if_pos ha] at hk
      cases hk
      obtain ⟨b, hb, e⟩ := word hrm hpl (c := num " 0x" (p.bytes * 8 / 4) (BitVec.ofNat (p.bytes * 8) (leVal imm)).toNat) (fun l => .withW (by
        rw [miscOpT, if_pos ha]
        exact .fetch (fetchW h env p _ (imm := imm) (by simp only [RmForm.immLen, ImmSize.len, widthOf, if_true] at hl; omega) hi) (Tx.sayq _ _ env _))) hx
      exact ⟨b, hb, _, fullW p hl, e⟩
    · rw [if_neg ha] at hk
      cases hk
      obtain ⟨b, hb, e⟩ := word hrm hpl (c := []) (fun l => .withW (by
        rw [miscOpT, if_neg ha]
        exact Tx.quiet _ env _)) hx
      exact ⟨b, hb, by rw [e, List.append_nil]⟩
  | unaryM =>
    simp only [textKind] at hk
    split at hk
    · cases hk
      have fin : ∀ {k : Loc → M Unit}, mB (fun m => quiet (k m)) env (opState s p j) = .ok x t → RmText s (widthOf p false) .alone r o imm x := by
        intro k hx
        obtain ⟨b, hb, e⟩ := byte hrm hpl (fun l => Tx.quiet _ env _) hx
        exact ⟨b, hb, by rw [e, List.append_nil]⟩
      simp only [opRMT] at hx
      split at hx
      · exact fin hx
      · split at hx
        · exact fin hx
        · cases hx
    · cases hk
  | imulMIX =>
    cases hk
    simp only [opRMT, bind_apply, getDec_apply, resbind_ok, guardE_apply] at hx
    split at hx
    · cases hx
    rename_i ho
    have ho : p.oper = false := by
      have e : (opState s p j).dec.ovrOper = p.oper := rfl
      rw [e] at ho
      simpa using ho
    simp only [resbind_ok] at hx
    have h2 : p.bytes * 8 = 16 := by rw [Pfx.bytes, ho]; rfl
    have hr := fetchW h env p (j + rm.length) (imm := imm) (by simp only [RmForm.immLen, ImmSize.len, widthOf, if_true] at hl; omega) hi
    rw [h2] at hr
    obtain ⟨b, c, hb, hc, e⟩ := rmX_text h env hrm hpl hs (fun l m => .fetch hr (Tx.sayq _ _ env _)) hx
    have := fullW p (imm := imm) hl
    rw [h2] at this
    exact ⟨b, hb, c, _, hc, by simp only [widthOf, if_true, h2]; exact this, e⟩
  | imulMI8X =>
    cases hk
    simp only [opRMT, bind_apply, getDec_apply, resbind_ok, guardE_apply] at hx
    split at hx
    · cases hx
    rename_i ho
    have ho : p.oper = false := by
      have e : (opState s p j).dec.ovrOper = p.oper := rfl
      rw [e] at ho
      simpa using ho
    simp only [resbind_ok] at hx
    have h2 : p.bytes * 8 = 16 := by rw [Pfx.bytes, ho]; rfl
    obtain ⟨b, c, hb, hc, e⟩ := rmX_text h env hrm hpl hs (fun l m => .fetch (fetch8S' h env p 16 _ hl hi) (Tx.sayq _ _ env _)) hx
    have := sextW p imm
    rw [h2] at this
    exact ⟨b, hb, c, _, hc, by simp only [widthOf, if_true, h2]; exact this, e⟩
  | imulRMX =>
    cases hk
    simp only [opRMT, bind_apply, getDec_apply, resbind_ok, guardE_apply] at hx
    split at hx
    · cases hx
    simp only [resbind_ok] at hx
    exact qX false hrm hpl hx
  | bsf => cases hk; simp only [opRMT] at hx; exact qX false hrm hpl hx
  | popMX =>
    cases hk
    simp only [opRMT, bind_apply, getDec_apply, resbind_ok, guardE_apply] at hx
    split at hx
    · cases hx
    simp only [resbind_ok] at hx
    exact al hrm hpl hx
  | lea =>
    cases hk
    simp only [opRMT] at hx
    rcases hrm.elim with ⟨m, hm, rfl, rfl, rfl⟩ | ⟨seg, ofs, rfl⟩
    · have h3 : (ModRM.ofByte m).mod = 3 := by rw [ofByte_mod, hm]; rfl
      simp only [getModRM, bind_apply, fetch8 h env p j hs.head, resbind_ok, pure_apply, h3, guardE_apply] at hx
      cases hx
    · obtain ⟨m, text, h1, h2, h3, h4, h5⟩ := getMMMT_rm h env hrm hpl hs
      simp only [getModRM, bind_apply, fetch8 h env p j h1, resbind_ok, pure_apply, beq_eq_false_iff_ne.2 h3, guardE_false, getDec_apply] at hx
      have e := Tx.say (Tx.mM h4 (Tx.quiet _ env _)) x t hx
      rw [List.append_nil] at e
      refine ⟨text, .mem _ _ _ h5, _, nameX_shown s p r, ?_⟩
      rw [e, h2, ← ofByte_rrr]
      rfl
  | lxs sr =>
    cases hk
    simp only [opRMT] at hx
    rcases hrm.elim with ⟨m, hm, rfl, rfl, rfl⟩ | ⟨seg, ofs, rfl⟩
    · have h3 : (ModRM.ofByte m).mod = 3 := by rw [ofByte_mod, hm]; rfl
      simp only [getModRM_unchecked_eq, bind_apply, fetch8 h env p j hs.head, resbind_ok, h3, guardE_apply] at hx
      cases hx
    · obtain ⟨m, text, h1, h2, h3, h4, h5⟩ := getMMMT_rm h env hrm hpl hs
      simp only [getModRM_unchecked_eq, bind_apply, fetch8 h env p j h1, resbind_ok, beq_eq_false_iff_ne.2 h3, guardE_false] at hx
      have e := Tx.mM h4 (.fetch (getDec_apply env _) (Tx.sayq _ _ env _)) x t hx
      refine ⟨text, .mem _ _ _ h5, _, nameX_shown s p r, ?_⟩
      rw [e, h2, ← ofByte_rrr]
      rfl
  | unaryMX =>
    simp only [textKind] at hk
    split at hk
    · cases hk
    cases hk
    simp only [opRMT] at hx
    exact unaryMXT_text (fun k hx => al hrm hpl hx) (fun k hx => far hrm hpl hx) hx
  | movRS =>
    cases hk
    simp only [opRMT, bind_apply, getDec_apply, resbind_ok, guardE_apply] at hx
    split at hx
    · cases hx
    obtain ⟨m, tl, h1, h2⟩ := hrm.head
    have hm : bytes[j]? = some m := by subst h1; exact hs.head
    simp only [resbind_ok, peek_ok h env p j hm] at hx
    have hd := regOf_bits m
    rw [← h2] at hd
    rw [hd] at hx
    cases hsg : segOf r env (opState s p (j + rm.length)) with
    | ok sr v =>
      obtain ⟨rfl, hn⟩ := segOf_name hsg
      obtain ⟨b, hb, e⟩ := word hrm hpl (fun l => .fetch hsg (Tx.sayq _ _ env _)) hx
      exact ⟨b, hb, _, hn, e⟩
    | err e v => 
      obtain ⟨b, hb, e⟩ := word hrm hpl (c := []) (fun l x t hx => by rw [bind_apply, hsg] at hx; cases hx) hx
      exact absurd hsg (by unfold segOf; repeat' split
                           all_goals exact fun h => by cases h)
    | ub u =>
      exfalso
      have : ∀ c, ∃ a, OpndShown s (p.bytes * 8) o a ∧ x = a ++ c := fun c => word hrm hpl (c := c) (fun l x t hx => by rw [bind_apply, hsg] at hx; cases hx) hx
      obtain ⟨a, _, e1⟩ := this (x ++ ['x'])
      have := congrArg List.length e1
      simp only [List.length_append, List.length_cons, List.length_nil] at this
      omega
  | movSR =>
    cases hk
    simp only [opRMT, bind_apply, getDec_apply, resbind_ok, guardE_apply] at hx
    split at hx
    · cases hx
    obtain ⟨m, tl, h1, h2⟩ := hrm.head
    have hm : bytes[j]? = some m := by subst h1; exact hs.head
    simp only [resbind_ok, peek_ok h env p j hm] at hx
    have hd := regOf_bits m
    rw [← h2] at hd
    rw [hd] at hx
    cases hsg : segOf r env (opState s p j) with
    | ok sr v =>
      obtain ⟨rfl, hn⟩ := segOf_name hsg
      rw [hsg] at hx
      simp only [resbind_ok, Trace.say, bind_apply] at hx
      cases hy : mX (fun m => Trace.quiet (do let v ← readLoc 16 m; setSreg sr v)) env (opState s p j) with
      | err e v => rw [hy] at hx; cases hx
      | ub u => rw [hy] at hx; cases hx
      | ok y v =>
        rw [hy] at hx
        cases hx
        obtain ⟨b, hb, e⟩ := mX_text h env hrm hpl hs (fun l => Tx.quiet _ env _) hy
        exact ⟨b, hb, _, hn, by rw [e, List.append_nil]; rfl⟩
    | err e v => rw [hsg] at hx; cases hx
    | ub u => rw [hsg] at hx; cases hx
  | _ => cases hk

theorem opFnT_rm (other : Op → BitVec 3 → List Char) {q : Op} {a : BitVec 3} {x : Bool × RmForm} (h : textKind q a = some x) : opFnT other q a = opRMT other q a := by
  cases q with
  | alu k form => cases form <;> first | (cases h; done) | simp only [opFnT]
  | _ => first | (cases h; done) | simp only [opFnT]

theorem RM.head {s : State} {p : Pfx} {n : Nat} {rm : List (BitVec 8)} {r : BitVec 3} {o : Opnd} (h : RM s p n rm r o) : ∃ m tl, rm = m :: tl ∧ r = regOf m := by
  cases h with
  | reg m h => exact ⟨m, [], rfl, rfl⟩
  | mem m d => exact ⟨m, d, rfl, rfl⟩
  | mem32 m d => exact ⟨m, d, rfl, rfl⟩

theorem widthOf_eq (p : Pfx) (op : BitVec 8) : widthOf p (wideOp op) = rmWidth p op := by
  simp only [widthOf, rmWidth]
  cases wideOp op <;> rfl

theorem rmForm_string {op : BitVec 8} {r : BitVec 3} {f : RmForm} (h : rmForm op r = some f) : isStringInstr false op = false := (rm_entry op r f h).2.2.1

/-- `text` is the trace line of the instruction `op` (register field `r`) with the prefixes `pfx` and the operands `body`: number, stack pointer and address,
the warning for a repeat prefix, the prefixes, a mnemonic of the manual, the operands (cut after 62 characters), the bytes. -/
def ShowsRM (s : State) (p : Pfx) (pfx : List (BitVec 8)) (op : BitVec 8) (r : BitVec 3) (body text : List Char) : Prop :=
  ∃ x mnem bs, HexField 2 x op.toNat ∧ readMnemonic mnem ∈ manual false op r ∧ mnem.length ≤ 18 ∧
    TraceLine text (warningText p.rep x ++ " ".toList ++ visible (pfx.flatMap (fun b => prefixShown b ++ " ".toList) ++ mnem ++ body))
      (s.instrNum.toNat + 1) (s.sreg .cs) s.ip bs

/-- The trace line from the table entry of the instruction. -/
theorem rm_shown {other : Op → BitVec 3 → List Char} {env : Env} {s t : State} {h0 : Nat} {pfx rm imm : List (BitVec 8)} {op : BitVec 8} {p : Pfx} {text : List Char}
    {r : BitVec 3} {o : Opnd} {f : RmForm} {q : Op} {g : Bool} (h : Traced other env s t h0 pfx (op :: (rm ++ imm)) p text)
    (hF1 : op ≠ 0xF1) (hm : manual false op r ≠ []) (hstr : isStringInstr false op = false) (he : opEntry op = some ⟨.base q, 0, g⟩) (hpx : q.isPrefix = false)
    (hk : textKind q (if g then r else 0) = some (wideOp op, f))
    (hrm : RM s p (rmWidth p op) rm r o) (hpl : Plain s p (rmWidth p op) rm) (hl : imm.length = f.immLen (rmWidth p op)) :
    ∃ body, RmText s (rmWidth p op) f r o imm body ∧ ShowsRM s p pfx op r body text := by
  obtain ⟨m, tl, hcons, hreg⟩ := hrm.head
  rw [← widthOf_eq] at hrm hpl hl ⊢
  have hpar : paramOf ⟨.base q, 0, g⟩ (rm ++ imm)[0]? = some (if g then r else 0) := by
    subst hcons
    cases g
    · rfl
    · simp only [paramOf, if_true, List.cons_append, List.getElem?_cons_zero, Option.map_some, regOf_bits, hreg]
  have hrun : ∀ bytes j, CodeAt s h0 bytes → Sub bytes j (rm ++ imm) →
      (∀ t, callFn (.base q) (if g then r else 0) env (opState s p j) ≠ .err .cont t) ∧
      ∀ x t, callFnT other (.base q) (if g then r else 0) env (opState s p j) = .ok x t → RmText s (widthOf p (wideOp op)) f r o imm x := by
    intro bytes j hc hsub
    refine ⟨fun v => noCont q _ env _ v hpx, fun x v hx => ?_⟩
    have e : callFnT other (.base q) (if g then r else 0) = opRMT other q (if g then r else 0) := opFnT_rm other hk
    rw [e] at hx
    exact opRMT_text hc env other hk hrm hpl hsub hl hx
  obtain ⟨body, hq, hfull⟩ := doOpcodeAll_full h.step (Q := fun b => RmText s (widthOf p (wideOp op)) f r o imm b) h.ready fun x u hu =>
    decodeAll_code (P := fun b _ => RmText s (widthOf p (wideOp op)) f r o imm b) h.code h.prefixes hF1 he hpar hrun hu
  have hat : NamedAt s pfx false op r := by
    refine ⟨⟨p, h.prefixes⟩, fun i hi => ?_, fun _ _ => ⟨m, ?_, by rw [regOf_bits, hreg]⟩⟩
    · have hlen : i < (pfx ++ op :: (rm ++ imm)).length := by
        simp only [Bool.false_eq_true, if_false, List.length_append, List.length_cons, List.length_nil] at hi ⊢; omega
      have := codeAt_byteAt h.code i hlen
      have e : (pfx ++ op :: (rm ++ imm))[i] = (pfx ++ if false = true then [0x0F, op] else [op])[i] := by
        simp only [Bool.false_eq_true, if_false]
        have e2 : pfx ++ op :: (rm ++ imm) = (pfx ++ [op]) ++ (rm ++ imm) := by simp
        simp only [e2]
        exact List.getElem_append_left hi
      rwa [e] at this
    · subst hcons
      have := codeAt_byteAt h.code (pfx.length + 1) (by simp)
      simpa using this
  obtain ⟨mid, x, mnem, bs, h1, h2, h3, h4, h5, _⟩ := C92_names_partial h.ready h.number.1 h.number.2 h.level h.level' h.callbacks hat h.prefixes hm (fun h => Bool.noConfusion h) hfull
  rw [hstr] at h4
  rw [h4] at h5
  exact ⟨body, hq, x, mnem, bs, h1, h2, h3, h5⟩

/-- C95: the trace line of an instruction with a ModR/M byte at debug level 1: after the mnemonic it has the operands of the instruction in the manual's order:
the register by its name at the operand width, the memory operand as the segment and offset the manual gives for the bytes in the code, the number that follows
in hexadecimal: `RmText`.  Partial as `C93_shown_partial`: a line of more than 63 characters is cut; the memory operand is one of `Plain` (in the others the
emulator itself departs from the manual: C91 relates the text to the place used); and not modelled are the texts of the instructions not in `rmForm`. -/
theorem C95_shown_partial {other : Op → BitVec 3 → List Char} {env : Env} {s t : State} {h0 : Nat} {pfx rm imm : List (BitVec 8)} {op : BitVec 8} {p : Pfx} {text : List Char}
    {r : BitVec 3} {o : Opnd} {f : RmForm} (h : Traced other env s t h0 pfx (op :: (rm ++ imm)) p text) (hf : rmForm op r = some f)
    (hrm : RM s p (rmWidth p op) rm r o) (hpl : Plain s p (rmWidth p op) rm) (hl : imm.length = f.immLen (rmWidth p op)) :
    ∃ body, RmText s (rmWidth p op) f r o imm body ∧ ShowsRM s p pfx op r body text := by
  obtain ⟨hF1, hm, hstr, q, g, he, hpx, hk⟩ := rm_entry op r f hf
  exact rm_shown h hF1 hm hstr he hpx hk hrm hpl hl

/-! ### What is shown is what is done -/

theorem opW_bytes (p : Pfx) : opW p = p.bytes * 8 := by simp only [opW, Pfx.bytes]; split <;> rfl

theorem Traced.falls {other : Op → BitVec 3 → List Char} {env : Env} {s t u : State} {h0 : Nat} {pfx code : List (BitVec 8)} {p : Pfx} {text : List Char} {len : Nat}
    (h : Traced other env s t h0 pfx code p text) (hj : Falls env s len u) : t.gpr = u.gpr ∧ t.host = u.host := by
  have := h.steps hj
  exact ⟨this.1, this.2.2.1⟩

/-- C95: MOV of a register to r/m: the line shows the place and then the register; after the step the place shown first has the value of the register shown second. -/
theorem C95_mov_store {other : Op → BitVec 3 → List Char} {env : Env} {s t : State} {h0 : Nat} {pfx rm : List (BitVec 8)} {op : BitVec 8} {p : Pfx} {text : List Char}
    {r : BitVec 3} {o : Opnd} {v : BitVec (rmWidth p op)} (h : Traced other env s t h0 pfx (op :: rm) p text) (hop : op = 0x88 ∨ op = 0x89)
    (hrm : RM s p (rmWidth p op) rm r o) (hpl : Plain s p (rmWidth p op) rm) (hok : o.Ok s (rmWidth p op)) (hv : (regOp (rmWidth p op) r).Has s (rmWidth p op) v)
    (hnz : NotZeroed (o.put s (rmWidth p op) v) h0 (pfx.length + (op :: rm).length)) :
    ∃ a b, OpndShown s (rmWidth p op) o a ∧ OpndShown s (rmWidth p op) (regOp (rmWidth p op) r) b ∧ ShowsRM s p pfx op r (a ++ b) text ∧
      t.gpr = (o.put s (rmWidth p op) v).gpr ∧ t.host = (o.put s (rmWidth p op) v).host := by
  have hf : rmForm op r = some .mr := by rcases hop with rfl | rfl <;> rfl
  obtain ⟨body, ⟨a, ha, b, hb, rfl⟩, hs⟩ := C95_shown_partial (imm := []) (by rwa [List.append_nil]) hf hrm hpl rfl
  refine ⟨a, b, ha, hb, hs, h.falls (C40_mov h.at_ ?_ env hok hv hnz)⟩
  rcases hop with rfl | rfl
  · exact .mr8 hrm hpl
  · have e : rmWidth p 0x89 = opW p := (opW_bytes p).symm
    rw [e] at hrm hpl ⊢
    exact .mr hrm hpl

/-- C95: MOV of r/m to a register: the line shows the register and then the place; after the step the register shown first has the value of the place shown second. -/
theorem C95_mov_load {other : Op → BitVec 3 → List Char} {env : Env} {s t : State} {h0 : Nat} {pfx rm : List (BitVec 8)} {op : BitVec 8} {p : Pfx} {text : List Char}
    {r : BitVec 3} {o : Opnd} {v : BitVec (rmWidth p op)} (h : Traced other env s t h0 pfx (op :: rm) p text) (hop : op = 0x8A ∨ op = 0x8B)
    (hrm : RM s p (rmWidth p op) rm r o) (hpl : Plain s p (rmWidth p op) rm) (hv : o.Has s (rmWidth p op) v)
    (hnz : NotZeroed ((regOp (rmWidth p op) r).put s (rmWidth p op) v) h0 (pfx.length + (op :: rm).length)) :
    ∃ a b, OpndShown s (rmWidth p op) (regOp (rmWidth p op) r) a ∧ OpndShown s (rmWidth p op) o b ∧ ShowsRM s p pfx op r (a ++ b) text ∧
      t.gpr = ((regOp (rmWidth p op) r).put s (rmWidth p op) v).gpr ∧ t.host = ((regOp (rmWidth p op) r).put s (rmWidth p op) v).host := by
  have hf : rmForm op r = some .rm := by rcases hop with rfl | rfl <;> rfl
  obtain ⟨body, ⟨a, ha, b, hb, rfl⟩, hs⟩ := C95_shown_partial (imm := []) (by rwa [List.append_nil]) hf hrm hpl rfl
  refine ⟨b, a, hb, ha, hs, h.falls (C40_mov h.at_ ?_ env (regOp_ok s r) hv hnz)⟩
  rcases hop with rfl | rfl
  · exact .rm8 hrm hpl
  · have e : rmWidth p 0x8B = opW p := (opW_bytes p).symm
    rw [e] at hrm hpl ⊢
    exact .rm hrm hpl

/-! ### Examples -/

/-- ADD [BX+SI],CH; ADD AX,DX with 66; MOV ES:[BP+DI-2],AL; CMP [1234h],word −2 (sign-extended); SHL CL by CL; IMUL; TEST [BX],1234h; MOV [EBX],1 with 67. -/
example : allText demoEnv (demoTrace [0x00, 0x28]) = some "(       1) [0x10100] 1000:0100 ADD (MR) DS:[BX+SI] CH\t; 00 28\n".toList ∧
    allText demoEnv (demoTrace [0x66, 0x03, 0xC2]) = some "(       1) [0x10100] 1000:0100 Ovr (OpSize) <OPER> ADD (RMX) EAX EDX\t; 66 03 c2\n".toList ∧
    allText demoEnv (demoTrace [0x26, 0x88, 0x43, 0xFE]) = some "(       1) [0x10100] 1000:0100 Ovr (Seg) ES MOV (MR) ES:[BP+DI+0xfffffffe] AL\t; 26 88 43 fe\n".toList ∧
    allText demoEnv (demoTrace [0x83, 0x3E, 0x34, 0x12, 0xFE]) = some "(       1) [0x10100] 1000:0100 CMP (MI8X) DS:[0x1234] 0xfffe\t; 83 3e 34 12 fe\n".toList ∧
    allText demoEnv (demoTrace [0xD2, 0xE1]) = some "(       1) [0x10100] 1000:0100 SHL (MCl) CL CL\t; d2 e1\n".toList ∧
    allText demoEnv (demoTrace [0x69, 0xC3, 2, 0]) = some "(       1) [0x10100] 1000:0100 IMUL (MIX) AX BX 0x0002\t; 69 c3 02 00\n".toList ∧
    allText demoEnv (demoTrace [0xF7, 0x07, 0x34, 0x12]) = some "(       1) [0x10100] 1000:0100 TEST (MIX) DS:[BX] 0x1234\t; f7 07 34 12\n".toList ∧
    allText demoEnv (demoTrace [0x67, 0xC6, 0x03, 0x01]) = some "(       1) [0x10100] 1000:0100 Ovr (AddrSize) <ADDR> MOV (MI) DS:[EBX] 0x01\t; 67 c6 03 01\n".toList := by
  refine ⟨?_, ?_, ?_, ?_, ?_, ?_, ?_, ?_⟩ <;> decide +kernel

/-- The hypotheses of `C95_shown_partial`: CMP [1234h],word −2. -/
example : (∃ t text, Traced (fun _ _ => []) demoEnv (demoTrace ([] ++ (0x83 :: ([0x3E, 0x34, 0x12] ++ [0xFE])))) t 0x10100 [] (0x83 :: ([0x3E, 0x34, 0x12] ++ [0xFE])) {} text) ∧
    rmForm 0x83 7 = some (.imm .sext) ∧ RM (demoTrace ([] ++ (0x83 :: ([0x3E, 0x34, 0x12] ++ [0xFE])))) {} 16 [0x3E, 0x34, 0x12] 7 (.mem 0x3000 0x1234) ∧
    Plain (demoTrace ([] ++ (0x83 :: ([0x3E, 0x34, 0x12] ++ [0xFE])))) {} 16 [0x3E, 0x34, 0x12] ∧ rmWidth {} 0x83 = 16 ∧ [(0xFE : BitVec 8)].length = (RmForm.imm .sext).immLen 16 :=
  ⟨demo_traced _ [] _ rfl (by decide) (by decide +kernel), rfl, .mem 0x3E [0x34, 0x12] (by decide) rfl (by decide), fun _ => ⟨by decide, fun _ h => by revert h; decide, fun _ => by decide⟩, rfl, rfl⟩

/-- The hypotheses of `C95_mov_store` and `C95_mov_load`: MOV CL,DH and MOV CX,DX. -/
example : (∃ t text, Traced (fun _ _ => []) demoEnv (demoTrace ([] ++ [0x88, 0xF1])) t 0x10100 [] [0x88, 0xF1] {} text) ∧
    RM (demoTrace ([] ++ [0x88, 0xF1])) {} (rmWidth {} 0x88) [0xF1] 6 (.reg 1) ∧ Plain (demoTrace ([] ++ [0x88, 0xF1])) {} (rmWidth {} 0x88) [0xF1] ∧
    (regOp 8 6).Has (demoTrace ([] ++ [0x88, 0xF1])) 8 (((demoTrace [0x88, 0xF1]).gpr 2 >>> 8).setWidth 8) ∧
    (∃ t text, Traced (fun _ _ => []) demoEnv (demoTrace ([] ++ [0x8B, 0xCA])) t 0x10100 [] [0x8B, 0xCA] {} text) ∧
    RM (demoTrace ([] ++ [0x8B, 0xCA])) {} (rmWidth {} 0x8B) [0xCA] 1 (.reg 2) ∧ Plain (demoTrace ([] ++ [0x8B, 0xCA])) {} (rmWidth {} 0x8B) [0xCA] :=
  ⟨demo_traced _ [] _ rfl (by decide) (by decide +kernel), .reg 0xF1 (by decide), fun h => absurd (by decide) h, ⟨rfl, rfl⟩,
   demo_traced _ [] _ rfl (by decide) (by decide +kernel), .reg 0xCA (by decide), fun h => absurd (by decide) h⟩

/-- LEA SI,[BX+SI]; MOV [1234h],DS; MOV ES,DX; JMP [BX]; CALL far [BX+SI]; PUSH DX; POP [BX]; INC SI with 66. -/
example : allText demoEnv (demoTrace [0x8D, 0x30]) = some "(       1) [0x10100] 1000:0100 LEA (z) SI DS:[BX+SI]\t; 8d 30\n".toList ∧
    allText demoEnv (demoTrace [0x8C, 0x1E, 0x34, 0x12]) = some "(       1) [0x10100] 1000:0100 MOV (RS) DS:[0x1234] DS\t; 8c 1e 34 12\n".toList ∧
    allText demoEnv (demoTrace [0x8E, 0xC2]) = some "(       1) [0x10100] 1000:0100 MOV (SR) ES DX\t; 8e c2\n".toList ∧
    allText demoEnv (demoTrace [0x66, 0xFF, 0xC6]) = some "(       1) [0x10100] 1000:0100 Ovr (OpSize) <OPER> INC (MX) ESI\t; 66 ff c6\n".toList := by
  refine ⟨?_, ?_, ?_, ?_⟩ <;> decide +kernel

/-- Uncut, the claim of `C95_shown_partial` is violated: with two prefixes, a SIB byte and a displacement the line does not have the number any more. -/
theorem C95_violated_cut : ∃ x : List Char,
    allText demoEnv (demoTrace [0x67, 0x26, 0x81, 0xBC, 0x83, 0x78, 0x56, 0x34, 0x12, 0x34, 0x12]) =
      some (x ++ "\t; 67 26 81 bc 83 78 56 34 12 34 12\n".toList) ∧
    allText demoEnv (demoTrace [0x67, 0x26, 0x81, 0xBC, 0x83, 0x78, 0x56, 0x34, 0x12, 0x35, 0x12]) =
      some (x ++ "\t; 67 26 81 bc 83 78 56 34 12 35 12\n".toList) := by
  refine ⟨"(       1) [0x10100] 1000:0100 Ovr (AddrSize) <ADDR> Ovr (Seg) ES CMP (MIX) ES:[EDX*1+EDX+0x7$".toList, ?_, ?_⟩ <;> decide +kernel

end RME.Trace
