import Verif.Spec.Decimal
import Verif.Props.Arith
import Verif.Props.Flags
import Verif.Lemmas.Code
import Verif.Lemmas.Conc
set_option autoImplicit false
/-
C41: decimal arithmetic.
-/
namespace RME

theorem nib15 (v : BitVec 8) : (v &&& 0xF).toNat = v.toNat % 16 := by
  rw [BitVec.toNat_and]
  exact Nat.and_two_pow_sub_one_eq_mod v.toNat 4

/-- The two corrections DAA decides on. -/
def lowFix (v : BitVec 8) (f : BitVec 16) : Bool := decide (v.toNat % 16 > 9) || f.getLsbD bAF
def highFix (v : BitVec 8) (f : BitVec 16) : Bool := decide (v.toNat > 0x99) || f.getLsbD bCF

theorem daaCode_val (v : BitVec 8) (f : BitVec 16) :
    (daaCode v f).1.toNat = (v.toNat + 6 * (lowFix v f).toNat + 0x60 * (highFix v f).toNat) % 256 := by
  have hc : tst (clr f FLAG_CF) FLAG_AF = f.getLsbD bAF := by rw [tst_AF, clr_bit _ _ _ (by decide)]; simp [bAF]
  simp only [daaCode, hc, nib15, tst_CF, lowFix, highFix]
  by_cases h1 : (decide (v.toNat % 16 > 9) || f.getLsbD bAF) = true <;>
    by_cases h2 : (decide (v.toNat > 0x99) || f.getLsbD bCF) = true <;>
    simp only [h1, h2, if_true, if_false, Bool.false_eq_true, BitVec.toNat_add, Bool.toNat_true, Bool.toNat_false] <;> simp <;> omega

theorem daaCode_flags (v : BitVec 8) (f : BitVec 16) :
    (daaCode v f).2.getLsbD bCF = highFix v f ∧ (daaCode v f).2.getLsbD bAF = lowFix v f ∧ ResultFlags (daaCode v f).2 (daaCode v f).1 ∧
    OnlyBits decimalBits f (daaCode v f).2 := by
  have hc : tst (clr f FLAG_CF) FLAG_AF = f.getLsbD bAF := by rw [tst_AF, clr_bit _ _ _ (by decide)]; simp [bAF]
  refine ⟨?_, ?_, setCommFlags_res (by decide) _ _, ?_⟩
  · simp only [daaCode]; rw [setCommFlags_CF (by decide)]
    simp only [hc, nib15, tst_CF, lowFix, highFix]
    by_cases h1 : (decide (v.toNat % 16 > 9) || f.getLsbD bAF) = true <;>
      by_cases h2 : (decide (v.toNat > 0x99) || f.getLsbD bCF) = true <;>
      simp only [h1, h2, if_true, if_false, Bool.false_eq_true] <;> simp [clr, bCF]
  · simp only [daaCode]; rw [setCommFlags_AF (by decide)]
    simp only [hc, nib15, tst_CF, lowFix, highFix]
    by_cases h1 : (decide (v.toNat % 16 > 9) || f.getLsbD bAF) = true <;>
      by_cases h2 : (decide (v.toNat > 0x99) || f.getLsbD bCF) = true <;>
      simp only [h1, h2, if_true, if_false, Bool.false_eq_true] <;> simp [clr, bAF]
  · intro i hi hn
    simp only [decimalBits, List.mem_cons, List.not_mem_nil, or_false, not_or] at hn
    simp only [daaCode]
    rw [setCommFlags_bit (by decide) _ _ _ hi, if_neg hn.2.1, if_neg hn.2.2.2.1, if_neg hn.2.2.2.2]
    have hh : i ≠ 0 ∧ i ≠ 4 := ⟨hn.1, hn.2.2.1⟩
    simp only [hc, nib15, tst_CF]
    by_cases h1 : (decide (v.toNat % 16 > 9) || f.getLsbD bAF) = true <;>
      by_cases h2 : (decide (v.toNat > 0x99) || f.getLsbD bCF) = true <;>
      simp only [h1, h2, if_true, if_false, Bool.false_eq_true] <;> clear h1 h2 hn <;> generalize (decide (v.toNat ≥ 0x100 - 6)) = q <;> revert i <;> refine forall_bits ?_ <;>
      (first | (simp [clr]; done) | (cases q <;> simp [clr, orIf]))

/-- The flag CF after DAS. -/
def dasCF (v : BitVec 8) (f : BitVec 16) : Bool := highFix v f || (lowFix v f && decide (v.toNat < 6))

theorem dasCode_val (v : BitVec 8) (f : BitVec 16) :
    (dasCode v f).1.toNat = (v.toNat + (256 - 6 * (lowFix v f).toNat) + (256 - 0x60 * (highFix v f).toNat)) % 256 := by
  have hc : tst (clr f FLAG_CF) FLAG_AF = f.getLsbD bAF := by rw [tst_AF, clr_bit _ _ _ (by decide)]; simp [bAF]
  simp only [dasCode, hc, nib15, tst_CF, lowFix, highFix]
  by_cases h1 : (decide (v.toNat % 16 > 9) || f.getLsbD bAF) = true <;>
    by_cases h2 : (decide (v.toNat > 0x99) || f.getLsbD bCF) = true <;>
    simp only [h1, h2, if_true, if_false, Bool.false_eq_true, BitVec.toNat_sub, Bool.toNat_true, Bool.toNat_false] <;> simp <;> omega

theorem dasCode_flags (v : BitVec 8) (f : BitVec 16) :
    (dasCode v f).2.getLsbD bCF = dasCF v f ∧ (dasCode v f).2.getLsbD bAF = lowFix v f ∧ ResultFlags (dasCode v f).2 (dasCode v f).1 ∧
    OnlyBits decimalBits f (dasCode v f).2 := by
  have hc : tst (clr f FLAG_CF) FLAG_AF = f.getLsbD bAF := by rw [tst_AF, clr_bit _ _ _ (by decide)]; simp [bAF]
  refine ⟨?_, ?_, setCommFlags_res (by decide) _ _, ?_⟩
  · simp only [dasCode]; rw [setCommFlags_CF (by decide)]
    simp only [hc, nib15, tst_CF, lowFix, highFix, dasCF]
    by_cases h1 : (decide (v.toNat % 16 > 9) || f.getLsbD bAF) = true <;>
      by_cases h2 : (decide (v.toNat > 0x99) || f.getLsbD bCF) = true <;>
      simp only [h1, h2, if_true, if_false, Bool.false_eq_true] <;> generalize (decide (v.toNat < 6)) = q <;>
      cases q <;> simp [clr, bCF, orIf]
  · simp only [dasCode]; rw [setCommFlags_AF (by decide)]
    simp only [hc, nib15, tst_CF, lowFix, highFix]
    by_cases h1 : (decide (v.toNat % 16 > 9) || f.getLsbD bAF) = true <;>
      by_cases h2 : (decide (v.toNat > 0x99) || f.getLsbD bCF) = true <;>
      simp only [h1, h2, if_true, if_false, Bool.false_eq_true] <;> generalize (decide (v.toNat < 6)) = q <;>
      cases q <;> simp [clr, bAF, orIf]
  · intro i hi hn
    simp only [decimalBits, List.mem_cons, List.not_mem_nil, or_false, not_or] at hn
    simp only [dasCode]
    rw [setCommFlags_bit (by decide) _ _ _ hi, if_neg hn.2.1, if_neg hn.2.2.2.1, if_neg hn.2.2.2.2]
    have hh : i ≠ 0 ∧ i ≠ 4 := ⟨hn.1, hn.2.2.1⟩
    simp only [hc, nib15, tst_CF]
    by_cases h1 : (decide (v.toNat % 16 > 9) || f.getLsbD bAF) = true <;>
      by_cases h2 : (decide (v.toNat > 0x99) || f.getLsbD bCF) = true <;>
      simp only [h1, h2, if_true, if_false, Bool.false_eq_true] <;> clear h1 h2 hn <;> generalize (decide (v.toNat < 6)) = q <;> revert i <;> refine forall_bits ?_ <;>
      (first | (simp [clr]; done) | (cases q <;> simp [clr, orIf]))

theorem daa_nat : ∀ X, X < 19 → ∀ Y, Y < 20 →
    ((16 * X + Y) % 256 + 6 * (decide (10 ≤ Y)).toNat + 0x60 * (decide (100 ≤ 10 * X + Y)).toNat) % 256 =
      16 * (X + (decide (10 ≤ Y)).toNat - 10 * (decide (100 ≤ 10 * X + Y)).toNat) + (Y - 10 * (decide (10 ≤ Y)).toNat) ∧
    X + (decide (10 ≤ Y)).toNat - 10 * (decide (100 ≤ 10 * X + Y)).toNat ≤ 9 ∧ Y - 10 * (decide (10 ≤ Y)).toNat ≤ 9 ∧
    10 * (decide (100 ≤ 10 * X + Y)).toNat ≤ X + (decide (10 ≤ Y)).toNat ∧ 10 * (decide (10 ≤ Y)).toNat ≤ Y := by decide +kernel

/-- C41: DAA after an addition (with or without carry) of packed BCD operands `a`, `b` in AL: AL becomes the packed BCD sum modulo 100
and CF the decimal carry. The other registers, memory and the flags outside SF ZF AF PF CF do not change. -/
theorem C41_daa {s : State} {h0 : Nat} {p : Pfx} {len : Nat} (hat : At s h0 p [0x27] len) (env : Env)
    {a b v : BitVec 8} {c : Bool} {g : BitVec 16} (hal : (Opnd.reg 0).Has s 8 v) (hadd : AddSpec a b c g v s.flags)
    (ha : isBcd a) (hb : isBcd b) :
    ∃ v' f', Falls env s len { (Opnd.reg 0).put s 8 v' with flags := f' } ∧ isBcd v' ∧
      bcd v' + 100 * (f'.getLsbD bCF).toNat = bcd a + bcd b + c.toNat ∧
      f'.getLsbD bAF = decide (10 ≤ a.toNat % 16 + b.toNat % 16 + c.toNat) ∧ ResultFlags f' v' ∧ OnlyBits decimalBits s.flags f' := by
  obtain ⟨hcf, haf, hres, hob⟩ := daaCode_flags v s.flags
  have hval := daaCode_val v s.flags
  have hrun : opFn .daa 0 env (opState s p len) = .ok () { ({ (Opnd.reg 0).put s 8 (daaCode v s.flags).1 with flags := (daaCode v s.flags).2 } : State) with
      dec := decOf p len, instrNum := s.instrNum + 1 } := by
    have hv : (opState s p len).reg 8 rAX = v := hal.symm
    simp only [opFn, opDA, bind_apply, getReg_apply, resbind_ok, getFlags_apply, setReg_apply, setFlags_apply, hv]
    rw [put_reg]
    rfl
  have key : isBcd (daaCode v s.flags).1 ∧ bcd (daaCode v s.flags).1 + 100 * (highFix v s.flags).toNat = bcd a + bcd b + c.toNat ∧
      lowFix v s.flags = decide (10 ≤ a.toNat % 16 + b.toNat % 16 + c.toNat) := by
    have h1 := hadd.val
    have h2 := hadd.cf
    have h3 := hadd.af
    have h4 := a.isLt
    have h5 := b.isLt
    have e1 : lowFix v s.flags = decide (10 ≤ a.toNat % 16 + b.toNat % 16 + c.toNat) := by
      rw [lowFix, h3, h1, ← Bool.decide_or]
      refine decide_eq_decide.mpr ?_
      cases c <;> simp <;> simp only [isBcd] at ha hb <;> omega
    have e2 : highFix v s.flags = decide (100 ≤ bcd a + bcd b + c.toNat) := by
      rw [highFix, h2, h1, ← Bool.decide_or]
      refine decide_eq_decide.mpr ?_
      cases c <;> simp <;> simp only [isBcd, bcd] at ha hb ⊢ <;> omega
    have hX : a.toNat / 16 + b.toNat / 16 < 19 := by have := ha.1; have := hb.1; omega
    have hY : a.toNat % 16 + b.toNat % 16 + c.toNat < 20 := by
      have := ha.2; have := hb.2; have := c.toNat_le; omega
    obtain ⟨k1, k2, k3, k4, k5⟩ := daa_nat _ hX _ hY
    have eN : (a.toNat + b.toNat + c.toNat) % 2 ^ 8 = (16 * (a.toNat / 16 + b.toNat / 16) + (a.toNat % 16 + b.toNat % 16 + c.toNat)) % 256 := by
      congr 1; omega
    have eB : bcd a + bcd b + c.toNat = 10 * (a.toNat / 16 + b.toNat / 16) + (a.toNat % 16 + b.toNat % 16 + c.toNat) := by
      simp only [bcd]; omega
    rw [h1, e1, e2, eB, eN, k1] at hval
    refine ⟨?_, ?_, e1⟩
    · simp only [isBcd, hval]; omega
    · rw [e2, eB]
      simp only [bcd, hval]; omega
  rw [← hcf, ← haf] at key
  exact ⟨_, _, one_falls hat env (by decide) (by decide) (o := .daa) (a := 0) (by decide +kernel) _ hrun rfl rfl rfl rfl, key.1,
    key.2.1, key.2.2, hres, hob⟩

theorem das_nat : ∀ D, D < 19 → ∀ E, E < 20 →
    ((16 * D + E + 102) % 256 + (256 - 6 * (decide (E < 10)).toNat) + (256 - 0x60 * (decide (16 * D + E < 154)).toNat)) % 256 =
      16 * (D + 10 * (decide (16 * D + E < 154)).toNat - 9 - (decide (E < 10)).toNat) + (E + 10 * (decide (E < 10)).toNat - 10) ∧
    D + 10 * (decide (16 * D + E < 154)).toNat - 9 - (decide (E < 10)).toNat ≤ 9 ∧ E + 10 * (decide (E < 10)).toNat - 10 ≤ 9 ∧
    9 + (decide (E < 10)).toNat ≤ D + 10 * (decide (16 * D + E < 154)).toNat ∧ 10 ≤ E + 10 * (decide (E < 10)).toNat ∧
    (decide ((16 * D + E + 102) % 256 % 16 > 9) || decide (E < 10)) = decide (E < 10) ∧
    (decide ((16 * D + E + 102) % 256 > 0x99) || decide (16 * D + E < 154)) = decide (16 * D + E < 154) ∧
    (decide (16 * D + E < 154) || (decide (E < 10) && decide ((16 * D + E + 102) % 256 < 6))) = decide (16 * D + E < 154) := by decide +kernel

/-- C41: DAS after a subtraction (with or without borrow) of packed BCD operands `a`, `b` in AL: AL becomes the packed BCD difference
modulo 100 and CF the decimal borrow. -/
theorem C41_das {s : State} {h0 : Nat} {p : Pfx} {len : Nat} (hat : At s h0 p [0x2F] len) (env : Env)
    {a b v : BitVec 8} {c : Bool} {g : BitVec 16} (hal : (Opnd.reg 0).Has s 8 v) (hsub : SubSpec a b c g v s.flags)
    (ha : isBcd a) (hb : isBcd b) :
    ∃ v' f', Falls env s len { (Opnd.reg 0).put s 8 v' with flags := f' } ∧ isBcd v' ∧
      bcd v' + bcd b + c.toNat = bcd a + 100 * (f'.getLsbD bCF).toNat ∧
      f'.getLsbD bAF = decide (a.toNat % 16 < b.toNat % 16 + c.toNat) ∧ ResultFlags f' v' ∧ OnlyBits decimalBits s.flags f' := by
  obtain ⟨hcf, haf, hres, hob⟩ := dasCode_flags v s.flags
  have hval := dasCode_val v s.flags
  have hrun : opFn .das 0 env (opState s p len) = .ok () { ({ (Opnd.reg 0).put s 8 (dasCode v s.flags).1 with flags := (dasCode v s.flags).2 } : State) with
      dec := decOf p len, instrNum := s.instrNum + 1 } := by
    have hv : (opState s p len).reg 8 rAX = v := hal.symm
    simp only [opFn, opDA, bind_apply, getReg_apply, resbind_ok, getFlags_apply, setReg_apply, setFlags_apply, hv]
    rw [put_reg]
    rfl
  have key : isBcd (dasCode v s.flags).1 ∧ bcd (dasCode v s.flags).1 + bcd b + c.toNat = bcd a + 100 * (dasCF v s.flags).toNat ∧
      lowFix v s.flags = decide (a.toNat % 16 < b.toNat % 16 + c.toNat) := by
    have h1 := hsub.val
    have h2 := hsub.cf
    have h3 := hsub.af
    have h4 := a.isLt
    have h5 := b.isLt
    have hc := c.toNat_le
    obtain ⟨ha1, ha2⟩ := ha
    obtain ⟨hb1, hb2⟩ := hb
    have hX : a.toNat / 16 + 9 - b.toNat / 16 < 19 := by omega
    have hY : a.toNat % 16 + 10 - b.toNat % 16 - c.toNat < 20 := by omega
    obtain ⟨k1, k2, k3, k4, k5, k6, k7, k8⟩ := das_nat _ hX _ hY
    have eE : decide (a.toNat % 16 + 10 - b.toNat % 16 - c.toNat < 10) = decide (a.toNat % 16 < b.toNat % 16 + c.toNat) :=
      decide_eq_decide.mpr (by omega)
    have eD : decide (16 * (a.toNat / 16 + 9 - b.toNat / 16) + (a.toNat % 16 + 10 - b.toNat % 16 - c.toNat) < 154) = decide (a.toNat < b.toNat + c.toNat) :=
      decide_eq_decide.mpr (by omega)
    have eS : 16 * (a.toNat / 16 + 9 - b.toNat / 16) + (a.toNat % 16 + 10 - b.toNat % 16 - c.toNat) + 102 + b.toNat + c.toNat = a.toNat + 256 := by omega
    have eV : v.toNat = (16 * (a.toNat / 16 + 9 - b.toNat / 16) + (a.toNat % 16 + 10 - b.toNat % 16 - c.toNat) + 102) % 256 := by
      generalize 16 * (a.toNat / 16 + 9 - b.toNat / 16) + (a.toNat % 16 + 10 - b.toNat % 16 - c.toNat) + 102 = S at eS ⊢
      clear k1 k2 k3 k4 k5 k6 k7 k8 eE eD hX hY
      omega
    rw [eE] at k1 k2 k3 k4 k5 k6 k8
    rw [eD] at k1 k2 k4 k7 k8
    rw [← eV] at k1 k6 k7 k8
    have e1 : lowFix v s.flags = decide (a.toNat % 16 < b.toNat % 16 + c.toNat) := by
      rw [lowFix, h3]; exact k6
    have e2 : highFix v s.flags = decide (a.toNat < b.toNat + c.toNat) := by
      rw [highFix, h2]; exact k7
    have e3 : dasCF v s.flags = decide (a.toNat < b.toNat + c.toNat) := by
      rw [dasCF, e1, e2]; exact k8
    rw [e1, e2, k1] at hval
    refine ⟨?_, ?_, e1⟩
    · simp only [isBcd, hval]
      clear hval k6 k7 k8 e1 e2 e3 eE eD eS eV
      generalize (decide (a.toNat % 16 < b.toNat % 16 + c.toNat)).toNat = d1 at *
      generalize (decide (a.toNat < b.toNat + c.toNat)).toNat = d2 at *
      generalize a.toNat / 16 + 9 - b.toNat / 16 + 10 * d2 - 9 - d1 = P at *
      generalize a.toNat % 16 + 10 - b.toNat % 16 - c.toNat + 10 * d1 - 10 = Q at *
      omega
    · rw [e3]
      simp only [bcd, hval]
      clear hval k6 k7 k8 e1 e2 e3 eE eD eS eV h1 h2 h3 k1
      generalize (decide (a.toNat % 16 < b.toNat % 16 + c.toNat)).toNat = d1 at *
      generalize (decide (a.toNat < b.toNat + c.toNat)).toNat = d2 at *
      generalize hP : a.toNat / 16 + 9 - b.toNat / 16 + 10 * d2 - 9 - d1 = P at *
      generalize hQ : a.toNat % 16 + 10 - b.toNat % 16 - c.toNat + 10 * d1 - 10 = Q at *
      omega
  rw [← hcf, ← haf] at key
  exact ⟨_, _, one_falls hat env (by decide) (by decide) (o := .das) (a := 0) (by decide +kernel) _ hrun rfl rfl rfl rfl, key.1,
    key.2.1, key.2.2, hres, hob⟩

/-! ### Unpacked digits -/

theorem put_high (t : State) (h : BitVec 8) : (Opnd.high 0).put t 8 h = t.setRegH 8 0 h := by
  refine State.ext' ?_ rfl rfl rfl rfl rfl rfl rfl rfl rfl rfl rfl rfl
  funext y
  rw [gpr_setRegH8]
  rfl

theorem high_low (t : State) (l h : BitVec 8) : (t.setRegH 8 0 h).setReg 8 0 l = (t.setReg 8 0 l).setRegH 8 0 h := by
  refine State.ext' ?_ rfl rfl rfl rfl rfl rfl rfl rfl rfl rfl rfl rfl
  funext y
  by_cases hy : y = 0
  · subst hy
    apply BitVec.eq_of_getLsbD_eq
    intro i hi
    rw [gpr_setRegH8_same _ _ _ _ hi]
    simp only [gpr_setReg, if_true]
    rw [putLow_bit _ _ _ hi, putLow_bit _ _ _ hi, gpr_setRegH8_same _ _ _ _ hi]
    by_cases h1 : i < 8
    · simp [h1, show ¬ 8 ≤ i by omega]
    · simp [h1]
  · rw [gpr_setRegH8_ne _ hy]
    simp only [gpr_setReg, if_neg hy]
    rw [gpr_setRegH8_ne _ hy]

theorem withAX_op (s : State) (p : Pfx) (len : Nat) (l h : BitVec 8) (f : BitVec 16) :
    { ((opState s p len).setReg 8 rAX l).setRegH 8 rAX h with flags := f } =
      ({ withAX s l h f with dec := decOf p len, instrNum := s.instrNum + 1 } : State) := by
  unfold withAX
  rw [put_high, put_reg]
  rfl

theorem withAX_frame (s : State) (l h : BitVec 8) (f : BitVec 16) :
    (withAX s l h f).ip = s.ip ∧ (withAX s l h f).map = s.map ∧ (withAX s l h f).valid = s.valid ∧ (withAX s l h f).host = s.host :=
  ⟨rfl, rfl, rfl, rfl⟩

theorem aa_run {s : State} {p : Pfx} {len : Nat} (env : Env) (sub : Bool) {v h : BitVec 8} (hal : (Opnd.reg 0).Has s 8 v)
    (hah : (Opnd.high 0).Has s 8 h) :
    opAA sub env (opState s p len) = .ok () { withAX s (aaCode sub v h s.flags).1 (aaCode sub v h s.flags).2.1 (aaCode sub v h s.flags).2.2 with
      dec := decOf p len, instrNum := s.instrNum + 1 } := by
  have hv : (opState s p len).reg 8 rAX = v := hal.symm
  have hh : (opState s p len).regH 8 rAX = h := by rw [regH_eq]; exact hah.2.symm
  simp only [opAA, bind_apply, getReg_apply, resbind_ok, getFlags_apply, setReg_apply, setFlags_apply, gets_apply, modify_apply, hv, hh]
  exact congrArg _ (withAX_op s p len _ _ _)

theorem aaCode_spec (sub : Bool) (v h : BitVec 8) (f : BitVec 16) :
    (aaCode sub v h f).1.toNat = (if lowFix v f then (if sub then v.toNat + 10 else v.toNat + 6) else v.toNat) % 16 ∧
    (aaCode sub v h f).2.1 = (if lowFix v f then (if sub then h - 1 else h + 1) else h) ∧
    (aaCode sub v h f).2.2.getLsbD bCF = lowFix v f ∧ (aaCode sub v h f).2.2.getLsbD bAF = lowFix v f ∧
    ResultFlags (aaCode sub v h f).2.2 (aaCode sub v h f).1 ∧ OnlyBits decimalBits f (aaCode sub v h f).2.2 := by
  have e : (decide ((v &&& 0xF).toNat > 9) || tst f FLAG_AF) = lowFix v f := by rw [nib15, tst_AF, lowFix]
  unfold aaCode
  rw [e]
  have hob : ∀ x : BitVec 16, (∀ i < 16, i ≠ 0 → i ≠ 4 → x.getLsbD i = f.getLsbD i) → ∀ w : BitVec 8, OnlyBits decimalBits f (setCommFlags x w) := by
    intro x hx w i hi hn
    simp only [decimalBits, List.mem_cons, List.not_mem_nil, or_false, not_or] at hn
    rw [setCommFlags_bit (by decide) _ _ _ hi, if_neg hn.2.1, if_neg hn.2.2.2.1, if_neg hn.2.2.2.2]
    exact hx i hi hn.1 hn.2.2.1
  cases lowFix v f
  · simp only [Bool.false_eq_true, if_false]
    refine ⟨nib15 v, trivial, ?_, ?_, setCommFlags_res (by decide) _ _, hob _ ?_ _⟩
    · rw [setCommFlags_CF (by decide)]; simp [clr, bCF]
    · rw [setCommFlags_AF (by decide)]; simp [clr, bAF]
    · refine forall_bits ?_; simp [clr]
  · simp only [if_true]
    refine ⟨?_, trivial, ?_, ?_, setCommFlags_res (by decide) _ _, hob _ ?_ _⟩
    · rw [nib15]; cases sub <;> simp <;> omega
    · rw [setCommFlags_CF (by decide)]; simp [bCF]
    · rw [setCommFlags_AF (by decide)]; simp [bAF]
    · refine forall_bits ?_; simp

/-- C41: AAA after the addition of two (unpacked or ASCII) digits in AL: AL becomes the digit of the sum, and AH is incremented and CF
and AF set exactly if the sum is 10 or more. -/
theorem C41_aaa {s : State} {h0 : Nat} {p : Pfx} {len : Nat} (hat : At s h0 p [0x37] len) (env : Env)
    {a b v h : BitVec 8} {c : Bool} {g : BitVec 16} (hal : (Opnd.reg 0).Has s 8 v) (hah : (Opnd.high 0).Has s 8 h)
    (hadd : AddSpec a b c g v s.flags) (ha : isDigit a) (hb : isDigit b) :
    ∃ k f', (k = true ↔ 10 ≤ digit a + digit b + c.toNat) ∧
      Falls env s len (withAX s (BitVec.ofNat 8 ((digit a + digit b + c.toNat) % 10)) (if k then h + 1 else h) f') ∧
      f'.getLsbD bCF = k ∧ f'.getLsbD bAF = k ∧ OnlyBits decimalBits s.flags f' := by
  obtain ⟨e1, e2, e3, e4, _, e6⟩ := aaCode_spec false v h s.flags
  have h1 := hadd.val
  have h3 := hadd.af
  have hc := c.toNat_le
  simp only [isDigit] at ha hb
  have el : lowFix v s.flags = decide (10 ≤ digit a + digit b + c.toNat) := by
    rw [lowFix, h3, h1, ← Bool.decide_or]
    refine decide_eq_decide.mpr ?_
    simp only [digit]; omega
  have ev : (aaCode false v h s.flags).1 = BitVec.ofNat 8 ((digit a + digit b + c.toNat) % 10) := by
    apply BitVec.eq_of_toNat_eq
    rw [e1, el]
    have em : v.toNat % 16 = (digit a + digit b + c.toNat) % 16 := by simp only [digit]; omega
    have hd : digit a + digit b + c.toNat ≤ 19 := by simp only [digit]; omega
    generalize digit a + digit b + c.toNat = S at *
    clear h1 h3 e1 el ha hb hc
    rw [BitVec.toNat_ofNat]
    by_cases hS : 10 ≤ S <;> simp [hS] <;> omega
  refine ⟨lowFix v s.flags, _, by rw [el, decide_eq_true_iff], ?_, e3, e4, e6⟩
  have := one_falls hat env (by decide) (by decide) (o := .aaa) (a := 0) (by decide +kernel) _ (aa_run env false hal hah) rfl rfl rfl rfl
  rw [ev, e2] at this
  simpa using this

/-- C41: AAS after the subtraction of two digits in AL: AL becomes the digit of the difference modulo 10, and AH is decremented and CF
and AF set exactly if there is a borrow. -/
theorem C41_aas {s : State} {h0 : Nat} {p : Pfx} {len : Nat} (hat : At s h0 p [0x3F] len) (env : Env)
    {a b v h : BitVec 8} {c : Bool} {g : BitVec 16} (hal : (Opnd.reg 0).Has s 8 v) (hah : (Opnd.high 0).Has s 8 h)
    (hsub : SubSpec a b c g v s.flags) (ha : isDigit a) (hb : isDigit b) :
    ∃ k f', (k = true ↔ digit a < digit b + c.toNat) ∧
      Falls env s len (withAX s (BitVec.ofNat 8 ((digit a + 10 - digit b - c.toNat) % 10)) (if k then h - 1 else h) f') ∧
      f'.getLsbD bCF = k ∧ f'.getLsbD bAF = k ∧ OnlyBits decimalBits s.flags f' := by
  obtain ⟨e1, e2, e3, e4, _, e6⟩ := aaCode_spec true v h s.flags
  have h1 := hsub.val
  have h3 := hsub.af
  have hc := c.toNat_le
  have ea := a.isLt
  have eb := b.isLt
  simp only [isDigit] at ha hb
  have em : v.toNat % 16 = (a.toNat % 16 + 16 - b.toNat % 16 - c.toNat) % 16 := by omega
  have el : lowFix v s.flags = decide (digit a < digit b + c.toNat) := by
    rw [lowFix, h3, em, ← Bool.decide_or]
    refine decide_eq_decide.mpr ?_
    simp only [digit]; omega
  have ev : (aaCode true v h s.flags).1 = BitVec.ofNat 8 ((digit a + 10 - digit b - c.toNat) % 10) := by
    apply BitVec.eq_of_toNat_eq
    rw [e1, el]
    have em' : v.toNat % 16 = (digit a + 16 - digit b - c.toNat) % 16 := em
    have hd : digit a ≤ 9 ∧ digit b + c.toNat ≤ 10 := by simp only [digit]; omega
    clear em h1 h3 e1 el ha hb hc ea eb
    rw [Nat.sub_sub] at em' ⊢
    generalize digit b + c.toNat = T at *
    generalize digit a = S at *
    rw [BitVec.toNat_ofNat]
    by_cases hS : S < T <;> simp [hS] <;> omega
  refine ⟨lowFix v s.flags, _, by rw [el, decide_eq_true_iff], ?_, e3, e4, e6⟩
  have := one_falls hat env (by decide) (by decide) (o := .aas) (a := 0) (by decide +kernel) _ (aa_run env true hal hah) rfl rfl rfl rfl
  rw [ev, e2] at this
  simpa using this

/-- C41: AAM n (n ≠ 0) splits AL into quotient (AH) and remainder (AL) by n. -/
theorem C41_aam {s : State} {h0 : Nat} {p : Pfx} {len : Nat} {n : BitVec 8} (hat : At s h0 p [0xD4, n] len) (env : Env)
    (hn : n ≠ 0) {v : BitVec 8} (hal : (Opnd.reg 0).Has s 8 v) :
    ∃ l h f', l.toNat = v.toNat % n.toNat ∧ h.toNat = v.toNat / n.toNat ∧ ResultFlags f' l ∧ OnlyBits [bPF, bZF, bSF] s.flags f' ∧
      Falls env s len (withAX s l h f') := by
  refine ⟨v % n, v / n, setCommFlags s.flags (v % n), BitVec.toNat_umod .., BitVec.toNat_udiv .., setCommFlags_res (by decide) _ _, ?_, ?_⟩
  · intro i hi hx
    simp only [List.mem_cons, List.not_mem_nil, or_false, not_or] at hx
    rw [setCommFlags_bit (by decide) _ _ _ hi, if_neg hx.1, if_neg hx.2.1, if_neg hx.2.2]
  refine step_falls hat env (by decide) (e := ⟨.base .aam, 0, false⟩) (by decide) (a := 0) rfl _ (decOf p len) ?_ rfl rfl rfl rfl rfl
    (notZeroed_same hat (by decide) rfl)
  intro bytes j hc hj hsub
  have hj' : j + 1 = len := hj
  subst hj'
  have hv : (opState s p (j + 1)).reg 8 rAX = v := hal.symm
  have h0 : (n == 0) = false := by simpa using hn
  simp only [callFn, opFn, opAam, bind_apply, fetch8 hc env p _ hsub.head, resbind_ok, guardE_apply, h0, Bool.false_eq_true, if_false,
    getReg_apply, modify_apply, setReg_apply, getFlags_apply, setFlags_apply, hv]
  refine congrArg (Res.ok ()) ?_
  rw [← withAX_op]
  rw [← high_low]
  rfl

/-- C41: AAD n replaces AL by AH·n + AL (modulo 256) and clears AH. -/
theorem C41_aad {s : State} {h0 : Nat} {p : Pfx} {len : Nat} {n : BitVec 8} (hat : At s h0 p [0xD5, n] len) (env : Env)
    {v h : BitVec 8} (hal : (Opnd.reg 0).Has s 8 v) (hah : (Opnd.high 0).Has s 8 h) :
    ∃ l f', l.toNat = (h.toNat * n.toNat + v.toNat) % 256 ∧ ResultFlags f' l ∧ OnlyBits [bPF, bZF, bSF, bCF, bOF] s.flags f' ∧
      Falls env s len (withAX s l 0 f') := by
  refine ⟨v + h * n, clr (setCommFlags s.flags (v + h * n)) (FLAG_OF ||| FLAG_CF), ?_, ?_, ?_, ?_⟩
  · rw [BitVec.toNat_add, BitVec.toNat_mul]; omega
  · have := setCommFlags_res (n := 8) (by decide) s.flags (v + h * n)
    constructor
    · rw [← this.pf, clr_bit _ _ _ (by decide)]; simp [bPF]
    · rw [← this.zf, clr_bit _ _ _ (by decide)]; simp [bZF]
    · rw [← this.sf, clr_bit _ _ _ (by decide)]; simp [bSF]
  · intro i hi hx
    simp only [List.mem_cons, List.not_mem_nil, or_false, not_or] at hx
    rw [clr_bit _ _ _ hi, setCommFlags_bit (by decide) _ _ _ hi, if_neg hx.1, if_neg hx.2.1, if_neg hx.2.2.1]
    have h1 : i ≠ 0 ∧ i ≠ 11 := ⟨hx.2.2.2.1, hx.2.2.2.2⟩
    have : (FLAG_OF ||| FLAG_CF).getLsbD i = false := by
      clear hx
      revert i
      refine forall_bits ?_
      simp
    rw [this]; simp
  refine step_falls hat env (by decide) (e := ⟨.base .aad, 0, false⟩) (by decide) (a := 0) rfl _ (decOf p len) ?_ rfl rfl rfl rfl rfl
    (notZeroed_same hat (by decide) rfl)
  intro bytes j hc hj hsub
  have hj' : j + 1 = len := hj
  subst hj'
  have hv : (opState s p (j + 1)).reg 8 rAX = v := hal.symm
  have hh : (opState s p (j + 1)).regH 8 rAX = h := by rw [regH_eq]; exact hah.2.symm
  simp only [callFn, opFn, opAad, bind_apply, fetch8 hc env p _ hsub.head, resbind_ok,
    getReg_apply, modify_apply, setReg_apply, getFlags_apply, setFlags_apply, gets_apply, hv, hh]
  exact congrArg _ (withAX_op ..)

/-! ### Whole sequences -/

theorem TwoInstr.first {s : State} {h0 : Nat} {pfx : List (BitVec 8)} {p : Pfx} {code next : List (BitVec 8)} (h : TwoInstr s h0 pfx p code next) :
    At s h0 p code (pfx ++ code).length :=
  ⟨h.ready, pfx, h.parsed, codeAt_left h.code, List.length_append⟩

theorem TwoInstr.second {s t : State} {h0 : Nat} {pfx : List (BitVec 8)} {p : Pfx} {code next : List (BitVec 8)} (h : TwoInstr s h0 pfx p code next)
    (hcs : t.sreg = s.sreg) (hip : t.ip = s.ip + BitVec.ofNat 16 (pfx ++ code).length) (hi : t.instrNum = s.instrNum + 1)
    (hm : t.map = s.map) (hv : t.valid = s.valid) (hh : t.host = s.host) : At t (h0 + (pfx ++ code).length) {} next next.length := by
  refine ⟨?_, [], rfl, codeAt_next h.code (by rw [hcs]) hip hm hv (fun _ _ => by rw [hh]), by simp⟩
  have := h.ready2
  exact ⟨by have := this.notMagic; simpa only [hcs, hip] using this, by have := this.notHle; simpa only [hcs, hip] using this,
    by have := this.counter; simpa only [hi] using this⟩

/-- C41: ADD AL, src; DAA on packed BCD operands: AL is the packed BCD sum modulo 100, CF the decimal carry. -/
theorem C41_add_daa {s : State} {h0 : Nat} {pfx : List (BitVec 8)} {p : Pfx} {code : List (BitVec 8)} {src : Opnd}
    (hs : TwoInstr s h0 pfx p code [0x27]) (henc : AluEnc s p 0 8 code (.reg 0) src) (hnz : NotZeroed s h0 (pfx ++ code).length) (env : Env)
    {a b : BitVec 8} (ha : (Opnd.reg 0).Has s 8 a) (hb : src.Has s 8 b) (hda : isBcd a) (hdb : isBcd b) :
    ∃ t v, Iter env 2 s t ∧ (Opnd.reg 0).Has t 8 v ∧ isBcd v ∧ bcd v + 100 * (t.flags.getLsbD bCF).toNat = bcd a + bcd b ∧
      t.host = s.host ∧ OnlyBits arithBits s.flags t.flags := by
  obtain ⟨v, f, hadd, hst⟩ := C14_add hs.first henc env ha hb
  obtain ⟨d, h1⟩ := hst hnz
  have hat2 := hs.second (t := { ({ ({ (Opnd.reg 0).put s 8 v with flags := f } : State) with
    ip := s.ip + BitVec.ofNat 16 (pfx ++ code).length, instrNum := s.instrNum + 1 } : State) with dec := d, lastNull := false }) rfl rfl rfl rfl rfl rfl
  have hv : (Opnd.reg 0).Has { ({ ({ (Opnd.reg 0).put s 8 v with flags := f } : State) with
    ip := s.ip + BitVec.ofNat 16 (pfx ++ code).length, instrNum := s.instrNum + 1 } : State) with dec := d, lastNull := false } 8 v :=
    put_has (s := s) (n := 8) (o := .reg 0) (Or.inl rfl) trivial _
  obtain ⟨v', f', ⟨d', h2⟩, hb', hsum, _, _, hob⟩ := C41_daa hat2 env hv hadd hda hdb
  refine ⟨_, v', .succ h1 (.succ h2 (.zero _)), ?_, hb', by simpa using hsum, rfl, ?_⟩
  · refine put_has (s := { ({ ({ (Opnd.reg 0).put s 8 v with flags := f } : State) with
    ip := s.ip + BitVec.ofNat 16 (pfx ++ code).length, instrNum := s.instrNum + 1 } : State) with dec := d, lastNull := false }) (n := 8) (o := .reg 0) (Or.inl rfl) trivial v'
  · intro i hi hx
    have h1 := hadd.rest i hi hx
    have h2 := hob i hi (fun hm => hx (by simp only [List.mem_cons, List.not_mem_nil, or_false] at hm ⊢; omega))
    exact h2.trans h1

/-- C41: SUB AL, src; DAS on packed BCD operands: AL is the packed BCD difference modulo 100, CF the decimal borrow. -/
theorem C41_sub_das {s : State} {h0 : Nat} {pfx : List (BitVec 8)} {p : Pfx} {code : List (BitVec 8)} {src : Opnd}
    (hs : TwoInstr s h0 pfx p code [0x2F]) (henc : AluEnc s p 5 8 code (.reg 0) src) (env : Env)
    {a b : BitVec 8} (ha : (Opnd.reg 0).Has s 8 a) (hb : src.Has s 8 b) (hda : isBcd a) (hdb : isBcd b) :
    ∃ t v, Iter env 2 s t ∧ (Opnd.reg 0).Has t 8 v ∧ isBcd v ∧ bcd v + bcd b = bcd a + 100 * (t.flags.getLsbD bCF).toNat ∧
      t.host = s.host ∧ OnlyBits arithBits s.flags t.flags := by
  obtain ⟨v, f, hsub, hst⟩ := C15_sub hs.first henc env ha hb
  obtain ⟨op, rest, hcode, hop⟩ := cmp_ne_zero (by decide) (by decide) henc
  obtain ⟨d, h1⟩ := hst (notZeroed_same (s := s) (p := p) (rest := rest) (by rw [← hcode]; exact hs.first) hop rfl)
  have hat2 := hs.second (t := { ({ ({ (Opnd.reg 0).put s 8 v with flags := f } : State) with
    ip := s.ip + BitVec.ofNat 16 (pfx ++ code).length, instrNum := s.instrNum + 1 } : State) with dec := d, lastNull := false }) rfl rfl rfl rfl rfl rfl
  have hv : (Opnd.reg 0).Has { ({ ({ (Opnd.reg 0).put s 8 v with flags := f } : State) with
    ip := s.ip + BitVec.ofNat 16 (pfx ++ code).length, instrNum := s.instrNum + 1 } : State) with dec := d, lastNull := false } 8 v :=
    put_has (s := s) (n := 8) (o := .reg 0) (Or.inl rfl) trivial _
  obtain ⟨v', f', ⟨d', h2⟩, hb', hsum, _, _, hob⟩ := C41_das hat2 env hv hsub hda hdb
  refine ⟨_, v', .succ h1 (.succ h2 (.zero _)), ?_, hb', by simpa using hsum, rfl, ?_⟩
  · refine put_has (s := { ({ ({ (Opnd.reg 0).put s 8 v with flags := f } : State) with
    ip := s.ip + BitVec.ofNat 16 (pfx ++ code).length, instrNum := s.instrNum + 1 } : State) with dec := d, lastNull := false }) (n := 8) (o := .reg 0) (Or.inl rfl) trivial v'
  · intro i hi hx
    have h1 := hsub.rest i hi hx
    have h2 := hob i hi (fun hm => hx (by simp only [List.mem_cons, List.not_mem_nil, or_false] at hm ⊢; omega))
    exact h2.trans h1

example : ∃ s src a b, TwoInstr s 0x10100 [] {} [4, 0x37] [0x27] ∧ AluEnc s {} 0 8 [4, 0x37] (.reg 0) src ∧ NotZeroed s 0x10100 2 ∧
    (Opnd.reg 0).Has s 8 a ∧ src.Has s 8 b ∧ isBcd a ∧ isBcd b ∧ bcd a + bcd b = 92 :=
  ⟨demo [4, 0x37, 0x27], _, _, 0x37, ⟨demo_ready _, by constructor <;> decide, rfl, demo_code [4, 0x37, 0x27] (by decide)⟩, .ai8 0x37,
    (fun _ h => absurd h.1 (by decide +kernel)), rfl, rfl, by decide, by decide, by decide⟩
example : ∃ s src a b, TwoInstr s 0x10100 [] {} [0x2C, 0x77] [0x2F] ∧ AluEnc s {} 5 8 [0x2C, 0x77] (.reg 0) src ∧
    (Opnd.reg 0).Has s 8 a ∧ src.Has s 8 b ∧ isBcd a ∧ isBcd b ∧ bcd a < bcd b :=
  ⟨demo [0x2C, 0x77, 0x2F], _, _, 0x77, ⟨demo_ready _, by constructor <;> decide, rfl, demo_code [0x2C, 0x77, 0x2F] (by decide)⟩, .ai8 0x77,
    rfl, rfl, by decide, by decide, by decide⟩

/-- C41: AAM; AAD (base 10) gives back AL. -/
theorem C41_aam_aad {s : State} {h0 : Nat} (hs : TwoInstr s h0 [] {} [0xD4, 10] [0xD5, 10]) (env : Env) {v : BitVec 8}
    (ha : (Opnd.reg 0).Has s 8 v) :
    ∃ t, Iter env 2 s t ∧ (Opnd.reg 0).Has t 8 v ∧ (Opnd.high 0).Has t 8 0 ∧ t.host = s.host := by
  obtain ⟨l, h, f, hl, hh, _, _, d, h1⟩ := C41_aam hs.first env (by decide) ha
  have hat2 := hs.second (t := { ({ withAX s l h f with
    ip := s.ip + BitVec.ofNat 16 2, instrNum := s.instrNum + 1 } : State) with dec := d, lastNull := false }) rfl rfl rfl rfl rfl rfl
  have hAL : ∀ (t : State) (l h : BitVec 8) (f : BitVec 16), (Opnd.reg 0).Has (withAX t l h f) 8 l ∧ (Opnd.high 0).Has (withAX t l h f) 8 h := by
    intro t l h f
    refine ⟨?_, put_has (s := (Opnd.reg 0).put t 8 l) (n := 8) (o := .high 0) (Or.inl rfl) rfl h⟩
    have e : withAX t l h f = { ((Opnd.reg 0).put ((Opnd.high 0).put t 8 h) 8 l) with flags := f } := by
      simp only [withAX, put_high, put_reg, high_low]
    rw [e]
    exact put_has (s := (Opnd.high 0).put t 8 h) (n := 8) (o := .reg 0) (Or.inl rfl) trivial l
  obtain ⟨l', f', hl', _, _, d', h2⟩ := C41_aad hat2 env (hAL s l h f).1 (hAL s l h f).2
  have e : l' = v := by
    apply BitVec.eq_of_toNat_eq
    rw [hl', hl, hh]
    have := v.isLt
    show (v.toNat / 10 * 10 + v.toNat % 10) % 256 = v.toNat
    omega
  subst e
  refine ⟨_, .succ h1 (.succ h2 (.zero _)), (hAL _ l' 0 f').1, (hAL _ l' 0 f').2, rfl⟩

example : ∃ s v, TwoInstr s 0x10100 [] {} [0xD4, 10] [0xD5, 10] ∧ (Opnd.reg 0).Has s 8 v ∧ v.toNat = 0x55 :=
  ⟨demo [0xD4, 10, 0xD5, 10], _, ⟨demo_ready _, by constructor <;> decide, rfl, demo_code [0xD4, 10, 0xD5, 10] (by decide)⟩, rfl, rfl⟩

/-- AL and FLAGS as ADD/SUB left them. -/
def demoAL (code : List (BitVec 8)) (al : BitVec 32) (f : BitVec 16) : State := { (demo code).setGpr 0 al with flags := f }

theorem demoAL_at (op : BitVec 8) (al : BitVec 32) (f : BitVec 16) : At (demoAL [op] al f) 0x10100 {} [op] 1 :=
  ⟨⟨by show (_ : Prop); exact (demo_ready [op]).notMagic, (demo_ready [op]).notHle, (demo_ready [op]).counter⟩, [], rfl, demo_code [op] (by simp), rfl⟩

example : ∃ s a b v c g, At s 0x10100 {} [0x27] 1 ∧ (Opnd.reg 0).Has s 8 v ∧ AddSpec a b c g v s.flags ∧ isBcd a ∧ isBcd b ∧ bcd a + bcd b = 55 :=
  ⟨demoAL [0x27] 0x4F 2, 0x28, 0x27, 0x4F, false, 2, demoAL_at _ _ _, rfl,
    ⟨by decide, by decide, by decide, by decide, ⟨by decide, by decide, by decide⟩, (by unfold OnlyBits; decide)⟩, by decide, by decide, by decide⟩
example : ∃ s a b v c g, At s 0x10100 {} [0x2F] 1 ∧ (Opnd.reg 0).Has s 8 v ∧ SubSpec a b c g v s.flags ∧ isBcd a ∧ isBcd b ∧ bcd b < bcd a :=
  ⟨demoAL [0x2F] 0x49 0x810, 0x80, 0x37, 0x49, false, 0x810, demoAL_at _ _ _, rfl,
    ⟨by decide, by decide, by decide, by decide, ⟨by decide, by decide, by decide⟩, (by unfold OnlyBits; decide)⟩, by decide, by decide, by decide⟩
example : ∃ s a b v h c g, At s 0x10100 {} [0x37] 1 ∧ (Opnd.reg 0).Has s 8 v ∧ (Opnd.high 0).Has s 8 h ∧ AddSpec a b c g v s.flags ∧
    isDigit a ∧ isDigit b ∧ 10 ≤ digit a + digit b :=
  ⟨demoAL [0x37] 0x56D 0, 0x38, 0x35, 0x6D, 5, false, 0, demoAL_at _ _ _, rfl, ⟨rfl, rfl⟩,
    ⟨by decide, by decide, by decide, by decide, ⟨by decide, by decide, by decide⟩, (by unfold OnlyBits; decide)⟩, by decide, by decide, by decide⟩
example : ∃ s a b v h c g, At s 0x10100 {} [0x3F] 1 ∧ (Opnd.reg 0).Has s 8 v ∧ (Opnd.high 0).Has s 8 h ∧ SubSpec a b c g v s.flags ∧
    isDigit a ∧ isDigit b ∧ digit a < digit b :=
  ⟨demoAL [0x3F] 0x5FD 0x91, 0x35, 0x38, 0xFD, 5, false, 0, demoAL_at _ _ _, rfl, ⟨rfl, rfl⟩,
    ⟨by decide, by decide, by decide, by decide, ⟨by decide, by decide, by decide⟩, (by unfold OnlyBits; decide)⟩, by decide, by decide, by decide⟩
example : ∃ s v n, At s 0x10100 {} [0xD4, n] 2 ∧ n ≠ 0 ∧ (Opnd.reg 0).Has s 8 v ∧ n.toNat < v.toNat :=
  ⟨demo [0xD4, 10], 0x55, 10, demo_at _ (by decide), by decide, rfl, by decide⟩
example : ∃ s v h n, At s 0x10100 {} [0xD5, n] 2 ∧ (Opnd.reg 0).Has s 8 v ∧ (Opnd.high 0).Has s 8 h ∧ n = 10 :=
  ⟨demo [0xD5, 10], 0x55, _, 10, demo_at _ (by decide), rfl, ⟨rfl, rfl⟩, rfl⟩

end RME
