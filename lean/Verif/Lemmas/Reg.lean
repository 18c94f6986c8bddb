import Verif.Lemmas.Exec
set_option autoImplicit false
/-
Register access lemmas (low parts, byte 1, upper halves).
-/
namespace RME

theorem putLow_lo {n : Nat} (hn : n ≤ 32) (g : BitVec 32) (v : BitVec n) :
    (putLow n g v).setWidth n = v := by
  apply BitVec.eq_of_getLsbD_eq
  intro i hi
  simp [putLow, hi, show i < 32 by omega]

theorem putLow_bit {n : Nat} (g : BitVec 32) (v : BitVec n) (i : Nat) (hi : i < 32) :
    (putLow n g v).getLsbD i = if i < n then v.getLsbD i else g.getLsbD i := by
  simp only [putLow, BitVec.getLsbD_or, BitVec.getLsbD_shiftLeft, BitVec.getLsbD_ushiftRight,
    BitVec.getLsbD_setWidth, hi]
  by_cases h : i < n
  · simp [h]
  · simp [h, show n + (i - n) = i by omega]
    intro hv
    rw [BitVec.getLsbD_of_ge v _ (by omega)] at hv
    cases hv

theorem putLow_hi {n : Nat} (g : BitVec 32) (v : BitVec n) :
    putLow n g v >>> n = g >>> n := by
  apply BitVec.eq_of_getLsbD_eq
  intro i hi
  by_cases h : n + i < 32
  · simp [BitVec.getLsbD_ushiftRight, putLow_bit _ _ _ h]
  · simp only [BitVec.getLsbD_ushiftRight]
    rw [BitVec.getLsbD_of_ge _ _ (by omega), BitVec.getLsbD_of_ge _ _ (by omega)]

@[simp] theorem putLow_32 (g v : BitVec 32) : putLow 32 g v = v := by
  have := putLow_lo (Nat.le_refl 32) g v
  simpa using this

theorem putLow_same {n : Nat} (g : BitVec 32) : putLow n g (g.setWidth n) = g := by
  apply BitVec.eq_of_getLsbD_eq
  intro i hi
  rw [putLow_bit _ _ _ hi]
  split
  · simp [*]
  · rfl

theorem putLow_putLow {n : Nat} (g : BitVec 32) (v w : BitVec n) :
    putLow n (putLow n g v) w = putLow n g w := by
  apply BitVec.eq_of_getLsbD_eq
  intro i hi
  rw [putLow_bit _ _ _ hi, putLow_bit _ _ _ hi, putLow_bit _ _ _ hi]
  split <;> simp_all

theorem reg_setReg_same (s : State) {n : Nat} (hn : n ≤ 32) (r : BitVec 3) (v : BitVec n) :
    (s.setReg n r v).reg n r = v := by
  simp [State.reg, State.setReg, setGpr_gpr, putLow_lo hn]
@[simp] theorem reg8_setReg_same (s : State) (r : BitVec 3) (v : BitVec 8) :
    (s.setReg 8 r v).reg 8 r = v := reg_setReg_same s (by decide) r v
@[simp] theorem reg16_setReg_same (s : State) (r : BitVec 3) (v : BitVec 16) :
    (s.setReg 16 r v).reg 16 r = v := reg_setReg_same s (by decide) r v
@[simp] theorem reg32_setReg_same (s : State) (r : BitVec 3) (v : BitVec 32) :
    (s.setReg 32 r v).reg 32 r = v := reg_setReg_same s (by decide) r v

theorem reg_setReg_ne (s : State) {n m : Nat} {r r' : BitVec 3} (h : r' ≠ r) (v : BitVec n) :
    (s.setReg n r v).reg m r' = s.reg m r' := by
  simp [State.reg, State.setReg, setGpr_gpr, h]
theorem gpr_setReg_ne (s : State) {n : Nat} {r r' : BitVec 3} (h : r' ≠ r) (v : BitVec n) :
    (s.setReg n r v).gpr r' = s.gpr r' := by
  simp [State.setReg, setGpr_gpr, h]
theorem gpr_setReg_same (s : State) {n : Nat} (r : BitVec 3) (v : BitVec n) :
    (s.setReg n r v).gpr r = putLow n (s.gpr r) v := by
  simp [State.setReg, setGpr_gpr]
theorem gpr_setReg (s : State) {n : Nat} (r x : BitVec 3) (v : BitVec n) :
    (s.setReg n r v).gpr x = if x = r then putLow n (s.gpr r) v else s.gpr x := by
  simp [State.setReg, setGpr_gpr]

theorem setReg_self (s : State) (n : Nat) (r : BitVec 3) : s.setReg n r (s.reg n r) = s := by
  apply State.ext' <;> try rfl
  funext x
  simp only [gpr_setReg, State.reg, putLow_same]
  split <;> simp [*]

theorem setReg_setReg (s : State) (n : Nat) (r : BitVec 3) (v w : BitVec n) :
    (s.setReg n r v).setReg n r w = s.setReg n r w := by
  apply State.ext' <;> try rfl
  funext x
  simp only [gpr_setReg]
  split <;> simp [putLow_putLow]

/-! ### AH, CH, DH, BH -/

theorem add_one_ne (r : BitVec 3) : r + 1 ≠ r := by
  revert r; decide

theorem pair_lo (s : State) (r : BitVec 3) (i : Nat) (hi : i < 32) :
    (s.pair r).getLsbD i = (s.gpr r).getLsbD i := by
  exact (BitVec.getLsbD_append ..).trans (by simp [hi])

theorem regH8_bit (s : State) (r : BitVec 3) (i : Nat) (hi : i < 8) :
    (s.regH 8 r).getLsbD i = (s.gpr r).getLsbD (8 + i) := by
  simp [State.regH, hi, pair_lo _ _ _ (show 8 + i < 32 by omega)]

theorem putByte1_bit (p : BitVec 64) (v : BitVec 8) (i : Nat) (hi : i < 64) :
    (putByte1 8 p v).getLsbD i = if 8 ≤ i ∧ i < 16 then v.getLsbD (i - 8) else p.getLsbD i := by
  simp only [putByte1, BitVec.getLsbD_or, BitVec.getLsbD_and, BitVec.getLsbD_not,
    BitVec.getLsbD_shiftLeft, BitVec.getLsbD_setWidth, hi, BitVec.getLsbD_allOnes]
  by_cases h1 : i < 8
  · simp [h1, show ¬ 8 ≤ i by omega]
  · by_cases h2 : i < 16
    · simp [h1, h2, show 8 ≤ i by omega, show i - 8 < 8 by omega, show i - 8 < 64 by omega]
    · simp [h1, h2, show ¬ (i - 8 < 8) by omega, show i - 8 < 64 by omega]
      intro hv
      rw [BitVec.getLsbD_of_ge v _ (by omega)] at hv
      cases hv

theorem gpr_setRegH8_same (s : State) (r : BitVec 3) (v : BitVec 8) (i : Nat) (hi : i < 32) :
    ((s.setRegH 8 r v).gpr r).getLsbD i =
      if 8 ≤ i ∧ i < 16 then v.getLsbD (i - 8) else (s.gpr r).getLsbD i := by
  simp only [State.setRegH, setGpr_gpr, (add_one_ne r).symm, if_false, if_true]
  rw [BitVec.getLsbD_setWidth, putByte1_bit _ _ _ (by omega), pair_lo _ _ _ hi]
  simp [hi]

theorem gpr_setRegH8_ne (s : State) {r x : BitVec 3} (h : x ≠ r) (v : BitVec 8) :
    (s.setRegH 8 r v).gpr x = s.gpr x := by
  simp only [State.setRegH, setGpr_gpr, h, if_false]
  split
  · subst x
    apply BitVec.eq_of_getLsbD_eq
    intro i hi
    rw [BitVec.getLsbD_setWidth, BitVec.getLsbD_ushiftRight, putByte1_bit _ _ _ (by omega)]
    simp only [hi, show ¬ (8 ≤ 32 + i ∧ 32 + i < 16) by omega, if_false, decide_true, Bool.true_and]
    exact (BitVec.getLsbD_append ..).trans (by simp [show ¬ 32 + i < 32 by omega])
  · rfl

theorem gpr_setRegH8 (s : State) (r x : BitVec 3) (v : BitVec 8) :
    (s.setRegH 8 r v).gpr x =
      if x = r then (s.gpr r &&& 0xFFFF00FF#32) ||| (v.setWidth 32 <<< 8) else s.gpr x := by
  split
  · subst x
    apply BitVec.eq_of_getLsbD_eq
    intro i hi
    rw [gpr_setRegH8_same _ _ _ _ hi]
    simp only [BitVec.getLsbD_or, BitVec.getLsbD_and, BitVec.getLsbD_shiftLeft,
      BitVec.getLsbD_setWidth, hi, decide_true, Bool.true_and]
    have hm : (0xFFFF00FF#32).getLsbD i = !(decide (8 ≤ i ∧ i < 16)) := by
      have : ∀ j : Fin 32, (0xFFFF00FF#32).getLsbD j.1 = !(decide (8 ≤ j.1 ∧ j.1 < 16)) := by decide
      exact this ⟨i, hi⟩
    rw [hm]
    by_cases h1 : i < 8
    · simp [h1, show ¬ 8 ≤ i by omega]
    · by_cases h2 : i < 16
      · simp [h1, h2, show 8 ≤ i by omega, show i - 8 < 32 by omega]
      · simp [h1, h2]
        rw [BitVec.getLsbD_of_ge v _ (by omega)]; simp
  · exact gpr_setRegH8_ne s ‹_› v

@[simp] theorem regH_setRegH_same (s : State) (r : BitVec 3) (v : BitVec 8) :
    (s.setRegH 8 r v).regH 8 r = v := by
  apply BitVec.eq_of_getLsbD_eq
  intro i hi
  rw [regH8_bit _ _ _ hi, gpr_setRegH8_same _ _ _ _ (by omega)]
  simp [show 8 + i < 16 by omega]

@[simp] theorem reg8_setRegH_same (s : State) (r : BitVec 3) (v : BitVec 8) :
    (s.setRegH 8 r v).reg 8 r = s.reg 8 r := by
  apply BitVec.eq_of_getLsbD_eq
  intro i hi
  simp only [State.reg, BitVec.getLsbD_setWidth, hi]
  rw [gpr_setRegH8_same _ _ _ _ (by omega)]
  simp [show ¬ 8 ≤ i by omega]

@[simp] theorem regH_setReg8_same (s : State) (r : BitVec 3) (v : BitVec 8) :
    (s.setReg 8 r v).regH 8 r = s.regH 8 r := by
  apply BitVec.eq_of_getLsbD_eq
  intro i hi
  rw [regH8_bit _ _ _ hi, regH8_bit _ _ _ hi, gpr_setReg_same, putLow_bit _ _ _ (by omega)]
  simp

theorem regH_of_gpr_eq {s t : State} {r : BitVec 3} (h : s.gpr r = t.gpr r) :
    s.regH 8 r = t.regH 8 r := by
  apply BitVec.eq_of_getLsbD_eq
  intro i hi
  rw [regH8_bit _ _ _ hi, regH8_bit _ _ _ hi, h]

theorem regH_eq (s : State) (r : BitVec 3) : s.regH 8 r = (s.gpr r >>> 8).setWidth 8 := by
  apply BitVec.eq_of_getLsbD_eq
  intro i hi
  rw [regH8_bit _ _ _ hi]; simp [hi]

theorem regH_setReg_ne (s : State) {n : Nat} {r x : BitVec 3} (h : x ≠ r) (v : BitVec n) :
    (s.setReg n r v).regH 8 x = s.regH 8 x := regH_of_gpr_eq (gpr_setReg_ne s h v)

end RME
