import Verif.Lemmas.Alu
set_option autoImplicit false
/-
INC, DEC, NEG, SBB, MUL, IMUL against the specification.
-/
namespace RME

theorem eq_smask {n : Nat} (hn : 8 ≤ n) (v : BitVec n) : (v == smask n) = decide (v.toNat = 2 ^ (n - 1)) := by
  have h1 : (smask n).toNat = 2 ^ (n - 1) := by
    have := pow_facts hn
    simp only [smask, BitVec.toNat_shiftLeft, Nat.shiftLeft_eq]
    rw [show (1 : BitVec n).toNat = 1 by simp; omega, Nat.one_mul]
    exact Nat.mod_eq_of_lt (by omega)
  rw [Bool.eq_iff_iff, beq_iff_eq, decide_eq_true_iff, ← h1, BitVec.toNat_inj]

theorem inc_spec {n : Nat} (hn : 8 ≤ n) (a : BitVec n) (f : BitVec 16) :
    IncSpec a f (aluInc a f).1 (aluInc a f).2 := by
  have hn0 : 0 < n := by omega
  have hp := pow_facts hn
  have h1 : (1 : BitVec n).toNat = 1 := by
    simp; omega
  have hv : (a + 1).toNat = (a.toNat + 1) % 2 ^ n := by rw [BitVec.toNat_add, h1]
  have hs := setCommFlags_res hn0 (orIf (orIf (clr f (FLAG_OF ||| FLAG_ZF ||| FLAG_SF ||| FLAG_PF ||| FLAG_AF))
    (a + 1 == smask n) FLAG_OF) ((a + 1) &&& 15 == 0) FLAG_AF) (a + 1)
  refine ⟨hv, ?_, ?_, hs, ?_⟩
  · simp only [aluInc]
    rw [setCommFlags_OF hn0, orIf_bit, orIf_bit, clr_bit _ _ _ (by decide), eq_smask hn]
    simp only [bOF]
    obtain ⟨H, hH⟩ : ∃ H, 2 ^ (n - 1) = H := ⟨_, rfl⟩
    have hA := toInt_cases hn hH a
    rw [fits_eq hH, hv, hH]
    have ha := a.isLt
    rw [hH] at hp
    rw [hp.1] at ha ⊢
    have hv' : a.toNat + 1 < 2 * H ∧ (a.toNat + 1) % (2 * H) = a.toNat + 1 ∨
        a.toNat + 1 = 2 * H ∧ (a.toNat + 1) % (2 * H) = 0 := by
      by_cases h : a.toNat + 1 < 2 * H
      · left; exact ⟨h, Nat.mod_eq_of_lt h⟩
      · right
        have : a.toNat + 1 = 2 * H := by omega
        rw [this]; simp
    have key : decide ((a.toNat + 1) % (2 * H) = H) =
        !decide (-(H : Int) ≤ a.toInt + 1 ∧ a.toInt + 1 < (H : Int)) := by
      rw [Bool.eq_iff_iff, Bool.not_eq_true', decide_eq_true_iff, decide_eq_false_iff_not]; omega
    rw [key]; simp
  · simp only [aluInc]
    rw [setCommFlags_AF hn0, orIf_bit, orIf_bit, clr_bit _ _ _ (by decide)]
    have : ((a + 1) &&& 15 == 0) = decide (16 ≤ a.toNat % 16 + 1) := by
      rw [Bool.eq_iff_iff, beq_iff_eq, decide_eq_true_iff, ← BitVec.toNat_inj, and15 hn, hv]
      have := mod16_add hn a.toNat 1 0
      simp only [Nat.add_zero] at this
      rw [this]; simp; omega
    rw [this]; simp [bAF]
  · intro i hi hni
    simp only [aluInc]
    rw [setCommFlags_bit hn0 _ _ _ hi]
    simp only [List.mem_cons, List.not_mem_nil, or_false, not_or] at hni
    simp only [hni, if_false, orIf_bit, clr_bit _ _ _ hi]
    revert i
    apply forall_bits
    simp

theorem dec_spec {n : Nat} (hn : 8 ≤ n) (a : BitVec n) (f : BitVec 16) :
    DecSpec a f (aluDec a f).1 (aluDec a f).2 := by
  have hn0 : 0 < n := by omega
  have hp := pow_facts hn
  have h1 : (1 : BitVec n).toNat = 1 := by simp; omega
  have hv : (a - 1).toNat = (2 ^ n - 1 + a.toNat) % 2 ^ n := by rw [BitVec.toNat_sub, h1]
  have hs := setCommFlags_res hn0 (orIf (orIf (clr f (FLAG_OF ||| FLAG_AF))
    ((a - 1).toNat + 1 == 2 ^ (n - 1)) FLAG_OF) (((a - 1) &&& 15).toNat + 1 == 16) FLAG_AF) (a - 1)
  refine ⟨?_, ?_, ?_, hs, ?_⟩
  · simp only [aluDec]; rw [sub_val, h1]; simp
  · simp only [aluDec]
    rw [setCommFlags_OF hn0, orIf_bit, orIf_bit, clr_bit _ _ _ (by decide)]
    simp only [bOF]
    obtain ⟨H, hH⟩ : ∃ H, 2 ^ (n - 1) = H := ⟨_, rfl⟩
    have hA := toInt_cases hn hH a
    rw [fits_eq hH, hv, hH]
    have ha := a.isLt
    rw [hH] at hp
    rw [hp.1] at ha ⊢
    have hv' : a.toNat = 0 ∧ (2 * H - 1 + a.toNat) % (2 * H) = 2 * H - 1 ∨
        0 < a.toNat ∧ (2 * H - 1 + a.toNat) % (2 * H) = a.toNat - 1 := by
      by_cases h : a.toNat = 0
      · left; rw [h]; exact ⟨rfl, Nat.mod_eq_of_lt (by omega)⟩
      · right
        rw [Nat.mod_eq_sub_mod (by omega), Nat.mod_eq_of_lt (by omega)]; omega
    have key : ((2 * H - 1 + a.toNat) % (2 * H) + 1 == H) =
        !decide (-(H : Int) ≤ a.toInt - 1 ∧ a.toInt - 1 < (H : Int)) := by
      rw [Bool.eq_iff_iff, Bool.not_eq_true', beq_iff_eq, decide_eq_false_iff_not]; omega
    rw [key]; simp
  · simp only [aluDec]
    rw [setCommFlags_AF hn0, orIf_bit, orIf_bit, clr_bit _ _ _ (by decide)]
    have : (((a - 1) &&& 15).toNat + 1 == 16) = decide (a.toNat % 16 < 1) := by
      rw [Bool.eq_iff_iff, beq_iff_eq, decide_eq_true_iff, and15 hn, hv,
        Nat.mod_mod_of_dvd _ ⟨2 ^ (n - 4), hp.2.2⟩]
      have := hp.2.2
      have : 1 ≤ 2 ^ (n - 4) := Nat.one_le_two_pow
      generalize 2 ^ (n - 4) = Q at *
      omega
    rw [this]; simp [bAF]
  · intro i hi hni
    simp only [aluDec]
    rw [setCommFlags_bit hn0 _ _ _ hi]
    simp only [List.mem_cons, List.not_mem_nil, or_false, not_or] at hni
    simp only [hni, if_false, orIf_bit, clr_bit _ _ _ hi]
    revert i
    apply forall_bits
    simp

theorem neg_val {n : Nat} (a : BitVec n) : ((~~~a + 1).toNat : Int) = (-(a.toNat : Int)) % 2 ^ n := by
  have : ~~~a + 1 = 0 - a := by
    have := BitVec.neg_eq_not_add a
    exact this.symm.trans (BitVec.zero_sub a).symm
  rw [this, sub_val]; simp

theorem neg_spec {n : Nat} (hn : 8 ≤ n) (a : BitVec n) (f : BitVec 16) :
    NegSpec a f (aluNeg a f).1 (aluNeg a f).2 ∧
    (aluNeg a f).2.getLsbD bAF = decide (a.toNat % 8 ≠ 0) := by
  have hn0 : 0 < n := by omega
  have hp := pow_facts hn
  by_cases h0 : a = 0
  · subst h0
    have e : aluNeg (0 : BitVec n) f = (0, setCommFlags (clr f (FLAG_CF ||| FLAG_AF ||| FLAG_OF)) (0 : BitVec n)) := by
      simp [aluNeg]
    rw [e]
    refine ⟨⟨by simp, ?_, ?_, setCommFlags_res hn0 _ _, ?_⟩, ?_⟩
    · simp only []
      rw [setCommFlags_CF hn0, clr_bit _ _ _ (by decide)]; simp [bCF]
    · simp only []
      rw [setCommFlags_OF hn0, clr_bit _ _ _ (by decide)]
      have : ¬ ((0 : BitVec n).toInt = -(2 ^ (n - 1) : Int)) := by
        have h2 : ((2 ^ (n - 1) : Nat) : Int) = (2 ^ (n - 1) : Int) := by simp
        rw [← h2]; simp; omega
      rw [decide_eq_false this]
      simp [bOF]
    · intro i hi hni
      simp only []
      rw [setCommFlags_bit hn0 _ _ _ hi]
      simp only [List.mem_cons, List.not_mem_nil, or_false, not_or] at hni
      simp only [hni, if_false, clr_bit _ _ _ hi]
      revert i
      apply forall_bits
      simp
    · simp only []
      rw [setCommFlags_AF hn0, clr_bit _ _ _ (by decide)]; simp [bAF]
  · have e : aluNeg a f = (~~~a + 1, setCommFlags (orIf (orIf (clr f (FLAG_CF ||| FLAG_AF ||| FLAG_OF) ||| FLAG_CF)
        (a == smask n) FLAG_OF) (a &&& 7 != 0) FLAG_AF) (~~~a + 1)) := by
      have : (a == 0) = false := by simpa using h0
      simp only [aluNeg, this]; rfl
    have hne : a.toNat ≠ 0 := fun h => h0 (BitVec.eq_of_toNat_eq (by simpa using h))
    rw [e]
    refine ⟨⟨neg_val a, ?_, ?_, setCommFlags_res hn0 _ _, ?_⟩, ?_⟩
    · simp only []
      rw [setCommFlags_CF hn0, orIf_bit, orIf_bit, BitVec.getLsbD_or, clr_bit _ _ _ (by decide)]
      simp [bCF, hne]
    · simp only []
      rw [setCommFlags_OF hn0, orIf_bit, orIf_bit, BitVec.getLsbD_or, clr_bit _ _ _ (by decide), eq_smask hn]
      obtain ⟨H, hH⟩ : ∃ H, 2 ^ (n - 1) = H := ⟨_, rfl⟩
      have hA := toInt_cases hn hH a
      have h2 : ((2 ^ (n - 1) : Nat) : Int) = (2 ^ (n - 1) : Int) := by simp
      rw [← h2, hH]
      have ha := a.isLt
      rw [hp.1, hH] at ha
      simp [bOF]
      omega
    · intro i hi hni
      simp only []
      rw [setCommFlags_bit hn0 _ _ _ hi]
      simp only [List.mem_cons, List.not_mem_nil, or_false, not_or] at hni
      simp only [hni, if_false, orIf_bit, BitVec.getLsbD_or, clr_bit _ _ _ hi]
      revert i
      apply forall_bits
      simp
    · simp only []
      rw [setCommFlags_AF hn0, orIf_bit, orIf_bit, BitVec.getLsbD_or, clr_bit _ _ _ (by decide)]
      have h7 : (a &&& 7).toNat = a.toNat % 8 := by
        have h15 : (7 : BitVec n).toNat = 7 := by
          show (BitVec.ofNat n 7).toNat = 7
          rw [BitVec.toNat_ofNat]
          apply Nat.mod_eq_of_lt; omega
        rw [BitVec.toNat_and, h15]
        exact Nat.and_two_pow_sub_one_eq_mod a.toNat 3
      have : (a &&& 7 != 0) = decide (a.toNat % 8 ≠ 0) := by
        rw [Bool.eq_iff_iff, toNat_ne_zero, h7]; simp
      rw [this]; simp [bAF]

/-! ### MUL, IMUL -/

theorem setCFOF_bit (f : BitVec 16) (c : Bool) : ∀ i < 16, (setCFOF f c).getLsbD i =
    if i = bCF ∨ i = bOF then c else f.getLsbD i := by
  cases c
  · apply forall_bits
    simp only [setCFOF, Bool.false_eq_true, if_false]
    repeat' apply And.intro
    all_goals (rw [clr_bit _ _ _ (by decide)]; simp [bCF, bOF])
  · apply forall_bits
    simp only [setCFOF, if_true, BitVec.getLsbD_or]
    repeat' apply And.intro
    all_goals (simp [bCF, bOF])

theorem mulflags {n : Nat} (hn : 0 < n) (f : BitVec 16) (v : BitVec n) (c : Bool) :
    (setCFOF (setCommFlags f v) c).getLsbD bCF = c ∧ (setCFOF (setCommFlags f v) c).getLsbD bOF = c ∧
    OnlyBits [bCF, bPF, bZF, bSF, bOF] f (setCFOF (setCommFlags f v) c) := by
  refine ⟨?_, ?_, ?_⟩
  · rw [setCFOF_bit _ _ _ (by decide)]; rfl
  · rw [setCFOF_bit _ _ _ (by decide)]; rfl
  · intro i hi hni
    simp only [List.mem_cons, List.not_mem_nil, or_false, not_or] at hni
    rw [setCFOF_bit _ _ _ hi, setCommFlags_bit hn _ _ _ hi]
    simp [hni]

theorem mul_spec {n : Nat} (hn : 0 < n) (a s : BitVec n) (f : BitVec 16) :
    MulSpec a s f (mulCode a s f).1 (mulCode a s f).2.1 (mulCode a s f).2.2 := by
  have hlt : a.toNat * s.toNat / 2 ^ n < 2 ^ n := by
    rw [Nat.div_lt_iff_lt_mul (Nat.two_pow_pos n)]
    exact Nat.mul_lt_mul'' a.isLt s.isLt
  have hhi : (BitVec.ofNat n (a.toNat * s.toNat / 2 ^ n)).toNat = a.toNat * s.toNat / 2 ^ n := by
    rw [BitVec.toNat_ofNat, Nat.mod_eq_of_lt hlt]
  obtain ⟨h1, h2, h3⟩ := mulflags hn f (BitVec.ofNat n (a.toNat * s.toNat))
    (a.toNat * s.toNat / 2 ^ n != 0)
  have hb : (a.toNat * s.toNat / 2 ^ n != 0) = decide (a.toNat * s.toNat / 2 ^ n ≠ 0) := by
    rw [Bool.eq_iff_iff]; simp
  refine ⟨?_, ?_, ?_, h3⟩
  · simp only [mulCode, hhi, BitVec.toNat_ofNat]
    exact Nat.div_add_mod' _ _
  · simp only [mulCode, hhi]; rw [h1, hb]
  · simp only [mulCode, hhi]; rw [h2, hb]

theorem imulOvf_eq (n : Nat) (x : Int) : imulOvf n x = !fitsSigned n x := by
  rw [Bool.eq_iff_iff, imulOvf, fitsSigned]
  simp only [Bool.or_eq_true, decide_eq_true_eq, Bool.not_eq_true', decide_eq_false_iff_not]
  generalize (2 ^ (n - 1) : Int) = H
  omega

theorem toInt_bounds {n : Nat} (hn : 8 ≤ n) (a : BitVec n) :
    -((2 ^ (n - 1) : Nat) : Int) ≤ a.toInt ∧ a.toInt < ((2 ^ (n - 1) : Nat) : Int) := by
  have hp := pow_facts hn
  have := a.isLt
  rcases toInt_cases hn rfl a with h | h <;> omega

theorem mul_abs_le {x y H : Int} (h1 : -H ≤ x) (h2 : x ≤ H) (h3 : -H ≤ y) (h4 : y ≤ H) :
    -(H * H) ≤ x * y ∧ x * y ≤ H * H := by
  have p1 : 0 ≤ (H - x) * (H - y) := Int.mul_nonneg (by omega) (by omega)
  have p2 : 0 ≤ (H - x) * (H + y) := Int.mul_nonneg (by omega) (by omega)
  have p3 : 0 ≤ (H + x) * (H - y) := Int.mul_nonneg (by omega) (by omega)
  have p4 : 0 ≤ (H + x) * (H + y) := Int.mul_nonneg (by omega) (by omega)
  simp only [Int.sub_mul, Int.add_mul, Int.mul_sub, Int.mul_add] at p1 p2 p3 p4
  rw [Int.mul_comm x H] at p1 p2 p3 p4
  generalize H * H = a at *
  generalize H * x = b at *
  generalize H * y = c at *
  generalize x * y = d at *
  omega

theorem imul_spec {n : Nat} (hn : 8 ≤ n) (a s : BitVec n) (f : BitVec 16) :
    ImulSpec a s f (imulCode a s f).1 (imulCode a s f).2.1 (imulCode a s f).2.2 := by
  have hp := pow_facts hn
  obtain ⟨h1, h2, h3⟩ := mulflags (show 0 < n by omega) f (BitVec.ofInt n (a.toInt * s.toInt))
    (imulOvf n (a.toInt * s.toInt))
  refine ⟨?_, ?_, ?_, h3⟩
  · simp only [imulCode]
    have ha := toInt_bounds hn a
    have hs := toInt_bounds hn s
    have hb := mul_abs_le (H := ((2 ^ (n - 1) : Nat) : Int)) ha.1 (by omega) hs.1 (by omega)
    have hpi : (2 ^ n : Int) = 2 * ((2 ^ (n - 1) : Nat) : Int) := by
      have : ((2 ^ n : Nat) : Int) = (2 ^ n : Int) := by simp
      rw [← this, hp.1]; simp
    have hpos : (0 : Int) < ((2 ^ (n - 1) : Nat) : Int) := by omega
    generalize hx : a.toInt * s.toInt = x at *
    have hdm := Int.mul_ediv_add_emod x (2 ^ n)
    have hfit : (BitVec.ofInt n (x / 2 ^ n)).toInt = x / 2 ^ n := by
      rw [BitVec.toInt_ofInt]
      have hlo : -((2 ^ (n - 1) : Nat) : Int) ≤ x / 2 ^ n := by
        rw [Int.le_ediv_iff_mul_le (by omega), hpi]
        generalize ((2 ^ (n - 1) : Nat) : Int) = H at *
        have : 0 ≤ H * H := Int.mul_nonneg (by omega) (by omega)
        rw [show -H * (2 * H) = -(2 * (H * H)) by rw [Int.neg_mul, ← Int.mul_assoc, Int.mul_comm H 2, Int.mul_assoc]]
        omega
      have hhi : x / 2 ^ n < ((2 ^ (n - 1) : Nat) : Int) := by
        rw [Int.ediv_lt_iff_lt_mul (by omega), hpi]
        generalize ((2 ^ (n - 1) : Nat) : Int) = H at *
        have : 0 < H * H := Int.mul_pos (by omega) (by omega)
        rw [show H * (2 * H) = 2 * (H * H) by rw [← Int.mul_assoc, Int.mul_comm H 2, Int.mul_assoc]]
        omega
      apply Int.bmod_eq_of_le
      · have : ((2 ^ n : Nat) : Int) / 2 = ((2 ^ (n - 1) : Nat) : Int) := by rw [hp.1]; omega
        rw [this]; exact hlo
      · have : (((2 ^ n : Nat) : Int) + 1) / 2 = ((2 ^ (n - 1) : Nat) : Int) := by rw [hp.1]; omega
        rw [this]; exact hhi
    rw [hfit]
    have hlo : ((BitVec.ofInt n x).toNat : Int) = x % 2 ^ n := by
      rw [BitVec.toNat_ofInt, Int.toNat_of_nonneg]
      · simp
      · exact Int.emod_nonneg _ (by simp; omega)
    rw [hlo, Int.mul_comm]; exact hdm
  · simp only [imulCode]; rw [h1, imulOvf_eq]
  · simp only [imulCode]; rw [h2, imulOvf_eq]

end RME
