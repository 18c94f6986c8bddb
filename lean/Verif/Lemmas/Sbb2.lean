import Verif.Lemmas.Sbb
set_option autoImplicit false
/-
SBB: the flags in every case, also where they are wrong.
-/
namespace RME
open RME

theorem sbb_exact {n : Nat} (hn : 8 ≤ n) (hn2 : n ≤ 32) (a b : BitVec n) (f : BitVec 16) (c : Bool)
    (hc : c = f.getLsbD bCF) (v : BitVec n) (f' : BitVec 16) (hr : aluExec .sbb a b f = (v, f')) :
    (v.toNat : Int) = ((a.toNat : Int) - b.toNat - c.toNat) % 2 ^ n ∧
    f'.getLsbD bCF = (decide (a.toNat < b.toNat + c.toNat) ^^ decide (n = 32 ∧ c.toNat = 1 ∧ b.toNat = 2 ^ n - 1)) ∧
    f'.getLsbD bOF = ((!fitsSigned n (a.toInt - b.toInt - c.toNat)) ^^ decide (c.toNat = 1 ∧ b.toNat = 2 ^ (n - 1) - 1)) ∧
    f'.getLsbD bAF = (decide (a.toNat % 16 < b.toNat % 16 + c.toNat) ^^ decide (c.toNat = 1 ∧ a.toNat % 16 = b.toNat % 16 ∧ b.toNat % 16 ≠ 15)) ∧
    ResultFlags f' v ∧ OnlyBits arithBits f f' := by
  have hn0 : 0 < n := by omega
  have hs := b.isLt; have hd := a.isLt
  have h32 : 2 ^ n ≤ 2 ^ 32 := Nat.pow_le_pow_right (by decide) hn2
  have hcle : c.toNat ≤ 1 := by cases c <;> simp
  have hp := pow_facts hn
  obtain ⟨v', hv', he⟩ := sbb_exec a b f
  rw [he] at hr
  obtain ⟨rfl, rfl⟩ := Prod.mk.inj hr
  clear hr he
  rw [← hc] at hv' ⊢
  have hval := sbb_val hn hn2 a b c
  rw [← hv'] at hval
  have hr := sbbR_toNat hn hn2 b c
  have hd64 : (a.setWidth 64).toNat = a.toNat := by
    rw [BitVec.toNat_setWidth, Nat.mod_eq_of_lt (show a.toNat < 2 ^ 64 by omega)]
  refine ⟨hval, ?_, ?_, ?_, setCommFlags_res hn0 _ _, ?_⟩
  · rw [setCommFlags_CF hn0, orIf_bit, orIf_bit, orIf_bit, clr_bit _ _ _ (by decide), hd64, hr]
    have : decide (a.toNat < if n < 32 then b.toNat + c.toNat else (b.toNat + c.toNat) % 2 ^ n) =
        (decide (a.toNat < b.toNat + c.toNat) ^^ decide (n = 32 ∧ c.toNat = 1 ∧ b.toNat = 2 ^ n - 1)) := by
      by_cases hx : n = 32 ∧ c.toNat = 1 ∧ b.toNat = 2 ^ n - 1
      · rw [decide_eq_true hx, if_neg (by omega), show b.toNat + c.toNat = 2 ^ n by omega, Nat.mod_self, decide_eq_false (by omega), decide_eq_true hd]
        rfl
      · rw [decide_eq_false hx, Bool.xor_false]
        split
        · rfl
        · have h : b.toNat + c.toNat < 2 ^ n := by omega
          rw [Nat.mod_eq_of_lt h]
    rw [this]; simp [bCF]
  · rw [setCommFlags_OF hn0, orIf_bit, orIf_bit, orIf_bit, clr_bit _ _ _ (by decide),
      bit_mask_ne hn0 hn2, BitVec.getLsbD_and, BitVec.getLsbD_xor, BitVec.getLsbD_xor,
      BitVec.getLsbD_setWidth, BitVec.getLsbD_setWidth, ← BitVec.msb_eq_getLsbD_last,
      ← BitVec.msb_eq_getLsbD_last]
    obtain ⟨H, hH⟩ : ∃ H, 2 ^ (n - 1) = H := ⟨_, rfl⟩
    have hrb : (sbbR b c).getLsbD (n - 1) = decide (H ≤ (b.toNat + c.toNat) % 2 ^ n) := by
      rw [getLsbD_div, hr, hp.1, hH]
      have hbc : b.toNat + c.toNat ≤ 2 * H := by omega
      have hpos : 0 < H := by omega
      have e1 : ∀ x, x < 2 * H → decide (x / H % 2 = 1) = decide (H ≤ x) := by
        intro x hx
        apply decide_eq_decide.2
        by_cases h : x < H
        · rw [Nat.div_eq_of_lt h]; simp; omega
        · rw [Nat.div_eq_of_lt_le (k := 1) (by omega) (by omega)]; simp; omega
      split
      · by_cases h : b.toNat + c.toNat < 2 * H
        · rw [Nat.mod_eq_of_lt h]; exact e1 _ h
        · have : b.toNat + c.toNat = 2 * H := by omega
          rw [this, Nat.mul_div_cancel _ hpos, Nat.mod_self]; simp; omega
      · exact e1 _ (Nat.mod_lt _ (by omega))
    rw [hrb, hp.1, hH, fits_eq hH]
    have hA := toInt_cases hn hH a
    have hB := toInt_cases hn hH b
    have hV := toInt_cases hn hH v'
    have hvlt := v'.isLt
    have hcast : (2 ^ n : Int) = ((2 ^ n : Nat) : Int) := by simp
    rw [hcast] at hval
    have hv2 : v'.toNat + b.toNat + c.toNat = a.toNat ∨ v'.toNat + b.toNat + c.toNat = a.toNat + 2 * H := by
      rw [hp.1, hH] at hval hs hd
      have hq : ((a.toNat : Int) - b.toNat - c.toNat) % ((2 * H : Nat) : Int) =
          if (b.toNat + c.toNat ≤ a.toNat) then (a.toNat : Int) - b.toNat - c.toNat
          else (a.toNat : Int) - b.toNat - c.toNat + ((2 * H : Nat) : Int) := by
        split
        · apply Int.emod_eq_of_lt <;> omega
        · rw [← Int.add_emod_right]
          apply Int.emod_eq_of_lt <;> omega
      rw [hq] at hval
      split at hval <;> omega
    rw [hp.1, hH] at hs hd hvlt
    have hm : (b.toNat + c.toNat) % (2 * H) = b.toNat + c.toNat ∧ b.toNat + c.toNat < 2 * H ∨
        b.toNat + c.toNat = 2 * H ∧ (b.toNat + c.toNat) % (2 * H) = 0 := by
      by_cases h : b.toNat + c.toNat < 2 * H
      · left; exact ⟨Nat.mod_eq_of_lt h, h⟩
      · right
        have : b.toNat + c.toNat = 2 * H := by omega
        rw [this]; simp
    clear hval hrb hcast hv'
    have key : ((a.msb ^^ decide (H ≤ (b.toNat + c.toNat) % (2 * H))) && (a.msb ^^ v'.msb)) =
        ((!decide (-(H : Int) ≤ a.toInt - b.toInt - c.toNat ∧ a.toInt - b.toInt - c.toNat < (H : Int))) ^^ decide (c.toNat = 1 ∧ b.toNat = H - 1)) := by
      generalize hN : c.toNat = cn at *
      generalize hR : (b.toNat + cn) % (2 * H) = R at *
      clear hR
      by_cases hx : cn = 1 ∧ b.toNat = H - 1 <;> by_cases hR : H ≤ R
      · rcases hA with ⟨a1, a2, a3⟩ | ⟨a1, a2, a3⟩ <;>
        rcases hB with ⟨b1, b2, b3⟩ | ⟨b1, b2, b3⟩ <;>
        rcases hV with ⟨v1, v2, v3⟩ | ⟨v1, v2, v3⟩ <;>
        rw [a2, v2, a3, b3, decide_eq_true hR, decide_eq_true hx] <;> symm <;>
        simp only [Bool.xor_true, Bool.xor_false, Bool.not_true, Bool.not_false, Bool.true_and, Bool.not_not,
          Bool.false_and, Bool.not_eq_true', Bool.not_eq_false', decide_eq_true_eq, decide_eq_false_iff_not] <;>
        omega
      · rcases hA with ⟨a1, a2, a3⟩ | ⟨a1, a2, a3⟩ <;>
        rcases hB with ⟨b1, b2, b3⟩ | ⟨b1, b2, b3⟩ <;>
        rcases hV with ⟨v1, v2, v3⟩ | ⟨v1, v2, v3⟩ <;>
        rw [a2, v2, a3, b3, decide_eq_false hR, decide_eq_true hx] <;> symm <;>
        simp only [Bool.xor_true, Bool.xor_false, Bool.not_true, Bool.not_false, Bool.true_and, Bool.not_not,
          Bool.false_and, Bool.not_eq_true', Bool.not_eq_false', decide_eq_true_eq, decide_eq_false_iff_not] <;>
        omega
      · rcases hA with ⟨a1, a2, a3⟩ | ⟨a1, a2, a3⟩ <;>
        rcases hB with ⟨b1, b2, b3⟩ | ⟨b1, b2, b3⟩ <;>
        rcases hV with ⟨v1, v2, v3⟩ | ⟨v1, v2, v3⟩ <;>
        rw [a2, v2, a3, b3, decide_eq_true hR, decide_eq_false hx] <;> symm <;>
        simp only [Bool.xor_true, Bool.xor_false, Bool.not_true, Bool.not_false, Bool.true_and, Bool.not_not,
          Bool.false_and, Bool.not_eq_true', Bool.not_eq_false', decide_eq_true_eq, decide_eq_false_iff_not] <;>
        omega
      · rcases hA with ⟨a1, a2, a3⟩ | ⟨a1, a2, a3⟩ <;>
        rcases hB with ⟨b1, b2, b3⟩ | ⟨b1, b2, b3⟩ <;>
        rcases hV with ⟨v1, v2, v3⟩ | ⟨v1, v2, v3⟩ <;>
        rw [a2, v2, a3, b3, decide_eq_false hR, decide_eq_false hx] <;> symm <;>
        simp only [Bool.xor_true, Bool.xor_false, Bool.not_true, Bool.not_false, Bool.true_and, Bool.not_not,
          Bool.false_and, Bool.not_eq_true', Bool.not_eq_false', decide_eq_true_eq, decide_eq_false_iff_not] <;>
        omega
    simp only [show n - 1 < 64 by omega, decide_true, Bool.true_and]
    rw [key]; simp [bOF]
  · rw [setCommFlags_AF hn0, orIf_bit, orIf_bit, orIf_bit, clr_bit _ _ _ (by decide)]
    have h1 : (a.setWidth 64 &&& 15).toNat = a.toNat % 16 := by rw [and15 (by decide), hd64]
    have h2 : (sbbR b c &&& 15).toNat = (b.toNat + c.toNat) % 16 := by
      rw [and15 (by decide), hr]
      split
      · rfl
      · rw [Nat.mod_mod_of_dvd _ ⟨2 ^ (n - 4), hp.2.2⟩]
    have : decide ((a.setWidth 64 &&& 15).toNat <
        ((sbbR b c &&& 15) - (if c then 1 else 0)).toNat) =
        (decide (a.toNat % 16 < b.toNat % 16 + c.toNat) ^^ decide (c.toNat = 1 ∧ a.toNat % 16 = b.toNat % 16 ∧ b.toNat % 16 ≠ 15)) := by
      rw [h1, BitVec.toNat_sub, toNat_ite_one (by decide), h2]
      by_cases hx : c.toNat = 1 ∧ a.toNat % 16 = b.toNat % 16 ∧ b.toNat % 16 ≠ 15
      · rw [decide_eq_true hx, Bool.xor_true, decide_eq_true (p := a.toNat % 16 < b.toNat % 16 + c.toNat) (by omega), Bool.not_true]
        apply decide_eq_false
        omega
      · rw [decide_eq_false hx, Bool.xor_false]
        apply decide_eq_decide.2
        omega
    rw [this]; simp [bAF]
  · intro i hi hni
    rw [setCommFlags_bit hn0 _ _ _ hi]
    simp only [List.mem_cons, List.not_mem_nil, or_false, not_or] at hni
    simp only [hni, if_false, orIf_bit, clr_bit _ _ _ hi]
    revert i
    apply forall_bits
    simp


end RME
