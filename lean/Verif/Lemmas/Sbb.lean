import Verif.Lemmas.Alu2
set_option autoImplicit false
/-
SBB: what the code computes, and where it agrees with the specification.
-/
namespace RME

theorem sbbR_toNat {n : Nat} (hn : 8 ≤ n) (hn2 : n ≤ 32) (s : BitVec n) (c : Bool) :
    (sbbR s c).toNat = if n < 32 then s.toNat + c.toNat else (s.toNat + c.toNat) % 2 ^ n := by
  have hs := s.isLt
  have h32 : 2 ^ n ≤ 2 ^ 32 := Nat.pow_le_pow_right (by decide) hn2
  have hc : c.toNat ≤ 1 := by cases c <;> simp
  simp only [sbbR]
  split
  · rw [BitVec.toNat_add, toNat_ite_one (by decide), BitVec.toNat_setWidth,
      Nat.mod_eq_of_lt (show s.toNat < 2 ^ 64 by omega), Nat.mod_eq_of_lt (by omega)]
  · rw [BitVec.toNat_setWidth, BitVec.toNat_add, toNat_ite_one (by omega)]
    apply Nat.mod_eq_of_lt
    have : (s.toNat + c.toNat) % 2 ^ n < 2 ^ n := Nat.mod_lt _ (Nat.two_pow_pos n)
    omega

theorem sbb_val {n : Nat} (hn : 8 ≤ n) (hn2 : n ≤ 32) (d s : BitVec n) (c : Bool) :
    (((d.setWidth 64 - sbbR s c).setWidth n).toNat : Int) =
      ((d.toNat : Int) - s.toNat - c.toNat) % 2 ^ n := by
  have hs := s.isLt; have hd := d.isLt
  have h32 : 2 ^ n ≤ 2 ^ 32 := Nat.pow_le_pow_right (by decide) hn2
  have hc : c.toNat ≤ 1 := by cases c <;> simp
  have hpos : 0 < 2 ^ n := Nat.two_pow_pos n
  have hcast : ((2 ^ n : Nat) : Int) = 2 ^ n := by simp
  have hdvd : ((2 ^ n : Nat) : Int) ∣ ((2 ^ 64 : Nat) : Int) :=
    Int.natCast_dvd_natCast.2 (Nat.pow_dvd_pow 2 (by omega))
  rw [BitVec.toNat_setWidth, Int.natCast_emod, sub_val, hcast]
  have h64 : (2 ^ 64 : Int) = ((2 ^ 64 : Nat) : Int) := by simp
  rw [h64, ← hcast, Int.emod_emod_of_dvd _ hdvd, sbbR_toNat hn hn2, BitVec.toNat_setWidth,
    Nat.mod_eq_of_lt (show d.toNat < 2 ^ 64 by omega)]
  split
  · congr 1; omega
  · rw [Int.natCast_emod, Int.sub_emod, Int.emod_emod_of_dvd _ (Int.dvd_refl _), ← Int.sub_emod]
    congr 1; omega

theorem sbb_exec {n : Nat} (d s : BitVec n) (f : BitVec 16) :
    ∃ v : BitVec n, v = (d.setWidth 64 - sbbR s (f.getLsbD bCF)).setWidth n ∧
    aluExec .sbb d s f = (v, setCommFlags (orIf (orIf (orIf (clr f (FLAG_OF ||| FLAG_CF ||| FLAG_AF))
      ((d.setWidth 64).toNat < (sbbR s (f.getLsbD bCF)).toNat) FLAG_CF)
      ((d.setWidth 64 &&& 15).toNat <
        ((sbbR s (f.getLsbD bCF) &&& 15) - (if f.getLsbD bCF then 1 else 0)).toNat) FLAG_AF)
      (((((d.setWidth 64 ^^^ sbbR s (f.getLsbD bCF)) &&& (d.setWidth 64 ^^^ v.setWidth 64)) &&&
    (1#64 <<< (n - 1))).setWidth n : BitVec n) != 0) FLAG_OF) v) := by
  refine ⟨_, rfl, ?_⟩
  simp only [aluExec, aluCode, aluSbb, tst_CF]

theorem bit_mask_ne {n : Nat} (hn : 0 < n) (hn2 : n ≤ 32) (x : BitVec 64) :
    ((x &&& (1#64 <<< (n - 1))).setWidth n != 0) = x.getLsbD (n - 1) := by
  rw [Bool.eq_iff_iff, bne_iff_ne]
  constructor
  · intro h
    apply Classical.byContradiction
    intro h2
    apply h
    apply BitVec.eq_of_getLsbD_eq
    intro j hj
    simp only [BitVec.getLsbD_setWidth, BitVec.getLsbD_and, BitVec.getLsbD_shiftLeft, BitVec.getLsbD_one]
    by_cases h3 : j = n - 1
    · subst h3; simp [h2]
    · simp; omega
  · intro h h2
    have := congrArg (fun x => x.getLsbD (n - 1)) h2
    simp only [BitVec.getLsbD_setWidth, BitVec.getLsbD_and, BitVec.getLsbD_shiftLeft, h] at this
    simp [show n - 1 < n by omega, show n - 1 < 64 by omega] at this

theorem getLsbD_div (x : BitVec 64) (i : Nat) : x.getLsbD i = decide (x.toNat / 2 ^ i % 2 = 1) := by
  rw [BitVec.getLsbD, Nat.testBit_eq_decide_div_mod_eq]

/-- What SBB computes.  Value and ZF/SF/PF are always right; CF, OF and AF are right outside the
listed cases. -/
theorem sbb_spec {n : Nat} (hn : 8 ≤ n) (hn2 : n ≤ 32) (a b : BitVec n) (f : BitVec 16) (c : Bool)
    (hc : c = f.getLsbD bCF) (v : BitVec n) (f' : BitVec 16) (hr : aluExec .sbb a b f = (v, f')) :
    (v.toNat : Int) = ((a.toNat : Int) - b.toNat - c.toNat) % 2 ^ n ∧
    (¬ (n = 32 ∧ c = true ∧ b.toNat = 2 ^ n - 1) →
      f'.getLsbD bCF = decide (a.toNat < b.toNat + c.toNat)) ∧
    (¬ (c = true ∧ b.toNat = 2 ^ (n - 1) - 1) →
      f'.getLsbD bOF = !fitsSigned n (a.toInt - b.toInt - c.toNat)) ∧
    (¬ (c = true ∧ a.toNat % 16 = b.toNat % 16 ∧ b.toNat % 16 ≠ 15) →
      f'.getLsbD bAF = decide (a.toNat % 16 < b.toNat % 16 + c.toNat)) ∧
    ResultFlags f' v ∧ OnlyBits arithBits f f' := by
  have hn0 : 0 < n := by omega
  have hs := b.isLt; have hd := a.isLt
  have h32 : 2 ^ n ≤ 2 ^ 32 := Nat.pow_le_pow_right (by decide) hn2
  have hcle : c.toNat ≤ 1 := by cases c <;> simp
  have hp := pow_facts hn
  obtain ⟨v', hv', he⟩ := sbb_exec a b f
  rw [he] at hr
  obtain ⟨rfl, rfl⟩ := Prod.mk.inj hr
  clear hr he
  rw [← hc] at hv' ⊢
  have hval := sbb_val hn hn2 a b c
  rw [← hv'] at hval
  have hr := sbbR_toNat hn hn2 b c
  have hd64 : (a.setWidth 64).toNat = a.toNat := by
    rw [BitVec.toNat_setWidth, Nat.mod_eq_of_lt (show a.toNat < 2 ^ 64 by omega)]
  refine ⟨hval, ?_, ?_, ?_, setCommFlags_res hn0 _ _, ?_⟩
  · intro hne
    rw [setCommFlags_CF hn0, orIf_bit, orIf_bit, orIf_bit, clr_bit _ _ _ (by decide), hd64, hr]
    have : decide (a.toNat < if n < 32 then b.toNat + c.toNat else (b.toNat + c.toNat) % 2 ^ n) =
        decide (a.toNat < b.toNat + c.toNat) := by
      split
      · rfl
      · have h : b.toNat + c.toNat < 2 ^ n := by
          have : ¬ (c = true ∧ b.toNat = 2 ^ n - 1) := fun h => hne ⟨by omega, h⟩
          cases c <;> simp at *
          · exact hs
          · omega
        rw [Nat.mod_eq_of_lt h]
    rw [this]; simp [bCF]
  · intro hne
    rw [setCommFlags_OF hn0, orIf_bit, orIf_bit, orIf_bit, clr_bit _ _ _ (by decide),
      bit_mask_ne hn0 hn2, BitVec.getLsbD_and, BitVec.getLsbD_xor, BitVec.getLsbD_xor,
      BitVec.getLsbD_setWidth, BitVec.getLsbD_setWidth, ← BitVec.msb_eq_getLsbD_last,
      ← BitVec.msb_eq_getLsbD_last]
    obtain ⟨H, hH⟩ : ∃ H, 2 ^ (n - 1) = H := ⟨_, rfl⟩
    have hrb : (sbbR b c).getLsbD (n - 1) = decide (H ≤ (b.toNat + c.toNat) % 2 ^ n) := by
      rw [getLsbD_div, hr, hp.1, hH]
      have hbc : b.toNat + c.toNat ≤ 2 * H := by omega
      have hpos : 0 < H := by omega
      have e1 : ∀ x, x < 2 * H → decide (x / H % 2 = 1) = decide (H ≤ x) := by
        intro x hx
        apply decide_eq_decide.2
        by_cases h : x < H
        · rw [Nat.div_eq_of_lt h]; simp; omega
        · rw [Nat.div_eq_of_lt_le (k := 1) (by omega) (by omega)]; simp; omega
      split
      · by_cases h : b.toNat + c.toNat < 2 * H
        · rw [Nat.mod_eq_of_lt h]; exact e1 _ h
        · have : b.toNat + c.toNat = 2 * H := by omega
          rw [this, Nat.mul_div_cancel _ hpos, Nat.mod_self]; simp; omega
      · exact e1 _ (Nat.mod_lt _ (by omega))
    rw [hrb, hp.1, hH, fits_eq hH]
    have hA := toInt_cases hn hH a
    have hB := toInt_cases hn hH b
    have hV := toInt_cases hn hH v'
    have hvlt := v'.isLt
    have hcast : (2 ^ n : Int) = ((2 ^ n : Nat) : Int) := by simp
    rw [hcast] at hval
    have hv2 : v'.toNat + b.toNat + c.toNat = a.toNat ∨ v'.toNat + b.toNat + c.toNat = a.toNat + 2 * H := by
      rw [hp.1, hH] at hval hs hd
      have hq : ((a.toNat : Int) - b.toNat - c.toNat) % ((2 * H : Nat) : Int) =
          if (b.toNat + c.toNat ≤ a.toNat) then (a.toNat : Int) - b.toNat - c.toNat
          else (a.toNat : Int) - b.toNat - c.toNat + ((2 * H : Nat) : Int) := by
        split
        · apply Int.emod_eq_of_lt <;> omega
        · rw [← Int.add_emod_right]
          apply Int.emod_eq_of_lt <;> omega
      rw [hq] at hval
      split at hval <;> omega
    rw [hp.1, hH] at hs hd hvlt
    rw [hH] at hne
    have hm : (b.toNat + c.toNat) % (2 * H) = b.toNat + c.toNat ∧ b.toNat + c.toNat < 2 * H ∨
        b.toNat + c.toNat = 2 * H ∧ (b.toNat + c.toNat) % (2 * H) = 0 := by
      by_cases h : b.toNat + c.toNat < 2 * H
      · left; exact ⟨Nat.mod_eq_of_lt h, h⟩
      · right
        have : b.toNat + c.toNat = 2 * H := by omega
        rw [this]; simp
    have hne' : ¬ (c.toNat = 1 ∧ b.toNat = H - 1) := by
      intro h; apply hne; refine ⟨?_, h.2⟩; cases c <;> simp at *
    clear hval hrb hcast hv' hne
    have key : ((a.msb ^^ decide (H ≤ (b.toNat + c.toNat) % (2 * H))) && (a.msb ^^ v'.msb)) =
        !decide (-(H : Int) ≤ a.toInt - b.toInt - c.toNat ∧ a.toInt - b.toInt - c.toNat < (H : Int)) := by
      generalize hR : (b.toNat + c.toNat) % (2 * H) = R at *
      clear hR
      by_cases hR : H ≤ R
      · rcases hA with ⟨a1, a2, a3⟩ | ⟨a1, a2, a3⟩ <;>
        rcases hB with ⟨b1, b2, b3⟩ | ⟨b1, b2, b3⟩ <;>
        rcases hV with ⟨v1, v2, v3⟩ | ⟨v1, v2, v3⟩ <;>
        rw [a2, v2, a3, b3, decide_eq_true hR] <;> symm <;>
        simp only [Bool.xor_true, Bool.xor_false, Bool.not_true, Bool.not_false, Bool.true_and,
          Bool.false_and, Bool.not_eq_true', Bool.not_eq_false', decide_eq_true_eq, decide_eq_false_iff_not] <;>
        omega
      · rcases hA with ⟨a1, a2, a3⟩ | ⟨a1, a2, a3⟩ <;>
        rcases hB with ⟨b1, b2, b3⟩ | ⟨b1, b2, b3⟩ <;>
        rcases hV with ⟨v1, v2, v3⟩ | ⟨v1, v2, v3⟩ <;>
        rw [a2, v2, a3, b3, decide_eq_false hR] <;> symm <;>
        simp only [Bool.xor_true, Bool.xor_false, Bool.not_true, Bool.not_false, Bool.true_and,
          Bool.false_and, Bool.not_eq_true', Bool.not_eq_false', decide_eq_true_eq, decide_eq_false_iff_not] <;>
        omega
    simp only [show n - 1 < 64 by omega, decide_true, Bool.true_and]
    rw [key]; simp [bOF]
  · intro hne
    rw [setCommFlags_AF hn0, orIf_bit, orIf_bit, orIf_bit, clr_bit _ _ _ (by decide)]
    have h1 : (a.setWidth 64 &&& 15).toNat = a.toNat % 16 := by rw [and15 (by decide), hd64]
    have h2 : (sbbR b c &&& 15).toNat = (b.toNat + c.toNat) % 16 := by
      rw [and15 (by decide), hr]
      split
      · rfl
      · rw [Nat.mod_mod_of_dvd _ ⟨2 ^ (n - 4), hp.2.2⟩]
    have : decide ((a.setWidth 64 &&& 15).toNat <
        ((sbbR b c &&& 15) - (if c then 1 else 0)).toNat) =
        decide (a.toNat % 16 < b.toNat % 16 + c.toNat) := by
      rw [h1, BitVec.toNat_sub, toNat_ite_one (by decide), h2]
      apply decide_eq_decide.2
      have hne' : ¬ (c.toNat = 1 ∧ a.toNat % 16 = b.toNat % 16 ∧ b.toNat % 16 ≠ 15) := by
        intro h; apply hne; refine ⟨?_, h.2⟩; cases c <;> simp at *
      omega
    rw [this]; simp [bAF]
  · intro i hi hni
    rw [setCommFlags_bit hn0 _ _ _ hi]
    simp only [List.mem_cons, List.not_mem_nil, or_false, not_or] at hni
    simp only [hni, if_false, orIf_bit, clr_bit _ _ _ hi]
    revert i
    apply forall_bits
    simp

end RME
