import Verif.Lemmas.Alu2
set_option autoImplicit false
/-
Shifts and rotates against the specification.
-/
namespace RME

theorem bit_and_one {n : Nat} (hn : 0 < n) (v : BitVec n) : ((v &&& 1) != 0) = v.getLsbD 0 := by
  rw [bne, and_one_bit v hn]; simp

theorem bit_shr {n : Nat} (hn : 0 < n) (v : BitVec n) (k : Nat) :
    (((v >>> k) &&& 1) != 0) = v.getLsbD k := by
  rw [bit_and_one hn]; simp

theorem one_bit_ne {n : Nat} (i : Nat) (h : i ≠ 0) : (1 : BitVec n).getLsbD i = false := by
  simp [h]

theorem xor_last {n : Nat} (hn : 0 < n) (v : BitVec n) :
    ((v >>> (n - 1)) ^^^ (v &&& 1) != 0) = (v.getLsbD (n - 1) ^^ v.getLsbD 0) := by
  have : ((v >>> (n - 1)) ^^^ (v &&& 1)) = ((v >>> (n - 1)) ^^^ v) &&& 1 := by
    apply BitVec.eq_of_getLsbD_eq
    intro i hi
    simp only [BitVec.getLsbD_xor, BitVec.getLsbD_and, BitVec.getLsbD_ushiftRight, BitVec.getLsbD_one]
    by_cases h : i = 0
    · subst h; simp [hn]
    · rw [one_bit_ne _ h, BitVec.getLsbD_of_ge v (n - 1 + i) (by omega)]; simp
  rw [this, bit_and_one hn]; simp

/-- Flags after a rotate: CF := c, OF := o, all others kept. -/
theorem rot_flags (f : BitVec 16) (c o : Bool) :
    let f' := orIf (orIf (clr f (FLAG_OF ||| FLAG_CF)) c FLAG_CF) o FLAG_OF
    f'.getLsbD bCF = c ∧ f'.getLsbD bOF = o ∧ OnlyBits [bCF, bOF] f f' := by
  refine ⟨?_, ?_, ?_⟩
  · rw [orIf_bit, orIf_bit, clr_bit _ _ _ (by decide)]; simp [bCF]
  · rw [orIf_bit, orIf_bit, clr_bit _ _ _ (by decide)]; simp [bOF]
  · intro i hi hni
    simp only [List.mem_cons, List.not_mem_nil, or_false, not_or] at hni
    simp only [orIf_bit, clr_bit _ _ _ hi]
    revert i
    apply forall_bits
    simp

theorem rot_flags' (f : BitVec 16) (c o : Bool) :
    let f' := orIf (orIf (clr f (FLAG_OF ||| FLAG_CF)) o FLAG_OF) c FLAG_CF
    f'.getLsbD bCF = c ∧ f'.getLsbD bOF = o ∧ OnlyBits [bCF, bOF] f f' := by
  refine ⟨?_, ?_, ?_⟩
  · rw [orIf_bit, orIf_bit, clr_bit _ _ _ (by decide)]; simp [bCF]
  · rw [orIf_bit, orIf_bit, clr_bit _ _ _ (by decide)]; simp [bOF]
  · intro i hi hni
    simp only [List.mem_cons, List.not_mem_nil, or_false, not_or] at hni
    simp only [orIf_bit, clr_bit _ _ _ hi]
    revert i
    apply forall_bits
    simp

theorem rol_bit {n : Nat} (d : BitVec n) (amt : Nat) (h0 : 0 < amt) (h : amt < n) (i : Nat) (hi : i < n) :
    ((d <<< amt) ||| (d >>> (n - amt))).getLsbD ((i + amt) % n) = d.getLsbD i := by
  simp only [BitVec.getLsbD_or, BitVec.getLsbD_shiftLeft, BitVec.getLsbD_ushiftRight]
  by_cases hw : i + amt < n
  · rw [Nat.mod_eq_of_lt hw]
    simp [show ¬ (i + amt < amt) by omega, hw]
    rw [BitVec.getLsbD_of_ge _ _ (by omega)]; simp
  · rw [Nat.mod_eq_sub_mod (by omega), Nat.mod_eq_of_lt (by omega)]
    simp [show i + amt - n < amt by omega, show n - amt + (i + amt - n) = i by omega]

theorem rol_spec {n : Nat} (d : BitVec n) (amt c : Nat) (h0 : 0 < amt) (h : amt < n)
    (hc : c % n = amt) (f : BitVec 16) : RolSpec d c f (shRol d amt f).1 (shRol d amt f).2 := by
  have hn : 0 < n := by omega
  obtain ⟨h1, h2, h3⟩ := rot_flags f ((((d <<< amt) ||| (d >>> (n - amt))) &&& 1) != 0)
    ((((d <<< amt) ||| (d >>> (n - amt))) >>> (n - 1)) ^^^ (((d <<< amt) ||| (d >>> (n - amt))) &&& 1) != 0)
  refine ⟨?_, ?_, ?_, h3⟩
  · intro i hi
    rw [Nat.add_mod, hc, Nat.mod_eq_of_lt hi]
    exact rol_bit d amt h0 h i hi
  · exact h1.trans (bit_and_one hn _)
  · intro _
    refine h2.trans ?_
    rw [xor_last hn]
    rw [show (shRol d amt f).2.getLsbD bCF = _ from h1, bit_and_one hn, Bool.xor_comm]; rfl

theorem ror_bit {n : Nat} (d : BitVec n) (amt : Nat) (h0 : 0 < amt) (h : amt < n) (i : Nat) (hi : i < n) :
    ((d >>> amt) ||| (d <<< (n - amt))).getLsbD i = d.getLsbD ((i + amt) % n) := by
  simp only [BitVec.getLsbD_or, BitVec.getLsbD_shiftLeft, BitVec.getLsbD_ushiftRight]
  by_cases hw : i + amt < n
  · rw [Nat.mod_eq_of_lt hw, Nat.add_comm]
    simp [show i < n - amt by omega]
  · rw [Nat.mod_eq_sub_mod (by omega), Nat.mod_eq_of_lt (show i + amt - n < n by omega)]
    simp [hi, show ¬ (i < n - amt) by omega, show i - (n - amt) = i + amt - n by omega]
    rw [BitVec.getLsbD_of_ge _ _ (by omega)]; simp

theorem ror_spec {n : Nat} (d : BitVec n) (amt c : Nat) (h0 : 0 < amt) (h : amt < n)
    (hc : c % n = amt) (f : BitVec 16) : RorSpec d c f (shRor d amt f).1 (shRor d amt f).2 := by
  have hn : 0 < n := by omega
  obtain ⟨h1, h2, h3⟩ := rot_flags f (((d >>> amt) ||| (d <<< (n - amt))) >>> (n - 1) != 0)
    ((((((d >>> amt) ||| (d <<< (n - amt))) >>> (n - 1)) ^^^
      (((d >>> amt) ||| (d <<< (n - amt))) >>> (n - 2))) &&& 1) != 0)
  refine ⟨?_, ?_, ?_, h3⟩
  · intro i hi
    have e : (i + c) % n = (i + amt) % n := by rw [← hc, Nat.add_mod_mod]
    rw [e]
    exact ror_bit d amt h0 h i hi
  · exact h1.trans (by rw [shr_msb hn, BitVec.msb_eq_getLsbD_last]; rfl)
  · intro _
    refine h2.trans ?_
    rw [bit_and_one hn]
    simp [shRor]

/-! ### RCL, RCR -/

/-- One RCL step as a rotation of n+1 bits. -/
theorem rcl_step {n : Nat} (hn : 0 < n) (v : BitVec n) (c : Bool) (i : Nat) (hi : i ≤ n) :
    cbit (v >>> (n - 1) != 0) ((v <<< 1) ||| (if c then 1 else 0)) ((i + 1) % (n + 1)) = cbit c v i := by
  simp only [cbit]
  by_cases h : i = n
  · subst h
    rw [Nat.mod_self, if_pos hn]
    cases c <;> simp [hn]
  · rw [Nat.mod_eq_of_lt (by omega), if_pos (show i < n by omega)]
    by_cases h1 : i + 1 < n
    · rw [if_pos h1]
      cases c <;> simp [h1, BitVec.getLsbD_eq_getElem (show i < n by omega)]
    · rw [if_neg h1, shr_msb hn, BitVec.msb_eq_getLsbD_last]
      congr 1; omega

theorem rclLoop_bits {n : Nat} (hn : 0 < n) : ∀ (k : Nat) (v : BitVec n) (c : Bool) (i : Nat), i ≤ n →
    cbit (rclLoop k v c).2 (rclLoop k v c).1 ((i + k) % (n + 1)) = cbit c v i := by
  intro k
  induction k with
  | zero => intro v c i hi; rw [Nat.add_zero, Nat.mod_eq_of_lt (by omega)]; rfl
  | succ k ih =>
    intro v c i hi
    rw [rclLoop, ← rcl_step hn v c i hi]
    have := ih ((v <<< 1) ||| (if c then 1 else 0)) (v >>> (n - 1) != 0) ((i + 1) % (n + 1))
      (by have := Nat.mod_lt (i + 1) (show 0 < n + 1 by omega); omega)
    rw [← this, Nat.mod_add_mod]
    congr 2; omega

theorem rcl_spec {n : Nat} (hn : 0 < n) (d : BitVec n) (amt c : Nat) (hc : c % (n + 1) = amt)
    (f : BitVec 16) : RclSpec d c f (shRcl d amt f).1 (shRcl d amt f).2 := by
  obtain ⟨h1, h2, h3⟩ := rot_flags f (rclLoop amt d (tst f FLAG_CF)).2
    ((rclLoop amt d (tst f FLAG_CF)).2 ^^ ((rclLoop amt d (tst f FLAG_CF)).1 >>> (n - 1) != 0))
  refine ⟨?_, ?_, h3⟩
  · intro i hi
    rw [show (shRcl d amt f).2.getLsbD bCF = _ from h1, ← tst_CF]
    rw [← rclLoop_bits hn amt d (tst f FLAG_CF) i hi, ← hc, Nat.add_mod_mod]; rfl
  · intro _
    refine h2.trans ?_
    rw [show (shRcl d amt f).2.getLsbD bCF = _ from h1, shr_msb hn, BitVec.msb_eq_getLsbD_last]; rfl

theorem rcr_step {n : Nat} (hn : 0 < n) (v : BitVec n) (c : Bool) (i : Nat) (hi : i ≤ n) :
    cbit ((v &&& 1) != 0) ((v >>> 1) ||| ((if c then (1 : BitVec n) else 0) <<< (n - 1))) i =
      cbit c v ((i + 1) % (n + 1)) := by
  simp only [cbit]
  by_cases h : i = n
  · subst h
    rw [Nat.mod_self, if_pos hn, if_neg (by omega), bit_and_one hn]
  · rw [Nat.mod_eq_of_lt (show i + 1 < n + 1 by omega), if_pos (show i < n by omega)]
    have hone : (1 : BitVec n).getLsbD 0 = true := by simp [hn]
    by_cases h1 : i + 1 < n
    · rw [if_pos h1]
      cases c <;> simp [Nat.add_comm 1 i]
      intro h2; omega
    · rw [if_neg h1]
      have : i = n - 1 := by omega
      subst this
      cases c <;> simp [show n - 1 < n by omega]
      rw [BitVec.getLsbD_of_ge _ _ (by omega)]

theorem rcrLoop_bits {n : Nat} (hn : 0 < n) : ∀ (k : Nat) (v : BitVec n) (c : Bool) (i : Nat), i ≤ n →
    cbit (rcrLoop k v c).2 (rcrLoop k v c).1 i = cbit c v ((i + k) % (n + 1)) := by
  intro k
  induction k with
  | zero => intro v c i hi; rw [Nat.add_zero, Nat.mod_eq_of_lt (by omega)]; rfl
  | succ k ih =>
    intro v c i hi
    have hm := Nat.mod_lt (i + k) (show 0 < n + 1 by omega)
    rw [rcrLoop, ih _ _ i hi, rcr_step hn v c _ (by omega), Nat.mod_add_mod]
    congr 2

theorem rcr_spec {n : Nat} (hn : 1 < n) (d : BitVec n) (amt c : Nat) (hc : c % (n + 1) = amt)
    (f : BitVec 16) : RcrSpec d c f (shRcr d amt f).1 (shRcr d amt f).2 := by
  have hn0 : 0 < n := by omega
  obtain ⟨h1, h2, h3⟩ := rot_flags' f (rcrLoop amt d (tst f FLAG_CF)).2
    (((d >>> (n - 1)) &&& 1 != 0) ^^ tst f FLAG_CF)
  have hb := rcrLoop_bits hn0 amt d (tst f FLAG_CF)
  refine ⟨?_, ?_, h3⟩
  · intro i hi
    rw [show (shRcr d amt f).2.getLsbD bCF = _ from h1, ← tst_CF]
    have e : (i + c) % (n + 1) = (i + amt) % (n + 1) := by rw [← hc, Nat.add_mod_mod]
    rw [e]
    exact hb i hi
  · intro hc1
    refine h2.trans ?_
    have ha : amt = 1 := by rw [← hc, hc1, Nat.mod_eq_of_lt (by omega)]
    have e1 := hb (n - 1) (by omega)
    have e2 := hb (n - 2) (by omega)
    simp only [cbit, ha] at e1 e2
    rw [if_pos (by omega), Nat.mod_eq_of_lt (by omega), if_neg (by omega)] at e1
    rw [if_pos (by omega), Nat.mod_eq_of_lt (by omega), if_pos (by omega)] at e2
    rw [bit_shr hn0, Bool.xor_comm]
    simp only [shRcr, ha]
    rw [e1, e2]
    congr 2; omega

/-! ### SHL, SHR, SAR -/

theorem shift_flags {n : Nat} (hn : 0 < n) (f : BitVec 16) (c o : Bool) (v : BitVec n) :
    let f' := setCommFlags (orIf (orIf (clr f (FLAG_OF ||| FLAG_CF)) c FLAG_CF) o FLAG_OF) v
    f'.getLsbD bCF = c ∧ f'.getLsbD bOF = o ∧ ResultFlags f' v ∧
    OnlyBits [bCF, bPF, bZF, bSF, bOF] f f' := by
  obtain ⟨h1, h2, h3⟩ := rot_flags f c o
  refine ⟨?_, ?_, setCommFlags_res hn _ _, ?_⟩
  · rw [setCommFlags_CF hn]; exact h1
  · rw [setCommFlags_OF hn]; exact h2
  · intro i hi hni
    simp only [List.mem_cons, List.not_mem_nil, or_false, not_or] at hni
    rw [setCommFlags_bit hn _ _ _ hi]
    simp only [hni, if_false]
    exact h3 i hi (by simp [hni])

theorem orIf_false (f m : BitVec 16) : orIf f false m = f := by simp [orIf]

theorem shl_spec {n : Nat} (d : BitVec n) (hn : 0 < n) (c : Nat) (h0 : 0 < c) (hne : c ≠ n) (f : BitVec 16) :
    ∃ v f', shShl d c f = .ok (v, f') ∧ ShlSpec d c f v f' := by
  by_cases hgt : c > n
  · have e : shShl d c f = .ok ((0 : BitVec n), setCommFlags (clr f (FLAG_OF ||| FLAG_CF)) (0 : BitVec n)) := by
      simp [shShl, hgt]
    refine ⟨_, _, e, ?_⟩
    obtain ⟨h1, h2, h3, h4⟩ := shift_flags hn f false false (0 : BitVec n)
    rw [orIf_false, orIf_false] at h1 h2 h3 h4
    refine ⟨?_, fun h => by omega, fun h => by omega, h3, h4⟩
    rw [show c = n + (c - n) by omega, Nat.pow_add, Nat.mul_left_comm]
    simp
  · have e : shShl d c f = .ok (d <<< c, setCommFlags (orIf (orIf (clr f (FLAG_OF ||| FLAG_CF))
        (((d >>> (n - c)) &&& 1) != 0) FLAG_CF)
        ((((d >>> (n - c)) ^^^ (d >>> (n - c - 1))) &&& 1) != 0) FLAG_OF) (d <<< c)) := by
      simp only [shShl]; rw [if_neg hgt, if_neg hne]
    refine ⟨_, _, e, ?_⟩
    obtain ⟨h1, h2, h3, h4⟩ := shift_flags hn f (((d >>> (n - c)) &&& 1) != 0)
        ((((d >>> (n - c)) ^^^ (d >>> (n - c - 1))) &&& 1) != 0) (d <<< c)
    refine ⟨?_, fun _ => h1.trans (bit_shr hn _ _), fun hc => ?_, h3, h4⟩
    · rw [BitVec.toNat_shiftLeft, Nat.shiftLeft_eq]
    · rw [h1, h2, bit_shr hn, bit_and_one hn]
      subst hc
      have e3 : (d <<< 1).getLsbD (n - 1) = d.getLsbD (n - 1 - 1) := by
        rw [BitVec.getLsbD_shiftLeft]
        simp only [show n - 1 < n by omega, show ¬ (n - 1 < 1) by omega, decide_true, decide_false,
          Bool.not_false, Bool.true_and]
      rw [e3]; simp

theorem highOF_eq {n : Nat} (hn : 2 ≤ n) (v : BitVec n) (f : BitVec 16) :
    highOF v f = orIf f (v.getLsbD (n - 2) ^^ v.getLsbD (n - 1)) FLAG_OF := by
  simp only [highOF]
  congr 1
  have : ((v >>> (n - 2)) &&& 1) ^^^ (v >>> (n - 2)) >>> 1 = ((v >>> (n - 2)) ^^^ (v >>> (n - 1))) &&& 1 := by
    apply BitVec.eq_of_getLsbD_eq
    intro i hi
    simp only [BitVec.getLsbD_xor, BitVec.getLsbD_and, BitVec.getLsbD_ushiftRight, BitVec.getLsbD_one]
    by_cases h : i = 0
    · subst h; simp [show 0 < n by omega, show n - 2 + 1 = n - 1 by omega]
    · rw [one_bit_ne _ h, BitVec.getLsbD_of_ge v (n - 2 + (1 + i)) (by omega)]; simp [h]
  rw [this, bit_and_one (by omega)]; simp

theorem shr_spec {n : Nat} (hn : 2 ≤ n) (d : BitVec n) (c : Nat) (h0 : 0 < c) (f : BitVec 16) :
    ShrSpec d c f (shShr d c f).1 (shShr d c f).2 := by
  have hn0 : 0 < n := by omega
  have hd := d.isLt
  by_cases hgt : c > n
  · have e : shShr d c f = ((0 : BitVec n), setCommFlags (orIf (orIf (clr f (FLAG_OF ||| FLAG_CF)) false FLAG_CF) false FLAG_OF) (0 : BitVec n)) := by
      simp only [shShr]; rw [if_pos hgt]
      simp only [highOF_eq hn]
      rw [orIf_false, orIf_false]; simp [orIf]
    rw [e]
    obtain ⟨h1, h2, h3, h4⟩ := shift_flags hn0 f false false (0 : BitVec n)
    refine ⟨?_, fun h => by omega, fun h => by omega, h3, h4⟩
    rw [Nat.div_eq_of_lt]
    · simp
    · exact Nat.lt_of_lt_of_le hd (Nat.pow_le_pow_right (by decide) (by omega))
  · have e : shShr d c f = (d >>> c, setCommFlags (orIf (orIf (clr f (FLAG_OF ||| FLAG_CF))
        (((d >>> (c - 1)) &&& 1) != 0) FLAG_CF)
        ((d >>> c).getLsbD (n - 2) ^^ (d >>> c).getLsbD (n - 1)) FLAG_OF) (d >>> c)) := by
      simp only [shShr]; rw [if_neg hgt]
      simp only [highOF_eq hn]
    rw [e]
    obtain ⟨h1, h2, h3, h4⟩ := shift_flags hn0 f (((d >>> (c - 1)) &&& 1) != 0)
        ((d >>> c).getLsbD (n - 2) ^^ (d >>> c).getLsbD (n - 1)) (d >>> c)
    refine ⟨by rw [BitVec.toNat_ushiftRight, Nat.shiftRight_eq_div_pow], fun _ => h1.trans (bit_shr hn0 _ _),
      fun hc => ?_, h3, h4⟩
    refine h2.trans ?_
    subst hc
    simp only [BitVec.getLsbD_ushiftRight]
    rw [BitVec.getLsbD_of_ge d (1 + (n - 1)) (by omega), show 1 + (n - 2) = n - 1 by omega]; simp

theorem sar_value {n : Nat} (hn : 2 ≤ n) (hn2 : n ≤ 32) (d : BitVec n) (c : Nat) (hc : c < n) (hc0 : 0 < c) :
    (d >>> c) ||| (if d >>> (n - 1) != 0 then ((0xFFFFFFFF#32) <<< (n - c)).setWidth n else 0) =
      d.sshiftRight c := by
  rw [shr_msb (by omega)]
  apply BitVec.eq_of_getLsbD_eq
  intro i hi
  rw [BitVec.getLsbD_sshiftRight]
  simp only [BitVec.getLsbD_or, BitVec.getLsbD_ushiftRight]
  by_cases h : c + i < n
  · have h2 : (if d.msb then ((0xFFFFFFFF#32) <<< (n - c)).setWidth n else 0).getLsbD i = false := by
      split
      · simp [BitVec.getLsbD_setWidth, show i < n - c by omega]
      · simp
    rw [h2]; simp [h, show ¬ (n ≤ i) by omega]
  · rw [BitVec.getLsbD_of_ge _ _ (show n ≤ c + i by omega)]
    have hF : ∀ j < 32, (0xFFFFFFFF#32).getLsbD j = true := by
      intro j hj
      have : ∀ j : Fin 32, (0xFFFFFFFF#32).getLsbD j.1 = true := by decide
      exact this ⟨j, hj⟩
    cases hm : d.msb
    · simp [h]
    · simp [h, hi, show ¬ (n ≤ i) by omega, BitVec.getLsbD_setWidth, BitVec.getLsbD_shiftLeft,
        show i < 32 by omega, show ¬ (i < n - c) by omega, hF _ (show i - (n - c) < 32 by omega)]

theorem sar_spec {n : Nat} (hn : 8 ≤ n) (hn2 : n ≤ 32) (d : BitVec n) (c : Nat) (h0 : 0 < c) (f : BitVec 16) :
    SarSpec d c f (shSar d c f).1 (shSar d c f).2 := by
  have hn0 : 0 < n := by omega
  have hshr : (d.sshiftRight c).toInt = d.toInt / 2 ^ c := by
    rw [BitVec.toInt_sshiftRight, Int.shiftRight_eq_div_pow]; simp
  have hof : (d.sshiftRight c).getLsbD (n - 2) = (d.sshiftRight c).getLsbD (n - 1) := by
    rw [BitVec.getLsbD_sshiftRight, BitVec.getLsbD_sshiftRight]
    simp only [show ¬ (n ≤ n - 2) by omega, show ¬ (n ≤ n - 1) by omega, decide_false, Bool.not_false,
      Bool.true_and]
    rw [if_neg (show ¬ (c + (n - 1) < n) by omega)]
    split
    · rw [BitVec.msb_eq_getLsbD_last]; congr 1; omega
    · rfl
  by_cases hge : c ≥ n
  · have hv : (if d >>> (n - 1) != 0 then BitVec.allOnes n else 0) = d.sshiftRight c := by
      rw [shr_msb hn0]
      apply BitVec.eq_of_getLsbD_eq
      intro i hi
      rw [BitVec.getLsbD_sshiftRight]
      cases hm : d.msb <;> simp [hi, show ¬ (c + i < n) by omega, show ¬ (n ≤ i) by omega]
    have e : shSar d c f = (d.sshiftRight c, setCommFlags (orIf (orIf (clr f (FLAG_OF ||| FLAG_CF))
        (d >>> (n - 1) != 0) FLAG_CF)
        ((d.sshiftRight c).getLsbD (n - 2) ^^ (d.sshiftRight c).getLsbD (n - 1)) FLAG_OF) (d.sshiftRight c)) := by
      simp only [shSar]; rw [if_pos hge]
      simp only [highOF_eq (show 2 ≤ n by omega), hv]
    rw [e]
    obtain ⟨h1, h2, h3, h4⟩ := shift_flags hn0 f (d >>> (n - 1) != 0)
        ((d.sshiftRight c).getLsbD (n - 2) ^^ (d.sshiftRight c).getLsbD (n - 1)) (d.sshiftRight c)
    refine ⟨hshr, h1.trans ?_, fun _ => h2.trans (by rw [hof]; simp), h3, h4⟩
    rw [shr_msb hn0, BitVec.msb_eq_getLsbD_last]
    congr 1; omega
  · have hv := sar_value (show 2 ≤ n by omega) hn2 d c (by omega) h0
    have e : shSar d c f = (d.sshiftRight c, setCommFlags (orIf (orIf (clr f (FLAG_OF ||| FLAG_CF))
        (((d >>> (c - 1)) &&& 1) != 0) FLAG_CF)
        ((d.sshiftRight c).getLsbD (n - 2) ^^ (d.sshiftRight c).getLsbD (n - 1)) FLAG_OF) (d.sshiftRight c)) := by
      simp only [shSar]; rw [if_neg hge]
      simp only [highOF_eq (show 2 ≤ n by omega), hv]
    rw [e]
    obtain ⟨h1, h2, h3, h4⟩ := shift_flags hn0 f (((d >>> (c - 1)) &&& 1) != 0)
        ((d.sshiftRight c).getLsbD (n - 2) ^^ (d.sshiftRight c).getLsbD (n - 1)) (d.sshiftRight c)
    refine ⟨hshr, h1.trans ?_, fun _ => h2.trans (by rw [hof]; simp), h3, h4⟩
    rw [bit_shr hn0]
    congr 1; omega

end RME
