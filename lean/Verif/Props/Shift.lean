import Verif.Props.Arith
set_option autoImplicit false
/-
C22 SHL/SHR/SAR, C23 ROL/ROR/RCL/RCR.
-/
namespace RME

/-- Storing the value an operand already has changes nothing. -/
theorem put_self {s : State} {n : Nat} (hn : n = 8 ∨ n = 16 ∨ n = 32) {o : Opnd} {a : BitVec n} (h : o.Has s n a) :
    o.put s n a = s := by
  cases o with
  | reg r =>
    have h' : a = (s.gpr r).setWidth n := h
    subst h'
    refine State.ext' ?_ rfl rfl rfl rfl rfl rfl rfl rfl rfl rfl rfl rfl
    funext r'
    simp only [Opnd.put, State.setGpr]
    by_cases hr : r' = r
    · subst hr
      rw [if_pos rfl]
      apply BitVec.eq_of_getLsbD_eq
      intro i hi
      rcases hn with rfl | rfl | rfl <;> (simp <;> grind)
    · rw [if_neg hr]
  | high r =>
    obtain ⟨rfl, h'⟩ := h
    subst h'
    refine State.ext' ?_ rfl rfl rfl rfl rfl rfl rfl rfl rfl rfl rfl rfl
    funext r'
    simp only [Opnd.put, State.setGpr]
    by_cases hr : r' = r
    · subst hr
      rw [if_pos rfl]
      generalize s.gpr r' = x
      apply BitVec.eq_of_getLsbD_eq
      intro i hi
      have hm : (0xFFFF00FF#32).getLsbD i = !(decide (8 ≤ i) && decide (i < 16)) := by
        revert i; decide
      rw [BitVec.getLsbD_or, BitVec.getLsbD_and, hm]
      simp; grind
    · rw [if_neg hr]
  | mem seg ofs =>
    obtain ⟨h', ⟨hm, _⟩, hh⟩ := h
    simp only [Opnd.put, hm]
    refine State.ext' rfl rfl rfl rfl rfl rfl rfl ?_ rfl rfl rfl rfl rfl
    funext x
    simp only [putHost]
    split
    · rename_i hx
      have := hh (x - h') (by omega)
      rw [← this]; congr 1; omega
    · rfl
  | imm v => rfl

/-- The count the processor uses: the count modulo 32. -/
def count5 (c : BitVec 8) : Nat := c.toNat % 32

theorem and31 (c : BitVec 8) : (c &&& 31).toNat = c.toNat % 32 := by
  revert c; decide +kernel

/-! ### C22 -/

/-- C22 (partial): SHL (and its alias /6).  Missing: a count equal to the operand width is host UB (`C22_violated_shl`). -/
theorem C22_shl_partial {s : State} {h0 : Nat} {p : Pfx} {code : List (BitVec 8)} {len n : Nat} {o : Opnd} {k : BitVec 3} {c : BitVec 8}
    (hk : k = 4 ∨ k = 6) (hat : At s h0 p code len) (henc : ShiftEnc s p k n code o c) (env : Env) {a : BitVec n} (ha : o.Has s n a)
    (h0' : count5 c ≠ 0) (hne : count5 c ≠ n) :
    ∃ v f', ShlSpec a (count5 c) s.flags v f' ∧
      (NotZeroed { o.put s n v with flags := f' } h0 len → Falls env s len { o.put s n v with flags := f' }) := by
  have hn := henc.width
  obtain ⟨v, f', h1, h2⟩ := shl_spec a (by omega) (count5 c) (by omega) hne s.flags
  refine ⟨v, f', h2, fun hnz => shift_step hat henc env ha ?_ ?_ hnz⟩ <;>
  · rcases hk with rfl | rfl <;> simp only [shiftOfNum, shiftAmt, and31] <;> assumption

/-- C22: SHR. -/
theorem C22_shr {s : State} {h0 : Nat} {p : Pfx} {code : List (BitVec 8)} {len n : Nat} {o : Opnd} {c : BitVec 8}
    (hat : At s h0 p code len) (henc : ShiftEnc s p 5 n code o c) (env : Env) {a : BitVec n} (ha : o.Has s n a) (h0' : count5 c ≠ 0) :
    ∃ v f', ShrSpec a (count5 c) s.flags v f' ∧
      (NotZeroed { o.put s n v with flags := f' } h0 len → Falls env s len { o.put s n v with flags := f' }) := by
  have hn := henc.width
  refine ⟨_, _, shr_spec (by omega) a (count5 c) (by omega) s.flags, fun hnz => shift_step hat henc env ha ?_ ?_ hnz⟩
  · simp only [shiftOfNum, shiftAmt, and31]; exact h0'
  · simp only [shiftOfNum, shiftAmt, and31]; rfl

/-- C22: SAR. -/
theorem C22_sar {s : State} {h0 : Nat} {p : Pfx} {code : List (BitVec 8)} {len n : Nat} {o : Opnd} {c : BitVec 8}
    (hat : At s h0 p code len) (henc : ShiftEnc s p 7 n code o c) (env : Env) {a : BitVec n} (ha : o.Has s n a) (h0' : count5 c ≠ 0) :
    ∃ v f', SarSpec a (count5 c) s.flags v f' ∧
      (NotZeroed { o.put s n v with flags := f' } h0 len → Falls env s len { o.put s n v with flags := f' }) := by
  have hn := henc.width
  refine ⟨_, _, sar_spec (by omega) (by omega) a (count5 c) (by omega) s.flags, fun hnz => shift_step hat henc env ha ?_ ?_ hnz⟩
  · simp only [shiftOfNum, shiftAmt, and31]; exact h0'
  · simp only [shiftOfNum, shiftAmt, and31]; rfl

/-- C22/C23: any shift or rotation with a count that is 0 modulo 32 changes nothing. -/
theorem C22_count_zero {s : State} {h0 : Nat} {p : Pfx} {code : List (BitVec 8)} {len n : Nat} {o : Opnd} {k : BitVec 3} {c : BitVec 8}
    (hat : At s h0 p code len) (henc : ShiftEnc s p k n code o c) (env : Env) (hok : o.Ok s n) (h0' : count5 c = 0) :
    Falls env s len s := by
  refine shift_step0 hat henc env hok ?_
  have : (c &&& 31).toNat = 0 := (and31 c).trans h0'
  unfold shiftAmt
  split <;> rw [this] <;> simp only [Nat.zero_mod]

/-- C22 violated: SHL with a count equal to the width is undefined behaviour of the host, for every operand. -/
theorem C22_violated_shl {s : State} {h0 : Nat} {p : Pfx} {code : List (BitVec 8)} {len n : Nat} {o : Opnd} {k : BitVec 3} {c : BitVec 8}
    (hk : k = 4 ∨ k = 6) (hat : At s h0 p code len) (henc : ShiftEnc s p k n code o c) (env : Env) {a : BitVec n} (ha : o.Has s n a)
    (hc : count5 c = n) : runOne env s = .ub .shiftRange := by
  have hn := henc.width
  have hc' : c.toNat % 32 = n := hc
  refine shift_ub hat henc env ha (u := .shiftRange) ?_ ?_ <;>
  · have ha' : shiftAmt .shl n c = n ∧ shiftAmt .sal n c = n := ⟨(and31 c).trans hc', (and31 c).trans hc'⟩
    rcases hk with rfl | rfl <;> simp [shiftOfNum, ha', shiftCode, shShl] <;> omega

/-- Witness: SHL AL, 8. -/
theorem C22_violated_shl_witness : runOne demoEnv (demo [0xC0, 0xE0, 0x08]) = .ub .shiftRange :=
  C22_violated_shl (Or.inl rfl) (demo_at _ (by decide)) (ShiftEnc.mib (p := {}) (RM.reg 0xE0 (by decide)) (fun h => absurd rfl h) 8) _
    (a := 0x55) rfl (by decide)

/-- SHL WORD [BX+4], CL (CL = 3); SHR EAX, 1; SAR CL, 9. -/
example : ∃ (s : State) (p : Pfx) (code : List (BitVec 8)) (o : Opnd) (c : BitVec 8) (a : BitVec 16),
    At s 0x10100 p code 3 ∧ ShiftEnc s p 4 16 code o c ∧ o.Has s 16 a ∧ count5 c ≠ 0 ∧ count5 c ≠ 16 ∧
    ∀ v f', NotZeroed { o.put s 16 v with flags := f' } 0x10100 3 := by
  have h : RM (demo [0xD3, 0x67, 0x04]) {} 16 [0x67, 0x04] 4 _ := RM.mem 0x67 [0x04] (by decide) rfl (by decide)
  obtain ⟨a, ha⟩ := demo_mem_has [0xD3, 0x67, 0x04] 16 (by decide) _ _
  exact ⟨demo [0xD3, 0x67, 0x04], {}, _, _, _, a, demo_at _ (by decide),
    ShiftEnc.mcl (p := {}) h (fun _ => ⟨by decide, by decide, by decide⟩), ha, by decide, by decide, fun _ _ h => absurd h (by decide)⟩
example : ∃ (s : State) (p : Pfx) (code : List (BitVec 8)) (o : Opnd) (c : BitVec 8) (a : BitVec 32),
    At s 0x10100 p code 3 ∧ ShiftEnc s p 5 32 code o c ∧ o.Has s 32 a ∧ count5 c ≠ 0 :=
  ⟨demo [0x66, 0xD1, 0xE8], { oper := true }, _, _, _, 0x11220055,
    ⟨demo_ready _, [0x66], rfl, demo_code [0x66, 0xD1, 0xE8] (by decide), rfl⟩,
    ShiftEnc.m1 (p := { oper := true }) (RM.reg 0xE8 (by decide)) (fun h => absurd rfl h), rfl, by decide⟩
example : ∃ (s : State) (p : Pfx) (code : List (BitVec 8)) (o : Opnd) (c : BitVec 8) (a : BitVec 8),
    At s 0x10100 p code 3 ∧ ShiftEnc s p 7 8 code o c ∧ o.Has s 8 a ∧ count5 c ≠ 0 :=
  ⟨demo [0xC0, 0xF9, 0x09], {}, _, _, _, 3, demo_at _ (by decide),
    ShiftEnc.mib (p := {}) (RM.reg 0xF9 (by decide)) (fun h => absurd rfl h) 9, rfl, by decide⟩

/-! ### C23 -/

/-- C23 (partial): ROL with a count that is not a multiple of the width. -/
theorem C23_rol_partial {s : State} {h0 : Nat} {p : Pfx} {code : List (BitVec 8)} {len n : Nat} {o : Opnd} {c : BitVec 8}
    (hat : At s h0 p code len) (henc : ShiftEnc s p 0 n code o c) (env : Env) {a : BitVec n} (ha : o.Has s n a)
    (h0' : count5 c % n ≠ 0) :
    ∃ v f', RolSpec a (count5 c) s.flags v f' ∧
      (NotZeroed { o.put s n v with flags := f' } h0 len → Falls env s len { o.put s n v with flags := f' }) := by
  have hn := henc.width
  have := Nat.mod_lt (count5 c) (show n > 0 by omega)
  refine ⟨_, _, rol_spec a (count5 c % n) (count5 c) (by omega) this rfl s.flags, fun hnz => shift_step hat henc env ha ?_ ?_ hnz⟩
  · simp only [shiftOfNum, shiftAmt, and31]; exact h0'
  · simp only [shiftOfNum, shiftAmt, and31]; rfl

/-- C23 (partial): ROR with a count that is not a multiple of the width. -/
theorem C23_ror_partial {s : State} {h0 : Nat} {p : Pfx} {code : List (BitVec 8)} {len n : Nat} {o : Opnd} {c : BitVec 8}
    (hat : At s h0 p code len) (henc : ShiftEnc s p 1 n code o c) (env : Env) {a : BitVec n} (ha : o.Has s n a)
    (h0' : count5 c % n ≠ 0) :
    ∃ v f', RorSpec a (count5 c) s.flags v f' ∧
      (NotZeroed { o.put s n v with flags := f' } h0 len → Falls env s len { o.put s n v with flags := f' }) := by
  have hn := henc.width
  have := Nat.mod_lt (count5 c) (show n > 0 by omega)
  refine ⟨_, _, ror_spec a (count5 c % n) (count5 c) (by omega) this rfl s.flags, fun hnz => shift_step hat henc env ha ?_ ?_ hnz⟩
  · simp only [shiftOfNum, shiftAmt, and31]; exact h0'
  · simp only [shiftOfNum, shiftAmt, and31]; rfl

/-- C23 (partial): ROL/ROR with a count that is a multiple of the width: the operand is unchanged (correct), and so are all
flags (not correct for a count that is not 0 modulo 32: CF should be bit 0 resp. the top bit, `C23_violated_cf`). -/
theorem C23_rol_ror_multiple_partial {s : State} {h0 : Nat} {p : Pfx} {code : List (BitVec 8)} {len n : Nat} {o : Opnd} {k : BitVec 3} {c : BitVec 8}
    (hk : k = 0 ∨ k = 1) (hat : At s h0 p code len) (henc : ShiftEnc s p k n code o c) (env : Env) (hok : o.Ok s n)
    (h0' : count5 c % n = 0) : Falls env s len s := by
  refine shift_step0 hat henc env hok ?_
  rcases hk with rfl | rfl <;> simp only [shiftOfNum, shiftAmt, and31] <;> exact h0'

/-- Witness: ROL AL, 8 with AL = 55h and CF = 0 leaves CF = 0 although the bit moved around last is 1. -/
theorem C23_violated_cf : ∃ (s t : State), At s 0x10100 {} [0xC0, 0xC0, 0x08] 3 ∧
    ShiftEnc s {} 0 8 [0xC0, 0xC0, 0x08] (.reg 0) 8 ∧ runOne demoEnv s = .ok () t ∧ (Opnd.reg 0).Has t 8 0x55 ∧
    (0x55 : BitVec 8).getLsbD 0 = true ∧ t.flags.getLsbD bCF = false :=
  ⟨demo [0xC0, 0xC0, 0x08], _, demo_at _ (by decide), ShiftEnc.mib (p := {}) (RM.reg 0xC0 (by decide)) (fun h => absurd rfl h) 8, rfl, rfl,
    rfl, by decide +kernel⟩

theorem rcl_zero {n : Nat} (hn : 1 < n) (a : BitVec n) (c : Nat) (hc : c % (n + 1) = 0) (f : BitVec 16) : RclSpec a c f a f := by
  refine ⟨fun i hi => ?_, fun h => ?_, fun _ _ _ => rfl⟩
  · rw [Nat.add_mod, hc, Nat.add_zero, Nat.mod_mod, Nat.mod_eq_of_lt (by omega)]
  · rw [h, Nat.mod_eq_of_lt (by omega)] at hc; omega
theorem rcr_zero {n : Nat} (hn : 1 < n) (a : BitVec n) (c : Nat) (hc : c % (n + 1) = 0) (f : BitVec 16) : RcrSpec a c f a f := by
  refine ⟨fun i hi => ?_, fun h => ?_, fun _ _ _ => rfl⟩
  · rw [Nat.add_mod, hc, Nat.add_zero, Nat.mod_mod, Nat.mod_eq_of_lt (by omega)]
  · rw [h, Nat.mod_eq_of_lt (by omega)] at hc; omega

/-- C23: RCL, every count. -/
theorem C23_rcl {s : State} {h0 : Nat} {p : Pfx} {code : List (BitVec 8)} {len n : Nat} {o : Opnd} {c : BitVec 8}
    (hat : At s h0 p code len) (henc : ShiftEnc s p 2 n code o c) (env : Env) {a : BitVec n} (ha : o.Has s n a) :
    ∃ v f', RclSpec a (count5 c) s.flags v f' ∧
      (NotZeroed { o.put s n v with flags := f' } h0 len → Falls env s len { o.put s n v with flags := f' }) := by
  have hn := henc.width
  by_cases h0' : count5 c % (n + 1) = 0
  · refine ⟨a, s.flags, rcl_zero (by omega) a _ h0' _, fun _ => ?_⟩
    rw [put_self hn ha]
    refine shift_step0 hat henc env (henc.ok ha) ?_
    simp only [shiftOfNum, shiftAmt, and31]; exact h0'
  · refine ⟨_, _, rcl_spec (by omega) a _ (count5 c) rfl s.flags, fun hnz => shift_step hat henc env ha ?_ ?_ hnz⟩
    · simp only [shiftOfNum, shiftAmt, and31]; exact h0'
    · simp only [shiftOfNum, shiftAmt, and31]; rfl

/-- C23: RCR, every count. -/
theorem C23_rcr {s : State} {h0 : Nat} {p : Pfx} {code : List (BitVec 8)} {len n : Nat} {o : Opnd} {c : BitVec 8}
    (hat : At s h0 p code len) (henc : ShiftEnc s p 3 n code o c) (env : Env) {a : BitVec n} (ha : o.Has s n a) :
    ∃ v f', RcrSpec a (count5 c) s.flags v f' ∧
      (NotZeroed { o.put s n v with flags := f' } h0 len → Falls env s len { o.put s n v with flags := f' }) := by
  have hn := henc.width
  by_cases h0' : count5 c % (n + 1) = 0
  · refine ⟨a, s.flags, rcr_zero (by omega) a _ h0' _, fun _ => ?_⟩
    rw [put_self hn ha]
    refine shift_step0 hat henc env (henc.ok ha) ?_
    simp only [shiftOfNum, shiftAmt, and31]; exact h0'
  · refine ⟨_, _, rcr_spec (by omega) a _ (count5 c) rfl s.flags, fun hnz => shift_step hat henc env ha ?_ ?_ hnz⟩
    · simp only [shiftOfNum, shiftAmt, and31]; exact h0'
    · simp only [shiftOfNum, shiftAmt, and31]; rfl

/-- C23: what the specifications say about a rotation to the left followed by the same rotation to the right, and vice versa:
the operand (for RCL/RCR with the carry) is the original one. -/
theorem C23_inverse {n : Nat} (hn : 0 < n) {a v w : BitVec n} {c : Nat} {f f' f'' : BitVec 16} :
    (RolSpec a c f v f' → RorSpec v c f' w f'' → w = a) ∧ (RorSpec a c f v f' → RolSpec v c f' w f'' → w = a) ∧
    (RclSpec a c f v f' → RcrSpec v c f' w f'' → w = a ∧ f''.getLsbD bCF = f.getLsbD bCF) ∧
    (RcrSpec a c f v f' → RclSpec v c f' w f'' → w = a ∧ f''.getLsbD bCF = f.getLsbD bCF) := by
  have key : ∀ m, m > 0 → ∀ i, i < m → ∃ j, j < m ∧ (j + c) % m = i := by
    intro m hm i hi
    refine ⟨(i + (m - c % m)) % m, Nat.mod_lt _ hm, ?_⟩
    have h1 := Nat.mod_lt c hm
    rw [Nat.mod_add_mod, Nat.add_assoc, Nat.add_mod]
    have : (m - c % m + c) % m = 0 := by
      have := Nat.mod_add_div c m
      rw [show m - c % m + c = m + m * (c / m) by omega, Nat.add_mul_mod_self_left, Nat.mod_self]
    rw [this, Nat.add_zero, Nat.mod_mod, Nat.mod_eq_of_lt hi]
  have fin : ∀ (x y : Bool), (∀ i, i ≤ n → cbit x w i = cbit y a i) → w = a ∧ x = y := by
    intro x y h
    constructor
    · apply BitVec.eq_of_getLsbD_eq
      intro i hi
      have := h i (by omega)
      simpa [cbit, hi] using this
    · have := h n (by omega)
      simpa [cbit] using this
  refine ⟨fun h1 h2 => ?_, fun h1 h2 => ?_, fun h1 h2 => fin _ _ ?_, fun h1 h2 => fin _ _ ?_⟩
  · apply BitVec.eq_of_getLsbD_eq
    intro i hi
    rw [h2.val i hi, h1.val i hi]
  · apply BitVec.eq_of_getLsbD_eq
    intro i hi
    obtain ⟨j, hj, rfl⟩ := key n hn i hi
    rw [h2.val j hj, h1.val j hj]
  · intro i hi
    rw [h2.val i hi, h1.val i hi]
  · intro i hi
    obtain ⟨j, hj, rfl⟩ := key (n + 1) (by omega) i (by omega)
    rw [h2.val j (by omega), h1.val j (by omega)]

/-- ROL WORD [BX+4], CL; RCR EAX, 31; the specifications of the inverse theorem are those of real executions. -/
example : ∃ (s : State) (p : Pfx) (code : List (BitVec 8)) (o : Opnd) (c : BitVec 8) (a : BitVec 16),
    At s 0x10100 p code 3 ∧ ShiftEnc s p 0 16 code o c ∧ o.Has s 16 a ∧ count5 c % 16 ≠ 0 := by
  have h : RM (demo [0xD3, 0x47, 0x04]) {} 16 [0x47, 0x04] 0 _ := RM.mem 0x47 [0x04] (by decide) rfl (by decide)
  obtain ⟨a, ha⟩ := demo_mem_has [0xD3, 0x47, 0x04] 16 (by decide) _ _
  exact ⟨demo [0xD3, 0x47, 0x04], {}, _, _, _, a, demo_at _ (by decide),
    ShiftEnc.mcl (p := {}) h (fun _ => ⟨by decide, by decide, by decide⟩), ha, by decide⟩
example : ∃ (s : State) (p : Pfx) (code : List (BitVec 8)) (o : Opnd) (c : BitVec 8) (a : BitVec 32),
    At s 0x10100 p code 4 ∧ ShiftEnc s p 3 32 code o c ∧ o.Has s 32 a ∧ count5 c % 33 ≠ 0 :=
  ⟨demo [0x66, 0xC1, 0xD8, 0x1F], { oper := true }, _, _, _, 0x11220055,
    ⟨demo_ready _, [0x66], rfl, demo_code [0x66, 0xC1, 0xD8, 0x1F] (by decide), rfl⟩,
    ShiftEnc.mi (p := { oper := true }) (RM.reg 0xD8 (by decide)) (fun h => absurd rfl h) 0x1F, rfl, by decide⟩
example : ∃ (a v w : BitVec 8) (f' f'' : BitVec 16), RolSpec a 3 0 v f' ∧ RorSpec v 3 f' w f'' ∧ a = 0x55 :=
  ⟨0x55, _, _, _, _, rol_spec _ 3 3 (by decide) (by decide) rfl _, ror_spec _ 3 3 (by decide) (by decide) rfl _, rfl⟩

end RME
