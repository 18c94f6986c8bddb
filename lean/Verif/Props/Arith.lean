import Verif.Lemmas.AluStep2
import Verif.Lemmas.Demo
import Verif.Lemmas.Sbb
set_option autoImplicit false
/-
C14–C19: the arithmetic and logic instructions, as effects of one `RME_RunOne` on the visible state.
The operands are those of the 8086 manual (`Spec/Operand.lean`, `Spec/Encode.lean`), the results are
given by integer arithmetic (`Spec/Arith.lean`).
-/
namespace RME

theorem AluEnc.width {s : State} {p : Pfx} {k n : Nat} {code : List (BitVec 8)} {dst src : Opnd}
    (h : AluEnc s p k n code dst src) : n = 8 ∨ n = 16 ∨ n = 32 := by
  cases h <;> first | exact Or.inl rfl | exact opW_ok p

theorem width_ge {n : Nat} (h : n = 8 ∨ n = 16 ∨ n = 32) : 8 ≤ n ∧ n ≤ 32 := by omega

theorem aluResult_eq (s : State) (k n : Nat) (dst : Opnd) (a b : BitVec n) (hk : k ≠ 7) :
    aluResult s k n dst a b = { dst.put s n (aluExec (aluOfNum (BitVec.ofNat 3 k)) a b s.flags).1 with
      flags := (aluExec (aluOfNum (BitVec.ofNat 3 k)) a b s.flags).2 } := by
  rw [aluResult, if_neg hk]

/-! ### C14 -/

/-- C14: ADD in every encoding and width: the destination becomes the sum modulo 2^w and the flags are
those of the processor; every other register, flag and byte of memory keeps its value. -/
theorem C14_add {s : State} {h0 : Nat} {p : Pfx} {code : List (BitVec 8)} {len n : Nat} {dst src : Opnd}
    (hat : At s h0 p code len) (henc : AluEnc s p 0 n code dst src) (env : Env) {a b : BitVec n}
    (ha : dst.Has s n a) (hb : src.Has s n b) :
    ∃ v f', AddSpec a b false s.flags v f' ∧
      (NotZeroed { dst.put s n v with flags := f' } h0 len →
        Falls env s len { dst.put s n v with flags := f' }) := by
  refine ⟨_, _, add_spec (width_ge henc.width).1 a b s.flags, fun hnz => ?_⟩
  have := alu_step (k := 0) (by decide) hat henc env ha hb
  rw [aluResult_eq _ _ _ _ _ _ (by decide)] at this
  exact this hnz

/-- C14: ADC adds the carry flag as well. -/
theorem C14_adc {s : State} {h0 : Nat} {p : Pfx} {code : List (BitVec 8)} {len n : Nat} {dst src : Opnd}
    (hat : At s h0 p code len) (henc : AluEnc s p 2 n code dst src) (env : Env) {a b : BitVec n}
    (ha : dst.Has s n a) (hb : src.Has s n b) :
    ∃ v f', AddSpec a b (s.flags.getLsbD bCF) s.flags v f' ∧
      (NotZeroed { dst.put s n v with flags := f' } h0 len →
        Falls env s len { dst.put s n v with flags := f' }) := by
  refine ⟨_, _, adc_spec (width_ge henc.width).1 a b s.flags, fun hnz => ?_⟩
  have := alu_step (k := 2) (by decide) hat henc env ha hb
  rw [aluResult_eq _ _ _ _ _ _ (by decide)] at this
  exact this hnz

theorem demo_at (code : List (BitVec 8)) (h : code.length ≤ 0x1000) :
    At (demo code) 0x10100 {} code code.length :=
  ⟨demo_ready code, [], rfl, demo_code code h, by simp⟩

theorem demo_mem_has (code : List (BitVec 8)) (n : Nat) (hn : n = 8 ∨ n = 16 ∨ n = 32) (seg ofs : BitVec 16) :
    ∃ v : BitVec n, (Opnd.mem seg ofs).Has (demo code) n v :=
  ⟨_, _, demo_mapped code n seg ofs (by omega), holds_valAt (by omega) _ _⟩

/-- ADD [BX+4], CX -/
example : ∃ (s : State) (p : Pfx) (code : List (BitVec 8)) (dst src : Opnd) (a b : BitVec 16),
    At s 0x10100 p code 3 ∧ AluEnc s p 0 16 code dst src ∧ dst.Has s 16 a ∧ src.Has s 16 b := by
  have h : RM (demo [0x01, 0x4F, 0x04]) {} 16 [0x4F, 0x04] 1 _ := RM.mem 0x4F [0x04] (by decide) rfl (by decide)
  obtain ⟨a, ha⟩ := demo_mem_has [0x01, 0x4F, 0x04] 16 (by decide) _ _
  exact ⟨demo [0x01, 0x4F, 0x04], {}, _, _, _, a, 3, demo_at _ (by decide),
    AluEnc.mr (p := {}) h (fun _ => ⟨by decide, by decide, by decide⟩), ha, rfl⟩

/-! ### C15 -/

/-- C15: SUB in every encoding and width. -/
theorem C15_sub {s : State} {h0 : Nat} {p : Pfx} {code : List (BitVec 8)} {len n : Nat} {dst src : Opnd}
    (hat : At s h0 p code len) (henc : AluEnc s p 5 n code dst src) (env : Env) {a b : BitVec n}
    (ha : dst.Has s n a) (hb : src.Has s n b) :
    ∃ v f', SubSpec a b false s.flags v f' ∧
      (NotZeroed { dst.put s n v with flags := f' } h0 len →
        Falls env s len { dst.put s n v with flags := f' }) := by
  refine ⟨_, _, sub_spec (width_ge henc.width).1 a b s.flags, fun hnz => ?_⟩
  have := alu_step (k := 5) (by decide) hat henc env ha hb
  rw [aluResult_eq _ _ _ _ _ _ (by decide)] at this
  exact this hnz

theorem cmp_ne_zero {s : State} {p : Pfx} {k n : Nat} (h1 : 0 < k) (h2 : k < 8) {code : List (BitVec 8)} {dst src : Opnd}
    (h : AluEnc s p k n code dst src) : ∃ op rest, code = op :: rest ∧ op ≠ 0 := by
  have hne : ∀ j, j < 8 → BitVec.ofNat 8 (8 * k + j) ≠ 0 := by
    intro j hj h
    have := congrArg BitVec.toNat h
    simp at this
    omega
  cases h with
  | mr8 => exact ⟨_, _, rfl, hne 0 (by decide)⟩
  | mr => exact ⟨_, _, rfl, hne 1 (by decide)⟩
  | rm8 => exact ⟨_, _, rfl, hne 2 (by decide)⟩
  | rm => exact ⟨_, _, rfl, hne 3 (by decide)⟩
  | ai8 => exact ⟨_, _, rfl, hne 4 (by decide)⟩
  | ai => exact ⟨_, _, rfl, hne 5 (by decide)⟩
  | mi8 | mi | mis => exact ⟨_, _, rfl, by decide⟩

/-- C15: CMP sets the flags of SUB and changes nothing else: no operand, no memory. -/
theorem C15_cmp {s : State} {h0 : Nat} {p : Pfx} {code : List (BitVec 8)} {len n : Nat} {dst src : Opnd}
    (hat : At s h0 p code len) (henc : AluEnc s p 7 n code dst src) (env : Env) {a b : BitVec n}
    (ha : dst.Has s n a) (hb : src.Has s n b) :
    ∃ v f', SubSpec a b false s.flags v f' ∧ Falls env s len { s with flags := f' } := by
  refine ⟨_, _, cmp_spec (width_ge henc.width).1 a b s.flags, ?_⟩
  have := alu_step (k := 7) (by decide) hat henc env ha hb
  rw [aluResult, if_pos rfl] at this
  obtain ⟨op, rest, rfl, hop⟩ := cmp_ne_zero (by decide) (by decide) henc
  exact this (notZeroed_same hat hop rfl)

/-- CMP AL, 0x60 (borrow) and SUB DX, [SI] -/
example : ∃ (s : State) (p : Pfx) (code : List (BitVec 8)) (dst src : Opnd) (a b : BitVec 8),
    At s 0x10100 p code 2 ∧ AluEnc s p 7 8 code dst src ∧ dst.Has s 8 a ∧ src.Has s 8 b ∧ a.toNat < b.toNat :=
  ⟨demo [0x3C, 0x60], {}, _, _, _, 0x55, 0x60, demo_at _ (by decide), AluEnc.ai8 0x60, rfl, rfl, by decide⟩
example : ∃ (s : State) (p : Pfx) (code : List (BitVec 8)) (dst src : Opnd) (a b : BitVec 16),
    At s 0x10100 p code 2 ∧ AluEnc s p 5 16 code dst src ∧ dst.Has s 16 a ∧ src.Has s 16 b := by
  have h : RM (demo [0x2B, 0x14]) {} 16 [0x14] 2 _ := RM.mem 0x14 [] (by decide) rfl (by decide)
  obtain ⟨b, hb⟩ := demo_mem_has [0x2B, 0x14] 16 (by decide) _ _
  exact ⟨demo [0x2B, 0x14], {}, _, _, _, 0x33, b, demo_at _ (by decide),
    AluEnc.rm (p := {}) h (fun _ => ⟨by decide, by decide, by decide⟩), rfl, hb⟩

/-! ### C16 -/

/-- C16 (partial): SBB stores dest - src - CF and the right ZF/SF/PF; CF, OF and AF are those of the
processor except in the listed cases, where they can be wrong (see the three counterexamples below). -/
theorem C16_sbb_partial {s : State} {h0 : Nat} {p : Pfx} {code : List (BitVec 8)} {len n : Nat} {dst src : Opnd}
    (hat : At s h0 p code len) (henc : AluEnc s p 3 n code dst src) (env : Env) {a b : BitVec n}
    (ha : dst.Has s n a) (hb : src.Has s n b) (c : Bool) (hc : c = s.flags.getLsbD bCF) :
    ∃ v f', (v.toNat : Int) = ((a.toNat : Int) - b.toNat - c.toNat) % 2 ^ n ∧
      ResultFlags f' v ∧ OnlyBits arithBits s.flags f' ∧
      (¬ (n = 32 ∧ c = true ∧ b.toNat = 2 ^ n - 1) →
        f'.getLsbD bCF = decide (a.toNat < b.toNat + c.toNat)) ∧
      (¬ (c = true ∧ b.toNat = 2 ^ (n - 1) - 1) →
        f'.getLsbD bOF = !fitsSigned n (a.toInt - b.toInt - c.toNat)) ∧
      (¬ (c = true ∧ a.toNat % 16 = b.toNat % 16 ∧ b.toNat % 16 ≠ 15) →
        f'.getLsbD bAF = decide (a.toNat % 16 < b.toNat % 16 + c.toNat)) ∧
      (NotZeroed { dst.put s n v with flags := f' } h0 len →
        Falls env s len { dst.put s n v with flags := f' }) := by
  obtain ⟨h1, h2, h3, h4, h5, h6⟩ :=
    sbb_spec (width_ge henc.width).1 (width_ge henc.width).2 a b s.flags c hc _ _ rfl
  refine ⟨_, _, h1, h5, h6, h2, h3, h4, fun hnz => ?_⟩
  have := alu_step (k := 3) (by decide) hat henc env ha hb
  rw [aluResult_eq _ _ _ _ _ _ (by decide)] at this
  exact this hnz

/-- C16 in the clean case: without carry-in SBB is exactly the subtraction of the processor. -/
theorem C16_sbb_nocarry {s : State} {h0 : Nat} {p : Pfx} {code : List (BitVec 8)} {len n : Nat} {dst src : Opnd}
    (hat : At s h0 p code len) (henc : AluEnc s p 3 n code dst src) (env : Env) {a b : BitVec n}
    (ha : dst.Has s n a) (hb : src.Has s n b) (hc : s.flags.getLsbD bCF = false) :
    ∃ v f', SubSpec a b false s.flags v f' ∧
      (NotZeroed { dst.put s n v with flags := f' } h0 len →
        Falls env s len { dst.put s n v with flags := f' }) := by
  obtain ⟨v, f', h1, h2, h3, h4, h5, h6, h7⟩ := C16_sbb_partial hat henc env ha hb false hc.symm
  exact ⟨v, f', ⟨h1, h4 (by simp), h5 (by simp), h6 (by simp), h2, h3⟩, h7⟩

/-- The demo machine with the carry flag set. -/
def demoCF (code : List (BitVec 8)) : State := { demo code with flags := 3 }

theorem demoCF_at (code : List (BitVec 8)) (h : code.length ≤ 0x1000) (pfx rest : List (BitVec 8)) (p : Pfx)
    (hc : code = pfx ++ rest) (hp : Pfx.parse {} pfx = some p) :
    At (demoCF code) 0x10100 p rest code.length :=
  ⟨⟨(demo_ready code).notMagic, (demo_ready code).notHle, (demo_ready code).counter⟩, pfx, hp,
    by rw [← hc]; exact demo_code code h, by rw [hc, List.length_append]⟩

/-- C16 is violated, CF: SBB EAX, 0FFFFFFFFh with carry-in always borrows, but the emulator
leaves CF clear (the subtrahend plus carry is formed in 32 bits). -/
theorem C16_violated_cf : ∃ (s : State) (p : Pfx) (code : List (BitVec 8)) (a b : BitVec 32) (t : State),
    At s 0x10100 p code 6 ∧ AluEnc s p 3 32 code (.reg 0) (.imm b) ∧ (Opnd.reg 0).Has s 32 a ∧
    s.flags.getLsbD bCF = true ∧ (∀ env, Falls env s 6 t) ∧
    a.toNat < b.toNat + 1 ∧ t.flags.getLsbD bCF = false := by
  have hat : At (demoCF [0x66, 0x1D, 0xFF, 0xFF, 0xFF, 0xFF]) 0x10100 { oper := true } [0x1D, 0xFF, 0xFF, 0xFF, 0xFF] 6 :=
    demoCF_at _ (by decide) [0x66] _ _ rfl rfl
  have henc : AluEnc (demoCF [0x66, 0x1D, 0xFF, 0xFF, 0xFF, 0xFF]) { oper := true } 3 32
      [0x1D, 0xFF, 0xFF, 0xFF, 0xFF] (.reg 0) (.imm 0xFFFFFFFF) :=
    AluEnc.ai (p := { oper := true }) [0xFF, 0xFF, 0xFF, 0xFF] rfl
  refine ⟨_, _, _, 0x11220055, 0xFFFFFFFF, _, hat, henc, rfl, rfl, fun env =>
    alu_step (by decide) hat henc env (a := 0x11220055) (b := 0xFFFFFFFF) rfl rfl (notZeroed_of_len (by decide)),
    by decide, by decide +kernel⟩

/-- C16 is violated, OF: SBB AL, 7Fh with AL = 55h and carry-in gives -43, which fits, but the emulator
sets OF. -/
theorem C16_violated_of : ∃ (s : State) (p : Pfx) (code : List (BitVec 8)) (a b : BitVec 8) (t : State),
    At s 0x10100 p code 2 ∧ AluEnc s p 3 8 code (.reg 0) (.imm (b.setWidth 32)) ∧ (Opnd.reg 0).Has s 8 a ∧
    s.flags.getLsbD bCF = true ∧ (∀ env, Falls env s 2 t) ∧
    fitsSigned 8 (a.toInt - b.toInt - 1) = true ∧ t.flags.getLsbD bOF = true := by
  have hat : At (demoCF [0x1C, 0x7F]) 0x10100 {} [0x1C, 0x7F] 2 := demoCF_at _ (by decide) [] _ _ rfl rfl
  have henc : AluEnc (demoCF [0x1C, 0x7F]) {} 3 8 [0x1C, 0x7F] (.reg 0) (.imm 0x7F) := AluEnc.ai8 0x7F
  refine ⟨_, _, _, 0x55, 0x7F, _, hat, henc, rfl, rfl, fun env =>
    alu_step (by decide) hat henc env (a := 0x55) (b := 0x7F) rfl rfl (notZeroed_same hat (by decide) rfl),
    by decide, by decide +kernel⟩

/-- C16 is violated, AF: SBB AL, 5 with AL = 55h and carry-in borrows from bit 4, but the emulator
leaves AF clear. -/
theorem C16_violated_af : ∃ (s : State) (p : Pfx) (code : List (BitVec 8)) (a b : BitVec 8) (t : State),
    At s 0x10100 p code 2 ∧ AluEnc s p 3 8 code (.reg 0) (.imm (b.setWidth 32)) ∧ (Opnd.reg 0).Has s 8 a ∧
    s.flags.getLsbD bCF = true ∧ (∀ env, Falls env s 2 t) ∧
    a.toNat % 16 < b.toNat % 16 + 1 ∧ t.flags.getLsbD bAF = false := by
  have hat : At (demoCF [0x1C, 0x05]) 0x10100 {} [0x1C, 0x05] 2 := demoCF_at _ (by decide) [] _ _ rfl rfl
  have henc : AluEnc (demoCF [0x1C, 0x05]) {} 3 8 [0x1C, 0x05] (.reg 0) (.imm 5) := AluEnc.ai8 5
  refine ⟨_, _, _, 0x55, 5, _, hat, henc, rfl, rfl, fun env =>
    alu_step (by decide) hat henc env (a := 0x55) (b := 5) rfl rfl (notZeroed_same hat (by decide) rfl),
    by decide, by decide +kernel⟩

/-! ### C17 -/

/-- C17: AND. -/
theorem C17_and {s : State} {h0 : Nat} {p : Pfx} {code : List (BitVec 8)} {len n : Nat} {dst src : Opnd}
    (hat : At s h0 p code len) (henc : AluEnc s p 4 n code dst src) (env : Env) {a b : BitVec n}
    (ha : dst.Has s n a) (hb : src.Has s n b) :
    ∃ v f', LogicSpec (· && ·) a b s.flags v f' ∧
      (NotZeroed { dst.put s n v with flags := f' } h0 len →
        Falls env s len { dst.put s n v with flags := f' }) := by
  have hw := (width_ge henc.width).1
  refine ⟨_, _, and_spec (by omega) a b s.flags, fun hnz => ?_⟩
  have := alu_step (k := 4) (by decide) hat henc env ha hb
  rw [aluResult_eq _ _ _ _ _ _ (by decide)] at this
  exact this hnz

/-- C17: OR. -/
theorem C17_or {s : State} {h0 : Nat} {p : Pfx} {code : List (BitVec 8)} {len n : Nat} {dst src : Opnd}
    (hat : At s h0 p code len) (henc : AluEnc s p 1 n code dst src) (env : Env) {a b : BitVec n}
    (ha : dst.Has s n a) (hb : src.Has s n b) :
    ∃ v f', LogicSpec (· || ·) a b s.flags v f' ∧
      (NotZeroed { dst.put s n v with flags := f' } h0 len →
        Falls env s len { dst.put s n v with flags := f' }) := by
  have hw := (width_ge henc.width).1
  refine ⟨_, _, or_spec (by omega) a b s.flags, fun hnz => ?_⟩
  have := alu_step (k := 1) (by decide) hat henc env ha hb
  rw [aluResult_eq _ _ _ _ _ _ (by decide)] at this
  exact this hnz

/-- C17: XOR. -/
theorem C17_xor {s : State} {h0 : Nat} {p : Pfx} {code : List (BitVec 8)} {len n : Nat} {dst src : Opnd}
    (hat : At s h0 p code len) (henc : AluEnc s p 6 n code dst src) (env : Env) {a b : BitVec n}
    (ha : dst.Has s n a) (hb : src.Has s n b) :
    ∃ v f', LogicSpec (· ^^ ·) a b s.flags v f' ∧
      (NotZeroed { dst.put s n v with flags := f' } h0 len →
        Falls env s len { dst.put s n v with flags := f' }) := by
  have hw := (width_ge henc.width).1
  refine ⟨_, _, xor_spec (by omega) a b s.flags, fun hnz => ?_⟩
  have := alu_step (k := 6) (by decide) hat henc env ha hb
  rw [aluResult_eq _ _ _ _ _ _ (by decide)] at this
  exact this hnz

theorem TestEnc.width {s : State} {p : Pfx} {n : Nat} {code : List (BitVec 8)} {dst src : Opnd}
    (h : TestEnc s p n code dst src) : n = 8 ∨ n = 16 ∨ n = 32 := by
  cases h <;> first | exact Or.inl rfl | exact opW_ok p

/-- C17: TEST sets the flags of AND and changes nothing else. -/
theorem C17_test {s : State} {h0 : Nat} {p : Pfx} {code : List (BitVec 8)} {len n : Nat} {dst src : Opnd}
    (hat : At s h0 p code len) (henc : TestEnc s p n code dst src) (env : Env) {a b : BitVec n}
    (ha : dst.Has s n a) (hb : src.Has s n b) :
    ∃ v f', LogicSpec (· && ·) a b s.flags v f' ∧ Falls env s len { s with flags := f' } := by
  have hw := (width_ge henc.width).1
  exact ⟨_, _, test_spec (by omega) a b s.flags, test_step hat henc env ha hb⟩

/-- TEST AH, BL and XOR [1234h], AL -/
example : ∃ (s : State) (p : Pfx) (code : List (BitVec 8)) (dst src : Opnd) (a b : BitVec 8),
    At s 0x10100 p code 2 ∧ TestEnc s p 8 code dst src ∧ dst.Has s 8 a ∧ src.Has s 8 b :=
  ⟨demo [0x84, 0xDC], {}, _, _, _, 0, 0x10, demo_at _ (by decide),
    TestEnc.mr8 (RM.reg 0xDC (by decide)) (fun h => absurd rfl h), ⟨rfl, by decide +kernel⟩, rfl⟩
example : ∃ (s : State) (p : Pfx) (code : List (BitVec 8)) (dst src : Opnd) (a b : BitVec 8),
    At s 0x10100 p code 4 ∧ AluEnc s p 6 8 code dst src ∧ dst.Has s 8 a ∧ src.Has s 8 b := by
  have h : RM (demo [0x30, 0x06, 0x34, 0x12]) {} 8 [0x06, 0x34, 0x12] 0 _ :=
    RM.mem 0x06 [0x34, 0x12] (by decide) rfl (by decide)
  obtain ⟨a, ha⟩ := demo_mem_has [0x30, 0x06, 0x34, 0x12] 8 (by decide) _ _
  exact ⟨demo [0x30, 0x06, 0x34, 0x12], {}, _, _, _, a, 0x55, demo_at _ (by decide),
    AluEnc.mr8 h (fun _ => ⟨by decide, by decide, by decide⟩), ha, rfl⟩

/-! ### C18 -/

theorem IncEnc.width {s : State} {p : Pfx} {k : BitVec 3} {n : Nat} {code : List (BitVec 8)} {o : Opnd}
    (h : IncEnc s p k n code o) : n = 8 ∨ n = 16 ∨ n = 32 := by
  cases h <;> first | exact Or.inl rfl | exact opW_ok p

/-- C18: INC. -/
theorem C18_inc {s : State} {h0 : Nat} {p : Pfx} {code : List (BitVec 8)} {len n : Nat} {o : Opnd}
    (hat : At s h0 p code len) (henc : IncEnc s p 0 n code o) (env : Env) {a : BitVec n} (ha : o.Has s n a) :
    ∃ v f', IncSpec a s.flags v f' ∧ f'.getLsbD bCF = s.flags.getLsbD bCF ∧
      (NotZeroed { o.put s n v with flags := f' } h0 len →
        Falls env s len { o.put s n v with flags := f' }) := by
  have h := inc_spec (width_ge henc.width).1 a s.flags
  exact ⟨_, _, h, h.rest 0 (by decide) (by decide), inc_step false rfl hat henc env ha⟩

/-- C18: DEC. -/
theorem C18_dec {s : State} {h0 : Nat} {p : Pfx} {code : List (BitVec 8)} {len n : Nat} {o : Opnd}
    (hat : At s h0 p code len) (henc : IncEnc s p 1 n code o) (env : Env) {a : BitVec n} (ha : o.Has s n a) :
    ∃ v f', DecSpec a s.flags v f' ∧ f'.getLsbD bCF = s.flags.getLsbD bCF ∧
      (NotZeroed { o.put s n v with flags := f' } h0 len →
        Falls env s len { o.put s n v with flags := f' }) := by
  have h := dec_spec (width_ge henc.width).1 a s.flags
  exact ⟨_, _, h, h.rest 0 (by decide) (by decide), inc_step true rfl hat henc env ha⟩

/-- INC DI and DEC BYTE [BX+SI] -/
example : ∃ (s : State) (p : Pfx) (code : List (BitVec 8)) (o : Opnd) (a : BitVec 16),
    At s 0x10100 p code 1 ∧ IncEnc s p 0 16 code o ∧ o.Has s 16 a :=
  ⟨demo [0x47], {}, _, _, 0x300, demo_at _ (by decide), IncEnc.short (p := {}) 7, rfl⟩
example : ∃ (s : State) (p : Pfx) (code : List (BitVec 8)) (o : Opnd) (a : BitVec 8),
    At s 0x10100 p code 2 ∧ IncEnc s p 1 8 code o ∧ o.Has s 8 a := by
  have h : RM (demo [0xFE, 0x08]) {} 8 [0x08] 1 _ := RM.mem 0x08 [] (by decide) rfl (by decide)
  obtain ⟨a, ha⟩ := demo_mem_has [0xFE, 0x08] 8 (by decide) _ _
  exact ⟨demo [0xFE, 0x08], {}, _, _, a, demo_at _ (by decide),
    IncEnc.m8 h (fun _ => ⟨by decide, by decide, by decide⟩), ha⟩

/-! ### C19 -/

/-- C19 (partial): NEG stores the two's complement with the right CF, OF, ZF, SF, PF.  Missing: AF is
"operand mod 8 ≠ 0" instead of "operand mod 16 ≠ 0" (see `C19_violated_af`). -/
theorem C19_neg_partial {s : State} {h0 : Nat} {p : Pfx} {code : List (BitVec 8)} {len n : Nat} {o : Opnd}
    (hat : At s h0 p code len) (henc : UnaryEnc s p 3 n code o) (env : Env) {a : BitVec n} (ha : o.Has s n a) :
    ∃ v f', NegSpec a s.flags v f' ∧
      (a.toNat % 16 ≠ 8 → f'.getLsbD bAF = decide (a.toNat % 16 ≠ 0)) ∧
      (NotZeroed { o.put s n v with flags := f' } h0 len →
        Falls env s len { o.put s n v with flags := f' }) := by
  have h := neg_spec (width_ge henc.width).1 a s.flags
  refine ⟨_, _, h.1, ?_, fun hnz => ?_⟩
  · intro h8
    rw [h.2]
    congr 1
    apply propext
    omega
  · exact misc_step hat henc env (henc.ok ha) _ (negSpec_ok env p len henc.width (henc.ok ha) ha)
      (put_ip ..) (put_map ..) (put_valid ..) (Or.inr hnz)

/-- C19 is violated for AF: NEG of 8 (low nibble not zero) leaves AF clear. -/
theorem C19_violated_af : ∃ (s : State) (p : Pfx) (code : List (BitVec 8)) (a : BitVec 8) (t : State),
    At s 0x10100 p code 2 ∧ UnaryEnc s p 3 8 code (.reg 3) ∧ (Opnd.reg 3).Has s 8 a ∧
    (∀ env, Falls env s 2 t) ∧ a.toNat % 16 ≠ 0 ∧ t.flags.getLsbD bAF = false := by
  let s : State := (demo [0xF6, 0xDB]).setGpr 3 8
  have hat : At s 0x10100 {} [0xF6, 0xDB] 2 :=
    ⟨⟨(demo_ready [0xF6, 0xDB]).notMagic, (demo_ready [0xF6, 0xDB]).notHle, (demo_ready [0xF6, 0xDB]).counter⟩, [], rfl,
      demo_code [0xF6, 0xDB] (by decide), rfl⟩
  have henc : UnaryEnc s {} 3 8 [0xF6, 0xDB] (.reg 3) :=
    UnaryEnc.m8 (RM.reg 0xDB (by decide)) (fun h => absurd rfl h)
  have ha : (Opnd.reg 3).Has s 8 (8 : BitVec 8) := rfl
  refine ⟨s, {}, _, 8, { (Opnd.reg 3).put s 8 (aluNeg (8 : BitVec 8) s.flags).1 with
      flags := (aluNeg (8 : BitVec 8) s.flags).2 }, hat, henc, ha, fun env => ?_, by decide, by decide +kernel⟩
  exact misc_step hat henc env trivial _ (negSpec_ok env {} 2 (Or.inl rfl) trivial ha)
      (put_ip ..) (put_map ..) (put_valid ..) (Or.inr (notZeroed_same hat (by decide) rfl))

/-- C19: NOT complements every bit of the operand and changes no flag. -/
theorem C19_not {s : State} {h0 : Nat} {p : Pfx} {code : List (BitVec 8)} {len n : Nat} {o : Opnd}
    (hat : At s h0 p code len) (henc : UnaryEnc s p 2 n code o) (env : Env) {a : BitVec n} (ha : o.Has s n a) :
    ∃ v : BitVec n, (∀ i < n, v.getLsbD i = !a.getLsbD i) ∧
      (NotZeroed (o.put s n v) h0 len → Falls env s len (o.put s n v)) := by
  refine ⟨~~~a, ?_, fun hnz => ?_⟩
  · intro i hi; simp [hi]
  · exact misc_step hat henc env (henc.ok ha) _ (notSpec_ok env p len henc.width (henc.ok ha) ha)
      (put_ip ..) (put_map ..) (put_valid ..) (Or.inr hnz)

/-- C19: NEG is an involution on the operand. -/
theorem C19_neg_involution {n : Nat} (a v w : BitVec n) (f f' f'' : BitVec 16)
    (h1 : NegSpec a f v f') (h2 : NegSpec v f' w f'') : w = a := by
  apply BitVec.eq_of_toNat_eq
  have e1 := h1.val; have e2 := h2.val
  have := a.isLt; have := v.isLt; have := w.isLt
  have hc : ((2 ^ n : Nat) : Int) = 2 ^ n := by simp
  rw [← hc] at e1 e2
  generalize (2 ^ n : Nat) = N at *
  have hm1 : ((-(a.toNat : Int)) % (N : Int)) = if a.toNat = 0 then 0 else (N : Int) - a.toNat := by
    split
    · rename_i h; simp [h]
    · rw [show (-(a.toNat : Int)) = ((N : Int) - a.toNat) - N by omega, Int.sub_emod_right]
      exact Int.emod_eq_of_lt (by omega) (by omega)
  have hm2 : ((-(v.toNat : Int)) % (N : Int)) = if v.toNat = 0 then 0 else (N : Int) - v.toNat := by
    split
    · rename_i h; simp [h]
    · rw [show (-(v.toNat : Int)) = ((N : Int) - v.toNat) - N by omega, Int.sub_emod_right]
      exact Int.emod_eq_of_lt (by omega) (by omega)
  rw [hm1] at e1; rw [hm2] at e2
  split at e1 <;> split at e2 <;> omega

/-- C19: NOT is an involution on the operand. -/
theorem C19_not_involution {n : Nat} (a v w : BitVec n) (h1 : ∀ i < n, v.getLsbD i = !a.getLsbD i)
    (h2 : ∀ i < n, w.getLsbD i = !v.getLsbD i) : w = a := by
  apply BitVec.eq_of_getLsbD_eq
  intro i hi
  rw [h2 i hi, h1 i hi, Bool.not_not]

/-- NEG DX and NOT BYTE [DI+2] -/
example : ∃ (s : State) (p : Pfx) (code : List (BitVec 8)) (o : Opnd) (a : BitVec 16),
    At s 0x10100 p code 2 ∧ UnaryEnc s p 3 16 code o ∧ o.Has s 16 a ∧ a ≠ 0 :=
  ⟨demo [0xF7, 0xDA], {}, _, _, 0x33, demo_at _ (by decide),
    UnaryEnc.m (p := {}) (RM.reg 0xDA (by decide)) (fun h => absurd rfl h), rfl, by decide⟩
example : ∃ (s : State) (p : Pfx) (code : List (BitVec 8)) (o : Opnd) (a : BitVec 8),
    At s 0x10100 p code 3 ∧ UnaryEnc s p 2 8 code o ∧ o.Has s 8 a := by
  have h : RM (demo [0xF6, 0x55, 0x02]) {} 8 [0x55, 0x02] 2 _ := RM.mem 0x55 [0x02] (by decide) rfl (by decide)
  obtain ⟨a, ha⟩ := demo_mem_has [0xF6, 0x55, 0x02] 8 (by decide) _ _
  exact ⟨demo [0xF6, 0x55, 0x02], {}, _, _, a, demo_at _ (by decide),
    UnaryEnc.m8 h (fun _ => ⟨by decide, by decide, by decide⟩), ha⟩

end RME
