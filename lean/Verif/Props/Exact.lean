import Verif.Lemmas.Sbb2
import Verif.Lemmas.EA
import Verif.Props.Arith
import Verif.Props.MulDiv
set_option autoImplicit false
/-
What the code does exactly where it departs from the processor: SBB, multi-operand IMUL.
-/
namespace RME
open RME

/-! ### C16 -/

/-- C16: the three arithmetic flags of SBB in every case.  Each is the processor's, and its complement exactly in one situation (all with CF = 1 before):
CF for a 32-bit subtrahend FFFFFFFFh, OF for the greatest positive subtrahend, AF for operands with equal low digits other than Fh. -/
theorem C16_sbb_exact {s : State} {h0 : Nat} {p : Pfx} {code : List (BitVec 8)} {len n : Nat} {dst src : Opnd}
    (hat : At s h0 p code len) (henc : AluEnc s p 3 n code dst src) (env : Env) {a b : BitVec n}
    (ha : dst.Has s n a) (hb : src.Has s n b) (c : Bool) (hc : c = s.flags.getLsbD bCF) :
    ∃ v f', (v.toNat : Int) = ((a.toNat : Int) - b.toNat - c.toNat) % 2 ^ n ∧
      ResultFlags f' v ∧ OnlyBits arithBits s.flags f' ∧
      f'.getLsbD bCF = (decide (a.toNat < b.toNat + c.toNat) ^^ decide (n = 32 ∧ c.toNat = 1 ∧ b.toNat = 2 ^ n - 1)) ∧
      f'.getLsbD bOF = ((!fitsSigned n (a.toInt - b.toInt - c.toNat)) ^^ decide (c.toNat = 1 ∧ b.toNat = 2 ^ (n - 1) - 1)) ∧
      f'.getLsbD bAF = (decide (a.toNat % 16 < b.toNat % 16 + c.toNat) ^^ decide (c.toNat = 1 ∧ a.toNat % 16 = b.toNat % 16 ∧ b.toNat % 16 ≠ 15)) ∧
      (NotZeroed { dst.put s n v with flags := f' } h0 len →
        Falls env s len { dst.put s n v with flags := f' }) := by
  obtain ⟨h1, h2, h3, h4, h5, h6⟩ :=
    sbb_exact (width_ge henc.width).1 (width_ge henc.width).2 a b s.flags c hc _ _ rfl
  refine ⟨_, _, h1, h5, h6, h2, h3, h4, fun hnz => ?_⟩
  have := alu_step (k := 3) (by decide) hat henc env ha hb
  rw [aluResult_eq _ _ _ _ _ _ (by decide)] at this
  exact this hnz

/-- SBB AL, 60h with CF = 1 (the instruction of the three violations with other operands). -/
example : ∃ (s : State) (p : Pfx) (code : List (BitVec 8)) (dst src : Opnd) (a b : BitVec 8),
    At s 0x10100 p code 2 ∧ AluEnc s p 3 8 code dst src ∧ dst.Has s 8 a ∧ src.Has s 8 b ∧ s.flags.getLsbD bCF = true :=
  ⟨demoCF [0x1C, 0x60], {}, _, _, _, 0x55, 0x60, demoCF_at _ (by decide) [] _ _ rfl rfl, AluEnc.ai8 0x60, rfl, rfl, rfl⟩

/-! ### C20 -/

/-- C20 violated, exactly where: whenever the product of the operands, taken as unsigned numbers, is 2^31 or more (so for every pair of negative operands
except the smallest few), multi-operand IMUL is undefined behaviour of the host; below it never is (C20_imul_multi_partial). -/
theorem C20_violated_imul_ub_exact {s : State} {h0 : Nat} {p : Pfx} {code : List (BitVec 8)} {len : Nat} {r : BitVec 3} {x y : Opnd}
    (hat : At s h0 p code len) (henc : ImulEnc s p code r x y) (ho : p.oper = false) (env : Env) {a b : BitVec 16}
    (ha : x.Has s 16 a) (hb : y.Has s 16 b) (hov : 2 ^ 31 ≤ a.toNat * b.toNat) : runOne env s = .ub .signedOverflow := by
  obtain ⟨op, rest, e, c, rfl, h1, h2, he, hc, hrun⟩ := imul_multi_run hat henc ho env ha hb
  refine runOne_code_ub hat env h1 he hc .signedOverflow fun bytes j hcode hj hsub => ?_
  rw [hrun bytes j hcode hj hsub]
  unfold imulMulti
  rw [if_pos (by omega)]
  rfl

/-- C20 violated: with the operand-size prefix the three forms are refused (`RME_ERR_BUG`), whatever the operands; nothing is changed. -/
theorem C20_violated_imul32 {s : State} {h0 : Nat} {p : Pfx} {code : List (BitVec 8)} {len : Nat} (hat : At s h0 p code len) (ho : p.oper = true)
    (hcode : (∃ rest, code = 0x69 :: rest) ∨ (∃ rest, code = 0x6B :: rest) ∨ ∃ rest, code = 0x0F :: 0xAF :: rest) (env : Env) :
    ∃ d, runOne env s = .err .bug { s with instrNum := s.instrNum + 1, dec := d } := by
  obtain ⟨hr, pfx, hp, hc, hlen⟩ := hat
  rcases hcode with ⟨rest, rfl⟩ | ⟨rest, rfl⟩ | ⟨rest, rfl⟩
  · refine ⟨decOf p (pfx.length + 1), ?_⟩
    refine runOne_code_err hr hc env hp (by decide) (e := ⟨.base .imulMIX, 0, false⟩) (by decide +kernel) (a := 0) rfl _ _ ?_ (by decide) (by decide)
    simp only [callFn, opFn, opImulMIX, bind_apply, show getDec env (opState s p (pfx.length + 1)) = .ok (decOf p _) (opState s p _) from rfl, resbind_ok,
      show (decOf p (pfx.length + 1)).ovrOper = true from ho]
    rfl
  · refine ⟨decOf p (pfx.length + 1), ?_⟩
    refine runOne_code_err hr hc env hp (by decide) (e := ⟨.base .imulMI8X, 0, false⟩) (by decide +kernel) (a := 0) rfl _ _ ?_ (by decide) (by decide)
    simp only [callFn, opFn, opImulMI8X, bind_apply, show getDec env (opState s p (pfx.length + 1)) = .ok (decOf p _) (opState s p _) from rfl, resbind_ok,
      show (decOf p (pfx.length + 1)).ovrOper = true from ho]
    rfl
  · refine ⟨decOf p (pfx.length + 2), ?_⟩
    refine runOne_code_err hr hc env hp (by decide) (e := ⟨.ext0F, 0, false⟩) (by decide +kernel) (a := 0) rfl _ _ ?_ (by decide) (by decide)
    have hb : (pfx ++ 0x0F :: 0xAF :: rest)[pfx.length + 1]? = some 0xAF := by simp
    simp only [callFn, ext0F_run hc env p hb (o := .imulRMX) (a := 0) (b := false) (by decide), opFn, opImulRMX, bind_apply,
      show getDec env (opState s p (pfx.length + 1 + 1)) = .ok (decOf p _) (opState s p _) from rfl, resbind_ok,
      show (decOf p (pfx.length + 1 + 1)).ovrOper = true from ho]
    rfl

/-- IMUL CX, CX, -1 with CX = FFFFh; IMUL ECX, EDX. -/
example : ∃ (s : State) (a b : BitVec 16), At s 0x10100 {} [0x6B, 0xC9, 0xFF] 3 ∧ ImulEnc s {} [0x6B, 0xC9, 0xFF] 1 (.reg 1) (.imm 0xFFFFFFFF) ∧
    (Opnd.reg 1).Has s 16 a ∧ (Opnd.imm 0xFFFFFFFF).Has s 16 b ∧ 2 ^ 31 ≤ a.toNat * b.toNat := by
  refine ⟨(demo [0x6B, 0xC9, 0xFF]).setGpr 1 0xFFFF, 0xFFFF, 0xFFFF, ?_, ?_, rfl, rfl, by decide⟩
  · obtain ⟨hr, pfx, h⟩ := demo_at [0x6B, 0xC9, 0xFF] (by decide)
    exact ⟨⟨hr.notMagic, hr.notHle, hr.counter⟩, pfx, h⟩
  · exact ImulEnc.mi8 (RM.reg 0xC9 (by decide)) (fun h => absurd rfl h) 0xFF
example : At (demoCF [0x66, 0x0F, 0xAF, 0xCA]) 0x10100 { oper := true } [0x0F, 0xAF, 0xCA] 4 := demoCF_at _ (by decide) [0x66] _ _ rfl rfl

end RME
