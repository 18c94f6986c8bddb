import Verif.Props.MulDiv
import Verif.Spec.Jump
import Verif.Spec.Run
set_option autoImplicit false
/-
C24 conditional jumps, C25 loops.
-/
namespace RME

def condOf (cc : BitVec 4) : Cond :=
  [Cond.o, .no, .c, .nc, .z, .nz, .be, .a, .s, .ns, .pe, .po, .l, .ge, .le, .g].getD cc.toNat .o

theorem condOf_entry : ∀ cc : BitVec 4, opEntry (0x70 + cc.setWidth 8) = some ⟨.base (.jccS (condOf cc)), 0, false⟩ ∧
      opEntry0F (0x80 + cc.setWidth 8) = some ⟨.base (.jccN (condOf cc)), 0, false⟩ := by decide +kernel

def Cond.evalB (k : Cond) (o c z s p : Bool) : Bool :=
  match k with
  | .o => o
  | .no => !o
  | .c => c
  | .nc => !c
  | .z => z
  | .nz => !z
  | .be => c || z
  | .a => !(c || z)
  | .s => s
  | .ns => !s
  | .pe => p
  | .po => !p
  | .l => s != o
  | .ge => !(s != o)
  | .le => z || (s != o)
  | .g => !(z || (s != o))

theorem Cond.eval_evalB (k : Cond) (f : BitVec 16) :
    k.eval f = k.evalB (tst f FLAG_OF) (tst f FLAG_CF) (tst f FLAG_ZF) (tst f FLAG_SF) (tst f FLAG_PF) := by
  cases k <;> rfl

def condHoldsB (cc : BitVec 4) (o c z s p : Bool) : Bool :=
  let base := match cc.toNat / 2 with
    | 0 => o
    | 1 => c
    | 2 => z
    | 3 => c || z
    | 4 => s
    | 5 => p
    | 6 => s ^^ o
    | _ => z || (s ^^ o)
  if cc.toNat % 2 = 0 then base else !base

theorem evalB_table : ∀ (cc : BitVec 4) (o c z s p : Bool), (condOf cc).evalB o c z s p = condHoldsB cc o c z s p := by decide +kernel

theorem cond_eval (f : BitVec 16) (cc : BitVec 4) :
    ∃ k : Cond, opEntry (0x70 + cc.setWidth 8) = some ⟨.base (.jccS k), 0, false⟩ ∧
      opEntry0F (0x80 + cc.setWidth 8) = some ⟨.base (.jccN k), 0, false⟩ ∧ k.eval f = condHolds cc f :=
  ⟨condOf cc, (condOf_entry cc).1, (condOf_entry cc).2, by
    rw [Cond.eval_evalB, evalB_table, tst_OF, tst_CF, tst_ZF, tst_SF, tst_PF]; rfl⟩

/-- C24: a conditional jump (short or near, all 16 conditions) goes to next-IP + displacement modulo 2^16 when the condition
holds and to next-IP otherwise; nothing else changes. -/
theorem C24_jcc {s : State} {h0 : Nat} {p : Pfx} {code : List (BitVec 8)} {len : Nat} {cc : BitVec 4} {d : BitVec 16}
    (hat : At s h0 p code len) (henc : JccEnc cc code d) (env : Env) :
    Jumps env s (if condHolds cc s.flags then s.ip + BitVec.ofNat 16 len + d else s.ip + BitVec.ofNat 16 len) s := by
  have hop : ∀ c : BitVec 4, 0x70 + c.setWidth 8 ≠ (0xF1 : BitVec 8) ∧ 0x70 + c.setWidth 8 ≠ (0 : BitVec 8) := by decide
  have hf : ∀ j, (opState s p j).flags = s.flags := fun _ => rfl
  have fin : ∀ j, (if condHolds cc s.flags then addIP d else pure ()) env (opState s p j) =
      .ok () { opState s p j with ip := if condHolds cc s.flags then s.ip + d else s.ip } := by
    intro j; cases condHolds cc s.flags <;> rfl
  have main : ∀ op rest e a, code = op :: rest → op ≠ 0xF1 → op ≠ 0 → opEntry op = some e → paramOf e rest[0]? = some a →
      (∀ bytes j, CodeAt s h0 bytes → j + rest.length = len → Sub bytes j rest → callFn e.fn a env (opState s p j) =
        .ok () { opState s p len with ip := if condHolds cc s.flags then s.ip + d else s.ip }) →
      Jumps env s (if condHolds cc s.flags then s.ip + BitVec.ofNat 16 len + d else s.ip + BitVec.ofNat 16 len) s := by
    intro op rest e a hco h1 h2 h3 h4 h5
    subst hco
    have := step_fall hat env h1 h3 h4 { opState s p len with ip := if condHolds cc s.flags then s.ip + d else s.ip } h5 rfl rfl rfl rfl
      (notZeroed_same hat h2 rfl)
    have e : (if condHolds cc s.flags then s.ip + d else s.ip) + BitVec.ofNat 16 len =
        if condHolds cc s.flags then s.ip + BitVec.ofNat 16 len + d else s.ip + BitVec.ofNat 16 len := by
      split
      · rw [BitVec.add_assoc, BitVec.add_comm d, ← BitVec.add_assoc]
      · rfl
    obtain ⟨dec, hdec⟩ := this
    refine ⟨dec, hdec.trans ?_⟩
    rw [← e]; rfl
  cases henc with
  | short b =>
    obtain ⟨k, h1, h2, h3⟩ := cond_eval s.flags cc
    refine main _ _ _ 0 rfl (hop cc).1 (hop cc).2 h1 rfl ?_
    intro bytes j hc hj hsub
    subst hj
    simp only [callFn, opFn, opJccS, bind_apply, fetch8S hc env p 16 _ hsub.head, resbind_ok, getFlags_apply, hf, h3]
    exact fin _
  | near lo hi =>
    obtain ⟨k, h1, h2, h3⟩ := cond_eval s.flags cc
    refine main 0x0F _ ⟨.ext0F, 0, false⟩ 0 rfl (by decide) (by decide) (by decide) rfl ?_
    intro bytes j hc hj hsub
    subst hj
    simp only [callFn, ext0F_run hc env p hsub.head h2, opFn, opJccN, bind_apply,
      fetch16 hc env p _ hsub.tail.head hsub.tail.tail.head, resbind_ok, getFlags_apply, hf, h3]
    exact fin _

theorem toInt_inj_iff {n : Nat} (a b : BitVec n) : a = b ↔ a.toInt = b.toInt := ⟨fun h => by rw [h], BitVec.eq_of_toInt_eq⟩

/-- C24: after a comparison the conditions say what they should about the operands. -/
theorem C24_conditions {n : Nat} (hn : 0 < n) {a b v : BitVec n} {f f' : BitVec 16} (h : SubSpec a b false f v f') (cc : BitVec 4) (P : Prop)
    (hP : cmpCond cc a b = some P) : condHolds cc f' = true ↔ P := by
  have ha := a.isLt; have hb := b.isLt
  have hz : f'.getLsbD bZF = decide (a = b) := by
    rw [h.res.zf]
    have hv := h.val
    simp only [Bool.toNat_false, Int.natCast_zero, Int.sub_zero] at hv
    congr 1
    rw [eq_iff_iff]
    constructor
    · intro h0
      apply BitVec.eq_of_toNat_eq
      rw [h0] at hv
      have h2 : ((a.toNat : Int) - b.toNat) % ((2 ^ n : Nat) : Int) = 0 := by
        rw [Int.natCast_pow]; exact hv.symm
      have : ((2 ^ n : Nat) : Int) ∣ (a.toNat : Int) - b.toNat := Int.dvd_of_emod_eq_zero h2
      obtain ⟨k, hk⟩ := this
      have h3 : k = 0 := by
        rcases Int.lt_trichotomy k 0 with h | h | h
        · have : ((2 ^ n : Nat) : Int) * k ≤ ((2 ^ n : Nat) : Int) * (-1) := Int.mul_le_mul_of_nonneg_left (by omega) (by omega)
          omega
        · exact h
        · have : ((2 ^ n : Nat) : Int) * 1 ≤ ((2 ^ n : Nat) : Int) * k := Int.mul_le_mul_of_nonneg_left (by omega) (by omega)
          omega
      rw [h3] at hk
      omega
    · intro h0
      subst h0
      simp at hv
      omega
  have hc : f'.getLsbD bCF = decide (a.toNat < b.toNat) := by rw [h.cf]; simp
  have hl : (f'.getLsbD bSF ^^ f'.getLsbD bOF) = decide (a.toInt < b.toInt) := by
    have hv : v.toInt = (a.toInt - b.toInt).bmod (2 ^ n) := by
      have hv := h.val
      simp only [Bool.toNat_false, Int.natCast_zero, Int.sub_zero] at hv
      have e : v = a - b := by
        apply BitVec.eq_of_toNat_eq
        have : ((a - b).toNat : Int) = ((a.toNat : Int) - b.toNat) % 2 ^ n := by
          rw [BitVec.toNat_sub]
          have e1 : ((2 ^ n - b.toNat + a.toNat : Nat) : Int) = ((a.toNat : Int) - b.toNat) + ((2 ^ n : Nat) : Int) := by omega
          rw [Int.natCast_emod, e1]
          rw [Int.add_emod_right, Int.natCast_pow]; rfl
        omega
      rw [e, BitVec.toInt_sub]
    have hr1 := BitVec.le_toInt a; have hr2 := BitVec.toInt_lt (x := a)
    have hr3 := BitVec.le_toInt b; have hr4 := BitVec.toInt_lt (x := b)
    have h2 : (2 ^ n : Int) = 2 * 2 ^ (n - 1) := by
      conv => lhs; rw [show n = n - 1 + 1 by omega, Int.pow_succ]
      omega
    rw [h.res.sf, h.of]
    simp only [Bool.toNat_false, Int.natCast_zero, Int.sub_zero]
    rw [hv]
    have h2n : ((2 ^ n : Nat) : Int) = 2 * 2 ^ (n - 1) := by rw [Int.natCast_pow]; exact h2
    have hpos : (0 : Int) < 2 ^ (n - 1) := Int.pow_pos (by decide)
    generalize a.toInt = x at *
    generalize b.toInt = y at *
    simp only [fitsSigned]
    generalize (2 : Int) ^ (n - 1) = q at *
    have hbm : (x - y).bmod (2 ^ n) = if x - y < -q then x - y + 2 * q else if q ≤ x - y then x - y - 2 * q else x - y := by
      have hge := Int.bmod_lt (x := x - y) (m := 2 ^ n) (by omega)
      have hle := Int.le_bmod (x := x - y) (m := 2 ^ n) (by omega)
      have hdv : ((2 ^ n : Nat) : Int) ∣ (x - y).bmod (2 ^ n) - (x - y) := by
        rw [Int.bmod_def]
        have := Int.emod_add_mul_ediv (x - y) ((2 ^ n : Nat) : Int)
        split
        · exact ⟨-((x - y) / ((2 ^ n : Nat) : Int)), by rw [Int.mul_neg]; omega⟩
        · refine ⟨-((x - y) / ((2 ^ n : Nat) : Int)) - 1, ?_⟩
          rw [Int.mul_sub, Int.mul_neg]; omega
      obtain ⟨k, hk⟩ := hdv
      rw [h2n] at hge hle hk
      have hk2 : k = -1 ∨ k = 0 ∨ k = 1 := by
        have : k < 2 := by
          apply Classical.byContradiction; intro hh
          have : 2 * q * 2 ≤ 2 * q * k := Int.mul_le_mul_of_nonneg_left (by omega) (by omega)
          omega
        have : -2 < k := by
          apply Classical.byContradiction; intro hh
          have : 2 * q * k ≤ 2 * q * (-2) := Int.mul_le_mul_of_nonneg_left (by omega) (by omega)
          omega
        omega
      rcases hk2 with rfl | rfl | rfl <;> (repeat' split) <;> omega
    rw [hbm]
    by_cases c1 : x - y < -q
    · rw [if_pos c1]
      rw [show decide (x < y) = true from decide_eq_true (by omega), show decide (x - y + 2 * q < 0) = false from decide_eq_false (by omega),
        show decide (-q ≤ x - y ∧ x - y < q) = false from decide_eq_false (by omega)]; rfl
    · rw [if_neg c1]
      by_cases c2 : q ≤ x - y
      · rw [if_pos c2, show decide (x < y) = false from decide_eq_false (by omega), show decide (x - y - 2 * q < 0) = true from decide_eq_true (by omega),
          show decide (-q ≤ x - y ∧ x - y < q) = false from decide_eq_false (by omega)]; rfl
      · rw [if_neg c2, show decide (-q ≤ x - y ∧ x - y < q) = true from decide_eq_true (by omega)]
        simp only [Bool.not_true, Bool.xor_false]
        congr 1
        rw [eq_iff_iff]; omega
  have hab : a = b ↔ a.toNat = b.toNat := ⟨fun h => by rw [h], BitVec.eq_of_toNat_eq⟩
  have hab2 := toInt_inj_iff a b
  simp only [condHolds, hz, hc, hl]
  obtain ⟨⟨i, hi⟩⟩ := cc
  simp only [cmpCond, BitVec.toNat_ofFin] at hP ⊢
  clear hz hc hl h
  match i, hi with
  | 0, _ | 1, _ | 8, _ | 9, _ | 10, _ | 11, _ => cases hP
  | 2, _ | 3, _ | 4, _ | 5, _ | 6, _ | 7, _ | 12, _ | 13, _ | 14, _ | 15, _ =>
    cases hP
    simp
    try first | omega | (rw [hab]; omega) | (rw [hab2]; omega)

/-- C24: CMP followed by a conditional jump, as two calls of `RME_RunOne`: the jump is taken exactly when the operands are in
the named relation. -/
theorem C24_cmp_jcc {s : State} {h0 : Nat} {p p2 : Pfx} {pfx code pfx2 code2 : List (BitVec 8)} {n : Nat} {dst src : Opnd} {cc : BitVec 4} {d : BitVec 16}
    (hs : Ready s) (hp : Pfx.parse {} pfx = some p) (hp2 : Pfx.parse {} pfx2 = some p2)
    (hcode : CodeAt s h0 ((pfx ++ code) ++ (pfx2 ++ code2)))
    (henc : AluEnc s p 7 n code dst src) (henc2 : JccEnc cc code2 d) (env : Env) {a b : BitVec n}
    (ha : dst.Has s n a) (hb : src.Has s n b) (P : Prop) (hP : cmpCond cc a b = some P)
    (hr : Ready { s with ip := s.ip + BitVec.ofNat 16 (pfx ++ code).length, instrNum := s.instrNum + 1 }) :
    ∃ t, Iter env 2 s t ∧ t.sreg .cs = s.sreg .cs ∧ t.gpr = s.gpr ∧ t.host = s.host ∧
      (P → t.ip = s.ip + BitVec.ofNat 16 ((pfx ++ code) ++ (pfx2 ++ code2)).length + d) ∧
      (¬ P → t.ip = s.ip + BitVec.ofNat 16 ((pfx ++ code) ++ (pfx2 ++ code2)).length) := by
  have hc1 : CodeAt s h0 (pfx ++ code) := by
    intro i hi
    have := hcode i (by rw [List.length_append]; omega)
    rw [List.getElem_append_left hi] at this
    exact this
  have hat : At s h0 p code (pfx ++ code).length := ⟨hs, pfx, hp, hc1, by simp⟩
  obtain ⟨v, f', hspec, d1, h1⟩ := C15_cmp hat henc env ha hb
  have hat2 : At { s with ip := s.ip + BitVec.ofNat 16 (pfx ++ code).length, instrNum := s.instrNum + 1, flags := f', dec := d1, lastNull := false }
      (h0 + (pfx ++ code).length) p2 code2 (pfx2 ++ code2).length := by
    refine ⟨⟨hr.notMagic, hr.notHle, hr.counter⟩, pfx2, hp2, ?_, by simp⟩
    intro i hi
    have := hcode ((pfx ++ code).length + i) (by rw [List.length_append (as := pfx ++ code)]; omega)
    rw [List.getElem_append_right (by omega)] at this
    rw [BitVec.ofNat_add, ← BitVec.add_assoc, ← Nat.add_assoc] at this
    have h2 : ((pfx ++ code).length + i) - (pfx ++ code).length = i := by omega
    simp only [h2] at this
    exact this
  obtain ⟨d2, h2⟩ := C24_jcc hat2 henc2 env
  refine ⟨_, .succ h1 (.succ h2 (.zero _)), rfl, rfl, rfl, ?_⟩
  have hn := henc.width
  have hiff := C24_conditions (by omega) hspec cc P hP
  have hl : BitVec.ofNat 16 ((pfx ++ code) ++ (pfx2 ++ code2)).length =
      BitVec.ofNat 16 (pfx ++ code).length + BitVec.ofNat 16 (pfx2 ++ code2).length := by
    rw [List.length_append (as := pfx ++ code), BitVec.ofNat_add]
  constructor
  · intro hp
    show (if condHolds cc f' then _ else _) = _
    rw [if_pos (hiff.2 hp), hl, ← BitVec.add_assoc]
  · intro hp
    show (if condHolds cc f' then _ else _) = _
    rw [if_neg (fun h => hp (hiff.1 h)), hl, ← BitVec.add_assoc]

/-- CMP AL, 60h ; JL +5 with AL = 55h: jump taken. -/
example : ∃ (s : State) (dst src : Opnd) (a b : BitVec 8) (P : Prop), Ready s ∧ CodeAt s 0x10100 (([] ++ [0x3C, 0x60]) ++ ([] ++ [0x7C, 0x05])) ∧
    AluEnc s {} 7 8 [0x3C, 0x60] dst src ∧ JccEnc 12 [0x7C, 0x05] 5 ∧ dst.Has s 8 a ∧ src.Has s 8 b ∧ cmpCond 12 a b = some P ∧ P ∧
    Ready { s with ip := s.ip + 2, instrNum := s.instrNum + 1 } :=
  ⟨demo [0x3C, 0x60, 0x7C, 0x05], _, _, 0x55, 0x60, _, demo_ready _, demo_code [0x3C, 0x60, 0x7C, 0x05] (by decide),
    AluEnc.ai8 (k := 7) 0x60, JccEnc.short 12 5, rfl, rfl, rfl, by decide, by decide, by decide, by decide⟩
example : ∃ (s : State) , At s 0x10100 {} [0x0F, 0x85, 0x34, 0x12] 4 ∧ JccEnc 5 [0x0F, 0x85, 0x34, 0x12] 0x1234 ∧ condHolds 5 s.flags = true :=
  ⟨demo [0x0F, 0x85, 0x34, 0x12], demo_at _ (by decide), JccEnc.near 5 0x34 0x12, by decide⟩

/-! ### C25 -/

theorem loop_entry : opEntry 0xE0 = some ⟨.base (.loop .nz), 0, false⟩ ∧ opEntry 0xE1 = some ⟨.base (.loop .z), 0, false⟩ ∧
    opEntry 0xE2 = some ⟨.base (.loop .always), 0, false⟩ ∧ opEntry 0xE3 = some ⟨.base .jcxz, 0, false⟩ := by decide +kernel

/-- C25: LOOPNZ/LOOPZ/LOOP decrement CX modulo 2^16 and jump exactly when CX is then not zero and ZF is as required; flags and
everything else are unchanged. -/
theorem C25_loop {s : State} {h0 : Nat} {p : Pfx} {op d : BitVec 8} {len : Nat}
    (hop : op = 0xE0 ∨ op = 0xE1 ∨ op = 0xE2) (hat : At s h0 p [op, d] len) (env : Env) :
    Jumps env s (if cxOf s - 1 ≠ 0 ∧ loopCond op s.flags then s.ip + BitVec.ofNat 16 len + d.signExtend 16 else s.ip + BitVec.ofNat 16 len)
      (withCX s (cxOf s - 1)) := by
  have hz : tst s.flags FLAG_ZF = s.flags.getLsbD bZF := tst_ZF s.flags
  obtain ⟨k, he, hk⟩ : ∃ k : LoopKind, opEntry op = some ⟨.base (.loop k), 0, false⟩ ∧ k.eval s.flags = loopCond op s.flags := by
    rcases hop with rfl | rfl | rfl
    · exact ⟨.nz, loop_entry.1, by simp only [LoopKind.eval, hz]; rfl⟩
    · exact ⟨.z, loop_entry.2.1, by simp only [LoopKind.eval, hz]; rfl⟩
    · exact ⟨.always, loop_entry.2.2.1, rfl⟩
  have h1 : op ≠ 0xF1 := by rcases hop with rfl | rfl | rfl <;> decide
  have h2 : op ≠ 0 := by rcases hop with rfl | rfl | rfl <;> decide
  have hcx : (withCX s (cxOf s - 1)).reg 16 rCX = cxOf s - 1 := reg16_setReg_same s rCX _
  have := step_fall hat env h1 he rfl { opState (withCX s (cxOf s - 1)) p len with
      ip := if cxOf s - 1 ≠ 0 ∧ loopCond op s.flags then s.ip + d.signExtend 16 else s.ip } ?_ rfl rfl rfl rfl
      (notZeroed_same hat h2 rfl)
  · have e : (if cxOf s - 1 ≠ 0 ∧ loopCond op s.flags then s.ip + d.signExtend 16 else s.ip) + BitVec.ofNat 16 len =
        if cxOf s - 1 ≠ 0 ∧ loopCond op s.flags then s.ip + BitVec.ofNat 16 len + d.signExtend 16 else s.ip + BitVec.ofNat 16 len := by
      split
      · rw [BitVec.add_assoc, BitVec.add_comm (d.signExtend 16), ← BitVec.add_assoc]
      · rfl
    obtain ⟨dec, hdec⟩ := this
    refine ⟨dec, hdec.trans ?_⟩
    rw [← e]; rfl
  · intro bytes j hc hj hsub
    subst hj
    simp only [callFn, opFn, opLoop, bind_apply, fetch8S hc env p 16 _ hsub.head, resbind_ok, getReg_apply, setReg_apply, getFlags_apply]
    have e1 : (opState s p (j + 1)).setReg 16 rCX ((opState s p (j + 1)).reg 16 rCX - 1) = opState (withCX s (cxOf s - 1)) p (j + 1) := rfl
    have e2 : (opState (withCX s (cxOf s - 1)) p (j + 1)).reg 16 rCX = cxOf s - 1 := hcx
    have e3 : (opState (withCX s (cxOf s - 1)) p (j + 1)).flags = s.flags := rfl
    rw [e1, e2, e3, hk]
    by_cases c : cxOf s - 1 ≠ 0 ∧ loopCond op s.flags = true
    · rw [if_pos (by simpa using c), if_pos c]; rfl
    · rw [if_neg (by simpa using c), if_neg c]; rfl

/-- C25 (partial): JCXZ jumps exactly when CX = 0.  Missing: with an operand-size prefix the emulator tests ECX (`C25_violated_jcxz`);
the address-size prefix, which should select ECX, is ignored. -/
theorem C25_jcxz_partial {s : State} {h0 : Nat} {p : Pfx} {d : BitVec 8} {len : Nat}
    (hat : At s h0 p [0xE3, d] len) (ho : p.oper = false) (env : Env) :
    Jumps env s (if cxOf s = 0 then s.ip + BitVec.ofNat 16 len + d.signExtend 16 else s.ip + BitVec.ofNat 16 len) s := by
  have := step_fall hat env (by decide) loop_entry.2.2.2 rfl { opState s p len with
      ip := if cxOf s = 0 then s.ip + d.signExtend 16 else s.ip } ?_ rfl rfl rfl rfl
      (notZeroed_same hat (by decide) rfl)
  · have e : (if cxOf s = 0 then s.ip + d.signExtend 16 else s.ip) + BitVec.ofNat 16 len =
        if cxOf s = 0 then s.ip + BitVec.ofNat 16 len + d.signExtend 16 else s.ip + BitVec.ofNat 16 len := by
      split
      · rw [BitVec.add_assoc, BitVec.add_comm (d.signExtend 16), ← BitVec.add_assoc]
      · rfl
    obtain ⟨dec, hdec⟩ := this
    refine ⟨dec, hdec.trans ?_⟩
    rw [← e]; rfl
  · intro bytes j hc hj hsub
    subst hj
    have ho' : (decOf p (j + 1)).ovrOper = false := ho
    have hd : getDec env (opState s p (j + 1)) = .ok (decOf p (j + 1)) (opState s p (j + 1)) := rfl
    simp only [callFn, opFn, opJcxz, bind_apply, fetch8S hc env p 16 _ hsub.head, resbind_ok, getReg_apply, hd, ho', Bool.false_and, Bool.not_false,
      Bool.true_and, Bool.false_eq_true, if_false]
    have e2 : (opState s p (j + 1)).reg 16 rCX = cxOf s := rfl
    rw [e2]
    by_cases c : cxOf s = 0
    · rw [if_neg (by simpa using c), if_pos c]; rfl
    · rw [if_pos (by simpa using c), if_neg c]; rfl

/-- Witness: 66 E3 05 (JCXZ +5 with operand-size prefix, which should not matter) with ECX = 10000h, CX = 0 does not jump. -/
theorem C25_violated_jcxz : ∃ s t, At s 0x10100 { oper := true } [0xE3, 0x05] 3 ∧ cxOf s = 0 ∧ runOne demoEnv s = .ok () t ∧ t.ip = s.ip + 3 :=
  ⟨(demo [0x66, 0xE3, 0x05]).setGpr 1 0x10000, _, ⟨⟨by decide, by decide, by decide⟩, [0x66], rfl, demo_code [0x66, 0xE3, 0x05] (by decide), rfl⟩,
    rfl, rfl, by decide +kernel⟩

theorem withCX_code {s : State} {h0 : Nat} {l : List (BitVec 8)} (h : CodeAt s h0 l) (v : BitVec 16) (d : Decoder) (b : Bool) (i : Int) :
    CodeAt { withCX s v with instrNum := i, dec := d, lastNull := b } h0 l := h

/-- C25: LOOP to itself (E2 FE) runs exactly CX times, or 65536 times for CX = 0, and ends behind the LOOP with CX = 0 and
nothing else changed; before that it stays at the LOOP. -/
theorem C25_loop_self {s : State} {h0 : Nat} (hat : At s h0 {} [0xE2, 0xFE] 2) (env : Env) (k : Nat)
    (hk : k = if cxOf s = 0 then 65536 else (cxOf s).toNat) (hcnt : s.instrNum + k ≤ 2147483647) (hneg : 0 ≤ s.instrNum) :
    (∃ t, Iter env k s t ∧ ∃ d, t = { withCX s 0 with ip := s.ip + 2, instrNum := s.instrNum + k, dec := d, lastNull := false }) ∧
    ∀ j < k, ∃ t, Iter env j s t ∧ t.ip = s.ip ∧ cxOf t = cxOf s - BitVec.ofNat 16 j := by
  have hcx : ∀ (s : State) v, cxOf (withCX s v) = v := fun s v => reg16_setReg_same s rCX v
  have hcc : ∀ (s : State) v w, withCX (withCX s v) w = withCX s w := by
    intro s v w
    refine State.ext' ?_ rfl rfl rfl rfl rfl rfl rfl rfl rfl rfl rfl rfl
    funext x
    simp only [withCX, Opnd.put, State.setGpr]
    split
    · subst x
      simp only [if_true]
      exact congrArg _ rfl |>.trans (putLow_putLow (n := 16) ..)
    · rfl
  have key : ∀ (m : Nat) (s : State), At s h0 {} [0xE2, 0xFE] 2 → (cxOf s - 1).toNat = m → s.instrNum + (m + 1) ≤ 2147483647 → 0 ≤ s.instrNum →
      (∃ t, Iter env (m + 1) s t ∧ ∃ d, t = { withCX s 0 with ip := s.ip + 2, instrNum := s.instrNum + (m + 1 : Nat), dec := d, lastNull := false }) ∧
      ∀ j < m + 1, ∃ t, Iter env j s t ∧ t.ip = s.ip ∧ cxOf t = cxOf s - BitVec.ofNat 16 j := by
    intro m
    induction m with
    | zero =>
      intro s hat hm hc hn
      obtain ⟨d, hd⟩ := C25_loop (Or.inr (Or.inr rfl)) hat env
      have h1 : cxOf s - 1 = 0 := BitVec.eq_of_toNat_eq (by simpa using hm)
      rw [if_neg (fun h => h.1 h1), h1] at hd
      refine ⟨⟨_, .succ hd (.zero _), d, rfl⟩, ?_⟩
      intro j hj
      obtain rfl : j = 0 := by omega
      exact ⟨s, .zero s, rfl, by simp⟩
    | succ m ih =>
      intro s hat hm hc hn
      obtain ⟨d, hd⟩ := C25_loop (Or.inr (Or.inr rfl)) hat env
      have h1 : cxOf s - 1 ≠ 0 := by intro h; rw [h] at hm; simp at hm
      rw [if_pos ⟨h1, rfl⟩] at hd
      have hip : s.ip + BitVec.ofNat 16 2 + (0xFE : BitVec 8).signExtend 16 = s.ip := by
        rw [BitVec.add_assoc]; exact BitVec.add_zero _
      rw [hip] at hd
      obtain ⟨hr, pfx, hp, hcode, hlen⟩ := hat
      have hat' : At { withCX s (cxOf s - 1) with ip := s.ip, instrNum := s.instrNum + 1, dec := d, lastNull := false } h0 {} [0xE2, 0xFE] 2 :=
        ⟨⟨hr.notMagic, hr.notHle, by simp only; omega⟩, pfx, hp, hcode, hlen⟩
      have hm' : (cxOf { withCX s (cxOf s - 1) with ip := s.ip, instrNum := s.instrNum + 1, dec := d, lastNull := false } - 1).toNat = m := by
        have : cxOf { withCX s (cxOf s - 1) with ip := s.ip, instrNum := s.instrNum + 1, dec := d, lastNull := false } = cxOf s - 1 := hcx s _
        rw [this]
        bv_omega
      obtain ⟨⟨t, ht, d', hd'⟩, hall⟩ := ih _ hat' hm' (by simp only; omega) (by simp only; omega)
      refine ⟨⟨t, .succ hd ht, d', ?_⟩, ?_⟩
      · rw [hd']
        have := hcc s (cxOf s - 1) 0
        refine State.ext' ?_ rfl rfl rfl rfl rfl rfl rfl rfl ?_ rfl rfl rfl
        · have h := congrArg State.gpr this
          exact h
        show s.instrNum + 1 + ((m + 1 : Nat) : Int) = s.instrNum + ((m + 1 + 1 : Nat) : Int)
        omega
      · intro j hj
        cases j with
        | zero => exact ⟨s, .zero s, rfl, by simp⟩
        | succ j =>
          obtain ⟨t, h1, h2, h3⟩ := hall j (by omega)
          refine ⟨t, .succ hd h1, h2, ?_⟩
          rw [h3, show cxOf { withCX s (cxOf s - 1) with ip := s.ip, instrNum := s.instrNum + 1, dec := d, lastNull := false } = cxOf s - 1 from hcx s _]
          rw [BitVec.ofNat_add, BitVec.sub_sub, BitVec.add_comm]; rfl
  obtain ⟨m, rfl⟩ : ∃ m, k = m + 1 := ⟨k - 1, by
    by_cases h : cxOf s = 0
    · rw [if_pos h] at hk; omega
    · rw [if_neg h] at hk
      have : (cxOf s).toNat ≠ 0 := fun h' => h (BitVec.eq_of_toNat_eq (by simpa using h'))
      omega⟩
  refine key m s hat ?_ (by omega) hneg
  by_cases h : cxOf s = 0
  · rw [if_pos h] at hk
    rw [h]; simp; omega
  · rw [if_neg h] at hk
    have : (cxOf s).toNat ≠ 0 := fun h' => h (BitVec.eq_of_toNat_eq (by simpa using h'))
    bv_omega

/-- LOOP to itself with CX = 3; LOOPZ with CX = 3 and ZF = 0; JCXZ with CX ≠ 0. -/
example : ∃ s, At s 0x10100 {} [0xE2, 0xFE] 2 ∧ (3 = if cxOf s = 0 then 65536 else (cxOf s).toNat) ∧ s.instrNum + 3 ≤ 2147483647 ∧ 0 ≤ s.instrNum :=
  ⟨demo [0xE2, 0xFE], demo_at _ (by decide), by decide, by decide, by decide⟩
example : ∃ s, At s 0x10100 {} [0xE1, 0x10] 2 ∧ cxOf s - 1 ≠ 0 ∧ loopCond 0xE1 s.flags = false :=
  ⟨demo [0xE1, 0x10], demo_at _ (by decide), by decide, by decide⟩
example : ∃ s, At s 0x10100 {} [0xE3, 0x80] 2 ∧ cxOf s ≠ 0 := ⟨demo [0xE3, 0x80], demo_at _ (by decide), by decide⟩

end RME
