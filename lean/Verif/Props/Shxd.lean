import Verif.Props.Shift
import Verif.Props.LoadMisc
import Verif.Props.Confine2
set_option autoImplicit false
/-
C52 SHLD / SHRD.
-/
namespace RME

/-! ### Specification -/

/-- SHLD by `c` places (0 < c ≤ n): the upper `n` bits of `d:s` shifted left; CF is the last bit shifted out;
for one place OF tells whether the sign changed. -/
structure ShldSpec {n : Nat} (d s : BitVec n) (c : Nat) (f : BitVec 16) (v : BitVec n) (f' : BitVec 16) : Prop where
  val : v = (((d ++ s) <<< c) >>> n).setWidth n
  cf : f'.getLsbD bCF = d.getLsbD (n - c)
  of : c = 1 → f'.getLsbD bOF = (d.msb ^^ v.msb)
  res : ResultFlags f' v
  only : OnlyBits [bCF, bPF, bAF, bZF, bSF, bOF] f f'

/-- SHRD by `c` places: the lower `n` bits of `s:d` shifted right. -/
structure ShrdSpec {n : Nat} (d s : BitVec n) (c : Nat) (f : BitVec 16) (v : BitVec n) (f' : BitVec 16) : Prop where
  val : v = ((s ++ d) >>> c).setWidth n
  cf : f'.getLsbD bCF = d.getLsbD (c - 1)
  of : c = 1 → f'.getLsbD bOF = (d.msb ^^ v.msb)
  res : ResultFlags f' v
  only : OnlyBits [bCF, bPF, bAF, bZF, bSF, bOF] f f'

/-- `right = false`: SHLD, `right = true`: SHRD. -/
def ShxdSpec (right : Bool) {n : Nat} (d s : BitVec n) (c : Nat) (f : BitVec 16) (v : BitVec n) (f' : BitVec 16) : Prop :=
  if right then ShrdSpec d s c f v f' else ShldSpec d s c f v f'

/-- Encodings: 0F A4 /r ib, 0F A5 /r (count CL), 0F AC /r ib, 0F AD /r (count CL); destination `o`, source
register `r`, count byte `c`. -/
inductive ShxdEnc (s : State) (p : Pfx) (right : Bool) : List (BitVec 8) → List (BitVec 8) → BitVec 3 → Opnd → BitVec 8 → Prop
  | imm {rm : List (BitVec 8)} {r : BitVec 3} {o : Opnd} (c : BitVec 8) (h : RM s p (opW p) rm r o) :
      ShxdEnc s p right (0x0F :: (if right then 0xAC else 0xA4) :: (rm ++ [c])) rm r o c
  | cl {rm : List (BitVec 8)} {r : BitVec 3} {o : Opnd} (h : RM s p (opW p) rm r o) :
      ShxdEnc s p right (0x0F :: (if right then 0xAD else 0xA5) :: rm) rm r o ((s.gpr 1).setWidth 8)

/-- The full property: the count is taken modulo 32; counts above the operand width are architecturally undefined. -/
def C52_Full : Prop :=
  ∀ (env : Env) (s : State) (h0 : Nat) (p : Pfx) (code rm : List (BitVec 8)) (len : Nat) (right : Bool) (r : BitVec 3) (o : Opnd)
    (c : BitVec 8) (a : BitVec (opW p)),
    At s h0 p code len → ShxdEnc s p right code rm r o c → Plain s p (opW p) rm → o.Has s (opW p) a → len ≠ 2 →
    (count5 c = 0 → Falls env s len s) ∧
    (0 < count5 c → count5 c ≤ opW p → ∃ v f', ShxdSpec right a ((s.gpr r).setWidth (opW p)) (count5 c) s.flags v f' ∧
      Falls env s len { o.put s (opW p) v with flags := f' })

/-! ### Values and flags -/

theorem shxd_flags {n : Nat} (hn : 0 < n) (f : BitVec 16) (c o : Bool) (v : BitVec n) :
    let f' := setCommFlags (orIf (orIf (clr f (FLAG_CF ||| FLAG_OF ||| FLAG_AF)) c FLAG_CF) o FLAG_OF) v
    f'.getLsbD bCF = c ∧ f'.getLsbD bOF = o ∧ ResultFlags f' v ∧
    OnlyBits [bCF, bPF, bAF, bZF, bSF, bOF] f f' := by
  refine ⟨?_, ?_, setCommFlags_res hn _ _, ?_⟩
  · rw [setCommFlags_CF hn, orIf_bit, orIf_bit, clr_bit _ _ _ (by decide)]; simp [bCF]
  · rw [setCommFlags_OF hn, orIf_bit, orIf_bit, clr_bit _ _ _ (by decide)]; simp [bOF]
  · intro i hi hni
    simp only [List.mem_cons, List.not_mem_nil, or_false, not_or] at hni
    rw [setCommFlags_bit hn _ _ _ hi]
    simp only [hni, if_false]
    simp only [orIf_bit, clr_bit _ _ _ hi]
    revert i
    apply forall_bits
    simp

theorem shld_val {n : Nat} (d s : BitVec n) (c : Nat) (hc : c ≤ n) :
    (d <<< c) ||| (s >>> (n - c)) = (((d ++ s) <<< c) >>> n).setWidth n := by
  apply BitVec.eq_of_getLsbD_eq
  intro i hi
  simp only [BitVec.getLsbD_or, BitVec.getLsbD_shiftLeft, BitVec.getLsbD_ushiftRight, BitVec.getLsbD_setWidth, BitVec.getLsbD_append]
  by_cases h : i < c
  · simp [h, hi, show n + i < n + n by omega, show ¬ (n + i < c) by omega, show n + i - c < n by omega, show n - c + i = n + i - c by omega]
  · simp [h, hi, show n + i < n + n by omega, show ¬ (n + i < c) by omega, show ¬ (n + i - c < n) by omega,
      show n + i - c - n = i - c by omega]
    intro h'
    rw [BitVec.getLsbD_of_ge s _ (by omega)] at h'
    cases h'

theorem shrd_val {n : Nat} (d s : BitVec n) (c : Nat) (h0 : 0 < c) (hc : c ≤ n) :
    (d >>> c) ||| (s <<< (n - c)) = ((s ++ d) >>> c).setWidth n := by
  apply BitVec.eq_of_getLsbD_eq
  intro i hi
  simp only [BitVec.getLsbD_or, BitVec.getLsbD_shiftLeft, BitVec.getLsbD_ushiftRight, BitVec.getLsbD_setWidth, BitVec.getLsbD_append]
  by_cases h : c + i < n
  · simp [h, hi]; omega
  · simp [h, hi, show ¬ (i < n - c) by omega, show c + i - n = i - (n - c) by omega]
    intro h'
    rw [BitVec.getLsbD_of_ge d _ (by omega)] at h'
    cases h'

theorem shld_spec {n : Nat} (hn : 2 ≤ n) (d s : BitVec n) (c : Nat) (h0 : 0 < c) (hc : c ≤ n) (h32 : c < 32)
    (hov : ¬ (n < 32 ∧ d.toNat * 2 ^ c ≥ 2 ^ 31)) (f : BitVec 16) :
    ∃ v f', shShld d s c f = .ok (v, f') ∧ ShldSpec d s c f v f' := by
  have hn0 : 0 < n := by omega
  have hcf : ((clr f (FLAG_CF ||| FLAG_OF ||| FLAG_AF)) &&& FLAG_CF != 0) = false := by
    have : (clr f (FLAG_CF ||| FLAG_OF ||| FLAG_AF)) &&& FLAG_CF = 0 := by
      apply BitVec.eq_of_getLsbD_eq; apply forall_bits; simp [clr]
    rw [this]; rfl
  simp only [shShld]
  rw [if_neg (by omega)]
  by_cases h1 : c = 1
  · refine ⟨_, _, rfl, ?_⟩
    rw [if_pos h1]
    obtain ⟨e1, e2, e3, e4⟩ := shxd_flags hn0 f (((d >>> (n - c)) &&& 1) != 0) _ ((d <<< c) ||| (s >>> (n - c)))
    refine ⟨shld_val d s c hc, e1.trans (bit_shr hn0 _ _), fun _ => e2.trans ?_, e3, e4⟩
    rw [bit_and_one hn0, BitVec.getLsbD_xor]
    have ht : tst (orIf (clr f (FLAG_CF ||| FLAG_OF ||| FLAG_AF)) ((d >>> (n - c)) &&& 1 != 0) FLAG_CF) FLAG_CF = d.msb := by
      rw [bit_shr hn0, BitVec.msb_eq_getLsbD_last, h1]
      cases h : d.getLsbD (n - 1)
      · rw [orIf_false]; exact hcf
      · simp only [tst, orIf, if_true]
        have : (clr f (FLAG_CF ||| FLAG_OF ||| FLAG_AF) ||| FLAG_CF) &&& FLAG_CF = FLAG_CF := by
          apply BitVec.eq_of_getLsbD_eq; apply forall_bits; simp [clr]
        rw [this]; rfl
    rw [ht, BitVec.getLsbD_ushiftRight, Nat.add_zero, BitVec.msb_eq_getLsbD_last (x := _ ||| _), Bool.xor_comm]
    cases d.msb <;> simp [hn0]
  · refine ⟨_, _, rfl, ?_⟩
    rw [if_neg h1]
    obtain ⟨e1, e2, e3, e4⟩ := shxd_flags hn0 f (((d >>> (n - c)) &&& 1) != 0) false ((d <<< c) ||| (s >>> (n - c)))
    rw [orIf_false] at e1 e2 e3 e4
    exact ⟨shld_val d s c hc, e1.trans (bit_shr hn0 _ _), fun h => absurd h h1, e3, e4⟩

theorem shrd_spec {n : Nat} (hn : 2 ≤ n) (d s : BitVec n) (c : Nat) (h0 : 0 < c) (hc : c ≤ n) (h32 : c < 32) (f : BitVec 16) :
    ∃ v f', shShrd d s c f = .ok (v, f') ∧ ShrdSpec d s c f v f' := by
  have hn0 : 0 < n := by omega
  simp only [shShrd]
  rw [if_neg (by omega)]
  by_cases h1 : c = 1
  · refine ⟨_, _, rfl, ?_⟩
    rw [if_pos h1]
    obtain ⟨e1, e2, e3, e4⟩ := shxd_flags hn0 f (((d >>> (c - 1)) &&& 1) != 0) _ ((d >>> c) ||| (s <<< (n - c)))
    refine ⟨shrd_val d s c h0 hc, e1.trans (bit_shr hn0 _ _), fun _ => e2.trans ?_, e3, e4⟩
    rw [bit_and_one hn0, BitVec.getLsbD_xor, BitVec.getLsbD_ushiftRight, BitVec.getLsbD_ushiftRight, Nat.add_zero, Nat.add_zero,
      BitVec.msb_eq_getLsbD_last (x := _ ||| _), Bool.xor_comm]
    congr 1
    rw [BitVec.getLsbD_or, BitVec.getLsbD_ushiftRight, BitVec.getLsbD_shiftLeft, BitVec.msb_eq_getLsbD_last, h1]
    simp [show n - 2 < n - 1 by omega, show 1 + (n - 2) = n - 1 by omega]
  · refine ⟨_, _, rfl, ?_⟩
    rw [if_neg h1]
    obtain ⟨e1, e2, e3, e4⟩ := shxd_flags hn0 f (((d >>> (c - 1)) &&& 1) != 0) false ((d >>> c) ||| (s <<< (n - c)))
    rw [orIf_false] at e1 e2 e3 e4
    exact ⟨shrd_val d s c h0 hc, e1.trans (bit_shr hn0 _ _), fun h => absurd h h1, e3, e4⟩

/-! ### The instruction -/

theorem RM.to8 {s : State} {p : Pfx} {rm : List (BitVec 8)} {r : BitVec 3} {o : Opnd} (h : RM s p (opW p) rm r o)
    (ho : ∀ i, o = .reg i → i.toNat < 4) : RM s p 8 rm r o := by
  cases h with
  | reg m hm =>
    rw [regOp_wide (opW_ne8 p)] at *
    have := RM.reg (s := s) (p := p) (n := 8) m hm
    rwa [regOp_8, byteReg, if_pos (ho _ rfl)] at this
  | mem m disp h ha hd => exact RM.mem m disp h ha hd
  | mem32 m tl h ha hd hlim => exact RM.mem32 m tl h ha hd hlim

theorem Opnd.Ok.to8 {s : State} {p : Pfx} {o : Opnd} (h : o.Ok s (opW p)) : o.Ok s 8 := by
  cases o with
  | reg => trivial
  | high => rfl
  | mem seg ofs =>
    obtain ⟨a, ha, hv⟩ := h
    refine ⟨a, ha, fun i hi => hv i ?_⟩
    have := opW_ok p
    omega
  | imm => exact h

/-- What the decoded instruction does. -/
theorem shxd_run {s : State} {h0 : Nat} {p : Pfx} {code rm : List (BitVec 8)} {len : Nat} {right : Bool} {r : BitVec 3} {o : Opnd} {c : BitVec 8}
    (hat : At s h0 p code len) (henc : ShxdEnc s p right code rm r o c) (hpl : Plain s p 8 rm)
    (hr : r.toNat < 4) (ho : ∀ i, o = .reg i → i.toNat < 4) (env : Env) (hok : o.Ok s (opW p)) :
    ∃ op rest, code = 0x0F :: op :: rest ∧ ∀ bytes j, CodeAt s h0 bytes → len = j + (op :: rest).length → Sub bytes j (op :: rest) →
      ext0F env (opState s p j) = shxdApply right (.reg r) (locOf s o) c env (opState s p len) := by
  have hreg : locOf s (regOp 8 r) = .reg r := by rw [regOp_8, byteReg, if_pos hr]; rfl
  cases henc with
  | imm c h =>
    refine ⟨_, _, rfl, fun bytes j hc hj hsub => ?_⟩
    have hpm := parseModRM_rm hc env (h.to8 ho) hpl hok.to8 hsub.tail.left
    have hi : bytes[j + 1 + rm.length]? = some c := hsub.tail.right.head
    have e : j + 1 + rm.length + 1 = len := by rw [hj]; simp; omega
    cases right
    · rw [ext0F_run hc env p hsub.head (o := .shxdI8 false) (a := 0) (b := false) (by decide)]
      simp only [opFn, opShxdI8, bind_apply, hpm, resbind_ok, fetch8 hc env p _ hi, hreg, e]
    · rw [ext0F_run hc env p hsub.head (o := .shxdI8 true) (a := 0) (b := false) (by decide)]
      simp only [opFn, opShxdI8, bind_apply, hpm, resbind_ok, fetch8 hc env p _ hi, hreg, e]
  | cl h =>
    refine ⟨_, _, rfl, fun bytes j hc hj hsub => ?_⟩
    have hpm := parseModRM_rm hc env (h.to8 ho) hpl hok.to8 hsub.tail
    have e : j + 1 + rm.length = len := by rw [hj]; simp; omega
    cases right
    · rw [ext0F_run hc env p hsub.head (o := .shxdCl false) (a := 0) (b := false) (by decide)]
      simp only [opFn, opShxdCl, bind_apply, hpm, resbind_ok, getReg_apply, hreg, e]
      rfl
    · rw [ext0F_run hc env p hsub.head (o := .shxdCl true) (a := 0) (b := false) (by decide)]
      simp only [opFn, opShxdCl, bind_apply, hpm, resbind_ok, getReg_apply, hreg, e]
      rfl

/-- C52 (partial): SHLD and SHRD on memory or AX CX DX BX (EAX …) with a source register AX CX DX BX, for every count
from 1 to the operand width below 32.  Missing: registers 4–7 (`C52_violated_registers`), counts of 32 or more, which
are not reduced (`C52_violated_count`), and 16-bit SHLD by 16 of a value of 8000h or more, which is host UB
(`C52_violated_overflow`). -/
theorem C52_shxd_partial {s : State} {h0 : Nat} {p : Pfx} {code rm : List (BitVec 8)} {len : Nat} {right : Bool} {r : BitVec 3} {o : Opnd}
    {c : BitVec 8} {a : BitVec (opW p)}
    (hat : At s h0 p code len) (henc : ShxdEnc s p right code rm r o c) (hpl : Plain s p 8 rm)
    (hr : r.toNat < 4) (ho : ∀ i, o = .reg i → i.toNat < 4) (env : Env) (ha : o.Has s (opW p) a)
    (hc0 : 0 < c.toNat) (hcn : c.toNat ≤ opW p) (hc32 : c.toNat < 32)
    (hov : right = false → opW p = 16 → c.toNat = 16 → a.toNat < 0x8000) :
    ∃ v f', ShxdSpec right a ((s.gpr r).setWidth (opW p)) c.toNat s.flags v f' ∧
      Falls env s len { o.put s (opW p) v with flags := f' } := by
  have hno : ∀ v, o ≠ .imm v := by
    cases henc with
    | imm c h => exact h.no_imm
    | cl h => exact h.no_imm
  have hok := ha.ok hno
  obtain ⟨op, rest, hcode, hrun⟩ := shxd_run hat henc hpl hr ho env hok
  have hw := opW_ok p
  have hval : ∃ v f', (if right then shShrd a ((s.gpr r).setWidth (opW p)) c.toNat s.flags
      else shShld a ((s.gpr r).setWidth (opW p)) c.toNat s.flags) = .ok (v, f') ∧
      ShxdSpec right a ((s.gpr r).setWidth (opW p)) c.toNat s.flags v f' := by
    cases right with
    | true => exact shrd_spec (by omega) _ _ _ hc0 hcn hc32 _
    | false =>
      refine shld_spec (by omega) _ _ _ hc0 hcn hc32 ?_ _
      rintro ⟨h1, h2⟩
      have hw16 : opW p = 16 := by have := opW_ne8 p; omega
      have hov := hov rfl hw16
      have h16 := a.isLt
      by_cases hcc : c.toNat = 16
      · have := hov hcc
        rw [hcc] at h2
        omega
      · have h3 : 2 ^ c.toNat ≤ 2 ^ 15 := Nat.pow_le_pow_right (by omega) (by omega)
        have h4 : a.toNat * 2 ^ c.toNat ≤ a.toNat * 2 ^ 15 := Nat.mul_le_mul_left _ h3
        have h5 : a.toNat < 2 ^ 16 := by rw [← hw16]; exact h16
        omega
  obtain ⟨v, f', h1, h2⟩ := hval
  refine ⟨v, f', h2, ?_⟩
  subst hcode
  have hlen : len ≠ 2 := by
    obtain ⟨_, pfx, _, _, hl⟩ := hat
    rw [hl]
    cases henc with
    | imm c h =>
      obtain ⟨m, tl, rfl, _⟩ := h.head
      simp; omega
    | cl h =>
      obtain ⟨m, tl, rfl, _⟩ := h.head
      simp; omega
  refine step_falls hat env (by decide) (e := ⟨.ext0F, 0, false⟩) (a := 0) (by decide) rfl _ (decOf p len) ?_ (put_ip ..) (put_map ..) (put_valid ..) rfl rfl
    (fun h => absurd h hlen)
  intro bytes j hc hj hsub
  simp only [callFn]
  rw [hrun bytes j hc hj.symm hsub]
  have hf : (opState s p len).flags = s.flags := rfl
  have hg : (opState s p len).gpr = s.gpr := rfl
  have hne : ¬ c = 0 := by rintro rfl; simp at hc0
  simp only [shxdApply, withW_op (p := p) _ _ (opState _ _ _) rfl, ite_apply]
  rw [if_neg hne]
  have hrd : readLoc (opW p) (.reg r) env (opState s p len) = .ok ((s.gpr r).setWidth (opW p)) (opState s p len) := by
    simp only [readLoc, getReg_apply, State.reg, hg]
  simp only [bind_apply, readLoc_has (Agree.op s p _) env hw hok ha, hrd, resbind_ok, getFlags_apply, hf, h1,
    liftUB_ok, pure_apply, writeLoc_put (s := s) (t := opState s p _) rfl rfl env hok, put_op, setFlags_apply]

/-- C52: a count byte 0 changes nothing. -/
theorem C52_count_zero {s : State} {h0 : Nat} {p : Pfx} {code rm : List (BitVec 8)} {len : Nat} {right : Bool} {r : BitVec 3} {o : Opnd}
    (hat : At s h0 p code len) (henc : ShxdEnc s p right code rm r o 0) (hpl : Plain s p 8 rm)
    (hr : r.toNat < 4) (ho : ∀ i, o = .reg i → i.toNat < 4) (env : Env) (hok : o.Ok s (opW p)) :
    Falls env s len s := by
  obtain ⟨op, rest, hcode, hrun⟩ := shxd_run hat henc hpl hr ho env hok
  subst hcode
  refine step_falls hat env (by decide) (e := ⟨.ext0F, 0, false⟩) (a := 0) (by decide) rfl _ (decOf p len) ?_ rfl rfl rfl rfl rfl
    (notZeroed_same hat (by decide) rfl)
  intro bytes j hc hj hsub
  simp only [callFn]
  rw [hrun bytes j hc hj.symm hsub]
  simp only [shxdApply, withW_op (p := p) _ _ (opState _ _ _) rfl, ite_apply]
  rfl

theorem shxd_ub {s : State} {h0 : Nat} {p : Pfx} {code rm : List (BitVec 8)} {len : Nat} {right : Bool} {r : BitVec 3} {o : Opnd}
    {c : BitVec 8} {a : BitVec (opW p)}
    (hat : At s h0 p code len) (henc : ShxdEnc s p right code rm r o c) (hpl : Plain s p 8 rm)
    (hr : r.toNat < 4) (ho : ∀ i, o = .reg i → i.toNat < 4) (env : Env) (ha : o.Has s (opW p) a) (hc0 : c ≠ 0)
    (h1 : (if right then shShrd a ((s.gpr r).setWidth (opW p)) c.toNat s.flags
      else shShld a ((s.gpr r).setWidth (opW p)) c.toNat s.flags) = .error .shiftRange) :
    runOne env s = .ub .shiftRange := by
  have hno : ∀ v, o ≠ .imm v := by
    cases henc with
    | imm c h => exact h.no_imm
    | cl h => exact h.no_imm
  have hok := ha.ok hno
  obtain ⟨op, rest, hcode, hrun⟩ := shxd_run hat henc hpl hr ho env hok
  subst hcode
  refine runOne_code_ub hat env (by decide) (e := ⟨.ext0F, 0, false⟩) (a := 0) (by decide) rfl _ ?_
  intro bytes j hc hj hsub
  simp only [callFn]
  rw [hrun bytes j hc hj.symm hsub]
  have hf : (opState s p len).flags = s.flags := rfl
  have hg : (opState s p len).gpr = s.gpr := rfl
  simp only [shxdApply, withW_op (p := p) _ _ (opState _ _ _) rfl, ite_apply]
  rw [if_neg hc0]
  have hrd : readLoc (opW p) (.reg r) env (opState s p len) = .ok ((s.gpr r).setWidth (opW p)) (opState s p len) := by
    simp only [readLoc, getReg_apply, State.reg, hg]
  simp only [bind_apply, readLoc_has (Agree.op s p _) env (opW_ok p) hok ha, hrd, resbind_ok, getFlags_apply, hf, h1,
    liftUB_error, ubE_apply, resbind_ub]

/-- C52 violated: the count is not reduced modulo 32; every count of 32 or more is a shift by too many places in the
host program (for example CL = 33, which should shift by 1). -/
theorem C52_violated_count {s : State} {h0 : Nat} {p : Pfx} {code rm : List (BitVec 8)} {len : Nat} {right : Bool} {r : BitVec 3} {o : Opnd}
    {c : BitVec 8} {a : BitVec (opW p)}
    (hat : At s h0 p code len) (henc : ShxdEnc s p right code rm r o c) (hpl : Plain s p 8 rm)
    (hr : r.toNat < 4) (ho : ∀ i, o = .reg i → i.toNat < 4) (env : Env) (ha : o.Has s (opW p) a) (hc : 32 ≤ c.toNat) :
    runOne env s = .ub .shiftRange := by
  refine shxd_ub hat henc hpl hr ho env ha (by rintro rfl; simp at hc) ?_
  cases right
  · simp only [shShld, Bool.false_eq_true, if_false]; rw [if_pos (Or.inl hc)]
  · simp only [shShrd, if_true]; rw [if_pos (Or.inl hc)]

/-- C52 violated: 16-bit SHLD by 16 places of a value of 8000h or more overflows `int` in the host program. -/
theorem C52_violated_overflow {s : State} {h0 : Nat} {p : Pfx} {code rm : List (BitVec 8)} {len : Nat} {r : BitVec 3} {o : Opnd}
    {c : BitVec 8} {a : BitVec (opW p)}
    (hat : At s h0 p code len) (henc : ShxdEnc s p false code rm r o c) (hpl : Plain s p 8 rm)
    (hr : r.toNat < 4) (ho : ∀ i, o = .reg i → i.toNat < 4) (env : Env) (ha : o.Has s (opW p) a) (hw : opW p = 16)
    (hc : c.toNat = 16) (hb : 0x8000 ≤ a.toNat) : runOne env s = .ub .shiftRange := by
  refine shxd_ub hat henc hpl hr ho env ha (by rintro rfl; simp at hc) ?_
  simp only [shShld, Bool.false_eq_true, if_false]
  rw [if_pos]
  refine Or.inr (Or.inr ⟨by omega, ?_⟩)
  rw [hc]; omega

/-- C52 violated: the ModR/M register fields are decoded as byte registers.  SHLD SP,AX,4 (0F A4 C4 04) leaves SP alone. -/
theorem C52_violated_registers : runOne demoEnv c45W = .ok () (nx demoEnv c45W) ∧ (nx demoEnv c45W).gpr 4 = c45W.gpr 4 ∧
    (nx demoEnv c45W).gpr 0 = 0x12456578 ∧ c45W.gpr 4 = 0x1000 :=
  ⟨conc_ok (by decide +kernel), by decide +kernel, by decide +kernel, by decide +kernel⟩

theorem C52_violated : ¬ C52_Full := by
  intro h
  have hat : At c45W 0x10100 {} [0x0F, 0xA4, 0xC4, 0x04] 4 := ⟨by decide +kernel, [], rfl, by decide +kernel, rfl⟩
  have h1 := (h demoEnv c45W 0x10100 {} _ [0xC4] 4 false _ _ 0x04 0x1000 hat (ShxdEnc.imm 0x04 (RM.reg 0xC4 (by decide)))
    (fun h => absurd (by decide) h) rfl (by decide)).2 (by decide) (by decide)
  obtain ⟨v, f', hs, d, h2⟩ := h1
  have hv : v = 5 := hs.val.trans (by decide +kernel)
  have h3 := congrArg (fun r => (stOf c45W r).gpr 4) h2
  have h4 : (stOf c45W (runOne demoEnv c45W)).gpr 4 = 0x1000 := by decide +kernel
  rw [h4, hv] at h3
  have h5 : ((Opnd.reg 4).put c45W 16 5).gpr 4 ≠ 0x1000 := by decide +kernel
  exact h5 h3.symm

/-- SHLD [BX+4],CX,5 ; 66 SHRD EAX,EDX,CL (CL = 3); a count of 33. -/
example : ∃ (s : State) (code rm : List (BitVec 8)) (r : BitVec 3) (o : Opnd) (c : BitVec 8) (a : BitVec 16),
    At s 0x10100 {} code 5 ∧ ShxdEnc s {} false code rm r o c ∧ Plain s {} 8 rm ∧ r.toNat < 4 ∧ (∀ i, o = .reg i → i.toNat < 4) ∧
    o.Has s 16 a ∧ c = 5 := by
  obtain ⟨a, ha⟩ := demo_mem_has [0x0F, 0xA4, 0x4F, 0x04, 0x05] 16 (by decide) 0x3000 0x14
  exact ⟨demo [0x0F, 0xA4, 0x4F, 0x04, 0x05], _, _, _, _, _, a, demo_at _ (by decide), ShxdEnc.imm 5 (RM.mem 0x4F [0x04] (by decide) rfl (by decide)),
    fun _ => ⟨by decide +kernel, by decide, by decide +kernel⟩, by decide, (fun i h => by cases h), ha, rfl⟩
example : ∃ (s : State) (p : Pfx) (code rm : List (BitVec 8)) (r : BitVec 3) (o : Opnd) (c : BitVec 8) (a : BitVec (opW p)),
    At s 0x10100 p code 4 ∧ ShxdEnc s p true code rm r o c ∧ Plain s p 8 rm ∧ r = 2 ∧ (∀ i, o = .reg i → i.toNat < 4) ∧
    o.Has s (opW p) a ∧ c = 3 ∧ opW p = 32 :=
  ⟨demo [0x66, 0x0F, 0xAD, 0xD0], { oper := true }, _, _, _, _, _, 0x11220055, ⟨demo_ready _, [0x66], rfl, by decide +kernel, rfl⟩,
    ShxdEnc.cl (RM.reg 0xD0 (by decide)), fun h => absurd (by decide) h, by decide, (fun i h => by cases h; decide), rfl, by decide, rfl⟩
example : ∃ (s : State) (code rm : List (BitVec 8)) (r : BitVec 3) (o : Opnd) (c : BitVec 8) (a : BitVec 16),
    At s 0x10100 {} code 4 ∧ ShxdEnc s {} false code rm r o c ∧ Plain s {} 8 rm ∧ r.toNat < 4 ∧ (∀ i, o = .reg i → i.toNat < 4) ∧
    o.Has s 16 a ∧ 32 ≤ c.toNat ∧ count5 c = 1 :=
  ⟨demo [0x0F, 0xA4, 0xD0, 0x21], _, _, _, _, _, 0x55, demo_at _ (by decide), ShxdEnc.imm 0x21 (RM.reg 0xD0 (by decide)),
    fun h => absurd (by decide) h, by decide, (fun i h => by cases h; decide), rfl, by decide, by decide⟩
example : ∃ (s : State) (code rm : List (BitVec 8)) (r : BitVec 3) (o : Opnd) (c : BitVec 8) (a : BitVec 16),
    At s 0x10100 {} code 4 ∧ ShxdEnc s {} false code rm r o c ∧ Plain s {} 8 rm ∧ r.toNat < 4 ∧ (∀ i, o = .reg i → i.toNat < 4) ∧
    o.Has s 16 a ∧ c.toNat = 16 ∧ 0x8000 ≤ a.toNat :=
  ⟨(demo [0x0F, 0xA4, 0xD0, 0x10]).setGpr 0 0x8001, _, _, _, _, _, 0x8001, ⟨by decide +kernel, [], rfl, by decide +kernel, rfl⟩,
    ShxdEnc.imm 0x10 (RM.reg 0xD0 (by decide)),
    fun h => absurd (by decide) h, by decide, (fun i h => by cases h; decide), rfl, by decide, by decide⟩

end RME
