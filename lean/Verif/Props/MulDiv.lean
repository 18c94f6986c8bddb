import Verif.Props.Arith
import Verif.Lemmas.Interrupt
set_option autoImplicit false
/-
C20 MUL/IMUL, C21 DIV/IDIV, C13 delivery of divide errors.
-/
namespace RME

theorem putPair_host (s : State) (n : Nat) (hi lo : BitVec n) : (putPair s n hi lo).host = s.host := by
  simp only [putPair, hiOp]; split <;> rfl
theorem putPair_ip (s : State) (n : Nat) (hi lo : BitVec n) : (putPair s n hi lo).ip = s.ip := by
  simp only [putPair, hiOp]; split <;> rfl
theorem putPair_map (s : State) (n : Nat) (hi lo : BitVec n) : (putPair s n hi lo).map = s.map := by
  simp only [putPair, hiOp]; split <;> rfl
theorem putPair_valid (s : State) (n : Nat) (hi lo : BitVec n) : (putPair s n hi lo).valid = s.valid := by
  simp only [putPair, hiOp]; split <;> rfl

/-! ### C20 -/

/-- C20: one-operand MUL: the double-width unsigned product in AX, DX:AX or EDX:EAX; CF = OF = high half not zero. -/
theorem C20_mul {s : State} {h0 : Nat} {p : Pfx} {code : List (BitVec 8)} {len n : Nat} {o : Opnd}
    (hat : At s h0 p code len) (henc : UnaryEnc s p 4 n code o) (env : Env) {a b : BitVec n}
    (ha : (Opnd.reg 0).Has s n a) (hb : o.Has s n b) :
    ∃ lo hi f', MulSpec a b s.flags lo hi f' ∧ Falls env s len { putPair s n hi lo with flags := f' } := by
  have hn := henc.width
  have ha' : a = s.reg n rAX := ha
  subst ha'
  refine ⟨_, _, _, mul_spec (by omega) _ b s.flags, ?_⟩
  exact misc_step hat henc env (henc.ok hb) { putPair s n (mulCode (s.reg n rAX) b s.flags).2.1 (mulCode (s.reg n rAX) b s.flags).1 with flags := (mulCode (s.reg n rAX) b s.flags).2.2 }
    (mul_ok env p len hn (henc.ok hb) hb)
    (by simp only [putPair_ip]) (by simp only [putPair_map])
    (by simp only [putPair_valid]) (Or.inl (by simp only [putPair_host]))

/-- C20: one-operand IMUL: the double-width signed product; CF = OF = product does not fit the low half. -/
theorem C20_imul {s : State} {h0 : Nat} {p : Pfx} {code : List (BitVec 8)} {len n : Nat} {o : Opnd}
    (hat : At s h0 p code len) (henc : UnaryEnc s p 5 n code o) (env : Env) {a b : BitVec n}
    (ha : (Opnd.reg 0).Has s n a) (hb : o.Has s n b) :
    ∃ lo hi f', ImulSpec a b s.flags lo hi f' ∧ Falls env s len { putPair s n hi lo with flags := f' } := by
  have hn := henc.width
  have ha' : a = s.reg n rAX := ha
  subst ha'
  refine ⟨_, _, _, imul_spec (by omega) _ b s.flags, ?_⟩
  exact misc_step hat henc env (henc.ok hb) { putPair s n (imulCode (s.reg n rAX) b s.flags).2.1 (imulCode (s.reg n rAX) b s.flags).1 with flags := (imulCode (s.reg n rAX) b s.flags).2.2 }
    (imul_ok env p len hn (henc.ok hb) hb)
    (by simp only [putPair_ip]) (by simp only [putPair_map])
    (by simp only [putPair_valid]) (Or.inl (by simp only [putPair_host]))

/-- MUL CX and IMUL BYTE [DI+2] -/
example : ∃ (s : State) (p : Pfx) (code : List (BitVec 8)) (o : Opnd) (a b : BitVec 16),
    At s 0x10100 p code 2 ∧ UnaryEnc s p 4 16 code o ∧ (Opnd.reg 0).Has s 16 a ∧ o.Has s 16 b :=
  ⟨demo [0xF7, 0xE1], {}, _, _, 0x55, 3, demo_at _ (by decide),
    UnaryEnc.m (p := {}) (RM.reg 0xE1 (by decide)) (fun h => absurd rfl h), rfl, rfl⟩
example : ∃ (s : State) (p : Pfx) (code : List (BitVec 8)) (o : Opnd) (a b : BitVec 8),
    At s 0x10100 p code 3 ∧ UnaryEnc s p 5 8 code o ∧ (Opnd.reg 0).Has s 8 a ∧ o.Has s 8 b := by
  have h : RM (demo [0xF6, 0x6D, 0x02]) {} 8 [0x6D, 0x02] 5 _ := RM.mem 0x6D [0x02] (by decide) rfl (by decide)
  obtain ⟨a, ha⟩ := demo_mem_has [0xF6, 0x6D, 0x02] 8 (by decide) _ _
  exact ⟨demo [0xF6, 0x6D, 0x02], {}, _, _, 0x55, a, demo_at _ (by decide),
    UnaryEnc.m8 h (fun _ => ⟨by decide, by decide, by decide⟩), rfl, ha⟩

/-- Encodings of the multi-operand IMUL (16-bit): `dst = a * b`. -/
inductive ImulEnc (s : State) (p : Pfx) : List (BitVec 8) → BitVec 3 → Opnd → Opnd → Prop
  | mi {rm r o} (h : RM s p 16 rm r o) (hp : Plain s p 16 rm) (i j : BitVec 8) :
      ImulEnc s p (0x69 :: (rm ++ [i, j])) r o (.imm ((le16 i j).setWidth 32))
  | mi8 {rm r o} (h : RM s p 16 rm r o) (hp : Plain s p 16 rm) (i : BitVec 8) :
      ImulEnc s p (0x6B :: (rm ++ [i])) r o (.imm ((i.signExtend 32)))
  | rm {rm r o} (h : RM s p 16 rm r o) (hp : Plain s p 16 rm) :
      ImulEnc s p (0x0F :: 0xAF :: rm) r o (.reg r)

theorem imulMulti_ok {a b : BitVec 16} (env : Env) {s : State} (p : Pfx) (j : Nat) (r : BitVec 3)
    (hov : a.toNat * b.toNat ≤ 0x7FFFFFFF) :
    imulMulti (.reg r) a b env (opState s p j) = .ok () { (Opnd.reg r).put s 16 (a * b) with
      flags := setCFOF (setCommFlags s.flags (a * b)) (imulOvf 16 (a * b).toNat), dec := decOf p j, instrNum := s.instrNum + 1 } := by
  unfold imulMulti
  rw [if_neg (by omega)]
  rfl

theorem ext0F_run {s : State} {h0 : Nat} {bytes : List (BitVec 8)} (hc : CodeAt s h0 bytes) (env : Env) (p : Pfx) {j : Nat}
    {op : BitVec 8} (hb : bytes[j]? = some op) {o : Op} {a : BitVec 3} {b : Bool} (he : opEntry0F op = some ⟨.base o, a, b⟩) :
    ext0F env (opState s p j) = opFn o a env (opState s p (j + 1)) := by
  simp only [ext0F, bind_apply, fetch8 hc env p j hb, resbind_ok, he]

theorem imm16_has (i j : BitVec 8) : ((le16 i j).setWidth 32).setWidth 16 = le16 i j := by
  apply BitVec.eq_of_toNat_eq; simp

/-- The common shape of the three forms. -/
theorem imul_multi_run {s : State} {h0 : Nat} {p : Pfx} {code : List (BitVec 8)} {len : Nat} {r : BitVec 3} {x y : Opnd}
    (hat : At s h0 p code len) (henc : ImulEnc s p code r x y) (ho : p.oper = false) (env : Env) {a b : BitVec 16}
    (ha : x.Has s 16 a) (hb : y.Has s 16 b) :
    ∃ op rest e c, code = op :: rest ∧ op ≠ 0xF1 ∧ op ≠ 0 ∧ opEntry op = some e ∧ paramOf e rest[0]? = some c ∧
      ∀ bytes j, CodeAt s h0 bytes → j + rest.length = len → Sub bytes j rest →
        callFn e.fn c env (opState s p j) = imulMulti (.reg r) a b env (opState s p len) := by
  have hd : ∀ j, getDec env (opState s p j) = .ok (decOf p j) (opState s p j) := fun _ => rfl
  cases henc with
  | mi h hp i j' =>
    refine ⟨_, _, ⟨.base .imulMIX, 0, false⟩, 0, rfl, by decide, by decide, by decide, rfl, ?_⟩
    intro bytes j hc hj hsub
    subst hj
    have hb' : b = le16 i j' := hb.trans (imm16_has i j')
    subst hb'
    have hx := ha.ok h.no_imm
    simp only [callFn, opFn, opImulMIX, bind_apply, hd, resbind_ok, show (decOf p j).ovrOper = false from ho, guardE_false,
      parseModRMX_rm hc env (by decide) h hp hx hsub.left, fetch16 hc env p _ hsub.right.head hsub.right.tail.head,
      readLoc_has (Agree.op s p _) env (Or.inr (Or.inl rfl)) hx ha, List.length_append, List.length_cons, List.length_nil, ← Nat.add_assoc]
  | mi8 h hp i =>
    refine ⟨_, _, ⟨.base .imulMI8X, 0, false⟩, 0, rfl, by decide, by decide, by decide, rfl, ?_⟩
    intro bytes j hc hj hsub
    subst hj
    have hb' : b = i.signExtend 16 := hb.trans (imm_hasS (by decide) i)
    subst hb'
    have hx := ha.ok h.no_imm
    simp only [callFn, opFn, opImulMI8X, bind_apply, hd, resbind_ok, show (decOf p j).ovrOper = false from ho, guardE_false,
      parseModRMX_rm hc env (by decide) h hp hx hsub.left, fetch8S hc env p 16 _ hsub.right.head,
      readLoc_has (Agree.op s p _) env (Or.inr (Or.inl rfl)) hx ha, List.length_append, List.length_cons, List.length_nil, ← Nat.add_assoc]
  | @rm rm _ _ h hp =>
    refine ⟨_, _, ⟨.ext0F, 0, false⟩, 0, rfl, by decide, by decide, by decide, rfl, ?_⟩
    intro bytes j hc hj hsub
    subst hj
    have hx := ha.ok h.no_imm
    have hr : readLoc 16 (.reg r) env (opState s p (j + 1 + rm.length)) = _ :=
      readLoc_has (Agree.op s p _) env (Or.inr (Or.inl rfl)) (o := .reg r) trivial hb
    simp only [callFn, ext0F_run hc env p hsub.head (o := .imulRMX) (a := 0) (b := false) (by decide), opFn, opImulRMX, bind_apply, hd, resbind_ok,
      show (decOf p (j + 1)).ovrOper = false from ho, guardE_false,
      parseModRMX_rm hc env (by decide) h hp hx hsub.tail,
      readLoc_has (Agree.op s p _) env (Or.inr (Or.inl rfl)) hx ha, hr, List.length_cons, ← Nat.add_assoc]
    rw [show j + rm.length + 1 = j + 1 + rm.length from by omega]

/-- C20 (partial): multi-operand IMUL stores the low 16 bits of the product and changes no flag but CF PF ZF SF OF, as long as the
product of the operands taken as unsigned numbers is below 2^31.  CF and OF are "bit 15 of the result" instead of "does not fit"
(`C20_violated_imul_flags`); above 2^31 the C code is undefined (`C20_violated_imul_ub`). -/
theorem C20_imul_multi_partial {s : State} {h0 : Nat} {p : Pfx} {code : List (BitVec 8)} {len : Nat} {r : BitVec 3} {x y : Opnd}
    (hat : At s h0 p code len) (henc : ImulEnc s p code r x y) (ho : p.oper = false) (env : Env) {a b : BitVec 16}
    (ha : x.Has s 16 a) (hb : y.Has s 16 b) (hov : a.toNat * b.toNat < 2 ^ 31) :
    ∃ (v : BitVec 16) (f' : BitVec 16), (v.toNat : Int) = (a.toInt * b.toInt) % 2 ^ 16 ∧ OnlyBits [bCF, bPF, bZF, bSF, bOF] s.flags f' ∧
      f'.getLsbD bCF = decide (v.toInt < 0) ∧ f'.getLsbD bOF = decide (v.toInt < 0) ∧
      Falls env s len { (Opnd.reg r).put s 16 v with flags := f' } := by
  obtain ⟨op, rest, e, c, rfl, h1, h2, he, hc, hrun⟩ := imul_multi_run hat henc ho env ha hb
  obtain ⟨f1, f2, f3⟩ := mulflags (n := 16) (by decide) s.flags (a * b) (imulOvf 16 (a * b).toNat)
  have hsgn : imulOvf 16 ((a * b).toNat : Int) = decide ((a * b).toInt < 0) := by
    have := (a * b).isLt
    rw [BitVec.toInt_eq_toNat_cond]
    rw [Bool.eq_iff_iff]
    simp only [imulOvf, Bool.or_eq_true, decide_eq_true_eq]
    split <;> omega
  refine ⟨a * b, _, ?_, f3, f1.trans hsgn, f2.trans hsgn, ?_⟩
  · have := BitVec.toInt_mul a b
    have h3 : ((a * b).toInt) % 2 ^ 16 = (a.toInt * b.toInt) % 2 ^ 16 := by rw [this]; exact Int.bmod_emod
    rw [← h3, BitVec.toInt_eq_toNat_cond]
    have := (a * b).isLt
    split <;> omega
  · refine step_falls hat env h1 he hc _ (decOf p len) ?_ rfl rfl rfl rfl rfl (notZeroed_same hat h2 rfl)
    intro bytes j hcode hj hsub
    rw [hrun bytes j hcode hj hsub]
    exact imulMulti_ok env p len r (by omega)

/-- Witness: IMUL CX, CX, -1 with CX = 3 fits 16 bits, but CF and OF are set. -/
theorem C20_violated_imul_flags : ∃ (s : State) (a b : BitVec 16) (t : State),
    At s 0x10100 {} [0x6B, 0xC9, 0xFF] 3 ∧ ImulEnc s {} [0x6B, 0xC9, 0xFF] 1 (.reg 1) (.imm 0xFFFFFFFF) ∧
    (Opnd.reg 1).Has s 16 a ∧ (Opnd.imm 0xFFFFFFFF).Has s 16 b ∧ runOne demoEnv s = .ok () t ∧
    fitsSigned 16 (a.toInt * b.toInt) = true ∧ t.flags.getLsbD bCF = true ∧ t.flags.getLsbD bOF = true := by
  refine ⟨demo [0x6B, 0xC9, 0xFF], 3, 0xFFFF, _, demo_at _ (by decide), ?_, rfl, rfl, rfl, by decide, by decide +kernel, by decide +kernel⟩
  exact ImulEnc.mi8 (RM.reg 0xC9 (by decide)) (fun h => absurd rfl h) 0xFF

/-- Witness: IMUL CX, CX, -1 with CX = FFFFh is undefined behaviour of the host. -/
theorem C20_violated_imul_ub : runOne demoEnv ((demo [0x6B, 0xC9, 0xFF]).setGpr 1 0xFFFF) = .ub .signedOverflow := by rfl

/-- IMUL DX, [BX+4], 1234h -/
example : ∃ (s : State) (code : List (BitVec 8)) (o i : Opnd) (a b : BitVec 16),
    At s 0x10100 {} code 5 ∧ ImulEnc s {} code 2 o i ∧ o.Has s 16 a ∧ i.Has s 16 b ∧ a.toNat * b.toNat < 2 ^ 31 := by
  have h : RM (demo [0x69, 0x57, 0x04, 0x34, 0x12]) {} 16 [0x57, 0x04] 2 _ := RM.mem 0x57 [0x04] (by decide) rfl (by decide)
  exact ⟨demo [0x69, 0x57, 0x04, 0x34, 0x12], _, _, _, 0, 0x1234, demo_at _ (by decide),
    ImulEnc.mi h (fun _ => ⟨by decide, by decide, by decide⟩) 0x34 0x12,
    ⟨_, demo_mapped _ 16 _ _ (by decide), by decide +kernel⟩, rfl, by decide⟩

/-! ### C21 -/

/-- C21: DIV with a quotient that fits: quotient in AL/AX/EAX, remainder in AH/DX/EDX, no flag changes. -/
theorem C21_div {s : State} {h0 : Nat} {p : Pfx} {code : List (BitVec 8)} {len n : Nat} {o : Opnd}
    (hat : At s h0 p code len) (henc : UnaryEnc s p 6 n code o) (env : Env) {hi lo d : BitVec n}
    (hhi : (hiOp n).Has s n hi) (hlo : (Opnd.reg 0).Has s n lo) (hd : o.Has s n d)
    (h0' : d.toNat ≠ 0) (hq : (hi.toNat * 2 ^ n + lo.toNat) / d.toNat < 2 ^ n) :
    ∃ q r, DivSpec (hi.toNat * 2 ^ n + lo.toNat) d q r ∧ Falls env s len (putPair s n r q) := by
  have hn := henc.width
  rw [← dividend_nat hn hhi hlo] at hq ⊢
  obtain ⟨q, r, h1, h2⟩ := div_ok env p len hn (henc.ok hd) hd (fun h => h0' (by simp [h])) hq
  exact ⟨q, r, h1, misc_step hat henc env (henc.ok hd) _ h2 (putPair_ip ..) (putPair_map ..) (putPair_valid ..) (Or.inl (putPair_host ..))⟩

/-- C21/C13: DIV by zero or with a quotient that does not fit is delivered as interrupt 0; registers other than SP keep their values. -/
theorem C21_div_fault {s : State} {h0 : Nat} {p : Pfx} {code : List (BitVec 8)} {len n : Nat} {o : Opnd}
    (hat : At s h0 p code len) (henc : UnaryEnc s p 6 n code o) (env : Env) {hi lo d : BitVec n}
    (hhi : (hiOp n).Has s n hi) (hlo : (Opnd.reg 0).Has s n lo) (hd : o.Has s n d)
    (hf : d.toNat = 0 ∨ 2 ^ n ≤ (hi.toNat * 2 ^ n + lo.toNat) / d.toNat)
    (hr : Room s 3) {cs ip : BitVec 16} (hv : Vector (pushedAll s [s.flags, s.sreg .cs, s.ip]) 0 cs ip) :
    Delivers env s (interrupted s s.ip cs ip) := by
  have hn := henc.width
  rw [← dividend_nat hn hhi hlo] at hf
  refine div_delivers env p len (misc_div hat henc env (henc.ok hd) (div_fault env p len hn (henc.ok hd) hd ?_)) hr hv
  rcases hf with h | h
  · exact Or.inl (BitVec.eq_of_toNat_eq (by simpa using h))
  · exact Or.inr h

/-- C21 (partial): 8-bit and 16-bit IDIV with a quotient that fits.  Missing: the 32-bit form always faults (`C21_violated_idiv32`). -/
theorem C21_idiv_partial {s : State} {h0 : Nat} {p : Pfx} {code : List (BitVec 8)} {len n : Nat} {o : Opnd}
    (hat : At s h0 p code len) (henc : UnaryEnc s p 7 n code o) (hn : n ≠ 32) (env : Env) {hi lo d : BitVec n}
    (hhi : (hiOp n).Has s n hi) (hlo : (Opnd.reg 0).Has s n lo) (hd : o.Has s n d)
    (h0' : d.toInt ≠ 0) (hq : fitsSigned n ((hi.toInt * 2 ^ n + lo.toNat).tdiv d.toInt) = true) :
    ∃ q r, IdivSpec (hi.toInt * 2 ^ n + lo.toNat) d q r ∧ Falls env s len (putPair s n r q) := by
  have hw := henc.width
  have hn' : n = 8 ∨ n = 16 := by omega
  rw [← dividend_int hw hhi hlo] at hq ⊢
  have hd0 : d ≠ 0 := fun h => h0' (by simp [h])
  have hub : ¬ (n = 16 ∧ (dividend s n).toInt = -(2 ^ 31) ∧ d.toInt = -1) := by
    rintro ⟨rfl, h1, h2⟩
    rw [h1, h2] at hq
    revert hq; decide
  refine ⟨_, _, idivSpec_of hw hd0 hq, misc_step hat henc env (henc.ok hd) _ ?_ (putPair_ip ..) (putPair_map ..) (putPair_valid ..) (Or.inl (putPair_host ..))⟩
  rw [idiv_run env p len hw (henc.ok hd) hd, if_neg hd0, idivCode_ok hn' _ _ hd0 hub]
  simp only [hq, if_true]

/-- C21 (partial)/C13: 8-bit and 16-bit IDIV by zero or with a quotient that does not fit is delivered as interrupt 0, except
for 80000000h / -1 (`C21_violated_idiv_ub`). -/
theorem C21_idiv_fault_partial {s : State} {h0 : Nat} {p : Pfx} {code : List (BitVec 8)} {len n : Nat} {o : Opnd}
    (hat : At s h0 p code len) (henc : UnaryEnc s p 7 n code o) (hn : n ≠ 32) (env : Env) {hi lo d : BitVec n}
    (hhi : (hiOp n).Has s n hi) (hlo : (Opnd.reg 0).Has s n lo) (hd : o.Has s n d)
    (hf : d.toInt = 0 ∨ fitsSigned n ((hi.toInt * 2 ^ n + lo.toNat).tdiv d.toInt) = false)
    (hub : ¬ (n = 16 ∧ hi.toInt * 2 ^ n + lo.toNat = -(2 ^ 31) ∧ d.toInt = -1))
    (hr : Room s 3) {cs ip : BitVec 16} (hv : Vector (pushedAll s [s.flags, s.sreg .cs, s.ip]) 0 cs ip) :
    Delivers env s (interrupted s s.ip cs ip) := by
  have hw := henc.width
  have hn' : n = 8 ∨ n = 16 := by omega
  rw [← dividend_int hw hhi hlo] at hf hub
  refine div_delivers env p len (misc_div hat henc env (henc.ok hd) ?_) hr hv
  rw [idiv_run env p len hw (henc.ok hd) hd]
  by_cases hd0 : d = 0
  · rw [if_pos hd0]
  · rw [if_neg hd0, idivCode_ok hn' _ _ hd0 hub]
    rcases hf with h | h
    · exact absurd (BitVec.eq_of_toInt_eq (by simpa using h)) hd0
    · simp only [h, Bool.false_eq_true, if_false]

/-- C21 violated: 32-bit IDIV never stores a quotient: it faults or is undefined, whatever the operands are. -/
theorem C21_violated_idiv32 {s : State} {h0 : Nat} {p : Pfx} {code : List (BitVec 8)} {len : Nat} {o : Opnd}
    (hat : At s h0 p code len) (henc : UnaryEnc s p 7 32 code o) (env : Env) {d : BitVec 32} (hd : o.Has s 32 d)
    (hr : Room s 3) {cs ip : BitVec 16} (hv : Vector (pushedAll s [s.flags, s.sreg .cs, s.ip]) 0 cs ip) :
    runOne env s = .ub .signedOverflow ∨ Delivers env s (interrupted s s.ip cs ip) := by
  obtain ⟨op, rest, e, c, rfl, h1, h2, he, hc, hrun⟩ := misc_run hat henc env (henc.ok hd)
  have hrun2 := idiv_run env p len (n := 32) (by decide) (henc.ok hd) hd
  by_cases hd0 : d = 0
  · rw [if_pos hd0] at hrun2
    exact Or.inr (div_delivers env p len (misc_div hat henc env (henc.ok hd) hrun2) hr hv)
  · rw [if_neg hd0] at hrun2
    rcases idivCode_32 (dividend s 32).toInt d.toInt with h | h
    · rw [h] at hrun2
      left
      obtain ⟨hready, pfx, hp, hcode, hlen⟩ := hat
      rw [runOne_ready hready, decode_code hcode env hready.counter hp h1 he hc (.ub .signedOverflow) ?_ (by simp)]
      · rfl
      · rw [hrun _ _ hcode (by simp at hlen; omega) ?_, hrun2]
        have := Sub.of_append (pfx ++ [op]) rest
        simpa using this
    · rw [h] at hrun2
      exact Or.inr (div_delivers env p len (misc_div hat henc env (henc.ok hd) hrun2) hr hv)

theorem misc_ub {s : State} {h0 : Nat} {p : Pfx} {code : List (BitVec 8)} {len n : Nat} {o : Opnd} (hat : At s h0 p code len) (henc : UnaryEnc s p 7 n code o) (env : Env)
    {d : BitVec n} (hd : o.Has s n d) (hd0 : d ≠ 0) (h : idivCode n (dividend s n).toInt d.toInt = .error .signedOverflow) : runOne env s = .ub .signedOverflow := by
  obtain ⟨op, rest, e, c, rfl, h1, h2, he, hc, hrun⟩ := misc_run hat henc env (henc.ok hd)
  have hrun2 := idiv_run env p len henc.width (henc.ok hd) hd
  rw [if_neg hd0, h] at hrun2
  obtain ⟨hready, pfx, hp, hcode, hlen⟩ := hat
  rw [runOne_ready hready, decode_code hcode env hready.counter hp h1 he hc (.ub .signedOverflow) ?_ (by simp)]
  · rfl
  · rw [hrun _ _ hcode (by simp at hlen; omega) ?_, hrun2]
    have := Sub.of_append (pfx ++ [op]) rest
    simpa using this

/-- C21 violated, exactly: 32-bit IDIV is undefined behaviour of the host for EDX:EAX = 8000000000000000h divided by -1 and faults for all other operands. -/
theorem C21_violated_idiv32_exact {s : State} {h0 : Nat} {p : Pfx} {code : List (BitVec 8)} {len : Nat} {o : Opnd}
    (hat : At s h0 p code len) (henc : UnaryEnc s p 7 32 code o) (env : Env) {hi lo d : BitVec 32}
    (hhi : (hiOp 32).Has s 32 hi) (hlo : (Opnd.reg 0).Has s 32 lo) (hd : o.Has s 32 d)
    (hr : Room s 3) {cs ip : BitVec 16} (hv : Vector (pushedAll s [s.flags, s.sreg .cs, s.ip]) 0 cs ip) :
    (hi.toInt * 2 ^ 32 + lo.toNat = -(2 ^ 63) ∧ d.toInt = -1 → runOne env s = .ub .signedOverflow) ∧
    (¬ (hi.toInt * 2 ^ 32 + lo.toNat = -(2 ^ 63) ∧ d.toInt = -1) → Delivers env s (interrupted s s.ip cs ip)) := by
  rw [← dividend_int (n := 32) (by decide) hhi hlo]
  constructor
  · rintro ⟨h1, h2⟩
    refine misc_ub hat henc env hd (fun h => ?_) ?_
    · rw [h] at h2; revert h2; decide
    · rw [h1, h2]; rfl
  · intro h
    have hrun2 := idiv_run env p len (n := 32) (by decide) (henc.ok hd) hd
    refine div_delivers env p len (misc_div hat henc env (henc.ok hd) ?_) hr hv
    by_cases hd0 : d = 0
    · rw [if_pos hd0] at hrun2; exact hrun2
    · have hi : idivCode 32 (dividend s 32).toInt d.toInt = .ok none := by
        unfold idivCode
        rw [if_neg (by decide), if_neg (by decide), if_neg h]
        simp only
        rw [if_pos (by omega)]
      rw [if_neg hd0, hi] at hrun2
      exact hrun2

/-- C21 violated, exactly: 16-bit IDIV of DX:AX = 80000000h by -1 (register or memory operand) is undefined behaviour of the host, in every state; for all other
operands see `C21_idiv_partial` and `C21_idiv_fault_partial`. -/
theorem C21_violated_idiv16_exact {s : State} {h0 : Nat} {p : Pfx} {code : List (BitVec 8)} {len : Nat} {o : Opnd}
    (hat : At s h0 p code len) (henc : UnaryEnc s p 7 16 code o) (env : Env) {hi lo d : BitVec 16}
    (hhi : (hiOp 16).Has s 16 hi) (hlo : (Opnd.reg 0).Has s 16 lo) (hd : o.Has s 16 d)
    (h : hi.toInt * 2 ^ 16 + lo.toNat = -(2 ^ 31) ∧ d.toInt = -1) : runOne env s = .ub .signedOverflow := by
  rw [← dividend_int (n := 16) (by decide) hhi hlo] at h
  obtain ⟨h1, h2⟩ := h
  refine misc_ub hat henc env hd (fun h => ?_) ?_
  · rw [h] at h2; revert h2; decide
  · rw [h1, h2]; rfl

/-- C21 violated: DX:AX = 80000000h, IDIV BX with BX = -1 is undefined behaviour of the host (INT_MIN / -1). -/
theorem C21_violated_idiv_ub :
    runOne demoEnv ((((demo [0xF7, 0xFB]).setGpr 0 0).setGpr 2 0x8000).setGpr 3 0xFFFF) = .ub .signedOverflow := by rfl

/-- a 32-bit IDIV of 100 by 3 faults: the state after it is at the vector of interrupt 0 -/
def c21W : State := (((demo [0x66, 0xF7, 0xFB]).setGpr 0 100).setGpr 2 0).setGpr 3 3
theorem C21_violated_idiv32_witness : ∃ t, runOne demoEnv c21W = .ok () t ∧ t.gpr 0 = 100 ∧ t.ip = 0 ∧ t.sreg .cs = 0 :=
  ⟨_, rfl, by decide +kernel, by decide +kernel, by decide +kernel⟩

/-! ### C13 -/

/-- C13: AAM 0 is delivered as interrupt 0. -/
theorem C13_aam_zero {s : State} {h0 : Nat} {p : Pfx} {len : Nat} (hat : At s h0 p [0xD4, 0x00] len) (env : Env)
    (hr : Room s 3) {cs ip : BitVec 16} (hv : Vector (pushedAll s [s.flags, s.sreg .cs, s.ip]) 0 cs ip) :
    Delivers env s (interrupted s s.ip cs ip) := by
  obtain ⟨hready, pfx, hp, hcode, hlen⟩ := hat
  refine div_delivers env p len ?_ hr hv
  refine runOne_code_div hready hcode env hp (by decide) (e := ⟨.base .aam, 0, false⟩) (by decide) (a := 0) rfl _ ?_
  have : (pfx ++ [0xD4, 0x00])[pfx.length + 1]? = some (0x00 : BitVec 8) := by simp
  simp only [callFn, opFn, opAam, bind_apply, fetch8 hcode env p _ this, resbind_ok]
  rw [hlen]; rfl

/-- C13: whenever the execution of the instruction at CS:IP ends with a divide error (DIV, IDIV, AAM), `RME_RunOne` does not
report it but continues at vector 0 with FLAGS, CS and the offset of the faulting instruction on the stack and IF, TF clear. -/
theorem C13_delivery {s : State} {h0 : Nat} {p : Pfx} {code : List (BitVec 8)} {len n : Nat} {o : Opnd} (k : BitVec 3)
    (hk : k = 6 ∨ (k = 7 ∧ n ≠ 32))
    (hat : At s h0 p code len) (henc : UnaryEnc s p k n code o) (env : Env) {d : BitVec n} (hd : o.Has s n d)
    (h0' : d.toNat = 0) (hr : Room s 3) {cs ip : BitVec 16} (hv : Vector (pushedAll s [s.flags, s.sreg .cs, s.ip]) 0 cs ip) :
    Delivers env s (interrupted s s.ip cs ip) := by
  have hd0 : d = 0 := BitVec.eq_of_toNat_eq (by simpa using h0')
  rcases hk with rfl | ⟨rfl, hn⟩
  · exact div_delivers env p len (misc_div hat henc env (henc.ok hd) (div_fault env p len henc.width (henc.ok hd) hd (Or.inl hd0))) hr hv
  · refine div_delivers env p len (misc_div hat henc env (henc.ok hd) ?_) hr hv
    rw [idiv_run env p len henc.width (henc.ok hd) hd, if_pos hd0]

/-- C13, what `interrupted` means: general registers other than SP, segment registers other than CS and the memory outside the
three stack words are unchanged; the stack holds the offset, CS and FLAGS; IF and TF are clear. -/
theorem C13_frame {s : State} (hr : Room s 3) (cs ip ret : BitVec 16) :
    (∀ r, r ≠ 4 → (interrupted s ret cs ip).gpr r = s.gpr r) ∧ spOf (interrupted s ret cs ip) = spOf s - 6 ∧
    (∀ r, r ≠ .cs → (interrupted s ret cs ip).sreg r = s.sreg r) ∧
    (interrupted s ret cs ip).sreg .cs = cs ∧ (interrupted s ret cs ip).ip = ip ∧
    StackTop (interrupted s ret cs ip) 0 ret ∧ StackTop (interrupted s ret cs ip) 1 (s.sreg .cs) ∧
    StackTop (interrupted s ret cs ip) 2 s.flags ∧
    (interrupted s ret cs ip).flags.getLsbD bIF = false ∧ (interrupted s ret cs ip).flags.getLsbD bTF = false ∧
    OnlyBits [bIF, bTF] s.flags (interrupted s ret cs ip).flags := by
  have ht := pushedAll_top [s.flags, s.sreg .cs, ret] hr (Nat.le_refl 3)
  have hf := pushedAll_frame s [s.flags, s.sreg .cs, ret]
  have hg := pushedAll_gpr s [s.flags, s.sreg .cs, ret]
  have hsp := spOf_pushedAll s [s.flags, s.sreg .cs, ret]
  have hst : ∀ i v, StackTop (pushedAll s [s.flags, s.sreg .cs, ret]) i v → StackTop (interrupted s ret cs ip) i v := by
    intro i v h
    exact readMem_at (by decide) h rfl rfl rfl
  refine ⟨fun r hr => ?_, hsp, fun r hr => ?_, by simp [interrupted, State.setSreg], rfl, hst 0 _ (ht 0 (by simp)), hst 1 _ (ht 1 (by simp)),
    hst 2 _ (ht 2 (by simp)), ?_, ?_, ?_⟩
  · show (pushedAll s [s.flags, s.sreg .cs, ret]).gpr r = _
    rw [hg, withSP_gpr_ne _ _ hr]
  · simp only [interrupted, State.setSreg, hr, if_false, hf.1]
  · show (s.flags &&& 0xFCFF).getLsbD bIF = false
    rw [BitVec.getLsbD_and]; simp [bIF]
  · show (s.flags &&& 0xFCFF).getLsbD bTF = false
    rw [BitVec.getLsbD_and]; simp [bTF]
  · intro i hi hni
    show (s.flags &&& 0xFCFF).getLsbD i = _
    rw [BitVec.getLsbD_and]
    have : (0xFCFF : BitVec 16).getLsbD i = true := by
      revert hni; revert i; decide
    rw [this, Bool.and_true]

/-- DIV CL with CL = 0: the hypotheses of the fault theorems hold in a flat machine with an empty vector table. -/
example : ∃ (s : State) (d : BitVec 8), At s 0x10100 {} [0xF6, 0xF1] 2 ∧ UnaryEnc s {} 6 8 [0xF6, 0xF1] (.reg 1) ∧ (Opnd.reg 1).Has s 8 d ∧ d.toNat = 0 ∧
    Room s 3 ∧ Vector (pushedAll s [s.flags, s.sreg .cs, s.ip]) 0 0 0 := by
  refine ⟨(demo [0xF6, 0xF1]).setGpr 1 0, 0, ⟨⟨by decide, by decide, by decide⟩, [], rfl, demo_code [0xF6, 0xF1] (by decide), rfl⟩,
    UnaryEnc.m8 (RM.reg 0xF1 (by decide)) (fun h => absurd rfl h), rfl, by decide,
    Room.mono (k := 32768) (Flat.room (base := 0) ⟨(demo_flat [0xF6, 0xF1]).map, (demo_flat [0xF6, 0xF1]).valid⟩) (by decide), ?_⟩
  refine ⟨⟨0, ⟨by decide +kernel, by decide +kernel⟩, by decide +kernel⟩, ⟨2, ⟨by decide +kernel, by decide +kernel⟩, by decide +kernel⟩⟩
/-- DIV BX with DX:AX = 00330055h, BX = 10h overflows … -/
example : ∃ (s : State) (hi lo d : BitVec 16), UnaryEnc s {} 6 16 [0xF7, 0xF3] (.reg 3) ∧ (hiOp 16).Has s 16 hi ∧ (Opnd.reg 0).Has s 16 lo ∧
    (Opnd.reg 3).Has s 16 d ∧ 2 ^ 16 ≤ (hi.toNat * 2 ^ 16 + lo.toNat) / d.toNat :=
  ⟨demo [0xF7, 0xF3], 0x33, 0x55, 0x10, UnaryEnc.m (p := {}) (RM.reg 0xF3 (by decide)) (fun h => absurd rfl h), rfl, rfl, rfl, by decide⟩
/-- … and by FFFFh does not. -/
example : ∃ (s : State) (hi lo d : BitVec 16), At s 0x10100 {} [0xF7, 0xF3] 2 ∧ UnaryEnc s {} 6 16 [0xF7, 0xF3] (.reg 3) ∧ (hiOp 16).Has s 16 hi ∧ (Opnd.reg 0).Has s 16 lo ∧
    (Opnd.reg 3).Has s 16 d ∧ d.toNat ≠ 0 ∧ (hi.toNat * 2 ^ 16 + lo.toNat) / d.toNat < 2 ^ 16 :=
  ⟨(demo [0xF7, 0xF3]).setGpr 3 0xFFFF, 0x33, 0x55, 0xFFFF, ⟨⟨by decide, by decide, by decide⟩, [], rfl, demo_code [0xF7, 0xF3] (by decide), rfl⟩,
    UnaryEnc.m (p := {}) (RM.reg 0xF3 (by decide)) (fun h => absurd rfl h), rfl, rfl, rfl, by decide, by decide⟩
/-- IDIV BX, DX:AX = -1 * 65536 + 85, BX = 16 (fits). -/
example : ∃ (s : State) (hi lo d : BitVec 16), At s 0x10100 {} [0xF7, 0xFB] 2 ∧ UnaryEnc s {} 7 16 [0xF7, 0xFB] (.reg 3) ∧ (hiOp 16).Has s 16 hi ∧ (Opnd.reg 0).Has s 16 lo ∧
    (Opnd.reg 3).Has s 16 d ∧ d.toInt ≠ 0 ∧ fitsSigned 16 ((hi.toInt * 2 ^ 16 + lo.toNat).tdiv d.toInt) = true :=
  ⟨(demo [0xF7, 0xFB]).setGpr 2 0xFFFF, 0xFFFF, 0x55, 0x10, ⟨⟨by decide, by decide, by decide⟩, [], rfl, demo_code [0xF7, 0xFB] (by decide), rfl⟩,
    UnaryEnc.m (p := {}) (RM.reg 0xFB (by decide)) (fun h => absurd rfl h), rfl, rfl, rfl, by decide, by decide⟩
/-- IDIV BX, DX:AX = 80000000h, BX = -1: the premises of `C21_violated_idiv16_exact`. -/
example : ∃ (s : State) (hi lo d : BitVec 16), At s 0x10100 {} [0xF7, 0xFB] 2 ∧ UnaryEnc s {} 7 16 [0xF7, 0xFB] (.reg 3) ∧ (hiOp 16).Has s 16 hi ∧ (Opnd.reg 0).Has s 16 lo ∧
    (Opnd.reg 3).Has s 16 d ∧ hi.toInt * 2 ^ 16 + lo.toNat = -(2 ^ 31) ∧ d.toInt = -1 :=
  ⟨(((demo [0xF7, 0xFB]).setGpr 0 0).setGpr 2 0x8000).setGpr 3 0xFFFF, 0x8000, 0, 0xFFFF,
    ⟨⟨by decide, by decide, by decide⟩, [], rfl, demo_code [0xF7, 0xFB] (by decide), rfl⟩,
    UnaryEnc.m (p := {}) (RM.reg 0xFB (by decide)) (fun h => absurd rfl h), rfl, rfl, rfl, by decide, by decide⟩
/-- IDIV EBX, EDX:EAX = 8000000000000000h, EBX = -1: the premises of the first part of `C21_violated_idiv32_exact`. -/
example : ∃ (s : State) (hi lo d : BitVec 32), UnaryEnc s { oper := true } 7 32 [0xF7, 0xFB] (.reg 3) ∧ (hiOp 32).Has s 32 hi ∧ (Opnd.reg 0).Has s 32 lo ∧
    (Opnd.reg 3).Has s 32 d ∧ hi.toInt * 2 ^ 32 + lo.toNat = -(2 ^ 63) ∧ d.toInt = -1 :=
  ⟨(((demo [0x66, 0xF7, 0xFB]).setGpr 0 0).setGpr 2 0x80000000).setGpr 3 0xFFFFFFFF, 0x80000000, 0, 0xFFFFFFFF,
    UnaryEnc.m (p := { oper := true }) (RM.reg 0xFB (by decide)) (fun h => absurd rfl h), rfl, rfl, rfl, by decide, by decide⟩
/-- 8-bit IDIV of 0055h by BL = 0: the premises of the fault theorem hold. -/
example : ∃ (s : State) (hi lo d : BitVec 8), At s 0x10100 {} [0xF6, 0xFB] 2 ∧ UnaryEnc s {} 7 8 [0xF6, 0xFB] (.reg 3) ∧ (hiOp 8).Has s 8 hi ∧ (Opnd.reg 0).Has s 8 lo ∧
    (Opnd.reg 3).Has s 8 d ∧ d.toInt = 0 :=
  ⟨(demo [0xF6, 0xFB]).setGpr 3 0, 0, 0x55, 0, ⟨⟨by decide, by decide, by decide⟩, [], rfl, demo_code [0xF6, 0xFB] (by decide), rfl⟩,
    UnaryEnc.m8 (p := {}) (RM.reg 0xFB (by decide)) (fun h => absurd rfl h),
    ⟨rfl, rfl⟩, (by show _ = _; decide +kernel), (by show _ = _; decide +kernel), rfl⟩

end RME
