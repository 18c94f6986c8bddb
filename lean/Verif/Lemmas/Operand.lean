import Verif.Spec.Operand
import Verif.Lemmas.Reg
import Verif.Lemmas.Decode
set_option autoImplicit false
/-
Operand decoding of the model against the operand specification.
-/
namespace RME

/-! ### Slices of the instruction bytes -/

/-- `l` is the slice of `bytes` at `j`. -/
def Sub (bytes : List (BitVec 8)) (j : Nat) (l : List (BitVec 8)) : Prop :=
  ∀ i, i < l.length → bytes[j + i]? = l[i]?

theorem Sub.head {bytes : List (BitVec 8)} {j : Nat} {b : BitVec 8} {l : List (BitVec 8)}
    (h : Sub bytes j (b :: l)) : bytes[j]? = some b := by
  have := h 0 (by simp); simpa using this

theorem Sub.tail {bytes : List (BitVec 8)} {j : Nat} {b : BitVec 8} {l : List (BitVec 8)}
    (h : Sub bytes j (b :: l)) : Sub bytes (j + 1) l := by
  intro i hi
  have := h (i + 1) (by simp; omega)
  rw [show j + 1 + i = j + (i + 1) by omega, this]; simp

theorem Sub.left {bytes : List (BitVec 8)} {j : Nat} {l r : List (BitVec 8)}
    (h : Sub bytes j (l ++ r)) : Sub bytes j l := by
  intro i hi
  rw [h i (by simp; omega), List.getElem?_append_left hi]

theorem Sub.right {bytes : List (BitVec 8)} {j : Nat} {l r : List (BitVec 8)}
    (h : Sub bytes j (l ++ r)) : Sub bytes (j + l.length) r := by
  intro i hi
  rw [Nat.add_assoc, h (l.length + i) (by simp; omega), List.getElem?_append_right (by omega)]
  congr 1; omega

theorem Sub.of_append (pre l : List (BitVec 8)) : Sub (pre ++ l) pre.length l := by
  intro i hi
  rw [List.getElem?_append_right (by omega)]
  congr 1; omega

/-! ### Fetching on `opState` -/

theorem CodeAt.op {s : State} {h0 : Nat} {bytes : List (BitVec 8)} (h : CodeAt s h0 bytes) (p : Pfx)
    (j : Nat) : CodeAt (opState s p j) h0 bytes := h

theorem fetch8 {s : State} {h0 : Nat} {bytes : List (BitVec 8)} (h : CodeAt s h0 bytes) (env : Env)
    (p : Pfx) (j : Nat) {b : BitVec 8} (hb : bytes[j]? = some b) :
    readInstr 8 env (opState s p j) = .ok b (opState s p (j + 1)) :=
  readInstr8_code (h.op p j) env j rfl b hb

theorem fetch8S {s : State} {h0 : Nat} {bytes : List (BitVec 8)} (h : CodeAt s h0 bytes) (env : Env)
    (p : Pfx) (n j : Nat) {b : BitVec 8} (hb : bytes[j]? = some b) :
    readInstr8S n env (opState s p j) = .ok (b.signExtend n) (opState s p (j + 1)) :=
  readInstr8S_code (h.op p j) env n j rfl b hb

theorem fetch16 {s : State} {h0 : Nat} {bytes : List (BitVec 8)} (h : CodeAt s h0 bytes) (env : Env)
    (p : Pfx) (j : Nat) {b c : BitVec 8} (hb : bytes[j]? = some b) (hc : bytes[j + 1]? = some c) :
    readInstr 16 env (opState s p j) = .ok (le16 b c) (opState s p (j + 2)) :=
  readInstr16_code (h.op p j) env j rfl b c hb hc

theorem loadLE_list (host : Nat → BitVec 8) : ∀ (l : List (BitVec 8)) (h : Nat),
    (∀ i, (hi : i < l.length) → host (h + i) = l[i]) → loadLE host l.length h = leVal l := by
  intro l
  induction l with
  | nil => intros; rfl
  | cons b l ih =>
    intro h hb
    have h0 := hb 0 (by simp)
    simp only [List.length_cons, loadLE, leVal]
    rw [ih (h + 1) (fun i hi => by
      have := hb (i + 1) (by simp; omega)
      rw [show h + 1 + i = h + (i + 1) by omega, this]; simp)]
    simp at h0; rw [h0]

/-- Fetch of an `n`-bit immediate. -/
theorem fetchN {s : State} {h0 : Nat} {bytes : List (BitVec 8)} (h : CodeAt s h0 bytes) (env : Env)
    (p : Pfx) (n j : Nat) (hn : 0 < n / 8) {l : List (BitVec 8)} (hl : l.length = n / 8)
    (hb : Sub bytes j l) :
    readInstr n env (opState s p j) = .ok (BitVec.ofNat n (leVal l)) (opState s p (j + n / 8)) := by
  have hlen : j + n / 8 ≤ bytes.length := by
    have h1 := hb (n / 8 - 1) (by omega)
    rw [List.getElem?_eq_getElem (show n / 8 - 1 < l.length by omega)] at h1
    have := (List.getElem?_eq_some_iff.1 h1).1
    omega
  rw [readInstr_code (h.op p j) env n hn hlen]
  congr 1
  simp only [valAt]
  rw [← hl, loadLE_list]
  intro i hi
  have h1 := hb i hi
  rw [List.getElem?_eq_getElem hi] at h1
  obtain ⟨h2, h3⟩ := List.getElem?_eq_some_iff.1 h1
  have := (h (j + i) h2).2.2
  simp only [opState, decOf] at *
  rw [Nat.add_assoc, this, h3]

/-! ### ModR/M fields -/

theorem ofByte_mod (b : BitVec 8) : (ModRM.ofByte b).mod = BitVec.ofNat 2 (modOf b) := by
  apply BitVec.eq_of_toNat_eq
  simp [ModRM.ofByte, modOf, Nat.shiftRight_eq_div_pow]
theorem ofByte_rrr (b : BitVec 8) : (ModRM.ofByte b).rrr = regOf b := by
  apply BitVec.eq_of_toNat_eq
  simp [ModRM.ofByte, regOf, Nat.shiftRight_eq_div_pow]
theorem ofByte_mmm (b : BitVec 8) : (ModRM.ofByte b).mmm = rmOf b := by
  apply BitVec.eq_of_toNat_eq
  simp [ModRM.ofByte, rmOf]
theorem modOf_lt (b : BitVec 8) : modOf b < 4 := by
  have := b.isLt; simp only [modOf]; omega

theorem modOf_cases (b : BitVec 8) (h : modOf b ≠ 3) : modOf b = 0 ∨ modOf b = 1 ∨ modOf b = 2 := by
  have := modOf_lt b; omega

theorem addr_plain (regs : Nat) (d : BitVec 16) (hr : regs < 2 ^ 17)
    (h : 0 ≤ (regs : Int) + d.toInt ∧ (regs : Int) + d.toInt < 65536) :
    BitVec.ofNat 32 regs + d.signExtend 32 = (BitVec.ofNat 16 regs + d).setWidth 32 := by
  apply BitVec.eq_of_toInt_eq
  have e1 : (d.signExtend 32).toInt = d.toInt := BitVec.toInt_signExtend_of_le (by omega)
  have e2 : ((BitVec.ofNat 16 regs + d).toNat : Int) = (regs : Int) + d.toInt := by
    have : ((BitVec.ofNat 16 regs + d).toNat : Int) = ((regs : Int) + d.toInt) % 65536 := by
      rw [BitVec.toNat_add]
      have := BitVec.toInt_eq_toNat_cond d
      simp at this ⊢
      omega
    rw [this, Int.emod_eq_of_lt h.1 h.2]
  have e3 : ((BitVec.ofNat 16 regs + d).setWidth 32).toInt = (BitVec.ofNat 16 regs + d).toNat := by
    rw [BitVec.toInt_setWidth]
    have := (BitVec.ofNat 16 regs + d).isLt
    rw [Int.bmod_eq_of_le (by omega) (by omega)]
  have e4 : (BitVec.ofNat 32 regs).toInt = regs := by
    rw [BitVec.toInt_eq_toNat_cond, BitVec.toNat_ofNat, Nat.mod_eq_of_lt (by omega), if_pos (by omega)]
  rw [e3, e2, BitVec.toInt_add, e1, e4, Int.bmod_eq_of_le (by omega) (by omega)]

theorem reg_lt (s : State) (r : BitVec 3) : ((s.gpr r).setWidth 16).toNat < 65536 := BitVec.isLt _

theorem eaRegs_lt (s : State) (m : BitVec 8) : eaRegs s m < 2 ^ 17 := by
  have h3 := reg_lt s 3; have h5 := reg_lt s 5; have h6 := reg_lt s 6; have h7 := reg_lt s 7
  simp only [eaRegs]
  repeat' split
  all_goals omega

/-- Base of `DoFunc` as the sum of the table registers. -/
theorem base_eq (s : State) (m : BitVec 8) (h : ¬ (rmOf m = 6 ∧ modOf m = 0)) :
    (if rmOf m = 0 then (s.reg 16 rBX).setWidth 32 + (s.reg 16 rSI).setWidth 32
      else if rmOf m = 1 then (s.reg 16 rBX).setWidth 32 + (s.reg 16 rDI).setWidth 32
      else if rmOf m = 2 then (s.reg 16 rBP).setWidth 32 + (s.reg 16 rSI).setWidth 32
      else if rmOf m = 3 then (s.reg 16 rBP).setWidth 32 + (s.reg 16 rDI).setWidth 32
      else if rmOf m = 4 then (s.reg 16 rSI).setWidth 32
      else if rmOf m = 5 then (s.reg 16 rDI).setWidth 32
      else if rmOf m = 6 then (s.reg 16 rBP).setWidth 32
      else (s.reg 16 rBX).setWidth 32 : BitVec 32) = BitVec.ofNat 32 (eaRegs s m) := by
  have hw : ∀ r, (s.reg 16 r).setWidth 32 = BitVec.ofNat 32 ((s.gpr r).setWidth 16).toNat := by
    intro r
    apply BitVec.eq_of_toNat_eq
    simp [State.reg]
  simp only [hw, eaRegs, BitVec.ofNat_add_ofNat]
  by_cases h6 : rmOf m = 6
  · simp [h6, show modOf m ≠ 0 from fun h0 => h ⟨h6, h0⟩]
  · simp only [h6, if_false]
    repeat' split
    all_goals rfl

/-- Default segment of the code agrees with the table except for mod 0 with BP+SI, BP+DI. -/
theorem seg_eq (p : Pfx) (m : BitVec 8) (hq : modOf m = 0 → (rmOf m = 2 ∨ rmOf m = 3) → p.seg ≠ none) :
    p.seg.getD (defaultSeg (rmOf m) (decide (modOf m = 0))) = eaSeg p m := by
  simp only [eaSeg]
  cases hp : p.seg with
  | some r => rfl
  | none =>
    simp only [Option.getD_none]
    rw [hp] at hq
    by_cases h0 : modOf m = 0
    · have := hq h0
      have h2 : rmOf m ≠ 2 := fun h => this (Or.inl h) rfl
      have h3 : rmOf m ≠ 3 := fun h => this (Or.inr h) rfl
      have hu : usesBP m = false := by
        simp only [usesBP, h0, bne_self_eq_false, Bool.and_false, Bool.or_false, beq_eq_false_iff_ne.2 h2,
          beq_eq_false_iff_ne.2 h3]
      rw [hu, defaultSeg, if_neg (by simp [h0])]; rfl
    · have hu : usesBP m = (rmOf m == 2 || rmOf m == 3 || rmOf m == 6) := by
        simp only [usesBP, bne_iff_ne.2 h0, Bool.and_true]
      rw [hu, defaultSeg]; simp [h0]

/-- Base sum of `DoFunc`. -/
def funcBase (s : State) (mmm : BitVec 3) : BitVec 32 :=
  if mmm = 0 then (s.reg 16 rBX).setWidth 32 + (s.reg 16 rSI).setWidth 32
  else if mmm = 1 then (s.reg 16 rBX).setWidth 32 + (s.reg 16 rDI).setWidth 32
  else if mmm = 2 then (s.reg 16 rBP).setWidth 32 + (s.reg 16 rSI).setWidth 32
  else if mmm = 3 then (s.reg 16 rBP).setWidth 32 + (s.reg 16 rDI).setWidth 32
  else if mmm = 4 then (s.reg 16 rSI).setWidth 32
  else if mmm = 5 then (s.reg 16 rDI).setWidth 32
  else if mmm = 6 then (s.reg 16 rBP).setWidth 32
  else (s.reg 16 rBX).setWidth 32

theorem doFunc_reg (mmm : BitVec 3) (mod0 : Bool) (disp : BitVec 16) (env : Env) (t : State)
    (h : ¬ (mmm = 6 ∧ mod0 = true)) :
    doFunc mmm mod0 disp env t = .ok (t.sreg (t.dec.ovrSeg.getD (defaultSeg mmm mod0)),
      if mod0 then funcBase t mmm else funcBase t mmm + disp.signExtend 32) t := by
  simp only [doFunc, bind_apply, getSegment_apply, resbind_ok, gets_apply, ite_apply, id_eq, pure_apply]
  rw [if_neg h]
  rfl

theorem doFunc_direct (disp : BitVec 16) (env : Env) (t : State) :
    doFunc 6 true disp env t = (readInstr 16 env t).bind (fun d t' =>
      .ok (t.sreg (t.dec.ovrSeg.getD .ds), d.signExtend 32) t') := by
  simp only [doFunc, bind_apply, getSegment_apply, resbind_ok, gets_apply, ite_apply, id_eq, pure_apply]
  rw [if_pos (by simp)]
  rfl

/-- `RME_Int_GetMMM` on a plain memory operand. -/
theorem getMMM_plain {s : State} {h0 : Nat} {bytes : List (BitVec 8)} (h : CodeAt s h0 bytes) (env : Env)
    {p : Pfx} {j : Nat} {m : BitVec 8} {disp : List (BitVec 8)} (hmod : modOf m ≠ 3) (ha : p.addr = false)
    (hd : disp.length = dispLen m) (hs : Sub bytes j disp)
    (hr : 0 ≤ (eaRegs s m : Int) + (dispVal disp).toInt ∧ (eaRegs s m : Int) + (dispVal disp).toInt < 65536)
    (hq : modOf m = 0 → (rmOf m = 2 ∨ rmOf m = 3) → p.seg ≠ none) :
    getMMM (ModRM.ofByte m) env (opState s p j) =
      .ok (s.sreg (eaSeg p m), (eaOffset s m disp).setWidth 32) (opState s p (j + disp.length)) := by
  have hseg := seg_eq p m hq
  have hlt := eaRegs_lt s m
  simp only [getMMM, bind_apply, getDec_apply, resbind_ok, ite_apply]
  rw [if_neg (by rw [show (opState s p j).dec.ovrAddr = false from ha]; simp)]
  rw [ofByte_mod, ofByte_mmm]
  rcases modOf_cases m hmod with h1 | h1 | h1
  · rw [if_pos (by rw [h1]; rfl)]
    simp only [h1, dispLen, if_true] at hd
    simp only [h1, decide_true] at hseg
    by_cases h6 : rmOf m = 6
    · rw [if_pos h6] at hd
      match disp, hd, hs, hr with
      | [b, c], _, hs, hr =>
        rw [h6, doFunc_direct, fetch16 h env p j hs.head hs.tail.head, resbind_ok]
        rw [h6] at hseg
        have he : eaRegs s m = 0 := by simp [eaRegs, h6, h1]
        rw [he] at hr
        have := addr_plain 0 (le16 b c) (by decide) hr
        simp only [eaOffset, dispVal, he, ← this, ← hseg]
        simp [opState, decOf, defaultSeg]
    · rw [if_neg h6] at hd
      have : disp = [] := List.length_eq_zero_iff.1 hd
      subst this
      have hb : funcBase s (rmOf m) = _ := base_eq s m (fun h => h6 h.1)
      rw [doFunc_reg _ _ _ _ _ (fun h => h6 h.1)]
      have := addr_plain (eaRegs s m) 0 hlt hr
      simp only [eaOffset, dispVal, ← this, ← hseg, ← hb]
      simp [opState, decOf, funcBase, State.reg]
  · rw [if_neg (by rw [h1]; decide), if_pos (by rw [h1]; rfl)]
    simp only [h1, dispLen] at hd
    simp only [h1] at hseg
    match disp, hd, hs, hr with
    | [b], _, hs, hr =>
      rw [fetch8S h env p 16 j hs.head, resbind_ok, doFunc_reg _ _ _ _ _ (by simp)]
      have hb : funcBase s (rmOf m) = _ := base_eq s m (by simp [h1])
      have := addr_plain (eaRegs s m) (b.signExtend 16) hlt hr
      simp only [eaOffset, dispVal, ← this, ← hseg, ← hb]
      simp [opState, decOf, funcBase, State.reg]
  · rw [if_neg (by rw [h1]; decide), if_neg (by rw [h1]; decide), if_pos (by rw [h1]; rfl)]
    simp only [h1, dispLen] at hd
    simp only [h1] at hseg
    match disp, hd, hs, hr with
    | [b, c], _, hs, hr =>
      rw [fetch16 h env p j hs.head hs.tail.head, resbind_ok, doFunc_reg _ _ _ _ _ (by simp)]
      have hb : funcBase s (rmOf m) = _ := base_eq s m (by simp [h1])
      have := addr_plain (eaRegs s m) (le16 b c) hlt hr
      simp only [eaOffset, dispVal, ← this, ← hseg, ← hb]
      simp [opState, decOf, funcBase, State.reg]

/-! ### 32-bit addressing -/

theorem doFunc32_reg (mmm : BitVec 3) (mod0 : Bool) (disp : BitVec 32) (env : Env) (t : State) (h4 : mmm ≠ 4)
    (h : ¬ (mmm = 5 ∧ mod0 = true)) :
    doFunc32 mmm mod0 disp env t = .ok (t.sreg (t.dec.ovrSeg.getD (defaultSeg mmm mod0)),
      if mod0 then t.gpr mmm else t.gpr mmm + disp) t := by
  simp only [doFunc32, bind_apply, getSegment_apply, resbind_ok, gets_apply, ite_apply, id_eq, pure_apply]
  rw [if_neg h4, if_neg h]

theorem doFunc32_direct (disp : BitVec 32) (env : Env) (t : State) :
    doFunc32 5 true disp env t = (readInstr 32 env t).bind (fun d t' =>
      .ok (t.sreg (t.dec.ovrSeg.getD .ds), d) t') := by
  simp only [doFunc32, bind_apply, getSegment_apply, resbind_ok, gets_apply, ite_apply, id_eq, pure_apply]
  rw [if_neg (by decide), if_pos (by simp)]
  rfl

theorem doFunc32_sib (disp : BitVec 32) (env : Env) (t : State) :
    doFunc32 4 true disp env t = (readInstr 8 env t).bind (fun sib t' =>
      if (sib.setWidth 3 : BitVec 3) = 5 then (readInstr 32 env t').bind (fun _ t'' =>
        .ok (t.sreg (t.dec.ovrSeg.getD .ds), sibIndex t sib) t'')
      else .ok (t.sreg (t.dec.ovrSeg.getD .ds), sibIndex t sib + t.gpr (sib.setWidth 3)) t') := by
  simp only [doFunc32, bind_apply, getSegment_apply, resbind_ok, gets_apply, ite_apply, id_eq, pure_apply, if_true, and_true]
  rfl

theorem mod_eq_ofByte (m : BitVec 8) (k : Nat) (hk : k < 4) : ((ModRM.ofByte m).mod = BitVec.ofNat 2 k) ↔ modOf m = k := by
  rw [ofByte_mod]
  have := modOf_lt m
  constructor
  · intro he
    have := congrArg BitVec.toNat he
    simp at this; omega
  · intro he; rw [he]

theorem sibIndex_eq (s : State) (m b : BitVec 8) (tl : List (BitVec 8)) (h : hasSib m = true) :
    sibIndex s b = index32 s m (b :: tl) := by
  have h1 : ((b >>> 3).setWidth 3 : BitVec 3) = regOf b := ofByte_rrr b
  have h2 : (b >>> 6).toNat = modOf b := by simp [modOf, Nat.shiftRight_eq_div_pow]
  simp only [sibIndex, index32, h1, h2, h, List.headD_cons, true_and]
  by_cases h4 : regOf b = 4
  · rw [if_pos h4, if_neg (fun h => h h4)]; simp
  · rw [if_neg h4, if_pos h4]

theorem len4 {l : List (BitVec 8)} (h : l.length = 4) : ∃ a b c d, l = [a, b, c, d] := by
  match l, h with
  | [a, b, c, d], _ => exact ⟨a, b, c, d, rfl⟩

theorem sext_small : ∀ b : BitVec 8, (b.signExtend 32).toNat < 65536 →
    ((b.signExtend 16).setWidth 32 : BitVec 32) = b.signExtend 32 := by decide +kernel

/-- `RME_Int_GetMMM` on a plain memory operand with 32-bit addressing. -/
theorem getMMM_plain32 {s : State} {h0 : Nat} {bytes : List (BitVec 8)} (h : CodeAt s h0 bytes) (env : Env)
    {p : Pfx} {j : Nat} {m : BitVec 8} {tl : List (BitVec 8)} (hmod : modOf m ≠ 3) (ha : p.addr = true)
    (hd : tl.length = (if hasSib m then 1 else 0) + dispLen32 m tl) (hs : Sub bytes j tl)
    (hsib : hasSib m = true → modOf m = 0 ∧ dispVal32 (dispBytes32 m tl) = 0)
    (hdisp : modOf m ≠ 0 → (dispVal32 (dispBytes32 m tl)).toNat < 65536)
    (hq : p.seg = none → base32 m tl ≠ some 4 ∧ base32 m tl ≠ some 5 ∧ (modOf m ≠ 0 → rmOf m ≠ 2 ∧ rmOf m ≠ 3 ∧ rmOf m ≠ 6)) :
    getMMM (ModRM.ofByte m) env (opState s p j) =
      .ok (s.sreg (eaSeg32 p m tl), eaOffset32 s m tl) (opState s p (j + tl.length)) := by
  have hseg : ∀ mod0 : Bool, mod0 = decide (modOf m = 0) →
      (opState s p j).sreg ((opState s p j).dec.ovrSeg.getD (defaultSeg (rmOf m) mod0)) = s.sreg (eaSeg32 p m tl) := by
    intro mod0 h0
    show s.sreg (p.seg.getD _) = _
    simp only [eaSeg32]
    cases hp : p.seg with
    | some r => rfl
    | none =>
      obtain ⟨q1, q2, q3⟩ := hq hp
      simp only [Option.getD_none, q1, q2, or_self, if_false]
      by_cases hm0 : modOf m = 0
      · simp [defaultSeg, h0, hm0]
      · obtain ⟨r1, r2, r3⟩ := q3 hm0
        rw [defaultSeg, if_neg]
        rw [beq_eq_false_iff_ne.2 r1, beq_eq_false_iff_ne.2 r2, beq_eq_false_iff_ne.2 r3]; simp
  simp only [getMMM, bind_apply, getDec_apply, resbind_ok, ite_apply]
  rw [if_pos (by rw [show (opState s p j).dec.ovrAddr = p.addr from rfl]; exact ha)]
  have e0 := mod_eq_ofByte m 0 (by omega)
  have e1 := mod_eq_ofByte m 1 (by omega)
  have e2 := mod_eq_ofByte m 2 (by omega)
  simp only [BitVec.ofNat_eq_ofNat] at e0 e1 e2 ⊢
  simp only [e0, e1, e2, ofByte_mmm]
  rcases modOf_cases m hmod with hm | hm | hm
  · rw [if_pos hm]
    by_cases h4 : rmOf m = 4
    · have hb : hasSib m = true := by simp [hasSib, h4]
      have hz := (hsib hb).2
      rw [hb] at hd
      simp only [if_true] at hd
      cases tl with
      | nil => simp at hd; omega
      | cons sib rest =>
        have hsg := hseg true (by simp [hm])
        rw [h4] at hsg ⊢
        rw [doFunc32_sib, fetch8 h env p j hs.head, resbind_ok]
        have hbs : ((sib.setWidth 3 : BitVec 3)) = rmOf sib := ofByte_mmm sib
        rw [hbs]
        replace hsg : (opState s p j).sreg ((opState s p j).dec.ovrSeg.getD .ds) = s.sreg (eaSeg32 p m (sib :: rest)) := hsg
        have hidx : sibIndex (opState s p j) sib = index32 s m (sib :: rest) := sibIndex_eq s m sib rest hb
        by_cases h5 : rmOf sib = 5
        · have hbase : base32 m (sib :: rest) = none := by simp [base32, hb, hm, h5]
          simp only [dispLen32, hbase, or_true, if_true, hm] at hd
          have hr4 : rest.length = 32 / 8 := by simp at hd; omega
          rw [if_pos h5, fetchN h env p 32 (j + 1) (by decide) hr4 hs.tail, resbind_ok, hidx, eaOffset32, hz, hbase]
          simp only [Option.map_none, Option.getD_none, List.length_cons, hr4]
          rw [show s.sreg (eaSeg32 p m (sib :: rest)) = _ from hsg.symm]
          refine congr (congrArg Res.ok (congr (congrArg Prod.mk rfl) ?_)) ?_
          · bv_omega
          · rw [show j + 1 + 32 / 8 = j + (32 / 8 + 1) by omega]
        · have hbase : base32 m (sib :: rest) = some (rmOf sib) := by
            simp only [base32, hb, if_true, List.headD_cons]
            rw [if_neg (fun h => h5 h.2)]
          have : dispLen32 m (sib :: rest) = 0 := by simp [dispLen32, hbase, hm]
          rw [this] at hd
          have hr0 : rest = [] := List.length_eq_zero_iff.1 (by simpa using hd)
          subst hr0
          rw [if_neg h5, hidx, eaOffset32, hz, hbase, ← hsg]
          refine congr (congrArg Res.ok (congr (congrArg Prod.mk rfl) ?_)) rfl
          simp only [Option.map_some, Option.getD_some]
          show index32 s m [sib] + s.gpr (rmOf sib) = _
          bv_omega
    · have hb : hasSib m = false := beq_eq_false_iff_ne.2 h4
      have hbv : base32 m tl = if rmOf m = 5 then none else some (rmOf m) := by simp [base32, hb, hm]
      rw [hb] at hd
      simp only [Bool.false_eq_true, if_false, Nat.zero_add] at hd
      have hidx : index32 s m tl = 0 := by simp [index32, hb]
      have hsg := hseg true (by simp [hm])
      by_cases h5 : rmOf m = 5
      · rw [if_pos h5] at hbv
        simp only [dispLen32, hbv, or_true, if_true, hm] at hd
        have hr4 : tl.length = 32 / 8 := by simp at hd; omega
        rw [h5] at hsg ⊢
        replace hsg : (opState s p j).sreg ((opState s p j).dec.ovrSeg.getD .ds) = s.sreg (eaSeg32 p m tl) := hsg
        rw [doFunc32_direct, fetchN h env p 32 j (by decide) hr4 hs, resbind_ok, eaOffset32, hbv, hidx, hr4, ← hsg]
        obtain ⟨b0, b1, b2, b3, rfl⟩ := len4 hr4
        simp [dispBytes32, hb, dispVal32]
      · rw [if_neg h5] at hbv
        have : dispLen32 m tl = 0 := by simp [dispLen32, hbv, hm]
        rw [this] at hd
        have hr0 : tl = [] := List.length_eq_zero_iff.1 hd
        subst hr0
        rw [doFunc32_reg _ _ _ _ _ h4 (fun h => h5 h.1), hsg, eaOffset32, hbv, hidx]
        simp [dispBytes32, hb, dispVal32, opState]
  · have hb : hasSib m = false := by
      cases hx : hasSib m with
      | false => rfl
      | true => have := (hsib hx).1; omega
    have h4 : rmOf m ≠ 4 := beq_eq_false_iff_ne.1 hb
    have hbv : base32 m tl = some (rmOf m) := by simp [base32, hb, hm]
    have hidx : index32 s m tl = 0 := by simp [index32, hb]
    rw [hb] at hd
    simp only [Bool.false_eq_true, if_false, Nat.zero_add, dispLen32, hm, if_true] at hd
    have hsg := hseg false (by simp [hm])
    match tl, hd, hs, hdisp, hbv, hidx, hsg with
    | [b], _, hs, hdisp, hbv, hidx, hsg =>
      rw [if_neg (by omega), if_pos hm, fetch8S h env p 16 j hs.head, resbind_ok, doFunc32_reg _ _ _ _ _ h4 (by simp)]
      rw [eaOffset32, hbv, hidx]
      have hlt := hdisp (by omega)
      simp only [dispBytes32, hb, Bool.false_eq_true, if_false, dispVal32] at hlt ⊢
      have hx : ((b.signExtend 16).setWidth 32 : BitVec 32) = b.signExtend 32 := sext_small b hlt
      refine congr (congrArg Res.ok (congr (congrArg Prod.mk hsg) ?_)) rfl
      rw [hx]
      simp only [Bool.false_eq_true, if_false, Option.map_some, Option.getD_some]
      rw [show (opState s p (j + 1)).gpr = s.gpr from rfl]
      simp
  · have hb : hasSib m = false := by
      cases hx : hasSib m with
      | false => rfl
      | true => have := (hsib hx).1; omega
    have h4 : rmOf m ≠ 4 := beq_eq_false_iff_ne.1 hb
    have hbv : base32 m tl = some (rmOf m) := by simp [base32, hb, hm]
    have hidx : index32 s m tl = 0 := by simp [index32, hb]
    rw [hb] at hd
    simp only [Bool.false_eq_true, if_false, Nat.zero_add, dispLen32, hm, true_or, if_true] at hd
    have hsg := hseg false (by simp [hm])
    have hr4 : tl.length = 32 / 8 := by simp at hd; omega
    rw [if_neg (by omega), if_neg (by omega), if_pos hm, fetchN h env p 32 j (by decide) hr4 hs, resbind_ok,
      doFunc32_reg _ _ _ _ _ h4 (by simp)]
    rw [eaOffset32, hbv, hidx, hr4]
    have hlt := hdisp (by omega)
    have hv : dispVal32 (dispBytes32 m tl) = BitVec.ofNat 32 (leVal tl) := by
      obtain ⟨b0, b1, b2, b3, rfl⟩ := len4 hr4
      simp [dispBytes32, hb, dispVal32]
    rw [hv] at hlt ⊢
    refine congr (congrArg Res.ok (congr (congrArg Prod.mk hsg) ?_)) rfl
    have hx : (((BitVec.ofNat 32 (leVal tl)).setWidth 16).setWidth 32 : BitVec 32) = BitVec.ofNat 32 (leVal tl) := by
      apply BitVec.eq_of_toNat_eq
      simp only [BitVec.toNat_setWidth]
      omega
    rw [hx]
    simp only [Bool.false_eq_true, if_false, Option.map_some, Option.getD_some]
    rw [show (opState s p (j + 32 / 8)).gpr = s.gpr from rfl]
    simp

/-- `RME_Int_GetMMM` on any plain memory operand. -/
theorem getMMM_rm {s : State} {h0 : Nat} {bytes : List (BitVec 8)} (h : CodeAt s h0 bytes) (env : Env)
    {p : Pfx} {n k j : Nat} {rm : List (BitVec 8)} {r : BitVec 3} {seg ofs : BitVec 16} (hrm : RM s p n rm r (.mem seg ofs))
    (hpl : Plain s p k rm) (hs : Sub bytes j rm) :
    ∃ m, bytes[j]? = some m ∧ r = regOf m ∧ (ModRM.ofByte m).mod ≠ 3 ∧
      getMMM (ModRM.ofByte m) env (opState s p (j + 1)) = .ok (seg, ofs.setWidth 32) (opState s p (j + rm.length)) ∧
      (k ≠ 8 → linear seg ofs % 4096 ≠ 4095) := by
  generalize ho : Opnd.mem seg ofs = o at hrm
  have hne : ∀ m : BitVec 8, modOf m ≠ 3 → (ModRM.ofByte m).mod ≠ 3 := by
    intro m hm he
    exact hm ((mod_eq_ofByte m 3 (by omega)).1 he)
  cases hrm with
  | reg m hm =>
    simp only [regOp, byteReg] at ho
    repeat' split at ho
    all_goals cases ho
  | mem m disp hm ha hd =>
    cases ho
    have := hpl hm
    rw [ha] at this
    obtain ⟨hr, hq, hb⟩ := this
    refine ⟨m, hs.head, rfl, hne m hm, ?_, hb⟩
    rw [getMMM_plain h env hm ha hd hs.tail hr hq]
    simp only [List.length_cons]
    rw [show j + (disp.length + 1) = j + 1 + disp.length by omega]
  | mem32 m tl hm ha hd hlim =>
    cases ho
    have := hpl hm
    rw [ha] at this
    obtain ⟨⟨h1, h2⟩, hq, hb⟩ := this
    refine ⟨m, hs.head, rfl, hne m hm, ?_, hb⟩
    rw [getMMM_plain32 h env hm ha hd hs.tail h1 h2 hq]
    simp only [List.length_cons]
    rw [show j + (tl.length + 1) = j + 1 + tl.length by omega]
    have : ((eaOffset32 s m tl).setWidth 16).setWidth 32 = eaOffset32 s m tl := by
      apply BitVec.eq_of_toNat_eq
      simp only [BitVec.toNat_setWidth]
      omega
    rw [this]

/-- A ModR/M operand is a register or memory. -/
theorem RM.elim {s : State} {p : Pfx} {n : Nat} {rm : List (BitVec 8)} {r : BitVec 3} {o : Opnd} (h : RM s p n rm r o) :
    (∃ m, modOf m = 3 ∧ rm = [m] ∧ r = regOf m ∧ o = regOp n (rmOf m)) ∨ ∃ seg ofs, o = .mem seg ofs := by
  cases h with
  | reg m hm => exact Or.inl ⟨m, hm, rfl, rfl, rfl⟩
  | mem => exact Or.inr ⟨_, _, rfl⟩
  | mem32 => exact Or.inr ⟨_, _, rfl⟩

/-! ### Operands as locations -/

/-- The pointer the decoder produces for an operand. -/
def locOf (s : State) : Opnd → Loc
  | .reg r => .reg r
  | .high r => .regH r
  | .mem seg ofs => .mem ((hostAddr s seg ofs).getD 0)
  | .imm _ => .mem 0

theorem regB_eq (s : State) (i : BitVec 3) : regB i = locOf s (byteReg i) := by
  simp only [regB, byteReg]
  by_cases h : i.toNat < 4
  · rw [if_neg (by omega), if_pos h]; rfl
  · rw [if_pos (by omega), if_neg h]; rfl

theorem regOp_8 (i : BitVec 3) : regOp 8 i = byteReg i := rfl
theorem regOp_wide {n : Nat} (hn : n ≠ 8) (i : BitVec 3) : regOp n i = .reg i := by simp [regOp, hn]

/-- Byte operands: `RME_Int_ParseModRM`. -/
theorem parseModRM_rm {s : State} {h0 : Nat} {bytes : List (BitVec 8)} (h : CodeAt s h0 bytes) (env : Env)
    {p : Pfx} {j : Nat} {rm : List (BitVec 8)} {r : BitVec 3} {o : Opnd} (hrm : RM s p 8 rm r o)
    (hpl : Plain s p 8 rm) (hok : o.Ok s 8) (hs : Sub bytes j rm) :
    parseModRM env (opState s p j) = .ok (locOf s (regOp 8 r), locOf s o) (opState s p (j + rm.length)) := by
  rcases hrm.elim with ⟨m, hm, rfl, rfl, rfl⟩ | ⟨seg, ofs, rfl⟩
  · simp only [parseModRM, getModRM, bind_apply, fetch8 h env p j hs.head, resbind_ok, pure_apply,
      decodeModM, ite_apply]
    rw [if_pos (by rw [ofByte_mod, hm]; rfl), resbind_ok, ofByte_rrr, ofByte_mmm, regB_eq s, regB_eq s]
    rfl
  · obtain ⟨m, hb, rfl, hne, hg, _⟩ := getMMM_rm h env hrm hpl hs
    obtain ⟨a, ha1, ha2⟩ := hok
    simp only [parseModRM, getModRM, bind_apply, fetch8 h env p j hb, resbind_ok, pure_apply,
      decodeModM, ite_apply]
    rw [if_neg hne, hg, resbind_ok]
    simp only []
    rw [getPtr_some (s := opState s p _) env ha1, resbind_ok, resbind_ok, ofByte_rrr, regB_eq s]
    simp only [locOf, ha1, Option.getD_some]
    rfl

/-- Word and double word operands: `RME_Int_ParseModRMX`. -/
theorem parseModRMX_rm {s : State} {h0 : Nat} {bytes : List (BitVec 8)} (h : CodeAt s h0 bytes) (env : Env)
    {p : Pfx} {n j : Nat} {rm : List (BitVec 8)} {r : BitVec 3} {o : Opnd} (hn : n ≠ 8) (hrm : RM s p n rm r o)
    (hpl : Plain s p n rm) (hok : o.Ok s n) (hs : Sub bytes j rm) :
    parseModRMX env (opState s p j) = .ok (.reg r, locOf s o) (opState s p (j + rm.length)) := by
  rcases hrm.elim with ⟨m, hm, rfl, rfl, rfl⟩ | ⟨seg, ofs, rfl⟩
  · simp only [parseModRMX, getModRM, bind_apply, fetch8 h env p j hs.head, resbind_ok, pure_apply,
      decodeModMX, ite_apply]
    rw [if_pos (by rw [ofByte_mod, hm]; rfl), resbind_ok, ofByte_rrr, ofByte_mmm, regOp_wide hn]
    rfl
  · obtain ⟨m, hb, rfl, hne, hg, hlast⟩ := getMMM_rm h env hrm hpl hs
    obtain ⟨a, ha1, ha2⟩ := hok
    simp only [parseModRMX, getModRM, bind_apply, fetch8 h env p j hb, resbind_ok, pure_apply,
      decodeModMX, ite_apply]
    rw [if_neg hne, hg, resbind_ok]
    simp only []
    rw [addr32_toNat]
    simp only [blockSize]
    rw [beq_eq_false_iff_ne.2 (hlast hn), guardE_false, resbind_ok]
    rw [getPtr_some (s := opState s p _) env ha1, resbind_ok, resbind_ok, ofByte_rrr]
    simp only [locOf, ha1, Option.getD_some]
    rfl

/-! ### Reading and writing operands -/

/-- Same registers, memory and memory map. -/
structure Agree (s t : State) : Prop where
  gpr : t.gpr = s.gpr
  host : t.host = s.host
  map : t.map = s.map
  valid : t.valid = s.valid

theorem Agree.refl (s : State) : Agree s s := ⟨rfl, rfl, rfl, rfl⟩
theorem Agree.op (s : State) (p : Pfx) (j : Nat) : Agree s (opState s p j) := ⟨rfl, rfl, rfl, rfl⟩

theorem readLoc_has {s t : State} (hag : Agree s t) (env : Env) {n : Nat} (hn : n = 8 ∨ n = 16 ∨ n = 32)
    {o : Opnd} {x : BitVec n} (ho : o.Ok s n) (hx : o.Has s n x) :
    readLoc n (locOf s o) env t = .ok x t := by
  cases o with
  | reg r =>
    simp only [Opnd.Has] at hx
    simp only [locOf, readLoc, getReg_apply, State.reg, hag.gpr, hx]
  | high r =>
    obtain ⟨h8, hx⟩ := hx
    subst h8
    simp only [locOf, readLoc, gets_apply, regH_eq, hag.gpr, hx]
  | mem seg ofs =>
    obtain ⟨a, ⟨ha, hv⟩, hh⟩ := hx
    simp only [locOf, ha, Option.getD_some, readLoc]
    exact loadM_holds (by omega) env (fun i hi => by rw [hag.valid]; exact hv i hi)
      (fun i hi => by rw [hag.host]; exact hh i hi)
  | imm v => cases ho

theorem Opnd.Has.ok {s : State} {n : Nat} {o : Opnd} {x : BitVec n} (h : o.Has s n x)
    (hi : ∀ v, o ≠ .imm v) : o.Ok s n := by
  cases o with
  | reg r => trivial
  | high r => exact h.1
  | mem seg ofs => exact ⟨h.choose, h.choose_spec.1⟩
  | imm v => exact absurd rfl (hi v)

theorem writeLoc_put {s t : State} (hm : t.map = s.map) (hv : t.valid = s.valid) (env : Env) {n : Nat}
    {o : Opnd} (ho : o.Ok s n) (x : BitVec n) :
    writeLoc n (locOf s o) x env t = .ok () (o.put t n x) := by
  cases o with
  | reg r => rfl
  | high r =>
    simp only [Opnd.Ok] at ho
    subst ho
    simp only [locOf, writeLoc, modify_apply, Opnd.put]
    congr 1
    apply State.ext' <;> try rfl
    funext y
    rw [gpr_setRegH8, setGpr_gpr]
  | mem seg ofs =>
    obtain ⟨a, ha, hval⟩ := ho
    have ha' : hostAddr t seg ofs = some a := by simpa [hostAddr, hm] using ha
    simp only [locOf, ha, Option.getD_some, writeLoc, Opnd.put, ha']
    exact storeM_mapped env (fun i hi => by rw [hv]; exact hval i hi) x
  | imm v => cases ho

/-! ### `put` and the other components -/

section put
variable (s : State) (n : Nat) (o : Opnd) (x : BitVec n)
theorem put_sreg : (o.put s n x).sreg = s.sreg := by
  cases o <;> simp only [Opnd.put] <;> first | rfl | (split <;> rfl)
theorem put_ip : (o.put s n x).ip = s.ip := by
  cases o <;> simp only [Opnd.put] <;> first | rfl | (split <;> rfl)
theorem put_flags : (o.put s n x).flags = s.flags := by
  cases o <;> simp only [Opnd.put] <;> first | rfl | (split <;> rfl)
theorem put_map : (o.put s n x).map = s.map := by
  cases o <;> simp only [Opnd.put] <;> first | rfl | (split <;> rfl)
theorem put_valid : (o.put s n x).valid = s.valid := by
  cases o <;> simp only [Opnd.put] <;> first | rfl | (split <;> rfl)
theorem put_instrNum : (o.put s n x).instrNum = s.instrNum := by
  cases o <;> simp only [Opnd.put] <;> first | rfl | (split <;> rfl)
theorem put_dec : (o.put s n x).dec = s.dec := by
  cases o <;> simp only [Opnd.put] <;> first | rfl | (split <;> rfl)
theorem put_lastNull : (o.put s n x).lastNull = s.lastNull := by
  cases o <;> simp only [Opnd.put] <;> first | rfl | (split <;> rfl)

/-- `put` commutes with changes of the other fields. -/
theorem put_with (f : BitVec 16) (ip : BitVec 16) (i : Int) (d : Decoder) (l : Bool) :
    o.put { s with flags := f, ip := ip, instrNum := i, dec := d, lastNull := l } n x =
      { o.put s n x with flags := f, ip := ip, instrNum := i, dec := d, lastNull := l } := by
  cases o with
  | mem seg ofs =>
    simp only [Opnd.put]
    have : hostAddr { s with flags := f, ip := ip, instrNum := i, dec := d, lastNull := l } seg ofs =
      hostAddr s seg ofs := rfl
    rw [this]
    split <;> rfl
  | _ => rfl
end put

theorem put_reg (s : State) (n : Nat) (r : BitVec 3) (x : BitVec n) :
    (Opnd.reg r).put s n x = s.setReg n r x := rfl

/-- Registers other than memory operands leave memory alone. -/
theorem put_host_reg (s : State) (n : Nat) (r : BitVec 3) (x : BitVec n) :
    ((regOp n r).put s n x).host = s.host := by
  simp only [regOp, byteReg]
  repeat' split
  all_goals rfl

theorem regOp_ok (s : State) {n : Nat} (r : BitVec 3) : (regOp n r).Ok s n := by
  simp only [regOp, byteReg]
  split
  · split
    · trivial
    · simpa [Opnd.Ok]
  · trivial

/-! ### Steps -/

theorem notZeroed_of_len {t : State} {h0 len : Nat} (h : len ≠ 2) : NotZeroed t h0 len :=
  fun h2 => absurd h2 h

/-- Executing an instruction that falls through. -/
theorem step_fall {s : State} {h0 : Nat} {p : Pfx} {op : BitVec 8} {rest : List (BitVec 8)} {len : Nat}
    (hat : At s h0 p (op :: rest) len) (env : Env) (hop : op ≠ 0xF1) {e : Entry} (he : opEntry op = some e)
    {a : BitVec 3} (ha : paramOf e rest[0]? = some a) (s1 : State)
    (hrun : ∀ bytes j, CodeAt s h0 bytes → j + rest.length = len → Sub bytes j rest →
      callFn e.fn a env (opState s p j) = .ok () s1)
    (hm : s1.map = s.map) (hv : s1.valid = s.valid) (hl : s1.dec.ipOffset = len)
    (hd : s1.dec.dontChangeIP = false) (hn : NotZeroed s1 h0 len) :
    StepsTo env s { s1 with ip := s1.ip + BitVec.ofNat 16 len } := by
  obtain ⟨hready, pfx, hp, hc, hlen⟩ := hat
  simp only [List.length_cons] at hlen
  have hsub : Sub (pfx ++ op :: rest) (pfx.length + 1) rest := (Sub.of_append pfx (op :: rest)).tail
  have hnull : isNull s1 h0 = false := by
    simp only [isNull, hl]
    by_cases h2 : len = 2
    · have := hn h2
      rw [Bool.and_assoc, Bool.and_eq_false_imp]
      intro _
      rw [Bool.and_eq_false_imp]
      intro h
      exact beq_false_of_ne (fun h' => this ⟨eq_of_beq h, h'⟩)
    · simp [h2]
  have := runOne_code_ok hready hc env hp hop he ha s1 (hrun _ _ hc (by omega) hsub) hm hv
    (by omega) (by rw [hnull]; rfl)
  rw [hnull] at this
  refine ⟨s1.dec, ?_⟩
  rw [this]
  simp only [tailState, hd, hl]
  rfl

/-- Executing an instruction that sets IP itself. -/
theorem step_jump {s : State} {h0 : Nat} {p : Pfx} {op : BitVec 8} {rest : List (BitVec 8)} {len : Nat}
    (hat : At s h0 p (op :: rest) len) (env : Env) (hop : op ≠ 0xF1) {e : Entry} (he : opEntry op = some e)
    {a : BitVec 3} (ha : paramOf e rest[0]? = some a) (s1 : State)
    (hrun : ∀ bytes j, CodeAt s h0 bytes → j + rest.length = len → Sub bytes j rest →
      callFn e.fn a env (opState s p j) = .ok () s1)
    (hm : s1.map = s.map) (hv : s1.valid = s.valid) (hl : s1.dec.ipOffset = len)
    (hd : s1.dec.dontChangeIP = true) (hn : NotZeroed s1 h0 len) :
    StepsTo env s s1 := by
  obtain ⟨hready, pfx, hp, hc, hlen⟩ := hat
  simp only [List.length_cons] at hlen
  have hsub : Sub (pfx ++ op :: rest) (pfx.length + 1) rest := (Sub.of_append pfx (op :: rest)).tail
  have hnull : isNull s1 h0 = false := by
    simp only [isNull, hl]
    by_cases h2 : len = 2
    · have := hn h2
      rw [Bool.and_assoc, Bool.and_eq_false_imp]
      intro _
      rw [Bool.and_eq_false_imp]
      intro h
      exact beq_false_of_ne (fun h' => this ⟨eq_of_beq h, h'⟩)
    · simp [h2]
  have := runOne_code_ok hready hc env hp hop he ha s1 (hrun _ _ hc (by omega) hsub) hm hv
    (by omega) (by rw [hnull]; rfl)
  rw [hnull] at this
  refine ⟨s1.dec, ?_⟩
  rw [this]
  simp only [tailState, hd]
  rfl

/-- An instruction whose memory is unchanged and whose opcode is not 00 is not the `00 00` pattern. -/
theorem notZeroed_same {s t : State} {h0 : Nat} {p : Pfx} {op : BitVec 8} {rest : List (BitVec 8)} {len : Nat}
    (hat : At s h0 p (op :: rest) len) (hop : op ≠ 0) (ht : t.host = s.host) : NotZeroed t h0 len := by
  intro h2
  obtain ⟨_, pfx, hp, hc, hlen⟩ := hat
  rw [ht]
  intro ⟨ha, hb⟩
  match pfx, hp, hc, hlen with
  | [], _, hc, _ =>
    have := (hc 0 (by simp)).2.2
    simp at this
    rw [ha] at this
    exact hop this.symm
  | [x], hp, hc, hlen =>
    have := (hc 1 (by simp)).2.2
    simp at this
    rw [hb] at this
    exact hop this.symm
  | x :: y :: l, _, _, hlen => simp at hlen; omega

end RME
