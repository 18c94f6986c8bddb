import Verif.Lemmas.AluStep2
import Verif.Spec.EA
set_option autoImplicit false
/-
`RME_Int_GetMMM` with 16-bit addressing, every case.
-/
namespace RME

theorem usedSeg_eq (p : Pfx) (m : BitVec 8) :
    p.seg.getD (defaultSeg (rmOf m) (decide (modOf m = 0))) = usedSeg p m := by
  simp only [usedSeg, defaultSeg, usesBP]
  by_cases h0 : modOf m = 0
  · simp [h0]
  · simp [h0, bne_iff_ne]

theorem Mem16.mod3 {p : Pfx} {m : BitVec 8} {disp : List (BitVec 8)} (h : Mem16 p m disp) : ¬ (ModRM.ofByte m).mod = 3 :=
  fun e => h.mem ((mod_eq_ofByte m 3 (by omega)).1 e)

theorem getMMM_any {s : State} {h0 : Nat} {bytes : List (BitVec 8)} (h : CodeAt s h0 bytes) (env : Env)
    {p : Pfx} {j : Nat} {m : BitVec 8} {disp : List (BitVec 8)} (hm : Mem16 p m disp) (hs : Sub bytes j disp) :
    getMMM (ModRM.ofByte m) env (opState s p j) =
      .ok (s.sreg (usedSeg p m), BitVec.ofNat 32 (eaRegs s m) + (dispVal disp).signExtend 32)
        (opState s p (j + disp.length)) := by
  obtain ⟨hmod, ha, hd⟩ := hm
  have hseg := usedSeg_eq p m
  simp only [getMMM, bind_apply, getDec_apply, resbind_ok, ite_apply]
  rw [if_neg (by rw [show (opState s p j).dec.ovrAddr = false from ha]; simp)]
  rw [ofByte_mod, ofByte_mmm]
  rcases modOf_cases m hmod with h1 | h1 | h1
  · rw [if_pos (by rw [h1]; rfl)]
    simp only [h1, dispLen, if_true] at hd
    simp only [h1, decide_true] at hseg
    by_cases h6 : rmOf m = 6
    · rw [if_pos h6] at hd
      match disp, hd, hs with
      | [b, c], _, hs =>
        rw [h6, doFunc_direct, fetch16 h env p j hs.head hs.tail.head, resbind_ok]
        rw [h6] at hseg
        have he : eaRegs s m = 0 := by simp [eaRegs, h6, h1]
        simp only [dispVal, he, ← hseg]
        simp [opState, decOf, defaultSeg]
    · rw [if_neg h6] at hd
      have : disp = [] := List.length_eq_zero_iff.1 hd
      subst this
      have hb : funcBase s (rmOf m) = _ := base_eq s m (fun h => h6 h.1)
      rw [doFunc_reg _ _ _ _ _ (fun h => h6 h.1)]
      simp only [dispVal, ← hseg, ← hb]
      simp [opState, decOf, funcBase, State.reg]
  · rw [if_neg (by rw [h1]; decide), if_pos (by rw [h1]; rfl)]
    simp only [h1, dispLen] at hd
    simp only [h1] at hseg
    match disp, hd, hs with
    | [b], _, hs =>
      rw [fetch8S h env p 16 j hs.head, resbind_ok, doFunc_reg _ _ _ _ _ (by simp)]
      have hb : funcBase s (rmOf m) = _ := base_eq s m (by simp [h1])
      simp only [dispVal, ← hseg, ← hb]
      simp [opState, decOf, funcBase, State.reg]
  · rw [if_neg (by rw [h1]; decide), if_neg (by rw [h1]; decide), if_pos (by rw [h1]; rfl)]
    simp only [h1, dispLen] at hd
    simp only [h1] at hseg
    match disp, hd, hs with
    | [b, c], _, hs =>
      rw [fetch16 h env p j hs.head hs.tail.head, resbind_ok, doFunc_reg _ _ _ _ _ (by simp)]
      have hb : funcBase s (rmOf m) = _ := base_eq s m (by simp [h1])
      simp only [dispVal, ← hseg, ← hb]
      simp [opState, decOf, funcBase, State.reg]

theorem usedLinear_eq (s : State) (p : Pfx) (m : BitVec 8) (disp : List (BitVec 8)) :
    ((s.sreg (usedSeg p m)).setWidth 32 * 16 + (BitVec.ofNat 32 (eaRegs s m) + (dispVal disp).signExtend 32)).toNat =
      usedLinear s p m disp := by
  have h1 := eaRegs_lt s m
  have h2 := (s.sreg (usedSeg p m)).isLt
  have h3 : ((dispVal disp).signExtend 32).toInt = (dispVal disp).toInt := BitVec.toInt_signExtend_of_le (by omega)
  have h4 := BitVec.toInt_eq_toNat_cond ((dispVal disp).signExtend 32)
  have h5 := ((dispVal disp).signExtend 32).isLt
  simp only [usedLinear, BitVec.toNat_add, BitVec.toNat_mul, BitVec.toNat_setWidth, BitVec.toNat_ofNat,
    show ((16 : BitVec 32)).toNat = 16 from rfl]
  rw [h3] at h4
  generalize (dispVal disp).toInt = d at *
  generalize ((dispVal disp).signExtend 32).toNat = e at *
  split at h4 <;> omega

theorem LinMapped.ptr {s : State} {n : Nat} {p : Pfx} {m : BitVec 8} {disp : List (BitVec 8)} {a : Nat}
    (h : LinMapped s n (usedLinear s p m disp) a) (env : Env) {t : State} (hm : t.map = s.map) :
    getPtr (s.sreg (usedSeg p m)) (BitVec.ofNat 32 (eaRegs s m) + (dispVal disp).signExtend 32) env t = .ok a t := by
  obtain ⟨h1, h2, h3, _⟩ := h
  unfold getPtr
  simp only [usedLinear_eq, blockSize, numBlocks, hm, h2]
  rw [if_pos (by omega)]
  congr 1; omega

/-- 16-bit value of the address used: always the one of the manual. -/
theorem used_trunc (s : State) (m : BitVec 8) (disp : List (BitVec 8)) :
    (BitVec.ofNat 32 (eaRegs s m) + (dispVal disp).signExtend 32).setWidth 16 = eaOffset s m disp := by
  have h3 : ((dispVal disp).signExtend 32).setWidth 16 = dispVal disp := by
    apply BitVec.eq_of_getLsbD_eq
    intro i hi
    simp [BitVec.getElem_signExtend, hi, show i < 32 by omega]
  simp only [eaOffset]
  apply BitVec.eq_of_toNat_eq
  have h4 := congrArg BitVec.toNat h3
  simp only [BitVec.toNat_setWidth] at h4
  simp only [BitVec.toNat_setWidth, BitVec.toNat_add, BitVec.toNat_ofNat]
  omega

/-- An instruction whose opcode function meets undefined behaviour. -/
theorem runOne_code_ub {s : State} {h0 : Nat} {p : Pfx} {rest : List (BitVec 8)} {op : BitVec 8} {len : Nat}
    (hat : At s h0 p (op :: rest) len) (env : Env) (hop : op ≠ 0xF1) {e : Entry} (he : opEntry op = some e)
    {a : BitVec 3} (ha : paramOf e rest[0]? = some a) (u : UB)
    (hr : ∀ bytes j, CodeAt s h0 bytes → j + rest.length = len → Sub bytes j rest → callFn e.fn a env (opState s p j) = .ub u) :
    runOne env s = .ub u := by
  obtain ⟨hready, pfx, hp, hc, hl⟩ := hat
  have := hr (pfx ++ op :: rest) (pfx.length + 1) hc (by rw [hl]; simp; omega) (by
    intro i hi
    rw [List.getElem?_append_right (by omega)]
    rw [show pfx.length + 1 + i - pfx.length = i + 1 by omega]
    simp)
  rw [runOne_ready hready, decode_code hc env hready.counter hp hop he ha _ this (by simp)]
  rfl

end RME
