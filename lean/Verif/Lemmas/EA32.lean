import Verif.Lemmas.EA
import Verif.Spec.EA32
set_option autoImplicit false
/-
`RME_Int_GetMMM` with 32-bit addressing, every case.
-/
namespace RME

theorem usedSeg32_eq (p : Pfx) (m : BitVec 8) :
    p.seg.getD (defaultSeg (rmOf m) (decide (modOf m = 0))) = usedSeg32 p m := by
  simp only [usedSeg32, defaultSeg]
  by_cases h0 : modOf m = 0
  · simp [h0]
  · simp [h0, or_assoc]

theorem Mem32.mod3 {p : Pfx} {m : BitVec 8} {d sib ex : List (BitVec 8)} (h : Mem32 p m d sib ex) : ¬ (ModRM.ofByte m).mod = 3 :=
  fun e => h.mem ((mod_eq_ofByte m 3 (by omega)).1 e)

/-- `DoFunc32` with a SIB byte and a displacement. -/
theorem doFunc32_sibd (disp : BitVec 32) (env : Env) (t : State) :
    doFunc32 4 false disp env t = (readInstr 8 env t).bind (fun sib t' =>
      .ok (t.sreg (t.dec.ovrSeg.getD .ds), sibIndex t sib + t.gpr (sib.setWidth 3) + disp) t') := by
  simp only [doFunc32, bind_apply, getSegment_apply, resbind_ok, gets_apply, ite_apply, id_eq, pure_apply, if_true,
    Bool.false_eq_true, and_false, if_false]
  rfl

theorem doFunc32_any {s : State} {h0 : Nat} {bytes : List (BitVec 8)} (h : CodeAt s h0 bytes) (env : Env)
    {p : Pfx} {j : Nat} {m : BitVec 8} {d sib ex : List (BitVec 8)} (hm : Mem32 p m d sib ex) (hs : Sub bytes j (sib ++ ex))
    {mod0 : Bool} (h0' : mod0 = decide (modOf m = 0)) {disp : BitVec 32} (hd : disp = usedDisp32 d) :
    doFunc32 (rmOf m) mod0 disp env (opState s p j) =
      .ok (s.sreg (usedSeg32 p m), usedOffset32 s m d sib ex) (opState s p (j + (sib ++ ex).length)) := by
  have hseg := usedSeg32_eq p m
  rw [← h0'] at hseg
  have hsg : (opState s p j).sreg ((opState s p j).dec.ovrSeg.getD (defaultSeg (rmOf m) mod0)) = s.sreg (usedSeg32 p m) := by
    rw [← hseg]; rfl
  have hd0 : modOf m = 0 → disp = 0 := by
    intro h0
    have h1 := hm.dispLen
    rw [if_neg (by omega), if_neg (by omega)] at h1
    rw [hd, List.length_eq_zero_iff.1 h1]; rfl
  have h1 := hm.sibLen
  have h2 := hm.exLen
  by_cases h4 : rmOf m = 4
  · rw [if_pos h4] at h1
    match sib, h1, hs, h2 with
    | [b], _, hs, h2 =>
    have hb : hasSib m = true := by simp [hasSib, h4]
    have hbs : ((b.setWidth 3 : BitVec 3)) = rmOf b := ofByte_mmm b
    have hidx : sibIndex (opState s p j) b = index32 s m [b] := sibIndex_eq s m b [] hb
    rw [h4] at hsg
    simp only [h4, List.headD_cons, true_and] at h2
    rw [usedOffset32, if_pos h4, ← hd, h4]
    cases hmm : mod0 with
    | true =>
      have hz : modOf m = 0 := of_decide_eq_true (h0' ▸ hmm)
      rw [hmm] at hsg
      rw [doFunc32_sib, fetch8 h env p j hs.head, resbind_ok, hbs, hidx]
      by_cases h5 : rmOf b = 5
      · rw [if_pos ⟨hz, Or.inr h5⟩] at h2
        rw [if_pos h5, if_pos (show modOf m = 0 ∧ rmOf ([b].headD 0) = 5 from ⟨hz, h5⟩), fetchN h env p 32 (j + 1) (by decide) h2 (show Sub bytes (j + 1) ex from hs.tail), resbind_ok, hd0 hz]
        refine congr (congrArg Res.ok (congr (congrArg Prod.mk hsg) ?_)) ?_
        · bv_omega
        · simp only [List.length_append, List.length_cons, List.length_nil, h2]
      · rw [if_neg (by rintro ⟨-, h | h⟩ <;> first | exact h5 h | cases h)] at h2
        have : ex = [] := List.length_eq_zero_iff.1 h2
        subst this
        rw [if_neg h5, if_neg (show ¬ (modOf m = 0 ∧ rmOf ([b].headD 0) = 5) from fun h => h5 h.2), hd0 hz]
        refine congr (congrArg Res.ok (congr (congrArg Prod.mk hsg) ?_)) rfl
        show index32 s m [b] + s.gpr (rmOf b) = index32 s m [b] + s.gpr (rmOf b) + 0
        bv_omega
    | false =>
      have hz : modOf m ≠ 0 := of_decide_eq_false (h0' ▸ hmm).symm.symm
      rw [hmm] at hsg
      rw [if_neg (fun h => hz h.1)] at h2
      have : ex = [] := List.length_eq_zero_iff.1 h2
      subst this
      rw [doFunc32_sibd, fetch8 h env p j hs.head, resbind_ok, hbs, hidx, if_neg (show ¬ (modOf m = 0 ∧ rmOf ([b].headD 0) = 5) from fun h => hz h.1)]
      exact congr (congrArg Res.ok (congr (congrArg Prod.mk hsg) rfl)) rfl
  · rw [if_neg h4] at h1
    have : sib = [] := List.length_eq_zero_iff.1 h1
    subst this
    simp only [usedOffset32, h4, if_false, false_and, or_false, List.nil_append, ← hd] at h2 hs ⊢
    by_cases h5 : modOf m = 0 ∧ rmOf m = 5
    · have hz : mod0 = true := by rw [h0']; simp [h5.1]
      rw [if_pos h5] at h2 ⊢
      rw [hz, h5.2] at hsg
      rw [h5.2, hz, doFunc32_direct, fetchN h env p 32 j (by decide) h2 hs, resbind_ok, h2]
      exact congr (congrArg Res.ok (congr (congrArg Prod.mk hsg) rfl)) rfl
    · rw [if_neg h5] at h2 ⊢
      have : ex = [] := List.length_eq_zero_iff.1 h2
      subst this
      rw [doFunc32_reg _ _ _ _ _ h4 (by rintro ⟨a, b⟩; exact h5 ⟨of_decide_eq_true (h0' ▸ b), a⟩), hsg]
      cases hmm : mod0 with
      | true =>
        rw [hd0 (of_decide_eq_true (h0' ▸ hmm))]
        simp [opState]
      | false => rfl

theorem disp8_used : ∀ b : BitVec 8, ((b.signExtend 16).setWidth 32 : BitVec 32) = usedDisp32 [b] := by decide +kernel

theorem getMMM_any32 {s : State} {h0 : Nat} {bytes : List (BitVec 8)} (h : CodeAt s h0 bytes) (env : Env)
    {p : Pfx} {j : Nat} {m : BitVec 8} {d sib ex : List (BitVec 8)} (hm : Mem32 p m d sib ex) (hs : Sub bytes j (d ++ (sib ++ ex))) :
    getMMM (ModRM.ofByte m) env (opState s p j) =
      .ok (s.sreg (usedSeg32 p m), usedOffset32 s m d sib ex) (opState s p (j + (d ++ (sib ++ ex)).length)) := by
  simp only [getMMM, bind_apply, getDec_apply, resbind_ok, ite_apply]
  rw [if_pos (show (opState s p j).dec.ovrAddr = true from hm.addr)]
  rw [ofByte_mod, ofByte_mmm]
  have hd := hm.dispLen
  rcases modOf_cases m hm.mem with h1 | h1 | h1
  · rw [if_pos (by rw [h1]; rfl)]
    simp only [h1] at hd
    have : d = [] := List.length_eq_zero_iff.1 hd
    subst this
    exact doFunc32_any h env hm hs (by simp [h1]) rfl
  · rw [if_neg (by rw [h1]; decide), if_pos (by rw [h1]; rfl)]
    simp only [h1] at hd
    match d, hd, hs, hm with
    | [b], _, hs, hm =>
      rw [fetch8S h env p 16 j hs.left.head, resbind_ok]
      rw [doFunc32_any h env hm (j := j + 1) hs.right (by simp [h1])]
      · simp only [List.length_append, List.length_cons, List.length_nil, Nat.add_assoc, Nat.zero_add]
      · exact disp8_used b
  · rw [if_neg (by rw [h1]; decide), if_neg (by rw [h1]; decide), if_pos (by rw [h1]; rfl)]
    simp only [h1] at hd
    have hd4 : d.length = 32 / 8 := by simpa using hd
    rw [fetchN h env p 32 j (by decide) hd4 hs.left, resbind_ok]
    have hr := hs.right
    rw [hd4] at hr
    rw [doFunc32_any h env hm hr (by simp [h1])]
    · simp only [List.length_append, hd4, Nat.add_assoc]
    · obtain ⟨b0, b1, b2, b3, rfl⟩ := len4 hd4
      rfl

theorem usedLinear32_eq (s : State) (p : Pfx) (m : BitVec 8) (d sib ex : List (BitVec 8)) :
    ((s.sreg (usedSeg32 p m)).setWidth 32 * 16 + usedOffset32 s m d sib ex).toNat = usedLinear32 s p m d sib ex := by
  have h2 := (s.sreg (usedSeg32 p m)).isLt
  have h5 := (usedOffset32 s m d sib ex).isLt
  simp only [usedLinear32, BitVec.toNat_add, BitVec.toNat_mul, BitVec.toNat_setWidth, show ((16 : BitVec 32)).toNat = 16 from rfl]
  omega

theorem LinMapped.ptr32 {s : State} {n : Nat} {p : Pfx} {m : BitVec 8} {d sib ex : List (BitVec 8)} {a : Nat}
    (h : LinMapped s n (usedLinear32 s p m d sib ex) a) (env : Env) {t : State} (hm : t.map = s.map) :
    getPtr (s.sreg (usedSeg32 p m)) (usedOffset32 s m d sib ex) env t = .ok a t := by
  obtain ⟨h1, h2, h3, _⟩ := h
  unfold getPtr
  simp only [usedLinear32_eq, blockSize, numBlocks, hm, h2]
  rw [if_pos (by omega)]
  congr 1; omega

end RME
