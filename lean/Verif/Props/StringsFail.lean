import Verif.Props.Strings32
set_option autoImplicit false
/-
C81: string instructions that reach an unmapped block.
-/
namespace RME

/-- Outcome of an access to an unmapped block: BADMEM where the check is compiled in, else a null dereference. -/
def badAccess {α : Type} (env : Env) (t : State) : Res α := if env.nullCheck then .err .badmem t else .ub .nullBlock

theorem badAccess_bind {α β : Type} (env : Env) (t : State) (f : α → State → Res β) : (badAccess env t : Res α).bind f = badAccess env t := by
  unfold badAccess; split <;> rfl

theorem readMem_unmapped {n : Nat} {seg ofs : BitVec 16} {t : State} (h : hostAddr t seg ofs = none) (env : Env) :
    readMem n seg ofs env t = badAccess env t := by
  simp only [readMem, bind_apply, getPtr_spec, h, badAccess]
  split <;> rfl

theorem writeMem_unmapped {n : Nat} {seg ofs : BitVec 16} {t : State} (h : hostAddr t seg ofs = none) (v : BitVec n) (env : Env) :
    writeMem n seg ofs v env t = badAccess env t := by
  simp only [writeMem, bind_apply, getPtr_spec, h, badAccess]
  split <;> rfl

theorem loopSt_unmapped {d : Decoder} {i : Int} {p : Pfx} {t : State} {k : Nat} {seg ofs : BitVec 16} (h : hostAddr t seg ofs = none) :
    hostAddr (loopSt d i p t k) seg ofs = none := by
  rw [← h]
  show ((countDown p t k).map _).map _ = _
  rw [(countDown_frame p t k).2.1]; rfl

/-- A string instruction whose first `K` elements succeed and whose element `K` hits an unmapped block. -/
theorem stringOp_fail {env : Env} {s : State} {p : Pfx} {j n K : Nat} {z uD uS : Bool}
    {body : BitVec 16 → BitVec 32 → BitVec 16 → BitVec 32 → M Unit} {T : Nat → State} {X : State}
    (hT0 : T 0 = s)
    (h : Rounds env (decOf p j) (s.instrNum + 1) p n z (dfOf s) (s.gpr 6) (s.gpr 7) (fun so dd => body (srcSeg s p) so (dstSeg s) dd) T K)
    (h1 : p.rep = .none → K = 0) (h2 : p.rep ≠ .none → K < (cxOf s).toNat)
    (hgo : ∀ k < K, goes z p.rep (T (k + 1)).flags = true)
    (hfail : ∀ so dd : BitVec 32, so.setWidth 16 = srcOfs s n K → dd.setWidth 16 = dstOfs s n K →
      body (srcSeg s p) so (dstSeg s) dd env (loopSt (decOf p j) (s.instrNum + 1) p (T K) (K + 1)) = badAccess env X) :
    stringOp z uD uS (n / 8) body env (opState s p j) = badAccess env X := by
  have hda : (opState s p j).dec.ovrAddr = p.addr := rfl
  have hdr : (opState s p j).dec.rep = p.rep := rfl
  have hsi : (if p.addr then (opState s p j).reg 32 rSI else ((opState s p j).reg 16 rSI).setWidth 32) = idxAt p.addr (dfOf s) n (s.gpr 6) 0 := by
    rw [idxAt_zero]
    have e : (opState s p j).reg 32 rSI = s.gpr 6 := by
      show (s.gpr 6).setWidth 32 = _
      simp
    rw [e]; rfl
  have hdi : (if p.addr then (opState s p j).reg 32 rDI else ((opState s p j).reg 16 rDI).setWidth 32) = idxAt p.addr (dfOf s) n (s.gpr 7) 0 := by
    rw [idxAt_zero]
    have e : (opState s p j).reg 32 rDI = s.gpr 7 := by
      show (s.gpr 7).setWidth 32 = _
      simp
    rw [e]; rfl
  have hcx : ¬ (p.rep ≠ .none ∧ (opState s p j).reg 16 rCX = 0) := by
    rintro ⟨hr, hc⟩
    have hc' : cxOf s = 0 := hc
    have := h2 hr
    rw [hc'] at this
    exact absurd this (Nat.not_lt_zero _)
  simp only [stringOp, bind_apply, getSreg_apply, resbind_ok, getSegment, getDec_apply, strOfs_apply, getReg_apply, ite_apply, hdr, hda, hsi, hdi]
  rw [if_neg hcx]
  have hst : opState s p j = loopSt (decOf p j) (s.instrNum + 1) p (T 0) 0 := by
    rw [hT0, loopSt]
    have e1 : countDown p s 0 = s := by
      by_cases hr : p.rep = .none
      · exact countDown_none hr s 0
      · rw [countDown_some hr, BitVec.sub_zero]; exact setReg_self s 16 rCX
    rw [e1]; rfl
  have hK : K < 65536 := by
    by_cases hr : p.rep = .none
    · rw [h1 hr]; decide
    · have := h2 hr; have := (cxOf s).isLt; omega
  have hKc : K ≤ (cxOf (T 0)).toNat := by
    rw [hT0]
    by_cases hr : p.rep = .none
    · rw [h1 hr]; omega
    · have := h2 hr; omega
  obtain ⟨fuel, hfu⟩ : ∃ fuel, 65536 = K + (fuel + 1) := ⟨65536 - K - 1, by omega⟩
  have hl : strLoop z (n / 8) (ofsMask p.addr) (fun so dd => body (srcSeg s p) so (dstSeg s) dd) 65536 (idxAt p.addr (dfOf s) n (s.gpr 6) 0)
      (idxAt p.addr (dfOf s) n (s.gpr 7) 0) env (opState s p j) = badAccess env X := by
    rw [hst, hfu, strLoop_rounds h K (Nat.le_refl _) hKc hgo]
    have hc : strCount env (loopSt (decOf p j) (s.instrNum + 1) p (T K) K) = .ok false (loopSt (decOf p j) (s.instrNum + 1) p (T K) (K + 1)) := by
      by_cases hr : p.rep = .none
      · exact strCount_one h.rep hr env
      · exact strCount_rep h.rep hr (by rw [h.cx K (Nat.le_refl _), hT0]; exact h2 hr) env
    simp only [strLoop, bind_apply, hc, resbind_ok, ite_apply, Bool.false_eq_true, if_false]
    rw [hfail _ _ (idxAt_16 _ _ _ _ _) (idxAt_16 _ _ _ _ _), badAccess_bind]
  have hm : (if p.addr = true then (0xFFFFFFFF : BitVec 32) else 0xFFFF) = ofsMask p.addr := rfl
  have hss : (opState s p j).sreg .es = dstSeg s := rfl
  have hss2 : (opState s p j).sreg ((opState s p j).dec.ovrSeg.getD .ds) = srcSeg s p := rfl
  simp only [hm, hss, hss2, hl, badAccess_bind]

theorem string_fails {s : State} {h0 : Nat} {p : Pfx} {op : BitVec 8} {len : Nat} (hat : At s h0 p [op] len) (env : Env)
    (hop : op ≠ 0xF1) {o : Op} (he : opEntry op = some ⟨.base o, 0, false⟩) {w z uD uS : Bool}
    {body : Nat → BitVec 16 → BitVec 32 → BitVec 16 → BitVec 32 → M Unit}
    (ho : opFn o 0 = strW w (fun n => stringOp z uD uS (n / 8) (body n))) {T : Nat → State} {K : Nat} {X : State} (hT0 : T 0 = s)
    (h : Rounds env (decOf p len) (s.instrNum + 1) p (elemW p w) z (dfOf s) (s.gpr 6) (s.gpr 7)
      (fun so dd => body (elemW p w) (srcSeg s p) so (dstSeg s) dd) T K)
    (h1 : p.rep = .none → K = 0) (h2 : p.rep ≠ .none → K < (cxOf s).toNat)
    (hgo : ∀ k < K, goes z p.rep (T (k + 1)).flags = true)
    (hfail : ∀ so dd : BitVec 32, so.setWidth 16 = srcOfs s (elemW p w) K → dd.setWidth 16 = dstOfs s (elemW p w) K →
      body (elemW p w) (srcSeg s p) so (dstSeg s) dd env (loopSt (decOf p len) (s.instrNum + 1) p (T K) (K + 1)) = badAccess env X) :
    runOne env s = badAccess env X := by
  obtain ⟨hready, pfx, hp, hc, hlen⟩ := hat
  have hlen' : len = pfx.length + 1 := by simpa using hlen
  have hrun : callFn (.base o) 0 env (opState s p (pfx.length + 1)) = badAccess env X := by
    rw [← hlen']
    simp only [callFn, ho, strW_op]
    exact stringOp_fail hT0 h h1 h2 hgo hfail
  rw [runOne_ready hready, decode_code hc env hready.counter hp hop he rfl _ hrun (by unfold badAccess; split <;> simp)]
  rw [badAccess_bind]
  unfold badAccess
  cases env.nullCheck <;> rfl

theorem stops_of {env : Env} {s t : State} {p : Pfx} {len K : Nat} (h : runOne env s = badAccess env (loopSt (decOf p len) (s.instrNum + 1) p t K)) :
    StopsBadmem env s (countDown p t K) := ⟨decOf p len, h⟩

theorem none_zero {s : State} {p : Pfx} {K : Nat} (h : K < reps s p) : (p.rep = .none → K = 0) ∧ (p.rep ≠ .none → K < (cxOf s).toNat) :=
  ⟨fun hr => by rw [reps_one hr] at h; omega, fun hr => by rw [reps_cx hr] at h; exact h⟩

theorem goes_lt {s : State} {p : Pfx} {K : Nat} (h : K < reps s p) (f : Nat → BitVec 16) : ∀ k < K, goes false p.rep (f (k + 1)) = true := by
  intro k hk
  refine goes_nz (fun hr => ?_) _
  have := (none_zero h).1 hr
  omega

theorem HostOnly.missing {s t : State} (h : HostOnly s t) {seg ofs : BitVec 16} (hm : hostAddr s seg ofs = none) : hostAddr t seg ofs = none := by
  obtain ⟨H, rfl⟩ := h
  exact hm

/-- C81: MOVS whose element `K` cannot be read or written has copied exactly the elements before it; CX has been decremented `K + 1`
times, SI, DI, IP, flags and segments are unchanged. -/
theorem C81_movs {s : State} {h0 : Nat} {p : Pfx} {len : Nat} {w : Bool} (hat : At s h0 p [strOpc 0xA4 w] len)
    (env : Env) {K : Nat} (hK : K < reps s p) (hs : SrcMapped s p (elemW p w) K) (hd : DstMapped s (elemW p w) K)
    (hmiss : SrcMissing s p (elemW p w) K ∨ SrcMapped s p (elemW p w) (K + 1) ∧ DstMissing s (elemW p w) K) :
    ∃ t, Copied s p (elemW p w) K t ∧ StopsBadmem env s (countDown p t (K + 1)) := by
  refine ⟨_, copySeq_copied (elemW_mod p w) hs _ (Nat.le_refl _), ?_⟩
  refine stops_of (p := p) (len := len) (string_fails (o := .movs w) (w := w) (z := false) (uD := true) (uS := true)
    (body := fun n ss so ds dd => (do let v ← readMem n ss (so.setWidth 16); writeMem n ds (dd.setWidth 16) v))
    hat env (by cases w <;> decide) (by cases w <;> decide +kernel) rfl (T := copySeq s p (elemW p w)) rfl
    (copy_rounds hs hd env len) (none_zero hK).1 (none_zero hK).2 (goes_lt hK (fun k => (copySeq s p (elemW p w) k).flags)) ?_)
  intro so dd hso hdd
  have e := copySeq_host s p (elemW p w) K
  simp only [bind_apply, hso, hdd]
  rcases hmiss with hm | ⟨hm, hm'⟩
  · rw [readMem_unmapped (loopSt_unmapped (e.missing hm)), badAccess_bind]
  · obtain ⟨h, hm⟩ := hm K (by omega)
    rw [loopSt_read (e.mapped hm), resbind_ok, writeMem_unmapped (loopSt_unmapped (e.missing hm'))]

/-- C81: STOS whose element `K` cannot be written has stored exactly the elements before it; CX has been decremented `K + 1` times. -/
theorem C81_stos {s : State} {h0 : Nat} {p : Pfx} {len : Nat} {w : Bool} (hat : At s h0 p [strOpc 0xAA w] len)
    (env : Env) {K : Nat} (hK : K < reps s p) {v : BitVec (elemW p w)} (hv : (Opnd.reg 0).Has s (elemW p w) v) (hd : DstMapped s (elemW p w) K)
    (hmiss : DstMissing s (elemW p w) K) : StopsBadmem env s (countDown p (filled s (elemW p w) v K) (K + 1)) := by
  refine stops_of (p := p) (len := len) (string_fails (o := .stos w) (w := w) (z := false) (uD := true) (uS := false)
    (body := fun n _ _ ds dd => (do let v ← getReg n rAX; writeMem n ds (dd.setWidth 16) v))
    hat env (by cases w <;> decide) (by cases w <;> decide +kernel) rfl (T := filled s (elemW p w) v) rfl
    (stos_rounds hv hd env len) (none_zero hK).1 (none_zero hK).2 (goes_lt hK (fun k => (filled s (elemW p w) v k).flags)) ?_)
  intro so dd hso hdd
  simp only [bind_apply, getReg_apply, resbind_ok, hdd]
  exact writeMem_unmapped (loopSt_unmapped ((filled_host s (elemW p w) v K).missing hmiss)) _ env

/-- C81: LODS whose element `K` cannot be read has loaded the elements before it. -/
theorem C81_lods {s : State} {h0 : Nat} {p : Pfx} {len : Nat} {w : Bool} (hat : At s h0 p [strOpc 0xAC w] len)
    (env : Env) {K : Nat} (hK : K < reps s p) {x : Nat → BitVec (elemW p w)}
    (hx : ∀ k < K, Holds s (srcSeg s p) (srcOfs s (elemW p w) k) (x k)) (hmiss : SrcMissing s p (elemW p w) K) :
    StopsBadmem env s (countDown p (if K = 0 then s else (Opnd.reg 0).put s (elemW p w) (x (K - 1))) (K + 1)) := by
  have e : (if K = 0 then s else (Opnd.reg 0).put s (elemW p w) (x (K - 1))) = loadSeq s (elemW p w) x K := by
    cases h : K with
    | zero => rfl
    | succ k => rw [if_neg (by omega), put_reg]; rfl
  rw [e]
  refine stops_of (p := p) (len := len) (string_fails (o := .lods w) (w := w) (z := false) (uD := false) (uS := true)
    (body := fun n ss so _ _ => (do let v ← readMem n ss (so.setWidth 16); setReg n rAX v))
    hat env (by cases w <;> decide) (by cases w <;> decide +kernel) rfl (T := loadSeq s (elemW p w) x) rfl
    (lods_rounds hx env len) (none_zero hK).1 (none_zero hK).2 (goes_lt hK (fun k => (loadSeq s (elemW p w) x k).flags)) ?_)
  intro so dd hso hdd
  have hm : hostAddr (loadSeq s (elemW p w) x K) (srcSeg s p) (srcOfs s (elemW p w) K) = none := by
    cases K <;> exact hmiss
  simp only [bind_apply, hso]
  rw [readMem_unmapped (loopSt_unmapped hm), badAccess_bind]

/-- C81: SCAS that has to examine an element that cannot be read: the flags are those of the last comparison made. -/
theorem C81_scas {s : State} {h0 : Nat} {p : Pfx} {len : Nat} {w : Bool} (hat : At s h0 p [strOpc 0xAE w] len)
    (env : Env) {K : Nat} (hK : K < reps s p) {v : BitVec (elemW p w)} (hv : (Opnd.reg 0).Has s (elemW p w) v) {x : Nat → BitVec (elemW p w)}
    (hx : ∀ k < K, Holds s (dstSeg s) (dstOfs s (elemW p w) k) (x k))
    (hgo : ∀ k < K, goesOn p.rep (decide (v = x k)) = true) (hmiss : DstMissing s (elemW p w) K) :
    ∃ f, (if K = 0 then f = s.flags else SubSpec v (x (K - 1)) false s.flags (v - x (K - 1)) f) ∧
      StopsBadmem env s (countDown p { s with flags := f } (K + 1)) := by
  have hn := elemW_ge p w
  refine ⟨cmpSeq s.flags (fun _ => v) x K, ?_, ?_⟩
  · cases K with
    | zero => rfl
    | succ K => exact cmpSeq_spec hn s.flags (fun _ => v) x K
  refine stops_of (p := p) (len := len) (string_fails (o := .scas w) (w := w) (z := true) (uD := true) (uS := false)
    (body := fun n _ _ ds dd => (do let b ← readMem n ds (dd.setWidth 16); let a ← getReg n rAX; cmpFlags a b))
    hat env (by cases w <;> decide) (by cases w <;> decide +kernel) rfl
    (T := fun k => { s with flags := cmpSeq s.flags (fun _ => v) x k }) rfl
    (scas_rounds hv hx env len) (none_zero hK).1 (none_zero hK).2 (fun k hk => by rw [goes_zf hn]; exact hgo k hk) ?_)
  intro so dd hso hdd
  simp only [bind_apply, hdd]
  rw [readMem_unmapped (loopSt_unmapped (t := { s with flags := cmpSeq s.flags (fun _ => v) x K }) hmiss), badAccess_bind]

/-- C81: CMPS that has to examine an element that cannot be read. -/
theorem C81_cmps {s : State} {h0 : Nat} {p : Pfx} {len : Nat} {w : Bool} (hat : At s h0 p [strOpc 0xA6 w] len)
    (env : Env) {K : Nat} (hK : K < reps s p) {x y : Nat → BitVec (elemW p w)}
    (hx : ∀ k < K, Holds s (srcSeg s p) (srcOfs s (elemW p w) k) (x k)) (hy : ∀ k < K, Holds s (dstSeg s) (dstOfs s (elemW p w) k) (y k))
    (hgo : ∀ k < K, goesOn p.rep (decide (x k = y k)) = true)
    (hmiss : SrcMissing s p (elemW p w) K ∨ SrcMapped s p (elemW p w) (K + 1) ∧ DstMissing s (elemW p w) K) :
    ∃ f, (if K = 0 then f = s.flags else SubSpec (x (K - 1)) (y (K - 1)) false s.flags (x (K - 1) - y (K - 1)) f) ∧
      StopsBadmem env s (countDown p { s with flags := f } (K + 1)) := by
  have hn := elemW_ge p w
  refine ⟨cmpSeq s.flags x y K, ?_, ?_⟩
  · cases K with
    | zero => rfl
    | succ K => exact cmpSeq_spec hn s.flags x y K
  refine stops_of (p := p) (len := len) (string_fails (o := .cmps w) (w := w) (z := true) (uD := true) (uS := true)
    (body := fun n ss so ds dd => (do let a ← readMem n ss (so.setWidth 16); let b ← readMem n ds (dd.setWidth 16); cmpFlags a b))
    hat env (by cases w <;> decide) (by cases w <;> decide +kernel) rfl
    (T := fun k => { s with flags := cmpSeq s.flags x y k }) rfl
    (cmps_rounds hx hy env len) (none_zero hK).1 (none_zero hK).2 (fun k hk => by rw [goes_zf hn]; exact hgo k hk) ?_)
  intro so dd hso hdd
  simp only [bind_apply, hso, hdd]
  rcases hmiss with hm | ⟨hm, hm'⟩
  · rw [readMem_unmapped (loopSt_unmapped (t := { s with flags := cmpSeq s.flags x y K }) hm), badAccess_bind]
  · obtain ⟨h, hm⟩ := hm K (by omega)
    rw [loopSt_read (t := { s with flags := cmpSeq s.flags x y K }) hm, resbind_ok,
      readMem_unmapped (loopSt_unmapped (t := { s with flags := cmpSeq s.flags x y K }) hm'), badAccess_bind]

/-- C81: OUTS whose element `K` cannot be read has sent exactly the elements before it. -/
theorem C81_outs {s : State} {h0 : Nat} {p : Pfx} {len : Nat} {w : Bool} (hat : At s h0 p [strOpc 0x6E w] len)
    (env : Env) {K : Nat} (hK : K < reps s p) {x : Nat → BitVec (elemW p w)}
    (hx : ∀ k < K, Holds s (srcSeg s p) (srcOfs s (elemW p w) k) (x k)) (hmiss : SrcMissing s p (elemW p w) K) :
    StopsBadmem env s (countDown p { s with io := s.io ++ outEvents ((s.gpr 2).setWidth 16) x K } (K + 1)) := by
  refine stops_of (p := p) (len := len) (string_fails (o := .outs w) (w := w) (z := false) (uD := false) (uS := true)
    (body := fun n ss so _ _ => (do
      let v ← readMem n ss (so.setWidth 16); let p ← getReg 16 rDX; portOut (n / 8) p (v.setWidth 32)))
    hat env (by cases w <;> decide) (by cases w <;> decide +kernel) rfl
    (T := fun k => { s with io := s.io ++ outEvents ((s.gpr 2).setWidth 16) x k }) (by simp [outEvents])
    (outs_rounds hx env len) (none_zero hK).1 (none_zero hK).2 (goes_lt hK (fun _ => s.flags)) ?_)
  intro so dd hso hdd
  simp only [bind_apply, hso]
  rw [readMem_unmapped (loopSt_unmapped (t := { s with io := s.io ++ outEvents ((s.gpr 2).setWidth 16) x K }) hmiss), badAccess_bind]

/-- C81: INS whose element `K` cannot be written has stored the elements before it, but has read the port once more: that value is
lost. -/
theorem C81_ins {s : State} {h0 : Nat} {p : Pfx} {len : Nat} {w : Bool} (hat : At s h0 p [strOpc 0x6C w] len)
    (env : Env) {K : Nat} (hK : K < reps s p) (hd : DstMapped s (elemW p w) K) (hmiss : DstMissing s (elemW p w) K) :
    ∃ v : BitVec (elemW p w), v = (env.portIn (inputs env s (elemW p w) K).io (elemW p w / 8) ((s.gpr 2).setWidth 16)).setWidth (elemW p w) ∧
    StopsBadmem env s (countDown p { inputs env s (elemW p w) K with
      io := (inputs env s (elemW p w) K).io ++ [.inp (elemW p w / 8) ((s.gpr 2).setWidth 16) (v.setWidth 32)] } (K + 1)) := by
  obtain ⟨H, l, e⟩ := inputs_frame env s (elemW p w) K
  have hg : (inputs env s (elemW p w) K).gpr 2 = s.gpr 2 := by rw [e]
  refine ⟨_, rfl, ?_⟩
  refine stops_of (p := p) (len := len) (string_fails (o := .ins w) (w := w) (z := false) (uD := true) (uS := false)
    (body := fun n _ _ ds dd => (do let p ← getReg 16 rDX; let v ← portIn n p; writeMem n ds (dd.setWidth 16) v))
    hat env (by cases w <;> decide) (by cases w <;> decide +kernel) rfl (T := inputs env s (elemW p w)) rfl
    (ins_rounds hd env len) (none_zero hK).1 (none_zero hK).2 (goes_lt hK (fun k => (inputs env s (elemW p w) k).flags)) ?_)
  intro so dd hso hdd
  have hio : ∀ (t : State) (m : Nat), (loopSt (decOf p len) (s.instrNum + 1) p t m).io = t.io := fun t m => (countDown_frame p t m).2.2.2.2.2.1
  simp only [bind_apply, hdd, getReg_apply, resbind_ok, loopSt_dx, portIn, hio, hg]
  rw [← loopSt_io]
  refine writeMem_unmapped (loopSt_unmapped ?_) _ env
  rw [e]; exact hmiss

theorem copied_hostOnly {s : State} {p : Pfx} {n k : Nat} {t : State} (h : Copied s p n k t) : HostOnly s t := by
  induction h with
  | zero => exact ⟨s.host, rfl⟩
  | succ _ _ ih => exact ih.put _ _ _ _

/-- Violation of C81: after the failure the registers do not say where the instruction stopped.  `CX` is one less than the number of
elements still to do and SI, DI still point to the first element, whatever `K` is; calling the emulator again after mapping the block
therefore repeats from the start with too small a count. -/
theorem C81_violated_registers {s : State} {h0 : Nat} {p : Pfx} {len : Nat} {w : Bool} (hat : At s h0 p [strOpc 0xA4 w] len) (hr : p.rep ≠ .none)
    (env : Env) (hchk : env.nullCheck = true) {K : Nat} (hK : K < (cxOf s).toNat) (hs : SrcMapped s p (elemW p w) K)
    (hd : DstMapped s (elemW p w) K) (hmiss : SrcMissing s p (elemW p w) K) :
    ∃ u, runOne env s = .err .badmem u ∧ (cxOf u).toNat = (cxOf s).toNat - K - 1 ∧ siOf u = siOf s ∧ diOf u = diOf s ∧ u.ip = s.ip := by
  obtain ⟨t, hc, d, hrun⟩ := C81_movs hat env (by rw [reps_cx hr]; exact hK) hs hd (Or.inl hmiss)
  rw [hchk, if_pos rfl] at hrun
  obtain ⟨H, rfl⟩ := copied_hostOnly hc
  obtain ⟨_, _, _, _, _, _, c7, c8⟩ := countDown_frame p ({ s with host := H } : State) (K + 1)
  refine ⟨_, hrun, ?_, congrArg (BitVec.setWidth 16) (c8 6 (by decide)), congrArg (BitVec.setWidth 16) (c8 7 (by decide)), c7⟩
  refine (congrArg BitVec.toNat (cxOf_countDown hr ({ s with host := H } : State) (K + 1))).trans ?_
  show (cxOf s - BitVec.ofNat 16 (K + 1)).toNat = _
  have hlt := (cxOf s).isLt
  rw [BitVec.toNat_sub, BitVec.toNat_ofNat]
  omega

/-! ### The hypotheses can be met -/

/-- A machine whose block 31h is missing and with SI = 0FFF: DS:SI is the last byte before the hole; the same for ES:DI and block 41h. -/
def demoHole (code : List (BitVec 8)) : State :=
  { demo code with map := fun b => if b = 0x31 ∨ b = 0x41 then none else (demo code).map b,
                   gpr := fun r => if r = rSI ∨ r = rDI then 0xFFF else (demo code).gpr r }

theorem demoHole_addr (code : List (BitVec 8)) (seg ofs : BitVec 16) :
    hostAddr (demoHole code) seg ofs = if linear seg ofs / 4096 = 0x31 ∨ linear seg ofs / 4096 = 0x41 then none else some (linear seg ofs) := by
  rw [← flat_hostAddr (s := demo code) rfl]
  show ((if _ then none else (demo code).map _) : Option Nat).map _ = _
  split
  · rfl
  · rfl

theorem demoHole_at (b op : BitVec 8) {p : Pfx} (h : Pfx.parse {} [b] = some p) : At (demoHole [b, op]) 0x10100 p [op] 2 := by
  have hr := demo_ready [b, op]
  refine ⟨⟨hr.notMagic, hr.notHle, hr.counter⟩, [b], h, ?_, rfl⟩
  intro i hi
  have h2 : i < 2 := hi
  have hd := demo_code [b, op] (by simp) i hi
  refine ⟨?_, hd.2.1, hd.2.2⟩
  have : i = 0 ∨ i = 1 := by omega
  rw [demoHole_addr]
  have e : linear ((demoHole [b, op]).sreg .cs) ((demoHole [b, op]).ip + BitVec.ofNat 16 i) = 0x10100 + i := by
    show linear 0x1000 (0x100 + BitVec.ofNat 16 i) = _
    rcases this with rfl | rfl <;> decide
  rw [e, if_neg (by omega)]

theorem demoHole_src (code : List (BitVec 8)) (p : Pfx) (hp : p.seg = none) : SrcMapped (demoHole code) p 8 1 ∧
    DstMapped (demoHole code) 8 1 := by
  constructor
  · intro k hk
    have hk0 : k = 0 := by omega
    subst hk0
    have e : linear (srcSeg (demoHole code) p) (srcOfs (demoHole code) 8 0) = 0x30FFF := by
      rw [srcSeg, hp]
      show linear 0x3000 _ = _
      rw [srcOfs, elemOfs_zero]
      show linear 0x3000 0xFFF = _
      decide
    refine ⟨0x30FFF, ?_, fun i hi => ?_⟩
    · rw [demoHole_addr, e, if_neg (by decide)]
    · have : i = 0 := by omega
      subst this; simp [demoHole, demo]
  · intro k hk
    have hk0 : k = 0 := by omega
    subst hk0
    have e : linear (dstSeg (demoHole code)) (dstOfs (demoHole code) 8 0) = 0x40FFF := by
      show linear 0x4000 _ = _
      rw [dstOfs, elemOfs_zero]
      show linear 0x4000 0xFFF = _
      decide
    refine ⟨0x40FFF, ?_, fun i hi => ?_⟩
    · rw [demoHole_addr, e, if_neg (by decide)]
    · have : i = 0 := by omega
      subst this; simp [demoHole, demo]

-- element 0 is mapped, element 1 is not; CX = 3
example : ∃ (s : State) (p : Pfx), At s 0x10100 p [strOpc 0xA4 false] 2 ∧ p.rep ≠ .none ∧ 1 < reps s p ∧ 1 < (cxOf s).toNat ∧
    SrcMapped s p (elemW p false) 1 ∧ DstMapped s (elemW p false) 1 ∧ SrcMissing s p (elemW p false) 1 :=
  ⟨demoHole [0xF3, 0xA4], { rep := .rep }, demoHole_at 0xF3 0xA4 rfl, by decide, by decide, by decide, (demoHole_src _ {} rfl).1, (demoHole_src _ {} rfl).2, rfl⟩
example : ∃ (s : State) (p : Pfx) (v : BitVec 8), At s 0x10100 p [strOpc 0xAA false] 2 ∧ 1 < reps s p ∧ (Opnd.reg 0).Has s 8 v ∧
    DstMapped s (elemW p false) 1 ∧ DstMissing s (elemW p false) 1 :=
  ⟨demoHole [0xF3, 0xAA], { rep := .rep }, _, demoHole_at 0xF3 0xAA rfl, by decide, rfl, (demoHole_src _ {} rfl).2, rfl⟩
example : ∃ (s : State) (p : Pfx), At s 0x10100 p [strOpc 0x6C false] 2 ∧ 1 < reps s p ∧
    DstMapped s (elemW p false) 1 ∧ DstMissing s (elemW p false) 1 :=
  ⟨demoHole [0xF3, 0x6C], { rep := .rep }, demoHole_at 0xF3 0x6C rfl, by decide, (demoHole_src _ {} rfl).2, rfl⟩

theorem holds_of_mapped {s : State} {n : Nat} (hn : n % 8 = 0) {seg ofs : BitVec 16} {h : Nat} (hm : Mapped s n seg ofs h) :
    Holds s seg ofs (memVal s n seg ofs) := by
  refine ⟨h, hm, ?_⟩
  rw [memVal, hm.1]
  exact holds_valAt hn _ _

example : ∃ (s : State) (p : Pfx) (x : Nat → BitVec 8), At s 0x10100 p [strOpc 0xAC false] 2 ∧ 1 < reps s p ∧
    (∀ k < 1, Holds s (srcSeg s p) (srcOfs s 8 k) (x k)) ∧ SrcMissing s p 8 1 :=
  ⟨demoHole [0xF3, 0xAC], { rep := .rep }, _, demoHole_at 0xF3 0xAC rfl, by decide,
    fun k hk => by obtain ⟨h, hm⟩ := (demoHole_src [0xF3, 0xAC] {} rfl).1 k hk; exact holds_of_mapped (by decide) hm, rfl⟩
example : ∃ (s : State) (p : Pfx) (x : Nat → BitVec 8), At s 0x10100 p [strOpc 0x6E false] 2 ∧ 1 < reps s p ∧
    (∀ k < 1, Holds s (srcSeg s p) (srcOfs s 8 k) (x k)) ∧ SrcMissing s p 8 1 :=
  ⟨demoHole [0xF3, 0x6E], { rep := .rep }, _, demoHole_at 0xF3 0x6E rfl, by decide,
    fun k hk => by obtain ⟨h, hm⟩ := (demoHole_src [0xF3, 0x6E] {} rfl).1 k hk; exact holds_of_mapped (by decide) hm, rfl⟩
-- REPNE SCASB: AL = 55h differs from the zero byte at element 0; REPE CMPSB: both are zero
example : ∃ (s : State) (p : Pfx) (v : BitVec 8) (x : Nat → BitVec 8), At s 0x10100 p [strOpc 0xAE false] 2 ∧ 1 < reps s p ∧ (Opnd.reg 0).Has s 8 v ∧
    (∀ k < 1, Holds s (dstSeg s) (dstOfs s 8 k) (x k)) ∧ (∀ k < 1, goesOn p.rep (decide (v = x k)) = true) ∧ DstMissing s 8 1 :=
  ⟨demoHole [0xF2, 0xAE], { rep := .repnz }, 0x55, _, demoHole_at 0xF2 0xAE rfl, by decide, rfl,
    fun k hk => by obtain ⟨h, hm⟩ := (demoHole_src [0xF2, 0xAE] {} rfl).2 k hk; exact holds_of_mapped (by decide) hm,
    by decide +kernel, rfl⟩
example : ∃ (s : State) (p : Pfx) (x y : Nat → BitVec 8), At s 0x10100 p [strOpc 0xA6 false] 2 ∧ 1 < reps s p ∧
    (∀ k < 1, Holds s (srcSeg s p) (srcOfs s 8 k) (x k)) ∧ (∀ k < 1, Holds s (dstSeg s) (dstOfs s 8 k) (y k)) ∧
    (∀ k < 1, goesOn p.rep (decide (x k = y k)) = true) ∧ SrcMissing s p 8 1 :=
  ⟨demoHole [0xF3, 0xA6], { rep := .rep }, _, _, demoHole_at 0xF3 0xA6 rfl, by decide,
    fun k hk => by obtain ⟨h, hm⟩ := (demoHole_src [0xF3, 0xA6] {} rfl).1 k hk; exact holds_of_mapped (by decide) hm,
    fun k hk => by obtain ⟨h, hm⟩ := (demoHole_src [0xF3, 0xA6] {} rfl).2 k hk; exact holds_of_mapped (by decide) hm,
    by decide +kernel, rfl⟩

end RME
