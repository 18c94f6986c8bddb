import Verif.Spec.Strings
import Verif.Lemmas.Code
set_option autoImplicit false
/-
The loop of the string instructions.
-/
namespace RME

theorem bv_sub_sub (x y z : BitVec 16) : x - y - z = x - (y + z) := by bv_omega

/-- Condition of the loop after a round, as a function of repeat type and flags. -/
def goes (z : Bool) (r : Rep) (f : BitVec 16) : Bool :=
  !(z && r == .repnz && f.getLsbD bZF) && !(z && r == .rep && !f.getLsbD bZF) && r != .none

theorem strAgain_apply (z : Bool) (env : Env) (s : State) : strAgain z env s = .ok (goes z s.dec.rep s.flags) s := by
  simp only [strAgain, bind_apply, getDec_apply, resbind_ok, getFlags_apply, pure_apply, goes, tst_ZF]

theorem elemOfs_zero (df : Bool) (n : Nat) (b : BitVec 16) : elemOfs df n b 0 = b := by
  simp [elemOfs]

theorem strAdvance_elem (df : Bool) (n : Nat) (hn : n = 8 ∨ n = 16 ∨ n = 32) (b : BitVec 16) (k : Nat) :
    strAdvance df (n / 8) 0xFFFF ((elemOfs df n b k).setWidth 32) = (elemOfs df n b (k + 1)).setWidth 32 := by
  have e : BitVec.ofNat 16 (n / 8 * (k + 1)) = BitVec.ofNat 16 (n / 8 * k) + BitVec.ofNat 16 (n / 8) := by
    rw [← BitVec.ofNat_add]; congr 1
  have key : ∀ (x y : BitVec 16), (x.setWidth 32 + y.setWidth 32) &&& 0xFFFF = (x + y).setWidth 32 := by
    intro x y
    apply BitVec.eq_of_toNat_eq
    rw [BitVec.toNat_and]
    have : (0xFFFF : BitVec 32).toNat = 2 ^ 16 - 1 := rfl
    rw [this, Nat.and_two_pow_sub_one_eq_mod]
    simp only [BitVec.toNat_add, BitVec.toNat_setWidth]
    omega
  have key2 : ∀ (x y : BitVec 16), (x.setWidth 32 - y.setWidth 32) &&& 0xFFFF = (x - y).setWidth 32 := by
    intro x y
    apply BitVec.eq_of_toNat_eq
    rw [BitVec.toNat_and]
    have : (0xFFFF : BitVec 32).toNat = 2 ^ 16 - 1 := rfl
    rw [this, Nat.and_two_pow_sub_one_eq_mod]
    simp only [BitVec.toNat_sub, BitVec.toNat_setWidth]
    omega
  have e2 : BitVec.ofNat 32 (n / 8) = (BitVec.ofNat 16 (n / 8)).setWidth 32 := by
    rcases hn with rfl | rfl | rfl <;> rfl
  cases df
  · simp only [strAdvance, elemOfs, Bool.false_eq_true, if_false, e2, key, e, BitVec.add_assoc]
  · simp only [strAdvance, elemOfs, if_true, e2, key2, e]
    rw [bv_sub_sub]

/-- `srcOfs`/`destOfs` before round `k`, with (`a`) and without the address-size prefix. -/
def idxAt (a : Bool) (df : Bool) (n : Nat) (b : BitVec 32) (k : Nat) : BitVec 32 :=
  if a then elemIdx df n b k else (elemOfs df n (b.setWidth 16) k).setWidth 32

def ofsMask (a : Bool) : BitVec 32 := if a then 0xFFFFFFFF else 0xFFFF

theorem bv_sub_sub32 (x y z : BitVec 32) : x - y - z = x - (y + z) := by bv_omega

theorem strAdvance_idx (a df : Bool) (n : Nat) (hn : n = 8 ∨ n = 16 ∨ n = 32) (b : BitVec 32) (k : Nat) :
    strAdvance df (n / 8) (ofsMask a) (idxAt a df n b k) = idxAt a df n b (k + 1) := by
  cases a
  · exact strAdvance_elem df n hn _ k
  · have e : BitVec.ofNat 32 (n / 8 * (k + 1)) = BitVec.ofNat 32 (n / 8 * k) + BitVec.ofNat 32 (n / 8) := by
      rw [← BitVec.ofNat_add]; congr 1
    have hm : ∀ x : BitVec 32, x &&& 0xFFFFFFFF = x := fun x => BitVec.and_allOnes (x := x)
    cases df
    · simp only [strAdvance, ofsMask, idxAt, elemIdx, Bool.false_eq_true, if_false, if_true, hm, e, BitVec.add_assoc]
    · simp only [strAdvance, ofsMask, idxAt, elemIdx, if_true, hm, e, bv_sub_sub32]

theorem elemIdx_16 (df : Bool) (n : Nat) (b : BitVec 32) (k : Nat) : (elemIdx df n b k).setWidth 16 = elemOfs df n (b.setWidth 16) k := by
  cases df
  · simp only [elemIdx, elemOfs, Bool.false_eq_true, if_false]
    rw [BitVec.setWidth_add _ _ (by decide), BitVec.setWidth_ofNat_of_le (by decide)]
  · simp only [elemIdx, elemOfs, if_true]
    apply BitVec.eq_of_toNat_eq
    simp only [BitVec.toNat_sub, BitVec.toNat_setWidth, BitVec.toNat_ofNat]
    omega

theorem idxAt_16 (a df : Bool) (n : Nat) (b : BitVec 32) (k : Nat) : (idxAt a df n b k).setWidth 16 = elemOfs df n (b.setWidth 16) k := by
  cases a
  · simp [idxAt]
  · exact elemIdx_16 df n b k

theorem idxAt_zero (a df : Bool) (n : Nat) (b : BitVec 32) : idxAt a df n b 0 = if a then b else (b.setWidth 16).setWidth 32 := by
  cases a
  · simp [idxAt, elemOfs_zero]
  · simp [idxAt, elemIdx]

/-- State during the loop: data `t`, decoder `d`, instruction counter `i`, CX decremented `k` times. -/
def loopSt (d : Decoder) (i : Int) (p : Pfx) (t : State) (k : Nat) : State :=
  { countDown p t k with dec := d, instrNum := i }

theorem cxOf_reg (s : State) : s.reg 16 rCX = cxOf s := rfl

theorem countDown_none {p : Pfx} (h : p.rep = .none) (t : State) (k : Nat) : countDown p t k = t := by
  simp [countDown, h]

theorem countDown_some {p : Pfx} (h : p.rep ≠ .none) (t : State) (k : Nat) :
    countDown p t k = t.setReg 16 rCX (cxOf t - BitVec.ofNat 16 k) := by
  rw [countDown, if_neg h, put_reg]

theorem countDown_frame (p : Pfx) (t : State) (k : Nat) : (countDown p t k).sreg = t.sreg ∧ (countDown p t k).map = t.map ∧
    (countDown p t k).valid = t.valid ∧ (countDown p t k).host = t.host ∧ (countDown p t k).flags = t.flags ∧
    (countDown p t k).io = t.io ∧ (countDown p t k).ip = t.ip ∧ ∀ r, r ≠ 1 → (countDown p t k).gpr r = t.gpr r := by
  by_cases h : p.rep = .none
  · rw [countDown_none h]; simp
  · rw [countDown_some h]
    refine ⟨rfl, rfl, rfl, rfl, rfl, rfl, rfl, fun r hr => gpr_setReg_ne t hr _⟩

/-- Head of a round with a repeat prefix. -/
theorem strCount_rep {d : Decoder} {i : Int} {p : Pfx} {t : State} {k : Nat} (hd : d.rep = p.rep) (hr : p.rep ≠ .none)
    (hk : k < (cxOf t).toNat) (env : Env) : strCount env (loopSt d i p t k) = .ok false (loopSt d i p t (k + 1)) := by
  have hb : (2:Nat)^16 = 65536 := rfl
  have hlt := (cxOf t).isLt
  have e : (loopSt d i p t k).reg 16 rCX = cxOf t - BitVec.ofNat 16 k := by
    rw [loopSt, countDown_some hr]
    exact reg_setReg_same t (by decide) rCX _
  have hne : cxOf t - BitVec.ofNat 16 k ≠ 0 := by
    intro h
    have := congrArg BitVec.toNat h
    simp at this
    omega
  have hdr : (loopSt d i p t k).dec.rep = p.rep := hd
  simp only [strCount, bind_apply, getDec_apply, resbind_ok, ite_apply, getReg_apply, e, if_neg hne, setReg_apply, pure_apply, hdr, if_neg hr]
  refine congrArg (Res.ok false) ?_
  rw [loopSt, loopSt, countDown_some hr, countDown_some hr]
  have e2 : cxOf t - BitVec.ofNat 16 k - 1 = cxOf t - BitVec.ofNat 16 (k + 1) := by
    rw [BitVec.ofNat_add, bv_sub_sub]; rfl
  rw [e2]
  have := setReg_setReg t 16 rCX (cxOf t - BitVec.ofNat 16 k) (cxOf t - BitVec.ofNat 16 (k + 1))
  show ({ ((t.setReg 16 rCX (cxOf t - BitVec.ofNat 16 k)).setReg 16 rCX _) with dec := d, instrNum := i } : State) = _
  rw [this]

theorem strCount_end {d : Decoder} {i : Int} {p : Pfx} {t : State} (hd : d.rep = p.rep) (hr : p.rep ≠ .none)
    (env : Env) : strCount env (loopSt d i p t (cxOf t).toNat) = .ok true (loopSt d i p t (cxOf t).toNat) := by
  have e : (loopSt d i p t (cxOf t).toNat).reg 16 rCX = 0 := by
    rw [loopSt, countDown_some hr]
    refine (reg_setReg_same t (by decide) rCX _).trans ?_
    rw [BitVec.ofNat_toNat, BitVec.setWidth_eq, BitVec.sub_self]; rfl
  have hdr : (loopSt d i p t (cxOf t).toNat).dec.rep = p.rep := hd
  simp only [strCount, bind_apply, getDec_apply, resbind_ok, ite_apply, getReg_apply, e, pure_apply, hdr, if_neg hr, if_true]

theorem strCount_one {d : Decoder} {i : Int} {p : Pfx} {t : State} {k : Nat} (hd : d.rep = p.rep) (hr : p.rep = .none) (env : Env) :
    strCount env (loopSt d i p t k) = .ok false (loopSt d i p t (k + 1)) := by
  have hdr : (loopSt d i p t k).dec.rep = .none := hd.trans hr
  simp only [strCount, bind_apply, getDec_apply, resbind_ok, ite_apply, hdr, if_true, pure_apply]
  rw [loopSt, loopSt, countDown_none hr, countDown_none hr]

/-- What the loop needs to know about `K` rounds with data states `T 0 … T K`. -/
structure Rounds (env : Env) (d : Decoder) (i : Int) (p : Pfx) (n : Nat) (z : Bool) (df : Bool) (si di : BitVec 32)
    (body : BitVec 32 → BitVec 32 → M Unit) (T : Nat → State) (K : Nat) : Prop where
  rep : d.rep = p.rep
  width : n = 8 ∨ n = 16 ∨ n = 32
  cx : ∀ k ≤ K, cxOf (T k) = cxOf (T 0)
  dir : ∀ k ≤ K, dfOf (T k) = df
  body : ∀ k < K, ∀ so dd : BitVec 32, so.setWidth 16 = elemOfs df n (si.setWidth 16) k → dd.setWidth 16 = elemOfs df n (di.setWidth 16) k →
    body so dd env (loopSt d i p (T k) (k + 1)) = .ok () (loopSt d i p (T (k + 1)) (k + 1))

variable {env : Env} {d : Decoder} {i : Int} {p : Pfx} {n : Nat} {z : Bool} {df : Bool} {si di : BitVec 32}
  {body : BitVec 32 → BitVec 32 → M Unit} {T : Nat → State} {K : Nat}

theorem strLoop_round (h : Rounds env d i p n z df si di body T K) {k : Nat} (hk : k < K)
    (hcx : p.rep ≠ .none → k < (cxOf (T 0)).toNat) (fuel : Nat) (a : Bool) :
    strLoop z (n / 8) (ofsMask a) body (fuel + 1) (idxAt a df n si k) (idxAt a df n di k) env (loopSt d i p (T k) k) =
      if goes z p.rep (T (k + 1)).flags then
        strLoop z (n / 8) (ofsMask a) body fuel (idxAt a df n si (k + 1)) (idxAt a df n di (k + 1)) env
          (loopSt d i p (T (k + 1)) (k + 1))
      else .ok (idxAt a df n si (k + 1), idxAt a df n di (k + 1)) (loopSt d i p (T (k + 1)) (k + 1)) := by
  have hc : strCount env (loopSt d i p (T k) k) = .ok false (loopSt d i p (T k) (k + 1)) := by
    by_cases hr : p.rep = .none
    · exact strCount_one h.rep hr env
    · exact strCount_rep h.rep hr (by rw [h.cx k (by omega)]; exact hcx hr) env
  have hf : (loopSt d i p (T (k + 1)) (k + 1)).flags = (T (k + 1)).flags := (countDown_frame p (T (k + 1)) (k + 1)).2.2.2.2.1
  have hdr : (loopSt d i p (T (k + 1)) (k + 1)).dec.rep = p.rep := h.rep
  have hdf : tst (T (k + 1)).flags FLAG_DF = df := by rw [tst_DF]; exact h.dir (k + 1) (by omega)
  simp only [strLoop, bind_apply, hc, resbind_ok, ite_apply, Bool.false_eq_true, if_false, h.body k hk _ _ (idxAt_16 a df n si k) (idxAt_16 a df n di k), getFlags_apply, hf,
    strAgain_apply, hdr, hdf, strAdvance_idx _ _ _ h.width, pure_apply]

theorem strLoop_rounds (h : Rounds env d i p n z df si di body T K) (m : Nat) (hm : m ≤ K)
    (hcx : m ≤ (cxOf (T 0)).toNat) (hgo : ∀ k < m, goes z p.rep (T (k + 1)).flags = true) (fuel : Nat) (a : Bool) :
    strLoop z (n / 8) (ofsMask a) body (m + fuel) (idxAt a df n si 0) (idxAt a df n di 0) env (loopSt d i p (T 0) 0) =
      strLoop z (n / 8) (ofsMask a) body fuel (idxAt a df n si m) (idxAt a df n di m) env (loopSt d i p (T m) m) := by
  induction m generalizing fuel with
  | zero => rw [Nat.zero_add]
  | succ m ih =>
    have := ih (by omega) (by omega) (fun k hk => hgo k (by omega)) (fuel + 1)
    rw [show m + 1 + fuel = m + (fuel + 1) by omega, this,
      strLoop_round h (k := m) (by omega) (fun _ => by omega), if_pos (hgo m (by omega))]

/-- The whole loop. -/
theorem strLoop_all (h : Rounds env d i p n z df si di body T K) (h0 : 0 < K)
    (h1 : p.rep = .none → K = 1) (h2 : p.rep ≠ .none → K ≤ (cxOf (T 0)).toNat)
    (hgo : ∀ k, k + 1 < K → goes z p.rep (T (k + 1)).flags = true)
    (hend : p.rep ≠ .none → K = (cxOf (T 0)).toNat ∨ goes z p.rep (T K).flags = false) (a : Bool) :
    strLoop z (n / 8) (ofsMask a) body 65536 (idxAt a df n si 0) (idxAt a df n di 0) env (loopSt d i p (T 0) 0) =
      .ok (idxAt a df n si K, idxAt a df n di K) (loopSt d i p (T K) K) := by
  obtain ⟨K', rfl⟩ : ∃ K', K = K' + 1 := ⟨K - 1, by omega⟩
  have hlt := (cxOf (T 0)).isLt
  have hK : K' + 1 < 65536 := by
    by_cases hr : p.rep = .none
    · rw [h1 hr]; decide
    · have := h2 hr; omega
  have hcx : K' ≤ (cxOf (T 0)).toNat := by
    by_cases hr : p.rep = .none
    · have := h1 hr; omega
    · have := h2 hr; omega
  obtain ⟨fuel, hf⟩ : ∃ fuel, 65536 = K' + (fuel + 1 + 1) := ⟨65536 - K' - 2, by omega⟩
  rw [hf, strLoop_rounds h K' (by omega) hcx (fun k hk => hgo k (by omega)),
    strLoop_round h (k := K') (by omega) (fun hr => by have := h2 hr; omega)]
  split
  · rename_i hg
    have hr : p.rep ≠ .none := by
      intro hr
      simp [goes, hr] at hg
    have hK' : K' + 1 = (cxOf (T 0)).toNat := by
      rcases hend hr with e | e
      · exact e
      · rw [e] at hg; cases hg
    have hce := strCount_end (i := i) (t := T (K' + 1)) h.rep hr env
    rw [h.cx _ (by omega), ← hK'] at hce
    simp only [strLoop, bind_apply, hce, resbind_ok, ite_apply, if_true, pure_apply]
  · rfl

/-- Final state of a string instruction after `K` elements. -/
def strFinal (s : State) (p : Pfx) (n : Nat) (uD uS : Bool) (t : State) (K : Nat) : State :=
  let t1 := countDown p t K
  let t2 := if uD then moveDI s p n K t1 else t1
  if uS then moveSI s p n K t2 else t2

theorem withDI_eq (t : State) (v : BitVec 16) : withDI t v = t.setReg 16 rDI v := put_reg ..
theorem withSI_eq (t : State) (v : BitVec 16) : withSI t v = t.setReg 16 rSI v := put_reg ..

/-- Writing an index register at the address width. -/
def setIdx (a : Bool) (r : BitVec 3) (v : BitVec 32) (t : State) : State := if a then t.setReg 32 r v else t.setReg 16 r (v.setWidth 16)

theorem moveDI_eq (s : State) (p : Pfx) (n K : Nat) (t : State) : moveDI s p n K t = setIdx p.addr rDI (idxAt p.addr (dfOf s) n (s.gpr 7) K) t := by
  unfold moveDI setIdx
  split
  · rename_i h; rw [h, put_reg]; rfl
  · rename_i h
    rw [Bool.not_eq_true] at h
    rw [h, idxAt_16, withDI_eq]; rfl

theorem moveSI_eq (s : State) (p : Pfx) (n K : Nat) (t : State) : moveSI s p n K t = setIdx p.addr rSI (idxAt p.addr (dfOf s) n (s.gpr 6) K) t := by
  unfold moveSI setIdx
  split
  · rename_i h; rw [h, put_reg]; rfl
  · rename_i h
    rw [Bool.not_eq_true] at h
    rw [h, idxAt_16, withSI_eq]; rfl

theorem strOfs_apply (t : State) (r : BitVec 3) (env : Env) :
    strOfs r env t = .ok (if t.dec.ovrAddr then t.reg 32 r else (t.reg 16 r).setWidth 32) t := by
  simp only [strOfs, bind_apply, getDec_apply, resbind_ok, ite_apply, getReg_apply, pure_apply]
  split <;> rfl

theorem strPut_apply (t : State) (u : Bool) (r : BitVec 3) (v : BitVec 32) (env : Env) :
    strPut u r v env t = .ok () (if u then setIdx t.dec.ovrAddr r v t else t) := by
  cases u
  · rfl
  · simp only [strPut, if_true, bind_apply, getDec_apply, resbind_ok, ite_apply, setReg_apply, setIdx]
    split <;> rfl

theorem setIdx_frame (a : Bool) (r : BitVec 3) (v : BitVec 32) (t : State) : (setIdx a r v t).host = t.host ∧ (setIdx a r v t).map = t.map ∧
    (setIdx a r v t).valid = t.valid ∧ (setIdx a r v t).ip = t.ip ∧ (setIdx a r v t).dec = t.dec ∧ (setIdx a r v t).flags = t.flags ∧
    (∀ q, q ≠ r → (setIdx a r v t).gpr q = t.gpr q) := by
  cases a
  · exact ⟨rfl, rfl, rfl, rfl, rfl, rfl, fun q hq => gpr_setReg_ne (n := 16) t hq _⟩
  · exact ⟨rfl, rfl, rfl, rfl, rfl, rfl, fun q hq => gpr_setReg_ne (n := 32) t hq _⟩

theorem setIdx_low (a : Bool) (r : BitVec 3) (v : BitVec 32) (t : State) : ((setIdx a r v t).gpr r).setWidth 16 = v.setWidth 16 := by
  cases a
  · exact reg_setReg_same t (n := 16) (by decide) r _
  · have := reg_setReg_same t (n := 32) (by decide) r v
    have h32 : (t.setReg 32 r v).gpr r = v := by simpa [State.reg] using this
    show ((t.setReg 32 r v).gpr r).setWidth 16 = _
    rw [h32]

theorem setIdx_dec (a : Bool) (r : BitVec 3) (v : BitVec 32) (t : State) (d : Decoder) (i : Int) :
    setIdx a r v { t with dec := d, instrNum := i } = { setIdx a r v t with dec := d, instrNum := i } := by
  cases a <;> rfl

theorem setIdx_zero (s : State) (a df : Bool) (n : Nat) (r : BitVec 3) : setIdx a r (idxAt a df n (s.gpr r) 0) s = s := by
  rw [idxAt_zero]
  cases a
  · simp only [setIdx, Bool.false_eq_true, if_false]
    have : ((s.gpr r).setWidth 16).setWidth 32 = (((s.gpr r).setWidth 16).setWidth 32) := rfl
    rw [show (((s.gpr r).setWidth 16).setWidth 32).setWidth 16 = (s.gpr r).setWidth 16 by simp]
    exact setReg_self s 16 r
  · simp only [setIdx, if_true]
    have := setReg_self s 32 r
    simpa [State.reg] using this

/-- A string instruction that processes the elements `0 … K-1`. -/
theorem stringOp_run {s : State} {j : Nat} {uD uS : Bool}
    {body : BitVec 16 → BitVec 32 → BitVec 16 → BitVec 32 → M Unit}
    (hT0 : T 0 = s)
    (h : Rounds env (decOf p j) (s.instrNum + 1) p n z (dfOf s) (s.gpr 6) (s.gpr 7) (fun so dd => body (srcSeg s p) so (dstSeg s) dd) T K)
    (h1 : p.rep = .none → K = 1) (h2 : p.rep ≠ .none → K ≤ (cxOf s).toNat)
    (hgo : ∀ k, k + 1 < K → goes z p.rep (T (k + 1)).flags = true)
    (hend : p.rep ≠ .none → K = (cxOf s).toNat ∨ (0 < K ∧ goes z p.rep (T K).flags = false)) :
    stringOp z uD uS (n / 8) body env (opState s p j) =
      .ok () { strFinal s p n uD uS (T K) K with dec := { decOf p j with rep := .none }, instrNum := s.instrNum + 1 } := by
  have hda : (opState s p j).dec.ovrAddr = p.addr := rfl
  have hdr : (opState s p j).dec.rep = p.rep := rfl
  have hsi : (if p.addr then (opState s p j).reg 32 rSI else ((opState s p j).reg 16 rSI).setWidth 32) = idxAt p.addr (dfOf s) n (s.gpr 6) 0 := by
    rw [idxAt_zero]
    have e : (opState s p j).reg 32 rSI = s.gpr 6 := by
      show (s.gpr 6).setWidth 32 = _
      simp
    rw [e]; rfl
  have hdi : (if p.addr then (opState s p j).reg 32 rDI else ((opState s p j).reg 16 rDI).setWidth 32) = idxAt p.addr (dfOf s) n (s.gpr 7) 0 := by
    rw [idxAt_zero]
    have e : (opState s p j).reg 32 rDI = s.gpr 7 := by
      show (s.gpr 7).setWidth 32 = _
      simp
    rw [e]; rfl
  simp only [stringOp, bind_apply, getSreg_apply, resbind_ok, getSegment, getDec_apply, strOfs_apply, getReg_apply, ite_apply, hdr, hda, hsi, hdi]
  by_cases hc : p.rep ≠ .none ∧ (opState s p j).reg 16 rCX = 0
  · rw [if_pos hc]
    have hcx : cxOf s = 0 := hc.2
    have hK : K = 0 := by have := h2 hc.1; rw [hcx] at this; simpa using this
    subst hK
    rw [hT0]
    refine congrArg (Res.ok ()) ?_
    have e1 : countDown p s 0 = s := by
      rw [countDown_some hc.1, BitVec.sub_zero]; exact setReg_self s 16 rCX
    have e2 : moveDI s p n 0 s = s := by rw [moveDI_eq]; exact setIdx_zero s _ _ _ 7
    have e3 : moveSI s p n 0 s = s := by rw [moveSI_eq]; exact setIdx_zero s _ _ _ 6
    simp only [strFinal, e1, e2, e3, ite_self]
    rfl
  · rw [if_neg hc]
    have hK : 0 < K := by
      by_cases hr : p.rep = .none
      · rw [h1 hr]; decide
      · rcases hend hr with e | e
        · rw [e]
          have : cxOf s ≠ 0 := fun h => hc ⟨hr, h⟩
          exact Nat.pos_of_ne_zero (fun h => this (BitVec.eq_of_toNat_eq h))
        · exact e.1
    have hst : opState s p j = loopSt (decOf p j) (s.instrNum + 1) p (T 0) 0 := by
      rw [hT0, loopSt]
      have e1 : countDown p s 0 = s := by
        by_cases hr : p.rep = .none
        · exact countDown_none hr s 0
        · rw [countDown_some hr, BitVec.sub_zero]; exact setReg_self s 16 rCX
      rw [e1]; rfl
    have hl := strLoop_all h hK h1 (by rw [hT0]; exact h2) hgo (fun hr => by
      rw [hT0]
      rcases hend hr with e | e
      · exact Or.inl e
      · exact Or.inr e.2) p.addr
    rw [← hst] at hl
    have hm : (if p.addr = true then (0xFFFFFFFF : BitVec 32) else 0xFFFF) = ofsMask p.addr := rfl
    have hss : (opState s p j).sreg .es = dstSeg s := rfl
    have hss2 : (opState s p j).sreg ((opState s p j).dec.ovrSeg.getD .ds) = srcSeg s p := rfl
    simp only [hm, hss, hss2, hl, resbind_ok, strPut_apply]
    refine congrArg (Res.ok ()) ?_
    have hd : (loopSt (decOf p j) (s.instrNum + 1) p (T K) K).dec.ovrAddr = p.addr := rfl
    have hd2 : ∀ v, (setIdx p.addr rDI v (loopSt (decOf p j) (s.instrNum + 1) p (T K) K)).dec.ovrAddr = p.addr := by
      intro v; rw [(setIdx_frame _ _ _ _).2.2.2.2.1]; rfl
    simp only [strFinal, moveDI_eq, moveSI_eq]
    cases uD <;> cases uS <;> simp only [if_true, Bool.false_eq_true, if_false, hd, hd2] <;> (simp only [loopSt, setIdx_dec]; try rfl)

end RME
