import Verif.Lemmas.Strings
import Verif.Props.Flags
set_option autoImplicit false
/-
C32–C35: string instructions.
-/
namespace RME

theorem elemW_cases (p : Pfx) (w : Bool) : elemW p w = 8 ∨ elemW p w = 16 ∨ elemW p w = 32 := by
  unfold elemW opW; split <;> (try split) <;> simp

theorem strW_op (w : Bool) (f : Nat → M Unit) (env : Env) (s : State) (p : Pfx) (j : Nat) :
    strW w f env (opState s p j) = f (elemW p w) env (opState s p j) := by
  cases w
  · rfl
  · exact withW_op f env _ p rfl

theorem strFinal_host (s : State) (p : Pfx) (n : Nat) (uD uS : Bool) (t : State) (K : Nat) :
    (strFinal s p n uD uS t K).host = t.host ∧ (strFinal s p n uD uS t K).map = t.map ∧ (strFinal s p n uD uS t K).valid = t.valid ∧
    (strFinal s p n uD uS t K).ip = t.ip := by
  obtain ⟨_, h1, h2, h3, _, _, h4, _⟩ := countDown_frame p t K
  obtain ⟨a1, a2, a3, a4, _⟩ := setIdx_frame p.addr rDI (idxAt p.addr (dfOf s) n (s.gpr 7) K) (countDown p t K)
  obtain ⟨b1, b2, b3, b4, _⟩ := setIdx_frame p.addr rSI (idxAt p.addr (dfOf s) n (s.gpr 6) K) (countDown p t K)
  obtain ⟨c1, c2, c3, c4, _⟩ := setIdx_frame p.addr rSI (idxAt p.addr (dfOf s) n (s.gpr 6) K)
    (setIdx p.addr rDI (idxAt p.addr (dfOf s) n (s.gpr 7) K) (countDown p t K))
  cases uD <;> cases uS <;> simp only [strFinal, moveDI_eq, moveSI_eq, if_true, Bool.false_eq_true, if_false, a1, a2, a3, a4, b1, b2, b3, b4,
    c1, c2, c3, c4] <;> exact ⟨h3, h1, h2, h4⟩

theorem moveDI_frame (s : State) (p : Pfx) (n K : Nat) (t : State) : (moveDI s p n K t).host = t.host ∧ (moveDI s p n K t).flags = t.flags ∧
    (∀ q, q ≠ 7 → (moveDI s p n K t).gpr q = t.gpr q) ∧ diOf (moveDI s p n K t) = dstOfs s n K := by
  rw [moveDI_eq]
  obtain ⟨a1, _, _, _, _, a6, a7⟩ := setIdx_frame p.addr rDI (idxAt p.addr (dfOf s) n (s.gpr 7) K) t
  exact ⟨a1, a6, a7, (setIdx_low _ _ _ _).trans (idxAt_16 _ _ _ _ _)⟩

theorem moveSI_frame (s : State) (p : Pfx) (n K : Nat) (t : State) : (moveSI s p n K t).host = t.host ∧ (moveSI s p n K t).flags = t.flags ∧
    (∀ q, q ≠ 6 → (moveSI s p n K t).gpr q = t.gpr q) ∧ siOf (moveSI s p n K t) = srcOfs s n K := by
  rw [moveSI_eq]
  obtain ⟨a1, _, _, _, _, a6, a7⟩ := setIdx_frame p.addr rSI (idxAt p.addr (dfOf s) n (s.gpr 6) K) t
  exact ⟨a1, a6, a7, (setIdx_low _ _ _ _).trans (idxAt_16 _ _ _ _ _)⟩

theorem cxOf_countDown {p : Pfx} (h : p.rep ≠ .none) (t : State) (k : Nat) : cxOf (countDown p t k) = cxOf t - BitVec.ofNat 16 k := by
  rw [countDown_some h]
  exact reg_setReg_same t (n := 16) (by decide) rCX _

/-- Executing a string instruction that processes the elements `0 … K-1`. -/
theorem string_falls {s : State} {h0 : Nat} {p : Pfx} {op : BitVec 8} {len : Nat} (hat : At s h0 p [op] len) (env : Env)
    (hop : op ≠ 0xF1) {o : Op} (he : opEntry op = some ⟨.base o, 0, false⟩) {w z uD uS : Bool}
    {body : Nat → BitVec 16 → BitVec 32 → BitVec 16 → BitVec 32 → M Unit}
    (ho : opFn o 0 = strW w (fun n => stringOp z uD uS (n / 8) (body n))) {T : Nat → State} {K : Nat} (hT0 : T 0 = s)
    (h : Rounds env (decOf p len) (s.instrNum + 1) p (elemW p w) z (dfOf s) (s.gpr 6) (s.gpr 7)
      (fun so dd => body (elemW p w) (srcSeg s p) so (dstSeg s) dd) T K)
    (h1 : p.rep = .none → K = 1) (h2 : p.rep ≠ .none → K ≤ (cxOf s).toNat)
    (hgo : ∀ k, k + 1 < K → goes z p.rep (T (k + 1)).flags = true)
    (hend : p.rep ≠ .none → K = (cxOf s).toNat ∨ (0 < K ∧ goes z p.rep (T K).flags = false))
    (hm : (T K).map = s.map) (hv : (T K).valid = s.valid) (hip : (T K).ip = s.ip) (hn : NotZeroed (T K) h0 len) :
    Falls env s len (strFinal s p (elemW p w) uD uS (T K) K) := by
  obtain ⟨f1, f2, f3, f4⟩ := strFinal_host s p (elemW p w) uD uS (T K) K
  refine Runs.falls (d := { decOf p len with rep := .none }) hat (Runs.mk _ 0 hop he rfl ?_) (f4.trans hip) (f2.trans hm) (f3.trans hv) rfl rfl ?_
  · intro bytes j _ hj _
    obtain rfl : j = len := hj
    simp only [callFn, ho, strW_op]
    exact stringOp_run hT0 h h1 h2 hgo hend
  · intro hl hz
    rw [f1] at hz
    exact hn hl hz

/-- What can be seen after a string instruction that uses DI (and SI). -/
theorem after_DI {p : Pfx} (hr : p.rep ≠ .none) (s t : State) (n K : Nat) : (moveDI s p n K (countDown p t K)).flags = t.flags ∧
    cxOf (moveDI s p n K (countDown p t K)) = cxOf t - BitVec.ofNat 16 K ∧ diOf (moveDI s p n K (countDown p t K)) = dstOfs s n K ∧
    (moveDI s p n K (countDown p t K)).host = t.host := by
  obtain ⟨a1, a2, a3, a4⟩ := moveDI_frame s p n K (countDown p t K)
  obtain ⟨_, _, _, b1, b2, _⟩ := countDown_frame p t K
  refine ⟨a2.trans b2, ?_, a4, a1.trans b1⟩
  rw [← cxOf_countDown hr, cxOf, cxOf, a3 1 (by decide)]

theorem after_DISI {p : Pfx} (hr : p.rep ≠ .none) (s t : State) (n K : Nat) :
    (moveSI s p n K (moveDI s p n K (countDown p t K))).flags = t.flags ∧
    cxOf (moveSI s p n K (moveDI s p n K (countDown p t K))) = cxOf t - BitVec.ofNat 16 K ∧
    diOf (moveSI s p n K (moveDI s p n K (countDown p t K))) = dstOfs s n K ∧
    siOf (moveSI s p n K (moveDI s p n K (countDown p t K))) = srcOfs s n K ∧
    (moveSI s p n K (moveDI s p n K (countDown p t K))).host = t.host := by
  obtain ⟨a1, a2, a3, a4⟩ := after_DI hr s t n K
  obtain ⟨b1, b2, b3, b4⟩ := moveSI_frame s p n K (moveDI s p n K (countDown p t K))
  refine ⟨b2.trans a1, ?_, ?_, b4, b1.trans a4⟩
  · rw [← a2, cxOf, cxOf, b3 1 (by decide)]
  · rw [← a3, diOf, diOf, b3 7 (by decide)]

/-! ### C32: MOVS -/

def memVal (t : State) (n : Nat) (seg ofs : BitVec 16) : BitVec n :=
  match hostAddr t seg ofs with
  | some h => valAt t n h
  | none => 0

/-- The data states of MOVS. -/
def copySeq (s : State) (p : Pfx) (n : Nat) : Nat → State
  | 0 => s
  | k + 1 => (Opnd.mem (dstSeg s) (dstOfs s n k)).put (copySeq s p n k) n (memVal (copySeq s p n k) n (srcSeg s p) (srcOfs s n k))

/-- `t` is `s` with other memory contents. -/
def HostOnly (s t : State) : Prop := ∃ H, t = { s with host := H }

theorem HostOnly.put {s t : State} (h : HostOnly s t) (n : Nat) (seg ofs : BitVec 16) (v : BitVec n) :
    HostOnly s ((Opnd.mem seg ofs).put t n v) := by
  obtain ⟨H, rfl⟩ := h
  simp only [Opnd.put]
  split
  · exact ⟨_, rfl⟩
  · exact ⟨_, rfl⟩

theorem HostOnly.mapped {s t : State} (h : HostOnly s t) {n : Nat} {seg ofs : BitVec 16} {a : Nat} (hm : Mapped s n seg ofs a) :
    Mapped t n seg ofs a := by
  obtain ⟨H, rfl⟩ := h
  exact hm

theorem copySeq_host (s : State) (p : Pfx) (n k : Nat) : HostOnly s (copySeq s p n k) := by
  induction k with
  | zero => exact ⟨s.host, rfl⟩
  | succ k ih => exact ih.put _ _ _ _

theorem copySeq_copied {s : State} {p : Pfx} {n : Nat} (hn : n % 8 = 0) {K : Nat} (hs : SrcMapped s p n K) :
    ∀ k ≤ K, Copied s p n k (copySeq s p n k) := by
  intro k hk
  induction k with
  | zero => exact .zero
  | succ k ih =>
    obtain ⟨h, hm⟩ := hs k (by omega)
    have hm' := (copySeq_host s p n k).mapped hm
    refine .succ (ih (by omega)) ⟨h, hm', ?_⟩
    rw [memVal, hm'.1]
    exact holds_valAt hn _ _

theorem loopSt_host (d : Decoder) (i : Int) (p : Pfx) (t : State) (H : Nat → BitVec 8) (k : Nat) :
    loopSt d i p { t with host := H } k = { loopSt d i p t k with host := H } := by
  by_cases h : p.rep = .none
  · simp only [loopSt, countDown_none h]
  · simp only [loopSt, countDown_some h]; rfl

theorem loopSt_mapped {d : Decoder} {i : Int} {p : Pfx} {t : State} {k n : Nat} {seg ofs : BitVec 16} {a : Nat} (h : Mapped t n seg ofs a) :
    Mapped (loopSt d i p t k) n seg ofs a :=
  h.congr (countDown_frame p t k).2.1 (countDown_frame p t k).2.2.1

theorem loopSt_val {d : Decoder} {i : Int} {p : Pfx} {t : State} {k n a : Nat} : valAt (loopSt d i p t k) n a = valAt t n a := by
  show BitVec.ofNat n (loadLE (countDown p t k).host _ _) = _
  rw [(countDown_frame p t k).2.2.2.1]; rfl

theorem loopSt_read {d : Decoder} {i : Int} {p : Pfx} {t : State} {k n : Nat} {seg ofs : BitVec 16} {a : Nat} (h : Mapped t n seg ofs a)
    (env : Env) : readMem n seg ofs env (loopSt d i p t k) = .ok (memVal t n seg ofs) (loopSt d i p t k) := by
  rw [readMem_mapped env (loopSt_mapped h), loopSt_val, memVal, h.1]

theorem loopSt_write {d : Decoder} {i : Int} {p : Pfx} {t : State} {k n : Nat} {seg ofs : BitVec 16} {a : Nat} (h : Mapped t n seg ofs a)
    (env : Env) (v : BitVec n) : writeMem n seg ofs v env (loopSt d i p t k) = .ok () (loopSt d i p ((Opnd.mem seg ofs).put t n v) k) := by
  rw [writeMem_mapped env (loopSt_mapped h)]
  simp only [Opnd.put, h.1, loopSt_host]
  refine congrArg (Res.ok ()) ?_
  have : (loopSt d i p t k).host = t.host := (countDown_frame p t k).2.2.2.1
  rw [this]

theorem sw16 (x : BitVec 16) : (x.setWidth 32).setWidth 16 = x := by simp

theorem copy_rounds {s : State} {p : Pfx} {w : Bool} {K : Nat} (hs : SrcMapped s p (elemW p w) K) (hd : DstMapped s (elemW p w) K)
    (env : Env) (j : Nat) :
    Rounds env (decOf p j) (s.instrNum + 1) p (elemW p w) false (dfOf s) (s.gpr 6) (s.gpr 7)
      (fun so dd => (do let v ← readMem (elemW p w) (srcSeg s p) (so.setWidth 16); writeMem (elemW p w) (dstSeg s) (dd.setWidth 16) v))
      (copySeq s p (elemW p w)) K where
  rep := rfl
  width := elemW_cases p w
  cx := fun k _ => by obtain ⟨H, e⟩ := copySeq_host s p (elemW p w) k; rw [e]; rfl
  dir := fun k _ => by obtain ⟨H, e⟩ := copySeq_host s p (elemW p w) k; rw [e]; rfl
  body := fun k hk so dd hso hdd => by
    obtain ⟨h, hm⟩ := hs k hk
    obtain ⟨h', hm'⟩ := hd k hk
    have e := copySeq_host s p (elemW p w) k
    simp only [bind_apply, hso, hdd]
    rw [show elemOfs (dfOf s) (elemW p w) (BitVec.setWidth 16 (s.gpr 6)) k = srcOfs s (elemW p w) k from rfl,
      show elemOfs (dfOf s) (elemW p w) (BitVec.setWidth 16 (s.gpr 7)) k = dstOfs s (elemW p w) k from rfl,
      loopSt_read (e.mapped hm), resbind_ok, loopSt_write (e.mapped hm')]
    rfl

theorem goes_nz {r : Rep} (h : r ≠ .none) (f : BitVec 16) : goes false r f = true := by
  cases r <;> simp [goes] at h ⊢

theorem reps_one {s : State} {p : Pfx} (h : p.rep = .none) : reps s p = 1 := if_pos h
theorem reps_cx {s : State} {p : Pfx} (h : p.rep ≠ .none) : reps s p = (cxOf s).toNat := if_neg h

theorem goes_reps {s : State} {p : Pfx} (f : Nat → BitVec 16) : ∀ k, k + 1 < reps s p → goes false p.rep (f (k + 1)) = true := by
  intro k hk
  by_cases h : p.rep = .none
  · rw [reps_one h] at hk; omega
  · exact goes_nz h _

/-- Opcode byte of a string instruction: `b`, or `b + 1` for the word form. -/
def strOpc (b : BitVec 8) (wide : Bool) : BitVec 8 := if wide then b + 1 else b

/-- C32: MOVS copies element by element in the order of DF (CX elements with a repeat prefix, else one); CX counts down to 0 and SI, DI
advance; nothing else changes. -/
theorem C32_movs {s : State} {h0 : Nat} {p : Pfx} {len : Nat} {w : Bool} (hat : At s h0 p [strOpc 0xA4 w] len)
    (env : Env) (hs : SrcMapped s p (elemW p w) (reps s p)) (hd : DstMapped s (elemW p w) (reps s p)) :
    ∃ t, Copied s p (elemW p w) (reps s p) t ∧
      (NotZeroed t h0 len → Falls env s len
        (moveSI s p (elemW p w) (reps s p) (moveDI s p (elemW p w) (reps s p) (countDown p t (reps s p))))) := by
  have hn : elemW p w % 8 = 0 := by rcases elemW_cases p w with h | h | h <;> rw [h]
  refine ⟨_, copySeq_copied hn hs _ (Nat.le_refl _), fun hnz => ?_⟩
  obtain ⟨H, e⟩ := copySeq_host s p (elemW p w) (reps s p)
  refine string_falls (o := .movs w) (w := w) (z := false) (uD := true) (uS := true)
    (body := fun n ss so ds dd => (do let v ← readMem n ss (so.setWidth 16); writeMem n ds (dd.setWidth 16) v))
    hat env (by cases w <;> decide) (by cases w <;> decide +kernel) rfl (T := copySeq s p (elemW p w)) rfl
    (copy_rounds hs hd env len) reps_one (fun h => Nat.le_of_eq (reps_cx h)) (goes_reps (fun k => (copySeq s p (elemW p w) k).flags))
    (fun h => Or.inl (reps_cx h)) (by rw [e]) (by rw [e]) (by rw [e]) hnz

theorem copied_effect {s : State} {p : Pfx} {n K : Nat} (hn : n % 8 = 0) (hap : Apart s p n K) (hd : DstMapped s n K) {k : Nat} {t : State}
    (h : Copied s p n k t) : k ≤ K → HostOnly s t ∧ (∀ a, ¬ InDst s n k a → t.host a = s.host a) ∧
      (∀ i < k, ∀ v : BitVec n, Holds s (srcSeg s p) (srcOfs s n i) v → Holds t (dstSeg s) (dstOfs s n i) v) := by
  induction h with
  | zero => exact fun _ => ⟨⟨s.host, rfl⟩, fun _ _ => rfl, fun i hi => absurd hi (Nat.not_lt_zero i)⟩
  | @succ k t h v hv ih =>
    intro hk
    obtain ⟨h1, h2, h3⟩ := ih (by omega)
    obtain ⟨a, hm⟩ := hd k (by omega)
    have hput : (Opnd.mem (dstSeg s) (dstOfs s n k)).put t n v = { t with host := putHost t.host a v } := by
      have : hostAddr t (dstSeg s) (dstOfs s n k) = some a := (h1.mapped hm).1
      simp only [Opnd.put, this]
    refine ⟨h1.put _ _ _ _, ?_, ?_⟩
    · intro b hb
      rw [hput]
      show putHost t.host a v b = _
      rw [putHost_frame _ _ _ _ (by
        by_cases hx : a ≤ b ∧ b < a + n / 8
        · exact absurd ⟨k, by omega, a, hm.1, hx.1, hx.2⟩ hb
        · omega)]
      exact h2 b (fun ⟨i, hi, hh⟩ => hb ⟨i, by omega, hh⟩)
    · intro i hi w hw
      rw [hput]
      by_cases he : i = k
      · subst he
        -- the source still has its original value
        obtain ⟨c, hc, hcw⟩ := hw
        have hsame : v = w := by
          obtain ⟨c', hc', hcv⟩ := hv
          have : c' = c := by
            obtain ⟨H, rfl⟩ := h1
            have := hc'.1
            rw [show hostAddr { s with host := H } (srcSeg s p) (srcOfs s n i) = hostAddr s (srcSeg s p) (srcOfs s n i) from rfl, hc.1] at this
            exact (Option.some.inj this).symm
          subst this
          apply BitVec.eq_of_getLsbD_eq
          intro b hb
          by_cases h8 : b / 8 < n / 8
          · have e1 := hcv (b / 8) h8
            have e2 := hcw (b / 8) h8
            have e3 : t.host (c' + b / 8) = s.host (c' + b / 8) := by
              refine h2 _ (fun ⟨j, hj, h', hh', l1, l2⟩ => ?_)
              rcases hap.src i (by omega) j (by omega) c' h' hc.1 hh' with q | q <;> omega
            rw [e1, e2] at e3
            have := congrArg (fun x => x.getLsbD (b % 8)) e3
            simp only [byteOf, BitVec.getLsbD_setWidth, BitVec.getLsbD_ushiftRight] at this
            have hb8 : 8 * (b / 8) + b % 8 = b := by omega
            rw [hb8] at this
            simpa [Nat.mod_lt] using this
          · omega
        subst hsame
        exact ⟨a, (h1.mapped hm), putHost_holds t a v⟩
      · obtain ⟨c, hc, hcw⟩ := h3 i (by omega) w hw
        have hmc : hostAddr s (dstSeg s) (dstOfs s n i) = some c := by
          obtain ⟨H, rfl⟩ := h1
          exact hc.1
        refine ⟨c, hc, fun b hb => ?_⟩
        show putHost t.host a v (c + b) = _
        rw [putHost_frame _ _ _ _ (by
          rcases hap.dst i (by omega) k (by omega) he c a hmc hm.1 with q | q <;> omega)]
        exact hcw b hb

theorem elemW_mod (p : Pfx) (w : Bool) : elemW p w % 8 = 0 := by rcases elemW_cases p w with h | h | h <;> rw [h]

/-- C32: if the ranges do not overlap, after MOVS every destination element has the value its source element had, and all other
memory is unchanged. -/
theorem C32_movs_block {s : State} {h0 : Nat} {p : Pfx} {len : Nat} {w : Bool} (hat : At s h0 p [strOpc 0xA4 w] len)
    (env : Env) (hs : SrcMapped s p (elemW p w) (reps s p)) (hd : DstMapped s (elemW p w) (reps s p))
    (hap : Apart s p (elemW p w) (reps s p)) :
    ∃ t, (NotZeroed t h0 len → Falls env s len
        (moveSI s p (elemW p w) (reps s p) (moveDI s p (elemW p w) (reps s p) (countDown p t (reps s p))))) ∧
      (∃ H, t = { s with host := H }) ∧
      (∀ a, ¬ InDst s (elemW p w) (reps s p) a → t.host a = s.host a) ∧
      (∀ i < reps s p, ∀ v : BitVec (elemW p w), Holds s (srcSeg s p) (srcOfs s (elemW p w) i) v →
        Holds t (dstSeg s) (dstOfs s (elemW p w) i) v) := by
  obtain ⟨t, hc, hf⟩ := C32_movs hat env hs hd
  obtain ⟨h1, h2, h3⟩ := copied_effect (elemW_mod p w) hap hd hc (Nat.le_refl _)
  exact ⟨t, hf, h1, h2, h3⟩

/-! ### C33: STOS -/

theorem filled_host (s : State) (n : Nat) (v : BitVec n) (k : Nat) : HostOnly s (filled s n v k) := by
  induction k with
  | zero => exact ⟨s.host, rfl⟩
  | succ k ih => exact ih.put _ _ _ _

theorem stos_rounds {s : State} {p : Pfx} {w : Bool} {K : Nat} {v : BitVec (elemW p w)} (hv : (Opnd.reg 0).Has s (elemW p w) v) (hd : DstMapped s (elemW p w) K)
    (env : Env) (len : Nat) :
    Rounds env (decOf p len) (s.instrNum + 1) p (elemW p w) false (dfOf s) (s.gpr 6) (s.gpr 7)
      (fun _ dd => (do let v ← getReg (elemW p w) rAX; writeMem (elemW p w) (dstSeg s) (dd.setWidth 16) v))
      (filled s (elemW p w) v) K := by
  constructor
  · rfl
  · exact elemW_cases p w
  · intro k _; obtain ⟨H, e⟩ := filled_host s (elemW p w) v k; rw [e]; rfl
  · intro k _; obtain ⟨H, e⟩ := filled_host s (elemW p w) v k; rw [e]; rfl
  · intro k hk so dd hso hdd
    obtain ⟨h', hm'⟩ := hd k hk
    have e := filled_host s (elemW p w) v k
    have hax : (loopSt (decOf p len) (s.instrNum + 1) p (filled s (elemW p w) v k) (k + 1)).reg (elemW p w) rAX = v := by
      show ((countDown p _ _).gpr 0).setWidth _ = v
      rw [(countDown_frame p _ (k + 1)).2.2.2.2.2.2.2 0 (by decide)]
      obtain ⟨H, e⟩ := e
      rw [e]; exact hv.symm
    simp only [bind_apply, hso, hdd, getReg_apply, resbind_ok, hax]
    rw [show elemOfs (dfOf s) (elemW p w) (BitVec.setWidth 16 (s.gpr 7)) k = dstOfs s (elemW p w) k from rfl, loopSt_write (e.mapped hm')]
    rfl

/-- C33: STOS stores AL/AX/EAX into the destination elements (CX of them with a repeat prefix, else one), CX counts down to 0, DI advances;
nothing else changes. -/
theorem C33_stos {s : State} {h0 : Nat} {p : Pfx} {len : Nat} {w : Bool} (hat : At s h0 p [strOpc 0xAA w] len)
    (env : Env) {v : BitVec (elemW p w)} (hv : (Opnd.reg 0).Has s (elemW p w) v) (hd : DstMapped s (elemW p w) (reps s p))
    (hnz : NotZeroed (filled s (elemW p w) v (reps s p)) h0 len) :
    Falls env s len (moveDI s p (elemW p w) (reps s p) (countDown p (filled s (elemW p w) v (reps s p)) (reps s p))) := by
  obtain ⟨H, e⟩ := filled_host s (elemW p w) v (reps s p)
  refine string_falls (o := .stos w) (w := w) (z := false) (uD := true) (uS := false)
    (body := fun n _ _ ds dd => (do let v ← getReg n rAX; writeMem n ds (dd.setWidth 16) v))
    hat env (by cases w <;> decide) (by cases w <;> decide +kernel) rfl (T := filled s (elemW p w) v) rfl
    (stos_rounds hv hd env len) reps_one (fun h => Nat.le_of_eq (reps_cx h)) (goes_reps (fun k => (filled s (elemW p w) v k).flags))
    (fun h => Or.inl (reps_cx h)) (by rw [e]) (by rw [e]) (by rw [e]) hnz

theorem filled8_host {s : State} {v : BitVec 8} {K : Nat} (hd : DstMapped s 8 K) (a : Nat) :
    ∀ k ≤ K, (InDst s 8 k a → (filled s 8 v k).host a = v) ∧ (¬ InDst s 8 k a → (filled s 8 v k).host a = s.host a) := by
  intro k hk
  induction k with
  | zero => exact ⟨fun ⟨j, hj, _⟩ => absurd hj (Nat.not_lt_zero j), fun _ => rfl⟩
  | succ k ih =>
    obtain ⟨i1, i2⟩ := ih (by omega)
    obtain ⟨b, hm⟩ := hd k (by omega)
    have hput : (filled s 8 v (k + 1)).host a = putHost (filled s 8 v k).host b v a := by
      have : hostAddr (filled s 8 v k) (dstSeg s) (dstOfs s 8 k) = some b := ((filled_host s 8 v k).mapped hm).1
      show ((Opnd.mem _ _).put _ _ _).host a = _
      simp only [Opnd.put, this]
    rw [hput]
    by_cases hx : a = b
    · subst hx
      have hv : putHost (filled s 8 v k).host a v a = v := by
        simp [putHost, byteOf]
      exact ⟨fun _ => hv, fun hn => absurd ⟨k, by omega, a, hm.1, by omega, by omega⟩ hn⟩
    · rw [putHost_frame _ _ _ _ (by omega)]
      refine ⟨fun ⟨j, hj, h, hh, l1, l2⟩ => i1 ⟨j, ?_, h, hh, l1, l2⟩, fun hn => i2 (fun ⟨j, hj, hh⟩ => hn ⟨j, by omega, hh⟩)⟩
      refine Nat.lt_of_le_of_ne (by omega) (fun he => ?_)
      subst he
      rw [hm.1] at hh
      cases hh
      omega

/-- C33: REP STOSB fills exactly the bytes of the destination string with AL: every byte of it is AL afterwards, every other byte of
memory is as before; CX = 0, DI has advanced by CX, and no other register, flag or segment changes. -/
theorem C33_rep_stosb {s : State} {h0 : Nat} {p : Pfx} {len : Nat} (hat : At s h0 p [0xAA] len) (hr : p.rep ≠ .none)
    (env : Env) {v : BitVec 8} (hv : (Opnd.reg 0).Has s 8 v) (hd : DstMapped s 8 (cxOf s).toNat) :
    ∃ H, (∀ a, InDst s 8 (cxOf s).toNat a → H a = v) ∧ (∀ a, ¬ InDst s 8 (cxOf s).toNat a → H a = s.host a) ∧
      (NotZeroed { s with host := H } h0 len →
        Falls env s len (moveDI s p 8 (cxOf s).toNat ((Opnd.reg 1).put { s with host := H } 16 0))) := by
  obtain ⟨H, e⟩ := filled_host s 8 v (cxOf s).toNat
  have hh := fun a => filled8_host hd (v := v) a _ (Nat.le_refl _)
  refine ⟨H, fun a hi => ?_, fun a hi => ?_, fun hnz => ?_⟩
  · have := (hh a).1 hi; rw [e] at this; exact this
  · have := (hh a).2 hi; rw [e] at this; exact this
  · have hf : Falls env s len (moveDI s p 8 (cxOf s).toNat (countDown p (filled s 8 v (cxOf s).toNat) (cxOf s).toNat)) := by
      have := C33_stos (w := false) hat env (v := v) hv (by rw [reps_cx hr]; exact hd) (by
        rw [reps_cx hr]
        show NotZeroed (filled s 8 v _) h0 len
        rw [e]; exact hnz)
      rw [reps_cx hr] at this
      exact this
    rw [e, countDown, if_neg hr] at hf
    have e0 : cxOf { s with host := H } - BitVec.ofNat 16 (cxOf s).toNat = 0 := by
      show cxOf s - _ = _
      rw [BitVec.ofNat_toNat, BitVec.setWidth_eq, BitVec.sub_self]; rfl
    rw [e0] at hf
    exact hf

/-! ### C62: LODS -/

/-- The data states of LODS. -/
def loadSeq (s : State) (n : Nat) (x : Nat → BitVec n) : Nat → State
  | 0 => s
  | k + 1 => s.setReg n rAX (x k)

theorem loopSt_ax {d : Decoder} {i : Int} {p : Pfx} {s : State} {n : Nat} (v : BitVec n) (k : Nat) :
    (loopSt d i p s k).setReg n rAX v = loopSt d i p (s.setReg n rAX v) k := by
  by_cases h : p.rep = .none
  · simp only [loopSt, countDown_none h]; rfl
  · simp only [loopSt, countDown_some h]
    have e : cxOf (s.setReg n rAX v) = cxOf s := rfl
    rw [e]
    apply State.ext' <;> try rfl
    funext r
    show (if r = 0 then _ else if r = 1 then _ else s.gpr r) = (if r = 1 then _ else if r = 0 then _ else s.gpr r)
    by_cases h0 : r = 0
    · subst h0; rfl
    · rw [if_neg h0, if_neg h0]; rfl

theorem loadSeq_frame (s : State) (n : Nat) (x : Nat → BitVec n) : ∀ k, (loadSeq s n x k).map = s.map ∧ (loadSeq s n x k).valid = s.valid ∧
    (loadSeq s n x k).ip = s.ip ∧ (loadSeq s n x k).host = s.host ∧ (loadSeq s n x k).flags = s.flags ∧ cxOf (loadSeq s n x k) = cxOf s := by
  intro k; cases k <;> exact ⟨rfl, rfl, rfl, rfl, rfl, rfl⟩

theorem lods_rounds {s : State} {p : Pfx} {w : Bool} {K : Nat} {x : Nat → BitVec (elemW p w)} (hx : ∀ k < K, Holds s (srcSeg s p) (srcOfs s (elemW p w) k) (x k))
    (env : Env) (len : Nat) :
    Rounds env (decOf p len) (s.instrNum + 1) p (elemW p w) false (dfOf s) (s.gpr 6) (s.gpr 7)
      (fun so _ => (do let v ← readMem (elemW p w) (srcSeg s p) (so.setWidth 16); setReg (elemW p w) rAX v))
      (loadSeq s (elemW p w) x) K := by
  have hfr := loadSeq_frame s (elemW p w) x
  constructor
  · rfl
  · exact elemW_cases p w
  · intro k _; exact (hfr k).2.2.2.2.2
  · intro k _; show (loadSeq s (elemW p w) x k).flags.getLsbD _ = _; rw [(hfr k).2.2.2.2.1]; rfl
  · intro k hk so dd hso hdd
    obtain ⟨_, cm, cv, ch, _⟩ := countDown_frame p (loadSeq s (elemW p w) x k) (k + 1)
    simp only [bind_apply, hso, hdd]
    rw [show elemOfs (dfOf s) (elemW p w) (BitVec.setWidth 16 (s.gpr 6)) k = srcOfs s (elemW p w) k from rfl,
      readMem_like (t := loopSt (decOf p len) (s.instrNum + 1) p (loadSeq s (elemW p w) x k) (k + 1)) (hx k hk) (elemW_cases p w)
        (cm.trans (hfr k).1) (cv.trans (hfr k).2.1) (ch.trans (hfr k).2.2.2.1), resbind_ok]
    simp only [setReg_apply, loopSt_ax]
    cases k with
    | zero => rfl
    | succ k =>
      show Res.ok () (loopSt _ _ _ ((s.setReg _ _ _).setReg _ _ _) _) = _
      rw [setReg_setReg]; rfl

/-- C62: LODS loads the source elements one after the other into AL/AX/EAX (so it ends with the last one); SI advances, CX counts down;
nothing else changes. -/
theorem C62_lods {s : State} {h0 : Nat} {p : Pfx} {len : Nat} {w : Bool} (hat : At s h0 p [strOpc 0xAC w] len)
    (env : Env) {x : Nat → BitVec (elemW p w)} (hx : ∀ k < reps s p, Holds s (srcSeg s p) (srcOfs s (elemW p w) k) (x k)) :
    Falls env s len (moveSI s p (elemW p w) (reps s p) (countDown p (if reps s p = 0 then s else (Opnd.reg 0).put s (elemW p w) (x (reps s p - 1))) (reps s p))) := by
  have hK : (if reps s p = 0 then s else (Opnd.reg 0).put s (elemW p w) (x (reps s p - 1))) = loadSeq s (elemW p w) x (reps s p) := by
    cases h : reps s p with
    | zero => rfl
    | succ k => rw [if_neg (by omega), put_reg]; rfl
  have hfr : ∀ k, (loadSeq s (elemW p w) x k).map = s.map ∧ (loadSeq s (elemW p w) x k).valid = s.valid ∧ (loadSeq s (elemW p w) x k).ip = s.ip ∧
      (loadSeq s (elemW p w) x k).host = s.host ∧ (loadSeq s (elemW p w) x k).flags = s.flags ∧ cxOf (loadSeq s (elemW p w) x k) = cxOf s := by
    intro k; cases k <;> exact ⟨rfl, rfl, rfl, rfl, rfl, rfl⟩
  rw [hK]
  refine string_falls (o := .lods w) (w := w) (z := false) (uD := false) (uS := true)
    (body := fun n ss so _ _ => (do let v ← readMem n ss (so.setWidth 16); setReg n rAX v))
    hat env (by cases w <;> decide) (by cases w <;> decide +kernel) rfl (T := loadSeq s (elemW p w) x) rfl
    (lods_rounds hx env len) reps_one (fun h => Nat.le_of_eq (reps_cx h)) (goes_reps (fun k => (loadSeq s (elemW p w) x k).flags))
    (fun h => Or.inl (reps_cx h)) (hfr _).1 (hfr _).2.1 (hfr _).2.2.1 ?_
  refine notZeroed_same hat (by cases w <;> decide) (hfr _).2.2.2.1

/-! ### C34: SCAS, CMPS -/

/-- Flags after comparing the pairs `(a 0, b 0) … (a (k-1), b (k-1))`. -/
def cmpSeq {n : Nat} (f : BitVec 16) (a b : Nat → BitVec n) : Nat → BitVec 16
  | 0 => f
  | k + 1 => (aluExec .cmp (a k) (b k) (cmpSeq f a b k)).2

theorem cmpSeq_rest {n : Nat} (hn : 8 ≤ n) (f : BitVec 16) (a b : Nat → BitVec n) (k : Nat) : OnlyBits arithBits f (cmpSeq f a b k) := by
  induction k with
  | zero => exact fun _ _ _ => rfl
  | succ k ih => exact fun i hi hx => ((cmp_spec hn (a k) (b k) (cmpSeq f a b k)).rest i hi hx).trans (ih i hi hx)

theorem cmpSeq_spec {n : Nat} (hn : 8 ≤ n) (f : BitVec 16) (a b : Nat → BitVec n) (k : Nat) :
    SubSpec (a k) (b k) false f (a k - b k) (cmpSeq f a b (k + 1)) := by
  have h := cmp_spec hn (a k) (b k) (cmpSeq f a b k)
  exact ⟨h.val, h.cf, h.of, h.af, h.res, fun i hi hx => (h.rest i hi hx).trans (cmpSeq_rest hn f a b k i hi hx)⟩

theorem sub_zero_iff {n : Nat} (a b : BitVec n) : (a - b).toNat = 0 ↔ a = b := by
  refine ⟨fun h => ?_, fun h => by rw [h, BitVec.sub_self]; simp⟩
  have h' : a - b = 0 := BitVec.eq_of_toNat_eq (by simpa using h)
  have := congrArg (· + b) h'
  simpa [BitVec.sub_add_cancel] using this

theorem cmpSeq_zf {n : Nat} (hn : 8 ≤ n) (f : BitVec 16) (a b : Nat → BitVec n) (k : Nat) :
    (cmpSeq f a b (k + 1)).getLsbD bZF = decide (a k = b k) := by
  rw [(cmpSeq_spec hn f a b k).res.zf]
  exact decide_eq_decide.mpr (sub_zero_iff _ _)

theorem goes_zf {n : Nat} (hn : 8 ≤ n) (r : Rep) (f : BitVec 16) (a b : Nat → BitVec n) (k : Nat) :
    goes true r (cmpSeq f a b (k + 1)) = goesOn r (decide (a k = b k)) := by
  rw [goes, cmpSeq_zf hn]
  cases r <;> cases decide (a k = b k) <;> rfl

theorem loopSt_cmp {d : Decoder} {i : Int} {p : Pfx} {s : State} {n : Nat} (f : BitVec 16) (a b : BitVec n) (k : Nat) (env : Env) :
    cmpFlags a b env (loopSt d i p { s with flags := f } k) = .ok () (loopSt d i p { s with flags := (aluExec .cmp a b f).2 } k) := by
  by_cases h : p.rep = .none
  · simp only [cmpFlags, bind_apply, getFlags_apply, resbind_ok, setFlags_apply, loopSt, countDown_none h]
  · simp only [cmpFlags, bind_apply, getFlags_apply, resbind_ok, setFlags_apply, loopSt, countDown_some h]
    rfl

theorem elemW_ge (p : Pfx) (w : Bool) : 8 ≤ elemW p w := by rcases elemW_cases p w with h | h | h <;> rw [h] <;> decide

/-- Reading an element while only flags and CX have changed. -/
theorem loopSt_holds {d : Decoder} {i : Int} {p : Pfx} {s : State} {n : Nat} (hn : n = 8 ∨ n = 16 ∨ n = 32) (f : BitVec 16) (k : Nat)
    {seg ofs : BitVec 16} {v : BitVec n} (h : Holds s seg ofs v) (env : Env) :
    readMem n seg ofs env (loopSt d i p { s with flags := f } k) = .ok v (loopSt d i p { s with flags := f } k) := by
  obtain ⟨_, cm, cv, ch, _⟩ := countDown_frame p { s with flags := f } k
  exact readMem_like (t := loopSt d i p { s with flags := f } k) h hn cm cv ch

theorem onlyBits_df {f g : BitVec 16} (h : OnlyBits arithBits f g) : g.getLsbD bDF = f.getLsbD bDF :=
  h bDF (by decide) (by decide)

theorem scas_rounds {s : State} {p : Pfx} {w : Bool} {K : Nat} {v : BitVec (elemW p w)} (hv : (Opnd.reg 0).Has s (elemW p w) v) {x : Nat → BitVec (elemW p w)}
    (hx : ∀ k < K, Holds s (dstSeg s) (dstOfs s (elemW p w) k) (x k)) (env : Env) (len : Nat) :
    Rounds env (decOf p len) (s.instrNum + 1) p (elemW p w) true (dfOf s) (s.gpr 6) (s.gpr 7)
      (fun _ dd => (do let b ← readMem (elemW p w) (dstSeg s) (dd.setWidth 16); let a ← getReg (elemW p w) rAX; cmpFlags a b))
      (fun k => { s with flags := cmpSeq s.flags (fun _ => v) x k }) K := by
  have hn := elemW_ge p w
  constructor
  · rfl
  · exact elemW_cases p w
  · intro k _; rfl
  · intro k _; exact onlyBits_df (cmpSeq_rest hn s.flags (fun _ => v) x k)
  · intro k hk so dd hso hdd
    have hax : (loopSt (decOf p len) (s.instrNum + 1) p { s with flags := cmpSeq s.flags (fun _ => v) x k } (k + 1)).reg (elemW p w) rAX = v := by
      show ((countDown p _ _).gpr 0).setWidth _ = v
      rw [(countDown_frame p _ (k + 1)).2.2.2.2.2.2.2 0 (by decide)]
      exact hv.symm
    simp only [bind_apply, hso, hdd]
    rw [show elemOfs (dfOf s) (elemW p w) (BitVec.setWidth 16 (s.gpr 7)) k = dstOfs s (elemW p w) k from rfl, loopSt_holds (elemW_cases p w) _ _ (hx k hk), resbind_ok]
    simp only [getReg_apply, resbind_ok, hax]
    exact loopSt_cmp _ _ _ _ _

/-- C34: SCAS compares AL/AX/EAX with destination elements.  If it has to examine exactly `m` of them (one without a repeat prefix; with
REPNE/REPE it goes on while they differ/are equal, at most CX times), CX is decremented `m` times, DI advances by `m` elements and the
arithmetic flags are those of the last comparison; memory and everything else is unchanged. -/
theorem C34_scas {s : State} {h0 : Nat} {p : Pfx} {len : Nat} {w : Bool} (hat : At s h0 p [strOpc 0xAE w] len)
    (env : Env) {v : BitVec (elemW p w)} (hv : (Opnd.reg 0).Has s (elemW p w) v) {x : Nat → BitVec (elemW p w)} {m : Nat} (hm : 0 < m)
    (h1 : p.rep = .none → m = 1) (h2 : p.rep ≠ .none → m ≤ (cxOf s).toNat)
    (hx : ∀ k < m, Holds s (dstSeg s) (dstOfs s (elemW p w) k) (x k))
    (hgo : ∀ k, k + 1 < m → goesOn p.rep (decide (v = x k)) = true)
    (hend : p.rep ≠ .none → m = (cxOf s).toNat ∨ goesOn p.rep (decide (v = x (m - 1))) = false) :
    ∃ f, SubSpec v (x (m - 1)) false s.flags (v - x (m - 1)) f ∧
      Falls env s len (moveDI s p (elemW p w) m (countDown p { s with flags := f } m)) := by
  have hn := elemW_ge p w
  obtain ⟨m', rfl⟩ : ∃ m', m = m' + 1 := ⟨m - 1, by omega⟩
  refine ⟨cmpSeq s.flags (fun _ => v) x (m' + 1), cmpSeq_spec hn s.flags (fun _ => v) x m', ?_⟩
  refine string_falls (o := .scas w) (w := w) (z := true) (uD := true) (uS := false)
    (body := fun n _ _ ds dd => (do let b ← readMem n ds (dd.setWidth 16); let a ← getReg n rAX; cmpFlags a b))
    hat env (by cases w <;> decide) (by cases w <;> decide +kernel) rfl
    (T := fun k => { s with flags := cmpSeq s.flags (fun _ => v) x k }) rfl
    (scas_rounds hv hx env len) h1 h2 (fun k hk => by rw [goes_zf hn]; exact hgo k hk)
    (fun h => (hend h).imp id (fun e => ⟨hm, by rw [goes_zf hn]; exact e⟩)) rfl rfl rfl (notZeroed_same hat (by cases w <;> decide) rfl)

theorem cmps_rounds {s : State} {p : Pfx} {w : Bool} {K : Nat} {x y : Nat → BitVec (elemW p w)} (hx : ∀ k < K, Holds s (srcSeg s p) (srcOfs s (elemW p w) k) (x k))
    (hy : ∀ k < K, Holds s (dstSeg s) (dstOfs s (elemW p w) k) (y k)) (env : Env) (len : Nat) :
    Rounds env (decOf p len) (s.instrNum + 1) p (elemW p w) true (dfOf s) (s.gpr 6) (s.gpr 7)
      (fun so dd => (do let a ← readMem (elemW p w) (srcSeg s p) (so.setWidth 16); let b ← readMem (elemW p w) (dstSeg s) (dd.setWidth 16); cmpFlags a b))
      (fun k => { s with flags := cmpSeq s.flags x y k }) K := by
  have hn := elemW_ge p w
  constructor
  · rfl
  · exact elemW_cases p w
  · intro k _; rfl
  · intro k _; exact onlyBits_df (cmpSeq_rest hn s.flags x y k)
  · intro k hk so dd hso hdd
    simp only [bind_apply, hso, hdd]
    rw [show elemOfs (dfOf s) (elemW p w) (BitVec.setWidth 16 (s.gpr 7)) k = dstOfs s (elemW p w) k from rfl,
      show elemOfs (dfOf s) (elemW p w) (BitVec.setWidth 16 (s.gpr 6)) k = srcOfs s (elemW p w) k from rfl,
      loopSt_holds (elemW_cases p w) _ _ (hx k hk), resbind_ok, loopSt_holds (elemW_cases p w) _ _ (hy k hk), resbind_ok]
    exact loopSt_cmp _ _ _ _ _

/-- C34: CMPS compares source with destination elements; otherwise as SCAS. -/
theorem C34_cmps {s : State} {h0 : Nat} {p : Pfx} {len : Nat} {w : Bool} (hat : At s h0 p [strOpc 0xA6 w] len)
    (env : Env) {x y : Nat → BitVec (elemW p w)} {m : Nat} (hm : 0 < m)
    (h1 : p.rep = .none → m = 1) (h2 : p.rep ≠ .none → m ≤ (cxOf s).toNat)
    (hx : ∀ k < m, Holds s (srcSeg s p) (srcOfs s (elemW p w) k) (x k))
    (hy : ∀ k < m, Holds s (dstSeg s) (dstOfs s (elemW p w) k) (y k))
    (hgo : ∀ k, k + 1 < m → goesOn p.rep (decide (x k = y k)) = true)
    (hend : p.rep ≠ .none → m = (cxOf s).toNat ∨ goesOn p.rep (decide (x (m - 1) = y (m - 1))) = false) :
    ∃ f, SubSpec (x (m - 1)) (y (m - 1)) false s.flags (x (m - 1) - y (m - 1)) f ∧
      Falls env s len (moveSI s p (elemW p w) m (moveDI s p (elemW p w) m (countDown p { s with flags := f } m))) := by
  have hn := elemW_ge p w
  obtain ⟨m', rfl⟩ : ∃ m', m = m' + 1 := ⟨m - 1, by omega⟩
  refine ⟨cmpSeq s.flags x y (m' + 1), cmpSeq_spec hn s.flags x y m', ?_⟩
  refine string_falls (o := .cmps w) (w := w) (z := true) (uD := true) (uS := true)
    (body := fun n ss so ds dd => (do let a ← readMem n ss (so.setWidth 16); let b ← readMem n ds (dd.setWidth 16); cmpFlags a b))
    hat env (by cases w <;> decide) (by cases w <;> decide +kernel) rfl
    (T := fun k => { s with flags := cmpSeq s.flags x y k }) rfl
    (cmps_rounds hx hy env len) h1 h2 (fun k hk => by rw [goes_zf hn]; exact hgo k hk)
    (fun h => (hend h).imp id (fun e => ⟨hm, by rw [goes_zf hn]; exact e⟩)) rfl rfl rfl (notZeroed_same hat (by cases w <;> decide) rfl)

/-- C34: REPNE SCAS stops at the first element equal to the accumulator: ZF = 1 and CX is the number of elements left after it. -/
theorem C34_repne_scas_found {s : State} {h0 : Nat} {p : Pfx} {len : Nat} {w : Bool} (hat : At s h0 p [strOpc 0xAE w] len)
    (hr : p.rep = .repnz) (env : Env) {v : BitVec (elemW p w)} (hv : (Opnd.reg 0).Has s (elemW p w) v) {x : Nat → BitVec (elemW p w)} {j : Nat}
    (hj : j < (cxOf s).toNat) (hx : ∀ k ≤ j, Holds s (dstSeg s) (dstOfs s (elemW p w) k) (x k))
    (hne : ∀ k < j, x k ≠ v) (heq : x j = v) :
    ∃ t, StepsTo env s t ∧ t.flags.getLsbD bZF = true ∧ (cxOf t).toNat = (cxOf s).toNat - (j + 1) ∧
      diOf t = dstOfs s (elemW p w) (j + 1) ∧ t.host = s.host := by
  obtain ⟨f, hf, hst⟩ := C34_scas hat env hv (x := x) (m := j + 1) (by omega) (fun h => by rw [hr] at h; cases h) (fun _ => hj)
    (fun k hk => hx k (by omega))
    (fun k hk => by rw [hr]; simpa [goesOn] using fun h => hne k (by omega) h.symm)
    (fun _ => Or.inr (by rw [hr]; simp [goesOn, heq]))
  have hne' : p.rep ≠ .none := by rw [hr]; decide
  obtain ⟨z1, z2, z3, z4⟩ := after_DI hne' s { s with flags := f } (elemW p w) (j + 1)
  refine ⟨_, hst, ?_, ?_, z3, z4⟩
  · refine (congrArg (·.getLsbD bZF) z1).trans ?_
    show f.getLsbD bZF = true
    rw [hf.res.zf]; simp [heq]
  · refine Eq.trans (congrArg BitVec.toNat (a₂ := cxOf s - BitVec.ofNat 16 (j + 1)) z2) ?_
    have hlt := (cxOf s).isLt
    rw [BitVec.toNat_sub, BitVec.toNat_ofNat]
    omega

/-- C34: REPNE SCAS with no equal element runs CX to 0 and leaves ZF = 0. -/
theorem C34_repne_scas_notfound {s : State} {h0 : Nat} {p : Pfx} {len : Nat} {w : Bool} (hat : At s h0 p [strOpc 0xAE w] len)
    (hr : p.rep = .repnz) (env : Env) {v : BitVec (elemW p w)} (hv : (Opnd.reg 0).Has s (elemW p w) v) {x : Nat → BitVec (elemW p w)}
    (hc : 0 < (cxOf s).toNat) (hx : ∀ k < (cxOf s).toNat, Holds s (dstSeg s) (dstOfs s (elemW p w) k) (x k))
    (hne : ∀ k < (cxOf s).toNat, x k ≠ v) :
    ∃ t, StepsTo env s t ∧ t.flags.getLsbD bZF = false ∧ cxOf t = 0 ∧ diOf t = dstOfs s (elemW p w) (cxOf s).toNat ∧ t.host = s.host := by
  obtain ⟨f, hf, hst⟩ := C34_scas hat env hv (x := x) (m := (cxOf s).toNat) hc (fun h => by rw [hr] at h; cases h) (fun _ => Nat.le_refl _)
    hx (fun k hk => by rw [hr]; simpa [goesOn] using fun h => hne k (by omega) h.symm) (fun _ => Or.inl rfl)
  have hne' : p.rep ≠ .none := by rw [hr]; decide
  obtain ⟨z1, z2, z3, z4⟩ := after_DI hne' s { s with flags := f } (elemW p w) (cxOf s).toNat
  refine ⟨_, hst, ?_, ?_, z3, z4⟩
  · refine (congrArg (·.getLsbD bZF) z1).trans ?_
    show f.getLsbD bZF = false
    rw [hf.res.zf, decide_eq_false_iff_not]
    intro h
    exact hne _ (Nat.sub_lt hc Nat.one_pos) ((sub_zero_iff _ _).1 h).symm
  · refine z2.trans ?_
    show cxOf s - _ = 0
    rw [BitVec.ofNat_toNat, BitVec.setWidth_eq, BitVec.sub_self]; rfl

/-- C34: REPE CMPS stops at the first difference: ZF = 0, CX is the number of elements left, and CF says whether the source element was
below the destination element. -/
theorem C34_repe_cmps_diff {s : State} {h0 : Nat} {p : Pfx} {len : Nat} {w : Bool} (hat : At s h0 p [strOpc 0xA6 w] len)
    (hr : p.rep = .rep) (env : Env) {x y : Nat → BitVec (elemW p w)} {j : Nat} (hj : j < (cxOf s).toNat)
    (hx : ∀ k ≤ j, Holds s (srcSeg s p) (srcOfs s (elemW p w) k) (x k)) (hy : ∀ k ≤ j, Holds s (dstSeg s) (dstOfs s (elemW p w) k) (y k))
    (heq : ∀ k < j, x k = y k) (hne : x j ≠ y j) :
    ∃ t, StepsTo env s t ∧ t.flags.getLsbD bZF = false ∧ t.flags.getLsbD bCF = decide ((x j).toNat < (y j).toNat) ∧
      (cxOf t).toNat = (cxOf s).toNat - (j + 1) ∧
      siOf t = srcOfs s (elemW p w) (j + 1) ∧ diOf t = dstOfs s (elemW p w) (j + 1) ∧ t.host = s.host := by
  obtain ⟨f, hf, hst⟩ := C34_cmps hat env (x := x) (y := y) (m := j + 1) (by omega) (fun h => by rw [hr] at h; cases h) (fun _ => hj)
    (fun k hk => hx k (by omega)) (fun k hk => hy k (by omega))
    (fun k hk => by rw [hr]; simpa [goesOn] using heq k (by omega))
    (fun _ => Or.inr (by rw [hr]; simpa [goesOn] using hne))
  have hne' : p.rep ≠ .none := by rw [hr]; decide
  obtain ⟨z1, z2, z3, z4, z5⟩ := after_DISI hne' s { s with flags := f } (elemW p w) (j + 1)
  refine ⟨_, hst, ?_, ?_, ?_, z4, z3, z5⟩
  · refine (congrArg (·.getLsbD bZF) z1).trans ?_
    show f.getLsbD bZF = false
    rw [hf.res.zf, decide_eq_false_iff_not]
    intro h
    exact hne ((sub_zero_iff _ _).1 h)
  · refine (congrArg (·.getLsbD bCF) z1).trans ?_
    show f.getLsbD bCF = _
    rw [hf.cf]; simp
  · refine Eq.trans (congrArg BitVec.toNat (a₂ := cxOf s - BitVec.ofNat 16 (j + 1)) z2) ?_
    have hlt := (cxOf s).isLt
    rw [BitVec.toNat_sub, BitVec.toNat_ofNat]
    omega

/-- C34: REPE CMPS on equal strings runs CX to 0 with ZF = 1. -/
theorem C34_repe_cmps_equal {s : State} {h0 : Nat} {p : Pfx} {len : Nat} {w : Bool} (hat : At s h0 p [strOpc 0xA6 w] len)
    (hr : p.rep = .rep) (env : Env) {x : Nat → BitVec (elemW p w)} (hc : 0 < (cxOf s).toNat)
    (hx : ∀ k < (cxOf s).toNat, Holds s (srcSeg s p) (srcOfs s (elemW p w) k) (x k))
    (hy : ∀ k < (cxOf s).toNat, Holds s (dstSeg s) (dstOfs s (elemW p w) k) (x k)) :
    ∃ t, StepsTo env s t ∧ t.flags.getLsbD bZF = true ∧ cxOf t = 0 ∧
      siOf t = srcOfs s (elemW p w) (cxOf s).toNat ∧ diOf t = dstOfs s (elemW p w) (cxOf s).toNat ∧ t.host = s.host := by
  obtain ⟨f, hf, hst⟩ := C34_cmps hat env (x := x) (y := x) (m := (cxOf s).toNat) hc (fun h => by rw [hr] at h; cases h) (fun _ => Nat.le_refl _)
    hx hy (fun k hk => by rw [hr]; simp [goesOn]) (fun _ => Or.inl rfl)
  have hne' : p.rep ≠ .none := by rw [hr]; decide
  obtain ⟨z1, z2, z3, z4, z5⟩ := after_DISI hne' s { s with flags := f } (elemW p w) (cxOf s).toNat
  refine ⟨_, hst, ?_, ?_, z4, z3, z5⟩
  · refine (congrArg (·.getLsbD bZF) z1).trans ?_
    show f.getLsbD bZF = true
    rw [hf.res.zf]; simp
  · refine z2.trans ?_
    show cxOf s - _ = 0
    rw [BitVec.ofNat_toNat, BitVec.setWidth_eq, BitVec.sub_self]; rfl

end RME
