import Verif.Lemmas.Step
set_option autoImplicit false
/-
Two machines with the same code at CS:IP decode the same instruction.
-/
namespace RME

/-- Same CS:IP and same memory. -/
structure SameCode (s t : State) : Prop where
  cs : t.sreg .cs = s.sreg .cs
  ip : t.ip = s.ip
  map : t.map = s.map
  host : t.host = s.host
  valid : t.valid = s.valid

theorem SameCode.refl (s : State) : SameCode s s := ⟨rfl, rfl, rfl, rfl, rfl⟩

/-- Result of fetching a byte. -/
def fetchRes (env : Env) (s : State) (k : Nat) (t : State) (p : Pfx) : Res (BitVec 8) :=
  match hostAddr s (s.sreg .cs) (s.ip + BitVec.ofNat 16 k) with
  | none => if env.nullCheck then .err .badmem (opState t p k) else .ub .nullBlock
  | some h => if s.valid h then .ok (s.host h) (opState t p (k + 1)) else .ub .hostInvalid

theorem fetch8_eq (env : Env) (s : State) (p : Pfx) (k : Nat) : readInstr 8 env (opState s p k) = fetchRes env s k s p := by
  have hh : hostAddr (opState s p k) (s.sreg .cs) (s.ip + BitVec.ofNat 16 k) = hostAddr s (s.sreg .cs) (s.ip + BitVec.ofNat 16 k) := rfl
  have hr : readInstr 8 env (opState s p k) = (readMem 8 (s.sreg .cs) (s.ip + BitVec.ofNat 16 k) env (opState s p k)).bind
      (fun v t => .ok v { t with dec := { t.dec with ipOffset := t.dec.ipOffset + 1 } }) := rfl
  unfold fetchRes
  cases ha : hostAddr s (s.sreg .cs) (s.ip + BitVec.ofNat 16 k) with
  | none =>
    have hg : readMem 8 (s.sreg .cs) (s.ip + BitVec.ofNat 16 k) env (opState s p k) =
        if env.nullCheck then .err .badmem (opState s p k) else .ub .nullBlock := by
      simp only [readMem, bind_apply, getPtr_spec, hh, ha]
      cases env.nullCheck <;> rfl
    rw [hr, hg]
    cases hc : env.nullCheck <;> rfl
  | some h =>
    dsimp only
    cases hv : s.valid h
    · rw [hr]
      simp only [readMem, bind_apply, getPtr_some env (hh.trans ha), resbind_ok, loadM, validN]
      simp [opState, hv]
    · have hm : Mapped (opState s p k) 8 (s.sreg .cs) (s.ip + BitVec.ofNat 16 k) h :=
        ⟨hh.trans ha, fun i hi => by
          have : i = 0 := by omega
          subst this; exact hv⟩
      rw [hr, readMem_mapped env hm, resbind_ok, valAt8]
      rfl

theorem SameCode.hostAddr {s t : State} (h : SameCode s t) (a b) : hostAddr t a b = RME.hostAddr s a b := by
  unfold RME.hostAddr; rw [h.map]

theorem fetch8_u (env : Env) (s : State) (k : Nat) :
    (∃ b, ByteAt s k b ∧ ∀ t p, SameCode s t → readInstr 8 env (opState t p k) = .ok b (opState t p (k + 1))) ∨
    (∀ t p, SameCode s t → readInstr 8 env (opState t p k) = .err .badmem (opState t p k)) ∨
    (∃ u, ∀ t p, SameCode s t → readInstr 8 env (opState t p k) = .ub u) := by
  have h : ∀ t p, SameCode s t → readInstr 8 env (opState t p k) = fetchRes env s k t p := by
    intro t p ht
    rw [fetch8_eq]
    unfold fetchRes
    rw [ht.hostAddr, ht.cs, ht.ip, ht.valid, ht.host]
  unfold fetchRes at h
  cases ha : RME.hostAddr s (s.sreg .cs) (s.ip + BitVec.ofNat 16 k) with
  | none =>
    simp only [ha] at h
    cases hc : env.nullCheck
    · simp [hc] at h; exact Or.inr (Or.inr ⟨_, h⟩)
    · simp [hc] at h; exact Or.inr (Or.inl h)
  | some x =>
    simp only [ha] at h
    cases hc : s.valid x
    · simp [hc] at h; exact Or.inr (Or.inr ⟨_, h⟩)
    · simp [hc] at h; exact Or.inl ⟨_, ⟨x, ha, hc, rfl⟩, h⟩

/-- What decoding leads to. -/
inductive Recipe where
  | ub (u : UB)
  | err (e : Err) (p : Pfx) (k : Nat)
  | op (o : Op) (a : BitVec 3) (p : Pfx) (k : Nat)

def Recipe.run (env : Env) (t : State) : Recipe → Res Unit
  | .ub u => .ub u
  | .err e p k => .err e (opState t p k)
  | .op o a p k => opFn o a env (opState t p k)

def Recipe.Valid (s : State) : Recipe → Prop
  | .ub _ => True
  | .err e _ _ => e ≠ .cont ∧ e ≠ .divErr
  | .op o a p k => Dec s p k o a ∧ o.isPrefix = false

theorem opFn_nc {o a env s} (hn : o.isPrefix = false) (fuel : Nat) : (match opFn o a env s with
    | .err .cont s' => decodeLoop fuel env s'
    | r => r) = opFn o a env s := by
  cases hres : opFn o a env s with
  | ok x t => rfl
  | ub u => rfl
  | err e t => cases e <;> first | rfl | exact absurd hres (noCont _ _ _ _ _ hn)

theorem decodeLoop_recipe (env : Env) (s : State) : ∀ fuel pfx p, Pfx.parse {} pfx = some p → BytesAt s pfx →
    5 ≤ fuel + pfx.length → ∃ q : Recipe, q.Valid s ∧ ∀ t, SameCode s t → decodeLoop fuel env (opState t p pfx.length) = q.run env t := by
  intro fuel
  induction fuel with
  | zero =>
    intro pfx p hp _ hl
    have := Pfx.parse_count hp; have := p.count_le; simp [Pfx.count] at *; omega
  | succ fuel ih =>
    intro pfx p hp hb hl
    rcases fetch8_u env s pfx.length with ⟨b, hbyte, hr⟩ | hr | ⟨u, hr⟩
    case inr.inl =>
      refine ⟨.err .badmem p pfx.length, ⟨by decide, by decide⟩, fun t ht => ?_⟩
      have : decodeOne env (opState t p pfx.length) = .err .badmem (opState t p pfx.length) := by
        simp only [decodeOne, bind_apply, hr t p ht, resbind_err]
      rw [decodeLoop_succ, this]; rfl
    case inr.inr =>
      refine ⟨.ub u, trivial, fun t ht => ?_⟩
      have : decodeOne env (opState t p pfx.length) = .ub u := by
        simp only [decodeOne, bind_apply, hr t p ht, resbind_ub]
      rw [decodeLoop_succ, this]; rfl
    have hb1 := hb.snoc hbyte
    by_cases hF1 : b = 0xF1
    · subst hF1
      refine ⟨.err .breakpoint p (pfx.length + 1), ⟨by decide, by decide⟩, fun t ht => ?_⟩
      have : decodeOne env (opState t p pfx.length) = .err .breakpoint (opState t p (pfx.length + 1)) := by
        simp only [decodeOne, bind_apply, hr t p ht, resbind_ok]
        rfl
      rw [decodeLoop_succ, this]; rfl
    have hone : ∀ e, opEntry b = some e → ∀ t, SameCode s t → decodeOne env (opState t p pfx.length) =
        (fetchParam e env (opState t p (pfx.length + 1))).bind (fun a s' => callFn e.fn a env s') := by
      intro e he t ht
      simp only [decodeOne, bind_apply, hr t p ht, resbind_ok, he]
      rw [show (b == 0xF1) = false by simpa using hF1]
      rfl
    cases he : opEntry b with
    | none =>
      refine ⟨.err .undefOpcode p (pfx.length + 1), ⟨by decide, by decide⟩, fun t ht => ?_⟩
      have : decodeOne env (opState t p pfx.length) = .err .undefOpcode (opState t p (pfx.length + 1)) := by
        simp only [decodeOne, bind_apply, hr t p ht, resbind_ok, he]
        rw [show (b == 0xF1) = false by simpa using hF1]
        rfl
      rw [decodeLoop_succ, this]; rfl
    | some e =>
      by_cases hpre : isPrefixByte b = true
      · obtain ⟨o, a, he', _⟩ := prefix_entry b hpre
        rw [he] at he'; cases he'
        cases hadd : p.add b with
        | none =>
          refine ⟨.err .undefOpcode p (pfx.length + 1), ⟨by decide, by decide⟩, fun t ht => ?_⟩
          have := prefix_again hpre hadd he env t (pfx.length + 1)
          simp only at this
          rw [decodeLoop_succ, hone _ he t ht]
          simp only [fetchParam, Bool.false_eq_true, if_false, pure_apply, resbind_ok]
          rw [this]; rfl
        | some p' =>
          obtain ⟨_, e, he2, hm2, hf⟩ := Pfx.add_cases hadd
          rw [he] at he2; cases he2
          have hpp : Pfx.parse {} (pfx ++ [b]) = some p' := by
            have gen : ∀ (l : List (BitVec 8)) (q : Pfx), Pfx.parse q l = some p → Pfx.parse q (l ++ [b]) = some p' := by
              intro l
              induction l with
              | nil => intro q hq; simp [Pfx.parse] at hq; subst hq; simp [Pfx.parse, hadd]
              | cons x xs ihx =>
                intro q hq
                simp only [Pfx.parse, List.cons_append, Option.bind_eq_some_iff] at hq ⊢
                obtain ⟨q', h1, h2⟩ := hq
                exact ⟨q', h1, ihx q' h2⟩
            exact gen pfx {} hp
          obtain ⟨q, hq, hrun⟩ := ih (pfx ++ [b]) p' hpp hb1 (by simp; omega)
          simp only [List.length_append, List.length_singleton] at hrun
          refine ⟨q, hq, fun t ht => ?_⟩
          have := hf env (opState t p (pfx.length + 1)) (pfx.length + 1) rfl
          simp only at this
          rw [decodeLoop_succ, hone _ he t ht]
          simp only [fetchParam, Bool.false_eq_true, if_false, pure_apply, resbind_ok]
          rw [this]
          exact hrun t ht
      · have hpre : isPrefixByte b = false := by simpa using hpre
        obtain ⟨fn, a, m⟩ := e
        cases fn with
        | base o =>
          have hnp := entry_prefix b hpre o a m he
          cases m with
          | false =>
            refine ⟨.op o a p (pfx.length + 1), ⟨Dec.one hp hb1 hF1 he, hnp⟩, fun t ht => ?_⟩
            rw [decodeLoop_succ, hone _ he t ht]
            simp only [fetchParam, Bool.false_eq_true, if_false, pure_apply, resbind_ok, callFn]
            exact opFn_nc hnp fuel
          | true =>
            rcases fetch8_u env s (pfx.length + 1) with ⟨mb, hmb, hr2⟩ | hr2 | ⟨u, hr2⟩
            case inr.inl =>
              refine ⟨.ub .uninit, trivial, fun t ht => ?_⟩
              rw [decodeLoop_succ, hone _ he t ht]
              simp only [fetchParam, if_true, bind_apply, getModRM_unchecked_eq]
              rw [hr2 t p ht]; rfl
            case inr.inr =>
              refine ⟨.ub u, trivial, fun t ht => ?_⟩
              rw [decodeLoop_succ, hone _ he t ht]
              simp only [fetchParam, if_true, bind_apply, getModRM_unchecked_eq]
              rw [hr2 t p ht]; rfl
            have hb2 : BytesAt s (pfx ++ [b, mb]) := by
              have := hb1.snoc (b := mb) (by simpa using hmb)
              simpa using this
            refine ⟨.op o ((mb >>> 3).setWidth 3) p (pfx.length + 1), ⟨Dec.grp hp hb2 hF1 he, hnp⟩, fun t ht => ?_⟩
            rw [decodeLoop_succ, hone _ he t ht]
            simp only [fetchParam, if_true, bind_apply, getModRM_unchecked_eq]
            rw [hr2 t p ht]
            simp only [resbind_ok, modDec_apply, pure_apply, callFn]
            have hst : { opState t p (pfx.length + 1 + 1) with
                dec := { (opState t p (pfx.length + 1 + 1)).dec with
                  ipOffset := (opState t p (pfx.length + 1 + 1)).dec.ipOffset - 1 } } = opState t p (pfx.length + 1) := rfl
            rw [hst]
            have hrr : (ModRM.ofByte mb).rrr = (mb >>> 3).setWidth 3 := rfl
            rw [hrr]
            exact opFn_nc hnp fuel
        | ext0F =>
          obtain ⟨rfl, rfl⟩ := entry_ext b a m he
          have hx : ∀ t, SameCode s t → decodeOne env (opState t p pfx.length) = ext0F env (opState t p (pfx.length + 1)) := by
            intro t ht
            rw [hone _ he t ht]
            simp only [fetchParam, Bool.false_eq_true, if_false, pure_apply, resbind_ok, callFn]
          rcases fetch8_u env s (pfx.length + 1) with ⟨b2, hb2, hr2⟩ | hr2 | ⟨u, hr2⟩
          case inr.inl =>
            refine ⟨.err .badmem p (pfx.length + 1), ⟨by decide, by decide⟩, fun t ht => ?_⟩
            rw [decodeLoop_succ, hx t ht]
            simp only [ext0F, bind_apply, hr2 t p ht, resbind_err]; rfl
          case inr.inr =>
            refine ⟨.ub u, trivial, fun t ht => ?_⟩
            rw [decodeLoop_succ, hx t ht]
            simp only [ext0F, bind_apply, hr2 t p ht, resbind_ub]; rfl
          have hbb : BytesAt s (pfx ++ [0x0F, b2]) := by
            have := hb1.snoc (b := b2) (by simpa using hb2)
            simpa using this
          cases he2 : opEntry0F b2 with
          | none =>
            refine ⟨.err .undefOpcode p (pfx.length + 2), ⟨by decide, by decide⟩, fun t ht => ?_⟩
            rw [decodeLoop_succ, hx t ht]
            simp only [ext0F, bind_apply, hr2 t p ht, resbind_ok, he2]; rfl
          | some e2 =>
            obtain ⟨fn2, a2, m2⟩ := e2
            cases fn2 with
            | ext0F => exact absurd he2 (entry0F_noext b2 a2 m2)
            | base o =>
              have hnp := entry0F_prefix b2 o a2 m2 he2
              refine ⟨.op o a2 p (pfx.length + 2), ⟨Dec.ext hp hbb he2, hnp⟩, fun t ht => ?_⟩
              rw [decodeLoop_succ, hx t ht]
              simp only [ext0F, bind_apply, hr2 t p ht, resbind_ok, he2]
              exact opFn_nc hnp fuel

/-- All machines with the same code do the same thing. -/
theorem runOne_recipe (env : Env) (s : State) (hr : Ready s) : ∃ q : Recipe, q.Valid s ∧ ∀ t, SameCode s t → t.instrNum = s.instrNum →
    runOne env t = tailOf env t (q.run env t) := by
  obtain ⟨q, hq, h⟩ := decodeLoop_recipe env s 6 [] {} rfl (by intro i hi; simp at hi) (by simp)
  refine ⟨q, hq, fun t ht hi => ?_⟩
  have hrt : Ready t := ⟨by rw [ht.cs, ht.ip]; exact hr.1, by rw [ht.cs, ht.ip]; exact hr.2, by rw [hi]; exact hr.3⟩
  rw [runOne_ready hrt]
  have : doOpcode env t = (decodeLoop 6 env (opState t {} 0)).bind (fun _ u => finishInstr (t.sreg .cs) t.ip env u) := by
    simp only [doOpcode, bind_apply, getIP_apply, getSreg_apply, resbind_ok, startInstr, INT_MAX]
    rw [if_neg hrt.counter]
    rfl
  have hh : decodeLoop 6 env (opState t {} 0) = q.run env t := h t ht
  rw [this, hh]
  cases h : q.run env t with
  | ok a u =>
    simp only [resbind_ok, tailOf]
    cases h2 : finishInstr (t.sreg .cs) t.ip env u with
    | ok _ _ => rfl
    | ub _ => rfl
    | err e u => rcases finish_err _ _ env _ e u h2 with rfl | rfl <;> rfl
  | ub u => rfl
  | err e t => cases e <;> rfl

end RME
