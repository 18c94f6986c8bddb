import Verif.Lemmas.Decode
set_option autoImplicit false
/-
What fetching and decoding an instruction can do, in every state: all possible results of the decode
loop, with the bytes at CS:IP that lead to them.
-/
namespace RME

/-- The prefix functions. -/
def Op.isPrefix : Op → Bool
  | .ovrSeg | .ovrOper | .ovrAddr | .rep | .repnz => true
  | _ => false

/-- The bytes at CS:IP are prefixes meaning `p` and an opcode that selects the function `o` with
parameter `a`; `k` bytes are consumed before the function is called. -/
inductive Dec (s : State) : Pfx → Nat → Op → BitVec 3 → Prop
  | one {pfx p op o a} (hp : Pfx.parse {} pfx = some p) (hb : BytesAt s (pfx ++ [op])) (h1 : op ≠ 0xF1)
      (he : opEntry op = some ⟨.base o, a, false⟩) : Dec s p (pfx.length + 1) o a
  | grp {pfx p op m o a} (hp : Pfx.parse {} pfx = some p) (hb : BytesAt s (pfx ++ [op, m])) (h1 : op ≠ 0xF1)
      (he : opEntry op = some ⟨.base o, a, true⟩) : Dec s p (pfx.length + 1) o ((m >>> 3).setWidth 3)
  | ext {pfx p op o a b} (hp : Pfx.parse {} pfx = some p) (hb : BytesAt s (pfx ++ [0x0F, op]))
      (he : opEntry0F op = some ⟨.base o, a, b⟩) : Dec s p (pfx.length + 2) o a

/-- Possible results of the decode loop. -/
inductive Shape (env : Env) (s : State) : Res Unit → Prop
  | ub {u k} (h : u = .nullBlock ∨ u = .hostInvalid ∨ u = .uninit) (hb : ∀ b, ¬ ByteAt s k b) : Shape env s (.ub u)
  | badmem {p k} (h : hostAddr s (s.sreg .cs) (s.ip + BitVec.ofNat 16 k) = none) (hc : env.nullCheck = true) :
      Shape env s (.err .badmem (opState s p k))
  | brk {pfx p} (hp : Pfx.parse {} pfx = some p) (hb : BytesAt s (pfx ++ [0xF1])) :
      Shape env s (.err .breakpoint (opState s p (pfx.length + 1)))
  | undef {pfx p op} (hp : Pfx.parse {} pfx = some p) (hb : BytesAt s (pfx ++ [op])) (hn : op ≠ 0xF1)
      (h : opEntry op = none ∨ (isPrefixByte op = true ∧ p.add op = none)) :
      Shape env s (.err .undefOpcode (opState s p (pfx.length + 1)))
  | undefF {pfx p op} (hp : Pfx.parse {} pfx = some p) (hb : BytesAt s (pfx ++ [0x0F, op])) (h : opEntry0F op = none) :
      Shape env s (.err .undefOpcode (opState s p (pfx.length + 2)))
  | op {p k o a} (hd : Dec s p k o a) (hn : o.isPrefix = false) : Shape env s (opFn o a env (opState s p k))

theorem fetch8_cases (env : Env) (s : State) (p : Pfx) (k : Nat) :
    (∃ b, ByteAt s k b ∧ readInstr 8 env (opState s p k) = .ok b (opState s p (k + 1))) ∨
    (hostAddr s (s.sreg .cs) (s.ip + BitVec.ofNat 16 k) = none ∧ env.nullCheck = true ∧
      readInstr 8 env (opState s p k) = .err .badmem (opState s p k)) ∨
    ((∀ b, ¬ ByteAt s k b) ∧ ∃ u, (u = .nullBlock ∨ u = .hostInvalid) ∧ readInstr 8 env (opState s p k) = .ub u) := by
  have hh : hostAddr (opState s p k) (s.sreg .cs) (s.ip + BitVec.ofNat 16 k) = hostAddr s (s.sreg .cs) (s.ip + BitVec.ofNat 16 k) := rfl
  have hr : readInstr 8 env (opState s p k) = (readMem 8 (s.sreg .cs) (s.ip + BitVec.ofNat 16 k) env (opState s p k)).bind
      (fun v t => .ok v { t with dec := { t.dec with ipOffset := t.dec.ipOffset + 1 } }) := rfl
  cases ha : hostAddr s (s.sreg .cs) (s.ip + BitVec.ofNat 16 k) with
  | none =>
    have hg : readMem 8 (s.sreg .cs) (s.ip + BitVec.ofNat 16 k) env (opState s p k) =
        if env.nullCheck then .err .badmem (opState s p k) else .ub .nullBlock := by
      simp only [readMem, bind_apply, getPtr_spec, hh, ha]
      cases env.nullCheck <;> rfl
    rw [hr, hg]
    cases hc : env.nullCheck
    · refine Or.inr (Or.inr ⟨?_, _, Or.inl rfl, rfl⟩)
      rintro b ⟨h, h1, _⟩
      rw [ha] at h1; cases h1
    · exact Or.inr (Or.inl ⟨rfl, rfl, rfl⟩)
  | some h =>
    cases hv : s.valid h
    · refine Or.inr (Or.inr ⟨?_, .hostInvalid, Or.inr rfl, ?_⟩)
      · rintro b ⟨h', h1, h2, _⟩
        rw [ha] at h1; cases h1; rw [hv] at h2; cases h2
      · rw [hr]
        simp only [readMem, bind_apply, getPtr_some env (hh.trans ha), resbind_ok, loadM, validN]
        simp [opState, hv]
    · refine Or.inl ⟨s.host h, ⟨h, ha, hv, rfl⟩, ?_⟩
      have hm : Mapped (opState s p k) 8 (s.sreg .cs) (s.ip + BitVec.ofNat 16 k) h :=
        ⟨hh.trans ha, fun i hi => by
          have : i = 0 := by omega
          subst this; exact hv⟩
      rw [hr, readMem_mapped env hm, resbind_ok, valAt8]
      rfl

theorem BytesAt.snoc {s : State} {bs : List (BitVec 8)} {b} (h : BytesAt s bs) (hb : ByteAt s bs.length b) :
    BytesAt s (bs ++ [b]) := by
  intro i hi
  by_cases h1 : i < bs.length
  · rw [List.getElem_append_left h1]; exact h i h1
  · have : i = bs.length := by simp at hi; omega
    subst this
    simpa using hb

theorem prefix_entry : ∀ b : BitVec 8, isPrefixByte b = true → ∃ o a, opEntry b = some ⟨.base o, a, false⟩ ∧ o.isPrefix = true := by
  intro b hb
  have hb' : b = 0x26 ∨ b = 0x2E ∨ b = 0x36 ∨ b = 0x3E ∨ b = 0x64 ∨ b = 0x65 ∨ b = 0x66 ∨ b = 0x67 ∨ b = 0xF2 ∨ b = 0xF3 := by
    revert b; decide +kernel
  rcases hb' with rfl | rfl | rfl | rfl | rfl | rfl | rfl | rfl | rfl | rfl
  · exact ⟨.ovrSeg, 0, by decide, rfl⟩
  · exact ⟨.ovrSeg, 1, by decide, rfl⟩
  · exact ⟨.ovrSeg, 2, by decide, rfl⟩
  · exact ⟨.ovrSeg, 3, by decide, rfl⟩
  · exact ⟨.ovrSeg, 4, by decide, rfl⟩
  · exact ⟨.ovrSeg, 5, by decide, rfl⟩
  · exact ⟨.ovrOper, 0, by decide, rfl⟩
  · exact ⟨.ovrAddr, 0, by decide, rfl⟩
  · exact ⟨.repnz, 0, by decide, rfl⟩
  · exact ⟨.rep, 0, by decide, rfl⟩

/-- A prefix kind that is already there: UNDEFOPCODE. -/
theorem prefix_again {p : Pfx} {b : BitVec 8} (hb : isPrefixByte b = true) (hp : p.add b = none)
    {e : Entry} (he : opEntry b = some e) (env s k) :
    callFn e.fn e.arg env (opState s p k) = .err .undefOpcode (opState s p k) := by
  have hb' : b = 0x26 ∨ b = 0x2E ∨ b = 0x36 ∨ b = 0x3E ∨ b = 0x64 ∨ b = 0x65 ∨ b = 0x66 ∨ b = 0x67 ∨ b = 0xF2 ∨ b = 0xF3 := by
    clear hp he; revert b; decide +kernel
  rcases hb' with rfl | rfl | rfl | rfl | rfl | rfl | rfl | rfl | rfl | rfl
  · rw [(by decide : opEntry 0x26 = some ⟨.base .ovrSeg, 0, false⟩)] at he; cases he
    simp [Pfx.add] at hp
    simp [callFn, opFn, opOvrSeg, opState, decOf, guardE_apply, Option.isSome_iff_ne_none, hp]
  · rw [(by decide : opEntry 0x2E = some ⟨.base .ovrSeg, 1, false⟩)] at he; cases he
    simp [Pfx.add] at hp
    simp [callFn, opFn, opOvrSeg, opState, decOf, guardE_apply, Option.isSome_iff_ne_none, hp]
  · rw [(by decide : opEntry 0x36 = some ⟨.base .ovrSeg, 2, false⟩)] at he; cases he
    simp [Pfx.add] at hp
    simp [callFn, opFn, opOvrSeg, opState, decOf, guardE_apply, Option.isSome_iff_ne_none, hp]
  · rw [(by decide : opEntry 0x3E = some ⟨.base .ovrSeg, 3, false⟩)] at he; cases he
    simp [Pfx.add] at hp
    simp [callFn, opFn, opOvrSeg, opState, decOf, guardE_apply, Option.isSome_iff_ne_none, hp]
  · rw [(by decide : opEntry 0x64 = some ⟨.base .ovrSeg, 4, false⟩)] at he; cases he
    simp [Pfx.add] at hp
    simp [callFn, opFn, opOvrSeg, opState, decOf, guardE_apply, Option.isSome_iff_ne_none, hp]
  · rw [(by decide : opEntry 0x65 = some ⟨.base .ovrSeg, 5, false⟩)] at he; cases he
    simp [Pfx.add] at hp
    simp [callFn, opFn, opOvrSeg, opState, decOf, guardE_apply, Option.isSome_iff_ne_none, hp]
  · rw [(by decide : opEntry 0x66 = some ⟨.base .ovrOper, 0, false⟩)] at he; cases he
    simp [Pfx.add] at hp
    simp [callFn, opFn, opOvrOper, opState, decOf, guardE_apply, hp]
  · rw [(by decide : opEntry 0x67 = some ⟨.base .ovrAddr, 0, false⟩)] at he; cases he
    simp [Pfx.add] at hp
    simp [callFn, opFn, opOvrAddr, opState, decOf, guardE_apply, hp]
  · rw [(by decide : opEntry 0xF2 = some ⟨.base .repnz, 0, false⟩)] at he; cases he
    simp [Pfx.add] at hp
    simp [callFn, opFn, opPrefixRep, opState, decOf, guardE_apply, hp]
  · rw [(by decide : opEntry 0xF3 = some ⟨.base .rep, 0, false⟩)] at he; cases he
    simp [Pfx.add] at hp
    simp [callFn, opFn, opPrefixRep, opState, decOf, guardE_apply, hp]

/-- Check every entry of the two tables. -/
def chk (f : BitVec 8 → Entry → Bool) (b : BitVec 8) : Bool := (opEntry b).all (f b)
def chkF (f : BitVec 8 → Entry → Bool) (b : BitVec 8) : Bool := (opEntry0F b).all (f b)
theorem chk_some {f b e} (h : chk f b = true) (he : opEntry b = some e) : f b e = true := by
  simpa [chk, he] using h
theorem chkF_some {f b e} (h : chkF f b = true) (he : opEntry0F b = some e) : f b e = true := by
  simpa [chkF, he] using h
def Fn.isBaseWith (p : Op → Bool) : Fn → Bool
  | .base o => p o
  | .ext0F => true
def Fn.isExt : Fn → Bool
  | .base _ => false
  | .ext0F => true

theorem entry_prefix (b : BitVec 8) (hb : isPrefixByte b = false) (o a m) (he : opEntry b = some ⟨.base o, a, m⟩) :
    o.isPrefix = false := by
  have h : ∀ b : BitVec 8, chk (fun b e => isPrefixByte b || e.fn.isBaseWith (fun o => !o.isPrefix)) b = true := by decide +kernel
  have := chk_some (h b) he
  simpa [hb, Fn.isBaseWith] using this
theorem entry0F_prefix (b : BitVec 8) (o a m) (he : opEntry0F b = some ⟨.base o, a, m⟩) : o.isPrefix = false := by
  have h : ∀ b : BitVec 8, chkF (fun _ e => e.fn.isBaseWith (fun o => !o.isPrefix)) b = true := by decide +kernel
  have := chkF_some (h b) he
  simpa [Fn.isBaseWith] using this
theorem entry_ext (b : BitVec 8) (a m) (he : opEntry b = some ⟨.ext0F, a, m⟩) : b = 0x0F ∧ m = false := by
  have h : ∀ b : BitVec 8, chk (fun b e => !e.fn.isExt || (b == 0x0F && !e.modrm)) b = true := by decide +kernel
  have := chk_some (h b) he
  simpa [Fn.isExt] using this
theorem entry0F_noext (b : BitVec 8) (a m) : opEntry0F b ≠ some ⟨.ext0F, a, m⟩ := by
  have h : ∀ b : BitVec 8, chkF (fun b e => !e.fn.isExt) b = true := by decide +kernel
  intro he
  have := chkF_some (h b) he
  simp [Fn.isExt] at this

/-- an opcode function other than a prefix never returns CONTINUE (proved in `KpAll`) -/
def NoCont : Prop := ∀ o p env s t, o.isPrefix = false → opFn o p env s ≠ .err .cont t

theorem getModRM_unchecked_eq (env s) : getModRM_unchecked env s = match readInstr 8 env s with
    | .ok b t => .ok (ModRM.ofByte b) t
    | .err _ _ => .ub .uninit
    | .ub u => .ub u := by
  unfold getModRM_unchecked getModRM
  simp only [bind_apply]
  cases readInstr 8 env s <;> rfl

theorem decodeLoop_shape (hnc : NoCont) (env : Env) (s : State) : ∀ fuel pfx p, Pfx.parse {} pfx = some p → BytesAt s pfx →
    5 ≤ fuel + pfx.length → Shape env s (decodeLoop fuel env (opState s p pfx.length)) := by
  intro fuel
  induction fuel with
  | zero =>
    intro pfx p hp _ hl
    have := Pfx.parse_count hp; have := p.count_le; simp [Pfx.count] at *; omega
  | succ fuel ih =>
    intro pfx p hp hb hl
    rw [decodeLoop_succ]
    rcases fetch8_cases env s p pfx.length with ⟨b, hbyte, hr⟩ | ⟨hn, hc, hr⟩ | ⟨hn, u, hu, hr⟩
    case inr.inl =>
      have : decodeOne env (opState s p pfx.length) = .err .badmem (opState s p pfx.length) := by
        simp only [decodeOne, bind_apply, hr, resbind_err]
      rw [this]; exact .badmem hn hc
    case inr.inr =>
      have : decodeOne env (opState s p pfx.length) = .ub u := by
        simp only [decodeOne, bind_apply, hr, resbind_ub]
      rw [this]; exact .ub (by rcases hu with h | h <;> simp [h]) hn
    have hb1 := hb.snoc hbyte
    by_cases hF1 : b = 0xF1
    · subst hF1
      have : decodeOne env (opState s p pfx.length) = .err .breakpoint (opState s p (pfx.length + 1)) := by
        simp only [decodeOne, bind_apply, hr, resbind_ok]
        rfl
      rw [this]; exact .brk hp hb1
    have hone : ∀ e, opEntry b = some e → decodeOne env (opState s p pfx.length) =
        (fetchParam e env (opState s p (pfx.length + 1))).bind (fun a s' => callFn e.fn a env s') := by
      intro e he
      simp only [decodeOne, bind_apply, hr, resbind_ok, he]
      rw [show (b == 0xF1) = false by simpa using hF1]
      rfl
    cases he : opEntry b with
    | none =>
      have : decodeOne env (opState s p pfx.length) = .err .undefOpcode (opState s p (pfx.length + 1)) := by
        simp only [decodeOne, bind_apply, hr, resbind_ok, he]
        rw [show (b == 0xF1) = false by simpa using hF1]
        rfl
      rw [this]; exact .undef hp hb1 hF1 (Or.inl he)
    | some e =>
      rw [hone e he]
      by_cases hpre : isPrefixByte b = true
      · obtain ⟨o, a, he', _⟩ := prefix_entry b hpre
        rw [he] at he'; cases he'
        simp only [fetchParam, Bool.false_eq_true, if_false, pure_apply, resbind_ok]
        cases hadd : p.add b with
        | none =>
          have := prefix_again hpre hadd he env s (pfx.length + 1)
          simp only at this
          rw [this]
          exact .undef hp hb1 hF1 (Or.inr ⟨hpre, hadd⟩)
        | some p' =>
          obtain ⟨_, e, he2, hm2, hf⟩ := Pfx.add_cases hadd
          rw [he] at he2; cases he2
          have := hf env (opState s p (pfx.length + 1)) (pfx.length + 1) rfl
          simp only at this
          rw [this]
          have hpp : Pfx.parse {} (pfx ++ [b]) = some p' := by
            have gen : ∀ (l : List (BitVec 8)) (q : Pfx), Pfx.parse q l = some p → Pfx.parse q (l ++ [b]) = some p' := by
              intro l
              induction l with
              | nil => intro q hq; simp [Pfx.parse] at hq; subst hq; simp [Pfx.parse, hadd]
              | cons x xs ihx =>
                intro q hq
                simp only [Pfx.parse, List.cons_append, Option.bind_eq_some_iff] at hq ⊢
                obtain ⟨q', h1, h2⟩ := hq
                exact ⟨q', h1, ihx q' h2⟩
            exact gen pfx {} hp
          have := ih (pfx ++ [b]) p' hpp hb1 (by simp; omega)
          simp only [List.length_append, List.length_singleton] at this
          exact this
      · have hpre : isPrefixByte b = false := by simpa using hpre
        obtain ⟨fn, a, m⟩ := e
        cases fn with
        | base o =>
          have hnp := entry_prefix b hpre o a m he
          cases m with
          | false =>
            simp only [fetchParam, Bool.false_eq_true, if_false, pure_apply, resbind_ok, callFn]
            have := Shape.op (env := env) (Dec.one hp hb1 hF1 he) hnp
            have hc := fun t => hnc o a env (opState s p (pfx.length + 1)) t hnp
            cases hres : opFn o a env (opState s p (pfx.length + 1)) with
            | ok x t => rw [hres] at this; exact this
            | ub u => rw [hres] at this; exact this
            | err e t =>
              rw [hres] at this
              cases e <;> first | exact this | exact absurd hres (hc t)
          | true =>
            simp only [fetchParam, if_true, bind_apply, getModRM_unchecked_eq]
            rcases fetch8_cases env s p (pfx.length + 1) with ⟨mb, hmb, hr2⟩ | ⟨hn, hc, hr2⟩ | ⟨hn, u, hu, hr2⟩
            case inr.inl =>
              rw [hr2]
              refine .ub (Or.inr (Or.inr rfl)) (k := pfx.length + 1) ?_
              rintro b ⟨h, h1, _⟩
              rw [hn] at h1; cases h1
            case inr.inr =>
              rw [hr2]
              exact .ub (by rcases hu with h | h <;> simp [h]) hn
            rw [hr2]
            simp only [resbind_ok, modDec_apply, pure_apply, callFn]
            have hst : { opState s p (pfx.length + 1 + 1) with
                dec := { (opState s p (pfx.length + 1 + 1)).dec with
                  ipOffset := (opState s p (pfx.length + 1 + 1)).dec.ipOffset - 1 } } = opState s p (pfx.length + 1) := rfl
            rw [hst]
            have hb2 : BytesAt s (pfx ++ [b, mb]) := by
              have := hb1.snoc (b := mb) (by simpa using hmb)
              simpa using this
            have := Shape.op (env := env) (Dec.grp hp hb2 hF1 he) hnp
            have hc := fun t => hnc o ((mb >>> 3).setWidth 3) env (opState s p (pfx.length + 1)) t hnp
            have hrr : (ModRM.ofByte mb).rrr = (mb >>> 3).setWidth 3 := rfl
            rw [hrr]
            cases hres : opFn o ((mb >>> 3).setWidth 3) env (opState s p (pfx.length + 1)) with
            | ok x t => rw [hres] at this; exact this
            | ub u => rw [hres] at this; exact this
            | err e t =>
              rw [hres] at this
              cases e <;> first | exact this | exact absurd hres (hc t)
        | ext0F =>
          obtain ⟨rfl, rfl⟩ := entry_ext b a m he
          simp only [fetchParam, Bool.false_eq_true, if_false, pure_apply, resbind_ok, callFn, ext0F, bind_apply]
          rcases fetch8_cases env s p (pfx.length + 1) with ⟨b2, hb2, hr2⟩ | ⟨hn, hc, hr2⟩ | ⟨hn, u, hu, hr2⟩
          case inr.inl => rw [hr2]; exact .badmem hn hc
          case inr.inr => rw [hr2]; exact .ub (by rcases hu with h | h <;> simp [h]) hn
          rw [hr2]
          simp only [resbind_ok]
          have hbb : BytesAt s (pfx ++ [0x0F, b2]) := by
            have := hb1.snoc (b := b2) (by simpa using hb2)
            simpa using this
          cases he2 : opEntry0F b2 with
          | none => exact .undefF hp hbb he2
          | some e2 =>
            obtain ⟨fn2, a2, m2⟩ := e2
            cases fn2 with
            | ext0F => exact absurd he2 (entry0F_noext b2 a2 m2)
            | base o =>
              have hnp := entry0F_prefix b2 o a2 m2 he2
              have := Shape.op (env := env) (Dec.ext hp hbb he2) hnp
              have hc := fun t => hnc o a2 env (opState s p (pfx.length + 2)) t hnp
              show Shape env s (match opFn o a2 env (opState s p (pfx.length + 1 + 1)) with
                | .err .cont s' => decodeLoop fuel env s'
                | r => r)
              cases hres : opFn o a2 env (opState s p (pfx.length + 2)) with
              | ok x t => rw [hres] at this; exact this
              | ub u => rw [hres] at this; exact this
              | err e t =>
                rw [hres] at this
                cases e <;> first | exact this | exact absurd hres (hc t)

end RME
