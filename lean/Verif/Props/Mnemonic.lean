import Verif.Model.Mnemonic
import Verif.Spec.Mnemonic
import Verif.Props.Trace
import Verif.Lemmas.RepKeep
set_option autoImplicit false
namespace RME.Trace

example : opNames.length = 256 ∧ opNames0F.length = 256 := by decide +kernel

theorem names_table : ∀ (op : BitVec 8) (r : BitVec 3), manual false op r = [] ∨ readMnemonic (nameText op r) ∈ manual false op r := by decide +kernel
theorem names_table0F : ∀ (op : BitVec 8) (r : BitVec 3), op = 0xB6 ∨ op = 0xB7 ∨ op = 0xBA ∨ manual true op r = [] ∨ readMnemonic (nameText 0x0F r ++ nameText0F op) ∈ manual true op r := by decide +kernel

/-! ### The text along the prefix loop -/

theorem byteAt_unique {s : State} {k : Nat} {a b : BitVec 8} (h : ByteAt s k a) (h' : ByteAt s k b) : a = b := by
  obtain ⟨x, h1, _, h3⟩ := h
  obtain ⟨y, h4, _, h6⟩ := h'
  rw [h1] at h4; cases h4
  rw [← h3, ← h6]

theorem fetch8_at {s : State} {k : Nat} {b : BitVec 8} (h : ByteAt s k b) (env : Env) (p : Pfx) :
    readInstr 8 env (opState s p k) = .ok b (opState s p (k + 1)) := by
  rcases fetch8_cases env s p k with ⟨b', hb, hr⟩ | ⟨hn, _, _⟩ | ⟨hn, _⟩
  · rw [byteAt_unique h hb]; exact hr
  · obtain ⟨x, h1, _⟩ := h
    rw [hn] at h1; cases h1
  · exact absurd h (hn b)

theorem fetch8_err {env : Env} {s t : State} {e : Err} (h : readInstr 8 env s = .err e t) : e = .badmem := by
  have hp : ∀ seg ofs u e t, readMem 8 seg ofs env u = .err e t → e = .badmem := by
    intro seg ofs u e t h
    simp only [readMem, bind_apply, getPtr_spec] at h
    split at h
    · simp only [resbind_ok, loadM] at h
      split at h <;> cases h
    · split at h
      · cases h; rfl
      · cases h
  simp only [readInstr, bind_apply, getSreg_apply, resbind_ok, nextIP, gets_apply] at h
  generalize hr : readMem 8 _ _ env s = r at h
  cases r with
  | err e' t' => cases h; exact hp _ _ _ _ _ hr
  | ub u => cases h
  | ok v t' => cases h

theorem param_err {x : Entry} {env : Env} {s t : State} {e : Err} (h : fetchParam x env s = .err e t) : False := by
  simp only [fetchParam, ite_apply] at h
  split at h
  · simp only [bind_apply, getModRM_unchecked_eq] at h
    cases hr : readInstr 8 env s with
    | ok b t => rw [hr] at h; cases h
    | err e t => rw [hr] at h; cases h
    | ub u => rw [hr] at h; cases h
  · cases h

/-- Printing does not change what is executed. -/
theorem decodeText_erase (body : List Char) (env : Env) : ∀ fuel acc s,
    (decodeText body fuel acc env s).bind (fun _ t => .ok () t) = decodeLoop fuel env s := by
  intro fuel
  induction fuel with
  | zero => intro acc s; rfl
  | succ fuel ih =>
    intro acc s
    rw [decodeLoop_succ]
    simp only [decodeText, decodeOne, bind_apply]
    cases h1 : readInstr 8 env s with
    | err e t =>
      cases fetch8_err h1; rfl
    | ub u => rfl
    | ok op t =>
      simp only [resbind_ok, guardE_apply]
      by_cases h2 : op = 0xF1
      · subst h2; rfl
      have hg : (op == 0xF1) = false := by simpa using h2
      simp only [if_neg h2, hg, Bool.false_eq_true, if_false, resbind_ok]
      cases h3 : opEntry op with
      | none => rfl
      | some e =>
        simp only [bind_apply]
        cases h4 : fetchParam e env t with
        | err e' t' => exact (param_err h4).elim
        | ub u => rfl
        | ok q t' =>
          simp only [resbind_ok]
          cases h5 : callFn e.fn q env t' with
          | ok x t'' => rfl
          | ub u => rfl
          | err e'' t'' => cases e'' <;> first | rfl | exact ih _ _


theorem prefix_text {b : BitVec 8} {p q : Pfx} (h : p.add b = some q) {e : Entry} (he : opEntry b = some e) (x : BitVec 8) :
    nameText b e.arg ++ fnText e.fn e.arg x = prefixShown b := by
  have hb : b = 0x26 ∨ b = 0x2E ∨ b = 0x36 ∨ b = 0x3E ∨ b = 0x64 ∨ b = 0x65 ∨ b = 0x66 ∨ b = 0x67 ∨ b = 0xF2 ∨ b = 0xF3 := by
    clear he
    simp only [Pfx.add] at h
    by_cases c0 : b = 0x26; · simp [c0]
    by_cases c1 : b = 0x2E; · simp [c1]
    by_cases c2 : b = 0x36; · simp [c2]
    by_cases c3 : b = 0x3E; · simp [c3]
    by_cases c4 : b = 0x64; · simp [c4]
    by_cases c5 : b = 0x65; · simp [c5]
    by_cases c6 : b = 0x66; · simp [c6]
    by_cases c7 : b = 0x67; · simp [c7]
    by_cases c8 : b = 0xF2; · simp [c8]
    by_cases c9 : b = 0xF3; · simp [c9]
    simp only [c0, c1, c2, c3, c4, c5, c6, c7, c8, c9, if_false] at h
    cases h
  rcases hb with rfl | rfl | rfl | rfl | rfl | rfl | rfl | rfl | rfl | rfl
  · cases (by decide : opEntry 0x26 = some ⟨.base .ovrSeg, 0, false⟩).symm.trans he; show _ ++ prefixText .ovrSeg 0 = _; decide +kernel
  · cases (by decide : opEntry 0x2E = some ⟨.base .ovrSeg, 1, false⟩).symm.trans he; show _ ++ prefixText .ovrSeg 1 = _; decide +kernel
  · cases (by decide : opEntry 0x36 = some ⟨.base .ovrSeg, 2, false⟩).symm.trans he; show _ ++ prefixText .ovrSeg 2 = _; decide +kernel
  · cases (by decide : opEntry 0x3E = some ⟨.base .ovrSeg, 3, false⟩).symm.trans he; show _ ++ prefixText .ovrSeg 3 = _; decide +kernel
  · cases (by decide : opEntry 0x64 = some ⟨.base .ovrSeg, 4, false⟩).symm.trans he; show _ ++ prefixText .ovrSeg 4 = _; decide +kernel
  · cases (by decide : opEntry 0x65 = some ⟨.base .ovrSeg, 5, false⟩).symm.trans he; show _ ++ prefixText .ovrSeg 5 = _; decide +kernel
  · cases (by decide : opEntry 0x66 = some ⟨.base .ovrOper, 0, false⟩).symm.trans he; show _ ++ prefixText .ovrOper 0 = _; decide +kernel
  · cases (by decide : opEntry 0x67 = some ⟨.base .ovrAddr, 0, false⟩).symm.trans he; show _ ++ prefixText .ovrAddr 0 = _; decide +kernel
  · cases (by decide : opEntry 0xF2 = some ⟨.base .repnz, 0, false⟩).symm.trans he; show _ ++ prefixText .repnz 0 = _; decide +kernel
  · cases (by decide : opEntry 0xF3 = some ⟨.base .rep, 0, false⟩).symm.trans he; show _ ++ prefixText .rep 0 = _; decide +kernel

/-- Blank before the next name. -/
def sep (acc : List Char) : List Char := if acc = [] then [] else " ".toList

theorem prefixShown_ne (b : BitVec 8) : prefixShown b ≠ [] := by
  simp only [prefixShown]
  repeat' split
  all_goals decide

/-- The prefixes with their names. -/
def joined (acc : List Char) (pfx : List (BitVec 8)) : List Char := pfx.foldl (fun a b => a ++ sep a ++ prefixShown b) acc

theorem joined_sep : ∀ (pfx : List (BitVec 8)) (acc : List Char),
    joined acc pfx ++ sep (joined acc pfx) = acc ++ sep acc ++ pfx.flatMap (fun b => prefixShown b ++ " ".toList) := by
  intro pfx
  induction pfx with
  | nil => intro acc; simp [joined]
  | cons b bs ih =>
    intro acc
    have := ih (acc ++ sep acc ++ prefixShown b)
    rw [show joined acc (b :: bs) = joined (acc ++ sep acc ++ prefixShown b) bs from rfl, this]
    have hne : acc ++ sep acc ++ prefixShown b ≠ [] := by simp [prefixShown_ne]
    have hs : sep (acc ++ sep acc ++ prefixShown b) = " ".toList := by rw [sep, if_neg hne]
    rw [hs]
    simp [List.append_assoc]

theorem decodeText_prefixes (body : List Char) (env : Env) (s : State) : ∀ (pfx : List (BitVec 8)) (p q : Pfx) (k fuel : Nat) (acc : List Char),
    (∀ i (hi : i < pfx.length), ByteAt s (k + i) pfx[i]) → p.parse pfx = some q →
    decodeText body (pfx.length + fuel) acc env (opState s p k) = decodeText body fuel (joined acc pfx) env (opState s q (k + pfx.length)) := by
  intro pfx
  induction pfx with
  | nil =>
    intro p q k fuel acc _ hp
    simp [Pfx.parse] at hp
    subst hp
    simp [joined]
  | cons b bs ih =>
    intro p q k fuel acc hb hp
    simp only [Pfx.parse, Option.bind_eq_some_iff] at hp
    obtain ⟨p1, h1, h2⟩ := hp
    have hb0 : ByteAt s k b := hb 0 (by simp)
    obtain ⟨hF1, e, he, hm, hf⟩ := Pfx.add_cases h1
    rw [show (b :: bs).length + fuel = (bs.length + fuel) + 1 by simp; omega, decodeText]
    simp only [fetch8_at hb0, if_neg hF1, he, fetchParam, hm, Bool.false_eq_true, if_false, pure_apply]
    rw [hf env _ (k + 1) rfl]
    show decodeText body (bs.length + fuel) _ env (opState s p1 (k + 1)) = _
    rw [ih p1 q (k + 1) fuel _ (fun i hi => by
      have := hb (i + 1) (by simp; omega)
      rw [show k + 1 + i = k + (i + 1) by omega]; simpa using this) h2, List.append_assoc, prefix_text h1 he]
    rw [show k + 1 + bs.length = k + (b :: bs).length by simp; omega]
    rfl


/-! ### The opcode itself -/

theorem modrm_names : ∀ op : BitVec 8, chk (fun op e => (e.modrm == (modrmNames op).isSome) && (!e.modrm || isGroup op)) op = true := by decide +kernel

theorem nameText_plain {op : BitVec 8} (h : modrmNames op = none) (r r' : BitVec 3) : nameText op r = nameText op r' := by
  simp only [nameText, h]

theorem prefixText_none {o : Op} (h : o.isPrefix = false) (p : BitVec 3) : prefixText o p = [] := by
  cases o <;> first | rfl | (simp [Op.isPrefix] at h)

theorem manual_prefix : ∀ (op : BitVec 8) (r : BitVec 3), manual false op r ≠ [] → isPrefixByte op = false ∧ op ≠ 0xF1 ∧ op ≠ 0x0F := by decide +kernel

theorem string_table : ∀ op : BitVec 8, chk (fun op e => e.fn.isBaseWith fun o => o.isString == isStringInstr false op) op = true := by decide +kernel
theorem string_table0F : ∀ op : BitVec 8, chkF (fun _ e => e.fn.isBaseWith fun o => !o.isString) op = true := by decide +kernel

/-- The text of the whole decode loop. -/
theorem decodeText_names {body : List Char} {env : Env} {s t : State} {pfx : List (BitVec 8)} {two : Bool} {op : BitVec 8} {r : BitVec 3} {x : List Char × BitVec 8}
    (hi : NamedAt s pfx two op r) (hm : manual two op r ≠ []) (h : decodeText body 6 [] env (opState s {} 0) = .ok x t) :
    x = (pfx.flatMap (fun b => prefixShown b ++ " ".toList) ++ (if two then nameText 0x0F 0 ++ nameText0F op else nameText op r) ++ body,
      if two then 0x0F else op) ∧
    (CallbacksKeep env (fun s t => t.dec = s.dec) → ∀ p, Pfx.parse {} pfx = some p → t.dec.rep = if isStringInstr two op then .none else p.rep) := by
  obtain ⟨⟨p, hp⟩, hb, hg⟩ := hi
  have hlen : pfx.length ≤ 4 := by
    have := Pfx.parse_count hp; have := p.count_le; simp [Pfx.count] at *; omega
  have hpb : ∀ i (hi : i < pfx.length), ByteAt s (0 + i) pfx[i] := by
    intro i hi
    have := hb i (by simp; omega)
    rw [List.getElem_append_left hi] at this
    simpa using this
  obtain ⟨fuel, hf⟩ : ∃ f, 6 = pfx.length + (f + 1) := ⟨5 - pfx.length, by omega⟩
  rw [hf, decodeText_prefixes body env s pfx {} p 0 (fuel + 1) [] hpb hp, Nat.zero_add] at h
  have hj := joined_sep pfx []
  simp only [sep, if_true, List.nil_append] at hj
  rw [decodeText] at h
  cases two with
  | false =>
    obtain ⟨h1, h2, h3⟩ := manual_prefix op r hm
    have hop : ByteAt s pfx.length op := by
      have := hb pfx.length (by simp)
      simpa using this
    simp only [fetch8_at hop, if_neg h2] at h
    cases he : opEntry op with
    | none => rw [he] at h; cases h
    | some e =>
      rw [he] at h
      obtain ⟨fn, a, m⟩ := e
      have htab := chk_some (modrm_names op) he
      simp only [Bool.and_eq_true, beq_iff_eq, Bool.or_eq_true, Bool.not_eq_true'] at htab
      cases fn with
      | ext0F => exact absurd (entry_ext op a m he).1 h3
      | base o =>
        have hnp := entry_prefix op h1 o a m he
        have hpar : ∃ q, fetchParam ⟨.base o, a, m⟩ env (opState s p (pfx.length + 1)) = .ok q (opState s p (pfx.length + 1)) ∧ nameText op q = nameText op r := by
          cases m with
          | false =>
            refine ⟨a, rfl, nameText_plain ?_ _ _⟩
            simpa using htab.1.symm
          | true =>
            obtain ⟨mb, hmb, hr⟩ := hg rfl (by simpa using htab.2)
            refine ⟨r, ?_, rfl⟩
            simp only [fetchParam, if_true, bind_apply, getModRM_unchecked_eq, fetch8_at hmb, resbind_ok, modDec_apply, pure_apply]
            rw [← hr]
            rfl
        obtain ⟨q, hq1, hq2⟩ := hpar
        simp only [hq1, callFn, fnText, prefixText_none hnp, List.append_nil, hq2] at h
        cases hres : opFn o q env (opState s p (pfx.length + 1)) with
        | ub u => rw [hres] at h; cases h
        | err e t =>
          rw [hres] at h
          cases e <;> first | (cases h; done) | exact absurd hres (noCont o q env _ t hnp)
        | ok y u =>
          rw [hres] at h
          cases h
          refine ⟨by rw [hj]; simp, fun hk p' hp' => ?_⟩
          cases hp.symm.trans hp'
          have ht := chk_some (string_table op) he
          simp only [Fn.isBaseWith, beq_iff_eq] at ht
          rw [← ht]
          cases hst : o.isString with
          | true => exact opFn_clearsRep hst hres
          | false => exact opFn_keepsRep o q hnp hst env _ _ _ hk hres
  | true =>
    have h0F : ByteAt s pfx.length 0x0F := by
      have := hb pfx.length (by simp)
      simpa using this
    have hop : ByteAt s (pfx.length + 1) op := by
      have := hb (pfx.length + 1) (by simp)
      simpa using this
    have he : opEntry 0x0F = some ⟨.ext0F, 0, false⟩ := by decide
    have hpk : peek env (opState s p (pfx.length + 1)) = op := by rw [peek, fetch8_at hop]
    simp only [fetch8_at h0F, if_neg (show (0x0F : BitVec 8) ≠ 0xF1 by decide), he, fetchParam, Bool.false_eq_true, if_false, pure_apply, fnText, hpk,
      callFn, ext0F, bind_apply, fetch8_at hop, resbind_ok] at h
    cases he2 : opEntry0F op with
    | none => rw [he2] at h; cases h
    | some e2 =>
      rw [he2] at h
      obtain ⟨fn2, a2, m2⟩ := e2
      cases fn2 with
      | ext0F => exact absurd he2 (entry0F_noext op a2 m2)
      | base o =>
        have hnp := entry0F_prefix op o a2 m2 he2
        simp only at h
        cases hres : opFn o a2 env (opState s p (pfx.length + 1 + 1)) with
        | ub u => rw [hres] at h; cases h
        | err e t =>
          rw [hres] at h
          cases e <;> first | (cases h; done) | exact absurd hres (noCont o a2 env _ t hnp)
        | ok y u =>
          rw [hres] at h
          cases h
          refine ⟨by rw [hj]; simp, fun hk p' hp' => ?_⟩
          cases hp.symm.trans hp'
          have ht := chkF_some (string_table0F op) he2
          simp only [Fn.isBaseWith, Bool.not_eq_true'] at ht
          exact opFn_keepsRep o a2 hnp ht env _ _ _ hk hres


/-! ### The line -/

theorem name_len : ∀ (op : BitVec 8) (r : BitVec 3), (nameText op r).length ≤ 18 := by decide +kernel
theorem name_len0F : ∀ op : BitVec 8, (nameText 0x0F 0 ++ nameText0F op).length ≤ 18 := by decide +kernel
theorem prefixShown_len : ∀ b : BitVec 8, (prefixShown b).length ≤ 21 := by decide +kernel
theorem prefixes_len (pfx : List (BitVec 8)) : (pfx.flatMap (fun b => prefixShown b ++ " ".toList)).length ≤ 22 * pfx.length := by
  induction pfx with
  | nil => exact Nat.le_refl 0
  | cons b bs ih =>
    have := prefixShown_len b
    have e : (" ".toList).length = 1 := rfl
    rw [List.flatMap_cons, List.length_append, List.length_append, List.length_cons, e]
    omega

theorem repWarning_text (r : Rep) (op : BitVec 8) : repWarning r op = warningText r (hexPad 2 op.toNat) := by
  have e1 : " Prefix 0x".toList ++ hexPad 2 (repCode .rep) ++ " used with wrong opcode 0x".toList = " Prefix 0xf3 used with wrong opcode 0x".toList := by decide +kernel
  have e2 : " Prefix 0x".toList ++ hexPad 2 (repCode .repnz) ++ " used with wrong opcode 0x".toList = " Prefix 0xf2 used with wrong opcode 0x".toList := by decide +kernel
  unfold repWarning warningText
  generalize hexPad 2 op.toNat = x
  cases r with
  | none => rfl
  | rep =>
    have : ¬ Rep.rep = .none := by decide
    simp only [this, if_false]
    exact congrArg (· ++ x) e1
  | repnz =>
    have : ¬ Rep.repnz = .none := by decide
    simp only [this, if_false]
    exact congrArg (· ++ x) e2

/-- C92: printing changes nothing: with the complete line the step has the outcome it has without. -/
theorem C92_text_of_step (body : List Char) (env : Env) (s : State) :
    (doOpcodeFull body env s).bind (fun _ t => .ok () t) = doOpcode env s := by
  simp only [doOpcodeFull, doOpcode, bind_apply, getIP_apply, getSreg_apply, resbind_ok, startInstr]
  split
  · rfl
  simp only [resbind_ok, gets_apply]
  generalize (if s.debugLevel > 0 then _ else [] : List Char) = head
  generalize ({ s with dec := decReset, instrNum := s.instrNum + 1 } : State) = q
  rw [← decodeText_erase body env 6 [] q]
  cases h : decodeText body 6 [] env q with
  | err e t => rfl
  | ub u => rfl
  | ok x t =>
    obtain ⟨names, op⟩ := x
    simp only [resbind_ok, finishInstr, bind_apply, getDec_apply]
    generalize (if t.debugLevel > 0 then _ else [] : List Char) = warn
    cases h1 : advanceIP env t with
    | err e t => rfl
    | ub u => rfl
    | ok _ t1 =>
      simp only [resbind_ok]
      cases h2 : nullCheckTail (s.sreg .cs) s.ip env t1 with
      | err e t => rfl
      | ub u => rfl
      | ok _ t2 =>
        simp only [resbind_ok, debugTail, bind_apply, gets_apply, ite_apply]
        split
        · simp only [getDec_apply, resbind_ok]
          rw [← traceBytes_erase]
          cases h3 : traceBytes (s.sreg .cs) t2.dec.ipOffset s.ip env t2 <;> rfl
        · rfl

/-- The complete line is the line of C89 with the names in the middle. -/
theorem full_line {env : Env} {s t : State} {body text : List Char} {pfx : List (BitVec 8)} {two : Bool} {op : BitVec 8} {r : BitVec 3} {p : Pfx}
    (hr : Ready s) (hl : 1 ≤ s.debugLevel) (hl' : 1 ≤ t.debugLevel) (hcb : CallbacksKeep env (fun s t => t.dec = s.dec))
    (hi : NamedAt s pfx two op r) (hp : Pfx.parse {} pfx = some p) (hm : manual two op r ≠ [])
    (h : doOpcodeFull body env s = .ok text t) :
    ∃ mid x, HexField 2 x (if two then (0x0F : BitVec 8) else op).toNat ∧
      mid = warningText (if isStringInstr two op then .none else p.rep) x ++ " ".toList ++ Debug.cutText '$'
        (pfx.flatMap (fun b => prefixShown b ++ " ".toList) ++ (if two then nameText 0x0F 0 ++ nameText0F op else nameText op r) ++ body) ∧
      doOpcodeText mid env s = .ok text t := by
  simp only [doOpcodeFull, bind_apply, getIP_apply, getSreg_apply, resbind_ok, startInstr, INT_MAX] at h
  simp only [doOpcodeText, bind_apply, getIP_apply, getSreg_apply, resbind_ok, startInstr, INT_MAX]
  rw [if_neg hr.counter] at h
  rw [if_neg hr.counter]
  simp only [resbind_ok, gets_apply] at h ⊢
  rw [if_pos (show s.debugLevel > 0 by omega)] at h ⊢
  generalize hhead : traceHead _ = head at h ⊢
  have e1 : ({ s with dec := decReset, instrNum := s.instrNum + 1 } : State) = opState s {} 0 := rfl
  rw [e1] at h ⊢
  have he := decodeText_erase body env 6 [] (opState s {} 0)
  cases hd : decodeText body 6 [] env (opState s {} 0) with
  | err e t => rw [hd] at h; cases h
  | ub u => rw [hd] at h; cases h
  | ok x u =>
  obtain ⟨hx, hrep⟩ := decodeText_names hi hm hd
  rw [hd] at h he
  subst hx
  simp only [resbind_ok] at h he
  simp only [← he, resbind_ok, getDec_apply] at h ⊢
  have hlu : ∀ t1 t2 : State, advanceIP env u = .ok () t1 → nullCheckTail (s.sreg .cs) s.ip env t1 = .ok () t2 → t2.debugLevel = u.debugLevel := by
    intro t1 t2 h1 h2
    obtain ⟨b, rfl⟩ := nullCheckTail_keeps h2
    simp only [advanceIP, bind_apply, getDec_apply, resbind_ok, ite_apply] at h1
    split at h1 <;> cases h1 <;> rfl
  cases h1 : advanceIP env u with
  | err e t => rw [h1] at h; cases h
  | ub u => rw [h1] at h; cases h
  | ok _ t1 =>
  rw [h1] at h
  simp only [resbind_ok] at h ⊢
  cases h2 : nullCheckTail (s.sreg .cs) s.ip env t1 with
  | err e t => rw [h2] at h; cases h
  | ub u => rw [h2] at h; cases h
  | ok _ t2 =>
  rw [h2] at h
  have hlv := hlu t1 t2 h1 h2
  simp only [resbind_ok, ite_apply, bind_apply, getDec_apply] at h ⊢
  split at h
  · rename_i h4
    rw [if_pos (show u.debugLevel > 0 by omega)] at h
    cases h3 : traceBytes (s.sreg .cs) t2.dec.ipOffset s.ip env t2 with
    | err e t => rw [h3] at h; cases h
    | ub u => rw [h3] at h; cases h
    | ok x v =>
      rw [h3] at h
      cases h
      refine ⟨_, hexPad 2 (if two then (0x0F : BitVec 8) else op).toNat, ?_, rfl, ?_⟩
      · exact hexPad08 _
      · rw [if_pos h4, repWarning_text, hrep hcb p hp]
        rfl
  · rename_i h4
    cases h
    exact absurd hl' (by omega)

theorem cut_visible (l : List Char) : Debug.cutText '$' l = visible l := by
  rw [Debug.cutText, visible]
  by_cases h : l.length ≤ 63
  · rw [if_pos h, if_pos (show l.length < 64 by omega)]
  · rw [if_neg h, if_neg (show ¬ l.length < 64 by omega)]; rfl

/-- The line of a step with its text in the middle, whatever the instruction. -/
theorem text_line {env : Env} {s t : State} {mid text : List Char} (hr : Ready s) (h0 : 0 ≤ s.instrNum) (hm : s.instrNum < 2147483647)
    (hl : 1 ≤ s.debugLevel) (hl' : 1 ≤ t.debugLevel) (h : doOpcodeText mid env s = .ok text t) :
    ∃ bs, TraceLine text mid (s.instrNum.toNat + 1) (s.sreg .cs) s.ip bs := by
  simp only [doOpcodeText, bind_apply, getIP_apply, getSreg_apply, resbind_ok, startInstr, INT_MAX] at h
  rw [if_neg hr.counter] at h
  simp only [resbind_ok, gets_apply] at h
  rw [if_pos (show s.debugLevel > 0 by omega)] at h
  generalize hhead : traceHead _ = head at h
  generalize ({ s with dec := decReset, instrNum := s.instrNum + 1 } : State) = q at h
  cases hd : decodeLoop 6 env q with
  | err e t => rw [hd] at h; cases h
  | ub u => rw [hd] at h; cases h
  | ok u1 u =>
  rw [hd] at h
  simp only [resbind_ok] at h
  cases h1 : advanceIP env u with
  | err e t => rw [h1] at h; cases h
  | ub u => rw [h1] at h; cases h
  | ok _ t1 =>
  rw [h1] at h
  simp only [resbind_ok] at h
  cases h2 : nullCheckTail (s.sreg .cs) s.ip env t1 with
  | err e t => rw [h2] at h; cases h
  | ub u => rw [h2] at h; cases h
  | ok _ t2 =>
  rw [h2] at h
  simp only [resbind_ok, ite_apply, bind_apply, getDec_apply] at h
  split at h
  · cases h3 : traceBytes (s.sreg .cs) t2.dec.ipOffset s.ip env t2 with
    | err e t => rw [h3] at h; cases h
    | ub u => rw [h3] at h; cases h
    | ok x v =>
      rw [h3] at h
      cases h
      obtain ⟨rfl, bs, hbl, rfl, hb⟩ := traceBytes_inv _ _ _ _ _ _ _ h3
      refine ⟨bs, ?_⟩
      have := traceHead_line { s with dec := decReset, instrNum := s.instrNum + 1 } mid bs (by show 0 ≤ s.instrNum + 1; omega) (by show s.instrNum + 1 ≤ _; omega)
      rw [hhead] at this
      have e4 : (s.instrNum + 1).toNat = s.instrNum.toNat + 1 := by omega
      rw [← e4]
      exact this
  · cases h
    exact absurd hl' (by omega)

/-- C92: at debug level 1 and above the line of every instruction that runs to its end shows, after number and address: a warning exactly if there is a repeat
prefix and the instruction is no string instruction, a blank, every prefix byte with its name in the order of the code, a name that reads as the mnemonic of
the processor manual for that opcode (and register field), and `body`, the text of the operands (C91); of these last three the part that fits (`visible`).
Partial: not for 0F B6, 0F B7 and 0F BA (`C92_violated_movzx`); `body` is not tied to the instruction here; callbacks leave the decoder scratch area alone. -/
theorem C92_names_partial {env : Env} {s t : State} {body text : List Char} {pfx : List (BitVec 8)} {p : Pfx} {two : Bool} {op : BitVec 8} {r : BitVec 3}
    (hr : Ready s) (h0 : 0 ≤ s.instrNum) (hn : s.instrNum < 2147483647) (hl : 1 ≤ s.debugLevel) (hl' : 1 ≤ t.debugLevel)
    (hcb : CallbacksKeep env (fun s t => t.dec = s.dec))
    (hi : NamedAt s pfx two op r) (hp : Pfx.parse {} pfx = some p) (hm : manual two op r ≠ [])
    (hx : two = true → op ≠ 0xB6 ∧ op ≠ 0xB7 ∧ op ≠ 0xBA)
    (h : doOpcodeFull body env s = .ok text t) :
    ∃ mid x mnem bs, HexField 2 x (if two then (0x0F : BitVec 8) else op).toNat ∧ readMnemonic mnem ∈ manual two op r ∧ mnem.length ≤ 18 ∧
      mid = warningText (if isStringInstr two op then .none else p.rep) x ++ " ".toList ++
        visible (pfx.flatMap (fun b => prefixShown b ++ " ".toList) ++ mnem ++ body) ∧
      TraceLine text mid (s.instrNum.toNat + 1) (s.sreg .cs) s.ip bs ∧ doOpcodeText mid env s = .ok text t := by
  obtain ⟨mid, x, h1, h2, h3⟩ := full_line hr hl hl' hcb hi hp hm h
  rw [cut_visible] at h2
  obtain ⟨bs, hb⟩ := text_line hr h0 hn hl hl' h3
  refine ⟨mid, x, _, bs, h1, ?_, ?_, h2, hb, h3⟩
  · cases two with
    | false => exact (names_table op r).resolve_left hm
    | true =>
      obtain ⟨a, b, c⟩ := hx rfl
      have := (((names_table0F op r).resolve_left a).resolve_left b).resolve_left c
      have := this.resolve_left hm
      rw [nameText_plain (by decide : modrmNames 0x0F = none) r 0] at this
      exact this
  · cases two with
    | false => exact name_len op r
    | true => exact name_len0F op

/-- C92: with at most two prefixes the mnemonic is always on the line, however long the operands are: the middle part is the warning, a blank, the prefixes and the
mnemonic, followed by the operand text, or by a beginning of it and a dollar sign.  Partial as `C92_names_partial`. -/
theorem C92_visible_partial {env : Env} {s t : State} {body text : List Char} {pfx : List (BitVec 8)} {p : Pfx} {two : Bool} {op : BitVec 8} {r : BitVec 3}
    (hr : Ready s) (h0 : 0 ≤ s.instrNum) (hn : s.instrNum < 2147483647) (hl : 1 ≤ s.debugLevel) (hl' : 1 ≤ t.debugLevel)
    (hcb : CallbacksKeep env (fun s t => t.dec = s.dec))
    (hi : NamedAt s pfx two op r) (hp : Pfx.parse {} pfx = some p) (hm : manual two op r ≠ []) (h2p : pfx.length ≤ 2)
    (hx : two = true → op ≠ 0xB6 ∧ op ≠ 0xB7 ∧ op ≠ 0xBA)
    (h : doOpcodeFull body env s = .ok text t) :
    ∃ x mnem rest bs, HexField 2 x (if two then (0x0F : BitVec 8) else op).toNat ∧ readMnemonic mnem ∈ manual two op r ∧
      (rest = body ∨ ∃ k, rest = body.take k ++ ['$']) ∧
      TraceLine text (warningText (if isStringInstr two op then .none else p.rep) x ++ " ".toList ++
        (pfx.flatMap (fun b => prefixShown b ++ " ".toList) ++ mnem ++ rest)) (s.instrNum.toNat + 1) (s.sreg .cs) s.ip bs := by
  obtain ⟨mid, x, mnem, bs, h1, h2, h3, h4, h5, _⟩ := C92_names_partial hr h0 hn hl hl' hcb hi hp hm hx h
  subst h4
  generalize hq : pfx.flatMap (fun b => prefixShown b ++ " ".toList) = q at h5 ⊢
  have hql : q.length ≤ 44 := by
    have := prefixes_len pfx; rw [hq] at this; omega
  by_cases hlen : (q ++ mnem ++ body).length ≤ 63
  · rw [visible, if_pos hlen] at h5
    exact ⟨x, mnem, body, bs, h1, h2, .inl rfl, h5⟩
  · rw [visible, if_neg hlen, List.take_append, List.take_of_length_le (by simp; omega)] at h5
    refine ⟨x, mnem, _, bs, h1, h2, .inr ⟨62 - (q ++ mnem).length, rfl⟩, ?_⟩
    rw [List.append_assoc (q ++ mnem)] at h5
    exact h5

/-- Text of the complete trace line, if the instruction ends without error. -/
def fullText (env : Env) (body : List Char) (s : State) : Option (List Char) :=
  match doOpcodeFull body env s with
  | .ok x _ => some x
  | _ => none

example : fullText demoEnv " AL BL".toList { demo [0x00, 0xD8] with debugLevel := 1, instrNum := 41 } =
    some "(      42) [0x10100] 1000:0100 ADD (MR) AL BL\t; 00 d8\n".toList := by decide +kernel
/-- REPNZ CS CLC: the prefixes in their order, and the warning. -/
example : fullText demoEnv [] { demo [0xF2, 0x2E, 0xF8] with debugLevel := 1 } =
    some "(       1) [0x10100] 1000:0100 Prefix 0xf2 used with wrong opcode 0xf8 Prefix (REPNZ) Ovr (Seg) CS Flag (CLC)\t; f2 2e f8\n".toList := by decide +kernel
/-- REP STOSB: no warning. -/
example : fullText demoEnv [] { demo [0xF3, 0xAA] with debugLevel := 1 } =
    some "(       1) [0x10100] 1000:0100 Prefix (REP) STO (SB)\t; f3 aa\n".toList := by decide +kernel
example : readMnemonic "STO (SB)".toList = "STOSB".toList ∧ "STOSB".toList ∈ manual false 0xAA 0 := by decide +kernel
example : readMnemonic "RCR (MI8X)".toList = "RCR".toList ∧ "RCR".toList ∈ manual false 0xC1 3 := by decide +kernel
example : readMnemonic "Ext (0F) SHLD".toList = "SHLD".toList ∧ "SHLD".toList ∈ manual true 0xA4 0 := by decide +kernel
/-- The hypotheses of `C92_names_partial` and `C92_visible_partial` for REPNZ CS RCR AL,1 (F2 2E D0 D8). -/
example : NamedAt { demo [0xF2, 0x2E, 0xD0, 0xD8] with debugLevel := 1 } [0xF2, 0x2E] false 0xD0 3 ∧ manual false 0xD0 3 ≠ [] ∧
    fullText demoEnv [] { demo [0xF2, 0x2E, 0xD0, 0xD8] with debugLevel := 1 } =
      some "(       1) [0x10100] 1000:0100 Prefix 0xf2 used with wrong opcode 0xd0 Prefix (REPNZ) Ovr (Seg) CS RCR (M1)\t; f2 2e d0 d8\n".toList := by
  refine ⟨⟨⟨⟨some .cs, .repnz, false, false⟩, by decide⟩, ?_, fun _ _ => ⟨0xD8, ⟨0x10103, by decide, by decide, by decide⟩, by decide⟩⟩, by decide +kernel, by decide +kernel⟩
  intro i hi
  refine ⟨0x10100 + i, ?_⟩
  simp only [List.length_append, List.length_cons, List.length_nil, if_neg Bool.false_ne_true] at hi
  have : i = 0 ∨ i = 1 ∨ i = 2 := by omega
  rcases this with rfl | rfl | rfl <;> exact ⟨by decide, by decide, rfl⟩
example : CallbacksKeep demoEnv (fun s t => t.dec = s.dec) := by intro n f s h; cases h

/-- C92 is violated: MOVZX AX,BL (0F B6 C3) and MOVZX AX,BX (0F B7 C3) are both shown as `MOV`, which is another instruction. -/
theorem C92_violated_movzx :
    fullText demoEnv " AX BL".toList { demo [0x0F, 0xB6, 0xC3] with debugLevel := 1 } = some "(       1) [0x10100] 1000:0100 Ext (0F) MOV AX BL\t; 0f b6 c3\n".toList ∧
    fullText demoEnv " AX BX".toList { demo [0x0F, 0xB7, 0xC3] with debugLevel := 1 } = some "(       1) [0x10100] 1000:0100 Ext (0F) MOV AX BX\t; 0f b7 c3\n".toList ∧
    (∀ r, readMnemonic "Ext (0F) MOV".toList ∉ manual true 0xB6 r ∧ readMnemonic "Ext (0F) MOV".toList ∉ manual true 0xB7 r) := by
  refine ⟨by decide +kernel, by decide +kernel, by decide +kernel⟩

/-- C92 is violated: with all four kinds of prefix the 64-byte buffer is full before the mnemonic: REP MOVSB and REP STOSB with the prefixes ES, 66 and 67
are shown alike, by a beginning of the prefixes. -/
theorem C92_violated_cut : ∃ a b : List Char,
    fullText demoEnv [] { demo [0x26, 0x66, 0x67, 0xF3, 0xA4] with debugLevel := 1 } = some (a ++ " Ovr (Seg) ES Ovr (OpSize) <OPER> Ovr (AddrSize) <ADDR> Prefix $".toList ++ "\t; 26 66 67 f3 a4\n".toList) ∧
    fullText demoEnv [] { demo [0x26, 0x66, 0x67, 0xF3, 0xAA] with debugLevel := 1 } = some (b ++ " Ovr (Seg) ES Ovr (OpSize) <OPER> Ovr (AddrSize) <ADDR> Prefix $".toList ++ "\t; 26 66 67 f3 aa\n".toList) ∧ a = b :=
  ⟨"(       1) [0x10100] 1000:0100".toList, _, by decide +kernel, by decide +kernel, rfl⟩

end RME.Trace
