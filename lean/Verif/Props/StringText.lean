import Verif.Props.ImmText2
import Verif.Spec.StringText
import Verif.Props.Strings
import Verif.Props.StringsIO
import Verif.Props.LoadMisc
set_option autoImplicit false
/-
C94: the operands and the repetition of string instructions as shown in the trace.
-/
namespace RME.Trace

/-! ### The text of the opcode function -/

theorem nr_strLoop {z : Bool} {step : Nat} {mask : BitVec 32} {body : BitVec 32 → BitVec 32 → M Unit} (hb : ∀ x y, Nr (body x y)) :
    ∀ fuel so dd, Nr (strLoop z step mask body fuel so dd) := by
  intro fuel
  induction fuel with
  | zero => intro so dd; exact Nr.ubx _
  | succ fuel ih =>
    intro so dd
    rw [strLoop]
    refine .bind ?_ fun stop => ?_
    · unfold strCount
      refine .bind .getDec fun d => ?_
      refine .ite _ (fun _ => .pure _) fun _ => .bind (.getReg _ _) fun cx => ?_
      exact .ite _ (fun _ => .pure _) fun _ => .bind (.setReg _ _ _) fun _ => .pure _
    · refine .ite _ (fun _ => .pure _) fun _ => .bind (hb _ _) fun _ => .bind .getFlags fun f => .bind ?_ fun again => ?_
      · unfold strAgain
        exact .bind .getDec fun _ => .bind .getFlags fun _ => .pure _
      · exact .ite _ (fun _ => ih _ _) fun _ => .pure _

theorem nr_strPut (u : Bool) (r : BitVec 3) (v : BitVec 32) : Nr (strPut u r v) := by
  unfold strPut
  exact .ite _ (fun _ => .bind .getDec fun _ => .ite _ (fun _ => .setReg _ _ _) fun _ => .setReg _ _ _) fun _ => .pure _

/-- Text of STRING_HEAD … STRING_FOOTER, by the states before and after. -/
def strBody (uD uS : Bool) (a b : String) (s t : State) (addr : Bool) (seg : SReg) (r : Rep) : List Char :=
  a.toList ++ strPlaces uD uS addr seg ++ b.toList ++ strMax r (cxOf s) ++ (if cxOf s = 0 then [] else strSkipped r (cxOf t))

theorem strOfs_ok (r : BitVec 3) (env : Env) (s : State) : ∃ v, strOfs r env s = .ok v s := by
  simp only [strOfs, bind_apply, getDec_apply, resbind_ok, ite_apply]
  split
  · exact ⟨_, rfl⟩
  · exact ⟨_, rfl⟩

theorem stringOpT_text {z uD uS : Bool} {a b : String} {step : Nat} {body : BitVec 16 → BitVec 32 → BitVec 16 → BitVec 32 → M Unit}
    (hb : ∀ p x q y, Nr (body p x q y)) {env : Env} (hcb : CallbacksKeep env (fun s t => t.dec = s.dec)) {s t : State} {x : List Char}
    (h : stringOpT z uD uS a b step body env s = .ok x t) :
    x = strBody uD uS a b s t s.dec.ovrAddr (s.dec.ovrSeg.getD .ds) s.dec.rep := by
  obtain ⟨dd, h1⟩ := strOfs_ok rDI env s
  obtain ⟨so, h2⟩ := strOfs_ok rSI env s
  have hcx : ∀ s : State, s.reg 16 rCX = cxOf s := fun s => rfl
  simp only [stringOpT, segUsed, getSegment, bind_apply, getSreg_apply, getDec_apply, resbind_ok, pure_apply, h1, h2, getReg_apply, say, ite_apply, hcx] at h
  rw [strBody]
  split at h
  · rename_i hz
    simp only [quiet, bind_apply] at h
    cases h
    rw [if_pos hz.2]
  · rename_i hz
    cases hL : strLoop z step (if s.dec.ovrAddr = true then 0xFFFFFFFF else 0xFFFF)
        (fun so dd => body (s.sreg (s.dec.ovrSeg.getD .ds)) so (s.sreg .es) dd) 65536 so dd env s with
    | err e u => rw [hL] at h; cases h
    | ub u => rw [hL] at h; cases h
    | ok r u =>
      have k1 := nr_strLoop (hb _ · _ ·) _ _ _ env s r u hcb hL
      rw [hL] at h
      simp only [resbind_ok] at h
      cases hD : strPut uD rDI r.2 env u with
      | err e v => rw [hD] at h; cases h
      | ub v => rw [hD] at h; cases h
      | ok _ v =>
      have k2 := nr_strPut _ _ _ env u _ v hcb hD
      rw [hD] at h
      simp only [resbind_ok] at h
      cases hS : strPut uS rSI r.1 env v with
      | err e w => rw [hS] at h; cases h
      | ub w => rw [hS] at h; cases h
      | ok _ w =>
      have k3 := nr_strPut _ _ _ env v _ w hcb hS
      rw [hS] at h
      simp only [resbind_ok, quiet, bind_apply] at h
      cases h
      rw [k3, k2, k1]
      have hw : ∀ f, cxOf ({ w with dec := f } : State) = cxOf w := fun f => rfl
      by_cases hr : s.dec.rep = .none
      · simp [strSkipped, hr]
      · rw [if_neg (fun h => hz ⟨hr, h⟩)]
        simp only [List.append_assoc, List.append_nil]
        rfl

/-! ### Places -/

theorem place_text (s : State) (p : Pfx) (sr : SReg) :
    (readMemText s (" ".toList ++ segName sr ++ (if p.addr then ":[EDI]" else ":[DI]").toList) = some (s.sreg sr, idxOf s p 7) ∧
      (" ".toList ++ segName sr ++ (if p.addr then ":[EDI]" else ":[DI]").toList).length ≤ 9) ∧
    (readMemText s (" ".toList ++ segName sr ++ (if p.addr then ":[ESI]" else ":[SI]").toList) = some (s.sreg sr, idxOf s p 6) ∧
      (" ".toList ++ segName sr ++ (if p.addr then ":[ESI]" else ":[SI]").toList).length ≤ 9) := by
  have one : ∀ (n : String) v, '+' ∉ n.toList → termVal s n.toList = some v →
      readMemText s (" ".toList ++ segName sr ++ (":[".toList ++ (n.toList ++ "]".toList))) = some (s.sreg sr, v) := by
    intro n v h hv
    have := seg_head s sr _ _ (SumIs.single (s := s) h hv)
    rwa [List.append_assoc] at this
  obtain ⟨-, -, w3, w4⟩ := W_term s
  unfold idxOf
  cases p.addr with
  | true => exact ⟨⟨one "EDI" _ (by decide) (nameD_facts s 7).2.2.2, by cases sr <;> decide⟩, one "ESI" _ (by decide) (nameD_facts s 6).2.2.2, by cases sr <;> decide⟩
  | false => exact ⟨⟨one "DI" _ (by decide) w4, by cases sr <;> decide⟩, one "SI" _ (by decide) w3, by cases sr <;> decide⟩

theorem dec_len5 (n : Nat) (h : n < 65536) : (decDigits 10 n).length ≤ 5 := by
  have key : ∀ f n, n < 10 ^ f → ∀ g, f ≤ g → 0 < f → (decDigits g n).length ≤ f := by
    intro f
    induction f with
    | zero => intro n _ g _ h0; omega
    | succ f ih =>
      intro n hn g hg _
      cases g with
      | zero => omega
      | succ g =>
        unfold decDigits
        split
        · simp
        · by_cases hf : f = 0
          · subst hf; omega
          · have := ih (n / 10) (by rw [Nat.pow_succ] at hn; omega) g (by omega) (by omega)
            simp only [List.length_append, List.length_cons, List.length_nil]; omega
  exact key 5 n (by omega) 10 (by decide) (by decide)

theorem repeat_text (s t : State) (p : Pfx) (m k : List Char) (hm : m = strMax p.rep (cxOf s)) (hk : k = if cxOf s = 0 then [] else strSkipped p.rep (cxOf t)) :
    RepeatText s t p (m ++ k) := by
  rw [RepeatText]
  split
  · rename_i h
    rw [hm, hk, strMax, strSkipped, if_pos h, if_pos h]; simp
  · rename_i h
    have h1 := (cxOf s).isLt
    have h2 := (cxOf t).isLt
    refine ⟨hexText (cxOf s).toNat, k, hexDigits_value 8 _ (by omega) (by decide), ?_, hexDigits_len 4 8 _ (by omega) (by decide), ?_, ?_⟩
    · have := hexPad_ne 0 (cxOf s).toNat
      simpa [hexPad] using this
    · rw [hm, strMax, if_neg h]
    · split
      · rename_i hc; rw [hk, if_pos hc]
      · rename_i hc
        refine ⟨decDigits 10 (cxOf t).toNat, decDigits_value 10 _ (by omega) (by decide), List.length_pos_iff.2 (decDigits_ne _ _ (by decide)), dec_len5 _ h2, ?_⟩
        rw [hk, if_neg hc, strSkipped, if_neg h]


theorem strBody_text {s t : State} {p : Pfx} {op : BitVec 8} {uD uS : Bool} {a b : String} (hf : strForm p op = ⟨a, uD, uS, b⟩) :
    StrText s t p op (strBody uD uS a b s t p.addr (p.seg.getD .ds) p.rep) := by
  have hr := repeat_text s t p _ _ rfl rfl
  refine ⟨if uD then " ".toList ++ segName .es ++ (if p.addr then ":[EDI]" else ":[DI]").toList else [],
    if uS then " ".toList ++ segName (p.seg.getD .ds) ++ (if p.addr then ":[ESI]" else ":[SI]").toList else [], _, ?_, ?_, ?_, hr⟩
  · rw [hf, strBody, strPlaces]; simp only [List.append_assoc]
  · rw [hf]
    cases uD with
    | true => exact (place_text s p .es).1
    | false => rfl
  · rw [hf]
    cases uS with
    | true => exact (place_text s p (p.seg.getD .ds)).2
    | false => rfl

/-- Text of an opcode function in the state in which an instruction runs it. -/
theorem strWT_text {w : Bool} {z uD uS : Bool} {a b : Nat → String} {body : Nat → BitVec 16 → BitVec 32 → BitVec 16 → BitVec 32 → M Unit}
    (hb : ∀ n p x q y, Nr (body n p x q y)) {env : Env} (hcb : CallbacksKeep env (fun s t => t.dec = s.dec)) {s t : State} {p : Pfx} {j : Nat} {x : List Char}
    {op : BitVec 8} (hf : strForm p op = ⟨a (elemW p w), uD, uS, b (elemW p w)⟩)
    (h : strWT w (fun n => stringOpT z uD uS (a n) (b n) (n / 8) (body n)) env (opState s p j) = .ok x t) : StrText s t p op x := by
  have h' : stringOpT z uD uS (a (elemW p w)) (b (elemW p w)) (elemW p w / 8) (body (elemW p w)) env (opState s p j) = .ok x t := by
    cases w with
    | false => exact h
    | true =>
      simp only [strWT, if_true, RME.withW, bind_apply, getDec_apply, resbind_ok, ite_apply] at h
      have e : (opState s p j).dec.ovrOper = p.oper := rfl
      rw [e] at h
      simp only [elemW, opW, if_true]
      cases hp : p.oper with
      | true => rw [hp] at h; exact h
      | false => rw [hp] at h; exact h
  rw [stringOpT_text (hb _) hcb h']
  exact strBody_text hf

/-- What a string instruction runs. -/
theorem str_entry : ∀ op : BitVec 8, isStringInstr false op = true → op ≠ 0xF1 ∧ manual false op 0 ≠ [] ∧ isGroup op = false ∧
    ∃ o, opEntry op = some ⟨.base o, 0, false⟩ ∧ o.isString = true ∧ o.isPrefix = false ∧
      (o = .ins (op.getLsbD 0) ∧ (op = 0x6C ∨ op = 0x6D) ∨ o = .outs (op.getLsbD 0) ∧ (op = 0x6E ∨ op = 0x6F) ∨
       o = .movs (op.getLsbD 0) ∧ (op = 0xA4 ∨ op = 0xA5) ∨ o = .cmps (op.getLsbD 0) ∧ (op = 0xA6 ∨ op = 0xA7) ∨
       o = .stos (op.getLsbD 0) ∧ (op = 0xAA ∨ op = 0xAB) ∨ o = .lods (op.getLsbD 0) ∧ (op = 0xAC ∨ op = 0xAD) ∨
       o = .scas (op.getLsbD 0) ∧ (op = 0xAE ∨ op = 0xAF)) := by
  intro op h
  have hop : op = 0x6C ∨ op = 0x6D ∨ op = 0x6E ∨ op = 0x6F ∨ op = 0xA4 ∨ op = 0xA5 ∨ op = 0xA6 ∨ op = 0xA7 ∨ op = 0xAA ∨ op = 0xAB ∨ op = 0xAC ∨ op = 0xAD ∨
      op = 0xAE ∨ op = 0xAF := by revert op; decide +kernel
  rcases hop with rfl | rfl | rfl | rfl | rfl | rfl | rfl | rfl | rfl | rfl | rfl | rfl | rfl | rfl
  all_goals refine ⟨by decide, by decide +kernel, by decide +kernel, ?_⟩
  · exact ⟨_, (by decide +kernel : opEntry 0x6C = some ⟨.base (.ins false), 0, false⟩), rfl, rfl, by decide⟩
  · exact ⟨_, (by decide +kernel : opEntry 0x6D = some ⟨.base (.ins true), 0, false⟩), rfl, rfl, by decide⟩
  · exact ⟨_, (by decide +kernel : opEntry 0x6E = some ⟨.base (.outs false), 0, false⟩), rfl, rfl, by decide⟩
  · exact ⟨_, (by decide +kernel : opEntry 0x6F = some ⟨.base (.outs true), 0, false⟩), rfl, rfl, by decide⟩
  · exact ⟨_, (by decide +kernel : opEntry 0xA4 = some ⟨.base (.movs false), 0, false⟩), rfl, rfl, by decide⟩
  · exact ⟨_, (by decide +kernel : opEntry 0xA5 = some ⟨.base (.movs true), 0, false⟩), rfl, rfl, by decide⟩
  · exact ⟨_, (by decide +kernel : opEntry 0xA6 = some ⟨.base (.cmps false), 0, false⟩), rfl, rfl, by decide⟩
  · exact ⟨_, (by decide +kernel : opEntry 0xA7 = some ⟨.base (.cmps true), 0, false⟩), rfl, rfl, by decide⟩
  · exact ⟨_, (by decide +kernel : opEntry 0xAA = some ⟨.base (.stos false), 0, false⟩), rfl, rfl, by decide⟩
  · exact ⟨_, (by decide +kernel : opEntry 0xAB = some ⟨.base (.stos true), 0, false⟩), rfl, rfl, by decide⟩
  · exact ⟨_, (by decide +kernel : opEntry 0xAC = some ⟨.base (.lods false), 0, false⟩), rfl, rfl, by decide⟩
  · exact ⟨_, (by decide +kernel : opEntry 0xAD = some ⟨.base (.lods true), 0, false⟩), rfl, rfl, by decide⟩
  · exact ⟨_, (by decide +kernel : opEntry 0xAE = some ⟨.base (.scas false), 0, false⟩), rfl, rfl, by decide⟩
  · exact ⟨_, (by decide +kernel : opEntry 0xAF = some ⟨.base (.scas true), 0, false⟩), rfl, rfl, by decide⟩

theorem strAcc_p (p : Pfx) : strAcc (elemW p true) = accName p ∧ strAcc (elemW p false) = " AL" := by
  simp only [elemW, opW, accName]
  cases p.oper <;> exact ⟨rfl, rfl⟩

theorem opFnT_str {o : Op} {op : BitVec 8} {other : Op → BitVec 3 → List Char} {env : Env} (hcb : CallbacksKeep env (fun s t => t.dec = s.dec))
    {s t : State} {p : Pfx} {j : Nat} {x : List Char}
    (ho : o = .ins (op.getLsbD 0) ∧ (op = 0x6C ∨ op = 0x6D) ∨ o = .outs (op.getLsbD 0) ∧ (op = 0x6E ∨ op = 0x6F) ∨
       o = .movs (op.getLsbD 0) ∧ (op = 0xA4 ∨ op = 0xA5) ∨ o = .cmps (op.getLsbD 0) ∧ (op = 0xA6 ∨ op = 0xA7) ∨
       o = .stos (op.getLsbD 0) ∧ (op = 0xAA ∨ op = 0xAB) ∨ o = .lods (op.getLsbD 0) ∧ (op = 0xAC ∨ op = 0xAD) ∨
       o = .scas (op.getLsbD 0) ∧ (op = 0xAE ∨ op = 0xAF))
    (h : opFnT other o 0 env (opState s p j) = .ok x t) : StrText s t p op x := by
  obtain ⟨k1, k2⟩ := strAcc_p p
  have w16 : elemW p true ≠ 8 := by simp only [elemW, opW]; cases p.oper <;> decide
  rcases ho with ⟨rfl, ho⟩ | ⟨rfl, ho⟩ | ⟨rfl, ho⟩ | ⟨rfl, ho⟩ | ⟨rfl, ho⟩ | ⟨rfl, ho⟩ | ⟨rfl, ho⟩
  · refine strWT_text (a := fun _ => "") (b := fun _ => " DX") (fun n p x q y => ?_) hcb ?_ h
    · exact .bind (.getReg _ _) fun _ => .bind (.portIn _ _) fun _ => .writeMem _ _ _ _
    · rcases ho with rfl | rfl <;> rfl
  · refine strWT_text (a := fun _ => " DX") (b := fun _ => "") (fun n p x q y => ?_) hcb ?_ h
    · exact .bind (.readMem _ _ _) fun _ => .bind (.getReg _ _) fun _ => .portOut _ _ _
    · rcases ho with rfl | rfl <;> rfl
  · refine strWT_text (a := fun _ => "") (b := fun _ => "") (fun n p x q y => ?_) hcb ?_ h
    · exact .bind (.readMem _ _ _) fun _ => .writeMem _ _ _ _
    · rcases ho with rfl | rfl <;> rfl
  · refine strWT_text (a := fun _ => "") (b := fun _ => "") (fun n p x q y => ?_) hcb ?_ h
    · exact .bind (.readMem _ _ _) fun _ => .bind (.readMem _ _ _) fun _ => by unfold cmpFlags; exact .bind .getFlags fun _ => .setFlags _
    · rcases ho with rfl | rfl <;> rfl
  · refine strWT_text (a := fun _ => "") (b := strAcc) (fun n p x q y => ?_) hcb ?_ h
    · exact .bind (.getReg _ _) fun _ => .writeMem _ _ _ _
    · rcases ho with rfl | rfl
      · exact congrArg (StrForm.mk "" true false) k2.symm
      · exact congrArg (StrForm.mk "" true false) k1.symm
  · refine strWT_text (a := strAcc) (b := fun _ => "") (fun n p x q y => ?_) hcb ?_ h
    · exact .bind (.readMem _ _ _) fun _ => .setReg _ _ _
    · rcases ho with rfl | rfl
      · exact congrArg (fun a => StrForm.mk a false true "") k2.symm
      · exact congrArg (fun a => StrForm.mk a false true "") k1.symm
  · refine strWT_text (a := fun _ => "") (b := fun n => if n = 8 then "" else strAcc n) (fun n p x q y => ?_) hcb ?_ h
    · exact .bind (.readMem _ _ _) fun _ => .bind (.getReg _ _) fun _ => by unfold cmpFlags; exact .bind .getFlags fun _ => .setFlags _
    · rcases ho with rfl | rfl
      · rfl
      · refine congrArg (StrForm.mk "" true false) ?_
        show accName p = if elemW p true = 8 then "" else strAcc (elemW p true)
        rw [if_neg w16, k1]

/-! ### The line -/

/-- `text` is the trace line of the string instruction `op` with the prefixes `pfx` and the operands `body`: number, stack pointer and address, the prefixes, a mnemonic
of the manual, the operands (cut after 62 characters), the bytes; no warning about the prefix. -/
def ShowsString (s : State) (pfx : List (BitVec 8)) (op : BitVec 8) (body text : List Char) : Prop :=
  ∃ mnem bs, readMnemonic mnem ∈ manual false op 0 ∧ mnem.length ≤ 18 ∧
    TraceLine text (" ".toList ++ visible (pfx.flatMap (fun b => prefixShown b ++ " ".toList) ++ mnem ++ body)) (s.instrNum.toNat + 1) (s.sreg .cs) s.ip bs

/-- The end of a step leaves the registers alone. -/
theorem doOpcodeAll_gpr {other : Op → BitVec 3 → List Char} {env : Env} {s t u : State} {text : List Char} {x : List Char × BitVec 8} (hr : Ready s)
    (h : doOpcodeAll other env s = .ok text t) (hd : decodeAll other 6 [] env (opState s {} 0) = .ok x u) : t.gpr = u.gpr := by
  simp only [doOpcodeAll, bind_apply, getIP_apply, getSreg_apply, resbind_ok, startInstr, INT_MAX] at h
  rw [if_neg hr.counter] at h
  simp only [resbind_ok, gets_apply] at h
  generalize (if s.debugLevel > 0 then _ else [] : List Char) = head at h
  have e1 : ({ s with dec := decReset, instrNum := s.instrNum + 1 } : State) = opState s {} 0 := rfl
  rw [e1, hd] at h
  obtain ⟨names, op⟩ := x
  simp only [resbind_ok, getDec_apply] at h
  generalize (if u.debugLevel > 0 then _ else [] : List Char) = warn at h
  cases h1 : advanceIP env u with
  | err e t => rw [h1] at h; cases h
  | ub u => rw [h1] at h; cases h
  | ok _ t1 =>
  rw [h1] at h
  simp only [resbind_ok] at h
  cases h2 : nullCheckTail (s.sreg .cs) s.ip env t1 with
  | err e t => rw [h2] at h; cases h
  | ub u => rw [h2] at h; cases h
  | ok _ t2 =>
  rw [h2] at h
  have hlv : t2.gpr = u.gpr := by
    obtain ⟨b, rfl⟩ := nullCheckTail_keeps h2
    simp only [advanceIP, bind_apply, getDec_apply, resbind_ok, ite_apply] at h1
    split at h1 <;> cases h1 <;> rfl
  simp only [resbind_ok, ite_apply, bind_apply, getDec_apply] at h
  split at h
  · cases h3 : traceBytes (s.sreg .cs) t2.dec.ipOffset s.ip env t2 with
    | err e v => rw [h3] at h; cases h
    | ub v => rw [h3] at h; cases h
    | ok bs v =>
      rw [h3] at h
      obtain ⟨rfl, -⟩ := traceBytes_inv _ _ _ _ _ _ _ h3
      cases h
      exact hlv
  · cases h; exact hlv

theorem string_line {other : Op → BitVec 3 → List Char} {env : Env} {s t : State} {h0 : Nat} {pfx : List (BitVec 8)} {op : BitVec 8} {p : Pfx} {text : List Char}
    (h : Traced other env s t h0 pfx [op] p text) (hs : isStringInstr false op = true) (hm : manual false op 0 ≠ []) (hat : NamedAt s pfx false op 0) {body : List Char}
    (hfull : doOpcodeFull body env s = .ok text t) : ShowsString s pfx op body text := by
  have := C92_names_partial h.ready h.number.1 h.number.2 h.level h.level' h.callbacks hat h.prefixes hm (fun h => Bool.noConfusion h) hfull
  obtain ⟨mid, x, mnem, bs, _, h2, h3, h4, h5, _⟩ := this
  have e : warningText (if isStringInstr false op then .none else p.rep) x = [] := by rw [if_pos hs]; rfl
  rw [e, List.nil_append] at h4
  rw [h4] at h5
  exact ⟨mnem, bs, h2, h3, h5⟩

theorem string_traced {other : Op → BitVec 3 → List Char} {env : Env} {s t : State} {h0 : Nat} {pfx : List (BitVec 8)} {op : BitVec 8} {p : Pfx} {text : List Char}
    (h : Traced other env s t h0 pfx [op] p text) (hs : isStringInstr false op = true) :
    ∃ body u, StrText s u p op body ∧ t.gpr = u.gpr ∧ ShowsString s pfx op body text := by
  obtain ⟨hF1, hm, hg, o, he, hstr, hpx, ho⟩ := str_entry op hs
  obtain ⟨body, ⟨u, hq, hgpr⟩, hfull⟩ := doOpcodeAll_full h.step (Q := fun b => ∃ u, StrText s u p op b ∧ t.gpr = u.gpr) h.ready fun x u hu => by
    have hgpr := doOpcodeAll_gpr h.ready h.step hu
    have hrun : ∀ bytes j, CodeAt s h0 bytes → Sub bytes j ([] : List (BitVec 8)) →
        (∀ t, callFn (.base o) 0 env (opState s p j) ≠ .err .cont t) ∧ ∀ x t, callFnT other (.base o) 0 env (opState s p j) = .ok x t → StrText s t p op x :=
      fun bytes j hc hsub => ⟨fun v => noCont o 0 env _ v hpx, fun x v hx => opFnT_str h.callbacks ho hx⟩
    obtain ⟨b, hb, hd⟩ := decodeAll_code (rest := []) (e := ⟨.base o, 0, false⟩) (a := 0) (P := fun b u => StrText s u p op b) h.code h.prefixes hF1 he rfl hrun hu
    exact ⟨b, ⟨u, hb, hgpr⟩, hd⟩
  have hat : NamedAt s pfx false op 0 := by
    refine ⟨⟨p, h.prefixes⟩, fun i hi => ?_, fun _ h2 => by rw [hg] at h2; cases h2⟩
    exact codeAt_byteAt h.code i hi
  exact ⟨body, u, hq, hgpr, string_line h hs hm hat hfull⟩

/-- C94: the trace line of a string instruction at debug level 1: mnemonic, then the operands and the repetition: `StrText`; no warning.  Partial as
`C93_shown_partial`: a line of more than 63 characters is cut. -/
theorem C94_shown_partial {other : Op → BitVec 3 → List Char} {env : Env} {s t : State} {h0 : Nat} {pfx : List (BitVec 8)} {op : BitVec 8} {p : Pfx} {text : List Char}
    (h : Traced other env s t h0 pfx [op] p text) (hs : isStringInstr false op = true) :
    ∃ body, StrText s t p op body ∧ ShowsString s pfx op body text := by
  obtain ⟨body, u, ⟨d, c, r, h1, h2, h3, h4⟩, hgpr, hl⟩ := string_traced h hs
  refine ⟨body, ⟨d, c, r, h1, h2, h3, ?_⟩, hl⟩
  have e : cxOf t = cxOf u := by rw [cxOf, cxOf, hgpr]
  rw [RepeatText, e]
  exact h4

theorem StrText.len {s t : State} {p : Pfx} {op : BitVec 8} {b : List Char} (h : StrText s t p op b) :
    b.length ≤ 22 + (if p.rep = .none then 0 else 35) := by
  obtain ⟨d, c, r, h1, h2, h3, h4⟩ := h
  have hf : (strForm p op).before.toList.length + (strForm p op).after.toList.length + (if (strForm p op).dst then 9 else 0) + (if (strForm p op).src then 9 else 0) ≤ 22 := by
    rw [strForm]
    have ha := acc_len p
    have e0 : ("".toList).length = 0 ∧ (" DX".toList).length = 3 ∧ (" AL".toList).length = 3 := by decide
    split <;> simp only [if_true, Bool.false_eq_true, if_false] <;> omega
  have hd : d.length ≤ if (strForm p op).dst then 9 else 0 := by split at h2 <;> simp_all
  have hc : c.length ≤ if (strForm p op).src then 9 else 0 := by split at h3 <;> simp_all
  have hr : r.length ≤ if p.rep = .none then 0 else 35 := by
    rw [RepeatText] at h4
    split at h4
    · rename_i h; rw [h4, if_pos h]; exact Nat.le_refl 0
    · rename_i h
      obtain ⟨x, y, -, -, hx, rfl, hy⟩ := h4
      rw [if_neg h]
      have e1 : (" (max 0x".toList).length = 8 ∧ (" times)".toList).length = 7 ∧ (" (".toList).length = 2 ∧ (" skipped)".toList).length = 9 := by decide
      have : y.length ≤ 16 := by
        split at hy
        · rw [hy]; exact Nat.zero_le _
        · obtain ⟨z, -, -, hz, rfl⟩ := hy
          simp only [List.length_append]; omega
      simp only [List.length_append]; omega
  rw [h1]
  simp only [List.length_append]
  omega

/-- C94: without a repeat prefix, and with at most one prefix, the line is never cut. -/
theorem C94_visible {other : Op → BitVec 3 → List Char} {env : Env} {s t : State} {h0 : Nat} {pfx : List (BitVec 8)} {op : BitVec 8} {p : Pfx} {text : List Char}
    (h : Traced other env s t h0 pfx [op] p text) (hs : isStringInstr false op = true) (h1 : pfx.length ≤ 1) (hr : p.rep = .none) :
    ∃ body mnem bs, StrText s t p op body ∧ readMnemonic mnem ∈ manual false op 0 ∧
      TraceLine text (" ".toList ++ (pfx.flatMap (fun b => prefixShown b ++ " ".toList) ++ mnem ++ body)) (s.instrNum.toNat + 1) (s.sreg .cs) s.ip bs := by
  obtain ⟨body, hb, mnem, bs, k1, k2, k3⟩ := C94_shown_partial h hs
  have hl := StrText.len hb
  rw [if_pos hr] at hl
  have hq := prefixes_len pfx
  rw [visible, if_pos (by simp only [List.length_append] at hq ⊢; omega)] at k3
  exact ⟨body, mnem, bs, hb, k1, k3⟩

/-- What the repetition shows with a repeat prefix and CX not 0. -/
theorem StrText.repeated {s t : State} {p : Pfx} {op : BitVec 8} {b : List Char} (h : StrText s t p op b) (hr : p.rep ≠ .none) (hc : cxOf s ≠ 0) :
    ∃ a x z, b = a ++ (" (max 0x".toList ++ x ++ " times)".toList ++ (" (".toList ++ z ++ " skipped)".toList)) ∧
      valueOf 16 x = some (cxOf s).toNat ∧ valueOf 10 z = some (cxOf t).toNat := by
  obtain ⟨d, c, r, h1, h2, h3, h4⟩ := h
  rw [RepeatText, if_neg hr] at h4
  obtain ⟨x, y, hx, -, -, rfl, hy⟩ := h4
  rw [if_neg hc] at hy
  obtain ⟨z, hz, -, -, rfl⟩ := hy
  exact ⟨_, x, z, h1, hx, hz⟩

theorem Traced.steps {other : Op → BitVec 3 → List Char} {env : Env} {s t u : State} {h0 : Nat} {pfx code : List (BitVec 8)} {p : Pfx} {text : List Char}
    (h : Traced other env s t h0 pfx code p text) (hj : StepsTo env s u) : t.gpr = u.gpr ∧ t.flags = u.flags ∧ t.host = u.host ∧ t.map = u.map ∧ t.valid = u.valid := by
  obtain ⟨d, hd⟩ := hj
  rw [h.runs] at hd
  cases hd
  exact ⟨rfl, rfl, rfl, rfl, rfl⟩

/-- C94: REPNE SCAS that finds the accumulator in element `j`: the trace shows a maximum and a number skipped, and maximum − skipped is `j + 1`, the number of elements
compared. -/
theorem C94_repne_scas {other : Op → BitVec 3 → List Char} {env : Env} {s t : State} {h0 : Nat} {pfx : List (BitVec 8)} {w : Bool} {p : Pfx} {text : List Char}
    (h : Traced other env s t h0 pfx [strOpc 0xAE w] p text) (hr : p.rep = .repnz) {v : BitVec (elemW p w)} (hv : (Opnd.reg 0).Has s (elemW p w) v)
    {x : Nat → BitVec (elemW p w)} {j : Nat} (hj : j < (cxOf s).toNat) (hx : ∀ k ≤ j, Holds s (dstSeg s) (dstOfs s (elemW p w) k) (x k))
    (hne : ∀ k < j, x k ≠ v) (heq : x j = v) :
    ∃ a m k M K, ShowsString s pfx (strOpc 0xAE w) (a ++ (" (max 0x".toList ++ m ++ " times)".toList ++ (" (".toList ++ k ++ " skipped)".toList))) text ∧
      valueOf 16 m = some M ∧ valueOf 10 k = some K ∧ M - K = j + 1 := by
  obtain ⟨u, hu, hzf, hcx, -⟩ := C34_repne_scas_found (len := pfx.length + 1) h.at_ hr env hv hj hx hne heq
  have hstr : isStringInstr false (strOpc 0xAE w) = true := by cases w <;> rfl
  obtain ⟨body, hb, hl⟩ := C94_shown_partial h hstr
  obtain ⟨a, m, k, rfl, hm, hk⟩ := StrText.repeated hb (by rw [hr]; decide) (fun e => by rw [e] at hj; exact absurd hj (Nat.not_lt_zero j))
  have e : cxOf t = cxOf u := by rw [cxOf, cxOf, (h.steps hu).1]
  rw [e, hcx] at hk
  exact ⟨a, m, k, _, _, hl, hm, hk, by omega⟩

/-- C94: REPE CMPS that stops at the first difference, in element `j`: maximum − skipped is `j + 1`. -/
theorem C94_repe_cmps {other : Op → BitVec 3 → List Char} {env : Env} {s t : State} {h0 : Nat} {pfx : List (BitVec 8)} {w : Bool} {p : Pfx} {text : List Char}
    (h : Traced other env s t h0 pfx [strOpc 0xA6 w] p text) (hr : p.rep = .rep) {x y : Nat → BitVec (elemW p w)} {j : Nat} (hj : j < (cxOf s).toNat)
    (hx : ∀ k ≤ j, Holds s (srcSeg s p) (srcOfs s (elemW p w) k) (x k)) (hy : ∀ k ≤ j, Holds s (dstSeg s) (dstOfs s (elemW p w) k) (y k))
    (heq : ∀ k < j, x k = y k) (hne : x j ≠ y j) :
    ∃ a m k M K, ShowsString s pfx (strOpc 0xA6 w) (a ++ (" (max 0x".toList ++ m ++ " times)".toList ++ (" (".toList ++ k ++ " skipped)".toList))) text ∧
      valueOf 16 m = some M ∧ valueOf 10 k = some K ∧ M - K = j + 1 := by
  obtain ⟨u, hu, hzf, hcf, hcx, -⟩ := C34_repe_cmps_diff (len := pfx.length + 1) h.at_ hr env hj hx hy heq hne
  have hstr : isStringInstr false (strOpc 0xA6 w) = true := by cases w <;> rfl
  obtain ⟨body, hb, hl⟩ := C94_shown_partial h hstr
  obtain ⟨a, m, k, rfl, hm, hk⟩ := StrText.repeated hb (by rw [hr]; decide) (fun e => by rw [e] at hj; exact absurd hj (Nat.not_lt_zero j))
  have e : cxOf t = cxOf u := by rw [cxOf, cxOf, (h.steps hu).1]
  rw [e, hcx] at hk
  exact ⟨a, m, k, _, _, hl, hm, hk, by omega⟩

/-- C94: STOSB: the place shown is where AL is afterwards. -/
theorem C94_stosb {other : Op → BitVec 3 → List Char} {env : Env} {s t : State} {h0 : Nat} {pfx : List (BitVec 8)} {p : Pfx} {text : List Char}
    (h : Traced other env s t h0 pfx [0xAA] p text) (hr : p.rep = .none) {v : BitVec 8} (hv : (Opnd.reg 0).Has s 8 v) (hd : DstMapped s 8 1)
    (hnz : NotZeroed (filled s 8 v 1) h0 (pfx.length + 1)) :
    ∃ d seg ofs, ShowsString s pfx 0xAA (d ++ " AL".toList) text ∧ readMemText s d = some (seg, ofs) ∧ Holds t seg (ofs.setWidth 16) v := by
  obtain ⟨body, ⟨d, c, r, rfl, h2, h3, h4⟩, hl⟩ := C94_shown_partial h rfl
  rw [RepeatText, if_pos hr] at h4
  subst h4
  have hf : strForm p 0xAA = ⟨"", true, false, " AL"⟩ := rfl
  rw [hf] at h2 h3 hl
  have h2 : readMemText s d = some (s.sreg .es, idxOf s p 7) := h2.1
  have h3 : c = [] := h3
  subst h3
  refine ⟨d, _, _, by simpa using hl, h2, ?_⟩
  have e1 : reps s p = 1 := by rw [reps, if_pos hr]
  have hfall : Falls env s (pfx.length + 1) (moveDI s p 8 1 (countDown p (filled s 8 v 1) 1)) := by
    have := C33_stos (w := false) (len := pfx.length + 1) h.at_ env (v := v) hv (by rw [e1]; exact hd) (by rw [e1]; exact hnz)
    rw [e1] at this
    exact this
  obtain ⟨f1, f2, f3, -⟩ := strFinal_host s p 8 true false (filled s 8 v 1) 1
  obtain ⟨-, -, g3, g4, g5⟩ := h.steps hfall
  obtain ⟨b, hm⟩ := hd 0 Nat.one_pos
  have hst : filled s 8 v 1 = { s with host := putHost s.host b v } := by
    show (Opnd.mem (dstSeg s) (dstOfs s 8 0)).put s 8 v = _
    simp only [Opnd.put, hm.1]
  have hofs : (idxOf s p 7).setWidth 16 = dstOfs s 8 0 := by
    have h0 : dstOfs s 8 0 = diOf s := by simp [dstOfs, elemOfs]
    rw [h0, idxOf, diOf]
    split
    · rfl
    · rw [← lowWord]; apply BitVec.eq_of_toNat_eq; simp
  have k3 : t.host = putHost s.host b v := by rw [g3]; exact (f1.trans (by rw [hst]))
  have k4 : t.map = s.map := by rw [g4]; exact (f2.trans (by rw [hst]))
  have k5 : t.valid = s.valid := by rw [g5]; exact (f3.trans (by rw [hst]))
  rw [hofs]
  have hm2 : Mapped t 8 (s.sreg .es) (dstOfs s 8 0) b := by
    have hx := hm
    simp only [Mapped, hostAddr] at hx ⊢
    rw [k4, k5]; exact hx
  refine ⟨b, hm2, ?_⟩
  have := putHost_holds s b v
  intro i hi
  rw [k3]
  exact this i hi

theorem ImmText.xlat_inv {s : State} {p : Pfx} {code : List (BitVec 8)} {b : List Char} (h : ImmText s p code b) (hc : code = [0xD7]) :
    ∃ m, readMemText s m = some (s.sreg (p.seg.getD .ds), (if p.addr then s.gpr 3 else s.gpr 3 % 65536) + s.gpr 0 % 256) ∧ b = " AL,".toList ++ m := by
  cases h <;> simp at hc
  case xlat m h1 h2 h3 => exact ⟨m, h1, h3⟩
  case mov hl _ _ _ => obtain ⟨-, rfl⟩ := hc; rw [Pfx.bytes] at hl; split at hl <;> cases hl
  all_goals exfalso
  all_goals obtain ⟨e, -⟩ := hc
  all_goals bv_omega

/-- C93: XLAT: the byte at the place shown is in AL afterwards. -/
theorem C93_xlat {other : Op → BitVec 3 → List Char} {env : Env} {s t : State} {h0 : Nat} {pfx : List (BitVec 8)} {p : Pfx} {text : List Char} {v : BitVec 8}
    (h : Traced other env s t h0 pfx [0xD7] p text) (ha : p.addr = false) :
    ∃ m seg ofs, ShowsLine s p pfx [0xD7] (" AL,".toList ++ m) text ∧ readMemText s m = some (seg, ofs) ∧
      (Holds s seg (ofs.setWidth 16) v → (t.gpr 0).setWidth 8 = v) := by
  obtain ⟨body, hb, hs⟩ := h.shown .xlat
  obtain ⟨m, hm, rfl⟩ := ImmText.xlat_inv hb rfl
  refine ⟨m, _, _, hs, hm, fun hv => ?_⟩
  have e : ((if p.addr then s.gpr 3 else s.gpr 3 % 65536) + s.gpr 0 % 256).setWidth 16 = (s.gpr 3).setWidth 16 + ((s.gpr 0).setWidth 8).setWidth 16 := by
    rw [ha, if_neg (by decide)]
    apply BitVec.eq_of_toNat_eq
    have e1 : (65536 : BitVec 32).toNat = 65536 := rfl
    have e2 : (256 : BitVec 32).toNat = 256 := rfl
    simp only [BitVec.toNat_setWidth, BitVec.toNat_add, BitVec.toNat_umod, e1, e2]
    omega
  rw [e] at hv
  have := (h.steps (C50_xlat h.at_ ha env hv)).1
  rw [this]
  show ((Opnd.reg 0).put s 8 v |>.gpr 0).setWidth 8 = v
  exact reg_setReg_same s (n := 8) (by decide) rAX v

/-! ### Examples and violations -/

/-- `demoTrace` with CX = 3, ES:DI where the demo program is not. -/
example : allText demoEnv (demoTrace [0xA4]) = some "(       1) [0x10100] 1000:0100 MOV (SB) ES:[DI] DS:[SI]\t; a4\n".toList ∧
    allText demoEnv (demoTrace [0x2E, 0xA5]) = some "(       1) [0x10100] 1000:0100 Ovr (Seg) CS MOV (SW) ES:[DI] CS:[SI]\t; 2e a5\n".toList ∧
    allText demoEnv (demoTrace [0xF3, 0xAA]) = some "(       1) [0x10100] 1000:0100 Prefix (REP) STO (SB) ES:[DI] AL (max 0x3 times) (0 skipped)\t; f3 aa\n".toList ∧
    allText demoEnv (demoTrace [0xF3, 0xAE]) = some "(       1) [0x10100] 1000:0100 Prefix (REP) SCA (SB) ES:[DI] (max 0x3 times) (2 skipped)\t; f3 ae\n".toList ∧
    allText demoEnv (demoTrace [0x67, 0x6D]) = some "(       1) [0x10100] 1000:0100 Ovr (AddrSize) <ADDR> IN (SW) ES:[EDI] DX\t; 67 6d\n".toList ∧
    allText demoEnv (demoTrace [0x2E, 0xD7]) = some "(       1) [0x10100] 1000:0100 Ovr (Seg) CS XLAT (z) AL, CS:[BX+AL]\t; 2e d7\n".toList := by
  refine ⟨?_, ?_, ?_, ?_, ?_, ?_⟩ <;> decide +kernel

theorem demo_traced (code : List (BitVec 8)) (pfx : List (BitVec 8)) (p : Pfx) (hp : Pfx.parse {} pfx = some p) (hl : (pfx ++ code).length ≤ 0x1000)
    (h : (match doOpcodeAll (fun _ _ => []) demoEnv (demoTrace (pfx ++ code)) with | .ok _ t => decide (1 ≤ t.debugLevel) | _ => false) = true) :
    ∃ t text, Traced (fun _ _ => []) demoEnv (demoTrace (pfx ++ code)) t 0x10100 pfx code p text := by
  split at h
  · rename_i x t e
    exact ⟨t, x, demoTrace_ready _, (show (0 : Int) ≤ 0 ∧ (0 : Int) < 2147483647 by decide), (show (1 : Int) ≤ 1 by decide), of_decide_eq_true h, (fun n f s h => by cases h), demoTrace_code _ hl, hp, e⟩
  · cases h

/-- The hypotheses of `C94_shown_partial` and `C94_visible`: STOSB with and without REP. -/
example : (∃ t text, Traced (fun _ _ => []) demoEnv (demoTrace ([0xF3] ++ [0xAA])) t 0x10100 [0xF3] [0xAA] { rep := .rep } text) ∧
    (∃ t text, Traced (fun _ _ => []) demoEnv (demoTrace ([] ++ [0xAA])) t 0x10100 [] [0xAA] {} text) ∧ isStringInstr false 0xAA = true :=
  ⟨demo_traced [0xAA] [0xF3] _ rfl (by decide) (by decide +kernel), demo_traced [0xAA] [] _ rfl (by decide) (by decide +kernel), rfl⟩

/-- `demoTrace` with all segments the code segment, AL = AEh, DI at the code and SI two bytes further on. -/
def demoScan (code : List (BitVec 8)) : State :=
  { demoTrace code with
    gpr := fun r => if r = 0 then 0xAE else if r = 7 then 0x100 else if r = 6 then 0x102 else (demo code).gpr r
    sreg := fun _ => 0x1000 }

theorem demoScan_traced (code rest : List (BitVec 8)) (pfx : List (BitVec 8)) (p : Pfx) (hp : Pfx.parse {} pfx = some p) (hl : (pfx ++ code ++ rest).length ≤ 0x1000)
    (h : (match doOpcodeAll (fun _ _ => []) demoEnv (demoScan (pfx ++ code ++ rest)) with | .ok _ t => decide (1 ≤ t.debugLevel) | _ => false) = true) :
    ∃ t text, Traced (fun _ _ => []) demoEnv (demoScan (pfx ++ code ++ rest)) t 0x10100 pfx code p text := by
  split at h
  · rename_i x t e
    refine ⟨t, x, ⟨(demo_ready (pfx ++ code ++ rest)).notMagic, (demo_ready (pfx ++ code ++ rest)).notHle, (demo_ready (pfx ++ code ++ rest)).counter⟩,
      (show (0 : Int) ≤ 0 ∧ (0 : Int) < 2147483647 by decide), (show (1 : Int) ≤ 1 by decide), of_decide_eq_true h, (fun n f s h => by cases h), fun i hi => ?_, hp, e⟩
    have := demo_code (pfx ++ code ++ rest) hl i (by rw [List.length_append]; omega)
    rw [List.getElem_append_left hi] at this
    exact this
  · cases h

theorem demoScan_holds (code : List (BitVec 8)) (k : Nat) (hk : k < 16) : Holds (demoScan code) 0x1000 (0x100 + BitVec.ofNat 16 k) (code.getD k 0) := by
  have hl : linear 0x1000 (0x100 + BitVec.ofNat 16 k) = 0x10100 + k := by
    have : (0x100 + BitVec.ofNat 16 k : BitVec 16).toNat = 0x100 + k := by simp; omega
    simp only [linear, this]
    simp; omega
  have hm := demo_mapped code 8 0x1000 (0x100 + BitVec.ofNat 16 k) (by decide)
  rw [hl] at hm
  refine ⟨0x10100 + k, hm, fun i hi => ?_⟩
  obtain rfl : i = 0 := by omega
  show (demo code).host _ = _
  simp [demo, byteOf]

/-- The hypotheses of `C94_repne_scas`: REPNE SCASB over its own code, F2 AE, finds AL = AEh in element 1. -/
example : ∃ t text, Traced (fun _ _ => []) demoEnv (demoScan ([0xF2] ++ [0xAE] ++ [])) t 0x10100 [0xF2] [strOpc 0xAE false] { rep := .repnz } text ∧
    ∃ (v : BitVec 8) (x : Nat → BitVec 8), (Opnd.reg 0).Has (demoScan [0xF2, 0xAE]) 8 v ∧ 1 < (cxOf (demoScan [0xF2, 0xAE])).toNat ∧
      (∀ k ≤ 1, Holds (demoScan [0xF2, 0xAE]) (dstSeg (demoScan [0xF2, 0xAE])) (dstOfs (demoScan [0xF2, 0xAE]) 8 k) (x k)) ∧
      (∀ k < 1, x k ≠ v) ∧ x 1 = v := by
  obtain ⟨t, text, h⟩ := demoScan_traced [0xAE] [] [0xF2] { rep := .repnz } rfl (by decide) (by decide +kernel)
  refine ⟨t, text, h, 0xAE, fun k => [0xF2, 0xAE].getD k 0, rfl, by decide, fun k hk => ?_, fun k hk => ?_, rfl⟩
  · have : dstOfs (demoScan [0xF2, 0xAE]) 8 k = 0x100 + BitVec.ofNat 16 k := by
      have : k = 0 ∨ k = 1 := by omega
      rcases this with rfl | rfl <;> decide
    rw [this]
    exact demoScan_holds _ k (by omega)
  · obtain rfl : k = 0 := by omega
    decide

/-- The hypotheses of `C94_repe_cmps`: REPE CMPSB of F3 00 (SI) with its own code F3 A6 (DI), different in element 1. -/
example : (∃ t text, Traced (fun _ _ => []) demoEnv (demoScan ([0xF3] ++ [0xA6] ++ [0xF3, 0])) t 0x10100 [0xF3] [strOpc 0xA6 false] { rep := .rep } text) ∧
    ∃ x y : Nat → BitVec 8, 1 < (cxOf (demoScan [0xF3, 0xA6, 0xF3, 0])).toNat ∧
    (∀ k ≤ 1, Holds (demoScan [0xF3, 0xA6, 0xF3, 0]) (srcSeg (demoScan [0xF3, 0xA6, 0xF3, 0]) { rep := .rep }) (srcOfs (demoScan [0xF3, 0xA6, 0xF3, 0]) 8 k) (x k)) ∧
    (∀ k ≤ 1, Holds (demoScan [0xF3, 0xA6, 0xF3, 0]) (dstSeg (demoScan [0xF3, 0xA6, 0xF3, 0])) (dstOfs (demoScan [0xF3, 0xA6, 0xF3, 0]) 8 k) (y k)) ∧
    (∀ k < 1, x k = y k) ∧ x 1 ≠ y 1 := by
  refine ⟨demoScan_traced [0xA6] [0xF3, 0] [0xF3] { rep := .rep } rfl (by decide) (by decide +kernel), fun k => [0xF3, 0xA6, 0xF3, 0].getD (2 + k) 0, fun k => [0xF3, 0xA6, 0xF3, 0].getD k 0, by decide, fun k hk => ?_, fun k hk => ?_, fun k hk => ?_, by decide⟩
  · have : srcOfs (demoScan [0xF3, 0xA6, 0xF3, 0]) 8 k = 0x100 + BitVec.ofNat 16 (2 + k) := by
      have : k = 0 ∨ k = 1 := by omega
      rcases this with rfl | rfl <;> decide
    rw [this]
    exact demoScan_holds _ (2 + k) (by omega)
  · have : dstOfs (demoScan [0xF3, 0xA6, 0xF3, 0]) 8 k = 0x100 + BitVec.ofNat 16 k := by
      have : k = 0 ∨ k = 1 := by omega
      rcases this with rfl | rfl <;> decide
    rw [this]
    exact demoScan_holds _ k (by omega)
  · obtain rfl : k = 0 := by omega
    decide

/-- The hypotheses of `C94_stosb`: STOSB without prefix. -/
example : (∃ t text, Traced (fun _ _ => []) demoEnv (demoTrace ([] ++ [0xAA])) t 0x10100 [] [0xAA] {} text) ∧ (Opnd.reg 0).Has (demoTrace [0xAA]) 8 (0x55 : BitVec 8) ∧
    DstMapped (demoTrace [0xAA]) 8 1 ∧ NotZeroed (filled (demoTrace [0xAA]) 8 (0x55 : BitVec 8) 1) 0x10100 1 :=
  ⟨demo_traced [0xAA] [] _ rfl (by decide) (by decide +kernel), rfl, fun k hk => ⟨_, demo_mapped [0xAA] 8 _ _ (by decide)⟩, fun h => absurd h (by decide)⟩

/-- C94 is violated: SCASB does not show AL, SCASW shows AX. -/
theorem C94_violated_scasb :
    allText demoEnv (demoTrace [0xAE]) = some "(       1) [0x10100] 1000:0100 SCA (SB) ES:[DI]\t; ae\n".toList ∧
    allText demoEnv (demoTrace [0xAF]) = some "(       1) [0x10100] 1000:0100 SCA (SW) ES:[DI] AX\t; af\n".toList := by
  refine ⟨?_, ?_⟩ <;> decide +kernel

/-- C94 is violated: the line of REP MOVS (and REPE CMPS) is too long for the buffer even in the shortest case, so the end of the number of elements skipped is lost. -/
theorem C94_violated_cut :
    allText demoEnv (demoTrace [0xF3, 0xA4]) = some "(       1) [0x10100] 1000:0100 Prefix (REP) MOV (SB) ES:[DI] DS:[SI] (max 0x3 times) (0 skipp$\t; f3 a4\n".toList ∧
    allText demoEnv (demoTrace [0xF3, 0xA6]) = some "(       1) [0x10100] 1000:0100 Prefix (REP) CMP (SB) ES:[DI] DS:[SI] (max 0x3 times) (0 skipp$\t; f3 a6\n".toList := by
  refine ⟨?_, ?_⟩ <;> decide +kernel

end RME.Trace
