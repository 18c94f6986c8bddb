import Verif.Props.RmText
import Verif.Props.LoadMisc
set_option autoImplicit false
/-
C95, continued: LEA, LES and LDS, and instructions with a ModR/M byte behind 0F.
-/
namespace RME.Trace

/-- C95: LEA: the line shows the register and the place; after the step the register shown has the offset of the place shown. -/
theorem C95_lea {other : Op → BitVec 3 → List Char} {env : Env} {s t : State} {h0 : Nat} {pfx disp : List (BitVec 8)} {m : BitVec 8} {p : Pfx} {text : List Char}
    {r : BitVec 3} {seg ofs : BitVec 16} (h : Traced other env s t h0 pfx (0x8D :: m :: disp) p text) (ho : p.oper = false) (hm : Mem16 p m disp)
    (hrm : RM s p 16 (m :: disp) r (.mem seg ofs)) (hpl : Plain s p 16 (m :: disp)) (hofs : ofs = eaOffset s m disp) :
    ∃ name place, ShowsRM s p pfx 0x8D r (' ' :: name ++ place) text ∧ regByName name = some (r, 0, 16) ∧
      readMemText s place = some (seg, ofs.setWidth 32) ∧ (t.gpr r).setWidth 16 = ofs := by
  have e16 : rmWidth p 0x8D = 16 := by simp only [rmWidth, Pfx.bytes, ho]; rfl
  obtain ⟨body, ⟨a, ha, b, hb, rfl⟩, hs⟩ := C95_shown_partial (imm := []) (f := .rm) (op := 0x8D) (rm := m :: disp) (by rwa [List.append_nil]) rfl
    (by rw [e16]; exact hrm) (by rw [e16]; exact hpl) rfl
  rw [e16] at ha hb
  have hr : r = regOf m := by
    obtain ⟨m', tl, e, hr⟩ := hrm.head
    cases e
    exact hr
  cases ha with
  | mem _ _ _ ha =>
  rw [regOp_wide (by decide)] at hb
  cases hb with
  | reg _ name hb =>
  refine ⟨name, a, hs, hb, ha, ?_⟩
  rw [(h.falls (C50_lea h.at_ hm ho env)).1, hr, hofs]
  have := put_has (s := s) (.inr (.inl rfl)) (o := .reg (regOf m)) trivial (eaOffset s m disp)
  exact this.symm

theorem lxs_named : ∀ r : BitVec 3, manual false 0xC4 r ≠ [] ∧ manual false 0xC5 r ≠ [] := by decide +kernel

/-- C95, violated for LES and LDS: the line shows the place first and the register second. -/
theorem C95_violated_lxs {other : Op → BitVec 3 → List Char} {env : Env} {s t : State} {h0 : Nat} {pfx rm : List (BitVec 8)} {op : BitVec 8} {p : Pfx} {text : List Char}
    {r : BitVec 3} {o : Opnd} (h : Traced other env s t h0 pfx (op :: rm) p text) (hop : op = 0xC4 ∨ op = 0xC5)
    (hrm : RM s p (rmWidth p op) rm r o) (hpl : Plain s p (rmWidth p op) rm) :
    ∃ body, RmText s (rmWidth p op) .mr r o [] body ∧ ShowsRM s p pfx op r body text := by
  rcases hop with rfl | rfl
  · exact rm_shown (q := .lxs .es) (g := false) (by rwa [List.append_nil]) (by decide) (lxs_named r).1 rfl (by decide +kernel) rfl rfl hrm hpl rfl
  · exact rm_shown (q := .lxs .ds) (g := false) (by rwa [List.append_nil]) (by decide) (lxs_named r).2 rfl (by decide +kernel) rfl rfl hrm hpl rfl

/-- `text` is the trace line of the instruction 0F `op` with the prefixes `pfx` and the operands `body`. -/
def ShowsExt (s : State) (p : Pfx) (pfx : List (BitVec 8)) (op : BitVec 8) (body text : List Char) : Prop :=
  ∃ x mnem bs, HexField 2 x 0x0F ∧ readMnemonic mnem ∈ manual true op 0 ∧ mnem.length ≤ 18 ∧
    TraceLine text (warningText p.rep x ++ " ".toList ++ visible (pfx.flatMap (fun b => prefixShown b ++ " ".toList) ++ mnem ++ body))
      (s.instrNum.toNat + 1) (s.sreg .cs) s.ip bs

/-- C95: IMUL and BSF of r/m to a register (0F AF, 0F BC): the register and the place.  Partial as `C95_shown_partial`. -/
theorem C95_ext_partial {other : Op → BitVec 3 → List Char} {env : Env} {s t : State} {h0 : Nat} {pfx rm : List (BitVec 8)} {op : BitVec 8} {p : Pfx} {text : List Char}
    {r : BitVec 3} {o : Opnd} (h : Traced other env s t h0 pfx (0x0F :: op :: rm) p text) (hop : op = 0xAF ∨ op = 0xBC)
    (hrm : RM s p (p.bytes * 8) rm r o) (hpl : Plain s p (p.bytes * 8) rm) :
    ∃ body, RmText s (p.bytes * 8) .rm r o [] body ∧ ShowsExt s p pfx op body text := by
  obtain ⟨q, he, hpx, hk⟩ : ∃ q, opEntry0F op = some ⟨.base q, 0, false⟩ ∧ q.isPrefix = false ∧ textKind q 0 = some (true, .rm) := by
    rcases hop with rfl | rfl
    · exact ⟨.imulRMX, by decide +kernel, rfl, rfl⟩
    · exact ⟨.bsf, by decide +kernel, rfl, rfl⟩
  have hrun : ∀ bytes j, CodeAt s h0 bytes → Sub bytes j (op :: rm) →
      (∀ t, callFn .ext0F 0 env (opState s p j) ≠ .err .cont t) ∧
      ∀ x t, callFnT other .ext0F 0 env (opState s p j) = .ok x t → RmText s (p.bytes * 8) .rm r o [] x := by
    intro bytes j hc hsub
    refine ⟨fun v ht => ?_, fun x v hx => ?_⟩
    · simp only [callFn, ext0F_run hc env p hsub.head he] at ht
      exact noCont _ _ env _ _ hpx ht
    · simp only [callFnT, ext0FT, bind_apply, fetch8 hc env p j hsub.head, resbind_ok, he, opFnT_rm other hk] at hx
      exact opRMT_text hc env other hk (w := true) hrm hpl (by rw [List.append_nil]; exact hsub.tail) rfl hx
  obtain ⟨body, hq, hfull⟩ := doOpcodeAll_full h.step (Q := fun b => RmText s (p.bytes * 8) .rm r o [] b) h.ready fun x u hu =>
    decodeAll_code (e := ⟨.ext0F, 0, false⟩) (a := 0) (P := fun b _ => RmText s (p.bytes * 8) .rm r o [] b) h.code h.prefixes (by decide) (by decide +kernel) rfl hrun hu
  have hat : NamedAt s pfx true op 0 := by
    refine ⟨⟨p, h.prefixes⟩, fun i hi => ?_, fun h1 => Bool.noConfusion h1⟩
    have hlen : i < (pfx ++ 0x0F :: op :: rm).length := by
      simp only [if_true, List.length_append, List.length_cons, List.length_nil] at hi ⊢; omega
    have := codeAt_byteAt h.code i hlen
    have e : (pfx ++ 0x0F :: op :: rm)[i] = (pfx ++ if true = true then [0x0F, op] else [op])[i] := by
      have e2 : pfx ++ 0x0F :: op :: rm = (pfx ++ [0x0F, op]) ++ rm := by simp
      simp only [e2, if_true]
      exact List.getElem_append_left (by simpa using hi)
    rwa [e] at this
  obtain ⟨mid, x, mnem, bs, h1, h2, h3, h4, h5, _⟩ := C92_names_partial h.ready h.number.1 h.number.2 h.level h.level' h.callbacks hat h.prefixes
    (by rcases hop with rfl | rfl <;> decide +kernel) (fun _ => by rcases hop with rfl | rfl <;> decide) hfull
  rw [show isStringInstr true op = false from rfl] at h4
  rw [h4] at h5
  exact ⟨body, hq, x, mnem, bs, h1, h2, h3, h5⟩

/-- The hypotheses of `C95_lea` (LEA SI,[BX+SI]), of `C95_violated_lxs` (LES BX,[1234h]) and of `C95_ext_partial` (BSF AX,CX). -/
example : (∃ t text, Traced (fun _ _ => []) demoEnv (demoTrace ([] ++ [0x8D, 0x36, 0x34, 0x12])) t 0x10100 [] [0x8D, 0x36, 0x34, 0x12] {} text) ∧
    Mem16 {} 0x36 [0x34, 0x12] ∧ RM (demoTrace ([] ++ [0x8D, 0x36, 0x34, 0x12])) {} 16 [0x36, 0x34, 0x12] 6 (.mem 0x3000 0x1234) ∧
    (0x1234 : BitVec 16) = eaOffset (demoTrace ([] ++ [0x8D, 0x36, 0x34, 0x12])) 0x36 [0x34, 0x12] ∧
    (∃ t text, Traced (fun _ _ => []) demoEnv (demoTrace ([] ++ [0xC4, 0x1E, 0x34, 0x12])) t 0x10100 [] [0xC4, 0x1E, 0x34, 0x12] {} text) ∧
    RM (demoTrace ([] ++ [0xC4, 0x1E, 0x34, 0x12])) {} (rmWidth {} 0xC4) [0x1E, 0x34, 0x12] 3 (.mem 0x3000 0x1234) ∧
    (∃ t text, Traced (fun _ _ => []) demoEnv (demoTrace ([] ++ [0x0F, 0xBC, 0xC1])) t 0x10100 [] [0x0F, 0xBC, 0xC1] {} text) ∧
    RM (demoTrace ([] ++ [0x0F, 0xBC, 0xC1])) {} 16 [0xC1] 0 (.reg 1) :=
  ⟨demo_traced _ [] _ rfl (by decide) (by decide +kernel), ⟨by decide, by decide, by decide⟩, .mem 0x36 [0x34, 0x12] (by decide) rfl (by decide), by decide +kernel,
   demo_traced _ [] _ rfl (by decide) (by decide +kernel), .mem 0x1E [0x34, 0x12] (by decide) rfl (by decide),
   demo_traced _ [] _ rfl (by decide) (by decide +kernel), .reg 0xC1 (by decide)⟩

/-- Violated for SHLD: the operands are words, the line names byte registers.  Violated for MOVZX of a word with prefix 66: the source is CX, the line has ECX. -/
theorem C95_violated_names :
    allText demoEnv (demoTrace [0x0F, 0xA4, 0xC1, 0x05]) = some "(       1) [0x10100] 1000:0100 Ext (0F) SHLD AL CL 5\t; 0f a4 c1 05\n".toList ∧
    allText demoEnv (demoTrace [0x66, 0x0F, 0xB7, 0xC1]) = some "(       1) [0x10100] 1000:0100 Ovr (OpSize) <OPER> Ext (0F) MOV EAX ECX\t; 66 0f b7 c1\n".toList := by
  refine ⟨?_, ?_⟩ <;> decide +kernel

end RME.Trace
