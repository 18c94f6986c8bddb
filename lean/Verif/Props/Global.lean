import Verif.Lemmas.Bytes
import Verif.Lemmas.Demo
set_option autoImplicit false
/-
C05 return codes, C06 RME_Call, C07 magic return address, C08 RME_CallInt argument check, C36 decoding
terminates, C37 undefined opcodes.
-/
namespace RME

/-! ### C05 -/

/-- `RME_RunOne` returns OK or one of six codes; CONTINUE, DIVERR and INVAL never escape. -/
theorem C05_return_codes (env : Env) (s t : State) (e : Err) (h : runOne env s = .err e t) :
    e = .badmem ∨ e = .undefOpcode ∨ e = .bug ∨ e = .breakpoint ∨ e = .halt ∨ e = .fcnRet := by
  rcases runOne_cases env s with ⟨_, _, h'⟩ | ⟨_, _, h'⟩ | ⟨_, h'⟩ | ⟨_, r, hs, h'⟩
  · rw [h'] at h; cases h; simp
  · rw [h'] at h; exact absurd h (ignoreErr_noErr _ _ _ _ _)
  · rw [h'] at h; cases h
  · rw [h'] at h
    cases hs with
    | ub => cases h
    | badmem => cases h; simp
    | brk => cases h; simp
    | undef => cases h; simp
    | undefF => cases h; simp
    | op hd hn =>
      rename_i p k o a
      cases h2 : opFn o a env (opState s p k) with
      | ok x u =>
        rw [h2] at h
        rcases finish_err _ _ _ _ _ _ h with rfl | rfl <;> simp
      | ub u => rw [h2] at h; cases h
      | err e' u =>
        rw [h2] at h
        have h3 := opFn_err o a hn env _ _ _ h2
        cases e' <;> first | (simp [opErrs, opErr] at h3; done) | skip
        case divErr => rw [callInt0_err _ _ _ _ h]; simp
        all_goals (cases h; simp)

/-- FCNRET is returned exactly at FFFF:FFFF. -/
theorem C05_fcnret_iff (env : Env) (s : State) :
    (∃ t, runOne env s = .err .fcnRet t) ↔ (s.sreg .cs = 0xFFFF ∧ s.ip = 0xFFFF) := by
  constructor
  · rintro ⟨t, h⟩
    rcases runOne_cases env s with ⟨h1, h2, h'⟩ | ⟨_, _, h'⟩ | ⟨_, h'⟩ | ⟨_, r, hs, h'⟩
    · exact ⟨h1, h2⟩
    · rw [h'] at h; exact absurd h (ignoreErr_noErr _ _ _ _ _)
    · rw [h'] at h; cases h
    · rw [h'] at h
      cases hs with
      | ub => cases h
      | badmem => cases h
      | brk => cases h
      | undef => cases h
      | undefF => cases h
      | op hd hn =>
        rename_i p k o a
        cases h2 : opFn o a env (opState s p k) with
        | ok x u =>
          rw [h2] at h
          rcases finish_err _ _ _ _ _ _ h with h | h <;> cases h
        | ub u => rw [h2] at h; cases h
        | err e' u =>
          rw [h2] at h
          have h3 := opFn_err o a hn env _ _ _ h2
          cases e' <;> first | (simp [opErrs, opErr] at h3; done) | skip
          case divErr => have := callInt0_err _ _ _ _ h; cases this
          all_goals cases h
  · rintro ⟨h1, h2⟩
    exact ⟨s, by unfold runOne; rw [if_pos ⟨h2, h1⟩]⟩

/-- A concrete run with each kind of result: HLT, an unimplemented opcode, the breakpoint byte. -/
example : (∃ t, runOne demoEnv (demo [0xF4]) = .err .halt t) ∧ (∃ t, runOne demoEnv (demo [0xD8]) = .err .undefOpcode t) ∧
    (∃ t, runOne demoEnv (demo [0xF1]) = .err .breakpoint t) := ⟨⟨_, rfl⟩, ⟨_, rfl⟩, ⟨_, rfl⟩⟩

/-! ### C07 -/

/-- At FFFF:FFFF `RME_RunOne` returns FCNRET and changes nothing. -/
theorem C07_magic_return (env : Env) (s : State) (h : AtMagic s) : runOne env s = .err .fcnRet s := by
  unfold runOne; rw [if_pos ⟨h.2, h.1⟩]

/-- Only there: nowhere else is the state returned with FCNRET, and `RME_Call` returns 0 at once. -/
theorem C07_call_at_magic (env : Env) (s : State) (h : AtMagic s) (fuel : Nat) :
    rmeCall env (fuel + 1) s = some (.ok () s) := by
  simp only [rmeCall, C07_magic_return env s h]

example : AtMagic { (demo []) with ip := 0xFFFF, sreg := fun _ => 0xFFFF } := ⟨rfl, rfl⟩

/-! ### C06 -/

theorem rmeCall_mono (env : Env) (r) : ∀ f g s, rmeCall env f s = some r → f ≤ g → rmeCall env g s = some r := by
  intro f
  induction f with
  | zero => intro g s h; cases h
  | succ f ih =>
    intro g s h hg
    obtain ⟨g, rfl⟩ : ∃ k, g = k + 1 := ⟨g - 1, by omega⟩
    unfold rmeCall at h ⊢
    cases h1 : runOne env s with
    | ub u => rw [h1] at h; exact h
    | err e t =>
      rw [h1] at h
      cases e <;> exact h
    | ok a t =>
      rw [h1] at h
      exact ih g t h (by omega)

theorem rmeCall_iter (env : Env) (f) : ∀ n s u, Iter env n s u → rmeCall env (n + f) s = rmeCall env f u := by
  intro n s u h
  induction h with
  | zero => rw [Nat.zero_add]
  | succ h r ih =>
    rename_i n s t u
    rw [show n + 1 + f = (n + f) + 1 by omega, rmeCall, h]
    exact ih

theorem rmeCall_inv (env : Env) (r) : ∀ f s, rmeCall env f s = some r → ∃ n u, Iter env n s u ∧ n < f ∧
    ((AtMagic u ∧ r = .ok () u) ∨ (∃ e t, runOne env u = .err e t ∧ e ≠ .fcnRet ∧ r = .err e t) ∨
      (∃ x, runOne env u = .ub x ∧ r = .ub x)) := by
  intro f
  induction f with
  | zero => intro s h; cases h
  | succ f ih =>
    intro s h
    unfold rmeCall at h
    cases h1 : runOne env s with
    | ub u => rw [h1] at h; cases h; exact ⟨0, s, .zero s, by omega, Or.inr (Or.inr ⟨u, h1, rfl⟩)⟩
    | err e t =>
      rw [h1] at h
      by_cases he : e = .fcnRet
      · subst he
        cases h
        have hm := (C05_fcnret_iff env s).1 ⟨t, h1⟩
        have := C07_magic_return env s hm
        rw [this] at h1; cases h1
        exact ⟨0, _, .zero _, by omega, Or.inl ⟨hm, rfl⟩⟩
      · refine ⟨0, s, .zero s, by omega, Or.inr (Or.inl ⟨e, t, h1, he, ?_⟩)⟩
        cases e <;> first | (cases h; rfl) | exact absurd rfl he
    | ok a t =>
      rw [h1] at h
      obtain ⟨n, u, hi, hn, hr⟩ := ih t h
      exact ⟨n + 1, u, .succ h1 hi, by omega, hr⟩

/-- `RME_Call` returns 0 with state `t` exactly when iterating `RME_RunOne` reaches FFFF:FFFF there with
every step OK. -/
theorem C06_returns_zero (env : Env) (s t : State) :
    CallReturns env s (.ok () t) ↔ ∃ n, Iter env n s t ∧ AtMagic t := by
  constructor
  · rintro ⟨f, h⟩
    obtain ⟨n, u, hi, _, h⟩ := rmeCall_inv env _ f s h
    rcases h with ⟨hm, h⟩ | ⟨e, t', _, _, h⟩ | ⟨x, _, h⟩ <;> cases h
    exact ⟨n, hi, hm⟩
  · rintro ⟨n, hi, hm⟩
    exact ⟨n + 1, by rw [rmeCall_iter env 1 n s t hi, C07_call_at_magic env t hm 0]⟩

/-- It returns another code exactly when that is the first code of `RME_RunOne` other than OK. -/
theorem C06_returns_error (env : Env) (s t : State) (e : Err) :
    CallReturns env s (.err e t) ↔ ∃ n u, Iter env n s u ∧ runOne env u = .err e t ∧ e ≠ .fcnRet := by
  constructor
  · rintro ⟨f, h⟩
    obtain ⟨n, u, hi, _, h⟩ := rmeCall_inv env _ f s h
    rcases h with ⟨hm, h⟩ | ⟨e, t', h1, h2, h⟩ | ⟨x, _, h⟩ <;> cases h
    exact ⟨n, u, hi, h1, h2⟩
  · rintro ⟨n, u, hi, h, he⟩
    refine ⟨n + 1, ?_⟩
    rw [rmeCall_iter env 1 n s u hi]
    unfold rmeCall
    rw [h]
    cases e <;> first | rfl | exact absurd rfl he

/-- Undefined behaviour in `RME_Call` is undefined behaviour in some `RME_RunOne` of the iteration. -/
theorem C06_undefined (env : Env) (s : State) (x : UB) :
    CallReturns env s (.ub x) ↔ ∃ n u, Iter env n s u ∧ runOne env u = .ub x := by
  constructor
  · rintro ⟨f, h⟩
    obtain ⟨n, u, hi, _, h⟩ := rmeCall_inv env _ f s h
    rcases h with ⟨hm, h⟩ | ⟨e, t', h1, h2, h⟩ | ⟨x, h1, h⟩ <;> cases h
    exact ⟨n, u, hi, h1⟩
  · rintro ⟨n, u, hi, h⟩
    exact ⟨n + 1, by rw [rmeCall_iter env 1 n s u hi]; simp only [rmeCall, h]⟩

/-- It does not return exactly when the iteration goes on forever. -/
theorem C06_diverges (env : Env) (s : State) :
    (¬ ∃ r, CallReturns env s r) ↔ ∀ n, ∃ t, Iter env n s t := by
  constructor
  · intro h n
    have : rmeCall env n s = none := by
      cases h1 : rmeCall env n s with
      | none => rfl
      | some r => exact absurd ⟨r, n, h1⟩ h
    clear h
    induction n generalizing s with
    | zero => exact ⟨s, .zero s⟩
    | succ n ih =>
      unfold rmeCall at this
      cases h1 : runOne env s with
      | ub u => rw [h1] at this; cases this
      | err e t => rw [h1] at this; cases e <;> cases this
      | ok a t =>
        rw [h1] at this
        obtain ⟨u, hu⟩ := ih t this
        exact ⟨u, .succ h1 hu⟩
  · rintro h ⟨r, f, hr⟩
    obtain ⟨t, ht⟩ := h f
    have := rmeCall_iter env 0 f s t ht
    rw [Nat.add_zero, hr] at this
    cases this

/-- The outcome is unique, and never one of the internal codes. -/
theorem C06_codes (env : Env) (s : State) (r : Res Unit) (h : CallReturns env s r) :
    (∀ r', CallReturns env s r' → r' = r) ∧
    ∀ e t, r = .err e t → e = .badmem ∨ e = .undefOpcode ∨ e = .bug ∨ e = .breakpoint ∨ e = .halt := by
  constructor
  · rintro r' ⟨f', h'⟩
    obtain ⟨f, h⟩ := h
    have h1 := rmeCall_mono env r f (f + f') s h (by omega)
    have h2 := rmeCall_mono env r' f' (f + f') s h' (by omega)
    rw [h1] at h2; cases h2; rfl
  · rintro e t rfl
    obtain ⟨n, u, _, h1, h2⟩ := (C06_returns_error env s t e).1 h
    rcases C05_return_codes env u t e h1 with h | h | h | h | h | h
    · exact Or.inl h
    · exact Or.inr (Or.inl h)
    · exact Or.inr (Or.inr (Or.inl h))
    · exact Or.inr (Or.inr (Or.inr (Or.inl h)))
    · exact Or.inr (Or.inr (Or.inr (Or.inr h)))
    · exact absurd h h2

/-- A program that returns: JMP FFFF:FFFF. -/
example : ∃ t, CallReturns demoEnv (demo [0xEA, 0xFF, 0xFF, 0xFF, 0xFF]) (.ok () t) := ⟨_, 2, rfl⟩
/-- A program that fails in its second instruction. -/
example : ∃ t, CallReturns demoEnv (demo [0x90, 0xF4]) (.err .halt t) := ⟨_, 2, rfl⟩

/-! ### C08 -/

/-- `RME_CallInt` with a number outside 0..255 returns INVAL; only CS:IP changes (to FFFF:FFFF). -/
theorem C08_callint_inval (env : Env) (num : Int) (s : State) (h : num < 0 ∨ 255 < num) :
    CallIntReturns env num s (.err .inval { s.setSreg .cs 0xFFFF with ip := 0xFFFF }) ∧
    ∀ r, CallIntReturns env num s r → r = .err .inval { s.setSreg .cs 0xFFFF with ip := 0xFFFF } := by
  have key : ∀ f, rmeCallInt env f num s = some (.err .inval { s.setSreg .cs 0xFFFF with ip := 0xFFFF }) := by
    intro f
    unfold rmeCallInt callIntInternal
    simp only [bind_apply]
    rw [show (decide (num < 0) || decide (num > 255)) = true by simp; omega]
    rfl
  refine ⟨⟨0, key 0⟩, fun r ⟨f, hr⟩ => ?_⟩
  rw [key f] at hr; cases hr; rfl

/-- The numbers 0..255 are accepted. -/
theorem C08_callint_accepts (env : Env) (num : Int) (s t : State) (h : 0 ≤ num ∧ num ≤ 255) (e : Err)
    (hr : callIntInternal num env s = .err e t) : e ≠ .inval := by
  have hb : (fun e : Err => e ≠ .inval) .badmem := by decide
  have : Errs (fun e => e ≠ .inval) (callIntInternal num) := by
    unfold callIntInternal
    rw [show (decide (num < 0) || decide (num > 255)) = false by simp; omega]
    exact Errs.bind (Errs.pure _) fun _ => Errs.bind (Errs.pushM hb (Errs.gets _)) fun _ =>
      Errs.bind (Errs.pushM hb (Errs.gets _)) fun _ => Errs.bind (Errs.pushM hb (Errs.gets _)) fun _ =>
      Errs.bind (Errs.gets _) fun _ => Errs.bind (Errs.modify _) fun _ => Errs.bind (Errs.readMem hb _ _ _) fun _ =>
      Errs.bind (Errs.modify _) fun _ => Errs.bind (Errs.readMem hb _ _ _) fun _ => Errs.modify _
  exact this env s e t hr

example : ((-1 : Int) < 0 ∨ 255 < (-1 : Int)) ∧ ((256 : Int) < 0 ∨ 255 < (256 : Int)) := by decide

/-! ### C36 -/

theorem kind_add (p : Pfx) (b : BitVec 8) : (p.add b).isSome = true ↔ ((pfxKind b = some .seg ∧ p.seg = none) ∨
    (pfxKind b = some .oper ∧ p.oper = false) ∨ (pfxKind b = some .addr ∧ p.addr = false) ∨
    (pfxKind b = some .rep ∧ p.rep = .none)) := by
  unfold Pfx.add pfxKind
  simp only []
  repeat' split
  all_goals simp_all

theorem kind_add_some (q q' : Pfx) (b : BitVec 8) (hadd : q.add b = some q') :
    (q'.seg = none ↔ q.seg = none ∧ pfxKind b ≠ some .seg) ∧ (q'.oper = false ↔ q.oper = false ∧ pfxKind b ≠ some .oper) ∧
    (q'.addr = false ↔ q.addr = false ∧ pfxKind b ≠ some .addr) ∧ (q'.rep = .none ↔ q.rep = .none ∧ pfxKind b ≠ some .rep) := by
  have hb : b = 0x26 ∨ b = 0x2E ∨ b = 0x36 ∨ b = 0x3E ∨ b = 0x64 ∨ b = 0x65 ∨ b = 0x66 ∨ b = 0x67 ∨ b = 0xF2 ∨ b = 0xF3 := by
    rcases (kind_add q b).1 (by rw [hadd]; rfl) with h | h | h | h <;> (have := h.1; clear h hadd; revert b; decide +kernel)
  rcases hb with rfl | rfl | rfl | rfl | rfl | rfl | rfl | rfl | rfl | rfl
  all_goals (simp [Pfx.add] at hadd; obtain ⟨h, rfl⟩ := hadd; simp [pfxKind, h])

theorem kind_parse : ∀ (pfx : List (BitVec 8)) (q : Pfx), (Pfx.parse q pfx).isSome = true ↔
    ((∀ b ∈ pfx, pfxKind b ≠ none) ∧ (pfx.map pfxKind).Nodup ∧
      (some .seg ∈ pfx.map pfxKind → q.seg = none) ∧ (some .oper ∈ pfx.map pfxKind → q.oper = false) ∧
      (some .addr ∈ pfx.map pfxKind → q.addr = false) ∧ (some .rep ∈ pfx.map pfxKind → q.rep = .none)) := by
  intro pfx
  induction pfx with
  | nil => intro q; simp [Pfx.parse]
  | cons b bs ih =>
    intro q
    simp only [Pfx.parse, List.map_cons, List.nodup_cons, List.mem_cons, forall_eq_or_imp]
    cases hadd : q.add b with
    | none =>
      have h1 := kind_add q b
      rw [hadd] at h1
      simp only [Option.isSome_none, Bool.false_eq_true, false_iff, not_or, not_and] at h1
      simp only [Option.bind_none, Option.isSome_none, Bool.false_eq_true, false_iff]
      rintro ⟨⟨h2, _⟩, _, h3, h4, h5, h6⟩
      cases hk : pfxKind b with
      | none => exact h2 hk
      | some k =>
        cases k
        · exact h1.1 hk (h3 (Or.inl hk.symm))
        · exact h1.2.1 hk (h4 (Or.inl hk.symm))
        · exact h1.2.2.1 hk (h5 (Or.inl hk.symm))
        · exact h1.2.2.2 hk (h6 (Or.inl hk.symm))
    | some q' =>
      simp only [Option.bind_some]
      rw [ih q']
      have h1 := (kind_add q b).1 (by rw [hadd]; rfl)
      have h2 : (q'.seg = none ↔ q.seg = none ∧ pfxKind b ≠ some .seg) ∧ (q'.oper = false ↔ q.oper = false ∧ pfxKind b ≠ some .oper) ∧
          (q'.addr = false ↔ q.addr = false ∧ pfxKind b ≠ some .addr) ∧ (q'.rep = .none ↔ q.rep = .none ∧ pfxKind b ≠ some .rep) := by
        exact kind_add_some q q' b hadd
      have h3 : pfxKind b ≠ none := by
        rcases h1 with h | h | h | h <;> rw [h.1] <;> simp
      rw [h2.1, h2.2.1, h2.2.2.1, h2.2.2.2]
      have h4 : some PfxKind.seg = pfxKind b ↔ pfxKind b = some .seg := eq_comm
      rcases h1 with ⟨hk, h⟩ | ⟨hk, h⟩ | ⟨hk, h⟩ | ⟨hk, h⟩ <;> rw [hk] <;> simp [h] <;> grind

/-- The prefix sequences the decoder accepts are exactly those made of prefix bytes of pairwise
different kinds (segment, operand size, address size, repeat), in any order; there are at most four. -/
theorem C36_prefixes (pfx : List (BitVec 8)) :
    ((∃ p, Pfx.parse {} pfx = some p) ↔ GoodPrefixes pfx) ∧ (GoodPrefixes pfx → pfx.length ≤ 4) := by
  have h : (∃ p, Pfx.parse {} pfx = some p) ↔ GoodPrefixes pfx := by
    rw [← Option.isSome_iff_exists, kind_parse pfx {}]
    simp [GoodPrefixes]
  refine ⟨h, fun hg => ?_⟩
  obtain ⟨p, hp⟩ := h.2 hg
  have := Pfx.parse_count hp; have := p.count_le; simp [Pfx.count] at *; omega

/-- A repeated prefix kind gives UNDEFOPCODE and changes nothing but the instruction counter. -/
theorem C36_repeated_prefix (env : Env) (s : State) (hr : Ready s) (pfx : List (BitVec 8)) (b : BitVec 8)
    (hg : GoodPrefixes pfx) (hb : ∃ c ∈ pfx, pfxKind c = pfxKind b) (hk : pfxKind b ≠ none)
    (hc : BytesAt s (pfx ++ [b])) :
    ∃ d, runOne env s = .err .undefOpcode { s with dec := d, instrNum := s.instrNum + 1 } := by
  obtain ⟨p, hp⟩ := (C36_prefixes pfx).1.2 hg
  have hpre : isPrefixByte b = true := by
    clear hb; revert b; unfold pfxKind isPrefixByte; intro b hk _
    by_cases h1 : b = 0x26 ∨ b = 0x2E ∨ b = 0x36 ∨ b = 0x3E ∨ b = 0x64 ∨ b = 0x65
    · rcases h1 with rfl | rfl | rfl | rfl | rfl | rfl <;> rfl
    · rw [if_neg h1] at hk
      by_cases h2 : b = 0x66
      · subst h2; rfl
      · rw [if_neg h2] at hk
        by_cases h3 : b = 0x67
        · subst h3; rfl
        · rw [if_neg h3] at hk
          by_cases h4 : b = 0xF2 ∨ b = 0xF3
          · rcases h4 with rfl | rfl <;> rfl
          · rw [if_neg h4] at hk; exact absurd rfl hk
  have hadd : p.add b = none := by
    cases hadd : p.add b with
    | none => rfl
    | some q =>
      exfalso
      have gen : ∀ (l : List (BitVec 8)) (q : Pfx), Pfx.parse q l = some p → (Pfx.parse q (l ++ [b])).isSome = true := by
        intro l
        induction l with
        | nil => intro q hq; simp [Pfx.parse] at hq; subst hq; simp [Pfx.parse, hadd]
        | cons x xs ihx =>
          intro q hq
          simp only [Pfx.parse, List.cons_append, Option.bind_eq_some_iff] at hq ⊢
          obtain ⟨q', h1, h2⟩ := hq
          rw [h1]; exact ihx q' h2
      have := (kind_parse (pfx ++ [b]) {}).1 (gen pfx {} hp)
      have h2 := this.2.1
      rw [List.map_append, List.nodup_append] at h2
      obtain ⟨c, hc1, hc2⟩ := hb
      exact h2.2.2 _ (List.mem_map_of_mem hc1) (pfxKind b) (by simp) hc2
  obtain ⟨o, a, he, _⟩ := prefix_entry b hpre
  have hne : b ≠ 0xF1 := by intro h; subst h; cases hpre
  have h1 := decode_bytes (rest := []) hc env hp
  rw [decodeOne_at (k := pfx.length) (b := b) (hc.right 0 (by simp)), if_neg hne, he] at h1
  simp only [fetchParam, Bool.false_eq_true, if_false, pure_apply, resbind_ok] at h1
  have h2 := prefix_again hpre hadd he env s (pfx.length + 1)
  simp only at h2
  rw [h2] at h1
  refine ⟨decOf p (pfx.length + 1), ?_⟩
  rw [runOne_tail hr, h1]
  rfl

/-- Every loop of an instruction terminates: the model's fuel (6 rounds of the prefix loop, 65536 rounds
of a string loop; all other loops are structurally bounded) is never exhausted, from any state. -/
theorem C36_terminates (env : Env) (s : State) : runOne env s ≠ .ub .modelFuel := runOne_fuel env s

example : GoodPrefixes [0x26, 0x66, 0x67, 0xF3] ∧ pfxKind 0x2E = pfxKind 0x26 ∧ pfxKind 0x2E ≠ none := by
  refine ⟨⟨by decide, by decide⟩, by decide, by decide⟩
/-- five prefixes -/
example : ∃ t, runOne demoEnv (demo [0x26, 0x66, 0x67, 0xF3, 0x3E]) = .err .undefOpcode t := ⟨_, rfl⟩

/-! ### C37 -/

/-- A byte without an implementation, after any accepted prefixes: UNDEFOPCODE, and nothing but the
instruction counter and scratch data changes. -/
theorem C37_undefined_opcode (env : Env) (s : State) (hr : Ready s) (pfx : List (BitVec 8)) (op : BitVec 8)
    (hg : GoodPrefixes pfx) (ho : noOpcode op) (hc : BytesAt s (pfx ++ [op])) :
    ∃ d, runOne env s = .err .undefOpcode { s with dec := d, instrNum := s.instrNum + 1 } := by
  obtain ⟨p, hp⟩ := (C36_prefixes pfx).1.2 hg
  have hn : opEntry op = none ∧ op ≠ 0xF1 := by
    have h : ∀ op : BitVec 8, (op = 0x62 ∨ op = 0x63 ∨ op = 0x82 ∨ op = 0x9B ∨ op = 0xD6 ∨ (0xD8 ≤ op.toNat ∧ op.toNat ≤ 0xDF) ∨ op = 0xF0) →
      (opEntry op).isNone = true ∧ op ≠ 0xF1 := by decide +kernel
    have := h op ho
    exact ⟨by simpa using this.1, this.2⟩
  have h1 := decode_bytes (rest := []) hc env hp
  rw [decodeOne_at (k := pfx.length) (b := op) (hc.right 0 (by simp)), if_neg hn.2, hn.1] at h1
  refine ⟨decOf p (pfx.length + 1), ?_⟩
  rw [runOne_tail hr, h1]
  rfl

/-- Two-byte opcodes. -/
theorem C37_undefined_opcode_0F (env : Env) (s : State) (hr : Ready s) (pfx : List (BitVec 8)) (op : BitVec 8)
    (hg : GoodPrefixes pfx) (ho : ¬ hasOpcode0F op) (hc : BytesAt s (pfx ++ [0x0F, op])) :
    ∃ d, runOne env s = .err .undefOpcode { s with dec := d, instrNum := s.instrNum + 1 } := by
  obtain ⟨p, hp⟩ := (C36_prefixes pfx).1.2 hg
  have hn : opEntry0F op = none := by
    have h : ∀ op : BitVec 8, ((0x80 ≤ op.toNat ∧ op.toNat ≤ 0x8F) ∨ op = 0xA0 ∨ op = 0xA1 ∨ op = 0xA4 ∨ op = 0xA5 ∨ op = 0xA8 ∨ op = 0xA9 ∨
      op = 0xAC ∨ op = 0xAD ∨ op = 0xAF ∨ op = 0xB2 ∨ op = 0xB4 ∨ op = 0xB5 ∨ op = 0xB6 ∨ op = 0xB7 ∨ op = 0xBA ∨ op = 0xBC) ∨
      (opEntry0F op).isNone = true := by decide +kernel
    rcases h op with h | h
    · exact absurd h ho
    · simpa using h
  refine ⟨decOf p (pfx.length + 2), ?_⟩
  rw [runOne_bytes_0F hr hc env hp, hn]
  rfl

/-- The breakpoint byte F1. -/
theorem C37_breakpoint (env : Env) (s : State) (hr : Ready s) (pfx : List (BitVec 8))
    (hg : GoodPrefixes pfx) (hc : BytesAt s (pfx ++ [0xF1])) :
    ∃ d, runOne env s = .err .breakpoint { s with dec := d, instrNum := s.instrNum + 1 } := by
  obtain ⟨p, hp⟩ := (C36_prefixes pfx).1.2 hg
  have h1 := decode_bytes (rest := []) hc env hp
  rw [decodeOne_at (k := pfx.length) (b := 0xF1) (hc.right 0 (by simp)), if_pos rfl] at h1
  refine ⟨decOf p (pfx.length + 1), ?_⟩
  rw [runOne_tail hr, h1]
  rfl

/-- Undefined members of the groups FE (/2../7) and FF (/7), and the bit-test group 0F BA, which the
table enters with parameter 0. -/
theorem C37_undefined_group (env : Env) (s : State) (hr : Ready s) (pfx : List (BitVec 8)) (op m : BitVec 8)
    (hg : GoodPrefixes pfx) (ho : (op = 0xFE ∧ 2 ≤ m.toNat / 8 % 8) ∨ (op = 0xFF ∧ m.toNat / 8 % 8 = 7) ∨ (op = 0x0F ∧ m = 0xBA))
    (hc : BytesAt s (pfx ++ [op, m])) :
    ∃ d, runOne env s = .err .undefOpcode { s with dec := d, instrNum := s.instrNum + 1 } := by
  obtain ⟨p, hp⟩ := (C36_prefixes pfx).1.2 hg
  rcases ho with ⟨rfl, hm⟩ | ⟨rfl, hm⟩ | ⟨rfl, rfl⟩
  · refine ⟨decOf p (pfx.length + 1), ?_⟩
    rw [runOne_bytes_grp (rest := []) hr hc env hp (by decide) (by decide : opEntry 0xFE = some ⟨.base .unaryM, 0, true⟩) rfl]
    have h0 : ∀ m : BitVec 8, 2 ≤ m.toNat / 8 % 8 → ((m >>> 3).setWidth 3 : BitVec 3) ≠ 0 ∧ ((m >>> 3).setWidth 3 : BitVec 3) ≠ 1 := by
      decide +kernel
    simp only [opFn, opUnaryM, (h0 m hm).1, (h0 m hm).2, if_false]
    rfl
  · refine ⟨decOf p (pfx.length + 1), ?_⟩
    rw [runOne_bytes_grp (rest := []) hr hc env hp (by decide) (by decide : opEntry 0xFF = some ⟨.base .unaryMX, 0, true⟩) rfl]
    have h0 : ∀ m : BitVec 8, m.toNat / 8 % 8 = 7 → ((m >>> 3).setWidth 3 : BitVec 3) = 7 := by decide +kernel
    rw [h0 m hm]
    simp only [opFn, opUnaryMX, bind_apply, getDec_apply, resbind_ok, ite_apply]
    cases h : (opState s p (pfx.length + 1)).dec.ovrOper <;> rfl
  · refine ⟨decOf p (pfx.length + 2), ?_⟩
    rw [runOne_bytes_0F (rest := []) hr hc env hp]
    rw [(by decide : opEntry0F 0xBA = some ⟨.base .btx, 0, true⟩)]
    rfl

example : Ready (demo [0x66, 0xD8]) ∧ GoodPrefixes [0x66] ∧ noOpcode 0xD8 ∧ BytesAt (demo [0x66, 0xD8]) ([0x66] ++ [0xD8]) :=
  ⟨demo_ready _, ⟨by decide, by decide⟩, by unfold noOpcode; decide, (demo_code _ (by decide)).bytes⟩
example : ¬ hasOpcode0F 0x05 := by unfold hasOpcode0F; decide

/-- UNDEFOPCODE is not always free of side effects: ENTER with nesting level 2 and an operand-size
prefix (an encoding that *has* an implementation) pushes BP before it fails. -/
theorem C37_enter_fails_after_push :
    ∃ t, runOne demoEnv (demo [0x66, 0xC8, 0x00, 0x00, 0x02]) = .err .undefOpcode t ∧
      (t.gpr rSP).toNat = 0xFFE ∧ ((demo [0x66, 0xC8, 0x00, 0x00, 0x02]).gpr rSP).toNat = 0x1000 := ⟨_, rfl, rfl, rfl⟩

end RME
