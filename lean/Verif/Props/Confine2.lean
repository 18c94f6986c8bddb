import Verif.Props.Confine
import Verif.Spec.Operand
import Verif.Lemmas.Reg
import Verif.Props.Global
set_option autoImplicit false
/-
C45 (upper register halves) and C51 (undefined behaviour).
-/
set_option linter.unusedSectionVars false
namespace RME

/-! ### C45 -/

/-- Bits 16–31 of every general register are the same. -/
def SameUpper (s t : State) : Prop := ∀ r, t.gpr r >>> 16 = s.gpr r >>> 16

theorem putLow_upper {n : Nat} (hn : n = 8 ∨ n = 16) (g : BitVec 32) (v : BitVec n) : putLow n g v >>> 16 = g >>> 16 := by
  ext i hi
  simp only [BitVec.getElem_ushiftRight]
  by_cases h : 16 + i < 32
  · rw [putLow_bit _ _ _ h, if_neg (by rcases hn with rfl | rfl <;> omega)]
  · simp [BitVec.getLsbD_of_ge _ _ (Nat.le_of_not_lt h)]

theorem setReg_upper {n : Nat} (hn : n = 8 ∨ n = 16) (s : State) (r v) : SameUpper s (s.setReg n r v) := by
  intro x
  simp only [State.setReg, State.setGpr]
  split
  · rename_i h; rw [h]; exact putLow_upper hn _ _
  · rfl

theorem setRegH_upper (s : State) (r v) : SameUpper s (s.setRegH 8 r v) := by
  intro x
  by_cases h : x = r
  · subst h
    ext i hi
    simp only [BitVec.getElem_ushiftRight]
    by_cases h : 16 + i < 32
    · rw [gpr_setRegH8_same _ _ _ _ h, if_neg (by omega)]
    · simp [BitVec.getLsbD_of_ge _ _ (Nat.le_of_not_lt h)]
  · rw [gpr_setRegH8_ne _ h]

theorem SameUpper.trans {s t u} (h1 : SameUpper s t) (h2 : SameUpper t u) : SameUpper s u := fun r => (h2 r).trans (h1 r)

def noWide (d : Decoder) : Prop := d.ovrOper = false ∧ d.ovrAddr = false

def capUpper (env : Env) (s : State) : Cap :=
  { env := env, I := fun t => SameUpper s t ∧ noWide t.dec, J := fun e t => SameUpper s t ∧ (e = .divErr → noWide t.dec),
    W := fun n => n = 8 ∨ n = 16, VF := fun _ => True,
    VL := fun n l => match l with
      | .regH _ => n = 8
      | _ => True
    VD := noWide, VS := fun _ => True, U := fun _ => True }

section
variable (env : Env) (s : State)
instance cu1 : (capUpper env s).Base := {
    dec := fun _ h => h.2, setDec := fun _ _ h hd => ⟨h.1, hd⟩, ofs := fun _ _ h => h, rep := fun _ h => h,
    fl := (by intros; trivial), ptr := (by intros; trivial), lreg := (by intros; trivial), lregH := fun _ => rfl,
    bad := fun _ _ h _ => ⟨h.1, fun _ => h.2⟩, w8 := Or.inl rfl, w16 := Or.inr rfl,
    w32 := fun d h h2 => (by rcases h2 with h2 | h2 <;> simp [h.1, h.2] at h2), wle := fun _ h => (by rcases h with h | h <;> simp [h]),
    ubNull := (by intros; trivial), ubHost := (by intros; trivial), ubUninit := (by intros; trivial) }
instance cu2 : (capUpper env s).Rg :=
  { setReg := fun t _ r v h hn => ⟨h.1.trans (setReg_upper hn t r v), h.2⟩,
    setRegH := fun t n r v h _ hl => (by
      have hl : n = 8 := hl
      subst hl
      exact ⟨h.1.trans (setRegH_upper t r v), h.2⟩),
    setGpr := fun _ _ _ _ h => (by rcases h with h | h <;> cases h) }
instance cu3 : (capUpper env s).Mm := { store := fun _ _ _ _ h _ _ _ => h }
instance cu4 : (capUpper env s).AFl := { arith := (by intros; trivial), setF := fun _ _ h _ => h }
instance cu5 : (capUpper env s).SFl := { any := (by intros; trivial) }
instance cu6 : (capUpper env s).Ip := { ip := fun _ _ h => h, dci := fun _ h => h }
instance cu7 : (capUpper env s).Sg := { setS := fun _ _ _ h _ => h }
instance cu8 : (capUpper env s).Io := { io := fun _ _ h => h }
instance cu9 : (capUpper env s).Mr := { oob := trivial, ptrM := (by intros; trivial) }
instance cu10 : (capUpper env s).Ov := ⟨trivial⟩
instance cu11 : (capUpper env s).Sh := ⟨trivial⟩
instance cu12 : (capUpper env s).Ns := ⟨trivial⟩
instance cu13 : (capUpper env s).Fu := ⟨trivial⟩
instance cu14 : (capUpper env s).Dv := ⟨fun _ h => ⟨h.1, fun _ => h.2⟩⟩
instance cu15 : (capUpper env s).Tl := { ln := fun _ _ h => h, brk := fun _ h => ⟨h.1, fun _ => h.2⟩ }
end

namespace Kp
variable {c : Cap}
theorem shxdApply2 [c.Base] [c.Rg] [c.Mm] [c.AFl] (r i b x) [o : c.Sh] (hb : ∀ n, c.W n → c.VL n b) : Kpt c (RME.shxdApply r (regB i) b x) := by
  unfold RME.shxdApply
  refine withW fun n hn _ => ?_
  have hb := hb n hn
  have hr : Kpt c (RME.readLoc n (regB i)) := by unfold regB; split <;> exact getsT _
  split
  · exact pureT
  · refine bind (readLoc hb) fun _ _ => bind hr fun _ _ => bind getFlagsV fun _ _ =>
      bindUB (fun u h => ?_) fun _ _ => ?_
    · split at h
      · exact (shShrdUB h) ▸ o.sh
      · exact (shShldUB h) ▸ o.sh
    · rename_i h
      refine bind (writeLoc hn hb) fun _ _ => setFlags (arithAO ‹_› ?_)
      split at h
      · exact AO.shShrd h
      · exact AO.shShld h
end Kp

/-- A function that starts by parsing a ModR/M byte which does not name AH CH DH BH as r/m. -/
theorem parseRM_kp {c : Cap} [b : c.Base] [c.Mr] {s : State} {p : Pfx} {k : Nat} (hI : c.I (opState s p k)) {f : Loc × Loc → M Unit}
    (hl : ∀ n r, c.VL n (.reg r))
    (hU : ∀ u, (u = .nullBlock ∨ u = .hostInvalid ∨ u = .uninit) → (∀ b, ¬ ByteAt s k b) → c.U u)
    (hno : ∀ b, ByteAt s k b → ¬ (modOf b = 3 ∧ 4 ≤ (rmOf b).toNat))
    (hW : ∀ n, c.W n → (n = 8 ∨ n = 16 ∨ n = 32))
    (hf : ∀ i l, (∀ n, c.W n → c.VL n l) → Kpt c (f (regB i, l))) :
    match (parseModRM >>= f) c.env (opState s p k) with
    | .ok _ t => c.I t
    | .err e t => c.J e t
    | .ub u => c.U u := by
  rcases fetch8_cases c.env s p k with ⟨b', hb, hr⟩ | ⟨hn, _, hr⟩ | ⟨hn, u, hu, hr⟩
  · have hI' : c.I (opState s p (k + 1)) := by
      have := Kp.readInstr (c := c) (n := 8) (Or.inl rfl) (opState s p k) hI
      rw [hr] at this; exact this.1
    have hk : Kpt c (do let l ← RME.decodeModM (ModRM.ofByte b'); f (regB (ModRM.ofByte b').rrr, l)) := by
      unfold RME.decodeModM
      split
      · rename_i h3
        have h3' : modOf b' = 3 := by
          have : (b' >>> 6).setWidth 2 = 3 := h3
          have := congrArg BitVec.toNat this
          simp [Nat.shiftRight_eq_div_pow] at this
          have := b'.isLt
          unfold modOf; omega
        have h4 : (rmOf b').toNat < 4 := by
          have := hno b' hb
          simp only [h3', true_and] at this; omega
        have h5 : ∃ i, regB (ModRM.ofByte b').mmm = .reg i := by
          refine ⟨b'.setWidth 3, ?_⟩
          unfold regB
          rw [if_neg]; rfl
          show ¬ (b'.setWidth 3).toNat ≥ 4
          simp [rmOf] at h4 ⊢
          omega
        obtain ⟨i, h5⟩ := h5
        rw [h5]
        exact Kp.bind (V := fun l => l = .reg i) (Kp.pure rfl) fun l hl' => hl' ▸ hf _ _ (fun n _ => hl n i)
      · refine Kp.bind (V := fun l => ∀ n, c.W n → c.VL n l) ?_ fun l hl' => hf _ _ hl'
        exact Kp.bind (Kp.getMMM _) fun _ _ => Kp.bind (Kp.getPtr32 _ _) fun _ h => Kp.pure (fun n hn => h n (hW n hn))
    have := hk (opState s p (k + 1)) hI'
    have h6 : (RME.parseModRM >>= f) c.env (opState s p k) =
        (do let l ← RME.decodeModM (ModRM.ofByte b'); f (regB (ModRM.ofByte b').rrr, l) : M Unit) c.env (opState s p (k + 1)) := by
      simp only [RME.parseModRM, RME.getModRM, bind_apply, hr, resbind_ok, pure_apply]
      cases RME.decodeModM (ModRM.ofByte b') c.env (opState s p (k + 1)) <;> rfl
    rw [h6]
    revert this
    cases (do let l ← RME.decodeModM (ModRM.ofByte b'); f (regB (ModRM.ofByte b').rrr, l) : M Unit) c.env (opState s p (k + 1)) with
    | ok _ _ => exact fun h => h.1
    | err _ _ => exact fun h => h
    | ub _ => exact fun h => h
  · have : (RME.parseModRM >>= f) c.env (opState s p k) = .err .badmem (opState s p k) := by
      simp only [RME.parseModRM, RME.getModRM, bind_apply, hr, resbind_err]
    rw [this]
    exact b.bad _ _ hI rfl
  · have : (RME.parseModRM >>= f) c.env (opState s p k) = .ub u := by
      simp only [RME.parseModRM, RME.getModRM, bind_apply, hr, resbind_ub]
    rw [this]
    exact hU u (by rcases hu with h | h <;> simp [h]) hn

/-- At CS:IP there are prefix bytes, one of them 66 or 67. -/
def WidePrefix (s : State) : Prop := ∃ pfx, GoodPrefixes pfx ∧ BytesAt s pfx ∧ (0x66 ∈ pfx ∨ 0x67 ∈ pfx)

/-- At CS:IP there is SHLD or SHRD whose r/m operand is register 4–7, mod 3. -/
def ShxdHigh (s : State) : Prop := ∃ pfx op m, GoodPrefixes pfx ∧ (op = 0xA4 ∨ op = 0xA5 ∨ op = 0xAC ∨ op = 0xAD) ∧
  BytesAt s (pfx ++ [0x0F, op, m]) ∧ modOf m = 3 ∧ 4 ≤ (rmOf m).toNat

theorem ite_some {α : Type} {c : Prop} [Decidable c] {a q : α} (h : (if c then some a else none) = some q) : q = a := by
  by_cases hc : c
  · rw [if_pos hc] at h; exact (Option.some.inj h).symm
  · rw [if_neg hc] at h; cases h

theorem ite_eq_cases {α : Type} {c : Prop} [Decidable c] {a b q : α} (h : (if c then a else b) = q) : (c ∧ a = q) ∨ (¬ c ∧ b = q) := by
  by_cases hc : c
  · rw [if_pos hc] at h; exact Or.inl ⟨hc, h⟩
  · rw [if_neg hc] at h; exact Or.inr ⟨hc, h⟩

theorem add_wide {q q' : Pfx} {b} (h1 : q.add b = some q') :
    (q'.oper = true → q.oper = true ∨ b = 0x66) ∧ (q'.addr = true → q.addr = true ∨ b = 0x67) := by
  unfold Pfx.add at h1
  dsimp only at h1
  iterate 6
    rcases ite_eq_cases h1 with ⟨_, h1⟩ | ⟨_, h1⟩
    · exact (ite_some h1) ▸ ⟨fun h => Or.inl h, fun h => Or.inl h⟩
  rcases ite_eq_cases h1 with ⟨hb, h1⟩ | ⟨_, h1⟩
  · exact (ite_some h1) ▸ ⟨fun h => Or.inr hb, fun h => Or.inl h⟩
  rcases ite_eq_cases h1 with ⟨hb, h1⟩ | ⟨_, h1⟩
  · exact (ite_some h1) ▸ ⟨fun h => Or.inl h, fun h => Or.inr hb⟩
  iterate 2
    rcases ite_eq_cases h1 with ⟨_, h1⟩ | ⟨_, h1⟩
    · exact (ite_some h1) ▸ ⟨fun h => Or.inl h, fun h => Or.inl h⟩
  cases h1

theorem parse_wide {pfx : List (BitVec 8)} : ∀ {q p : Pfx}, Pfx.parse q pfx = some p →
    (p.oper = true → q.oper = true ∨ 0x66 ∈ pfx) ∧ (p.addr = true → q.addr = true ∨ 0x67 ∈ pfx) := by
  induction pfx with
  | nil => intro q p h; simp [Pfx.parse] at h; subst h; simp_all
  | cons b bs ih =>
    intro q p h
    simp only [Pfx.parse, Option.bind_eq_some_iff] at h
    obtain ⟨q', h1, h2⟩ := h
    have h3 := ih h2
    have h4 : (q'.oper = true → q.oper = true ∨ b = 0x66) ∧ (q'.addr = true → q.addr = true ∨ b = 0x67) := by
      exact add_wide h1
    constructor
    · intro h; rcases h3.1 h with h | h
      · rcases h4.1 h with h | h
        · exact Or.inl h
        · exact Or.inr (h ▸ List.mem_cons_self)
      · exact Or.inr (List.mem_cons_of_mem _ h)
    · intro h; rcases h3.2 h with h | h
      · rcases h4.2 h with h | h
        · exact Or.inl h
        · exact Or.inr (h ▸ List.mem_cons_self)
      · exact Or.inr (List.mem_cons_of_mem _ h)

theorem Dec.pfx {s p k o a} (h : Dec s p k o a) : ∃ pfx, Pfx.parse {} pfx = some p ∧ BytesAt s pfx := by
  cases h with
  | one hp hb _ _ => exact ⟨_, hp, hb.left⟩
  | grp hp hb _ _ => exact ⟨_, hp, hb.left⟩
  | ext hp hb _ => exact ⟨_, hp, hb.left⟩

theorem dec_shxd {s p k o a} (hd : Dec s p k o a) (h : o.isShxd = true) :
    ∃ pfx op, GoodPrefixes pfx ∧ (op = 0xA4 ∨ op = 0xA5 ∨ op = 0xAC ∨ op = 0xAD) ∧ k = pfx.length + 2 ∧ BytesAt s (pfx ++ [0x0F, op]) := by
  cases hd with
  | @one pfx p op o a hp hb hn he =>
    have := chk_some (f := fun _ e => match e.fn with | .base o => !o.isShxd | _ => true) ((by decide +kernel : ∀ b, chk (fun _ e => match e.fn with | .base o => !o.isShxd | _ => true) b = true) op) he
    simp [h] at this
  | @grp pfx p op m o a hp hb hn he =>
    have := chk_some (f := fun _ e => match e.fn with | .base o => !o.isShxd | _ => true) ((by decide +kernel : ∀ b, chk (fun _ e => match e.fn with | .base o => !o.isShxd | _ => true) b = true) op) he
    simp [h] at this
  | @ext pfx p op o a b hp hb he =>
    have := chkF_some (f := fun b e => match e.fn with | .base o => (!o.isShxd || decide (b = 0xA4 ∨ b = 0xA5 ∨ b = 0xAC ∨ b = 0xAD)) | _ => true)
      ((by decide +kernel : ∀ b, chkF (fun b e => match e.fn with | .base o => (!o.isShxd || decide (b = 0xA4 ∨ b = 0xA5 ∨ b = 0xAC ∨ b = 0xAD)) | _ => true) b = true) op) he
    simp only [h, Bool.not_true, Bool.false_or, decide_eq_true_eq] at this
    exact ⟨pfx, op, (C36_prefixes pfx).1.1 ⟨p, hp⟩, this, rfl, hb⟩

/-- Host callbacks keep the upper halves (and do not write the decoder's scratch data). -/
def KeepsUpper (s t : State) : Prop := SameUpper s t ∧ t.dec = s.dec

/-- An instruction that changed the upper half of a general register either has a 66 or 67 prefix or is SHLD/SHRD
on one of the registers 4–7 (see `C45_violated_shxd`). -/
theorem C45_upper_halves_partial (env : Env) (hcb : CallbacksKeep env KeepsUpper) (s t : State) (hr : Ready s) (h : Ends env s t)
    (hne : ∃ r, t.gpr r >>> 16 ≠ s.gpr r >>> 16) : WidePrefix s ∨ ShxdHigh s := by
  refine Classical.byContradiction fun hno => ?_
  have hno1 : ¬ WidePrefix s := fun h => hno (Or.inl h)
  have hno2 : ¬ ShxdHigh s := fun h => hno (Or.inr h)
  obtain ⟨r, hne⟩ := hne
  refine hne ?_
  clear hne; revert r
  have i8 : (capUpper env s).Hle := { hle := fun n f t hf hI => ⟨hI.1.trans (hcb n f t hf).1, (hcb n f t hf).2 ▸ hI.2⟩ }
  have hnw : ∀ {p k o a}, Dec s p k o a → p.oper = false ∧ p.addr = false := by
    intro p k o a hd
    obtain ⟨pfx, hp, hb⟩ := hd.pfx
    have hg := (C36_prefixes pfx).1.1 ⟨p, hp⟩
    have hw := parse_wide hp
    constructor
    · cases hx : p.oper
      · rfl
      · exact absurd ⟨pfx, hg, hb, Or.inl (by simpa using hw.1 hx)⟩ hno1
    · cases hx : p.addr
      · rfl
      · exact absurd ⟨pfx, hg, hb, Or.inr (by simpa using hw.2 hx)⟩ hno1
  have key : (capUpper env s).Res (runOne (capUpper env s).env s) := by
    refine ready_kp hr ?_ (fun _ _ _ _ => trivial) fun p k o a hd hn => ?_
    · rintro p k e he
      exact ⟨fun _ => rfl, fun h => by subst h; rcases he with h | h | h <;> cases h⟩
    have hI : (capUpper env s).I (opState s p k) := ⟨fun _ => rfl, (hnw hd).1, (hnw hd).2⟩
    have h1 : (capUpper env s).Res (opFn o a env (opState s p k)) := by
      cases hx : o.isShxd
      · have hhi : o.isShxd = true → (capUpper env s).Hi := fun h => absurd (hx.symm.trans h) (by decide)
        have := Kp.opFn_gen (c := capUpper env s) o a { sg := fun _ _ => trivial, hi := hhi, halt := fun _ _ h => ⟨h.1, fun _ => h.2⟩ } hn _ hI
        rw [show (capUpper env s).env = env from rfl] at this
        cases h2 : opFn o a env (opState s p k) with
        | ok x t => rw [h2] at this; exact this.1
        | err e t => rw [h2] at this; exact this
        | ub u => trivial
      · obtain ⟨pfx, op, hg, hop, hk, hb⟩ := dec_shxd hd hx
        have hnb : ∀ b, ByteAt s k b → ¬ (modOf b = 3 ∧ 4 ≤ (rmOf b).toNat) := by
          intro b hb' hb2
          refine hno2 ⟨pfx, op, b, hg, hop, ?_, hb2.1, hb2.2⟩
          have : pfx ++ [0x0F, op, b] = (pfx ++ [0x0F, op]) ++ [b] := by simp
          rw [this]
          exact BytesAt.snoc hb (by simpa [hk] using hb')
        have hW : ∀ n, (capUpper env s).W n → (n = 8 ∨ n = 16 ∨ n = 32) := fun n h => by rcases h with h | h <;> simp [h]
        have hs : ∀ (f : Loc × Loc → M Unit), (∀ i l, (∀ n, (capUpper env s).W n → (capUpper env s).VL n l) → Kpt (capUpper env s) (f (regB i, l))) →
            (capUpper env s).Res ((parseModRM >>= f) env (opState s p k)) := by
          intro f hf
          exact parseRM_kp (c := capUpper env s) hI (fun _ _ => trivial) (fun _ _ _ => trivial) hnb hW hf
        cases o <;> first | (cases hx; done) | skip
        · exact hs _ fun i l hl => Kp.bind (Kp.readInstr (Or.inl rfl)) fun _ _ => Kp.shxdApply2 _ _ _ _ hl
        · exact hs _ fun i l hl => Kp.bind (Kp.getRegT _ _) fun _ _ => Kp.shxdApply2 _ _ _ _ hl
    rw [show (capUpper env s).env = env from rfl]
    cases h2 : opFn o a env (opState s p k) with
    | ok x t =>
      rw [h2] at h1
      have := Kp.finishInstr (c := capUpper env s) (s.sreg .cs) s.ip t h1
      rw [show (capUpper env s).env = env from rfl] at this
      dsimp only
      cases h3 : finishInstr (s.sreg .cs) s.ip env t with
      | ok x u => rw [h3] at this; exact this.1
      | err e u => rw [h3] at this; exact this
      | ub u => trivial
    | err e t =>
      rw [h2] at h1
      dsimp only
      split
      · rename_i he
        intro _
        have := Kp.callInt0 (c := capUpper env s) trivial t ⟨h1.1, h1.2 he⟩
        rw [show (capUpper env s).env = env from rfl] at this
        cases h3 : callIntInternal 0 env t with
        | ok x u => rw [h3] at this; exact this.1
        | err e u => rw [h3] at this; exact this
        | ub u => trivial
      · exact h1
    | ub u => trivial
  rw [show (capUpper env s).env = env from rfl] at key
  rcases h with h | ⟨e, h⟩
  · rw [h] at key; exact key.1
  · rw [h] at key; exact key.1

/-- C45 violated: SHLD AH-slot. `0F A4 C4 04` is SHLD SP, AX, 4 in the architecture; the code decodes the register
with the 8-bit table and writes two bytes from byte 1 of EAX, so bits 16–23 of EAX change (and SP does not). -/
def c45W : State := (demo [0x0F, 0xA4, 0xC4, 0x04]).setGpr 0 0x12345678
theorem C45_violated_shxd : ∃ t, Ends demoEnv c45W t ∧ t.gpr 0 >>> 16 ≠ c45W.gpr 0 >>> 16 ∧ ¬ WidePrefix c45W := by
  refine ⟨_, Or.inl rfl, by decide +kernel, ?_⟩
  rintro ⟨pfx, hg, hb, hm⟩
  cases pfx with
  | nil => simp at hm
  | cons b bs =>
    have h0 : ByteAt c45W 0 b := hb 0 (by simp)
    have h1 : b = 0x0F := h0.inj ⟨0x10100, by decide +kernel, by decide +kernel, by decide +kernel⟩
    subst h1
    exact hg.1 0x0F (by simp) rfl

example : Ready c45W ∧ CallbacksKeep demoEnv KeepsUpper := ⟨⟨by decide, by decide, by decide⟩, fun _ _ _ h => by cases h⟩
/-- 66 MOV EAX, imm32 changes the upper half. -/
example : ∃ t, Ends demoEnv (demo [0x66, 0xB8, 1, 2, 3, 4]) t ∧ t.gpr 0 >>> 16 ≠ (demo [0x66, 0xB8, 1, 2, 3, 4]).gpr 0 >>> 16 :=
  ⟨_, Or.inl rfl, by decide +kernel⟩

end RME
