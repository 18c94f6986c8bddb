import Verif.Spec.Bios
import Verif.Props.Int2
set_option autoImplicit false
/-
C67: BIOS calls of the native tester.
-/
namespace RME.Native
open RME

/-- The same outcome with other scratch data. -/
def HOut.scr (d : Decoder) (i : Int) : HOut → HOut
  | .ok w s => .ok w { s with dec := d, instrNum := i }
  | .exit c => .exit c
  | .blocked => .blocked
  | .ub u => .ub u

theorem ofScreen_scr (w : World) (s : State) (d : Decoder) (i : Int) (r : Screen) :
    ofScreen w { s with dec := d, instrNum := i } r = (ofScreen w s r).scr d i := by
  simp only [ofScreen]; split <;> rfl

theorem hle10_scr (w : World) (s : State) (d : Decoder) (i : Int) :
    hle10 w { s with dec := d, instrNum := i } = (hle10 w s).scr d i := by
  have e1 : State.regH { s with dec := d, instrNum := i } 8 rAX = s.regH 8 rAX := rfl
  have e2 : State.reg { s with dec := d, instrNum := i } 8 rAX = s.reg 8 rAX := rfl
  have e3 : State.reg { s with dec := d, instrNum := i } 16 rAX = s.reg 16 rAX := rfl
  have e4 : screenOf w { s with dec := d, instrNum := i } = screenOf w s := rfl
  simp only [hle10, e1, e2, e3, e4, ofScreen_scr, apply_ite (HOut.scr d i)]
  rfl

/-- `ReadDiskLBA` does not look at scratch data. -/
theorem readDiskLBA_scr (w : World) (s : State) (d : Decoder) (i : Int) (disk lba : Int) (count dst : Nat) :
    readDiskLBA w { s with dec := d, instrNum := i } disk lba count dst =
      (readDiskLBA w s disk lba count dst).map (fun r => (r.1, { r.2 with dec := d, instrNum := i })) := by
  simp only [readDiskLBA]
  repeat' split
  all_goals rfl

theorem hle13_scr (w : World) (s : State) (d : Decoder) (i : Int) :
    hle13 w { s with dec := d, instrNum := i } = (hle13 w s).scr d i := by
  have e1 : State.regH { s with dec := d, instrNum := i } 8 rAX = s.regH 8 rAX := rfl
  have e2 : State.reg { s with dec := d, instrNum := i } 8 rAX = s.reg 8 rAX := rfl
  have e3 : State.reg { s with dec := d, instrNum := i } 16 rCX = s.reg 16 rCX := rfl
  have e4 : State.regH { s with dec := d, instrNum := i } 8 rDX = s.regH 8 rDX := rfl
  have e5 : State.reg { s with dec := d, instrNum := i } 8 rDX = s.reg 8 rDX := rfl
  have e6 : State.reg { s with dec := d, instrNum := i } 16 rBX = s.reg 16 rBX := rfl
  have e7 : State.reg { s with dec := d, instrNum := i } 16 rSI = s.reg 16 rSI := rfl
  have e8 : ∀ k j, gaLE w { s with dec := d, instrNum := i } k j = gaLE w s k j := fun _ _ => rfl
  have h2 : hle13read w { s with dec := d, instrNum := i } = (hle13read w s).scr d i := by
    simp only [hle13read, e2, e3, e4, e5, e6, readDiskLBA_scr]
    split
    · rfl
    · split
      · rfl
      · rename_i lba _
        cases readDiskLBA w s _ lba _ _ with
        | error u => rfl
        | ok r =>
          simp only [Except.map]
          split <;> rfl
  have h3 : hle13params w { s with dec := d, instrNum := i } = (hle13params w s).scr d i := by
    simp only [hle13params, e5]
    split <;> rfl
  have h4 : hle13type w { s with dec := d, instrNum := i } = (hle13type w s).scr d i := by
    simp only [hle13type, e5]
    split <;> rfl
  have h5 : hle13ext w { s with dec := d, instrNum := i } = (hle13ext w s).scr d i := by
    simp only [hle13ext, e5, e7, e8, readDiskLBA_scr]
    split
    · rfl
    · cases readDiskLBA w s _ _ _ _ with
      | error u => rfl
      | ok r => rfl
  simp only [hle13, e1, h2, h3, h4, h5]
  repeat' split
  all_goals rfl

theorem hle16_scr (w : World) (s : State) (d : Decoder) (i : Int) :
    hle16 w { s with dec := d, instrNum := i } = (hle16 w s).scr d i := by
  have e1 : State.regH { s with dec := d, instrNum := i } 8 rAX = s.regH 8 rAX := rfl
  have ht : ∀ w, takeKey w { s with dec := d, instrNum := i } = (takeKey w s).scr d i := by
    intro w; simp only [takeKey]; split <;> rfl
  have hg : getKey w { s with dec := d, instrNum := i } = (getKey w s).scr d i := by
    simp only [getKey, ht]
    repeat' split
    all_goals rfl
  have hp : peekKey w { s with dec := d, instrNum := i } = (peekKey w s).scr d i := by
    simp only [peekKey]; split <;> rfl
  simp only [hle16, e1, hg, hp]
  repeat' split
  all_goals rfl

/-- The callbacks do not look at the scratch data of the emulator. -/
theorem hleCall_scr {n : BitVec 8} {f : World → State → HOut} (hf : hleCall n = some f) (w : World) (s : State) (d : Decoder) (i : Int) :
    f w { s with dec := d, instrNum := i } = (f w s).scr d i := by
  simp only [hleCall] at hf
  repeat' split at hf
  all_goals (first | (cases hf; done) | skip)
  all_goals cases hf
  all_goals first | rfl | exact hle10_scr w s d i | exact hle13_scr w s d i | exact hle16_scr w s d i

/-! ### Frame -/

theorem ServiceFrame.refl (w : World) (s : State) : ServiceFrame w s s :=
  ⟨fun _ _ => rfl, rfl, rfl, rfl, fun _ _ _ => rfl, fun _ _ => rfl, rfl, fun _ _ _ => rfl, rfl, rfl, rfl, rfl, rfl, rfl, rfl, rfl⟩

theorem ServiceFrame.trans {w : World} {s t u : State} (h : ServiceFrame w s t) (k : ServiceFrame w t u) : ServiceFrame w s u :=
  ⟨fun a ha => (k.mem a ha).trans (h.mem a ha), k.sp.trans h.sp, k.bp.trans h.bp, k.si.trans h.si, fun r i hi => (k.high r i hi).trans (h.high r i hi), fun r hr => (k.seg r hr).trans (h.seg r hr),
    k.ip.trans h.ip, fun i h0 h6 => (k.flags i h0 h6).trans (h.flags i h0 h6), k.map.trans h.map, k.valid.trans h.valid, k.cpu.trans h.cpu,
    k.dbg.trans h.dbg, k.num.trans h.num, k.null.trans h.null, k.dec.trans h.dec, k.io.trans h.io⟩

/-- Registers a service may set. -/
def free (r : BitVec 3) : Prop := r ≠ 4 ∧ r ≠ 5 ∧ r ≠ 6

theorem frame_gpr {w : World} {s t : State} (h : ServiceFrame w s t) {r : BitVec 3} (hr : free r) {n : Nat} (hn : n ≤ 16) (v : BitVec n) :
    ServiceFrame w s (t.setReg n r v) :=
  h.trans ⟨fun _ _ => rfl, gpr_setReg_ne _ (Ne.symm hr.1) _, gpr_setReg_ne _ (Ne.symm hr.2.1) _, gpr_setReg_ne _ (Ne.symm hr.2.2) _, (by
      intro x i hi
      rw [gpr_setReg]
      split
      · rename_i hx
        subst hx
        by_cases h32 : i < 32
        · rw [putLow_bit _ _ _ h32, if_neg (by omega)]
        · rw [BitVec.getLsbD_of_ge _ _ (by omega), BitVec.getLsbD_of_ge _ _ (by omega)]
      · rfl), fun _ _ => rfl,
    rfl, fun _ _ _ => rfl, rfl, rfl, rfl, rfl, rfl, rfl, rfl, rfl⟩

theorem frame_setL {w : World} {s t : State} (h : ServiceFrame w s t) {r : BitVec 3} (hr : free r) (v : BitVec 8) : ServiceFrame w s (setL t r v) :=
  frame_gpr h hr (by decide) v

theorem frame_setH {w : World} {s t : State} (h : ServiceFrame w s t) {r : BitVec 3} (hr : free r) (v : BitVec 8) : ServiceFrame w s (setH t r v) :=
  h.trans ⟨fun _ _ => rfl, gpr_setRegH8_ne _ (Ne.symm hr.1) _, gpr_setRegH8_ne _ (Ne.symm hr.2.1) _, gpr_setRegH8_ne _ (Ne.symm hr.2.2) _, (by
      intro x i hi
      by_cases hx : x = r
      · subst hx
        by_cases h32 : i < 32
        · rw [show (setH t x v).gpr x = (t.setRegH 8 x v).gpr x from rfl, gpr_setRegH8_same _ _ _ _ h32, if_neg (by omega)]
        · rw [BitVec.getLsbD_of_ge _ _ (by omega), BitVec.getLsbD_of_ge _ _ (by omega)]
      · rw [show (setH t r v).gpr x = (t.setRegH 8 r v).gpr x from rfl, gpr_setRegH8_ne _ hx]), fun _ _ => rfl,
    rfl, fun _ _ _ => rfl, rfl, rfl, rfl, rfl, rfl, rfl, rfl, rfl⟩

theorem frame_flags {w : World} {s t : State} (h : ServiceFrame w s t) (f : BitVec 16) (hf : ∀ i, i ≠ 0 → i ≠ 6 → f.getLsbD i = t.flags.getLsbD i) :
    ServiceFrame w s { t with flags := f } :=
  h.trans ⟨fun _ _ => rfl, rfl, rfl, rfl, fun _ _ _ => rfl, fun _ _ => rfl, rfl, hf, rfl, rfl, rfl, rfl, rfl, rfl, rfl, rfl⟩

theorem or1_bit (f : BitVec 16) (i : Nat) (h0 : i ≠ 0) : (f ||| FLAG_CF).getLsbD i = f.getLsbD i := by
  have : (FLAG_CF).getLsbD i = false := by
    by_cases h : i < 16
    · have : ∀ j : Fin 16, j.1 ≠ 0 → (FLAG_CF).getLsbD j.1 = false := by decide
      exact this ⟨i, h⟩ h0
    · exact BitVec.getLsbD_of_ge _ _ (by omega)
  rw [BitVec.getLsbD_or, this, Bool.or_false]

theorem or64_bit (f : BitVec 16) (i : Nat) (h0 : i ≠ 6) : (f ||| FLAG_ZF).getLsbD i = f.getLsbD i := by
  have : (FLAG_ZF).getLsbD i = false := by
    by_cases h : i < 16
    · have : ∀ j : Fin 16, j.1 ≠ 6 → (FLAG_ZF).getLsbD j.1 = false := by decide
      exact this ⟨i, h⟩ h0
    · exact BitVec.getLsbD_of_ge _ _ (by omega)
  rw [BitVec.getLsbD_or, this, Bool.or_false]

theorem clr1_bit (f : BitVec 16) (i : Nat) (h0 : i ≠ 0) : (clr f FLAG_CF).getLsbD i = f.getLsbD i := by
  by_cases h : i < 16
  · have : ∀ j : Fin 16, j.1 ≠ 0 → (~~~FLAG_CF).getLsbD j.1 = true := by decide
    rw [clr, BitVec.getLsbD_and, this ⟨i, h⟩ h0, Bool.and_true]
  · rw [BitVec.getLsbD_of_ge _ _ (by omega), BitVec.getLsbD_of_ge _ _ (by omega)]

theorem clr64_bit (f : BitVec 16) (i : Nat) (h0 : i ≠ 6) : (clr f FLAG_ZF).getLsbD i = f.getLsbD i := by
  by_cases h : i < 16
  · have : ∀ j : Fin 16, j.1 ≠ 6 → (~~~FLAG_ZF).getLsbD j.1 = true := by decide
    rw [clr, BitVec.getLsbD_and, this ⟨i, h⟩ h0, Bool.and_true]
  · rw [BitVec.getLsbD_of_ge _ _ (by omega), BitVec.getLsbD_of_ge _ _ (by omega)]

theorem frame_setCF {w : World} {s t : State} (h : ServiceFrame w s t) : ServiceFrame w s (setCF t) :=
  frame_flags h _ (fun i h0 _ => or1_bit _ i h0)
theorem frame_clrCF {w : World} {s t : State} (h : ServiceFrame w s t) : ServiceFrame w s (clrCF t) :=
  frame_flags h _ (fun i h0 _ => clr1_bit _ i h0)

theorem frame_host {w : World} {s t : State} (h : ServiceFrame w s t) (m : Nat → BitVec 8)
    (hm : ∀ a, (a < w.ga ∨ w.ga + 0x110000 ≤ a) → m a = t.host a) : ServiceFrame w s { t with host := m } :=
  h.trans ⟨hm, rfl, rfl, rfl, fun _ _ _ => rfl, fun _ _ => rfl, rfl, fun _ _ _ => rfl, rfl, rfl, rfl, rfl, rfl, rfl, rfl, rfl⟩

theorem frame_gaCopy {w : World} {s t : State} (h : ServiceFrame w s t) {dst n : Nat} (hb : dst + n ≤ 0x110000) (src : Nat → BitVec 8) :
    ServiceFrame w s (gaCopy w t dst n src) :=
  frame_host h _ (fun a ha => if_neg (by omega))

theorem frame_es {w : World} {s t : State} (h : ServiceFrame w s t) (v : BitVec 16) : ServiceFrame w s (t.setSreg .es v) :=
  h.trans ⟨fun _ _ => rfl, rfl, rfl, rfl, fun _ _ _ => rfl, fun _ hr => setSreg_sreg_ne _ _ _ hr, rfl, fun _ _ _ => rfl, rfl, rfl, rfl, rfl, rfl, rfl, rfl, rfl⟩

/-- Case distinction on a conditional. -/
theorem ite_split {α : Type} {c : Prop} [Decidable c] {a b r : α} (h : (if c then a else b) = r) : (c ∧ a = r) ∨ (¬ c ∧ b = r) := by
  by_cases hc : c
  · rw [if_pos hc] at h; exact .inl ⟨hc, h⟩
  · rw [if_neg hc] at h; exact .inr ⟨hc, h⟩

theorem frame_ofScreen {w w' : World} {s t : State} {r : Screen} (h : ofScreen w s r = .ok w' t) : ServiceFrame w s t := by
  simp only [ofScreen] at h
  split at h
  · cases h
  · cases h
    exact frame_host (.refl w s) _ (fun a ha => if_neg (by simp only [MEMSZ]; omega))

theorem frame_hle10 {w w' : World} {s t : State} (h : hle10 w s = .ok w' t) : ServiceFrame w s t := by
  have f0 : free rAX := by unfold free; decide
  have f3 : free rBX := by unfold free; decide
  simp only [hle10] at h
  repeat' (with_reducible have h' := ite_split h; clear h; rcases h' with ⟨_, h⟩ | ⟨_, h⟩)
  all_goals try (cases h; done)
  all_goals first
    | exact frame_ofScreen h
    | (cases h; first
        | exact .refl w s
        | exact frame_setL (.refl w s) f0 _
        | exact frame_setH (.refl w s) f3 _
        | exact frame_setH (frame_setL (.refl w s) f0 _) f0 _
        | exact frame_setL (frame_setL (frame_setH (.refl w s) f0 _) f0 _) f3 _
        | exact frame_gaCopy (.refl w s) (by decide) _)

theorem frame_readDiskLBA {w : World} {s t : State} {disk lba : Int} {count dst k : Nat} (h : readDiskLBA w s disk lba count dst = .ok (k, t)) :
    ServiceFrame w s t := by
  simp only [readDiskLBA] at h
  repeat' split at h
  all_goals try (cases h; done)
  all_goals (cases h; first
    | exact .refl w s
    | exact frame_gaCopy (.refl w s) (by assumption) _)

theorem frame_hle13 {w w' : World} {s t : State} (h : hle13 w s = .ok w' t) : ServiceFrame w s t := by
  have f0 : free rAX := by unfold free; decide
  have f1 : free rCX := by unfold free; decide
  have f2 : free rDX := by unfold free; decide
  have f3 : free rBX := by unfold free; decide
  have f7 : free rDI := by unfold free; decide
  have h2 : hle13read w s = .ok w' t → ServiceFrame w s t := by
    intro h
    simp only [hle13read] at h
    split at h
    · cases h; exact frame_setCF (.refl w s)
    · split at h
      · cases h; exact frame_setCF (frame_setH (.refl w s) f0 _)
      · split at h
        · cases h
        · rename_i he
          have := frame_readDiskLBA he
          split at h
          · cases h; exact frame_setCF (frame_setL this f0 _)
          · cases h; exact frame_clrCF (frame_setH this f0 _)
  have h3 : hle13params w s = .ok w' t → ServiceFrame w s t := by
    intro h
    simp only [hle13params] at h
    split at h
    · cases h; exact frame_setCF (frame_clrCF (.refl w s))
    · cases h
      exact frame_gpr (frame_es (frame_setH (frame_setL (frame_setH (frame_setL (frame_setL (frame_gpr (frame_clrCF (.refl w s)) f0 (by decide) _) f3 _) f1 _) f1 _) f2 _) f2 _) _) f7 (by decide) _
  have h4 : hle13type w s = .ok w' t → ServiceFrame w s t := by
    intro h
    simp only [hle13type] at h
    split at h
    · cases h; exact frame_gpr (frame_gpr (frame_setH (frame_clrCF (.refl w s)) f0 _) f1 (by decide) _) f2 (by decide) _
    · cases h; exact frame_setCF (frame_setH (frame_clrCF (.refl w s)) f0 _)
  have h5 : hle13ext w s = .ok w' t → ServiceFrame w s t := by
    intro h
    simp only [hle13ext] at h
    split at h
    · cases h; exact frame_setH (frame_setCF (.refl w s)) f0 _
    · split at h
      · cases h
      · rename_i he
        cases h
        exact frame_setH (frame_clrCF (frame_readDiskLBA he)) f0 _
  simp only [hle13] at h
  split at h
  · cases h; exact frame_setH (frame_clrCF (.refl w s)) f0 _
  · split at h
    · exact h2 h
    · split at h
      · exact h3 h
      · split at h
        · exact h4 h
        · split at h
          · exact h5 h
          · cases h

theorem frame_hle16 {w w' : World} {s t : State} (h : hle16 w s = .ok w' t) : ServiceFrame w s t := by
  have f0 : free rAX := by unfold free; decide
  have ht : ∀ w1, takeKey w1 s = .ok w' t → ServiceFrame w s t := by
    intro w1 h
    simp only [takeKey] at h
    split at h
    · cases h
    · cases h; exact frame_setL (frame_setH (.refl w s) f0 _) f0 _
  simp only [hle16] at h
  split at h
  · simp only [getKey] at h
    repeat' split at h
    all_goals first | (cases h; done) | exact ht _ h
  · split at h
    · simp only [peekKey] at h
      split at h
      · cases h; exact frame_flags (frame_setL (frame_setH (.refl w s) f0 _) f0 _) _ (fun i _ h6 => clr64_bit _ i h6)
      · cases h; exact frame_flags (.refl w s) _ (fun i _ h6 => or64_bit _ i h6)
    · split at h
      · cases h; exact frame_setL (.refl w s) f0 _
      · cases h

/-- C67: a BIOS service that returns has changed nothing but AX, CX, DX, BX, DI, ES, CF, ZF and guest memory: no other register, not
the stack pointer, not IP, and no byte of host memory outside `gaMemory`. -/
theorem C67_frame {n : BitVec 8} {f : World → State → HOut} (hf : hleCall n = some f) {w w' : World} {s t : State} (h : f w s = .ok w' t) :
    ServiceFrame w s t := by
  have f0 : free rAX := by unfold free; decide
  simp only [hleCall] at hf
  repeat' split at hf
  all_goals (first | (cases hf; done) | skip)
  all_goals cases hf
  all_goals first
    | (cases h; done)
    | exact frame_hle10 h
    | exact frame_hle13 h
    | exact frame_hle16 h
    | (cases h; exact frame_gpr (.refl w s) f0 (by decide) _)

/-! ### INT n -/

/-- C67: in the native tester, INT n with the vector B800:n as `main` sets it up runs service n once, on the machine as it is, and continues
behind the INT with the machine as the service left it: nothing is pushed, and the flags set by the service reach the program. -/
theorem C67_int {s t : State} {h0 : Nat} {p : Pfx} {n : BitVec 8} {len : Nat} {f : World → State → HOut} {w w' : World}
    (hat : At s h0 p [0xCD, n] len) (hv : HleVector s n) (hf : hleCall n = some f) (h : f w s = .ok w' t) (hnz : NotZeroed t h0 len) :
    Falls (nativeEnv w) s len t := by
  have key : ∀ d, (f w { s with dec := d, instrNum := s.instrNum + 1 }).after { s with dec := d, instrNum := s.instrNum + 1 }
      = { t with dec := d, instrNum := s.instrNum + 1 } := by
    intro d
    rw [hleCall_scr hf, h]
    rfl
  have hk : (nativeEnv w).hle n = some (fun x => (f w x).after x) := by
    show (hleCall n).map _ = _
    rw [hf]
    rfl
  have k1 : ∀ x : State, ((f w x).after x).map = x.map ∧ ((f w x).after x).valid = x.valid ∧ ((f w x).after x).dec = x.dec := by
    intro x
    cases hx : f w x with
    | ok w1 u =>
      have hh := C67_frame hf hx
      exact ⟨hh.map, hh.valid, hh.dec⟩
    | exit c => exact ⟨rfl, rfl, rfl⟩
    | blocked => exact ⟨rfl, rfl, rfl⟩
    | ub u => exact ⟨rfl, rfl, rfl⟩
  have k2 : ∀ d, NotZeroed ((f w { s with dec := d, instrNum := s.instrNum + 1 }).after { s with dec := d, instrNum := s.instrNum + 1 }) h0 len := by
    intro d
    rw [key]
    exact hnz
  obtain ⟨d, hd⟩ := C11_int_hle hat (.int n) hv hk k1 k2
  refine ⟨d, ?_⟩
  simp only [key] at hd
  rw [hd, (C67_frame hf h).ip]

/-- C67: an INT n without a service (but with its vector set up) does nothing. -/
theorem C67_int_none {s : State} {h0 : Nat} {p : Pfx} {n : BitVec 8} {len : Nat} {w : World}
    (hat : At s h0 p [0xCD, n] len) (hv : HleVector s n)
    (hn : n ≠ 0x03 ∧ n ≠ 0x10 ∧ n ≠ 0x12 ∧ n ≠ 0x13 ∧ n ≠ 0x16 ∧ n ≠ 0x18 ∧ n ≠ 0x19) :
    Falls (nativeEnv w) s len s := by
  refine C11_int_hle_none hat (.int n) hv ?_
  show (hleCall n).map _ = _
  obtain ⟨a, b, c, d, e, g, i⟩ := hn
  rw [hleCall, if_neg a, if_neg b, if_neg c, if_neg d, if_neg e, if_neg g, if_neg i]
  rfl

end RME.Native
