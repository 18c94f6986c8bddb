import Verif.Model.Trace
import Verif.Spec.Trace
import Verif.Props.Sequential
set_option autoImplicit false
/-
C89: the debug trace and the register dump.
-/
namespace RME
open RME.Trace

theorem digit16 : ∀ n < 16, digitOf (hexDigit n) = some n := by decide

theorem valueOf_append (b : Nat) (xs : List Char) (c : Char) (v d : Nat) (h : valueOf b xs = some v) (hd : digitOf c = some d) (hb : d < b) :
    valueOf b (xs ++ [c]) = some (v * b + d) := by
  unfold valueOf at *
  rw [List.foldl_append, h]
  simp [hd, hb]

theorem hexDigits_ne (f n : Nat) (hf : 0 < f) : hexDigits f n ≠ [] := by
  cases f with
  | zero => omega
  | succ f => unfold hexDigits; split <;> simp

theorem hexDigits_value : ∀ f n, n < 16 ^ f → 0 < f → valueOf 16 (hexDigits f n) = some n := by
  intro f
  induction f with
  | zero => intro n _ h; omega
  | succ f ih =>
    intro n h _
    unfold hexDigits
    split
    · rename_i h1
      have := digit16 n h1
      simp [valueOf, this, h1]
    · rename_i h1
      have hf : 0 < f := by
        rcases Nat.eq_zero_or_pos f with rfl | h2
        · simp at h; omega
        · exact h2
      have := ih (n / 16) (by rw [Nat.pow_succ] at h; omega) hf
      rw [valueOf_append 16 _ _ _ _ this (digit16 (n % 16) (by omega)) (by omega)]
      congr 1; omega

theorem decDigits_value : ∀ f n, n < 10 ^ f → 0 < f → valueOf 10 (decDigits f n) = some n := by
  intro f
  induction f with
  | zero => intro n _ h; omega
  | succ f ih =>
    intro n h _
    unfold decDigits
    split
    · rename_i h1
      have := digit16 n (by omega)
      simp [valueOf, this, h1]
    · rename_i h1
      have hf : 0 < f := by
        rcases Nat.eq_zero_or_pos f with rfl | h2
        · simp at h; omega
        · exact h2
      have := ih (n / 10) (by rw [Nat.pow_succ] at h; omega) hf
      rw [valueOf_append 10 _ _ _ _ this (digit16 (n % 10) (by omega)) (by omega)]
      congr 1; omega

theorem decDigits_ne (f n : Nat) (hf : 0 < f) : decDigits f n ≠ [] := by
  cases f with
  | zero => omega
  | succ f => unfold decDigits; split <;> simp

theorem hexDigits_len : ∀ w f n, n < 16 ^ w → 0 < w → (hexDigits f n).length ≤ w := by
  intro w
  induction w with
  | zero => intro f n _ h; omega
  | succ w ih =>
    intro f n h _
    cases f with
    | zero => simp [hexDigits]
    | succ f =>
      unfold hexDigits
      split
      · simp
      · rename_i h1
        have hw : 0 < w := by
          rcases Nat.eq_zero_or_pos w with rfl | h2
          · simp at h; omega
          · exact h2
        have := ih f (n / 16) (by rw [Nat.pow_succ] at h; omega) hw
        simp; omega

theorem valueOf_zeros (k : Nat) (xs : List Char) : valueOf 16 (List.replicate k '0' ++ xs) = valueOf 16 xs := by
  have : valueOf 16 (List.replicate k '0') = some 0 := by
    induction k with
    | zero => rfl
    | succ k ih =>
      rw [List.replicate_succ']
      have := valueOf_append 16 _ '0' 0 0 ih (by decide) (by decide)
      exact this
  unfold valueOf at *
  rw [List.foldl_append, this]

theorem hexPad_field {w n : Nat} (h : n < 16 ^ w) (h0 : 0 < w) (h8 : w ≤ 8) : HexField w (hexPad w n) n := by
  have hl := hexDigits_len w 8 n h h0
  refine ⟨?_, ?_⟩
  · simp only [hexPad, hexText, List.length_append, List.length_replicate]; omega
  · rw [hexPad, valueOf_zeros]
    exact hexDigits_value 8 n (Nat.lt_of_lt_of_le h (Nat.pow_le_pow_right (by decide) h8)) (by decide)

theorem hexPad32 (v : BitVec 32) : HexField 8 (hexPad 8 v.toNat) v.toNat := hexPad_field (by have := v.isLt; omega) (by decide) (by decide)
theorem hexPad16 (v : BitVec 16) : HexField 4 (hexPad 4 v.toNat) v.toNat := hexPad_field (by have := v.isLt; omega) (by decide) (by decide)
theorem hexPad08 (v : BitVec 8) : HexField 2 (hexPad 2 v.toNat) v.toNat := hexPad_field (by have := v.isLt; omega) (by decide) (by decide)

theorem intPad8_field {n : Int} (h0 : 0 ≤ n) (h : n ≤ 2147483647) : DecField (intPad8 n) n.toNat :=
  ⟨_, _, rfl, decDigits_ne _ _ (by decide), decDigits_value 10 _ (by omega) (by decide)⟩

theorem flagName_eq (f : BitVec 16) (k : Nat) (name : String) (hk : k < 16) :
    flagName f (1#16 <<< k) (name) = if f.getLsbD k then name.toList else [] := by
  have : f &&& (1#16 <<< k) ≠ 0 ↔ f.getLsbD k = true := by
    constructor
    · intro h
      rw [← Bool.not_eq_false]
      intro h1
      apply h
      ext i hi
      simp only [BitVec.getElem_and, BitVec.getElem_shiftLeft, BitVec.getElem_one]
      by_cases hik : i = k
      · subst hik; rw [← BitVec.getLsbD_eq_getElem, h1]; simp
      · have : ¬ (i - k = 0 ∧ ¬ i < k) := by omega
        simp; intro _ h2 h3; omega
    · intro h h1
      have := congrArg (·.getLsbD k) h1
      rw [BitVec.getLsbD_eq_getElem hk] at h
      simp [h, hk] at this
  unfold flagName
  by_cases h : f.getLsbD k = true
  · rw [if_pos h, if_pos (this.2 h)]
  · rw [if_neg h, if_neg (fun h1 => h (this.1 h1))]

theorem flagText_eq (f : BitVec 16) : flagText f = flagName f FLAG_OF " OF" ++ flagName f FLAG_DF " DF" ++ flagName f FLAG_IF " IF" ++ flagName f FLAG_TF " TF" ++
    flagName f FLAG_SF " SF" ++ flagName f FLAG_ZF " ZF" ++ flagName f FLAG_AF " AF" ++ flagName f FLAG_PF " PF" ++
    flagName f FLAG_CF " CF" := by
  have e := fun (k : Nat) (hk : k < 16) (n : String) => flagName_eq f k n hk
  rw [show FLAG_OF = 1#16 <<< 11 from rfl, show FLAG_DF = 1#16 <<< 10 from rfl, show FLAG_IF = 1#16 <<< 9 from rfl, show FLAG_TF = 1#16 <<< 8 from rfl,
    show FLAG_SF = 1#16 <<< 7 from rfl, show FLAG_ZF = 1#16 <<< 6 from rfl, show FLAG_AF = 1#16 <<< 4 from rfl, show FLAG_PF = 1#16 <<< 2 from rfl,
    show FLAG_CF = 1#16 <<< 0 from rfl, e _ (by decide), e _ (by decide), e _ (by decide), e _ (by decide), e _ (by decide), e _ (by decide),
    e _ (by decide), e _ (by decide), e _ (by decide)]
  have g : ∀ a : List (String × Nat), (a.filter fun x => f.getLsbD x.2).flatMap (fun x => ' ' :: x.1.toList) =
      a.flatMap fun x => if f.getLsbD x.2 then ' ' :: x.1.toList else [] := by
    intro a
    induction a with
    | nil => rfl
    | cons x xs ih => by_cases hx : f.getLsbD x.2 = true <;> simp [hx, ih]
  rw [flagText, g]
  simp [flagBits]

/-- C89: the register dump is the text a reader expects: every field of digits has the width and the value of the register whose name stands
before it, and after FLAGS come the names of exactly the flags that are set. -/
theorem C89_dump_regs (s : State) :
    ∃ (d : BitVec 3 → List Char) (ss ds es cs ip fl : List Char),
      (∀ r, HexField 8 (d r) (s.gpr r).toNat) ∧ HexField 4 ss (s.sreg .ss).toNat ∧ HexField 4 ds (s.sreg .ds).toNat ∧
      HexField 4 es (s.sreg .es).toNat ∧ HexField 4 cs (s.sreg .cs).toNat ∧ HexField 4 ip s.ip.toNat ∧ HexField 4 fl s.flags.toNat ∧
      dumpRegs s = "\nEAX ".toList ++ d 0 ++ "  ECX ".toList ++ d 1 ++ "  EDX ".toList ++ d 2 ++ "  EBX ".toList ++ d 3 ++
        "\nESP ".toList ++ d 4 ++ "  EBP ".toList ++ d 5 ++ "  ESI ".toList ++ d 6 ++ "  EDI ".toList ++ d 7 ++
        "\nSS ".toList ++ ss ++ "  DS ".toList ++ ds ++ "  ES ".toList ++ es ++ "\nCS:IP = 0x".toList ++ cs ++ ":".toList ++ ip ++
        "\nFlags = ".toList ++ fl ++ flagText s.flags ++ "\n".toList := by
  have h32 : ∀ r, HexField 8 (hexPad 8 (s.gpr r).toNat) (s.gpr r).toNat := fun r => hexPad32 (s.gpr r)
  have h16 : ∀ v : BitVec 16, HexField 4 (hexPad 4 v.toNat) v.toNat := hexPad16
  unfold dumpRegs
  rw [flagText_eq]
  have e1 : "\nEAX ".toList = "\n".toList ++ "EAX ".toList := by decide
  have e2 : "\nESP ".toList = "\n".toList ++ "ESP ".toList := by decide
  have e3 : "\nSS ".toList = "\n".toList ++ "SS ".toList := by decide
  have e4 : "\nCS:IP = 0x".toList = "\n".toList ++ "CS:IP = 0x".toList := by decide
  have e5 : "\nFlags = ".toList = "\n".toList ++ "Flags = ".toList := by decide
  rw [e1, e2, e3, e4, e5]
  generalize hd : (fun r => hexPad 8 (s.gpr r).toNat) = d
  have hdr : ∀ r, hexPad 8 (s.gpr r).toNat = d r := fun r => by rw [← hd]
  generalize hw : (fun v : BitVec 16 => hexPad 4 v.toNat) = w
  have hwr : ∀ v : BitVec 16, hexPad 4 v.toNat = w v := fun r => by rw [← hw]
  simp only [hdr, hwr] at h32 h16 ⊢
  exact ⟨d, w (s.sreg .ss), w (s.sreg .ds), w (s.sreg .es), w (s.sreg .cs), w s.ip, w s.flags, h32, h16 _, h16 _, h16 _, h16 _, h16 _, h16 _, by
    simp only [List.append_assoc]⟩

/-- Fields of equal width between the same texts. -/
theorem fields_inj {l x y a b : List Char} (hx : x.length = y.length) (h : l ++ (x ++ a) = l ++ (y ++ b)) : x = y ∧ a = b :=
  List.append_inj (List.append_cancel_left h) hx

theorem dump_inj (l : Nat → List Char) (d d' : BitVec 3 → List Char) (w w' : Nat → List Char) (z z' : List Char)
    (hd : ∀ r, (d r).length = (d' r).length) (hw : ∀ i, (w i).length = (w' i).length)
    (h : l 0 ++ (d 0 ++ (l 1 ++ (d 1 ++ (l 2 ++ (d 2 ++ (l 3 ++ (d 3 ++ (l 4 ++ (d 4 ++ (l 5 ++ (d 5 ++ (l 6 ++ (d 6 ++ (l 7 ++ (d 7 ++
        (l 8 ++ (w 0 ++ (l 9 ++ (w 1 ++ (l 10 ++ (w 2 ++ (l 11 ++ (w 3 ++ (l 12 ++ (w 4 ++ (l 13 ++ (w 5 ++ z))))))))))))))))))))))))))) =
      l 0 ++ (d' 0 ++ (l 1 ++ (d' 1 ++ (l 2 ++ (d' 2 ++ (l 3 ++ (d' 3 ++ (l 4 ++ (d' 4 ++ (l 5 ++ (d' 5 ++ (l 6 ++ (d' 6 ++ (l 7 ++ (d' 7 ++
        (l 8 ++ (w' 0 ++ (l 9 ++ (w' 1 ++ (l 10 ++ (w' 2 ++ (l 11 ++ (w' 3 ++ (l 12 ++ (w' 4 ++ (l 13 ++ (w' 5 ++ z')))))))))))))))))))))))))))) :
    (∀ r, d r = d' r) ∧ w 0 = w' 0 ∧ w 1 = w' 1 ∧ w 2 = w' 2 ∧ w 3 = w' 3 ∧ w 4 = w' 4 ∧ w 5 = w' 5 := by
  obtain ⟨r0, h⟩ := fields_inj (hd _) h
  obtain ⟨r1, h⟩ := fields_inj (hd _) h
  obtain ⟨r2, h⟩ := fields_inj (hd _) h
  obtain ⟨r3, h⟩ := fields_inj (hd _) h
  obtain ⟨r4, h⟩ := fields_inj (hd _) h
  obtain ⟨r5, h⟩ := fields_inj (hd _) h
  obtain ⟨r6, h⟩ := fields_inj (hd _) h
  obtain ⟨r7, h⟩ := fields_inj (hd _) h
  obtain ⟨s0, h⟩ := fields_inj (hw _) h
  obtain ⟨s1, h⟩ := fields_inj (hw _) h
  obtain ⟨s2, h⟩ := fields_inj (hw _) h
  obtain ⟨s3, h⟩ := fields_inj (hw _) h
  obtain ⟨s4, h⟩ := fields_inj (hw _) h
  obtain ⟨s5, h⟩ := fields_inj (hw _) h
  refine ⟨fun r => ?_, s0, s1, s2, s3, s4, s5⟩
  have hr : r = 0 ∨ r = 1 ∨ r = 2 ∨ r = 3 ∨ r = 4 ∨ r = 5 ∨ r = 6 ∨ r = 7 := by revert r; decide
  rcases hr with rfl | rfl | rfl | rfl | rfl | rfl | rfl | rfl <;> assumption

theorem HexField.inj {w : Nat} {cs : List Char} {m n : Nat} (h : HexField w cs m) (h' : HexField w cs n) : m = n := by
  have := h.2
  rw [h'.2] at this
  exact (Option.some.inj this).symm

/-- literal texts of the dump -/
def dumpLits : List (List Char) :=
  ["\nEAX ".toList, "  ECX ".toList, "  EDX ".toList, "  EBX ".toList, "\nESP ".toList, "  EBP ".toList, "  ESI ".toList, "  EDI ".toList, "\nSS ".toList,
    "  DS ".toList, "  ES ".toList, "\nCS:IP = 0x".toList, ":".toList, "\nFlags = ".toList]

/-- C89: two machines print the same register dump exactly when they agree on the eight general registers, SS, DS, ES, CS, IP and FLAGS.
Partial: FS and GS are not in the dump (`C89_violated_fs_gs`). -/
theorem C89_dump_complete_partial (s t : State) :
    dumpRegs s = dumpRegs t ↔ (∀ r, s.gpr r = t.gpr r) ∧ s.sreg .ss = t.sreg .ss ∧ s.sreg .ds = t.sreg .ds ∧ s.sreg .es = t.sreg .es ∧
      s.sreg .cs = t.sreg .cs ∧ s.ip = t.ip ∧ s.flags = t.flags := by
  constructor
  · intro h
    obtain ⟨d, ss, ds, es, cs, ip, fl, hd, h1, h2, h3, h4, h5, h6, e⟩ := C89_dump_regs s
    obtain ⟨d', ss', ds', es', cs', ip', fl', hd', h1', h2', h3', h4', h5', h6', e'⟩ := C89_dump_regs t
    rw [e, e'] at h
    simp only [List.append_assoc] at h
    obtain ⟨k0, k1, k2, k3, k4, k5, k6⟩ := dump_inj (fun i => dumpLits.getD i []) d d' (fun i => [ss, ds, es, cs, ip, fl].getD i []) (fun i => [ss', ds', es', cs', ip', fl'].getD i [])
      _ _ (fun r => (hd r).1.trans (hd' r).1.symm)
      (fun i => by
        match i with
        | 0 => exact h1.1.trans h1'.1.symm
        | 1 => exact h2.1.trans h2'.1.symm
        | 2 => exact h3.1.trans h3'.1.symm
        | 3 => exact h4.1.trans h4'.1.symm
        | 4 => exact h5.1.trans h5'.1.symm
        | 5 => exact h6.1.trans h6'.1.symm
        | n + 6 => rfl) h
    have k1 : ss = ss' := k1
    have k2 : ds = ds' := k2
    have k3 : es = es' := k3
    have k4 : cs = cs' := k4
    have k5 : ip = ip' := k5
    have k6 : fl = fl' := k6
    subst k1 k2 k3 k4 k5 k6
    exact ⟨fun r => BitVec.eq_of_toNat_eq ((k0 r ▸ hd r : HexField 8 (d' r) _).inj (hd' r)), BitVec.eq_of_toNat_eq (h1.inj h1'), BitVec.eq_of_toNat_eq (h2.inj h2'),
      BitVec.eq_of_toNat_eq (h3.inj h3'), BitVec.eq_of_toNat_eq (h4.inj h4'), BitVec.eq_of_toNat_eq (h5.inj h5'), BitVec.eq_of_toNat_eq (h6.inj h6')⟩
  · rintro ⟨h1, h2, h3, h4, h5, h6, h7⟩
    unfold dumpRegs
    simp only [h1, h2, h3, h4, h5, h6, h7]

/-- A machine with distinct register contents. -/
def demoRegs : State := { demo [0x90] with flags := 0x0843 }
example : dumpRegs { demoRegs with gpr := fun r => 0x01ABCDEF + r.setWidth 32 } =
    ("\nEAX 01abcdef  ECX 01abcdf0  EDX 01abcdf1  EBX 01abcdf2\nESP 01abcdf3  EBP 01abcdf4  ESI 01abcdf5  EDI 01abcdf6\n" ++
    "SS 2000  DS 3000  ES 4000\nCS:IP = 0x1000:0100\nFlags = 0843 OF ZF CF\n").toList := by decide +kernel

/-- C89 is violated: FS and GS are not shown. -/
theorem C89_violated_fs_gs : ∃ s t : State, s.sreg .fs ≠ t.sreg .fs ∧ s.sreg .gs ≠ t.sreg .gs ∧ dumpRegs s = dumpRegs t :=
  ⟨(demoRegs.setSreg .fs 1).setSreg .gs 2, (demoRegs.setSreg .fs 3).setSreg .gs 4, by decide, by decide,
    (C89_dump_complete_partial _ _).2 ⟨fun _ => rfl, rfl, rfl, rfl, rfl, rfl, rfl⟩⟩

/-! ### The trace line -/

theorem traceBytes_erase (cs : BitVec 16) (env : Env) : ∀ j i s, (traceBytes cs j i env s).bind (fun _ t => .ok () t) = dumpLoop cs j i env s := by
  intro j
  induction j with
  | zero => intro i s; rfl
  | succ j ih =>
    intro i s
    simp only [traceBytes, dumpLoop, bind_apply]
    cases h : readMem 8 cs i env s with
    | ok v t =>
      simp only [resbind_ok]
      rw [← ih]
      cases h2 : traceBytes cs j (i + 1) env t <;> rfl
    | err e t => rfl
    | ub u => rfl

/-- C89: the traced instruction is the instruction: `doOpcodeText` has the outcome of `doOpcode` in every state, with the text added. -/
theorem C89_text_of_step (mid : List Char) (env : Env) (s : State) :
    (doOpcodeText mid env s).bind (fun _ t => .ok () t) = doOpcode env s := by
  simp only [doOpcodeText, doOpcode, bind_apply, getIP_apply, getSreg_apply, resbind_ok, startInstr]
  split
  · rfl
  simp only [resbind_ok, gets_apply]
  generalize (if s.debugLevel > 0 then _ else [] : List Char) = head
  generalize ({ s with dec := decReset, instrNum := s.instrNum + 1 } : State) = q
  cases h : decodeLoop 6 env q with
  | err e t => rfl
  | ub u => rfl
  | ok u t =>
    simp only [resbind_ok, finishInstr, bind_apply]
    cases h1 : advanceIP env t with
    | err e t => rfl
    | ub u => rfl
    | ok _ t1 =>
      simp only [resbind_ok]
      cases h2 : nullCheckTail (s.sreg .cs) s.ip env t1 with
      | err e t => rfl
      | ub u => rfl
      | ok _ t2 =>
        simp only [resbind_ok, debugTail, bind_apply, gets_apply, ite_apply]
        split
        · simp only [getDec_apply, resbind_ok]
          rw [← traceBytes_erase]
          cases h3 : traceBytes (s.sreg .cs) t2.dec.ipOffset s.ip env t2 <;> rfl
        · rfl

theorem traceBytes_inv (cs : BitVec 16) (env : Env) : ∀ j i s x t, traceBytes cs j i env s = .ok x t →
    t = s ∧ ∃ bs : List (BitVec 8), bs.length = j ∧ x = bs.flatMap (fun b => ' ' :: hexPad 2 b.toNat) ∧
      ∀ k, (hk : k < bs.length) → ∃ h, hostAddr s cs (i + BitVec.ofNat 16 k) = some h ∧ s.valid h = true ∧ s.host h = bs[k] := by
  intro j
  induction j with
  | zero => intro i s x t h; cases h; exact ⟨rfl, [], rfl, rfl, fun k hk => absurd hk (by simp)⟩
  | succ j ih =>
    intro i s x t h
    simp only [traceBytes, bind_apply] at h
    cases h1 : readMem 8 cs i env s with
    | err e w => rw [h1] at h; cases h
    | ub w => rw [h1] at h; cases h
    | ok v w =>
      rw [h1] at h
      obtain ⟨rfl, hv⟩ := readMem_inv (by decide) h1
      simp only [resbind_ok] at h
      cases h2 : traceBytes cs j (i + 1) env w with
      | err e w => rw [h2] at h; cases h
      | ub w => rw [h2] at h; cases h
      | ok y u =>
        rw [h2] at h
        cases h
        obtain ⟨rfl, bs, hl, rfl, hb⟩ := ih _ _ _ _ h2
        refine ⟨rfl, v :: bs, by simp [hl], by simp, ?_⟩
        intro k hk
        cases k with
        | zero =>
          obtain ⟨h, ⟨hm, hva⟩, hh⟩ := hv
          refine ⟨h, by simpa using hm, hva 0 (by decide), ?_⟩
          have := hh 0 (by decide)
          simpa [byteOf] using this
        | succ k =>
          obtain ⟨h, h3, h4, h5⟩ := hb k (by simpa using hk)
          refine ⟨h, ?_, h4, by simpa using h5⟩
          rw [← h3]; congr 1
          apply BitVec.eq_of_toNat_eq; simp; omega

/-- What a reader of the trace line sees: the running number of the instruction, its linear address, CS:IP, `mid` and the bytes `bs`. -/
def TraceLine (text mid : List Char) (num : Nat) (cs ip : BitVec 16) (bs : List (BitVec 8)) : Prop :=
  ∃ (n l c i : List Char) (cols : List (List Char)), DecField n num ∧ (∃ w, HexField w l (linear cs ip)) ∧ HexField 4 c cs.toNat ∧ HexField 4 i ip.toNat ∧
    cols.length = bs.length ∧ (∀ k, (hk : k < bs.length) → ∃ x, cols[k]? = some x ∧ HexField 2 x bs[k].toNat) ∧
    text = "(".toList ++ n ++ ") [0x".toList ++ l ++ "] ".toList ++ c ++ ":".toList ++ i ++ mid ++ "\t;".toList ++ cols.flatMap (fun x => ' ' :: x) ++ "\n".toList

theorem traceHead_line (s : State) (mid : List Char) (bs : List (BitVec 8)) (h0 : 0 ≤ s.instrNum) (h1 : s.instrNum ≤ 2147483647) :
    TraceLine (traceHead s ++ mid ++ "\t;".toList ++ bs.flatMap (fun b => ' ' :: hexPad 2 b.toNat) ++ "\n".toList) mid s.instrNum.toNat (s.sreg .cs) s.ip bs := by
  refine ⟨_, _, _, _, bs.map fun b => hexPad 2 b.toNat, intPad8_field h0 h1, ⟨_, rfl, hexDigits_value 8 _ ?_ (by decide)⟩, hexPad16 (s.sreg .cs), hexPad16 s.ip, by simp, ?_, ?_⟩
  · have := (s.sreg .cs).isLt; have := s.ip.isLt; simp only [linear]; omega
  · intro k hk
    exact ⟨_, by simp [hk], hexPad08 _⟩
  · rw [List.flatMap_map]
    rfl

/-- C89: at debug level 1 and above, every instruction that runs to its end prints one line with its running number, its address and, as far as it is
not a control transfer, exactly as many bytes as it is long: the bytes that are in memory at its address when it has been executed.
Partial: these are not the executed bytes if the instruction has overwritten itself (`C89_violated_self_modifying`); the length is stated for
instructions that are not control transfers and not PUSH imm with prefix 66; the disassembly text `mid` is not modelled. -/
theorem C89_trace_line_partial {env : Env} {s t : State} {mid text : List Char} {p : Pfx} {two : Bool} {op : BitVec 8} {r : BitVec 3} {n : Nat}
    (hr : Ready s) (h0 : 0 ≤ s.instrNum) (hm : s.instrNum < 2147483647) (hl : 1 ≤ s.debugLevel) (hl' : 1 ≤ t.debugLevel)
    (hi : InstrAt s p two op r n) (ht : isTransfer two op r = false) (h68 : ¬ (two = false ∧ op = 0x68 ∧ p.oper = true))
    (h : doOpcodeText mid env s = .ok text t) :
    ∃ bs, bs.length = n ∧ TraceLine text mid (s.instrNum.toNat + 1) (s.sreg .cs) s.ip bs ∧
      ∀ k, (hk : k < bs.length) → ∃ a, hostAddr t (s.sreg .cs) (s.ip + BitVec.ofNat 16 k) = some a ∧ t.valid a = true ∧ t.host a = bs[k] := by
  have hs := decodeLoop_shape noCont env s 6 [] {} rfl (by intro i hi; simp at hi) (by simp)
  simp only [List.length_nil] at hs
  simp only [doOpcodeText, bind_apply, getIP_apply, getSreg_apply, resbind_ok, startInstr, INT_MAX] at h
  rw [if_neg hr.counter] at h
  simp only [resbind_ok, gets_apply] at h
  rw [if_pos (show s.debugLevel > 0 by omega)] at h
  generalize hhead : traceHead _ = head at h
  have e1 : ({ s with dec := decReset, instrNum := s.instrNum + 1 } : State) = opState s {} 0 := rfl
  rw [e1] at h
  cases hd : decodeLoop 6 env (opState s {} 0) with
  | err e t => rw [hd] at h; cases h
  | ub u => rw [hd] at h; cases h
  | ok u1 u =>
  rw [hd] at h hs
  have hlen : u.dec.ipOffset = n := by
    generalize hq : (Res.ok u1 u : Res Unit) = q at hs
    cases hs with
    | ub hu hb => cases hq
    | badmem => cases hq
    | brk => cases hq
    | undef => cases hq
    | undefF => cases hq
    | @op p' k o a hd hn =>
      obtain ⟨hc, _⟩ := transfer_table hd hn hi ht
      have hl := opFn_len (s := s) (p := p') (k := k) o a hc hn env (opState s p' k) u1 u ⟨rfl, rfl, rfl, rfl, rfl, rfl⟩ hq.symm
      exact form_table hd hn hi h68 hc hl
  simp only [resbind_ok] at h
  cases h1 : advanceIP env u with
  | err e t => rw [h1] at h; cases h
  | ub u => rw [h1] at h; cases h
  | ok _ t1 =>
  rw [h1] at h
  simp only [resbind_ok] at h
  cases h2 : nullCheckTail (s.sreg .cs) s.ip env t1 with
  | err e t => rw [h2] at h; cases h
  | ub u => rw [h2] at h; cases h
  | ok _ t2 =>
  rw [h2] at h
  simp only [resbind_ok, ite_apply, bind_apply, getDec_apply] at h
  have e3 : t2.dec = u.dec := by
    obtain ⟨b, rfl⟩ := nullCheckTail_keeps h2
    simp only [advanceIP, bind_apply, getDec_apply, resbind_ok, ite_apply] at h1
    split at h1 <;> cases h1 <;> rfl
  split at h
  · cases h3 : traceBytes (s.sreg .cs) t2.dec.ipOffset s.ip env t2 with
    | err e t => rw [h3] at h; cases h
    | ub u => rw [h3] at h; cases h
    | ok x v =>
      rw [h3] at h
      cases h
      obtain ⟨rfl, bs, hbl, rfl, hb⟩ := traceBytes_inv _ _ _ _ _ _ _ h3
      refine ⟨bs, by rw [hbl, e3, hlen], ?_, hb⟩
      have := traceHead_line { s with dec := decReset, instrNum := s.instrNum + 1 } mid bs (by show 0 ≤ s.instrNum + 1; omega) (by show s.instrNum + 1 ≤ _; omega)
      rw [hhead] at this
      have e4 : (s.instrNum + 1).toNat = s.instrNum.toNat + 1 := by omega
      rw [← e4]
      exact this
  · rename_i h4
    cases h
    exact absurd hl' (by omega)

/-- C89: if the instruction leaves its own bytes (and the memory map) alone, the bytes shown are the bytes executed. -/
theorem C89_trace_bytes_partial {env : Env} {s t : State} {mid text : List Char} {p : Pfx} {two : Bool} {op : BitVec 8} {r : BitVec 3} {n : Nat}
    (hr : Ready s) (h0 : 0 ≤ s.instrNum) (hm : s.instrNum < 2147483647) (hl : 1 ≤ s.debugLevel) (hl' : 1 ≤ t.debugLevel)
    (hi : InstrAt s p two op r n) (ht : isTransfer two op r = false) (h68 : ¬ (two = false ∧ op = 0x68 ∧ p.oper = true))
    (hmap : t.map = s.map) (hval : t.valid = s.valid)
    (hkeep : ∀ k < n, ∀ a, hostAddr s (s.sreg .cs) (s.ip + BitVec.ofNat 16 k) = some a → t.host a = s.host a)
    (h : doOpcodeText mid env s = .ok text t) :
    ∃ bs, bs.length = n ∧ BytesAt s bs ∧ TraceLine text mid (s.instrNum.toNat + 1) (s.sreg .cs) s.ip bs := by
  obtain ⟨bs, h1, h2, h3⟩ := C89_trace_line_partial hr h0 hm hl hl' hi ht h68 h
  refine ⟨bs, h1, fun k hk => ?_, h2⟩
  obtain ⟨a, h4, h5, h6⟩ := h3 k hk
  have h4 : hostAddr s (s.sreg .cs) (s.ip + BitVec.ofNat 16 k) = some a := by rw [← h4]; simp only [hostAddr, hmap]
  exact ⟨a, h4, by rw [← hval]; exact h5, by rw [← hkeep k (by omega) a h4]; exact h6⟩

/-- Text of the trace line, if the instruction ends without error. -/
def traceText (env : Env) (mid : List Char) (s : State) : Option (List Char) :=
  match doOpcodeText mid env s with
  | .ok x _ => some x
  | _ => none

example : traceText demoEnv " ADD (MR) AL BL".toList { demo [0x00, 0xD8] with debugLevel := 1, instrNum := 41 } =
    some "(      42) [0x10100] 1000:0100 ADD (MR) AL BL\t; 00 d8\n".toList := by decide +kernel
example : InstrAt { demo [0x00, 0xD8] with debugLevel := 1 } {} false 0x00 3 2 := by
  have hb : BytesAt { demo [0x00, 0xD8] with debugLevel := 1 } ([] ++ [0x00]) := by
    intro i hi
    have : i = 0 := by simp at hi; omega
    subst this
    exact ⟨0x10100, by decide, by decide, rfl⟩
  exact .rm (p := {}) (n := 1) rfl hb (by decide) (by decide) (by decide)
    ⟨0xD8, 0, ⟨0x10101, by decide, by decide, by decide⟩, by decide, fun h => absurd h (by decide), by decide⟩
example : traceText demoEnv [] (demo [0x00, 0xD8]) = some [] := by decide +kernel

/-- C89 is violated: the bytes are read again after the instruction has run.  `MOV byte CS:[0100],90h` at 1000:0100 (2E C6 06 00 01 90)
is shown as 90 C6 06 00 01 90. -/
theorem C89_violated_self_modifying : BytesAt { demo [0x2E, 0xC6, 0x06, 0x00, 0x01, 0x90] with debugLevel := 1 } [0x2E, 0xC6, 0x06, 0x00, 0x01, 0x90] ∧
    traceText demoEnv " MOV".toList { demo [0x2E, 0xC6, 0x06, 0x00, 0x01, 0x90] with debugLevel := 1 } =
      some "(       1) [0x10100] 1000:0100 MOV\t; 90 c6 06 00 01 90\n".toList := by
  refine ⟨?_, by decide +kernel⟩
  intro i hi
  refine ⟨0x10100 + i, ?_⟩
  simp only [List.length_cons, List.length_nil] at hi
  have : i = 0 ∨ i = 1 ∨ i = 2 ∨ i = 3 ∨ i = 4 ∨ i = 5 := by omega
  rcases this with rfl | rfl | rfl | rfl | rfl | rfl <;> exact ⟨by decide, by decide, rfl⟩

end RME
